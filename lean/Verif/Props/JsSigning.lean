import Verif.Model.JsSigning
import Verif.Props.ClientJs
/-!
# C193, C194: the signatures that the JavaScript client makes, and the key versions it reads
-/

set_option linter.unusedSimpArgs false

namespace FcRetrieval.Js
open FcRetrieval.Crypto (Prims KeyPair KeyVersion Correct Binding)

theorem ofNat_mod (n : Nat) : UInt8.ofNat (n % 256) = UInt8.ofNat n := by
  apply UInt8.toNat.inj
  simp

/-- **C193 (partial)**, writing: the four bytes are those that Go writes, and Go reads the version from them. -/
theorem C193_written_partial (v : KeyVersion) :
    encodeKeyVersion v.toNat = Crypto.encodeKeyVersionAsBytes v ∧ Crypto.decodeKeyVersionFromBytes (encodeKeyVersion v.toNat) = some v := by
  have h : encodeKeyVersion v.toNat = Crypto.encodeKeyVersionAsBytes v := by
    unfold encodeKeyVersion Crypto.encodeKeyVersionAsBytes be32
    have e : ∀ a : Nat, ((v.toNat : Int) / (a : Int) % 256).toNat = v.toNat / a % 256 := by
      intro a
      rw [show (256 : Int) = ((256 : Nat) : Int) from rfl, ← Int.natCast_ediv, ← Int.natCast_emod, Int.toNat_natCast]
    have e1 : ((v.toNat : Int) / 16777216 % 256).toNat = v.toNat / 16777216 % 256 := e 16777216
    have e2 : ((v.toNat : Int) / 65536 % 256).toNat = v.toNat / 65536 % 256 := e 65536
    have e3 : ((v.toNat : Int) / 256 % 256).toNat = v.toNat / 256 % 256 := e 256
    have e4 : ((v.toNat : Int) % 256).toNat = v.toNat % 256 := by omega
    rw [e1, e2, e3, e4, ofNat_mod, ofNat_mod, ofNat_mod, ofNat_mod]
  refine ⟨h, ?_⟩
  rw [h]
  have := Crypto.decode_be32 v []
  rwa [List.append_nil] at this

theorem trim_cons {c : Char} (h : isSpace c = false) (s : List Char) : ∃ t, trim (c :: s) = c :: t := by
  unfold trim
  rw [List.dropWhile_cons_of_neg (by simp [h]), List.reverse_cons]
  have : ∀ l : List Char, ∃ t, (l ++ [c]).dropWhile isSpace = t ++ [c] := by
    intro l
    induction l with
    | nil => exact ⟨[], by rw [List.nil_append, List.dropWhile_cons_of_neg (by simp [h])]⟩
    | cons x l ih =>
      by_cases hx : isSpace x = true
      · obtain ⟨t, ht⟩ := ih
        exact ⟨t, by rw [List.cons_append, List.dropWhile_cons_of_pos hx, ht]⟩
      · exact ⟨x :: l, by rw [List.cons_append, List.dropWhile_cons_of_neg hx]⟩
  obtain ⟨t, ht⟩ := this s.reverse
  exact ⟨t.reverse, by rw [ht, List.reverse_append]; rfl⟩

/-- A text that starts with a character below the horizontal tab is no number. -/
theorem toNumber_nan {c : Char} (h : c.toNat < 9) (s : List Char) : toNumber (c :: s) = .nan := by
  have hs : isSpace c = false := by
    unfold isSpace
    simp
    omega
  have hd : isDec c = false := by
    unfold isDec
    have : ¬ '0' ≤ c := by
      intro hle
      have : ('0' : Char).toNat ≤ c.toNat := hle
      simp at this
      omega
    simp [this]
  have hne : ∀ d : Char, 9 ≤ d.toNat → c ≠ d := by
    rintro d hd' rfl
    omega
  obtain ⟨t, ht⟩ := trim_cons hs s
  have hu : unsignedDecimal (c :: t) = none := by
    unfold unsignedDecimal
    rw [List.takeWhile_cons_of_neg (by simp [hd]), List.dropWhile_cons_of_neg (by simp [hd])]
    have hf : fraction (c :: t) = ([], c :: t) := by
      unfold fraction
      split
      · rename_i he
        exact absurd (List.cons.inj he).1 (hne '.' (by decide))
      · rfl
    dsimp only
    rw [hf]
    simp
  have hsn : ∀ b, signedNumber b (c :: t) = .nan := by
    intro b
    unfold signedNumber
    rw [if_neg, hu]
    intro he
    exact absurd (List.cons.inj he).1 (hne 'I' (by decide))
  unfold toNumber
  rw [ht]
  have h0 := hne '0' (by decide)
  have h1 := hne '-' (by decide)
  have h2 := hne '+' (by decide)
  split <;> first | (rename_i he; exact absurd (List.cons.inj he).1 (by assumption)) | exact hsn _ | (rename_i he; cases he)

/-- **C193 (refuted)**, reading: of the bytes of every version below 150994944, which is every version a node gets to by counting from 1, the client reads `NaN`. -/
theorem C193_read_refuted (v : KeyVersion) (hv : v.toNat < 150994944) :
    decodeKeyVersion (Crypto.encodeKeyVersionAsBytes v) = some .nan := by
  unfold decodeKeyVersion Crypto.encodeKeyVersionAsBytes be32
  rw [if_neg (by simp)]
  unfold array2str
  rw [List.map_cons, toNumber_nan]
  have : (UInt8.ofNat (v.toNat / 16777216)).toNat = v.toNat / 16777216 := by
    simp
    omega
  rw [this]
  have hlt : v.toNat / 16777216 < 9 := by omega
  generalize v.toNat / 16777216 = n at hlt
  match n, hlt with
  | 0, _ | 1, _ | 2, _ | 3, _ | 4, _ | 5, _ | 6, _ | 7, _ | 8, _ => decide

/-- **C193 (refuted)**, signatures: from a signature that a node written in Go has made with such a version, and from one that the client has made itself, the client reads `NaN`. -/
theorem C193_signature_refuted (P : Prims) (v : KeyVersion) (hv : v.toNat < 150994944) (s : List Char) :
    (∀ (k : KeyPair) (m : Bytes), Crypto.signMessage P k v m = some s → extractKeyVersion s = some .nan) ∧
    (∀ (pKey : Bytes) (msg : List (String × Json)), signMessage P pKey v.toNat msg = some s → extractKeyVersion s = some .nan) := by
  have h : ∀ r, extractKeyVersion (hexEncode (Crypto.encodeKeyVersionAsBytes v ++ r)) = some .nan := by
    intro r
    unfold extractKeyVersion
    rw [hexArray_encode, List.take_append_of_le_length (by simp [Crypto.encodeKeyVersionAsBytes, be32]),
      List.take_of_length_le (by simp [Crypto.encodeKeyVersionAsBytes, be32])]
    exact C193_read_refuted v hv
  constructor
  · intro k m hs
    unfold Crypto.signMessage at hs
    split at hs
    · cases hs
    · cases hs; exact h _
  · intro pKey msg hs
    unfold signMessage at hs
    rw [Option.map_eq_some_iff] at hs
    obtain ⟨raw, -, rfl⟩ := hs
    rw [(C193_written_partial v).1, List.append_assoc]
    exact h _

/-- **C194 (partial)**: the client, and a node written in Go, find the signature right under the public key, for the text that was signed, for every text of every length.  Missing: that this text tells the message (`C194_bound_refuted`, `C194_message_refuted`). -/
theorem C194_verifies_partial (P : Prims) (hP : Correct P) (pKey : Bytes) (v : KeyVersion) (msg : List (String × Json)) (s : List Char)
    (hs : signMessage P pKey v.toNat msg = some s) :
    verifyMessage P (P.pub pKey) s (getToBeSigned msg) = some true ∧
    Crypto.verifyMessage P ⟨none, some (P.pub pKey), Crypto.sigAlg⟩ s (utf8Bytes (getToBeSigned msg)) = some true := by
  unfold signMessage at hs
  rw [Option.map_eq_some_iff] at hs
  obtain ⟨raw, hraw, rfl⟩ := hs
  obtain ⟨hl, hv⟩ := hP _ _ _ hraw
  have h4 : (encodeKeyVersion v.toNat).length = 4 := rfl
  have h64 : (raw.take 64).length = 64 := by simp [hl]
  have e : (((encodeKeyVersion v.toNat ++ raw.take 64 ++ [0]).take ((encodeKeyVersion v.toNat ++ raw.take 64 ++ [0]).length - 1)).drop 4) = raw.take 64 := by
    rw [List.length_append, List.length_singleton, Nat.add_sub_cancel, List.take_left, List.drop_left' h4]
  constructor
  · unfold verifyMessage rawSignature
    rw [hexArray_encode, if_neg (by simp only [List.length_append, h4]; omega)]
    dsimp only
    rw [e]
    unfold secpVerify
    rw [h64, hv]
    rfl
  · unfold Crypto.verifyMessage
    rw [hexDecode_encode]
    dsimp only
    rw [if_neg (by simp only [List.length_append, h4]; omega), List.append_assoc, List.drop_left' h4]
    unfold Crypto.keyVerify
    rw [if_neg (by simp)]
    unfold Crypto.secpVerify Crypto.publicPart
    rw [if_pos (by simp [hl]), List.take_left' h64]
    exact congrArg some hv

/-- **C194 (refuted)**, what is bound: names of members are not signed, nor where one value ends and the next begins. -/
theorem C194_bound_refuted (P : Prims) (pKey : Bytes) (v : Int) (before after : List (String × Json)) (x y x' y' : String) (a b c : List Char) :
    signMessage P pKey v (before ++ (x, .str (a ++ b)) :: (y, .str c) :: after) =
      signMessage P pKey v (before ++ (x', .str a) :: (y', .str (b ++ c)) :: after) := by
  unfold signMessage getToBeSigned
  simp [List.flatMap_append, List.flatMap_cons, toText, List.append_assoc]

theorem intDigits_brace (n : Int) : ∃ c r, intDigits n = c :: r ∧ c ≠ '{' := by
  obtain ⟨c, r, h, hd⟩ := natDigits_head n.natAbs
  unfold intDigits
  split
  · exact ⟨_, _, rfl, by decide⟩
  · refine ⟨c, r, h, ?_⟩
    rintro rfl
    exact absurd hd (by decide)

/-- The members of a message, in the order in which the constructor sets them (fcrMessages/fcrMessage.class.ts:22-26), with an empty signature. -/
def membersOf (type version : Int) (supported : List Json) (body : List Char) : List (String × Json) :=
  [("message_type", .num type), ("message_body", .str body), ("protocol_version", .num version), ("protocol_supported", .arr supported), ("message_signature", .str [])]

/-- **C194 (refuted)**, messages: a message with the client's own signature on it does not verify, with the client, unless the hash or the signatures are broken: what is
verified is not what was signed. -/
theorem C194_message_refuted (P : Prims) (hP : Correct P) (pKey : Bytes) (hB : Binding P (P.pub pKey)) (v : KeyVersion)
    (type version : Int) (supported : List Json) (body s : List Char)
    (hs : signMessage P pKey v.toNat (membersOf type version supported body) = some s)
    (hH : P.hash (utf8Bytes (getToBeSigned (membersOf type version supported body))) =
        P.hash (utf8Bytes (toVerify ⟨some (.num type), .num version, .arr supported, some (.str body), .str s⟩)) →
      getToBeSigned (membersOf type version supported body) = toVerify ⟨some (.num type), .num version, .arr supported, some (.str body), .str s⟩) :
    verify P (P.pub pKey) ⟨some (.num type), .num version, .arr supported, some (.str body), .str s⟩ = some false := by
  have h1 := (C194_verifies_partial P hP pKey v _ s hs).1
  unfold verify
  dsimp only
  unfold verifyMessage at h1 ⊢
  split at h1
  · cases h1
  rename_i sig _
  have h1 := Option.some.inj h1
  congr 1
  unfold secpVerify at h1 ⊢
  rw [Bool.and_eq_true] at h1
  rw [h1.1, Bool.true_and]
  rw [Bool.eq_false_iff]
  intro h2
  have h3 := hH (hB _ _ _ h1.2 h2)
  have h4 := congrArg List.head? h3
  unfold toVerify membersOf getToBeSigned at h4
  rw [List.flatMap_cons] at h4
  obtain ⟨c, r, hc, hc'⟩ := intDigits_brace type
  simp only [toText, hc, member, stringify, List.cons_append, List.nil_append, List.head?_cons, Option.some.injEq] at h4
  exact hc' h4

/-! ## Cases -/

/-- The first version, and a text that `Number` can read. -/
example : extractKeyVersion (hexEncode [0, 0, 0, 1, 7]) = some .nan ∧ decodeKeyVersion [49, 50, 46, 53] = some (.dec false 125 (-1)) ∧ decodeKeyVersion [0, 0, 1] = none := by
  decide +kernel

/-- `{ a: 'xy', b: 'z' }` and `{ c: 'x', d: 'yz' }`. -/
example : getToBeSigned [("a", .str ['x', 'y']), ("b", .str ['z'])] = getToBeSigned [("c", .str ['x']), ("d", .str ['y', 'z'])] := by
  decide +kernel

/-- A message is signed, the two hashes differ, and its signature is refused. -/
example : ∃ s, signMessage Crypto.toy [] 1 (membersOf 108 1 [.num 1, .num 1] []) = some s ∧
    Crypto.toy.hash (utf8Bytes (getToBeSigned (membersOf 108 1 [.num 1, .num 1] []))) ≠
      Crypto.toy.hash (utf8Bytes (toVerify ⟨some (.num 108), .num 1, .arr [.num 1, .num 1], some (.str []), .str s⟩)) ∧
    verify Crypto.toy (Crypto.toy.pub []) ⟨some (.num 108), .num 1, .arr [.num 1, .num 1], some (.str []), .str s⟩ = some false :=
  ⟨_, rfl, by decide +kernel, by decide +kernel⟩

/-- `Binding` holds of the primitives used there. -/
example (pk : Bytes) : Binding Crypto.toy pk := by
  intro d d' s h1 h2
  simp only [Crypto.toy, decide_eq_true_eq] at h1 h2
  exact List.append_cancel_right (h1.1.symm.trans h2.1)

end FcRetrieval.Js
