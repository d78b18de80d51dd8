import Verif.Lemmas.Bytes
import Verif.Spec.Crypto
/-!
# Properties of key versions, keys and signature strings (C33, C34, C70, C71)
-/

set_option linter.unusedSimpArgs false

namespace FcRetrieval.Crypto

/-! ## the toy scheme meets the assumptions -/

theorem toy_correct : Correct toy := by
  intro sk d sig h
  simp only [toy] at h ⊢
  split at h
  · rename_i hd
    cases h
    refine ⟨by simp [hd], ?_⟩
    simp only [decide_eq_true_eq]
    refine ⟨?_, hd⟩
    rw [List.take_append, hd, List.take_of_length_le (by omega)]
    rfl
  · cases h

theorem toy_binding (pk : Bytes) : Binding toy pk := by
  intro d d' s h h'
  simp only [toy, decide_eq_true_eq] at h h'
  exact List.append_cancel_right (h.1.symm.trans h'.1)

/-! ## C33 encodings -/

theorem be32_length (n : Nat) : (be32 n).length = 4 := rfl

theorem decode_be32 (v : KeyVersion) (rest : Bytes) : decodeKeyVersionFromBytes (be32 v.toNat ++ rest) = some v := by
  have h : v.toNat < 4294967296 := by have := v.toBitVec.isLt; simpa using this
  unfold be32 decodeKeyVersionFromBytes
  simp only [List.cons_append, List.nil_append, Option.some.injEq]
  apply UInt32.toNat.inj
  rw [UInt32.toNat_ofNat', UInt8.toNat_ofNat', UInt8.toNat_ofNat', UInt8.toNat_ofNat', UInt8.toNat_ofNat']
  generalize v.toNat = n at *
  omega

/-- Key versions: four bytes, which decode to the version; the number form is the identity. -/
theorem C33_key_version_round_trip (v : KeyVersion) :
    decodeKeyVersionFromBytes (encodeKeyVersionAsBytes v) = some v ∧ (encodeKeyVersionAsBytes v).length = 4 ∧
    decodeKeyVersion v = v := by
  refine ⟨?_, rfl, rfl⟩
  have := decode_be32 v []
  rwa [List.append_nil] at this

/-- Byte strings shorter than four are rejected; otherwise the first four bytes are the version, high byte first. -/
theorem C33_key_version_decode (b : Bytes) :
    (decodeKeyVersionFromBytes b = none ↔ b.length < 4) ∧
    ∀ v, decodeKeyVersionFromBytes b = some v → encodeKeyVersionAsBytes v = b.take 4 := by
  match b with
  | [] => simp [decodeKeyVersionFromBytes]
  | [_] => simp [decodeKeyVersionFromBytes]
  | [_, _] => simp [decodeKeyVersionFromBytes]
  | [_, _, _] => simp [decodeKeyVersionFromBytes]
  | x :: y :: z :: w :: l =>
    refine ⟨by simp [decodeKeyVersionFromBytes], ?_⟩
    intro v hv
    simp only [decodeKeyVersionFromBytes, Option.some.injEq] at hv
    subst hv
    have hx := u8_lt x
    have hy := u8_lt y
    have hz := u8_lt z
    have hw := u8_lt w
    unfold encodeKeyVersionAsBytes be32
    have e : (UInt32.ofNat (x.toNat * 16777216 + y.toNat * 65536 + z.toNat * 256 + w.toNat)).toNat
        = x.toNat * 16777216 + y.toNat * 65536 + z.toNat * 256 + w.toNat := by
      rw [UInt32.toNat_ofNat']; omega
    rw [e]
    simp only [List.take_succ_cons, List.take_zero]
    rw [u8_ofNat_eq (b := x) (by omega), u8_ofNat_eq (b := y) (by omega), u8_ofNat_eq (b := z) (by omega),
      u8_ofNat_eq (b := w) (by omega)]

/-- The next version is the successor modulo 2^32; the first is 1. -/
theorem C33_next_version (v : KeyVersion) :
    (nextKeyVersion v).toNat = (v.toNat + 1) % 2 ^ 32 ∧ initialKeyVersion.toNat = 1 := by
  refine ⟨?_, rfl⟩
  unfold nextKeyVersion
  rw [UInt32.toNat_add]
  rfl

example : decodeKeyVersionFromBytes [0, 0, 1, 2, 99] = some 258 := by decide +kernel
example : nextKeyVersion 4294967295 = 0 := by decide +kernel

/-- Private keys decode to themselves, in both forms. -/
theorem C33_private_key_round_trip (k : KeyPair) (h : PrivateKey k) :
    decodePrivateKey (encodePrivateKey k) = .ok k ∧
    ∃ s, encodeRawPrivateKey k = some s ∧ decodeRawPrivateKey s = .ok k := by
  obtain ⟨pKey, pubKey, alg⟩ := k
  obtain ⟨h1, h2, b, h3, h4⟩ := h
  simp only at h1 h2 h3
  subst h1 h2 h3
  refine ⟨?_, hexEncode b, rfl, ?_⟩
  · simp [decodePrivateKey, encodePrivateKey, hexDecode_encode, decodeSecPrivate, h4]
  · simp [decodeRawPrivateKey, hexDecode_encode, decodeSecPrivate, h4]

/-- Decoding a private key accepts exactly the byte 1 followed by 32 bytes, in hex, and what it returns is a private key
holding those bytes. -/
theorem C33_private_key_decode (s : List Char) (k : KeyPair) :
    decodePrivateKey s = .ok k ↔ ∃ b : Bytes, b.length = 32 ∧ hexDecode s = some (1 :: b) ∧ k = ⟨some b, none, sigAlg⟩ := by
  unfold decodePrivateKey decodeSecPrivate sigAlg
  constructor
  · intro h
    split at h
    · cases h
    · cases h
    · rename_i a b hb
      split at h
      · rename_i ha
        split at h
        · cases h
        · rename_i hl
          cases h
          subst ha
          exact ⟨b, by omega, hb, rfl⟩
      · cases h
  · rintro ⟨b, hl, hb, rfl⟩
    rw [hb]
    simp [hl]

/-- A public key, given as such or derived from a private key, decodes to the same public part. -/
theorem C33_public_key_round_trip (P : Prims) (k : KeyPair)
    (h : PublicKey k ∨ (PrivateKey k ∧ ∀ sk, (P.pub sk).length = 65)) :
    ∃ s, encodePublicKey P k = some s ∧ decodePublicKey s = .ok ⟨none, some (publicPart P k), sigAlg⟩ ∧
      ∃ j, marshalKey P k = some j ∧ unmarshalKey j = .ok ⟨none, some (publicPart P k), sigAlg⟩ := by
  have hl : (publicPart P k).length = 65 ∧ k.alg = sigAlg := by
    rcases h with ⟨h1, h2, b, h3, h4⟩ | ⟨⟨h1, h2, b, h3, h4⟩, h5⟩
    · exact ⟨by simp [publicPart, h3, h4], h1⟩
    · exact ⟨by simp [publicPart, h2, h5], h1⟩
  obtain ⟨hl, ha⟩ := hl
  refine ⟨hexEncode (k.alg :: publicPart P k), by simp [encodePublicKey, ha], ?_, .str (hexEncode (k.alg :: publicPart P k)),
    by simp [marshalKey, encodePublicKey, ha], ?_⟩
  · simp [decodePublicKey, hexDecode_encode, ha, decodeSecPublic, hl]
  · simp [unmarshalKey, decStr, decodePublicKey, hexDecode_encode, ha, decodeSecPublic, hl]

/-- Decoding a public key accepts exactly the byte 1 followed by 65 bytes, in hex. -/
theorem C33_public_key_decode (s : List Char) (k : KeyPair) :
    decodePublicKey s = .ok k ↔ ∃ b : Bytes, b.length = 65 ∧ hexDecode s = some (1 :: b) ∧ k = ⟨none, some b, sigAlg⟩ := by
  unfold decodePublicKey decodeSecPublic sigAlg
  constructor
  · intro h
    split at h
    · cases h
    · cases h
    · rename_i a b hb
      split at h
      · rename_i ha
        split at h
        · cases h
        · rename_i hl
          cases h
          subst ha
          exact ⟨b, by omega, hb, rfl⟩
      · cases h
  · rintro ⟨b, hl, hb, rfl⟩
    rw [hb]
    simp [hl]

example : PrivateKey ⟨some (List.replicate 32 5), none, 1⟩ := ⟨rfl, rfl, _, rfl, rfl⟩
example : PublicKey ⟨none, some (List.replicate 65 5), 1⟩ := ⟨rfl, rfl, _, rfl, rfl⟩
example : decodePublicKey ('0' :: '1' :: List.replicate 130 'a') = .ok ⟨none, some (List.replicate 65 170), 1⟩ := by
  decide +kernel

/-! ## C34 signature strings -/

/-- The key version put into a signature string is the one extracted from it. -/
theorem C34_version_carried (P : Prims) (k : KeyPair) (v : KeyVersion) (m : Bytes) (s : List Char)
    (h : signMessage P k v m = some s) : extractKeyVersion s = .ok v := by
  unfold signMessage at h
  split at h
  · cases h
  · rename_i raw hraw
    cases h
    unfold extractKeyVersion
    rw [hexDecode_encode]
    have hne : encodeKeyVersionAsBytes v ++ raw = UInt8.ofNat (v.toNat / 16777216) ::
      ([UInt8.ofNat (v.toNat / 65536), UInt8.ofNat (v.toNat / 256), UInt8.ofNat v.toNat] ++ raw) := rfl
    rw [hne]
    simp only
    rw [← hne, List.append_assoc, List.append_assoc, List.take_append_of_le_length (by simp [encodeKeyVersionAsBytes, be32_length])]
    rw [show (encodeKeyVersionAsBytes v).take 4 = be32 v.toNat ++ [] from rfl, decode_be32]
    rfl

/-- A signature string verifies for the signed message under the public key that belongs to the private key. -/
theorem C34_signed_verifies (P : Prims) (hP : Correct P) (k pk : KeyPair) (v : KeyVersion) (m : Bytes) (s : List Char)
    (hk : PrivateKey k) (hpk : pk.alg = sigAlg ∧ publicPart P pk = publicPart P k)
    (h : signMessage P k v m = some s) : verifyMessage P pk s m = some true := by
  obtain ⟨h1, h2, b, h3, h4⟩ := hk
  unfold signMessage at h
  split at h
  · cases h
  · rename_i raw hraw
    cases h
    unfold keySign at hraw
    rw [if_neg (by simp [h1]), h3] at hraw
    obtain ⟨hl, hv⟩ := hP _ _ _ hraw
    unfold verifyMessage
    rw [hexDecode_encode]
    have h4 : (encodeKeyVersionAsBytes v).length = 4 := rfl
    simp only [List.length_append, h4]
    rw [if_neg (by omega), List.drop_append_of_le_length (by omega)]
    rw [show (encodeKeyVersionAsBytes v).drop 4 = [] from rfl, List.nil_append]
    unfold keyVerify secpVerify
    rw [if_neg (by simp [hpk.1]), if_pos hl, hpk.2]
    simp only [publicPart, h2, h3, Option.getD_none, Option.getD_some] at hv ⊢
    rw [hv]

/-- A signature string that verifies for two messages means that their hashes are equal. -/
theorem C34_no_other_message (P : Prims) (k : KeyPair) (hb : Binding P (publicPart P k)) (s : List Char) (m m' : Bytes)
    (h : verifyMessage P k s m = some true) (h' : verifyMessage P k s m' = some true) : P.hash m = P.hash m' := by
  unfold verifyMessage at h h'
  cases hd : hexDecode s with
  | none => simp [hd] at h
  | some b =>
    simp only [hd] at h h'
    split at h
    · cases h
    · rename_i hl
      rw [if_neg hl] at h'
      unfold keyVerify secpVerify at h h'
      split at h
      · cases h
      · rename_i ha
        rw [if_neg ha] at h'
        simp only [Option.some.injEq] at h h'
        split at h
        · rename_i h65
          rw [if_pos h65] at h'
          exact hb _ _ _ h h'
        · rename_i h65
          rw [if_neg h65] at h'
          exact hb _ _ _ h h'

example : ∃ s, signMessage toy ⟨some (List.replicate 32 5), none, 1⟩ 3 [1, 2] = some s := ⟨_, rfl⟩
example : publicPart toy ⟨none, some (List.replicate 32 5 ++ List.replicate 33 7), 1⟩ =
    publicPart toy ⟨some (List.replicate 32 5), none, 1⟩ := by decide +kernel

/-- Verification never crashes and fails with an error exactly on text that is not hex, on fewer than four bytes, and for a key
with another algorithm. -/
theorem C34_verify_errors (P : Prims) (k : KeyPair) (s : List Char) (m : Bytes) :
    verifyMessage P k s m = none ↔
      hexDecode s = none ∨ (∃ b, hexDecode s = some b ∧ b.length < 4) ∨ k.alg ≠ sigAlg := by
  unfold verifyMessage keyVerify
  cases hd : hexDecode s with
  | none => simp
  | some b =>
    simp only [reduceCtorEq, Option.some.injEq, false_or, exists_eq_left']
    split
    · rename_i h; simp [h]
    · rename_i h
      split
      · rename_i h2; simp [h2]
      · rename_i h2; simp [h, h2]

/-! ## C70 malformed input -/

/-- Decoding the empty string as a key, or extracting a version from it, crashes. -/
theorem C70_empty_string_refuted :
    decodePublicKey [] = .panic ∧ decodePrivateKey [] = .panic ∧ extractKeyVersion [] = .panic ∧ unmarshalKey .null = .panic := by
  refine ⟨rfl, rfl, rfl, rfl⟩

/-- Every other string is handled: decoding and extracting crash on the empty string only. -/
theorem C70_no_crash_partial (s : List Char) :
    (decodePublicKey s = .panic ↔ s = []) ∧ (decodePrivateKey s = .panic ↔ s = []) ∧
    decodeRawPrivateKey s ≠ .panic ∧ (extractKeyVersion s = .panic ↔ s = []) := by
  have key : hexDecode s = some [] ↔ s = [] := by
    constructor
    · intro h
      have := hexDecode_length _ _ h
      simpa using this
    · rintro rfl; rfl
  have e1 : ∀ o : Option KeyVersion, Res.ofOption o ≠ .panic := by intro o; cases o <;> simp [Res.ofOption]
  rw [← key]
  refine ⟨?_, ?_, ?_, ?_⟩
  · unfold decodePublicKey decodeSecPublic
    repeat' split
    all_goals simp_all
  · unfold decodePrivateKey decodeSecPrivate
    repeat' split
    all_goals simp_all
  · unfold decodeRawPrivateKey decodeSecPrivate
    repeat' split
    all_goals simp_all
  · unfold extractKeyVersion
    repeat' split
    all_goals simp_all

/-- Of a signature string with one to three bytes a version is extracted although none is there: the rest is read from the
undecoded text. -/
theorem C70_short_signature (s : List Char) (b : Bytes) (h : hexDecode s = some b) (h1 : 1 ≤ b.length) (h2 : b.length < 4) :
    ∃ v, extractKeyVersion s = .ok v := by
  have hl := hexDecode_length _ _ h
  unfold extractKeyVersion
  rw [h]
  have hne : b ≠ [] := by rintro rfl; simp at h1
  split
  · rename_i h; cases h
  · rename_i h; cases h; exact absurd rfl hne
  · rename_i b' h'
    cases h'
    have len : 4 ≤ ((b ++ (asciiBytes s).drop b.length ++ [0, 0]).take 4).length := by
      simp [asciiBytes]; omega
    cases hv : decodeKeyVersionFromBytes ((b ++ (asciiBytes s).drop b.length ++ [0, 0]).take 4) with
    | some v => exact ⟨v, rfl⟩
    | none =>
      have := ((C33_key_version_decode _).1).1 hv
      omega

example : extractKeyVersion "01".toList = .ok 0x01310000 := by decide +kernel

/-! ## C71 the version is not authenticated -/

/-- Replacing the version of a signature string leaves the verification result as it was, for every message and key. -/
theorem C71_version_not_authenticated (P : Prims) (k : KeyPair) (v v' : KeyVersion) (raw m : Bytes) :
    verifyMessage P k (hexEncode (encodeKeyVersionAsBytes v ++ raw)) m =
    verifyMessage P k (hexEncode (encodeKeyVersionAsBytes v' ++ raw)) m := by
  unfold verifyMessage
  rw [hexDecode_encode, hexDecode_encode]
  rfl

/-- So a valid signature made with version `v` is also a valid signature that claims version `v'`. -/
theorem C71_version_refuted (P : Prims) (hP : Correct P) (k : KeyPair) (hk : PrivateKey k) (v v' : KeyVersion) (m : Bytes)
    (s : List Char) (h : signMessage P k v m = some s) :
    ∃ s', verifyMessage P k s' m = some true ∧ extractKeyVersion s' = .ok v' := by
  cases h' : signMessage P k v' m with
  | none =>
    unfold signMessage at h h'
    split at h <;> simp_all
  | some s' =>
    exact ⟨s', C34_signed_verifies P hP k k v' m s' hk ⟨hk.1, rfl⟩ h', C34_version_carried P k v' m s' h'⟩

/-- The last byte of a 65-byte signature (the recovery bit) is not authenticated either. -/
theorem C71_recovery_byte (P : Prims) (k : KeyPair) (sig m : Bytes) (x y : UInt8) (h : sig.length = 64) :
    keyVerify P k (sig ++ [x]) m = keyVerify P k (sig ++ [y]) m := by
  unfold keyVerify secpVerify
  simp [h, List.take_append_of_le_length]

end FcRetrieval.Crypto
