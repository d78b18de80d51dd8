import Verif.Spec.Message
import Verif.Lemmas.Utf8
import Verif.Props.Crypto
import Verif.Props.Offer
/-!
# Message envelopes: C27, C28
-/

set_option linter.unusedSimpArgs false

namespace FcRetrieval.Message
open FcRetrieval.Crypto

/-- A message to show that hypotheses are met. -/
def exMsg : Msg := create defaultProtocol 102 (some [123, 125])

theorem exMsg_inRange : InRange exMsg := by
  refine ⟨by unfold inI32; decide, by unfold inI32; decide, ?_⟩
  intro l hl n hn
  simp [exMsg, create, defaultProtocol] at hl
  subst hl
  simp at hn
  subst hn
  unfold inI32; decide

/-! ## the wire form -/

theorem decI32_num {n : Int} (h : inI32 n) : decI32 (some (.num n)) = some n := by
  unfold decI32 decNum
  exact if_pos h

theorem mapM_num (l : List Int) (h : ∀ n ∈ l, inI32 n) : (l.map Json.num).mapM (fun x => decI32 (some x)) = some l :=
  Merkle.mapM_map_some Json.num (fun x => decI32 (some x)) l (fun n hn => decI32_num (h n hn))

theorem decInts_json (o : Option (List Int)) (h : ∀ l, o = some l → ∀ n ∈ l, inI32 n) : decInts (some (intsJson o)) = some o := by
  cases o with
  | none => rfl
  | some l =>
    simp only [intsJson, decInts]
    rw [mapM_num l (h l rfl)]
    rfl

theorem decBytes_json (o : Option Bytes) : decBytes (some (jsonBytes o)) = some o := by
  cases o with
  | none => rfl
  | some b => simp [decBytes, jsonBytes, unjsonBytes, b64Decode_encode]

/-- **C27**, transport: a message written and read is the same message, signature included. -/
theorem C27_wire_round_trip (m : Msg) (h : InRange m) : fromBytes (toBytes m) = .ok m := by
  obtain ⟨t, v, s, b, sig⟩ := m
  obtain ⟨h1, h2, h3⟩ := h
  simp only at h1 h2 h3
  have hp : parseText (toBytes ⟨t, v, s, b, sig⟩) = some (marshal ⟨t, v, s, b, sig⟩) := json_text_round_trip _
  unfold fromBytes
  rw [hp]
  simp only [marshal, msgJson, unmarshal, decObj, Res.ofOption, Res.bind_ok]
  simp (disch := (simp only [List.map_cons, List.map_nil]; decide +kernel)) only [memberFor_field]
  simp only [Res.ofOption, Res.bind_ok, field, reduceCtorEq, ↓reduceIte, String.reduceEq,
    decI32_num h1, decI32_num h2, decInts_json s h3, decBytes_json, decStr, Res.pure_ok]

example : fromBytes (toBytes exMsg) = .ok exMsg := C27_wire_round_trip exMsg exMsg_inRange

theorem decI32_range {j : Option Json} {n : Int} (h : decI32 j = some n) : inI32 n := by
  unfold decI32 decNum at h
  unfold inI32
  split at h
  · cases h; omega
  · cases h; omega
  · split at h
    · cases h; assumption
    · cases h
  · cases h

theorem mapM_i32 : ∀ (xs : List Json) (l : List Int), xs.mapM (fun x => decI32 (some x)) = some l → ∀ n ∈ l, inI32 n
  | [], l, h => by simp at h; subst h; simp
  | x :: xs, l, h => by
    rw [List.mapM_cons] at h
    cases h1 : decI32 (some x) with
    | none => rw [h1] at h; simp at h
    | some a =>
      cases h2 : xs.mapM (fun x => decI32 (some x)) with
      | none => rw [h1, h2] at h; simp at h
      | some l' =>
        rw [h1, h2] at h
        simp at h
        subst h
        intro n hn
        rcases List.mem_cons.1 hn with rfl | hn
        · exact decI32_range h1
        · exact mapM_i32 xs l' h2 n hn

/-- Reading never crashes, and whatever is read is in range: so it survives being sent on. -/
theorem C27_read_total (b : Bytes) : fromBytes b ≠ .panic ∧ ∀ m, fromBytes b = .ok m → InRange m := by
  unfold fromBytes
  cases parseText b with
  | none => simp
  | some j =>
    simp only
    unfold unmarshal
    cases decObj j with
    | none => simp [Res.ofOption]
    | some fs =>
      cases h1 : decI32 (memberFor "message_type" fs) with
      | none => simp [Res.ofOption, h1]
      | some t =>
        cases h2 : decI32 (memberFor "protocol_version" fs) with
        | none => simp [Res.ofOption, h1, h2]
        | some v =>
          cases h3 : decInts (memberFor "protocol_supported" fs) with
          | none => simp [Res.ofOption, h1, h2, h3]
          | some s =>
            cases h4 : decBytes (memberFor "message_body" fs) with
            | none => simp [Res.ofOption, h1, h2, h3, h4]
            | some body =>
              cases h5 : decStr (memberFor "message_signature" fs) with
              | none => simp [Res.ofOption, h1, h2, h3, h4, h5]
              | some sig =>
                simp only [Res.ofOption, h1, h2, h3, h4, h5, Res.bind_ok, Res.pure_ok, Res.ok.injEq]
                refine ⟨by simp, ?_⟩
                intro m hm
                subst hm
                refine ⟨decI32_range h1, decI32_range h2, ?_⟩
                intro l hl n hn
                simp only at hl
                subst hl
                unfold decInts at h3
                split at h3
                · cases h3
                · cases h3
                · rename_i xs _
                  cases hm : xs.mapM (fun x => decI32 (some x)) with
                  | none => rw [hm] at h3; cases h3
                  | some l' =>
                    rw [hm] at h3
                    simp at h3
                    subst h3
                    exact mapM_i32 xs _ hm n hn
                · cases h3

/-! ## C27 signatures -/

/-- The signed bytes determine type, version, supported versions and body, and nothing else matters. -/
theorem C27_signed_bytes (m m' : Msg) : toSign m = toSign m' ↔ content m = content m' := by
  unfold toSign jsonText
  constructor
  · intro h
    have h := json_bytes_inj h
    simp only [msgJson, Json.obj.injEq, List.cons.injEq, Prod.mk.injEq, Json.num.injEq, true_and, and_true] at h
    obtain ⟨h1, h2, h3, h4⟩ := h
    simp only [content, Prod.mk.injEq]
    refine ⟨h1, h2, ?_, ?_⟩
    · cases hs : m.supported <;> cases hs' : m'.supported <;> simp [hs, hs', intsJson] at h3 ⊢
      rename_i l l'
      have : ∀ (l l' : List Int), l.map Json.num = l'.map Json.num → l = l' := by
        intro l
        induction l with
        | nil => intro l' h; cases l' <;> simp at h ⊢
        | cons a l ih =>
          intro l' h
          cases l' with
          | nil => simp at h
          | cons b l' => simp at h; rw [h.1, ih l' h.2]
      exact this _ _ h3
    · cases hs : m.body <;> cases hs' : m'.body <;> simp [hs, hs', jsonBytes] at h4 ⊢
      exact Offer.C16_digest_text_injective _ _ h4
  · intro h
    simp only [content, Prod.mk.injEq] at h
    obtain ⟨h1, h2, h3, h4⟩ := h
    unfold msgJson
    rw [h1, h2, h3, h4]

/-- Verification succeeds exactly if the signature string is one for the signed bytes. -/
theorem C27_verify_iff (P : Prims) (k : KeyPair) (m : Msg) :
    (verify P k m).2 = true ↔ verifyMessage P k m.signature (toSign m) = some true := by
  unfold verify
  generalize verifyMessage P k m.signature (toSign m) = v
  match v with
  | some true => simp
  | some false => simp
  | none => simp

/-- **C27**: a signed message verifies under the matching public key; signing changes the signature only. -/
theorem C27_signed_verifies (P : Prims) (hP : Correct P) (k pk : KeyPair) (v : KeyVersion) (hk : PrivateKey k)
    (hpk : pk.alg = sigAlg ∧ publicPart P pk = publicPart P k) (m m' : Msg) (h : sign P k v m = (m', true)) :
    (verify P pk m').2 = true ∧ content m' = content m ∧ extractKeyVersion m'.signature = .ok v := by
  unfold sign at h
  cases hs : signMessage P k v (toSign m) with
  | none => rw [hs] at h; simp at h
  | some sig =>
    rw [hs] at h
    simp only [Prod.mk.injEq, and_true] at h
    subst h
    refine ⟨?_, rfl, C34_version_carried P k v _ sig hs⟩
    rw [C27_verify_iff]
    exact C34_signed_verifies P hP k pk v _ sig hk hpk hs

/-- **C27**, end to end: a message signed, sent and read verifies at the receiver. -/
theorem C27_sent_verifies (P : Prims) (hP : Correct P) (k pk : KeyPair) (v : KeyVersion) (hk : PrivateKey k)
    (hpk : pk.alg = sigAlg ∧ publicPart P pk = publicPart P k) (m m' : Msg) (hr : InRange m) (h : sign P k v m = (m', true)) :
    fromBytes (toBytes m') = .ok m' ∧ (verify P pk m').2 = true := by
  obtain ⟨h1, h2, _⟩ := C27_signed_verifies P hP k pk v hk hpk m m' h
  refine ⟨C27_wire_round_trip m' ?_, h1⟩
  simp only [content, Prod.mk.injEq] at h2
  obtain ⟨e1, e2, e3, _⟩ := h2
  unfold InRange
  rw [e1, e2, e3]
  exact hr

/-- **C27**: a signature binds the content: two messages that carry the same signature string and verify under one key have the
same type, version, supported versions and body, unless the hash collides on the two texts. -/
theorem C27_signature_binds (P : Prims) (k : KeyPair) (hb : Binding P (publicPart P k)) (m m' : Msg)
    (hs : m.signature = m'.signature) (hno : P.hash (toSign m) = P.hash (toSign m') → toSign m = toSign m')
    (h : (verify P k m).2 = true) (h' : (verify P k m').2 = true) : content m = content m' := by
  rw [C27_verify_iff] at h h'
  rw [← hs] at h'
  exact (C27_signed_bytes m m').1 (hno (C34_no_other_message P k hb _ _ _ h h'))

/-- **C27**: a changed message is rejected. -/
theorem C27_modified_rejected (P : Prims) (k : KeyPair) (hb : Binding P (publicPart P k)) (m m' : Msg)
    (hs : m.signature = m'.signature) (hc : content m ≠ content m')
    (hno : P.hash (toSign m) = P.hash (toSign m') → toSign m = toSign m')
    (h : (verify P k m).2 = true) : (verify P k m').2 = false := by
  cases h' : (verify P k m').2 with
  | false => rfl
  | true => exact absurd (C27_signature_binds P k hb m m' hs hno h h') hc

/-- **C27**: an unsigned message never verifies. -/
theorem C27_unsigned_rejected (P : Prims) (k : KeyPair) (m : Msg) (h : m.signature = []) : (verify P k m).2 = false := by
  unfold verify
  rw [h]
  rfl

example (pr : Protocol) (t : Int) (b : Option Bytes) (P : Prims) (k : KeyPair) : (verify P k (create pr t b)).2 = false :=
  C27_unsigned_rejected P k _ rfl

/-- The toy scheme signs `exMsg`, the receiver accepts it, and a change of the type is detected. -/
example : ∃ m', sign toy Offer.exKey 1 exMsg = (m', true) ∧ (verify toy Offer.exKey m').2 = true ∧
    content { m' with type := 103 } ≠ content m' := by
  refine ⟨{ exMsg with signature := hexEncode (be32 1 ++ (toy.hash (toSign exMsg) ++ List.replicate 33 9)) }, ?_, ?_, ?_⟩
  · decide +kernel
  · decide +kernel
  · decide +kernel

/-! ## C28 verification and the message -/

/-- **C28 is false**: a failed verification removes the signature, and no later verification succeeds, whatever the key. -/
theorem C28_refuted (P : Prims) (k : KeyPair) (m : Msg) (h : (verify P k m).2 = false) :
    (verify P k m).1.signature = [] ∧ (m.signature ≠ [] → (verify P k m).1 ≠ m) ∧
    ∀ k', (verify P k' (verify P k m).1).2 = false := by
  have hs : (verify P k m).1.signature = [] := by
    unfold verify at h ⊢
    split
    · rename_i hv
      rw [hv] at h
      simp at h
    · rfl
  refine ⟨hs, ?_, fun k' => C27_unsigned_rejected P k' _ hs⟩
  intro hne he
  rw [he] at hs
  exact hne hs

/-- So with a wrong key tried first, a correctly signed message is rejected under its own key. -/
example : ∃ m' wrong, sign toy Offer.exKey 1 exMsg = (m', true) ∧ (verify toy Offer.exKey m').2 = true ∧
    verifyAll toy [wrong, Offer.exKey] m' = [false, false] := by
  refine ⟨{ exMsg with signature := hexEncode (be32 1 ++ (toy.hash (toSign exMsg) ++ List.replicate 33 9)) }, ⟨none, none, 2⟩, ?_, ?_, ?_⟩
  · decide +kernel
  · decide +kernel
  · decide +kernel

/-- **C28**, what holds: a successful verification leaves the message as it was, and no verification touches anything but the
signature; so in a sequence the answers are those of fresh copies up to and with the first failure. -/
theorem C28_partial (P : Prims) (k : KeyPair) (m : Msg) :
    ((verify P k m).2 = true → (verify P k m).1 = m) ∧ content (verify P k m).1 = content m ∧
    ∀ ks ks', (∀ k' ∈ ks, (verify P k' m).2 = true) →
      verifyAll P (ks ++ k :: ks') m = ks.map (fun _ => true) ++ (verify P k m).2 ::
        (if (verify P k m).2 then verifyAll P ks' m else ks'.map (fun _ => false)) := by
  have h1 : ∀ k, (verify P k m).2 = true → (verify P k m).1 = m := by
    intro k h
    unfold verify at h ⊢
    split
    · rfl
    · rename_i hv
      split at h
      · rename_i hv'; exact absurd hv' hv
      · simp at h
  refine ⟨h1 k, ?_, ?_⟩
  · unfold verify
    split <;> rfl
  · intro ks
    induction ks with
    | nil =>
      intro ks' _
      simp only [List.nil_append, verifyAll, List.map_nil]
      congr 1
      cases hv : (verify P k m).2 with
      | true => rw [h1 k hv]; rfl
      | false =>
        simp only [Bool.false_eq_true, if_false]
        have hu : ∀ (l : List KeyPair) (m : Msg), m.signature = [] → verifyAll P l m = l.map (fun _ => false) := by
          intro l
          induction l with
          | nil => intro m _; rfl
          | cons a l ih =>
            intro m hm
            have hf := C27_unsigned_rejected P a m hm
            simp only [verifyAll, List.map_cons, hf]
            rw [ih _ (C28_refuted P a m hf).1]
        exact hu ks' _ (C28_refuted P k m hv).1
    | cons a ks ih =>
      intro ks' ha
      have h2 := ha a (by simp)
      simp only [List.cons_append, verifyAll, List.map_cons, h2]
      rw [h1 a h2, ih ks' (fun k' hk' => ha k' (by simp [hk']))]

end FcRetrieval.Message
