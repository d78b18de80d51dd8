import Verif.Model.Bytes
/-! Helper lemmas: hex, base64, big-endian numbers. -/

set_option linter.unusedSimpArgs false

namespace FcRetrieval

theorem u8_lt (b : UInt8) : b.toNat < 256 := by
  have := b.toBitVec.isLt
  simpa using this

theorem u8_ofNat_eq {b : UInt8} {n : Nat} (h : n % 256 = b.toNat) : UInt8.ofNat n = b := by
  apply UInt8.toNat.inj
  rw [UInt8.toNat_ofNat']
  simpa using h

/-! ## hex -/

theorem hexVal_hexChar : ∀ n, n < 16 → hexVal (hexChar n) = some n := by decide
theorem hexVal_lt {c : Char} {n : Nat} (h : hexVal c = some n) : n < 16 := by
  unfold hexVal at h
  split at h
  · rename_i hc
    have h2 : c.toNat ≤ '9'.toNat := hc.2
    have : '9'.toNat = 57 := rfl
    simp at h; omega
  · split at h
    · rename_i hc
      have h2 : c.toNat ≤ 'f'.toNat := hc.2
      have : 'f'.toNat = 102 := rfl
      simp at h; omega
    · split at h
      · rename_i hc
        have h2 : c.toNat ≤ 'F'.toNat := hc.2
        have : 'F'.toNat = 70 := rfl
        simp at h; omega
      · simp at h

theorem hexDecode_encode : ∀ bs : Bytes, hexDecode (hexEncode bs) = some bs
  | [] => rfl
  | b :: bs => by
    have hb := u8_lt b
    simp only [hexEncode, hexDecode]
    rw [hexVal_hexChar _ (by omega), hexVal_hexChar _ (by omega), hexDecode_encode bs]
    simp only [Option.some.injEq, List.cons.injEq, and_true]
    apply u8_ofNat_eq
    omega

theorem hexEncode_length : ∀ bs : Bytes, (hexEncode bs).length = 2 * bs.length
  | [] => rfl
  | b :: bs => by simp [hexEncode, hexEncode_length bs]; omega

theorem hexEncode_inj {a b : Bytes} (h : hexEncode a = hexEncode b) : a = b := by
  have := congrArg hexDecode h
  rw [hexDecode_encode, hexDecode_encode] at this
  simpa using this

theorem hexEncode_append : ∀ (a b : Bytes), hexEncode (a ++ b) = hexEncode a ++ hexEncode b
  | [], b => rfl
  | x :: a, b => by simp [hexEncode, hexEncode_append a b]

theorem hexChar_mem : ∀ n, n < 16 → hexChar n ∈ hexChars := by decide

theorem hexEncode_chars : ∀ (bs : Bytes), ∀ c ∈ hexEncode bs, c ∈ hexChars
  | [], c, h => by simp [hexEncode] at h
  | b :: bs, c, h => by
    have hb := u8_lt b
    simp only [hexEncode, List.mem_cons] at h
    rcases h with rfl | rfl | h
    · exact hexChar_mem _ (by omega)
    · exact hexChar_mem _ (by omega)
    · exact hexEncode_chars bs c h

theorem char_case (P : Char → Prop) (h1 : ∀ n : Fin 128, P (Char.ofNat n)) (h2 : ∀ c : Char, 128 ≤ c.toNat → P c) (c : Char) : P c := by
  by_cases h : c.toNat < 128
  · have := h1 ⟨c.toNat, h⟩
    simpa using this
  · exact h2 c (by omega)

theorem hexVal_none_big (c : Char) (h : 128 ≤ c.toNat) : hexVal c = none := by
  have e : ∀ d : Char, c ≤ d → d.toNat < 128 → False := by
    intro d hcd hd
    have : c.toNat ≤ d.toNat := hcd
    omega
  unfold hexVal
  rw [if_neg (fun hc => e _ hc.2 (by decide)), if_neg (fun hc => e _ hc.2 (by decide)), if_neg (fun hc => e _ hc.2 (by decide))]

/-- A digit is one of the lower-case digits, up to case. -/
theorem hexVal_some_iff (c : Char) : (hexVal c).isSome = true ↔ c.toLower ∈ hexChars := by
  by_cases h : c.toNat < 128
  · have key : ∀ n : Fin 128, ((hexVal (Char.ofNat n)).isSome = true ↔ (Char.ofNat n).toLower ∈ hexChars) := by decide +kernel
    have := key ⟨c.toNat, h⟩
    simpa using this
  · have h : 128 ≤ c.toNat := by omega
    rw [hexVal_none_big c h]
    have hl : c.toLower = c := by
      unfold Char.toLower
      split
      · rename_i hc
        exfalso
        have h1 : c.val ≤ 90 := hc.2
        have h2 : c.val.toNat ≤ 90 := UInt32.le_iff_toNat_le.1 h1
        have : c.val.toNat = c.toNat := rfl
        omega
      · rfl
    rw [hl]
    have hall : ∀ d ∈ hexChars, d.toNat < 128 := by decide +kernel
    constructor
    · simp
    · intro hc
      have := hall c hc
      omega

theorem hexVal_lower (c : Char) (n : Nat) (h : hexVal c = some n) : hexChar n = c.toLower := by
  by_cases hc : c.toNat < 128
  · have key : ∀ k : Fin 128, ∀ m : Fin 16, hexVal (Char.ofNat k) = some m.val → hexChar m = (Char.ofNat k).toLower := by
      decide +kernel
    have h1 := key ⟨c.toNat, hc⟩ ⟨n, hexVal_lt h⟩
    simp only [Char.ofNat_toNat] at h1
    exact h1 h
  · rw [hexVal_none_big c (by omega)] at h
    simp at h

theorem hexEncode_decode : ∀ (s : List Char) (bs : Bytes), hexDecode s = some bs → hexEncode bs = s.map Char.toLower
  | [], bs, h => by simp [hexDecode] at h; subst h; rfl
  | [_], bs, h => by simp [hexDecode] at h
  | c :: d :: cs, bs, h => by
    simp only [hexDecode] at h
    cases hc : hexVal c with
    | none => simp [hc] at h
    | some x =>
      cases hd : hexVal d with
      | none => simp [hc, hd] at h
      | some y =>
        cases hcs : hexDecode cs with
        | none => simp [hc, hd, hcs] at h
        | some rest =>
          simp only [hc, hd, hcs, Option.some.injEq] at h
          subst h
          have hx := hexVal_lt hc
          have hy := hexVal_lt hd
          have e : (UInt8.ofNat (16 * x + y)).toNat = 16 * x + y := by
            rw [UInt8.toNat_ofNat']; apply Nat.mod_eq_of_lt; omega
          simp only [hexEncode, e, List.map_cons]
          rw [hexEncode_decode cs rest hcs]
          rw [show (16 * x + y) / 16 = x by omega, show (16 * x + y) % 16 = y by omega, hexVal_lower c x hc, hexVal_lower d y hd]

theorem hexDecode_some_iff : ∀ (s : List Char), (hexDecode s).isSome = true ↔ s.length % 2 = 0 ∧ ∀ c ∈ s, c.toLower ∈ hexChars
  | [] => by simp [hexDecode]
  | [_] => by simp [hexDecode]
  | c :: d :: cs => by
    have ih := hexDecode_some_iff cs
    have h1 := hexVal_some_iff c
    have h2 := hexVal_some_iff d
    simp only [hexDecode, List.length_cons, List.mem_cons]
    constructor
    · intro h
      cases hc : hexVal c with
      | none => simp [hc] at h
      | some x =>
        cases hd : hexVal d with
        | none => simp [hc, hd] at h
        | some y =>
          cases hcs : hexDecode cs with
          | none => simp [hc, hd, hcs] at h
          | some rest =>
            obtain ⟨i1, i2⟩ := ih.1 (by simp [hcs])
            refine ⟨by omega, ?_⟩
            rintro e (rfl | rfl | he)
            · exact h1.1 (by simp [hc])
            · exact h2.1 (by simp [hd])
            · exact i2 e he
    · rintro ⟨i1, i2⟩
      have hc := h1.2 (i2 c (Or.inl rfl))
      have hd := h2.2 (i2 d (Or.inr (Or.inl rfl)))
      have hcs := ih.2 ⟨by omega, fun e he => i2 e (Or.inr (Or.inr he))⟩
      rw [Option.isSome_iff_exists] at hc hd hcs
      obtain ⟨x, hc⟩ := hc
      obtain ⟨y, hd⟩ := hd
      obtain ⟨z, hcs⟩ := hcs
      simp [hc, hd, hcs]

theorem hexDecode_length : ∀ (s : List Char) (bs : Bytes), hexDecode s = some bs → s.length = 2 * bs.length := by
  intro s bs h
  have := congrArg List.length (hexEncode_decode s bs h)
  rw [hexEncode_length, List.length_map] at this
  omega

/-! ## base64 -/

theorem b64Val_b64Char : ∀ n, n < 64 → b64Val (b64Char n) = some n := by decide
theorem b64Char_ne : ∀ n, n < 64 → b64Char n ≠ '=' ∧ b64Char n ≠ '\r' ∧ b64Char n ≠ '\n' := by decide

theorem b64Encode_clean : ∀ (bs : Bytes), (b64Encode bs).filter (fun c => c != '\r' && c != '\n') = b64Encode bs
  | [] => rfl
  | [a] => by
    have ha := u8_lt a
    have h1 := b64Char_ne (a.toNat / 4) (by omega)
    have h2 := b64Char_ne (a.toNat % 4 * 16) (by omega)
    simp [b64Encode, List.filter_cons, h1, h2]
  | [a, b] => by
    have ha := u8_lt a
    have hb := u8_lt b
    have h1 := b64Char_ne (a.toNat / 4) (by omega)
    have h2 := b64Char_ne (a.toNat % 4 * 16 + b.toNat / 16) (by omega)
    have h3 := b64Char_ne (b.toNat % 16 * 4) (by omega)
    simp [b64Encode, List.filter_cons, h1, h2, h3]
  | a :: b :: c :: bs => by
    have ha := u8_lt a
    have hb := u8_lt b
    have hc := u8_lt c
    have h1 := b64Char_ne (a.toNat / 4) (by omega)
    have h2 := b64Char_ne (a.toNat % 4 * 16 + b.toNat / 16) (by omega)
    have h3 := b64Char_ne (b.toNat % 16 * 4 + c.toNat / 64) (by omega)
    have h4 := b64Char_ne (c.toNat % 64) (by omega)
    have ih := b64Encode_clean bs
    simp only [b64Encode, List.filter_cons, ih]
    simp [h1, h2, h3, h4]

theorem b64Groups_encode : ∀ (bs : Bytes), b64Groups (b64Encode bs) = some bs
  | [] => rfl
  | [a] => by
    have ha := u8_lt a
    simp only [b64Encode, b64Groups, b64Group]
    rw [b64Val_b64Char _ (by omega), b64Val_b64Char _ (by omega)]
    simp [-UInt8.ofNat_add, -UInt8.ofNat_mul]
    apply u8_ofNat_eq; omega
  | [a, b] => by
    have ha := u8_lt a
    have hb := u8_lt b
    have h3 := b64Char_ne (b.toNat % 16 * 4) (by omega)
    simp only [b64Encode, b64Groups, b64Group]
    rw [b64Val_b64Char _ (by omega), b64Val_b64Char _ (by omega), b64Val_b64Char _ (by omega)]
    simp only [h3.1, if_false, if_true]
    simp [-UInt8.ofNat_add, -UInt8.ofNat_mul]
    exact ⟨u8_ofNat_eq (by omega), u8_ofNat_eq (by omega)⟩
  | a :: b :: c :: bs => by
    have ha := u8_lt a
    have hb := u8_lt b
    have hc := u8_lt c
    have h3 := b64Char_ne (b.toNat % 16 * 4 + c.toNat / 64) (by omega)
    have h4 := b64Char_ne (c.toNat % 64) (by omega)
    have ih := b64Groups_encode bs
    simp only [b64Encode, b64Groups, b64Group]
    rw [b64Val_b64Char _ (by omega), b64Val_b64Char _ (by omega), b64Val_b64Char _ (by omega), b64Val_b64Char _ (by omega)]
    simp only [h3.1, h4.1, if_false, ih]
    simp [-UInt8.ofNat_add, -UInt8.ofNat_mul]
    exact ⟨u8_ofNat_eq (by omega), u8_ofNat_eq (by omega), u8_ofNat_eq (by omega)⟩

theorem b64Decode_encode (bs : Bytes) : b64Decode (b64Encode bs) = some bs := by
  unfold b64Decode
  rw [b64Encode_clean, b64Groups_encode]

/-! ## numbers -/

theorem bytesNum_acc : ∀ (bs : Bytes) (acc : Nat),
    bs.foldl (fun acc b => 256 * acc + b.toNat) acc = acc * 256 ^ bs.length + bytesNum bs
  | [], acc => by simp [bytesNum]
  | b :: bs, acc => by
    have h1 := bytesNum_acc bs (256 * acc + b.toNat)
    have h2 := bytesNum_acc bs (256 * 0 + b.toNat)
    simp only [bytesNum, List.foldl_cons, List.length_cons] at *
    rw [h1, h2, Nat.pow_succ, Nat.add_mul, Nat.mul_zero, Nat.zero_add, ← Nat.add_assoc]
    congr 2
    rw [Nat.mul_comm 256 acc, Nat.mul_assoc, Nat.mul_comm 256]

theorem bytesNum_append (a b : Bytes) : bytesNum (a ++ b) = bytesNum a * 256 ^ b.length + bytesNum b := by
  unfold bytesNum
  rw [List.foldl_append, bytesNum_acc]
  rfl

theorem bytesNum_cons (a : UInt8) (b : Bytes) : bytesNum (a :: b) = a.toNat * 256 ^ b.length + bytesNum b := by
  have := bytesNum_append [a] b
  simpa [bytesNum] using this

theorem bytesNum_lt : ∀ (bs : Bytes), bytesNum bs < 256 ^ bs.length
  | [] => by simp [bytesNum]
  | b :: bs => by
    have h1 := bytesNum_lt bs
    have h2 := u8_lt b
    rw [bytesNum_cons, List.length_cons, Nat.pow_succ]
    have : (b.toNat + 1) * 256 ^ bs.length ≤ 256 * 256 ^ bs.length := Nat.mul_le_mul_right _ (by omega)
    rw [Nat.add_mul] at this
    rw [Nat.mul_comm (256 ^ bs.length) 256]
    omega

theorem bytesNum_inj : ∀ {a b : Bytes}, a.length = b.length → bytesNum a = bytesNum b → a = b
  | [], [], _, _ => rfl
  | x :: a, y :: b, hl, h => by
    simp only [List.length_cons, Nat.add_right_cancel_iff] at hl
    rw [bytesNum_cons, bytesNum_cons, hl] at h
    have ha := bytesNum_lt a
    have hb := bytesNum_lt b
    rw [hl] at ha
    have hxy : x.toNat = y.toNat := by
      generalize 256 ^ b.length = N at *
      have e1 : (x.toNat * N + bytesNum a) / N = x.toNat := by
        rw [Nat.mul_comm, Nat.mul_add_div (by omega), Nat.div_eq_of_lt ha]; rfl
      have e2 : (y.toNat * N + bytesNum b) / N = y.toNat := by
        rw [Nat.mul_comm, Nat.mul_add_div (by omega), Nat.div_eq_of_lt hb]; rfl
      rw [← e1, ← e2, h]
    have hxy' : x = y := UInt8.toNat.inj hxy
    subst hxy'
    rw [bytesNum_inj hl (by omega)]

theorem bytesNum_zeros (n : Nat) : bytesNum (List.replicate n (0 : UInt8)) = 0 := by
  induction n with
  | zero => rfl
  | succ n ih => rw [List.replicate_succ, bytesNum_cons, ih]; simp

theorem bytesNum_natBytesAux : ∀ (fuel n : Nat), n ≤ fuel → bytesNum (natBytesAux fuel n) = n
  | 0, n, h => by
    have : n = 0 := by omega
    subst this; rfl
  | fuel + 1, n, h => by
    unfold natBytesAux
    split
    · rename_i h0; subst h0; rfl
    · rw [bytesNum_append, bytesNum_natBytesAux fuel (n / 256) (by omega)]
      have : (UInt8.ofNat (n % 256)).toNat = n % 256 := by rw [UInt8.toNat_ofNat']; omega
      simp [bytesNum, this]
      omega

theorem bytesNum_natBytes (n : Nat) : bytesNum (natBytes n) = n := bytesNum_natBytesAux n n (Nat.le_refl _)

theorem natBytesAux_length : ∀ (fuel n k : Nat), n ≤ fuel → n < 256 ^ k → (natBytesAux fuel n).length ≤ k
  | 0, n, k, h, hk => by simp [natBytesAux]
  | fuel + 1, n, k, h, hk => by
    unfold natBytesAux
    split
    · simp
    · rename_i h0
      cases k with
      | zero => simp at hk; omega
      | succ k =>
        have := natBytesAux_length fuel (n / 256) k (by omega) (by
          rw [Nat.pow_succ] at hk
          exact Nat.div_lt_of_lt_mul (by rw [Nat.mul_comm]; exact hk))
        simp; omega

theorem natBytes_length_le {n k : Nat} : (natBytes n).length ≤ k ↔ n < 256 ^ k := by
  constructor
  · intro h
    have h1 := bytesNum_lt (natBytes n)
    rw [bytesNum_natBytes] at h1
    exact Nat.lt_of_lt_of_le h1 (Nat.pow_le_pow_right (by decide) h)
  · intro h
    exact natBytesAux_length n n k (Nat.le_refl _) h

end FcRetrieval
