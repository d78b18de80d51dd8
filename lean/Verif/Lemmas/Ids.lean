import Verif.Lemmas.Bytes
import Verif.Spec.Ids
/-! Helper lemmas about identifiers. -/

set_option linter.unusedSimpArgs false

namespace FcRetrieval.Ids
open FcRetrieval.Ring (cw)

theorem position_eq : ∀ bs : Bytes, position bs = bytesNum bs
  | [] => rfl
  | b :: bs => by rw [position, bytesNum_cons, position_eq bs]

theorem fromBytes_some (b : Bytes) (id : Id) :
    fromBytes b = some id ↔ b.length ≤ 32 ∧ id = List.replicate (32 - b.length) 0 ++ b := by
  unfold fromBytes wordSize
  split
  · constructor
    · intro h; simp at h
    · rintro ⟨h, _⟩; omega
  · rw [List.take_replicate, show min (32 - b.length) 32 = 32 - b.length by omega]
    constructor
    · intro h
      simp only [Option.some.injEq] at h
      exact ⟨by omega, h.symm⟩
    · rintro ⟨_, rfl⟩; rfl

theorem fromBytes_proper {b : Bytes} {id : Id} (h : fromBytes b = some id) : id.length = 32 := by
  obtain ⟨h1, rfl⟩ := (fromBytes_some _ _).1 h
  simp; omega

theorem fromBytes_of_proper {id : Id} (h : id.length = 32) : fromBytes id = some id := by
  rw [fromBytes_some]
  exact ⟨by omega, by rw [h]; rfl⟩

theorem toStr_eq {id : Id} (h : id.length = 32) : toStr id = hexEncode id := by
  unfold toStr
  simp only
  split
  · rename_i h0
    have := congrArg List.length h0
    rw [hexEncode_length] at this
    simp at this; omega
  · rfl

theorem fromHex_toStr {id : Id} (h : id.length = 32) : fromHex (toStr id) = some id := by
  rw [toStr_eq h, fromHex, hexDecode_encode]
  exact fromBytes_of_proper h

theorem lowerHexDigits_eq : lowerHexDigits = hexChars := by decide +kernel

theorem bytesNum_pad (k : Nat) (b : Bytes) : bytesNum (List.replicate k 0 ++ b) = bytesNum b := by
  rw [bytesNum_append, bytesNum_zeros]; simp

theorem bytesLe_num : ∀ {a b : Bytes}, a.length = b.length → (bytesLe a b = true ↔ bytesNum a ≤ bytesNum b)
  | [], [], _ => by simp [bytesLe]
  | x :: a, y :: b, hl => by
    simp only [List.length_cons, Nat.add_right_cancel_iff] at hl
    have ih := bytesLe_num hl
    have ha := bytesNum_lt a
    have hb := bytesNum_lt b
    rw [hl] at ha
    rw [bytesNum_cons, bytesNum_cons, hl, bytesLe]
    generalize 256 ^ b.length = N at *
    split
    · rename_i h
      have : (x.toNat + 1) * N ≤ y.toNat * N := Nat.mul_le_mul_right _ h
      rw [Nat.add_mul] at this
      simp only [true_iff]; omega
    · split
      · rename_i h; rw [ih, h]; omega
      · rename_i h h'
        have : (y.toNat + 1) * N ≤ x.toNat * N := Nat.mul_le_mul_right _ (by omega)
        rw [Nat.add_mul] at this
        simp only [Bool.false_eq_true, false_iff]; omega

theorem bytesLe_trans : ∀ (a b c : Bytes), bytesLe a b = true → bytesLe b c = true → bytesLe a c = true
  | [], _, _, _, _ => by simp [bytesLe]
  | _ :: _, [], _, h, _ => by simp [bytesLe] at h
  | _ :: _, _ :: _, [], _, h => by simp [bytesLe] at h
  | x :: a, y :: b, z :: c, h1, h2 => by
    have ih := bytesLe_trans a b c
    simp only [bytesLe] at h1 h2 ⊢
    split at h1
    · split at h2
      · rw [if_pos (by omega)]
      · split at h2
        · rw [if_pos (by omega)]
        · simp at h2
    · split at h1
      · split at h2
        · rw [if_pos (by omega)]
        · split at h2
          · rw [if_neg (by omega), if_pos (by omega)]
            exact ih h1 h2
          · simp at h2
      · simp at h1

theorem bytesLe_total : ∀ (a b : Bytes), (bytesLe a b || bytesLe b a) = true
  | [], _ => by simp [bytesLe]
  | _ :: _, [] => by simp [bytesLe]
  | x :: a, y :: b => by
    have ih := bytesLe_total a b
    simp only [bytesLe]
    by_cases h1 : x.toNat < y.toNat
    · simp [h1]
    · by_cases h2 : x.toNat = y.toNat
      · simp only [h2, Nat.lt_irrefl, if_false, if_true]
        exact ih
      · have h3 : y.toNat < x.toNat := by omega
        simp [h3]

theorem sortByteArrays_perm (l : List Id) : (sortByteArrays l).Perm l := List.mergeSort_perm l bytesLe

theorem sortByteArrays_sorted (l : List Id) : (sortByteArrays l).Pairwise (fun a b => bytesLe a b = true) :=
  List.pairwise_mergeSort bytesLe_trans bytesLe_total l

theorem sortClockwise_perm (s : Id) (l : List Id) : (sortClockwise s l).Perm l := by
  unfold sortClockwise
  split
  · exact List.Perm.refl _
  · refine List.Perm.trans ?_ (sortByteArrays_perm l)
    refine List.Perm.trans List.perm_append_comm ?_
    rw [List.take_append_drop]

/-- the positions at and after the start come first, in ascending order; then those before the start -/
theorem sortClockwise_split (s : Id) (l : List Id) (hs : Proper s) (hl : ∀ x ∈ l, Proper x) :
    ∃ hi lo, sortClockwise s l = hi ++ lo ∧
      (hi ++ lo).Perm l ∧
      ((∀ x ∈ hi, bytesNum s ≤ bytesNum x) ∧ (∀ x ∈ lo, bytesNum x < bytesNum s)) ∧
      hi.Pairwise (fun a b => bytesNum a ≤ bytesNum b) ∧ lo.Pairwise (fun a b => bytesNum a ≤ bytesNum b) := by
  have hperm := sortClockwise_perm s l
  unfold sortClockwise at hperm ⊢
  split
  · rename_i hlen
    rw [if_pos hlen] at hperm
    match l, hlen with
    | [], _ => exact ⟨[], [], by simp⟩
    | [x], _ =>
      by_cases h : bytesNum s ≤ bytesNum x
      · exact ⟨[x], [], by simp [h]⟩
      · exact ⟨[], [x], by simp; omega⟩
  · rename_i hlen
    rw [if_neg hlen] at hperm
    have hS : ∀ x ∈ sortByteArrays l, Proper x := fun x hx => hl x ((sortByteArrays_perm l).mem_iff.1 hx)
    have hsort : (sortByteArrays l).Pairwise (fun a b => bytesNum a ≤ bytesNum b) := by
      refine List.Pairwise.imp_of_mem ?_ (sortByteArrays_sorted l)
      intro a b ha hb h
      exact (bytesLe_num (by rw [hS a ha, hS b hb])).1 h
    generalize sortByteArrays l = S at *
    have hle : ∀ x ∈ S, (bytesLe s x = true ↔ bytesNum s ≤ bytesNum x) := fun x hx =>
      bytesLe_num (by rw [hs, hS x hx])
    simp only [startIndex] at hperm ⊢
    cases hf : S.findIdx? (fun v => bytesLe s v) with
    | none =>
      simp only [hf, List.drop_zero, List.take_zero, List.append_nil] at hperm ⊢
      refine ⟨[], S, by simp, by simpa using hperm, ⟨by simp, ?_⟩, by simp, hsort⟩
      intro x hx
      have h1 := List.findIdx?_eq_none_iff.1 hf x hx
      have h2 := hle x hx
      rw [h1] at h2
      have : ¬ bytesNum s ≤ bytesNum x := fun h => by simpa using h2.2 h
      omega
    | some i =>
      simp only [hf] at hperm ⊢
      obtain ⟨hi, h1, h2⟩ := List.findIdx?_eq_some_iff_getElem.1 hf
      refine ⟨S.drop i, S.take i, rfl, hperm, ⟨?_, ?_⟩, hsort.drop, hsort.take⟩
      · intro x hx
        obtain ⟨k, hk, rfl⟩ := List.mem_iff_getElem.1 hx
        rw [List.length_drop] at hk
        rw [List.getElem_drop]
        have a1 := (hle _ (List.getElem_mem hi)).1 h1
        by_cases h0 : k = 0
        · subst h0; exact a1
        · exact Nat.le_trans a1 (List.pairwise_iff_getElem.1 hsort i (i + k) hi (by omega) (by omega))
      · intro x hx
        obtain ⟨k, hk, rfl⟩ := List.mem_iff_getElem.1 hx
        rw [List.length_take] at hk
        rw [List.getElem_take]
        have a1 := h2 k (by omega)
        have a2 := hle _ (List.getElem_mem (show k < S.length by omega))
        have : ¬ bytesNum s ≤ bytesNum S[k] := fun h => a1 (a2.2 h)
        omega

theorem pow_eq : (256 : Nat) ^ 32 = 2 ^ 256 := by decide +kernel

theorem num_lt {x : Id} (h : Proper x) : bytesNum x < 2 ^ 256 := by
  have := bytesNum_lt x
  rw [h, pow_eq] at this
  exact this

theorem cw_ge {N a b : Nat} (hb : b < N) (h : a ≤ b) : (b + N - a) % N = b - a := by
  rw [show b + N - a = (b - a) + N by omega, Nat.add_mod_right, Nat.mod_eq_of_lt (by omega)]

theorem cw_lt {N a b : Nat} (ha : a < N) (h : b < a) : (b + N - a) % N = b + N - a := Nat.mod_eq_of_lt (by omega)

theorem sortClockwise_cw (s : Id) (l : List Id) (hs : Proper s) (hl : ∀ x ∈ l, Proper x) :
    (sortClockwise s l).Pairwise (fun a b => cw (bytesNum s) (bytesNum a) ≤ cw (bytesNum s) (bytesNum b)) := by
  obtain ⟨hi, lo, e, hp, ⟨h1, h2⟩, h3, h4⟩ := sortClockwise_split s l hs hl
  rw [e]
  have hpr : ∀ x ∈ hi ++ lo, bytesNum x < 2 ^ 256 := fun x hx => num_lt (hl x (hp.mem_iff.1 hx))
  have hsn := num_lt hs
  have hhi : ∀ x ∈ hi, bytesNum x < 2 ^ 256 := fun x hx => hpr x (List.mem_append_left _ hx)
  have hlo : ∀ x ∈ lo, bytesNum x < 2 ^ 256 := fun x hx => hpr x (List.mem_append_right _ hx)
  unfold cw
  generalize 2 ^ 256 = N at *
  rw [List.pairwise_append]
  refine ⟨?_, ?_, ?_⟩
  · refine List.Pairwise.imp_of_mem ?_ h3
    intro a b ha hb hab
    rw [cw_ge (hhi a ha) (h1 a ha), cw_ge (hhi b hb) (h1 b hb)]
    omega
  · refine List.Pairwise.imp_of_mem ?_ h4
    intro a b ha hb hab
    rw [cw_lt hsn (h2 a ha), cw_lt hsn (h2 b hb)]
    omega
  · intro a ha b hb
    have := h1 a ha
    have := h2 b hb
    have := hhi a ha
    rw [cw_ge (hhi a ha) (h1 a ha), cw_lt hsn (h2 b hb)]
    omega

end FcRetrieval.Ids

namespace FcRetrieval.Ids

theorem unjsonByte_some (j : Json) (b : UInt8) :
    unjsonByte j = some b ↔ j = .num b.toNat ∨ (j = .null ∧ b = 0) := by
  have hb := u8_lt b
  cases j with
  | null => simp [unjsonByte]; exact ⟨Eq.symm, Eq.symm⟩
  | num n =>
    simp only [unjsonByte]
    split
    · rename_i h
      simp only [Option.some.injEq, Json.num.injEq, reduceCtorEq, false_and, or_false]
      constructor
      · intro e
        subst e
        rw [UInt8.toNat_ofNat']
        omega
      · rintro rfl
        simp
    · rename_i h
      simp only [reduceCtorEq, Json.num.injEq, false_and, or_false, false_iff]
      rintro rfl
      exact h (by omega)
  | _ => simp [unjsonByte]

theorem mapM_unjsonByte : ∀ (xs : List Json) (b : Bytes), xs.mapM unjsonByte = some b ↔
    (xs.length = b.length ∧ ∀ i (h : i < b.length), xs[i]? = some (.num b[i].toNat) ∨ (xs[i]? = some .null ∧ b[i] = 0))
  | [], b => by
    cases b with
    | nil => simp
    | cons c b => simp
  | x :: xs, b => by
    rw [List.mapM_cons]
    constructor
    · intro h
      cases hx : unjsonByte x with
      | none => simp [hx] at h
      | some c =>
        cases hxs : xs.mapM unjsonByte with
        | none => simp [hx, hxs] at h
        | some cs =>
          simp [hx, hxs] at h
          subst h
          obtain ⟨h1, h2⟩ := (mapM_unjsonByte xs cs).1 hxs
          refine ⟨by simp [h1], ?_⟩
          intro i hi
          cases i with
          | zero => simpa using (unjsonByte_some x c).1 hx
          | succ i => simpa using h2 i (by simpa using hi)
    · rintro ⟨h1, h2⟩
      cases b with
      | nil => simp at h1
      | cons c cs =>
        have hx : unjsonByte x = some c := by
          rw [unjsonByte_some]; have := h2 0 (by simp); simp only [List.getElem_cons_zero] at this; simpa using this
        have hxs : xs.mapM unjsonByte = some cs := by
          rw [mapM_unjsonByte]
          refine ⟨by simpa using h1, fun i hi => ?_⟩
          have := h2 (i + 1) (by simpa using hi)
          simp only [List.getElem_cons_succ] at this
          simpa using this
        simp [hx, hxs]

theorem unjsonBytes_carries (j : Json) (b : Bytes) :
    (∃ ob, unjsonBytes j = some ob ∧ ob.getD [] = b) ↔ Carries j b := by
  unfold Carries
  cases j with
  | null => simp [unjsonBytes]
  | str s =>
    simp only [unjsonBytes]
    cases h : b64Decode s with
    | none => simp [h]
    | some c => simp [h]
  | arr xs =>
    simp only [unjsonBytes, Json.arr.injEq, reduceCtorEq, false_and, exists_const, or_false, false_or, exists_eq_left', or_false]
    rw [← mapM_unjsonByte]
    cases h : xs.mapM unjsonByte with
    | none => simp [h]
    | some c => simp [h]
  | _ => simp [unjsonBytes]

theorem unmarshal_iff (j : Json) (id : Id) : unmarshal j = some id ↔ Carries j id ∧ id.length = 32 := by
  rw [← unjsonBytes_carries]
  unfold unmarshal wordSize
  cases h : unjsonBytes j with
  | none => simp
  | some ob =>
    simp only [Option.some.injEq]
    split
    · rename_i hl
      constructor
      · intro h; simp at h
      · rintro ⟨⟨_, rfl, rfl⟩, h⟩; exact absurd h hl
    · rename_i hl
      constructor
      · intro h; simp at h; exact ⟨⟨_, rfl, h⟩, by rw [← h]; omega⟩
      · rintro ⟨⟨_, rfl, rfl⟩, h⟩; rfl

theorem mapFromString_some : ∀ (ss : List (List Char)) (ids : List Id),
    mapFromString ss = some ids ↔ ss.map fromHex = ids.map some
  | [], ids => by cases ids <;> simp [mapFromString]
  | s :: ss, ids => by
    simp only [mapFromString]
    constructor
    · intro h
      cases h1 : fromHex s with
      | none => simp [h1] at h
      | some id =>
        cases h2 : mapFromString ss with
        | none => simp [h1, h2] at h
        | some l =>
          simp [h1, h2] at h
          subst h
          simp [h1, (mapFromString_some ss l).1 h2]
    · intro h
      cases ids with
      | nil => simp at h
      | cons id l =>
        simp only [List.map_cons, List.cons.injEq] at h
        rw [h.1, (mapFromString_some ss l).2 h.2]

end FcRetrieval.Ids
