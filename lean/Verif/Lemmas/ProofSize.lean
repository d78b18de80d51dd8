import Verif.Spec.Offer
import Verif.Spec.Client
import Verif.Lemmas.Merkle
/-!
# The size of a Merkle proof

A proof has one step for each level of the tree, so its encoding stays far below the four gigabytes that its length prefix can
count, for every list of CIDs that fits in memory.
-/

set_option linter.unusedSimpArgs false

namespace FcRetrieval.Merkle
open FcRetrieval.Ids (Id)

theorem pathAux_length (H : Hash) : ∀ (k fuel : Nat) (nl : List Bytes) (i : Nat), 2 ≤ nl.length → nl.length ≤ 2 ^ (k + 1) →
    (pathAux H fuel nl i).length ≤ k + 1
  | _, 0, _, _, _, _ => by simp [pathAux]
  | 0, fuel + 1, nl, i, h2, hk => by
    have : nl.length = 2 := by omega
    simp [pathAux, this]
  | k + 1, fuel + 1, nl, i, h2, hk => by
    simp only [pathAux]
    by_cases hl : nl.length = 2
    · rw [if_pos hl]; simp
    · rw [if_neg hl]
      have hp := pairUp_length H nl
      have hpow : 2 ^ (k + 1 + 1) = 2 * 2 ^ (k + 1) := by rw [Nat.pow_succ]; omega
      have := pathAux_length H k fuel (pairUp H nl) (i / 2) (by omega) (by omega)
      simp only [List.length_cons]
      omega

theorem pairUp_lengths {H : Hash} (hH : Digest32 H) : ∀ (nl : List Bytes), ∀ b ∈ pairUp H nl, b.length ≤ 32
  | [], b, h => by simp [pairUp] at h
  | [a], b, h => by simp [pairUp] at h; rw [h, hH]; exact Nat.le_refl _
  | a :: c :: l, b, h => by
    simp only [pairUp, List.mem_cons] at h
    rcases h with h | h
    · rw [h, hH]; exact Nat.le_refl _
    · exact pairUp_lengths hH l b h

theorem getD_length {nl : List Bytes} (h : ∀ b ∈ nl, b.length ≤ 32) (i : Nat) (d : Bytes) (hd : d.length ≤ 32) :
    (nl.getD i d).length ≤ 32 := by
  rw [List.getD_eq_getElem?_getD]
  cases hi : nl[i]? with
  | none => simpa using hd
  | some b => exact h b (List.mem_of_getElem? hi)

theorem pathAux_entries {H : Hash} (hH : Digest32 H) : ∀ (fuel : Nat) (nl : List Bytes) (i : Nat),
    (∀ b ∈ nl, b.length ≤ 32) → ∀ s ∈ pathAux H fuel nl i, s.1.length ≤ 32 ∧ (s.2 = 0 ∨ s.2 = 1)
  | 0, _, _, _, s, hs => by simp [pathAux] at hs
  | fuel + 1, nl, i, hnl, s, hs => by
    have h1 := getD_length hnl (2 * (i / 2)) [] (by simp)
    have h2 := getD_length hnl (2 * (i / 2) + 1) _ h1
    have hstep : ∀ s : Bytes × Int,
        s = (if nl.getD (2 * (i / 2)) [] = nl.getD i [] then (nl.getD (2 * (i / 2) + 1) (nl.getD (2 * (i / 2)) []), 1)
          else (nl.getD (2 * (i / 2)) [], 0)) → s.1.length ≤ 32 ∧ (s.2 = 0 ∨ s.2 = 1) := by
      intro s hs
      split at hs <;> subst hs
      · exact ⟨h2, Or.inr rfl⟩
      · exact ⟨h1, Or.inl rfl⟩
    simp only [pathAux] at hs
    split at hs
    · exact hstep s (by simpa using hs)
    · rcases List.mem_cons.1 hs with hs | hs
      · exact hstep s hs
      · exact pathAux_entries hH fuel _ _ (pairUp_lengths hH nl) s hs

theorem leaves_entries {cs : List Id} (h : ∀ c ∈ cs, c.length = 32) : ∀ b ∈ leaves cs, b.length ≤ 32 := by
  intro b hb
  unfold leaves at hb
  split at hb
  · rcases List.mem_append.1 hb with hb | hb
    · rw [h b hb]; exact Nat.le_refl _
    · simp at hb
      subst hb
      cases cs with
      | nil => simp
      | cons c cs => 
        have := h ((c :: cs).getLast (by simp)) (List.getLast_mem _)
        simp only [List.getLast?_eq_some_getLast (List.cons_ne_nil c cs), Option.getD_some]
        omega
  · rw [h b hb]; exact Nat.le_refl _

theorem leaves_len (cs : List Id) (h : cs ≠ []) : 2 ≤ (leaves cs).length ∧ (leaves cs).length ≤ cs.length + 1 := by
  have : 0 < cs.length := List.length_pos_iff.2 h
  unfold leaves
  split <;> simp <;> omega

/-! ## rendering -/

theorem escChar_length (c : Char) : (escChar c).length ≤ 6 := by
  unfold escChar hex4Digits
  repeat' split
  all_goals simp

theorem escStr_length : ∀ s, (escStr s).length ≤ 6 * s.length
  | [] => by simp [escStr]
  | c :: cs => by
    have := escChar_length c
    have := escStr_length cs
    simp only [escStr, List.length_append, List.length_cons]
    omega

theorem b64_length : ∀ (b : Bytes), (b64Encode b).length ≤ 2 * b.length + 4
  | [] => by simp [b64Encode]
  | [a] => by simp [b64Encode]
  | [a, b] => by simp [b64Encode]
  | a :: b :: c :: bs => by
    have := b64_length bs
    simp only [b64Encode, List.length_cons]
    omega

theorem renderElems_length (n : Nat) : ∀ l : List Json, (∀ j ∈ l, (render j).length ≤ n) →
    (renderElems l).length ≤ (n + 1) * l.length + 1
  | [], _ => by simp [renderElems]
  | j :: l, h => by
    have h1 := h j (by simp)
    have h2 := renderElems_length n l (fun j hj => h j (by simp [hj]))
    simp only [renderElems, List.length_cons, List.length_append]
    have : (n + 1) * (l.length + 1) = (n + 1) * l.length + (n + 1) := by rw [Nat.mul_add, Nat.mul_one]
    omega

theorem renderArr_length (n : Nat) (l : List Json) (h : ∀ j ∈ l, (render j).length ≤ n) :
    (render (.arr l)).length ≤ (n + 1) * l.length + 2 := by
  cases l with
  | nil => simp [render]
  | cons j l =>
    have h1 := h j (by simp)
    have h2 := renderElems_length n l (fun j hj => h j (by simp [hj]))
    simp only [render, List.length_cons, List.length_append]
    have : (n + 1) * (l.length + 1) = (n + 1) * l.length + (n + 1) := by rw [Nat.mul_add, Nat.mul_one]
    omega

/-- The proof of a CID in a list which fits in memory can be encoded. -/
theorem generate_fits {H : Hash} (hH : Digest32 H) {cs : List Id} (hcs : ∀ c ∈ cs, c.length = 32) (hlen : cs.length < 2 ^ 63)
    (x : Id) :
    (∀ l, (generate H cs x).index = some l → ∀ n ∈ l, -(2 ^ 63) ≤ n ∧ n < 2 ^ 63) ∧
    (render (pathJson (generate H cs x).path)).length < 2 ^ 32 ∧
    (render (indexJson (generate H cs x).index)).length < 2 ^ 32 ∧
    ((generate H cs x).path.getD []).length ≤ ((generate H cs x).index.getD []).length := by
  unfold generate
  cases hf : (leaves cs).findIdx? (fun c => Ids.equals c x) with
  | none => simp [pathJson, indexJson, render]
  | some i =>
    have hne : cs ≠ [] := by
      rintro rfl
      simp [leaves] at hf
    obtain ⟨hl2, hl1⟩ := leaves_len cs hne
    have hlen' := pathAux_length H 63 (leaves cs).length (leaves cs) i hl2 (by
      have : (2:Nat) ^ (63 + 1) = 2 * 2 ^ 63 := by decide
      omega)
    have hent := pathAux_entries hH (leaves cs).length (leaves cs) i (leaves_entries hcs)
    simp only []
    generalize pathAux H (leaves cs).length (leaves cs) i = p at hlen' hent ⊢
    refine ⟨?_, ?_, ?_, ?_⟩
    · intro l hl n hn
      simp only [Option.some.injEq] at hl
      subst hl
      obtain ⟨s, hs, rfl⟩ := List.mem_map.1 hn
      rcases (hent s hs).2 with h | h <;> rw [h] <;> decide
    · simp only [pathJson]
      refine Nat.lt_of_le_of_lt (renderArr_length 500 _ ?_) (Nat.lt_of_le_of_lt (m := 501 * 64 + 2) ?_ (by decide))
      · intro j hj
        simp only [List.map_map, List.mem_map] at hj
        obtain ⟨s, hs, rfl⟩ := hj
        have h1 := (hent s hs).1
        have h2 := b64_length s.1
        have h3 := escStr_length (b64Encode s.1)
        simp only [Function.comp, jsonBytes, render, List.length_cons, List.length_append, List.length_nil]
        omega
      · simp only [List.length_map]
        omega
    · simp only [indexJson]
      refine Nat.lt_of_le_of_lt (renderArr_length 500 _ ?_) (Nat.lt_of_le_of_lt (m := 501 * 64 + 2) ?_ (by decide))
      · intro j hj
        simp only [List.map_map, List.mem_map] at hj
        obtain ⟨s, hs, rfl⟩ := hj
        rcases (hent s hs).2 with h | h <;> simp only [Function.comp, h] <;> decide +kernel
      · simp only [List.length_map]
        omega
    · simp

end FcRetrieval.Merkle

namespace FcRetrieval.Offer
open FcRetrieval.Ids (Id Proper)

/-- Every sub-offer cut from an offer in range can be encoded and verified. -/
theorem subOffer_fits {H : Merkle.Hash} (hH : Merkle.Digest32 H) {o : CidOffer} (ho : InRange o) (hlen : o.cids.length < 2 ^ 63)
    {cid : Id} (hc : Proper cid) : SubInRange (subOffer H o cid) ∧ Client.Whole (subOffer H o cid) := by
  obtain ⟨⟨p, hp, hpp⟩, hcs, hpr, hq, he1, he2⟩ := ho
  obtain ⟨h1, h2, h3, h4⟩ := Merkle.generate_fits hH hcs hlen cid
  refine ⟨⟨⟨p, hp, hpp⟩, ⟨cid, rfl, hc⟩, hpr, hq, he1, he2, h1, h2, h3⟩, ?_, ?_, h4⟩
  · simp [subOffer, hp]
  · simp [subOffer]

end FcRetrieval.Offer
