import Verif.Lemmas.RingProps
/-! Helper lemmas: the identifiers nearest to a point, as a stretch of the ring around the point. -/

set_option linter.unusedSimpArgs false

namespace FcRetrieval.Ring

/-- Starting at `x`, the ring lists its identifiers by their clockwise distance from `x`. -/
theorem rotated_sorted {lo hi : List Hex} {x : Hex} (hx : keyOf x < 2 ^ 256) (hk : ∀ y ∈ lo ++ hi, keyOf y < 2 ^ 256)
    (hs : (lo ++ hi).Pairwise (fun a b => keyOf a < keyOf b)) (hlo : ∀ y ∈ lo, keyOf y < keyOf x)
    (hhi : ∀ y ∈ hi, keyOf x ≤ keyOf y) :
    (hi ++ lo).Pairwise (fun a b => cw (keyOf x) (keyOf a) < cw (keyOf x) (keyOf b)) := by
  rw [List.pairwise_append] at hs ⊢
  refine ⟨hs.2.1.imp_of_mem ?_, hs.1.imp_of_mem ?_, ?_⟩
  · intro a b ha hb h
    rw [cw_eq hx (hk a (by simp [ha])), cw_eq hx (hk b (by simp [hb])), if_pos (hhi a ha), if_pos (hhi b hb)]
    have := hhi a ha
    omega
  · intro a b ha hb h
    have h1 := hlo a ha
    have h2 := hlo b hb
    rw [cw_eq hx (hk a (by simp [ha])), cw_eq hx (hk b (by simp [hb])), if_neg (by omega), if_neg (by omega)]
    omega
  · intro a ha b hb
    have h1 := hhi a ha
    have h2 := hlo b hb
    rw [cw_eq hx (hk a (by simp [ha])), cw_eq hx (hk b (by simp [hb])), if_pos h1, if_neg (by omega)]
    have := hk a (by simp [ha])
    omega

/-- The part after `x` holds those of the nearest that are ahead of `x`, the part before `x` those that are behind it. -/
theorem window_sides {x : Hex} {R M L : List Hex} (hx : keyOf x < 2 ^ 256) (hk : ∀ y ∈ R ++ M ++ L, keyOf y < 2 ^ 256)
    (hne : ∀ y ∈ R ++ M ++ L, keyOf x ≠ keyOf y)
    (hs : (R ++ M ++ L).Pairwise (fun a b => cw (keyOf x) (keyOf a) < cw (keyOf x) (keyOf b))) (hM : M ≠ [])
    (hnear : ∀ y ∈ L ++ R, ∀ z ∈ M, circ (keyOf x) (keyOf y) ≤ circ (keyOf x) (keyOf z)) :
    (∀ y ∈ R, cw (keyOf x) (keyOf y) < cw (keyOf y) (keyOf x)) ∧ (∀ y ∈ L, cw (keyOf y) (keyOf x) < cw (keyOf x) (keyOf y)) := by
  obtain ⟨z, hz⟩ := List.exists_mem_of_ne_nil M hM
  have hzk := hk z (by simp [hz])
  have hzb := cw_back hx hzk (hne z (by simp [hz]))
  have hzl := cw_lt (keyOf x) (keyOf z)
  rw [List.pairwise_append, List.pairwise_append] at hs
  constructor
  · intro y hy
    have h1 := hs.1.2.2 y hy z hz
    have h2 := hnear y (by simp [hy]) z hz
    have h3 := cw_back hx (hk y (by simp [hy])) (hne y (by simp [hy]))
    unfold circ at h2
    omega
  · intro y hy
    have h1 := hs.2.2 z (by simp [hz]) y hy
    have h2 := hnear y (by simp [hy]) z hz
    have h3 := cw_back hx (hk y (by simp [hy])) (hne y (by simp [hy]))
    have := cw_lt (keyOf x) (keyOf y)
    unfold circ at h2
    omega

/-- The arc from the first to the last of the nearest passes `x` exactly when some of them are before `x` and some after it. -/
theorem window_contains {x a b : Hex} {R M L : List Hex} (hx : keyOf x < 2 ^ 256) (hk : ∀ y ∈ R ++ M ++ L, keyOf y < 2 ^ 256)
    (hne : ∀ y ∈ R ++ M ++ L, keyOf x ≠ keyOf y)
    (hs : (R ++ M ++ L).Pairwise (fun a b => cw (keyOf x) (keyOf a) < cw (keyOf x) (keyOf b)))
    (ha : (L ++ R).head? = some a) (hb : (L ++ R).getLast? = some b) :
    (cw (keyOf a) (keyOf x) ≤ cw (keyOf a) (keyOf b) ↔ L ≠ [] ∧ R ≠ []) ∧
    (∀ y ∈ L ++ R, cw (keyOf a) (keyOf y) ≤ cw (keyOf a) (keyOf b)) ∧
    (∀ z ∈ M, ¬ cw (keyOf a) (keyOf z) ≤ cw (keyOf a) (keyOf b)) := by
  have hself : ∀ k : Nat, cw k k = 0 := by
    intro k; unfold cw; rw [Nat.add_comm, Nat.add_sub_cancel, Nat.mod_self]
  have hmemA : a ∈ L ++ R := List.mem_of_head? ha
  have hmemB : b ∈ L ++ R := List.mem_of_getLast? hb
  have hin : ∀ y ∈ L ++ R, y ∈ R ++ M ++ L := by
    intro y hy; simp only [List.mem_append] at hy ⊢; grind
  have hak := hk a (hin a hmemA)
  have hbk := hk b (hin b hmemB)
  have hab := cw_back hx hak (hne a (hin a hmemA))
  have hbb := cw_back hx hbk (hne b (hin b hmemB))
  have hal := cw_lt (keyOf x) (keyOf a)
  have hbl := cw_lt (keyOf x) (keyOf b)
  rw [List.pairwise_append, List.pairwise_append] at hs
  -- going round from one further ahead to one less far ahead
  have hround : ∀ p q : Hex, keyOf p < 2 ^ 256 → keyOf q < 2 ^ 256 → cw (keyOf x) (keyOf q) < cw (keyOf x) (keyOf p) →
      cw (keyOf p) (keyOf q) = 2 ^ 256 - (cw (keyOf x) (keyOf p) - cw (keyOf x) (keyOf q)) := by
    intro p q hp hq h
    have h1 := cw_sub hx hq hp h
    rw [cw_back hq hp, h1]
    intro he; rw [he] at h; omega
  -- the first and the last of one side
  have hmono : ∀ (l : List Hex), l.Pairwise (fun a b => cw (keyOf x) (keyOf a) < cw (keyOf x) (keyOf b)) →
      (∀ y ∈ l, keyOf y < 2 ^ 256) → l.head? = some a → l.getLast? = some b →
      (∀ y ∈ l, cw (keyOf x) (keyOf a) ≤ cw (keyOf x) (keyOf y) ∧ cw (keyOf x) (keyOf y) ≤ cw (keyOf x) (keyOf b)) := by
    intro l hp _ h1 h2 y hy
    constructor
    · cases l with
      | nil => simp at h1
      | cons c l =>
        simp at h1; subst h1
        rcases List.mem_cons.1 hy with rfl | hy
        · exact Nat.le_refl _
        · exact Nat.le_of_lt ((List.pairwise_cons.1 hp).1 y hy)
    · obtain ⟨l', rfl⟩ : ∃ l', l = l' ++ [b] := List.getLast?_eq_some_iff.1 h2
      rw [List.pairwise_append] at hp
      rcases List.mem_append.1 hy with hy | hy
      · exact Nat.le_of_lt (hp.2.2 y hy b (by simp))
      · simp at hy; subst hy; exact Nat.le_refl _
  have hsub : ∀ y, keyOf y < 2 ^ 256 → cw (keyOf x) (keyOf a) ≤ cw (keyOf x) (keyOf y) →
      cw (keyOf a) (keyOf y) = cw (keyOf x) (keyOf y) - cw (keyOf x) (keyOf a) := by
    intro y hy h
    rcases Nat.lt_or_eq_of_le h with h | h
    · exact cw_sub hx hak hy h
    · have : keyOf a = keyOf y := by
        rw [cw_eq hx hak, cw_eq hx hy] at h
        split at h <;> split at h <;> omega
      rw [this, hself]; omega
  have hone : ∀ (l : List Hex), l.Pairwise (fun a b => cw (keyOf x) (keyOf a) < cw (keyOf x) (keyOf b)) →
      (∀ y ∈ l, keyOf y < 2 ^ 256) → l.head? = some a → l.getLast? = some b →
      (¬ cw (keyOf a) (keyOf x) ≤ cw (keyOf a) (keyOf b)) ∧ (∀ y ∈ l, cw (keyOf a) (keyOf y) ≤ cw (keyOf a) (keyOf b)) := by
    intro l hp hkl h1 h2
    have hm := hmono l hp hkl h1 h2
    have hb1 := hm b (List.mem_of_getLast? h2)
    constructor
    · rw [hsub b hbk hb1.1, hab]; omega
    · intro y hy
      have := hm y hy
      rw [hsub b hbk hb1.1, hsub y (hkl y hy) this.1]
      omega
  cases L with
  | nil =>
    have := hone R hs.1.1 (fun y hy => hk y (by simp [hy])) (by simpa using ha) (by simpa using hb)
    refine ⟨⟨fun h => absurd h this.1, fun h => absurd rfl h.1⟩, by simpa using this.2, fun z hz => ?_⟩
    have hbR : b ∈ R := by simpa using hmemB
    have haR : a ∈ R := by simpa using hmemA
    have h1 := hs.1.2.2 b hbR z hz
    have h2 := hs.1.2.2 a haR z hz
    have h3 := (hmono R hs.1.1 (fun y hy => hk y (by simp [hy])) (by simpa using ha) (by simpa using hb) b hbR).1
    rw [hsub z (hk z (by simp [hz])) (Nat.le_of_lt h2), hsub b hbk h3]
    omega
  | cons c L =>
    simp at ha; subst ha
    cases R with
    | nil =>
      have := hone (c :: L) hs.2.1 (fun y hy => hk y (by simp at hy; simp; grind)) rfl (by simpa using hb)
      refine ⟨⟨fun h => absurd h this.1, fun h => absurd rfl h.2⟩, by simpa using this.2, fun z hz => ?_⟩
      have hbL : b ∈ c :: L := by simpa using hmemB
      have h1 := hs.2.2 z (by simp [hz]) c (by simp)
      have h3 := (hmono (c :: L) hs.2.1 (fun y hy => hk y (by simp at hy; simp; grind)) rfl (by simpa using hb) b hbL).1
      rw [hround c z hak (hk z (by simp [hz])) h1, hsub b hbk h3]
      omega
    | cons d R =>
      have hb' : (d :: R).getLast? = some b := by
        rw [List.getLast?_append] at hb
        cases h : (d :: R).getLast? with
        | none => simp at h
        | some w => rw [h] at hb; simpa using hb
      have hbR : b ∈ d :: R := List.mem_of_getLast? hb'
      have hlt : ∀ y ∈ d :: R, cw (keyOf x) (keyOf y) < cw (keyOf x) (keyOf c) := fun y hy => hs.2.2 y (by simp at hy ⊢; grind) c (by simp)
      have hcb := hround c b hak hbk (hlt b hbR)
      have hbc := hlt b hbR
      refine ⟨⟨fun _ => ⟨by simp, by simp⟩, fun _ => ?_⟩, ?_, fun z hz => ?_⟩
      · rw [hab, hcb]; omega
      · intro y hy
        have hyk := hk y (hin y hy)
        have hyl := cw_lt (keyOf x) (keyOf y)
        rcases List.mem_append.1 hy with h | h
        · have hle : cw (keyOf x) (keyOf c) ≤ cw (keyOf x) (keyOf y) := by
            rcases List.mem_cons.1 h with rfl | h
            · exact Nat.le_refl _
            · exact Nat.le_of_lt ((List.pairwise_cons.1 hs.2.1).1 y h)
          rw [hsub y hyk hle, hcb]; omega
        · have h1 := hlt y h
          have h2 : cw (keyOf x) (keyOf y) ≤ cw (keyOf x) (keyOf b) := by
            obtain ⟨l', hl'⟩ : ∃ l', d :: R = l' ++ [b] := List.getLast?_eq_some_iff.1 hb'
            have hp := hs.1.1
            rw [hl', List.pairwise_append] at hp
            rw [hl'] at h
            rcases List.mem_append.1 h with h | h
            · exact Nat.le_of_lt (hp.2.2 y h b (by simp))
            · simp at h; subst h; exact Nat.le_refl _
          rw [hround c y hak hyk h1, hcb]
          omega
      · have h1 := hs.1.2.2 b hbR z hz
        have h2 := hs.2.2 z (by simp [hz]) c (by simp)
        have hzl := cw_lt (keyOf x) (keyOf z)
        rw [hround c z hak (hk z (by simp [hz])) h2, hcb]
        omega

end FcRetrieval.Ring
