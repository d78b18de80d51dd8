import Verif.Lemmas.RingRemove
/-! Helper lemmas: the search and expansion loops of `GetClosest`. -/

set_option linter.unusedSimpArgs false

namespace FcRetrieval.Ring

theorem cw_lt (a b : Nat) : cw a b < 2 ^ 256 := Nat.mod_lt _ (by decide)

theorem cw_eq {a b : Nat} (ha : a < 2 ^ 256) (hb : b < 2 ^ 256) :
    cw a b = if a ≤ b then b - a else b + 2 ^ 256 - a := by
  unfold cw
  split
  · have : b + 2 ^ 256 - a = (b - a) + 2 ^ 256 := by omega
    rw [this, Nat.add_mod_right, Nat.mod_eq_of_lt (by omega)]
  · rw [Nat.mod_eq_of_lt (by omega)]

/-- Going on from a nearer to a farther point. -/
theorem cw_sub {k a b : Nat} (hk : k < 2 ^ 256) (ha : a < 2 ^ 256) (hb : b < 2 ^ 256) (h : cw k a < cw k b) :
    cw a b = cw k b - cw k a := by
  rw [cw_eq hk ha, cw_eq hk hb] at h ⊢
  rw [cw_eq ha hb]
  split at h <;> split at h <;> split <;> simp_all <;> omega

theorem cw_back {k a : Nat} (hk : k < 2 ^ 256) (ha : a < 2 ^ 256) (h : k ≠ a) : cw a k = 2 ^ 256 - cw k a := by
  rw [cw_eq hk ha, cw_eq ha hk]
  split <;> split <;> omega

theorem cw_pos {k a : Nat} (hk : k < 2 ^ 256) (ha : a < 2 ^ 256) (h : k ≠ a) : 0 < cw k a := by
  rw [cw_eq hk ha]
  split <;> omega

theorem consecutive_dropLast {α : Type} {R : α → α → Prop} {l : List α} (h : Consecutive R l) :
    Consecutive R l.dropLast := by
  cases hl : l.getLast? with
  | none => rw [List.getLast?_eq_none_iff.mp hl]; trivial
  | some a =>
    obtain ⟨l', rfl⟩ := List.getLast?_eq_some_iff.mp hl
    rw [List.dropLast_concat]
    exact (consecutive_append.mp h).1

theorem searchLoop_eq {h : Heap} {hv hex : Hex} {n hd : Nat} {hi : List Nat} {e : Option Nat} (hn : (h n).val = hex) :
    ∀ {lo : List Nat} {fuel : Nat},
    Path h (hd :: lo ++ n :: hi) e → (∀ a ∈ hd :: lo, (h a).val ≠ hex) → (∀ a ∈ lo ++ [n], (h a).val ≠ hv) →
    lo.length + 1 < fuel →
    searchLoop h hv hex fuel hd = .ok n
  | [], fuel + 2, hp, hne, hnh, _ => by
    have h1 : (h hd).next = some n := by simpa using hp.1
    simp [searchLoop, hne hd (by simp), h1, deref, bind, Except.bind, hnh n (by simp), hn]
  | b :: lo, fuel + 1, hp, hne, hnh, hf => by
    have h1 : (h hd).next = some b := by simpa using hp.1
    have ih := searchLoop_eq (hv := hv) (hd := b) (lo := lo) (fuel := fuel) hn hp.2
      (fun a ha => hne a (List.mem_cons_of_mem _ ha)) (fun a ha => hnh a (by simp at ha ⊢; grind))
      (by simp at hf; omega)
    simp [searchLoop, hne hd (by simp), h1, deref, bind, Except.bind, hnh b (by simp), ih]

/-- Shorter of the two ways around a circle of `N` points, for a point at clockwise offset `d`. -/
def shorter (N d : Nat) : Nat := min d (N - d)

/-- The expansion loop, on a stretch `mid` of nodes at increasing offsets from the target. -/
theorem expandLoop_eq {h : Heap} {num : Int} {N : Nat} {off : Nat → Nat} (hoff : ∀ a, off a < N) :
    ∀ (m : Nat) {mid : List Nat} {fuel first last : Nat} {res : List Hex}, mid.length = m →
    mid.head? = some first → mid.getLast? = some last →
    Consecutive (Linked h) mid → (∀ a ∈ mid, ∀ b ∈ mid, off a < off b → cw (h a).key (h b).key = off b - off a) →
    mid.Pairwise (fun a b => off a < off b ∧ (h a).val ≠ (h b).val) → mid.length < fuel →
    ∃ R M L, mid = R ++ M ++ L ∧
      expandLoop h num fuel (some last) (N - off last) (some first) (off first) res =
        .ok (L.map (fun a => (h a).val) ++ res ++ R.map (fun a => (h a).val)) ∧
      (∀ y ∈ R ++ L, ∀ z ∈ M, shorter N (off y) ≤ shorter N (off z)) ∧
      ((res.length : Int) < num → num ≤ res.length + mid.length → ((L.length + res.length + R.length : Nat) : Int) = num) ∧
      ((res.length : Int) ≥ num → M = []) ∧
      ((res.length : Int) + mid.length = num → R ≠ [] ∧ ∀ b, mid.dropLast.getLast? = some b → (L = [] ↔ off b < N - off last))
  | 0, mid, _, _, _, _, hm, hf, _, _, _, _, _ => by
    rw [List.eq_nil_of_length_eq_zero hm] at hf; simp at hf
  | 1, mid, fuel, first, last, res, hm, hf, hl, hc, hkeys, hpw, hfuel => by
    obtain ⟨a, rfl⟩ := List.length_eq_one_iff.mp hm
    simp at hf hl
    subst hf hl
    refine ⟨[a], [], [], by simp, ?_, by simp, ?_, by simp, by simp⟩
    · cases fuel with
      | zero => simp at hfuel
      | succ fuel => simp [expandLoop, deref, bind, Except.bind, pure, Except.pure]
    · simp; omega
  | m + 2, mid, fuel, first, last, res, hm, hf, hl, hc, hkeys, hpw, hfuel => by
    cases fuel with
    | zero => simp at hfuel
    | succ fuel =>
    cases mid with
    | nil => simp at hf
    | cons a mid =>
    simp at hf
    subst hf
    obtain ⟨mid', hmid⟩ := List.getLast?_eq_some_iff.mp hl
    have hm1 : mid.length = m + 1 := by simpa using hm
    cases mid' with
    | nil => simp at hmid; rw [hmid.2] at hm1; simp at hm1
    | cons a' mid' =>
    simp at hmid
    obtain ⟨rfl, hmid⟩ := hmid
    -- mid = mid' ++ [last], whole list a :: mid' ++ [last]
    have hpc := List.pairwise_cons.mp hpw
    have hlm : last ∈ mid := by rw [hmid]; simp
    have hal := hpc.1 last hlm
    have hvne : ¬ (h last).val = (h a).val := fun e => hal.2 e.symm
    have hcl := hoff last
    simp only [expandLoop, deref, bind, Except.bind, pure, Except.pure, if_neg hvne]
    by_cases hd : N - off last ≤ off a
    · -- take the previous node
      rw [if_pos hd]
      have hdl : (a :: mid).dropLast = a :: mid' := by
        rw [hmid]
        show ((a :: mid') ++ [last]).dropLast = _
        rw [List.dropLast_concat]
      obtain ⟨q, hq⟩ : ∃ q, (a :: mid').getLast? = some q := ⟨_, List.getLast?_eq_some_getLast (by simp)⟩
      have hlinkq : Linked h q last := by
        have : Consecutive (Linked h) ((a :: mid') ++ [last]) := by
          rw [hmid] at hc; exact hc
        exact (consecutive_append.mp this).2.2 q last hq rfl
      have hqm : q ∈ a :: mid' := List.mem_of_getLast? hq
      have hqlt : off q < off last := by
        have : (a :: mid' ++ [last]).Pairwise (fun a b => off a < off b ∧ (h a).val ≠ (h b).val) := by
          rw [hmid] at hpw; exact hpw
        exact ((List.pairwise_append.mp this).2.2 q hqm last (by simp)).1
      have hdist : (h last).distPrv = some (off last - off q) := by
        rw [hlinkq.2.2.2, hkeys q (by rw [hmid]; simp at hqm ⊢; grind) last (by simp [hlm]) hqlt]
      rw [hdist]
      simp only [derefInt]
      by_cases hlen : (((h last).val :: res).length : Int) = num
      · rw [if_pos hlen]
        refine ⟨[], a :: mid', [last], by rw [hmid]; simp, by simp, ?_, ?_, ?_, ?_⟩
        · intro y hy z hz
          simp at hy
          subst hy
          have hzlt : off z < off y ∧ off a ≤ off z := by
            have h1 : (a :: mid' ++ [y]).Pairwise (fun a b => off a < off b ∧ (h a).val ≠ (h b).val) := by
              rw [hmid] at hpw; exact hpw
            refine ⟨((List.pairwise_append.mp h1).2.2 z hz y (by simp)).1, ?_⟩
            rcases List.mem_cons.mp hz with rfl | hz
            · exact Nat.le_refl _
            · exact Nat.le_of_lt (hpc.1 z (by rw [hmid]; simp [hz])).1
          unfold shorter
          have hzl := hoff z
          omega
        · intro _ _; simp at hlen ⊢; omega
        · intro hge; simp at hlen; omega
        · intro he; simp only [List.length_cons] at hlen he; omega
      · rw [if_neg hlen]
        have hlm2 : (a :: mid').length = m + 1 := by
          rw [hmid] at hm1; simp at hm1 ⊢; omega
        obtain ⟨R, M, L, hsplit, heq, hnear, hcount, hall, hends⟩ := expandLoop_eq hoff (m + 1) (mid := a :: mid') (fuel := fuel)
          (first := a) (last := q) (res := (h last).val :: res) (num := num) hlm2 rfl hq
          (by rw [← hdl]; exact consecutive_dropLast hc)
          (fun b hb c hc' => hkeys b (by rw [hmid]; simp at hb ⊢; grind) c (by rw [hmid]; simp at hc' ⊢; grind))
          (by rw [← hdl]; exact hpw.sublist (List.dropLast_sublist _)) (by simp at hfuel hlm2 ⊢; omega)
        refine ⟨R, M, L ++ [last], ?_, ?_, ?_, ?_, ?_, ?_⟩
        · rw [hmid]
          show (a :: mid') ++ [last] = _
          rw [hsplit]; simp
        · rw [hlinkq.2.1]
          have e : N - off last + (off last - off q) = N - off q := by omega
          rw [e, heq]
          simp
        · intro y hy z hz
          have hzm : z ∈ a :: mid' := by rw [hsplit]; simp [hz]
          simp only [List.mem_append, List.mem_singleton] at hy
          rcases hy with hy | hy | rfl
          · exact hnear y (by simp [hy]) z hz
          · exact hnear y (by simp [hy]) z hz
          · have h1 : (a :: mid' ++ [y]).Pairwise (fun a b => off a < off b ∧ (h a).val ≠ (h b).val) := by
              rw [hmid] at hpw; exact hpw
            have h2 := ((List.pairwise_append.mp h1).2.2 z hzm y (by simp)).1
            have h3 : off a ≤ off z := by
              rcases List.mem_cons.mp hzm with rfl | hz'
              · exact Nat.le_refl _
              · exact Nat.le_of_lt (hpc.1 z (by rw [hmid]; simp [hz'])).1
            have hzl := hoff z
            unfold shorter
            omega
        · intro h1 h2
          have := hcount (by simp at hlen ⊢; omega) (by rw [hmid] at h2; simp at h2 ⊢; omega)
          simp at this ⊢
          omega
        · intro h1
          exact hall (by simp; omega)
        · intro he
          obtain ⟨e1, -⟩ := hends (by rw [hmid] at he; simp only [List.length_cons, List.length_append, List.length_nil] at he ⊢; omega)
          refine ⟨e1, fun b hb => ?_⟩
          rw [hdl, hq] at hb
          cases hb
          have h3 : off a ≤ off q := by
            rcases List.mem_cons.mp hqm with rfl | hz'
            · exact Nat.le_refl _
            · exact Nat.le_of_lt (hpc.1 q (by rw [hmid]; simp [hz'])).1
          constructor
          · intro h; simp at h
          · intro h; omega
    · -- take the next node
      rw [if_neg hd]
      cases mid with
      | nil => simp at hm1
      | cons b mid =>
      have hlink : Linked h a b := hc.1
      have hab := (hpc.1 b (by simp)).1
      have hdist : (h a).distNext = some (off b - off a) := by
        rw [hlink.2.2.1, hkeys a (by simp) b (by simp) hab]
      rw [hdist]
      simp only [derefInt]
      by_cases hlen : ((res ++ [(h a).val]).length : Int) = num
      · rw [if_pos hlen]
        refine ⟨[a], b :: mid, [], by simp, by simp, ?_, ?_, ?_, ?_⟩
        · intro y hy z hz
          simp at hy
          subst hy
          have h1 := (hpc.1 z hz).1
          have h2 : off z ≤ off last := by
            rw [hmid] at hz hpc
            rcases List.mem_append.mp hz with hz | hz
            · exact Nat.le_of_lt ((List.pairwise_append.mp hpc.2).2.2 z hz last (by simp)).1
            · simp at hz; rw [hz]; exact Nat.le_refl _
          unfold shorter
          omega
        · intro _ _; simp at hlen ⊢; omega
        · intro hge; simp at hlen; omega
        · intro he; simp only [List.length_append, List.length_cons, List.length_nil] at hlen he; omega
      · rw [if_neg hlen]
        obtain ⟨R, M, L, hsplit, heq, hnear, hcount, hall, hends⟩ := expandLoop_eq hoff (m + 1) (mid := b :: mid) (fuel := fuel)
          (first := b) (last := last) (res := res ++ [(h a).val]) (num := num) hm1 rfl
          (by rw [List.getLast?_cons_cons] at hl; exact hl)
          hc.2 (fun c hc' d hd' => hkeys c (List.mem_cons_of_mem _ hc') d (List.mem_cons_of_mem _ hd')) hpc.2 (by simp at hfuel ⊢; omega)
        refine ⟨a :: R, M, L, by rw [hsplit]; simp, ?_, ?_, ?_, ?_, ?_⟩
        · rw [hlink.1]
          have e : off a + (off b - off a) = off b := by omega
          rw [e, heq]
          simp
        · intro y hy z hz
          have hzm : z ∈ b :: mid := by rw [hsplit]; simp [hz]
          simp only [List.cons_append, List.mem_cons] at hy
          rcases hy with rfl | hy
          · have h1 := (hpc.1 z hzm).1
            have h2 : off z ≤ off last := by
              rw [hmid] at hzm hpc
              rcases List.mem_append.mp hzm with hz | hz
              · exact Nat.le_of_lt ((List.pairwise_append.mp hpc.2).2.2 z hz last (by simp)).1
              · simp at hz; rw [hz]; exact Nat.le_refl _
            unfold shorter
            omega
          · exact hnear y hy z hz
        · intro h1 h2
          have := hcount (by simp at hlen ⊢; omega) (by simp at h2 ⊢; omega)
          simp at this ⊢
          omega
        · intro h1
          exact hall (by simp; omega)
        · intro he
          obtain ⟨e1, e2⟩ := hends (by simp only [List.length_cons, List.length_append, List.length_nil] at he ⊢; omega)
          refine ⟨by simp, fun c hc' => ?_⟩
          cases mid with
          | nil =>
            simp at hc'
            subst hc'
            have hL : L = [] := by
              cases R with
              | nil => exact absurd rfl e1
              | cons r R =>
                simp only [List.cons_append, List.cons.injEq] at hsplit
                have := hsplit.2.symm
                simp only [List.append_eq_nil_iff] at this
                exact this.2
            exact ⟨fun _ => by omega, fun _ => hL⟩
          | cons d mid =>
            refine e2 c ?_
            rw [← hc']
            simp only [List.dropLast_cons_cons, List.getLast?_cons_cons]

end FcRetrieval.Ring
