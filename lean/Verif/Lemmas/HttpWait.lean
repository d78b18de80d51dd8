import Verif.Spec.HttpWait
/-!
# Lemmas: calls that share one communicator
-/

set_option linter.unusedSimpArgs false

namespace FcRetrieval.HttpWait

/-- A return in the span of time. -/
def isIn (a b : Nat) (c : Call) : Bool := match c.phase with | .done _ f => decide (a ≤ f ∧ f ≤ b) | _ => false

theorem returnedIn_eq (calls : List Call) (a b : Nat) : returnedIn calls a b = calls.countP (isIn a b) := rfl

theorem returnedIn_append (calls : List Call) (a b sv m : Nat) : returnedIn (calls ++ [⟨sv, m, .waiting⟩]) a b = returnedIn calls a b := by
  rw [returnedIn_eq, returnedIn_eq, List.countP_append]
  simp [isIn]

theorem returnedIn_mono (calls : List Call) {a b b' : Nat} (h : b ≤ b') : returnedIn calls a b ≤ returnedIn calls a b' := by
  rw [returnedIn_eq, returnedIn_eq]
  apply List.countP_mono_left
  intro c _ hc
  unfold isIn at hc ⊢
  split at hc <;> simp_all
  omega

theorem returnedIn_talk (calls : List Call) (i : Nat) (c : Call) (st a b : Nat) (hc : calls[i]? = some c) (hw : c.phase = .waiting) :
    returnedIn (calls.set i { c with phase := .talking st }) a b = returnedIn calls a b := by
  obtain ⟨hi, hci⟩ := List.getElem?_eq_some_iff.1 hc
  rw [returnedIn_eq, returnedIn_eq, List.countP_set hi, hci]
  simp [isIn, hw]

theorem returnedIn_done (calls : List Call) (i : Nat) (c : Call) (st f a b : Nat) (hc : calls[i]? = some c) (hw : c.phase = .talking st) :
    returnedIn (calls.set i { c with phase := .done st f }) a b = returnedIn calls a b + (if a ≤ f ∧ f ≤ b then 1 else 0) := by
  obtain ⟨hi, hci⟩ := List.getElem?_eq_some_iff.1 hc
  rw [returnedIn_eq, returnedIn_eq, List.countP_set hi, hci]
  simp [isIn, hw]

/-- What holds at all times. -/
structure Inv (s : State) : Prop where
  lock : ∀ i, s.lock = some i ↔ ∃ c st, s.calls[i]? = some c ∧ c.phase = .talking st
  made : ∀ (i : Nat) c, s.calls[i]? = some c → c.made ≤ s.clock
  talking : ∀ (i : Nat) c st, s.calls[i]? = some c → c.phase = .talking st →
    c.made ≤ st ∧ st ≤ s.clock ∧ s.clock ≤ st + limit ∧ st ≤ c.made + limit * returnedIn s.calls c.made st
  done : ∀ (i : Nat) c st f, s.calls[i]? = some c → c.phase = .done st f →
    c.made ≤ st ∧ st ≤ f ∧ f ≤ s.clock ∧ f ≤ st + limit ∧ st ≤ c.made + limit * returnedIn s.calls c.made st
  free : ∀ (i : Nat) c, s.calls[i]? = some c → c.phase = .waiting → s.lock = none → s.clock ≤ c.made + limit * returnedIn s.calls c.made s.clock
  busy : ∀ (i : Nat) c, s.calls[i]? = some c → c.phase = .waiting → ∀ (j : Nat) d st, s.calls[j]? = some d → d.phase = .talking st →
    st ≤ c.made + limit * returnedIn s.calls c.made s.clock

theorem inv_fresh (now : Nat) : Inv (fresh now) := by
  constructor <;> simp [fresh]

theorem get_append (calls : List Call) (x c : Call) (i : Nat) (h : (calls ++ [x])[i]? = some c) : calls[i]? = some c ∨ c = x := by
  rw [List.getElem?_append] at h
  split at h
  · exact Or.inl h
  · rw [List.getElem?_singleton] at h
    split at h
    · exact Or.inr (Option.some.inj h).symm
    · cases h

theorem get_append_left (calls : List Call) (x c : Call) (i : Nat) (h : calls[i]? = some c) : (calls ++ [x])[i]? = some c := by
  obtain ⟨hi, -⟩ := List.getElem?_eq_some_iff.1 h
  rw [List.getElem?_append_left hi, h]

theorem inv_call (s : State) (sv : Nat) (h : Inv s) : Inv { s with calls := s.calls ++ [⟨sv, s.clock, .waiting⟩] } := by
  constructor
  · intro i
    dsimp only
    rw [h.lock i]
    constructor
    · rintro ⟨c, st, hc, hp⟩
      exact ⟨c, st, get_append_left _ _ _ _ hc, hp⟩
    · rintro ⟨c, st, hc, hp⟩
      rcases get_append _ _ _ _ hc with hc | rfl
      · exact ⟨c, st, hc, hp⟩
      · cases hp
  · intro i c hc
    rcases get_append _ _ _ _ hc with hc | rfl
    · exact h.made i c hc
    · exact Nat.le_refl _
  · intro i c st hc hp
    dsimp only
    rw [returnedIn_append]
    rcases get_append _ _ _ _ hc with hc | rfl
    · exact h.talking i c st hc hp
    · cases hp
  · intro i c st f hc hp
    dsimp only
    rw [returnedIn_append]
    rcases get_append _ _ _ _ hc with hc | rfl
    · exact h.done i c st f hc hp
    · cases hp
  · intro i c hc hp hl
    dsimp only
    rw [returnedIn_append]
    rcases get_append _ _ _ _ hc with hc | rfl
    · exact h.free i c hc hp hl
    · exact Nat.le_add_right _ _
  · intro i c hc hp j d st hd hq
    dsimp only
    rw [returnedIn_append]
    rcases get_append _ _ _ _ hd with hd | rfl
    · rcases get_append _ _ _ _ hc with hc | rfl
      · exact h.busy i c hc hp j d st hd hq
      · have := (h.talking j d st hd hq).2.1
        dsimp only
        omega
    · cases hq

theorem inv_acquire (s : State) (i : Nat) (c : Call) (h : Inv s) (hc : s.calls[i]? = some c) (hw : c.phase = .waiting) (hl : s.lock = none) :
    Inv { s with lock := some i, calls := s.calls.set i { c with phase := .talking s.clock } } := by
  obtain ⟨hi, hci⟩ := List.getElem?_eq_some_iff.1 hc
  have hnot : ∀ (j : Nat) d st, s.calls[j]? = some d → d.phase ≠ .talking st := by
    intro j d st hd hq
    have := (h.lock j).2 ⟨d, st, hd, hq⟩
    rw [hl] at this
    cases this
  have get : ∀ (j : Nat) d, (s.calls.set i { c with phase := .talking s.clock })[j]? = some d →
      (j ≠ i ∧ s.calls[j]? = some d) ∨ (j = i ∧ d = { c with phase := .talking s.clock }) := by
    intro j d hd
    rw [List.getElem?_set] at hd
    split at hd
    · rename_i e
      subst e
      exact Or.inr ⟨rfl, (Option.some.inj hd).symm⟩
    · rename_i e
      exact Or.inl ⟨fun e' => e e'.symm, hd⟩
  constructor
  · intro j
    dsimp only
    constructor
    · intro e
      cases e
      exact ⟨_, s.clock, by rw [List.getElem?_set_self hi], rfl⟩
    · rintro ⟨d, st, hd, hq⟩
      rcases get j d hd with ⟨-, hd⟩ | ⟨rfl, -⟩
      · exact absurd hq (hnot j d st hd)
      · rfl
  · intro j d hd
    rcases get j d hd with ⟨-, hd⟩ | ⟨rfl, rfl⟩
    · exact h.made j d hd
    · exact h.made _ c hc
  · intro j d st hd hq
    dsimp only
    rw [returnedIn_talk _ _ _ _ _ _ hc hw]
    rcases get j d hd with ⟨-, hd⟩ | ⟨rfl, rfl⟩
    · exact absurd hq (hnot j d st hd)
    · cases hq
      exact ⟨h.made _ c hc, Nat.le_refl _, Nat.le_add_right _ _, h.free _ c hc hw hl⟩
  · intro j d st f hd hq
    dsimp only
    rw [returnedIn_talk _ _ _ _ _ _ hc hw]
    rcases get j d hd with ⟨-, hd⟩ | ⟨rfl, rfl⟩
    · exact h.done j d st f hd hq
    · cases hq
  · intro j d _ _ e
    cases e
  · intro j d hd hq k e st he hqe
    dsimp only
    rw [returnedIn_talk _ _ _ _ _ _ hc hw]
    rcases get k e he with ⟨-, he⟩ | ⟨rfl, rfl⟩
    · exact absurd hqe (hnot k e st he)
    · cases hqe
      rcases get j d hd with ⟨-, hd⟩ | ⟨rfl, rfl⟩
      · exact h.free j d hd hq hl
      · cases hq

theorem inv_return (s : State) (i : Nat) (c : Call) (start : Nat) (h : Inv s) (hc : s.calls[i]? = some c) (hw : c.phase = .talking start) :
    Inv { s with lock := none, calls := s.calls.set i { c with phase := .done start s.clock } } := by
  obtain ⟨hi, hci⟩ := List.getElem?_eq_some_iff.1 hc
  have hone : ∀ (j : Nat) d st, s.calls[j]? = some d → d.phase = .talking st → j = i := by
    intro j d st hd hq
    have h1 := (h.lock j).2 ⟨d, st, hd, hq⟩
    have h2 := (h.lock i).2 ⟨c, start, hc, hw⟩
    rw [h1] at h2
    exact Option.some.inj h2
  have get : ∀ (j : Nat) d, (s.calls.set i { c with phase := .done start s.clock })[j]? = some d →
      (j ≠ i ∧ s.calls[j]? = some d) ∨ (j = i ∧ d = { c with phase := .done start s.clock }) := by
    intro j d hd
    rw [List.getElem?_set] at hd
    split at hd
    · rename_i e
      subst e
      exact Or.inr ⟨rfl, (Option.some.inj hd).symm⟩
    · rename_i e
      exact Or.inl ⟨fun e' => e e'.symm, hd⟩
  have hnot : ∀ (j : Nat) d st, (s.calls.set i { c with phase := .done start s.clock })[j]? = some d → d.phase ≠ .talking st := by
    intro j d st hd hq
    rcases get j d hd with ⟨hne, hd⟩ | ⟨rfl, rfl⟩
    · exact hne (hone j d st hd hq)
    · cases hq
  have ht := h.talking i c start hc hw
  have more : ∀ a b, returnedIn s.calls a b ≤ returnedIn (s.calls.set i { c with phase := .done start s.clock }) a b := by
    intro a b
    rw [returnedIn_done _ _ _ _ _ _ _ hc hw]
    omega
  have up : ∀ a b, limit * returnedIn s.calls a b ≤ limit * returnedIn (s.calls.set i { c with phase := .done start s.clock }) a b :=
    fun a b => Nat.mul_le_mul_left _ (more a b)
  constructor
  · intro j
    dsimp only
    constructor
    · intro e; cases e
    · rintro ⟨d, st, hd, hq⟩
      exact absurd hq (hnot j d st hd)
  · intro j d hd
    rcases get j d hd with ⟨-, hd⟩ | ⟨rfl, rfl⟩
    · exact h.made j d hd
    · exact h.made _ c hc
  · intro j d st hd hq
    exact absurd hq (hnot j d st hd)
  · intro j d st f hd hq
    dsimp only
    have hu := up d.made st
    rcases get j d hd with ⟨-, hd⟩ | ⟨rfl, rfl⟩
    · obtain ⟨h1, h2, h3, h4, h5⟩ := h.done j d st f hd hq
      exact ⟨h1, h2, h3, h4, by omega⟩
    · cases hq
      dsimp only at hu ⊢
      exact ⟨ht.1, ht.2.1, Nat.le_refl _, ht.2.2.1, by omega⟩
  · intro j d hd hq _
    rcases get j d hd with ⟨-, hd⟩ | ⟨rfl, rfl⟩
    · have h1 := h.busy j d hd hq i c start hc hw
      have h2 := h.made j d hd
      dsimp only
      rw [returnedIn_done _ _ _ _ _ _ _ hc hw, if_pos ⟨h2, Nat.le_refl _⟩, Nat.mul_add]
      omega
    · cases hq
  · intro j d _ _ k e st he hqe
    exact absurd hqe (hnot k e st he)

theorem inv_tick (s : State) (h : Inv s) (h1 : ¬ s.calls.any (overdue s.clock) = true) (h2 : ¬ (s.lock = none ∧ s.calls.any Call.waits = true)) :
    Inv { s with clock := s.clock + 1 } := by
  have up : ∀ a, limit * returnedIn s.calls a s.clock ≤ limit * returnedIn s.calls a (s.clock + 1) :=
    fun a => Nat.mul_le_mul_left _ (returnedIn_mono _ (Nat.le_succ _))
  constructor
  · exact h.lock
  · intro i c hc
    exact Nat.le_succ_of_le (h.made i c hc)
  · intro i c st hc hp
    obtain ⟨a, b, d, e⟩ := h.talking i c st hc hp
    refine ⟨a, Nat.le_succ_of_le b, ?_, e⟩
    dsimp only
    rw [Bool.not_eq_true, List.any_eq_false] at h1
    have := h1 c (List.mem_of_getElem? hc)
    simp [overdue, hp] at this
    omega
  · intro i c st f hc hp
    obtain ⟨a, b, d, e⟩ := h.done i c st f hc hp
    exact ⟨a, b, Nat.le_succ_of_le d, e⟩
  · intro i c hc hp hl
    exfalso
    apply h2
    refine ⟨hl, ?_⟩
    rw [List.any_eq_true]
    exact ⟨c, List.mem_of_getElem? hc, by simp [Call.waits, hp]⟩
  · intro i c hc hp j d st hd hq
    have := h.busy i c hc hp j d st hd hq
    have := up c.made
    dsimp only
    omega

theorem inv_step (silent : Silent) (s : State) (e : Event) (h : Inv s) : Inv (step silent s e) := by
  cases e with
  | call sv => exact inv_call s sv h
  | acquire i =>
    unfold step
    dsimp only
    split
    · exact h
    · rename_i c hc
      split
      · rename_i hp
        exact inv_acquire s i c h hc hp.1 hp.2
      · exact h
  | return_ i =>
    unfold step
    dsimp only
    split
    · exact h
    · rename_i c hc
      split
      · rename_i st hp
        split
        · exact h
        · exact inv_return s i c st h hc hp
      · exact h
  | tick =>
    unfold step
    dsimp only
    split
    · exact h
    · split
      · exact h
      · exact inv_tick s h (by assumption) (by assumption)

theorem inv_run (silent : Silent) (es : List Event) (s : State) (h : Inv s) : Inv (run silent s es) := by
  induction es generalizing s with
  | nil => exact h
  | cons e es ih => exact ih _ (inv_step silent s e h)

theorem inv_reachable {silent : Silent} {s : State} (h : Reachable silent s) : Inv s := by
  obtain ⟨now, es, rfl⟩ := h
  exact inv_run silent es _ (inv_fresh now)

theorem run_append (silent : Silent) (s : State) (es es' : List Event) : run silent s (es ++ es') = run silent (run silent s es) es' := by
  induction es generalizing s with
  | nil => rfl
  | cons e es ih => exact ih _

end FcRetrieval.HttpWait
