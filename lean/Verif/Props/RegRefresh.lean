import Verif.Lemmas.RegRefresh
/-!
# C45: `Refresh` waits for the update
-/

set_option linter.unusedSimpArgs false

namespace FcRetrieval.RegRefresh

/-! ## Callers that do not overlap -/

/-- The invariant while at most one caller is inside `Refresh`. -/
structure Fine (s : Sys) : Prop extends Inv s where
  wait : ∀ k, .waiting k ∈ s.callers → k < s.begun
  ret : ∀ p ∈ s.callers, Refreshed p

theorem fine_step {s t : Sys} {a : Act} (hs : Fine s) (hsolo : Solo s) (h : step s a = some t) : Fine t := by
  refine ⟨inv_step hs.toInv h, ?_, ?_⟩
  · rcases step_some h with ⟨i, p, rfl, hp, hf, rfl⟩ | ⟨i, k, rfl, hp, hr, rfl⟩ | ⟨i, j, k, l, rfl, hp, hq, rfl⟩ | ⟨rfl, hr, rfl⟩ |
      ⟨rfl, hr, rfl⟩ | ⟨j, l, rfl, hp, hr, rfl⟩ | ⟨rfl, hr, rfl⟩ | ⟨i, p, rfl, hp, hf, rfl⟩ | ⟨i, rfl, hp, hr, rfl⟩ | ⟨i, rfl, hp, rfl⟩ |
      ⟨rfl, hrun, hr, rfl⟩ <;> intro k' hm
    · rcases List.mem_or_eq_of_mem_set hm with hm | hm
      · exact hs.wait k' hm
      · cases hrun : s.running <;> simp [hrun] at hm
    · rcases List.mem_or_eq_of_mem_set hm with hm | hm
      · exact Nat.lt_succ_of_lt (hs.wait k' hm)
      · injection hm with hm
        subst hm
        exact Nat.lt_succ_of_le (hs.ask _ (List.mem_of_getElem? hp))
    · have := hsolo i j _ _ hp hq rfl rfl
      subst this
      rw [hp] at hq; cases hq
    · exact hs.wait k' hm
    · exact hs.wait k' hm
    · rcases List.mem_or_eq_of_mem_set hm with hm | hm
      · exact hs.wait k' hm
      · cases hm
    · exact Nat.lt_succ_of_lt (hs.wait k' hm)
    · rcases List.mem_or_eq_of_mem_set hm with hm | hm
      · exact hs.wait k' hm
      · cases hrun : s.running <;> simp [hrun] at hm
    · rcases List.mem_or_eq_of_mem_set hm with hm | hm
      · exact hs.wait k' hm
      · cases hm
    · rcases List.mem_or_eq_of_mem_set hm with hm | hm
      · exact hs.wait k' hm
      · cases hm
    · exact Nat.lt_succ_of_lt (hs.wait k' hm)
  · rcases step_some h with ⟨i, p, rfl, hp, hf, rfl⟩ | ⟨i, k, rfl, hp, hr, rfl⟩ | ⟨i, j, k, l, rfl, hp, hq, rfl⟩ | ⟨rfl, hr, rfl⟩ |
      ⟨rfl, hr, rfl⟩ | ⟨j, l, rfl, hp, hr, rfl⟩ | ⟨rfl, hr, rfl⟩ | ⟨i, p, rfl, hp, hf, rfl⟩ | ⟨i, rfl, hp, hr, rfl⟩ | ⟨i, rfl, hp, rfl⟩ |
      ⟨rfl, hrun, hr, rfl⟩ <;> intro q hm
    · rcases List.mem_or_eq_of_mem_set hm with hm | hm
      · exact hs.ret q hm
      · subst hm; cases hrun : s.running <;> simp [Refreshed]
    · rcases List.mem_or_eq_of_mem_set hm with hm | hm
      · exact hs.ret q hm
      · subst hm; trivial
    · have := hsolo i j _ _ hp hq rfl rfl
      subst this
      rw [hp] at hq; cases hq
    · exact hs.ret q hm
    · exact hs.ret q hm
    · rcases List.mem_or_eq_of_mem_set hm with hm | hm
      · exact hs.ret q hm
      · subst hm
        have h1 := hs.wait l (List.mem_of_getElem? hp)
        have h2 := hs.ord
        rw [hr] at h2
        simp only [busy] at h2
        show l < s.ended
        omega
    · exact hs.ret q hm
    · rcases List.mem_or_eq_of_mem_set hm with hm | hm
      · exact hs.ret q hm
      · subst hm; cases hrun : s.running <;> simp [Refreshed]
    · rcases List.mem_or_eq_of_mem_set hm with hm | hm
      · exact hs.ret q hm
      · subst hm; trivial
    · rcases List.mem_or_eq_of_mem_set hm with hm | hm
      · exact hs.ret q hm
      · subst hm; trivial
    · exact hs.ret q hm

/-- **C45 (partial).** If the calls to `Refresh` do not overlap, each returns only after a round that began after the call has ended;
whatever the timer, shutdowns and restarts do. Missing: overlapping calls, see `C45_overlap_refuted`. -/
theorem C45_refreshed_partial (n : Nat) (acts : List Act) (s : Sys) (h : run (init n) acts = some s)
    (hsolo : ∀ t ∈ visits (init n) acts, Solo t) : ∀ p ∈ s.callers, Refreshed p := by
  have key : ∀ (acts : List Act) (s0 : Sys), Fine s0 → run s0 acts = some s → (∀ t ∈ visits s0 acts, Solo t) → Fine s := by
    intro acts
    induction acts with
    | nil => intro s0 hs h _; simp only [run, Option.some.injEq] at h; subst h; exact hs
    | cons a as ih =>
      intro s0 hs h hv
      simp only [run] at h
      obtain ⟨s1, h1, h2⟩ := Option.bind_eq_some_iff.1 h
      simp only [visits, h1, List.mem_cons, forall_eq_or_imp] at hv
      exact ih s1 (fine_step hs hv.1 h1) h2 hv.2
  refine (key acts (init n) ⟨inv_init n, ?_, ?_⟩ h hsolo).ret
  · intro k hm
    have := List.eq_of_mem_replicate hm
    cases this
  · intro p hm
    rw [List.eq_of_mem_replicate hm]
    trivial

/-- Two callers, one after the other, with the timer between them. -/
def exSerial : List Act := [.finish, .call 0, .ask 0, .finish, .reply 0, .tick, .call 1, .finish, .ask 1, .finish, .reply 1]

example : ∃ s, run (init 2) exSerial = some s ∧ s.callers = [.returned 1 2, .returned 3 4] := ⟨_, rfl, rfl⟩

example : ∀ t ∈ visits (init 2) exSerial, Solo t := by
  have h : (visits (init 2) exSerial).all (fun t => decide (t.callers.countP Pc.active ≤ 1 ∧ t.callers.length = 2)) = true := by decide
  intro t ht
  have := List.all_eq_true.1 h t ht
  simp only [decide_eq_true_eq] at this
  obtain ⟨h1, h2⟩ := this
  match hc : t.callers, h2 with
  | [a, b], _ =>
    rw [hc] at h1
    intro i j p q hi hj hp hq
    rw [hc] at hi hj
    match i, j with
    | 0, 0 => rfl
    | 1, 1 => rfl
    | 0, 1 => simp at hi hj; subst hi hj; simp [List.countP_cons, hp, hq] at h1
    | 1, 0 => simp at hi hj; subst hi hj; simp [List.countP_cons, hp, hq] at h1
    | _ + 2, _ => simp at hi
    | 0, _ + 2 => simp at hj
    | 1, _ + 2 => simp at hj

/-! ## Callers that overlap -/

/-- **C45 (refuted).** Whenever a forced round is going on for a caller `j`, and another caller `i` calls `Refresh`, this may happen: `j` takes
the request of `i` for its own answer and returns while its round is still going on; and `i` takes the answer meant for `j` and returns,
although no round has begun since its call. -/
theorem C45_overlap_refuted (n : Nat) (acts : List Act) (s : Sys) (h : run (init n) acts = some s) (i j since : Nat) (p : Pc)
    (hj : s.callers[j]? = some (.waiting since)) (hr : s.routine = .round true) (hrun : s.running = true)
    (hi : s.callers[i]? = some p) (hf : p.free = true) :
    (∃ t, run s [.call i, .pass i j] = some t ∧ t.routine = .round true ∧ t.callers[j]? = some (.returned since s.ended)) ∧
    (∃ t, run s [.call i, .pass i j, .finish, .reply i] = some t ∧ t.callers[i]? = some (.returned s.begun s.begun) ∧
      t.begun = s.begun ∧ ¬ Refreshed (.returned s.begun s.begun)) := by
  have hinv := inv_run (inv_init n) h
  have hord := hinv.ord
  rw [hr] at hord
  simp only [busy] at hord
  have hij : i ≠ j := by
    rintro rfl
    rw [hi] at hj; injection hj with hj; subst hj; simp [Pc.free] at hf
  have hil : i < s.callers.length := (List.getElem?_eq_some_iff.1 hi).1
  have hjl : j < s.callers.length := (List.getElem?_eq_some_iff.1 hj).1
  have e1 : step s (.call i) = some { s with callers := s.callers.set i (.asking s.begun) } := by
    simp [step, hi, hf, hrun]
  have e2 : step { s with callers := s.callers.set i (.asking s.begun) } (.pass i j) =
      some { s with callers := ((s.callers.set i (.asking s.begun)).set i (.waiting s.begun)).set j (.returned since s.ended) } := by
    simp only [step, List.getElem?_set_self hil, List.getElem?_set_ne hij, hj]
  have hg : (((s.callers.set i (.asking s.begun)).set i (.waiting s.begun)).set j (.returned since s.ended))[i]? = some (.waiting s.begun) := by
    rw [List.getElem?_set_ne (Ne.symm hij), List.getElem?_set_self (by simpa using hil)]
  have e3 : step { s with callers := ((s.callers.set i (.asking s.begun)).set i (.waiting s.begun)).set j (.returned since s.ended) } .finish =
      some { s with routine := .reply, ended := s.ended + 1, callers := ((s.callers.set i (.asking s.begun)).set i (.waiting s.begun)).set j (.returned since s.ended) } := by
    simp [step, hr]
  have e4 : step { s with routine := .reply, ended := s.ended + 1, callers := ((s.callers.set i (.asking s.begun)).set i (.waiting s.begun)).set j (.returned since s.ended) } (.reply i) =
      some { s with routine := .idle, ended := s.ended + 1, callers := (((s.callers.set i (.asking s.begun)).set i (.waiting s.begun)).set j (.returned since s.ended)).set i (.returned s.begun (s.ended + 1)) } := by
    simp only [step, hg]
  constructor
  · have hrun2 : run s [.call i, .pass i j] = some { s with callers := ((s.callers.set i (.asking s.begun)).set i (.waiting s.begun)).set j (.returned since s.ended) } := by
      simp only [run, e1, e2, Option.bind_some]
    exact ⟨_, hrun2, hr, List.getElem?_set_self (by simpa using hjl)⟩
  · have hrun4 : run s [.call i, .pass i j, .finish, .reply i] = some { s with routine := .idle, ended := s.ended + 1, callers := (((s.callers.set i (.asking s.begun)).set i (.waiting s.begun)).set j (.returned since s.ended)).set i (.returned s.begun (s.ended + 1)) } := by
      simp only [run, e1, e2, e3, e4, Option.bind_some]
    refine ⟨_, hrun4, ?_, rfl, Nat.lt_irrefl _⟩
    rw [hord]
    exact List.getElem?_set_self (by simpa using hil)

/-- **C45 (refuted)**, as a counterexample: both callers return without a round having begun and ended since their calls. -/
theorem C45_refreshed_refuted : ¬ ∀ (n : Nat) (acts : List Act) (s : Sys), run (init n) acts = some s → ∀ p ∈ s.callers, Refreshed p := by
  intro h
  have := h 2 [.finish, .call 0, .ask 0, .call 1, .pass 1 0, .finish, .reply 1] _ rfl (.returned 1 1) (by decide)
  exact absurd this (Nat.lt_irrefl _)

/-! ## Progress -/

/-- The routine is never left with an answer nobody takes. -/
theorem C45_answer_taken (n : Nat) (acts : List Act) (s : Sys) (h : run (init n) acts = some s) (hr : s.routine = .reply) :
    ∃ j, (step s (.reply j)).isSome = true := by
  have hc := (inv_run (inv_init n) h).cnt
  rw [hr] at hc
  have : 0 < s.callers.countP Pc.waits := by rw [hc]; decide
  obtain ⟨p, hp, hw⟩ := List.countP_pos_iff.1 this
  obtain ⟨j, hj⟩ := List.mem_iff_getElem?.1 hp
  cases p <;> simp [Pc.waits] at hw
  exact ⟨j, by simp [step, hj, hr]⟩

/-- What is left to do for the callers. -/
def left : Pc → Nat
  | .asking _ => 2
  | .waiting _ => 1
  | _ => 0

/-- What is left to do for the routine. -/
def due : Routine → Nat
  | .round _ => 2
  | .reply => 1
  | _ => 0

theorem sum_set (f : Pc → Nat) : ∀ (l : List Pc) (i : Nat) (p q : Pc), l[i]? = some p →
    ((l.set i q).map f).sum + f p = (l.map f).sum + f q
  | [], i, p, q, h => by simp at h
  | a :: l, 0, p, q, h => by
    simp at h; subst h
    simp only [List.set_cons_zero, List.map_cons, List.sum_cons]; omega
  | a :: l, i + 1, p, q, h => by
    have ih := sum_set f l i p q (by simpa using h)
    simp only [List.set_cons_succ, List.map_cons, List.sum_cons]; omega

theorem settle : ∀ (m : Nat) (s : Sys), Inv s → s.routine ≠ .stopped → (s.callers.map left).sum * 4 + due s.routine = m →
    ∃ more t, run s more = some t ∧ Quiet t := by
  intro m
  induction m using Nat.strongRecOn with
  | _ m ih =>
    intro s hs hn hm
    -- one step that makes the measure smaller
    have go : ∀ (a : Act) (t : Sys), step s a = some t → t.routine ≠ .stopped →
        (t.callers.map left).sum * 4 + due t.routine < m →
        ∃ more t, run s more = some t ∧ Quiet t := by
      intro a t h1 h2 h3
      obtain ⟨more, u, h4, h5⟩ := ih _ h3 t (inv_step hs h1) h2 rfl
      exact ⟨a :: more, u, by simp [run, h1, h4], h5⟩
    have hc := hs.cnt
    cases hr : s.routine with
    | stopped => exact absurd hr hn
    | round f =>
      rw [hr] at hm
      cases f
      · exact go .finish { s with routine := .idle, ended := s.ended + 1 } (by simp [step, hr]) (by simp) (by simp only [due] at hm ⊢; omega)
      · exact go .finish { s with routine := .reply, ended := s.ended + 1 } (by simp [step, hr]) (by simp) (by simp only [due] at hm ⊢; omega)
    | reply =>
      rw [hr] at hc hm
      have : 0 < s.callers.countP Pc.waits := by rw [hc]; decide
      obtain ⟨p, hp, hw⟩ := List.countP_pos_iff.1 this
      obtain ⟨j, hj⟩ := List.mem_iff_getElem?.1 hp
      cases p <;> simp [Pc.waits] at hw
      rename_i l
      have hsum := sum_set left s.callers j (.waiting l) (.returned l s.ended) hj
      refine go (.reply j) { s with routine := .idle, callers := s.callers.set j (.returned l s.ended) } (by simp [step, hj, hr]) (by simp) ?_
      simp only [left, due] at hsum hm ⊢
      omega
    | idle =>
      rw [hr] at hc hm
      by_cases hq : Quiet s
      · exact ⟨[], s, rfl, hq⟩
      · simp only [Quiet, Classical.not_forall] at hq
        obtain ⟨p, hp, ha⟩ := hq
        obtain ⟨j, hj⟩ := List.mem_iff_getElem?.1 hp
        have hw : p.waits = false := by
          have h0 : s.callers.countP Pc.waits = 0 := hc
          have := List.countP_eq_zero.1 h0 p hp
          simpa using this
        cases p <;> simp [Pc.active, Pc.waits] at ha hw
        rename_i k
        have hsum := sum_set left s.callers j (.asking k) (.waiting k) hj
        refine go (.ask j) { s with routine := .round true, begun := s.begun + 1, callers := s.callers.set j (.waiting k) } (by simp [step, hj, hr]) (by simp) ?_
        simp only [left, due] at hsum hm ⊢
        omega

/-- **C45 (partial)**, progress: however many callers there are and whatever has happened, as long as the routine has not been stopped every call to
`Refresh` can still return. Missing: after a shutdown, see `C45_stopped_refuted`. -/
theorem C45_progress_partial (n : Nat) (acts : List Act) (s : Sys) (h : run (init n) acts = some s) (hr : s.routine ≠ .stopped) :
    ∃ more t, run s more = some t ∧ Quiet t :=
  settle _ s (inv_run (inv_init n) h) hr rfl

example : ∃ s, run (init 3) [.finish, .call 0, .ask 0, .call 1, .call 2, .pass 1 0] = some s ∧ s.routine ≠ .stopped ∧ ¬ Quiet s :=
  ⟨_, rfl, by decide, fun h => absurd (h (.asking 2) (by decide)) (by decide)⟩

/-- **C45 (refuted).** Once the routine has taken a shutdown, every caller that is inside `Refresh`, and every other caller of `Shutdown`, stays
where it is for ever (until somebody starts the manager again). -/
theorem C45_stopped_refuted (n : Nat) (acts : List Act) (s : Sys) (h : run (init n) acts = some s) (hr : s.routine = .stopped)
    (more : List Act) (hmore : .start ∉ more) (t : Sys) (ht : run s more = some t) (i : Nat) (p : Pc) (hi : s.callers[i]? = some p)
    (hp : p.active = true ∨ p.stops = true) : t.callers[i]? = some p := by
  have key : ∀ (more : List Act) (s : Sys), Inv s → s.routine = .stopped → .start ∉ more → run s more = some t → s.callers[i]? = some p →
      t.callers[i]? = some p := by
    intro more
    induction more with
    | nil => intro s _ _ _ h hi; simp only [run, Option.some.injEq] at h; subst h; exact hi
    | cons a as ih =>
      intro s hinv hr hns h hi
      simp only [run] at h
      obtain ⟨s1, h1, h2⟩ := Option.bind_eq_some_iff.1 h
      have h0 : s.callers.countP Pc.waits = 0 := by rw [hinv.cnt, hr]; rfl
      have nw : ∀ (j k : Nat), s.callers[j]? ≠ some (Pc.waiting k) := by
        intro j k hj
        have := List.countP_eq_zero.1 h0 _ (List.mem_of_getElem? hj)
        simp [Pc.waits] at this
      have ne : ∀ (j : Nat) (q : Pc), s.callers[j]? = some q → (q.active = false ∧ q.stops = false) → j ≠ i := by
        rintro j q hj ⟨h1, h2⟩ rfl
        rw [hj] at hi; injection hi with hi; subst hi
        rw [h1, h2] at hp
        simp at hp
      have nfree : ∀ (q : Pc), q.free = true → q.active = false ∧ q.stops = false := by
        intro q hq; cases q <;> simp_all [Pc.free, Pc.active, Pc.stops]
      refine ih s1 (inv_step hinv h1) ?_ (fun hm => hns (List.mem_cons_of_mem _ hm)) h2 ?_
      · rcases step_some h1 with ⟨j, q, rfl, hq, hf, rfl⟩ | ⟨j, k, rfl, hq, hr', rfl⟩ | ⟨j, j', k, l, rfl, hq, hq', rfl⟩ | ⟨rfl, hr', rfl⟩ |
          ⟨rfl, hr', rfl⟩ | ⟨j, l, rfl, hq, hr', rfl⟩ | ⟨rfl, hr', rfl⟩ | ⟨j, q, rfl, hq, hf, rfl⟩ | ⟨j, rfl, hq, hr', rfl⟩ | ⟨j, rfl, hq, rfl⟩ |
          ⟨rfl, hrun, hr', rfl⟩ <;> first | exact hr | exact absurd List.mem_cons_self hns | (rw [hr] at hr'; cases hr') | rfl
      · rcases step_some h1 with ⟨j, q, rfl, hq, hf, rfl⟩ | ⟨j, k, rfl, hq, hr', rfl⟩ | ⟨j, j', k, l, rfl, hq, hq', rfl⟩ | ⟨rfl, hr', rfl⟩ |
          ⟨rfl, hr', rfl⟩ | ⟨j, l, rfl, hq, hr', rfl⟩ | ⟨rfl, hr', rfl⟩ | ⟨j, q, rfl, hq, hf, rfl⟩ | ⟨j, rfl, hq, hr', rfl⟩ | ⟨j, rfl, hq, rfl⟩ |
          ⟨rfl, hrun, hr', rfl⟩
        · simp only; rw [List.getElem?_set_ne (ne j q hq (nfree q hf))]; exact hi
        · rw [hr] at hr'; cases hr'
        · exact absurd hq' (nw _ _)
        · exact hi
        · exact hi
        · exact absurd hq (nw _ _)
        · exact hi
        · simp only; rw [List.getElem?_set_ne (ne j q hq (nfree q hf))]; exact hi
        · rw [hr] at hr'; cases hr'
        · simp only; rw [List.getElem?_set_ne (ne j _ hq ⟨rfl, rfl⟩)]; exact hi
        · exact hi
  exact key more s (inv_run (inv_init n) h) hr hmore ht hi

/-- A caller of `Refresh` and two of `Shutdown`: the first shutdown wins, the other two callers are left behind. -/
example : ∃ s, run (init 3) [.finish, .call 0, .callStop 1, .callStop 2, .stop 1, .clear 1] = some s ∧ s.routine = .stopped ∧
    s.callers = [.asking 1, .out, .stopping] := ⟨_, rfl, rfl, rfl⟩

end FcRetrieval.RegRefresh
