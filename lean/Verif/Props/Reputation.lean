import Verif.Spec.Reputation
import Verif.Lemmas.Maps
/-!
# C48, C95, C96: reputations
-/

set_option linter.unusedSimpArgs false

namespace FcRetrieval.Reputation

theorem wrap_id {n : Int} (h : inI64 n) : wrap n = n := by
  unfold inI64 at h; unfold wrap; omega

theorem wrap_range (n : Int) : inI64 (wrap n) := by
  unfold inI64 wrap; omega

theorem clamp_eq (v : Int) : (if v > clientMax then clientMax else if v < clientMin then clientMin else v) = clamp v := by
  unfold clamp clientMax clientMin
  split
  · omega
  · split <;> omega

theorem clamp_range (v : Int) : -10000 ≤ clamp v ∧ clamp v ≤ 10000 := by unfold clamp; omega

theorem changeRep_eq (s : Store) (c : Client) (a : Int) :
    changeRep s c a = (mget s c).map (fun v => (mset s c (clamp (wrap (v + a))), clamp (wrap (v + a)))) := by
  unfold changeRep
  cases h : mget s c with
  | none => rfl
  | some v => simp only [Option.map_some]; rw [← clamp_eq]

theorem event_eq (s : Store) (c : Client) (e : Event) :
    event s c e = (mget s c).map (fun v => mset s c (clamp (wrap (v + e.amount)))) := by
  unfold event
  rw [changeRep_eq]
  cases mget s c <;> rfl

theorem challenge_eq (s : Store) (c : Client) :
    ∃ s', challenge s c = some (s', clamp (wrap ((mget s c).getD 10 - 1))) ∧ ∀ c', mget s' c' = if c = c' then some (clamp (wrap ((mget s c).getD 10 - 1))) else mget s c' := by
  unfold challenge getRep setRep
  cases h : mget s c with
  | some v =>
    refine ⟨mset s c (clamp (wrap (v - 1))), ?_, ?_⟩
    · simp only [Option.isSome_some, if_true, changeRep_eq, h, Option.map_some, establishmentChallenge, Option.getD_some]
      rfl
    · intro c'
      rw [mget_mset]; rfl
  | none =>
    refine ⟨mset (mset s c 10) c (clamp (wrap (10 - 1))), ?_, ?_⟩
    · simp only [Option.isSome_none, Bool.false_eq_true, if_false, changeRep_eq, mget_mset_same, Option.map_some, establishmentChallenge, clientInitial, Option.getD_none]
      rfl
    · intro c'
      rw [mget_mset]
      by_cases hc : c = c'
      · simp [hc]
      · simp only [hc, if_false]
        rw [mget_mset_other _ _ hc]

/-! ## C48 -/

theorem safe_event {v : Int} (h : Safe v) (e : Event) : inI64 (v + e.amount) := by
  unfold Safe inI64 at *
  cases e <;> simp only [Event.amount] <;> omega

theorem safe_clamp (v : Int) : Safe (clamp v) := by
  have := clamp_range v
  unfold Safe inI64; omega

/-- **C48.** The reputation of every client after every history that does not panic is the one the specification computes on unbounded
integers; in particular the calls for one client do not touch another. The values set by the administrator must not be at the very
ends of `int64`, see `C48_wraps_refuted`. -/
theorem C48_history (ops : List Op) (hsafe : ∀ c v, .set c v ∈ ops → Safe v) (s : Store) (h : runOps [] ops = some s) (c : Client) :
    getRep s c = value c ops := by
  have key : ∀ (ops : List Op) (s0 : Store) (cur : Client → Option Int), (∀ c, mget s0 c = cur c) → (∀ c v, cur c = some v → Safe v) →
      (∀ c v, .set c v ∈ ops → Safe v) → runOps s0 ops = some s → mget s c = ops.foldl (note c) (cur c) := by
    intro ops
    induction ops with
    | nil => intro s0 cur h1 _ _ h4; simp only [runOps, Option.some.injEq] at h4; subst h4; exact h1 c
    | cons op ops ih =>
      intro s0 cur h1 h2 h3 h4
      have next : ∀ s1, (∀ c, mget s1 c = note c (cur c) op) → runOps s1 ops = some s → mget s c = (op :: ops).foldl (note c) (cur c) := by
        intro s1 h5 h6
        refine ih s1 (fun c => note c (cur c) op) h5 ?_ (fun c v hm => h3 c v (List.mem_cons_of_mem _ hm)) h6
        intro c' v hv
        cases op with
        | event d e =>
          simp only [note] at hv
          by_cases hd : d = c'
          · rw [if_pos hd] at hv
            obtain ⟨w, _, hw⟩ := Option.map_eq_some_iff.1 hv
            rw [← hw]; exact safe_clamp _
          · rw [if_neg hd] at hv; exact h2 c' v hv
        | challenge d =>
          simp only [note] at hv
          by_cases hd : d = c'
          · rw [if_pos hd] at hv
            injection hv with hv
            rw [← hv]; exact safe_clamp _
          · rw [if_neg hd] at hv; exact h2 c' v hv
        | set d w =>
          simp only [note] at hv
          by_cases hd : d = c'
          · rw [if_pos hd] at hv
            injection hv with hv
            rw [← hv]; exact h3 d w List.mem_cons_self
          · rw [if_neg hd] at hv; exact h2 c' v hv
      cases op with
      | event d e =>
        simp only [runOps] at h4
        obtain ⟨s1, h5, h6⟩ := Option.bind_eq_some_iff.1 h4
        refine next s1 ?_ h6
        intro c'
        rw [event_eq, h1] at h5
        obtain ⟨v, hv, rfl⟩ := Option.map_eq_some_iff.1 h5
        rw [mget_mset, h1]
        simp only [note]
        by_cases hd : d = c'
        · subst hd
          rw [if_pos rfl, if_pos rfl, hv, Option.map_some, wrap_id (safe_event (h2 _ _ hv) e)]
        · rw [if_neg hd, if_neg hd]
      | challenge d =>
        simp only [runOps] at h4
        obtain ⟨s1, h5, h6⟩ := challenge_eq s0 d
        rw [h5, Option.bind_some] at h4
        refine next s1 ?_ h4
        intro c'
        rw [h6, h1, h1]
        simp only [note]
        by_cases hd : d = c'
        · subst hd
          rw [if_pos rfl, if_pos rfl]
          cases hv : cur d with
          | none => rfl
          | some v =>
            have := h2 _ _ hv
            rw [Option.getD_some, wrap_id (by unfold Safe inI64 at *; omega)]
        · rw [if_neg hd, if_neg hd]
      | set d w =>
        simp only [runOps] at h4
        refine next _ ?_ h4
        intro c'
        rw [setRep, mget_mset, h1]
        rfl
  exact key ops [] (fun _ => none) (fun _ => rfl) (by simp) hsafe h

/-- **C48.** Whatever the administrator has set: after an event or a challenge the reputation is between -10000 and 10000. -/
theorem C48_range (ops : List Op) (c : Client) (op : Op) (hop : op = .challenge c ∨ ∃ e, op = .event c e) (s : Store)
    (h : runOps [] (ops ++ [op]) = some s) : ∃ v, getRep s c = some v ∧ -10000 ≤ v ∧ v ≤ 10000 := by
  have key : ∀ (ops : List Op) (s0 : Store), runOps s0 (ops ++ [op]) = some s → ∃ v, getRep s c = some v ∧ -10000 ≤ v ∧ v ≤ 10000 := by
    intro ops
    induction ops with
    | nil =>
      intro s0 h
      rcases hop with rfl | ⟨e, rfl⟩
      · obtain ⟨s1, h1, h2⟩ := challenge_eq s0 c
        simp only [List.nil_append, runOps, h1, Option.bind_some, Option.some.injEq] at h
        subst h
        exact ⟨_, by rw [getRep, h2, if_pos rfl], clamp_range _⟩
      · simp only [List.nil_append, runOps, event_eq] at h
        obtain ⟨s1, h1, h2⟩ := Option.bind_eq_some_iff.1 h
        obtain ⟨v, _, rfl⟩ := Option.map_eq_some_iff.1 h1
        injection h2 with h2
        subst h2
        exact ⟨_, by rw [getRep, mget_mset_same], clamp_range _⟩
    | cons o ops ih =>
      intro s0 h
      cases o with
      | event d e =>
        simp only [List.cons_append, runOps] at h
        obtain ⟨s1, _, h2⟩ := Option.bind_eq_some_iff.1 h
        exact ih s1 h2
      | challenge d =>
        simp only [List.cons_append, runOps] at h
        obtain ⟨s1, _, h2⟩ := Option.bind_eq_some_iff.1 h
        exact ih s1.1 h2
      | set d w => exact ih _ (by simpa only [List.cons_append, runOps] using h)
  exact key ops [] h

/-- **C48.** If the administrator sets nothing out of range, all reputations are in range at all times. -/
theorem C48_always_in_range (ops : List Op) (hset : ∀ c v, .set c v ∈ ops → -10000 ≤ v ∧ v ≤ 10000) (s : Store) (h : runOps [] ops = some s) (c : Client)
    (v : Int) (hv : getRep s c = some v) : -10000 ≤ v ∧ v ≤ 10000 := by
  have hsafe : ∀ c v, .set c v ∈ ops → Safe v := by
    intro c v hm
    have := hset c v hm
    unfold Safe inI64; omega
  rw [C48_history ops hsafe s h c] at hv
  have key : ∀ (ops : List Op) (cur : Option Int), (∀ c v, .set c v ∈ ops → -10000 ≤ v ∧ v ≤ 10000) → (∀ v, cur = some v → -10000 ≤ v ∧ v ≤ 10000) →
      ∀ v, ops.foldl (note c) cur = some v → -10000 ≤ v ∧ v ≤ 10000 := by
    intro ops
    induction ops with
    | nil => intro cur _ h v hv; exact h v hv
    | cons o ops ih =>
      intro cur h1 h2
      refine ih _ (fun c v hm => h1 c v (List.mem_cons_of_mem _ hm)) ?_
      intro v hv
      cases o with
      | event d e =>
        simp only [note] at hv
        split at hv
        · obtain ⟨w, _, rfl⟩ := Option.map_eq_some_iff.1 hv; exact clamp_range _
        · exact h2 v hv
      | challenge d =>
        simp only [note] at hv
        split at hv
        · injection hv with hv; subst hv; exact clamp_range _
        · exact h2 v hv
      | set d w =>
        simp only [note] at hv
        split at hv
        · injection hv with hv; subst hv; exact h1 d w List.mem_cons_self
        · exact h2 v hv
  exact key ops none hset (by simp) v hv

/-- **C48.** Positive events never lower and negative events never raise a reputation that is in range, and the new value is the sum with
what the event is worth if the sum is in range. -/
theorem C48_direction (s : Store) (c : Client) (v : Int) (hv : getRep s c = some v) (h1 : -10000 ≤ v) (h2 : v ≤ 10000) (e : Event) :
    ∃ s' w, event s c e = some s' ∧ getRep s' c = some w ∧ (0 ≤ worth e → v ≤ w) ∧ (worth e ≤ 0 → w ≤ v) ∧
      (-10000 ≤ v + worth e ∧ v + worth e ≤ 10000 → w = v + worth e) := by
  rw [show worth e = e.amount by cases e <;> rfl]
  have hs : Safe v := by unfold Safe inI64; omega
  refine ⟨mset s c (clamp (v + e.amount)), clamp (v + e.amount), ?_, ?_, ?_, ?_, ?_⟩
  · rw [event_eq, ← wrap_id (safe_event hs e)]
    unfold getRep at hv
    rw [hv]
    rfl
  · rw [getRep, mget_mset_same]
  all_goals
    generalize e.amount = a
    unfold clamp
    intro h
    omega

theorem present (c : Client) : ∀ (ops : List Op) (s0 s : Store) (cur : Option Int), (mget s0 c).isSome = cur.isSome → runOps s0 ops = some s →
    (mget s c).isSome = (ops.foldl (note c) cur).isSome
  | [], s0, s, cur, h1, h => by
    simp only [runOps, Option.some.injEq] at h; subst h; exact h1
  | .event d e :: ops, s0, s, cur, h1, h => by
    simp only [runOps] at h
    obtain ⟨s1, h5, h6⟩ := Option.bind_eq_some_iff.1 h
    refine present c ops s1 s (note c cur (.event d e)) ?_ h6
    rw [event_eq] at h5
    obtain ⟨v, hv, rfl⟩ := Option.map_eq_some_iff.1 h5
    rw [mget_mset]
    simp only [note]
    by_cases hd : d = c
    · subst hd
      rw [if_pos rfl, if_pos rfl, Option.isSome_map, ← h1, hv, Option.isSome_some, Option.isSome_some]
    · rw [if_neg hd, if_neg hd]; exact h1
  | .challenge d :: ops, s0, s, cur, h1, h => by
    simp only [runOps] at h
    obtain ⟨s1, h5, h6⟩ := challenge_eq s0 d
    rw [h5, Option.bind_some] at h
    refine present c ops s1 s (note c cur (.challenge d)) ?_ h
    rw [h6]
    simp only [note]
    by_cases hd : d = c
    · rw [if_pos hd, if_pos hd, Option.isSome_some, Option.isSome_some]
    · rw [if_neg hd, if_neg hd]; exact h1
  | .set d w :: ops, s0, s, cur, h1, h => by
    simp only [runOps] at h
    refine present c ops _ s (note c cur (.set d w)) ?_ h
    rw [setRep, mget_mset]
    simp only [note]
    by_cases hd : d = c
    · rw [if_pos hd, if_pos hd]
    · rw [if_neg hd, if_neg hd]; exact h1

theorem runOps_append (s : Store) (a b : List Op) : runOps s (a ++ b) = (runOps s a).bind (fun t => runOps t b) := by
  induction a generalizing s with
  | nil => rfl
  | cons x a ih =>
    cases x <;> simp only [List.cons_append, runOps, ih]
    · rw [Option.bind_assoc]
    · rw [Option.bind_assoc]

/-- **C48.** A history panics exactly if it has an event for a client that has neither been challenged nor set before. -/
theorem C48_panics (ops : List Op) :
    runOps [] ops = none ↔ ∃ pre c e post, ops = pre ++ .event c e :: post ∧ value c pre = none := by
  constructor
  · intro h
    -- the longest history that does not panic
    have key : ∀ (ops : List Op) (pre : List Op) (s : Store), runOps [] pre = some s → runOps s ops = none →
        ∃ pre' c e post, pre ++ ops = pre' ++ .event c e :: post ∧ value c pre' = none := by
      intro ops
      induction ops with
      | nil => intro pre s _ h; simp [runOps] at h
      | cons o ops ih =>
        intro pre s hp h
        have next : ∀ s1, runOps s [o] = some s1 → runOps s1 ops = none →
            ∃ pre' c e post, pre ++ o :: ops = pre' ++ .event c e :: post ∧ value c pre' = none := by
          intro s1 h1 h2
          obtain ⟨pre', c, e, post, h3, h4⟩ := ih (pre ++ [o]) s1 (by rw [runOps_append, hp, Option.bind_some, h1]) h2
          exact ⟨pre', c, e, post, by simpa using h3, h4⟩
        cases o with
        | event c e =>
          cases hg : event s c e with
          | some s1 =>
            refine next s1 (by simp [runOps, hg]) ?_
            simpa [runOps, hg] using h
          | none =>
            refine ⟨pre, c, e, ops, rfl, ?_⟩
            have := present c pre [] s none rfl hp
            rw [event_eq, Option.map_eq_none_iff] at hg
            rw [hg] at this
            simpa [value] using this
        | challenge c =>
          obtain ⟨s1, h5, _⟩ := challenge_eq s c
          refine next s1 (by simp [runOps, h5]) ?_
          simpa [runOps, h5] using h
        | set c v => exact next (setRep s c v) (by simp [runOps]) (by simpa [runOps] using h)
    obtain ⟨pre', c, e, post, h3, h4⟩ := key ops [] [] rfl h
    exact ⟨pre', c, e, post, by simpa using h3, h4⟩
  · rintro ⟨pre, c, e, post, rfl, hv⟩
    rw [runOps_append]
    cases hp : runOps [] pre with
    | none => rfl
    | some s =>
      have := present c pre [] s none rfl hp
      rw [show pre.foldl (note c) none = value c pre from rfl, hv] at this
      have hg : mget s c = none := by simpa using this
      simp [runOps, event_eq, hg]

/-- **C48 (refuted beyond the stated range).** If the administrator has set the reputation to the largest `int64`, a payment brings it to the minimum. -/
theorem C48_wraps_refuted (s : Store) (c : Client) (v : Int) (e : Event) (hv : getRep s c = some v) (h1 : 9223372036854775807 - e.amount < v) (h2 : inI64 v)
    (he : 0 < e.amount) : ∃ s', event s c e = some s' ∧ getRep s' c = some (-10000) := by
  refine ⟨mset s c (-10000), ?_, by rw [getRep, mget_mset_same]⟩
  unfold getRep at hv
  rw [event_eq, hv, Option.map_some]
  have ha : e.amount ≤ 1000 := by cases e <;> decide
  have : clamp (wrap (v + e.amount)) = -10000 := by
    unfold clamp wrap inI64 at *
    omega
  rw [this]

/-- A client is challenged, pays and misbehaves; another is set. -/
def exOps : List Op := [.challenge ['a'], .event ['a'] .onChainDeposit, .challenge ['b'], .set ['b'] 20000, .event ['a'] .dhtDiscNonPayment, .event ['b'] .microPayment]

example : (runOps [] exOps).map (fun s => (getRep s ['a'], getRep s ['b'])) = some (some 709, some 10000) := by decide
example : ∀ c v, .set c v ∈ exOps → Safe v := by
  intro c v h
  simp [exOps] at h
  obtain ⟨_, rfl⟩ := h
  unfold Safe inI64; omega
example : runOps [] [.event ['a'] .microPayment] = none := by decide
example : getRep [(['a'], 9223372036854775807)] ['a'] = some 9223372036854775807 ∧ inI64 9223372036854775807 := ⟨rfl, by unfold inI64; omega⟩

/-! ## C96: the administrator's requests -/

/-- An administrator's request. -/
inductive Request where
  | set (c : Client) (v : Int)
  | get (c : Client)

/-- The store after these requests. -/
def serve (s : Store) : List Request → Store
  | [] => s
  | .set c v :: rs => serve (adminSet s c v).1 rs
  | .get _ :: rs => serve s rs

/-- C96: for a client the gateway knows, what the administrator sets is what is answered and what is read afterwards, and other clients are not
touched. -/
theorem C96_set_then_get_partial (s : Store) (c : Client) (v : Int) (h : (getRep s c).isSome = true) :
    (adminSet s c v).2 = (v, true) ∧ adminGet (adminSet s c v).1 c = (v, true) ∧
    ∀ c', c' ≠ c → adminGet (adminSet s c v).1 c' = adminGet s c' := by
  unfold adminSet
  rw [if_pos h]
  refine ⟨rfl, by simp [adminGet, getRep, setRep, mget_mset_same], fun c' hc => ?_⟩
  simp only [adminGet, getRep, setRep]
  rw [mget_mset_other _ _ (fun e => hc e.symm)]

example : (getRep [(['a'], 5)] ['a']).isSome = true := rfl

/-- **C96 (refuted).** Nothing in the gateway ever challenges a client or reports an event, so the gateway knows no client: whatever the administrator
sets, nothing is ever stored, and every request is answered "0, does not exist". -/
theorem C96_never_stored_refuted (rs : List Request) (c : Client) (v : Int) :
    serve [] rs = [] ∧ (adminSet (serve [] rs) c v).2 = (0, false) ∧ adminGet (adminSet (serve [] rs) c v).1 c = (0, false) := by
  have h : serve [] rs = [] := by
    induction rs with
    | nil => rfl
    | cons r rs ih => cases r <;> simpa [serve, adminSet, getRep, mget] using ih
  rw [h]
  exact ⟨rfl, rfl, rfl⟩

/-! ## C95: calls at the same time -/

/-- A thread with these calls still to take effect. -/
def Pends (t : List Step) (cs : List Call) : Prop :=
  t = cs.flatMap Call.steps ∨
  ∃ c rest, cs = .challenge c :: rest ∧
    (t = .establish c false :: .change c establishmentChallenge :: rest.flatMap Call.steps ∨ t = .change c establishmentChallenge :: rest.flatMap Call.steps)

theorem serially_append (s : Store) (a b : List Call) : serially s (a ++ b) = (serially s a).bind (fun t => serially t b) := by
  induction a generalizing s with
  | nil => rfl
  | cons x a ih =>
    cases x <;> simp only [List.cons_append, serially, ih]
    · rw [Option.bind_assoc]
    · rw [Option.bind_assoc]

theorem known_change {s s' : Store} {c : Client} {a w : Int} (h : changeRep s c a = some (s', w)) (c' : Client) :
    (mget s c').isSome = true → (mget s' c').isSome = true := by
  rw [changeRep_eq] at h
  obtain ⟨v, hv, h⟩ := Option.map_eq_some_iff.1 h
  injection h with h1 h2
  subst h1
  intro hc
  rw [mget_mset]
  split
  · rfl
  · exact hc

theorem challenge_known {s : Store} {c : Client} (h : (mget s c).isSome = true) : challenge s c = changeRep s c establishmentChallenge := by
  unfold challenge getRep
  rw [if_pos h]

/-- One access of a thread: either it has no effect, or it is the effect of the next call. -/
theorem thread_step {s s' : Store} {t t' : List Step} {cs : List Call} (hp : Pends t cs) (hk : ∀ c ∈ cs, (mget s c.client).isSome = true)
    (h : stepThread s t = some (s', t')) :
    (s' = s ∧ Pends t' cs) ∨ ∃ k rest, cs = k :: rest ∧ serially s [k] = some s' ∧ Pends t' rest := by
  rcases hp with rfl | ⟨c, rest, rfl, rfl | rfl⟩
  · match cs, hk, h with
    | [], _, h => simp [stepThread] at h
    | .event c e :: rest, hk, h =>
      simp only [List.flatMap_cons, Call.steps, List.cons_append, List.nil_append, stepThread] at h
      obtain ⟨⟨s1, w⟩, h1, h2⟩ := Option.map_eq_some_iff.1 h
      simp only [Prod.mk.injEq] at h2
      obtain ⟨rfl, rfl⟩ := h2
      exact .inr ⟨_, rest, rfl, by simp [serially, event, h1], .inl rfl⟩
    | .challenge c :: rest, hk, h =>
      have hc := hk _ List.mem_cons_self
      simp only [Call.client] at hc
      have hn : (getRep s c).isNone = false := by
        unfold getRep
        cases hm : mget s c with
        | none => rw [hm] at hc; cases hc
        | some v => rfl
      simp only [List.flatMap_cons, Call.steps, List.cons_append, List.nil_append, stepThread, hn, Option.some.injEq, Prod.mk.injEq] at h
      obtain ⟨rfl, rfl⟩ := h
      exact .inl ⟨rfl, .inr ⟨c, rest, rfl, .inl rfl⟩⟩
  · simp only [stepThread, Bool.false_eq_true, if_false, Option.some.injEq, Prod.mk.injEq] at h
    obtain ⟨rfl, rfl⟩ := h
    exact .inl ⟨rfl, .inr ⟨c, rest, rfl, .inr rfl⟩⟩
  · simp only [stepThread] at h
    obtain ⟨⟨s1, w⟩, h1, h2⟩ := Option.map_eq_some_iff.1 h
    simp only [Prod.mk.injEq] at h2
    obtain ⟨rfl, rfl⟩ := h2
    refine .inr ⟨_, rest, rfl, ?_, .inl rfl⟩
    have hc := hk _ List.mem_cons_self
    simp only [Call.client] at hc
    simp [serially, challenge_known hc, h1]

theorem serially_known {s s' : Store} {k : Call} (h : serially s [k] = some s') (c : Client) : (mget s c).isSome = true → (mget s' c).isSome = true := by
  intro hc
  cases k with
  | event d e =>
    simp only [serially, event_eq] at h
    obtain ⟨s1, h1, h2⟩ := Option.bind_eq_some_iff.1 h
    injection h2 with h2
    subst h2
    obtain ⟨v, _, rfl⟩ := Option.map_eq_some_iff.1 h1
    rw [mget_mset]
    split
    · rfl
    · exact hc
  | challenge d =>
    obtain ⟨s1, h1, h2⟩ := challenge_eq s d
    simp only [serially, h1, Option.bind_some, Option.some.injEq] at h
    subst h
    rw [h2]
    split
    · rfl
    · exact hc

theorem perm_set {done : List Call} : ∀ {css : List (List Call)} {i : Nat} {k : Call} {rest : List Call}, css[i]? = some (k :: rest) →
    (done ++ css.flatten).Perm ((done ++ [k]) ++ (css.set i rest).flatten)
  | [], i, k, rest, h => by simp at h
  | cs :: css, 0, k, rest, h => by
    simp at h; subst h
    simp
  | cs :: css, i + 1, k, rest, h => by
    have ih := perm_set (done := []) (css := css) (i := i) (k := k) (rest := rest) (by simpa using h)
    simp only [List.nil_append] at ih
    simp only [List.flatten_cons, List.set_cons_succ, List.append_assoc]
    refine List.Perm.append_left done ?_
    refine (List.Perm.append_left cs ih).trans ?_
    exact (List.perm_middle (a := k) (l₁ := cs) (l₂ := (css.set i rest).flatten))

/-- **C95 (partial).** If all the clients are known to the gateway, then whatever the interleaving of the calls of several threads, the reputations at the end are those
after the same calls made one after the other, in some order. Missing: clients challenged for the first time, see `C95_lost_refuted`. -/
theorem C95_serial_partial (s0 : Store) (css : List (List Call)) (hk : ∀ cs ∈ css, ∀ k ∈ cs, (getRep s0 k.client).isSome = true)
    (sched : List Nat) (s' : Sys) (h : sysRun ⟨s0, threads css⟩ sched = some s') (hdone : ∀ t ∈ s'.threads, t = []) :
    ∃ order : List Call, order.Perm css.flatten ∧ serially s0 order = some s'.store := by
  have key : ∀ (sched : List Nat) (s : Sys) (done : List Call) (ps : List (List Call)), s.threads.length = ps.length →
      (∀ (i : Nat) t cs, s.threads[i]? = some t → ps[i]? = some cs → Pends t cs) →
      (∀ cs ∈ ps, ∀ k ∈ cs, (mget s.store k.client).isSome = true) →
      css.flatten.Perm (done ++ ps.flatten) → serially s0 done = some s.store → sysRun s sched = some s' →
      ∃ (done' : List Call) (ps' : List (List Call)), s'.threads.length = ps'.length ∧ (∀ (i : Nat) t cs, s'.threads[i]? = some t → ps'[i]? = some cs → Pends t cs) ∧
        css.flatten.Perm (done' ++ ps'.flatten) ∧ serially s0 done' = some s'.store := by
    intro sched
    induction sched with
    | nil =>
      intro s done ps h1 h2 _ h4 h5 h6
      simp only [sysRun, Option.some.injEq] at h6
      subst h6
      exact ⟨done, ps, h1, h2, h4, h5⟩
    | cons i sched ih =>
      intro s done ps h1 h2 h3 h4 h5 h6
      simp only [sysRun] at h6
      obtain ⟨s1, h7, h8⟩ := Option.bind_eq_some_iff.1 h6
      simp only [sysStep] at h7
      obtain ⟨t, ht, h9⟩ := Option.bind_eq_some_iff.1 h7
      obtain ⟨⟨st, t'⟩, h10, rfl⟩ := Option.map_eq_some_iff.1 h9
      have hi : i < s.threads.length := (List.getElem?_eq_some_iff.1 ht).1
      have hcs : ps[i]? = some ps[i] := List.getElem?_eq_getElem (by omega)
      have hin : ps[i] ∈ ps := List.getElem_mem _
      rcases thread_step (h2 i t _ ht hcs) (h3 _ hin) h10 with ⟨rfl, hp⟩ | ⟨k, rest, hk', hser, hp⟩
      · refine ih ⟨s.store, s.threads.set i t'⟩ done ps (by simpa using h1) ?_ h3 h4 h5 h8
        intro j u cs hu hc
        by_cases hj : i = j
        · subst hj
          simp only [List.getElem?_set_self hi, Option.some.injEq] at hu
          subst hu
          rw [hcs] at hc
          injection hc with hc
          subst hc
          exact hp
        · simp only [List.getElem?_set_ne hj] at hu
          exact h2 j u cs hu hc
      · refine ih ⟨st, s.threads.set i t'⟩ (done ++ [k]) (ps.set i rest) (by simpa using h1) ?_ ?_ ?_ ?_ h8
        · intro j u cs hu hc
          by_cases hj : i = j
          · subst hj
            simp only [List.getElem?_set_self hi, Option.some.injEq] at hu
            subst hu
            rw [List.getElem?_set_self (by omega)] at hc
            injection hc with hc
            subst hc
            exact hp
          · simp only [List.getElem?_set_ne hj] at hu
            rw [List.getElem?_set_ne hj] at hc
            exact h2 j u cs hu hc
        · intro cs hm k2 hk2
          refine serially_known hser _ ?_
          rcases List.mem_or_eq_of_mem_set hm with hm | rfl
          · exact h3 cs hm k2 hk2
          · exact h3 _ hin k2 (by rw [hk']; exact List.mem_cons_of_mem _ hk2)
        · rw [hk'] at hcs
          exact h4.trans (perm_set hcs)
        · rw [serially_append, h5, Option.bind_some]; exact hser
  obtain ⟨done', ps', h1, h2, h3, h4⟩ := key sched ⟨s0, threads css⟩ [] css (by simp [threads]) (by
      intro i t cs ht hcs
      simp only [threads, List.getElem?_map, hcs, Option.map_some, Option.some.injEq] at ht
      exact .inl ht.symm) hk (List.Perm.refl _) rfl h
  have hnil : ∀ cs ∈ ps', cs = [] := by
    intro cs hm
    obtain ⟨i, hi⟩ := List.mem_iff_getElem?.1 hm
    have hl : i < s'.threads.length := by rw [h1]; exact (List.getElem?_eq_some_iff.1 hi).1
    have ht := List.getElem?_eq_getElem hl
    have hp := h2 i _ cs ht hi
    rw [hdone _ (List.getElem_mem hl)] at hp
    rcases hp with hp | ⟨c, rest, _, hp | hp⟩
    · match cs, hp with
      | [], _ => rfl
      | .event c e :: rest, hp => simp [Call.steps] at hp
      | .challenge c :: rest, hp => simp [Call.steps] at hp
    · cases hp
    · cases hp
  have hfl : ps'.flatten = [] := by
    rw [List.flatten_eq_nil_iff]; exact hnil
  rw [hfl, List.append_nil] at h3
  exact ⟨done', h3.symm, h4⟩

/-- Two threads, a known client. -/
example : ∃ s', sysRun ⟨[(['a'], 10)], threads [[.challenge ['a']], [.event ['a'] .microPayment, .challenge ['a']]]⟩ [0, 1, 0, 1, 1, 0, 1] = some s' ∧
    (∀ t ∈ s'.threads, t = []) ∧ getRep s'.store ['a'] = some 9 := ⟨_, rfl, by decide, by decide⟩

/-- **C95 (refuted).** Two challenges of a client the gateway does not know yet, at the same time: the second writes the initial reputation over the first's result, so
that one of the two is not counted. For every client and every store that does not know it. -/
theorem C95_lost_refuted (s : Store) (c : Client) (h : getRep s c = none) :
    ∃ s', sysRun ⟨s, threads [[.challenge c], [.challenge c]]⟩ [0, 1, 0, 0, 1, 1] = some s' ∧ (∀ t ∈ s'.threads, t = []) ∧ getRep s'.store c = some 9 ∧
      (serially s [.challenge c, .challenge c]).bind (fun t => getRep t c) = some 8 := by
  obtain ⟨s1, e1, g1⟩ := challenge_eq s c
  obtain ⟨s2, e2, g2⟩ := challenge_eq s1 c
  have hs : (serially s [.challenge c, .challenge c]).bind (fun t => getRep t c) = some 8 := by
    simp only [serially, e1, e2, Option.bind_some, getRep, g2, if_true, g1]
    unfold getRep at h
    rw [h]
    decide
  refine ⟨⟨mset (mset (mset (mset s c 10) c 9) c 10) c 9, [[], []]⟩, ?_, by simp, by simp [getRep, mget_mset_same], hs⟩
  have c1 : ∀ s : Store, changeRep (mset s c 10) c (-1) = some (mset (mset s c 10) c 9, 9) := by
    intro s
    rw [changeRep_eq, mget_mset_same]
    have : clamp (wrap (10 + -1)) = 9 := by decide
    simp only [Option.map_some, this]
  simp [sysRun, sysStep, threads, Call.steps, stepThread, h, setRep, clientInitial, establishmentChallenge, c1]

end FcRetrieval.Reputation
