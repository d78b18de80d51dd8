import Verif.Lemmas.HttpWait
/-!
# Calls that share one HTTP communicator (C176)
-/

set_option linter.unusedSimpArgs false

namespace FcRetrieval.HttpWait

/-! ## What holds -/

/-- **C176**, the order of things: whatever the servers do and however the calls overlap, at most one call exchanges data with a server at any time. -/
theorem C176_one_partial (silent : Silent) (s : State) (hs : Reachable silent s) (i j : Nat) (hi : Talks s i) (hj : Talks s j) : i = j := by
  obtain ⟨c, st, hc, hp⟩ := hi
  obtain ⟨d, st', hd, hq⟩ := hj
  have h := inv_reachable hs
  have h1 := (h.lock i).2 ⟨c, st, hc, hp⟩
  have h2 := (h.lock j).2 ⟨d, st', hd, hq⟩
  rw [h1] at h2
  exact Option.some.inj h2

/-- **C176**, how long a call can take: 180 seconds from the moment at which its turn comes, and its turn comes not later than 180 seconds after it was made for every call that returned in
the meantime. -/
theorem C176_turn_partial (silent : Silent) (s : State) (hs : Reachable silent s) (i : Nat) (c : Call) (hc : s.calls[i]? = some c) :
    (∀ start, c.phase = .talking start → s.clock ≤ start + 180 ∧ start ≤ c.made + 180 * returnedIn s.calls c.made start) ∧
    (∀ start finish, c.phase = .done start finish → finish ≤ start + 180 ∧ start ≤ c.made + 180 * returnedIn s.calls c.made start) := by
  have h := inv_reachable hs
  exact ⟨fun st hp => (h.talking i c st hc hp).2.2, fun st f hp => (h.done i c st f hc hp).2.2.2⟩

theorem returnedIn_lt (calls : List Call) (i : Nat) (c : Call) (a b : Nat) (hc : calls[i]? = some c) (hn : ∀ st f, c.phase ≠ .done st f) :
    returnedIn calls a b + 1 ≤ calls.length := by
  rw [returnedIn_eq, Nat.add_one_le_iff]
  have h1 : calls.countP (isIn a b) ≤ calls.length := List.countP_le_length
  rcases Nat.lt_or_eq_of_le h1 with h | h
  · exact h
  · rw [List.countP_eq_length] at h
    have := h c (List.mem_of_getElem? hc)
    unfold isIn at this
    split at this
    · rename_i st f e
      exact absurd e (hn st f)
    · cases this

/-- **C176**, nobody waits for ever: a call returns within 180 seconds for every call that was ever made with this library, itself included. -/
theorem C176_returns_partial (silent : Silent) (s : State) (hs : Reachable silent s) (i : Nat) (c : Call) (hc : s.calls[i]? = some c)
    (hlate : c.made + 180 * s.calls.length < s.clock) : ∃ start finish, c.phase = .done start finish ∧ finish ≤ c.made + 180 * s.calls.length := by
  have h := inv_reachable hs
  match hp : c.phase with
  | .waiting =>
    exfalso
    have hl := returnedIn_lt s.calls i c c.made s.clock hc (by intro st f; rw [hp]; intro e; cases e)
    have hl := Nat.mul_le_mul_left 180 hl
    match hk : s.lock with
    | none =>
      have := h.free i c hc hp hk
      unfold limit at this
      omega
    | some j =>
      obtain ⟨d, st, hd, hq⟩ := (h.lock j).1 hk
      have h1 := h.busy i c hc hp j d st hd hq
      have h2 := (h.talking j d st hd hq).2.2.1
      unfold limit at h1 h2
      omega
  | .talking st =>
    exfalso
    have hl := returnedIn_lt s.calls i c c.made st hc (by intro st f; rw [hp]; intro e; cases e)
    have hl := Nat.mul_le_mul_left 180 hl
    obtain ⟨-, -, h3, h4⟩ := h.talking i c st hc hp
    unfold limit at h3 h4
    omega
  | .done st f =>
    refine ⟨st, f, rfl, ?_⟩
    obtain ⟨h1, h2, h3, h4, h5⟩ := h.done i c st f hc hp
    unfold limit at h4 h5
    by_cases hf : f ≤ st
    · have : returnedIn s.calls c.made st ≤ s.calls.length := by
        rw [returnedIn_eq]; exact List.countP_le_length
      have := Nat.mul_le_mul_left 180 this
      omega
    · have : returnedIn s.calls c.made st + 1 ≤ s.calls.length := by
        rw [returnedIn_eq, Nat.add_one_le_iff]
        rcases Nat.lt_or_eq_of_le (List.countP_le_length (p := isIn c.made st) (l := s.calls)) with h | h
        · exact h
        · rw [List.countP_eq_length] at h
          have := h c (List.mem_of_getElem? hc)
          simp [isIn, hp] at this
          omega
      have := Nat.mul_le_mul_left 180 this
      omega

/-! ## What does not -/

theorem clock_step (silent : Silent) (s : State) (e : Event) : s.clock ≤ (step silent s e).clock := by
  cases e <;> unfold step <;> dsimp only <;> repeat' split
  all_goals first | exact Nat.le_refl _ | exact Nat.le_succ _

theorem clock_run (silent : Silent) (es : List Event) (s : State) : s.clock ≤ (run silent s es).clock := by
  induction es generalizing s with
  | nil => exact Nat.le_refl _
  | cons e es ih => exact Nat.le_trans (clock_step silent s e) (ih _)

theorem held_step (silent : Silent) (s : State) (i j : Nat) (c d : Call) (start : Nat) (hl : s.lock = some i) (hc : s.calls[i]? = some c) (hp : c.phase = .talking start)
    (hsil : silent c.server = true) (hd : s.calls[j]? = some d) (hq : d.phase = .waiting) (e : Event) (ht : s.clock < start + limit) :
    (step silent s e).lock = some i ∧ (step silent s e).calls[i]? = some c ∧ (step silent s e).calls[j]? = some d ∨
      ∃ k, k ≠ i ∧ k ≠ j ∧ e = .return_ k ∧ Talks s k := by
  cases e with
  | call sv =>
    exact Or.inl ⟨hl, get_append_left _ _ _ _ hc, get_append_left _ _ _ _ hd⟩
  | acquire k =>
    left
    unfold step
    dsimp only
    split
    · exact ⟨hl, hc, hd⟩
    · rw [if_neg (by rw [hl]; rintro ⟨-, h⟩; cases h)]
      exact ⟨hl, hc, hd⟩
  | return_ k =>
    by_cases hki : k = i
    · subst hki
      left
      simp [step, hc, hp, hsil, ht, hl, hd]
    · by_cases hkj : k = j
      · subst hkj
        left
        simp [step, hd, hq, hl, hc]
      · match hk : s.calls[k]? with
        | none =>
          left
          simp [step, hk, hl, hc, hd]
        | some x =>
          match hx : x.phase with
          | .talking st => exact Or.inr ⟨k, hki, hkj, rfl, x, st, hk, hx⟩
          | .waiting => left; simp [step, hk, hx, hl, hc, hd]
          | .done a b => left; simp [step, hk, hx, hl, hc, hd]
  | tick =>
    left
    unfold step
    dsimp only
    repeat' split
    all_goals exact ⟨hl, hc, hd⟩

/-- **C176** fails: while a call exchanges data with a server that does not answer, every other call that was made before or is made meanwhile, to whatever server, waits with it until the 180 seconds are over. -/
theorem C176_held_up_refuted (silent : Silent) (s : State) (hs : Reachable silent s) (i j : Nat) (c d : Call) (start : Nat)
    (hc : s.calls[i]? = some c) (hp : c.phase = .talking start) (hsil : silent c.server = true)
    (hd : s.calls[j]? = some d) (hq : d.phase = .waiting) (es : List Event) (ht : (run silent s es).clock < start + 180) :
    (run silent s es).calls[j]? = some d ∧ (run silent s es).calls[i]? = some c := by
  have h := inv_reachable hs
  clear hs
  induction es generalizing s with
  | nil => exact ⟨hd, hc⟩
  | cons e es ih =>
    have hl := (h.lock i).2 ⟨c, start, hc, hp⟩
    have hclk : s.clock < start + limit := by
      have := clock_run silent (e :: es) s
      unfold limit
      omega
    rcases held_step silent s i j c d start hl hc hp hsil hd hq e hclk with ⟨-, h2, h3⟩ | ⟨k, hki, -, -, x, st, hx, hxp⟩
    · exact ih (step silent s e) h2 h3 ht (inv_step silent s e h)
    · exfalso
      have := (h.lock k).2 ⟨x, st, hx, hxp⟩
      rw [hl] at this
      exact hki (Option.some.inj this).symm

theorem ticks (silent : Silent) (m : Nat) (s : State) (hl : s.lock ≠ none) (ht : ∀ c ∈ s.calls, ∀ st, c.phase = .talking st → s.clock + m ≤ st + limit) :
    run silent s (List.replicate m .tick) = { s with clock := s.clock + m } := by
  induction m generalizing s with
  | zero => rfl
  | succ m ih =>
    have h1 : step silent s .tick = { s with clock := s.clock + 1 } := by
      unfold step
      dsimp only
      rw [if_neg, if_neg (fun h => hl h.1)]
      rw [Bool.not_eq_true, List.any_eq_false]
      intro c hc ho
      unfold overdue at ho
      split at ho
      · rename_i st hp
        have := ht c hc st hp
        simp at ho
        omega
      · cases ho
    rw [List.replicate_succ]
    show run silent (step silent s .tick) _ = _
    rw [h1, ih]
    · simp only [State.mk.injEq, true_and, and_true]
      omega
    · exact hl
    · intro c hc st hp
      have := ht c hc st hp
      dsimp only
      omega

theorem run_cons (silent : Silent) (s : State) (e : Event) (es : List Event) : run silent s (e :: es) = run silent (step silent s e) es := rfl

/-- One call after the other goes to the silent server. -/
def rounds : Nat → List Event
  | 0 => []
  | k + 1 => rounds k ++ (.acquire k :: (List.replicate 180 .tick ++ [.return_ k]))

/-- The calls after `k` rounds. -/
def after (n k : Nat) : List Call :=
  (List.range k).map (fun j => (⟨0, 0, .done (180 * j) (180 * j + 180)⟩ : Call)) ++ (List.replicate (n - k) ⟨0, 0, .waiting⟩ ++ [⟨1, 0, .waiting⟩])

theorem after_get (n k : Nat) (h : k < n) : (after n k)[k]? = some ⟨0, 0, .waiting⟩ := by
  unfold after
  rw [List.getElem?_append_right (by simp), List.getElem?_append_left (by simp; omega), List.getElem?_replicate]
  simp
  omega

theorem after_succ (n k : Nat) (h : k < n) : (after n k).set k ⟨0, 0, .done (180 * k) (180 * k + 180)⟩ = after n (k + 1) := by
  unfold after
  rw [List.set_append_right _ _ (by simp)]
  obtain ⟨m, hm⟩ : ∃ m, n - k = m + 1 := ⟨n - k - 1, by omega⟩
  rw [hm, show n - (k + 1) = m by omega, List.range_succ]
  simp [List.replicate_succ]

theorem rounds_run (silent : Silent) (n k : Nat) (h : k ≤ n) : run silent ⟨0, none, after n 0⟩ (rounds k) = ⟨180 * k, none, after n k⟩ := by
  induction k with
  | zero => rfl
  | succ k ih =>
    rw [rounds, run_append, ih (by omega)]
    have hk : k < (after n k).length := by simp [after]
    have h1 : step silent ⟨180 * k, none, after n k⟩ (.acquire k) = ⟨180 * k, some k, (after n k).set k ⟨0, 0, .talking (180 * k)⟩⟩ := by
      unfold step
      dsimp only
      rw [after_get n k (by omega)]
      simp
    rw [run_cons, h1, run_append, ticks]
    · rw [run_cons, run]
      unfold step
      dsimp only
      rw [List.getElem?_set_self hk]
      dsimp only
      rw [if_neg (by unfold limit; rintro ⟨-, h⟩; omega), List.set_set, after_succ n k (by omega)]
      simp only [State.mk.injEq, and_true]
      omega
    · simp
    · intro c hc st hp
      rcases List.mem_or_eq_of_mem_set hc with hc | rfl
      · exfalso
        simp only [after, List.mem_append, List.mem_map, List.mem_replicate, List.mem_singleton] at hc
        rcases hc with ⟨x, -, rfl⟩ | ⟨-, rfl⟩ | rfl <;> cases hp
      · cases hp
        unfold limit
        dsimp only
        omega

/-- Not returned. -/
def isOpen (c : Call) : Bool := match c.phase with | .done _ _ => false | _ => true

theorem open_eq (s : State) : open_ s = s.calls.countP isOpen := rfl

/-- The call whose turn it is comes to its end when its time is up. -/
theorem end_turn (silent : Silent) (s : State) (h : Inv s) (i : Nat) (hl : s.lock = some i) :
    ∃ es, open_ (run silent s es) + 1 = open_ s ∧ (run silent s es).calls.length = s.calls.length ∧ (run silent s es).clock ≤ s.clock + limit ∧ (run silent s es).lock = none ∧
      Inv (run silent s es) := by
  obtain ⟨c, st, hc, hp⟩ := (h.lock i).1 hl
  obtain ⟨hi, hci⟩ := List.getElem?_eq_some_iff.1 hc
  obtain ⟨h1, h2, h3, h4⟩ := h.talking i c st hc hp
  have hr : run silent s (List.replicate (st + limit - s.clock) .tick ++ [.return_ i]) =
      ⟨st + limit, none, s.calls.set i { c with phase := .done st (st + limit) }⟩ := by
    rw [run_append, ticks]
    · rw [run_cons, run]
      unfold step
      dsimp only
      rw [hc]
      dsimp only
      rw [hp]
      dsimp only
      rw [show s.clock + (st + limit - s.clock) = st + limit by omega, if_neg (by rintro ⟨-, h⟩; omega)]
    · rw [hl]; simp
    · intro d hd st' hq
      obtain ⟨j, hj⟩ := List.mem_iff_getElem?.1 hd
      have := (h.lock j).2 ⟨d, st', hj, hq⟩
      rw [hl] at this
      cases this
      rw [hc] at hj
      cases hj
      rw [hp] at hq
      cases hq
      omega
  refine ⟨List.replicate (st + limit - s.clock) .tick ++ [.return_ i], ?_, ?_, ?_, ?_, inv_run silent _ s h⟩
  · rw [hr, open_eq, open_eq]
    dsimp only
    have hpos : 0 < s.calls.countP isOpen := List.countP_pos_iff.2 ⟨c, List.mem_of_getElem? hc, by simp [isOpen, hp]⟩
    rw [List.countP_set hi, hci, show isOpen c = true by simp [isOpen, hp], show isOpen { c with phase := .done st (st + limit) } = false from rfl, if_pos rfl, if_neg (by simp)]
    omega
  · rw [hr]; simp
  · rw [hr]; dsimp only; omega
  · rw [hr]

theorem all_end (silent : Silent) (n : Nat) : ∀ s, Inv s → open_ s = n →
    ∃ es, open_ (run silent s es) = 0 ∧ (run silent s es).calls.length = s.calls.length ∧ (run silent s es).clock ≤ s.clock + limit * n := by
  induction n with
  | zero =>
    intro s _ ho
    exact ⟨[], ho, rfl, Nat.le_refl _⟩
  | succ n ih =>
    intro s h ho
    have key : ∃ s' es', s' = run silent s es' ∧ Inv s' ∧ open_ s' = open_ s ∧ s'.calls.length = s.calls.length ∧ s'.clock = s.clock ∧ ∃ i, s'.lock = some i := by
      match hl : s.lock with
      | some i => exact ⟨s, [], rfl, h, rfl, rfl, rfl, i, hl⟩
      | none =>
        have hpos : 0 < s.calls.countP isOpen := by rw [← open_eq]; omega
        obtain ⟨c, hm, hopen⟩ := List.countP_pos_iff.1 hpos
        obtain ⟨i, hc⟩ := List.mem_iff_getElem?.1 hm
        obtain ⟨hi, hci⟩ := List.getElem?_eq_some_iff.1 hc
        have hp : c.phase = .waiting := by
          match hp : c.phase with
          | .waiting => rfl
          | .talking st =>
            have := (h.lock i).2 ⟨c, st, hc, hp⟩
            rw [hl] at this
            cases this
          | .done a b => simp [isOpen, hp] at hopen
        have hr : run silent s [.acquire i] = { s with lock := some i, calls := s.calls.set i { c with phase := .talking s.clock } } := by
          rw [run_cons, run]
          unfold step
          dsimp only
          rw [hc]
          dsimp only
          rw [if_pos ⟨hp, hl⟩]
        refine ⟨_, [.acquire i], hr.symm, ?_, ?_, by simp, rfl, i, rfl⟩
        · rw [← hr]; exact inv_run silent _ s h
        · rw [open_eq, open_eq]
          dsimp only
          rw [List.countP_set hi, hci, show isOpen c = true by simp [isOpen, hp], show isOpen { c with phase := .talking s.clock } = true from rfl, if_pos rfl]
          omega
    obtain ⟨s', es', he, hinv, ho', hlen, hclk, i, hl⟩ := key
    obtain ⟨es1, a1, a2, a3, a4, a5⟩ := end_turn silent s' hinv i hl
    obtain ⟨es2, b1, b2, b3⟩ := ih (run silent s' es1) a5 (by omega)
    refine ⟨es' ++ (es1 ++ es2), ?_, ?_, ?_⟩ <;> rw [run_append, ← he, run_append]
    · exact b1
    · rw [b2, a2, hlen]
    · rw [Nat.mul_add]
      omega

/-- **C176**, no deadlock: from every state that can be reached, whatever the servers, all calls can return, within 180 seconds for each that has not returned yet. -/
theorem C176_goes_on_partial (silent : Silent) (s : State) (hs : Reachable silent s) :
    ∃ es, open_ (run silent s es) = 0 ∧ (run silent s es).calls.length = s.calls.length ∧ (run silent s es).clock ≤ s.clock + 180 * open_ s :=
  all_end silent _ s (inv_reachable hs) rfl

/-- How long it can be: with `n` calls to a server that does not answer made before it, a call to a server that answers at once returns after 180·n seconds. -/
theorem C176_queue_refuted (n : Nat) : ∃ es s, s = run (fun sv => decide (sv = 0)) (fresh 0) es ∧ s.calls.length = n + 1 ∧
    (∀ j < n, s.calls[j]? = some ⟨0, 0, .done (180 * j) (180 * j + 180)⟩) ∧ s.calls[n]? = some ⟨1, 0, .done (180 * n) (180 * n)⟩ := by
  have hcalls : run (fun sv => decide (sv = 0)) (fresh 0) (List.replicate n (.call 0) ++ [.call 1]) = ⟨0, none, after n 0⟩ := by
    rw [run_append]
    have : ∀ m cs, run (fun sv => decide (sv = 0)) ⟨0, none, cs⟩ (List.replicate m (.call 0)) = ⟨0, none, cs ++ List.replicate m ⟨0, 0, .waiting⟩⟩ := by
      intro m
      induction m with
      | zero => intro cs; simp [run]
      | succ m ih =>
        intro cs
        rw [List.replicate_succ]
        show run _ (step _ ⟨0, none, cs⟩ (.call 0)) _ = _
        have : step (fun sv => decide (sv = 0)) ⟨0, none, cs⟩ (.call 0) = ⟨0, none, cs ++ [⟨0, 0, .waiting⟩]⟩ := rfl
        rw [this, ih]
        simp [List.replicate_succ]
    rw [show fresh 0 = ⟨0, none, []⟩ from rfl, this]
    simp [run, step, after]
  refine ⟨(List.replicate n (.call 0) ++ [.call 1]) ++ (rounds n ++ [.acquire n, .return_ n]), _, rfl, ?_⟩
  rw [run_append, hcalls, run_append, rounds_run _ n n (Nat.le_refl _)]
  have hg : (after n n)[n]? = some ⟨1, 0, .waiting⟩ := by
    unfold after
    rw [List.getElem?_append_right (by simp)]
    simp
  have hlen : (after n n).length = n + 1 := by simp [after]
  have hr : run (fun sv => decide (sv = 0)) ⟨180 * n, none, after n n⟩ [.acquire n, .return_ n] =
      ⟨180 * n, none, (after n n).set n ⟨1, 0, .done (180 * n) (180 * n)⟩⟩ := by
    simp [run, step, hg, List.getElem?_set_self (show n < (after n n).length by omega)]
  rw [hr]
  refine ⟨by simp [hlen], ?_, by rw [List.getElem?_set_self (by omega)]⟩
  intro j hj
  dsimp only
  rw [List.getElem?_set_ne (by omega)]
  unfold after
  rw [List.getElem?_append_left (by simpa using hj)]
  simp [hj]

/-! ## Cases -/

/-- Two calls; the first server is silent, the second call waits for it. -/
def exWait : State := run (fun sv => decide (sv = 7)) (fresh 10) [.call 7, .acquire 0, .tick, .call 8, .tick]

theorem exWait_eq : exWait = ⟨12, some 0, [⟨7, 10, .talking 10⟩, ⟨8, 11, .waiting⟩]⟩ := by decide +kernel

/-- Whatever happens before second 190, the second call is still waiting. -/
example (es : List Event) (ht : (run (fun sv => decide (sv = 7)) exWait es).clock < 190) :
    (run (fun sv => decide (sv = 7)) exWait es).calls[1]? = some ⟨8, 11, .waiting⟩ :=
  (C176_held_up_refuted _ exWait ⟨10, _, rfl⟩ 0 1 ⟨7, 10, .talking 10⟩ ⟨8, 11, .waiting⟩ 10 (by rw [exWait_eq]; rfl) rfl (by decide) (by rw [exWait_eq]; rfl) rfl es ht).1

example : Talks exWait 0 := ⟨⟨7, 10, .talking 10⟩, 10, by rw [exWait_eq]; rfl, rfl⟩

/-- A call to a server that answers after three seconds, while nobody else is there, and a long time afterwards. -/
def exDone : State := run (fun _ => false) (fresh 10) ([.call 7, .acquire 0, .tick, .tick, .tick, .return_ 0] ++ List.replicate 181 .tick)

theorem exDone_eq : exDone = ⟨194, none, [⟨7, 10, .done 10 13⟩]⟩ := by decide +kernel

example : ∃ start finish, (⟨7, 10, .done 10 13⟩ : Call).phase = .done start finish ∧ finish ≤ 10 + 180 * 1 := by
  have := C176_returns_partial (fun _ => false) exDone ⟨10, _, rfl⟩ 0 ⟨7, 10, .done 10 13⟩ (by rw [exDone_eq]; rfl) (by rw [exDone_eq]; decide)
  rw [exDone_eq] at this
  exact this

theorem exDone_reached : Reachable (fun _ => false) exDone := ⟨10, _, rfl⟩

example : (13 : Nat) ≤ 10 + 180 := by
  have h := (C176_turn_partial (fun _ => false) exDone exDone_reached 0 ⟨7, 10, .done 10 13⟩ (by rw [exDone_eq]; rfl)).2 10 13 rfl
  exact h.1

example : ∃ es, open_ (run (fun sv => decide (sv = 7)) exWait es) = 0 ∧ (run (fun sv => decide (sv = 7)) exWait es).clock ≤ exWait.clock + 180 * 2 := by
  obtain ⟨es, h1, -, h2⟩ := C176_goes_on_partial (fun sv => decide (sv = 7)) exWait ⟨10, _, rfl⟩
  refine ⟨es, h1, ?_⟩
  rwa [show open_ exWait = 2 by rw [exWait_eq]; decide] at h2

end FcRetrieval.HttpWait
