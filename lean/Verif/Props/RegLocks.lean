import Verif.Lemmas.RWLock
import Verif.Model.RegLocks
/-!
# Locks of the register manager (C41, C42)
-/

set_option linter.unusedSimpArgs false

namespace FcRetrieval.RegLocks
open FcRetrieval.RWLock

/-- The order in which the locks are taken. -/
def rank : Lock → Nat
  | .ring => 0
  | .gateways => 1
  | .providers => 2

theorem disciplined_round (free : Lock → Bool) (hg : free .gateways = false) (answer : List Bool) (h : true ∈ answer → free .ring = false) :
    Disciplined rank free [] (roundGateways answer) = true := by
  unfold roundGateways
  simp only [Disciplined]
  apply disciplined_flatMap
  intro b hb
  cases b with
  | false => simp [storeGateway, Disciplined, hg]
  | true => simp [storeGateway, Disciplined, hg, h hb]

theorem disciplined_roundProviders (free : Lock → Bool) (hp : free .providers = false) (n : Nat) :
    Disciplined rank free [] (roundProviders n) = true := by
  unfold roundProviders
  simp only [Disciplined]
  rw [List.flatten_eq_flatMap]
  apply disciplined_flatMap
  intro b hb
  rw [List.eq_of_mem_replicate hb]
  simp [storeProvider, Disciplined, hp]

theorem good_threads {free : Lock → Bool} {cs : List (List Call)} (h : ∀ c ∈ cs, ∀ k ∈ c, Disciplined rank free [] k.ops = true) :
    ∀ t ∈ threads cs, Good rank free t := by
  intro t ht
  obtain ⟨c, hc, rfl⟩ := List.mem_map.1 ht
  exact good_begin (disciplined_flatMap (h c hc))

/-- Calls other than a lookup of an unknown provider and the range lookup. -/
def Plain (k : Call) : Prop := k ≠ .getProvider .never ∧ k ≠ .getGatewayCIDRange

theorem plain_disciplined {k : Call} (h : Plain k) : Disciplined rank (fun _ => false) [] k.ops = true := by
  cases k with
  | getGateway f => cases f <;> decide
  | getProvider f =>
    cases f with
    | first => decide
    | second => decide
    | never => exact absurd rfl h.1
  | getAllGateways => decide
  | getAllProviders => decide
  | getGatewaysNear => decide
  | getGatewayCIDRange => exact absurd rfl h.2
  | roundGateways a => exact disciplined_round _ rfl a (fun _ => rfl)
  | roundProviders n => exact disciplined_roundProviders _ rfl n
  | shutdownGateways => decide
  | shutdownProviders => decide

/-! ## C41 -/

/-- **C41 (partial).** Any number of threads making any calls except lookups of unknown providers and range lookups: no interleaving
deadlocks, all calls return, and a thread that has made its calls holds no lock.
Missing: lookups of unknown providers, which keep their lock (`C41_never_again_refuted`), and range lookups (C42). -/
theorem C41_calls_complete_partial (cs : List (List Call)) (h : ∀ c ∈ cs, ∀ k ∈ c, Plain k) :
    AlwaysCompletes (threads cs) ∧
    ∀ sched s', run (threads cs) sched = some s' → ∀ t ∈ s', t.todo = [] → t.held = [] := by
  have hg := good_threads (fun c hc k hk => plain_disciplined (h c hc k hk))
  refine ⟨disciplined_completes hg, fun sched s' hrun t ht h0 => ?_⟩
  have := (good_run hg hrun t ht).disciplined
  rw [h0] at this
  simpa [Disciplined] using this

/-- **C41**, what the locks are for: whatever the calls, while one thread holds a lock for writing no other thread holds it. -/
theorem C41_writers_exclude (cs : List (List Call)) (sched : List Nat) (s' : List (Thread Lock)) (h : run (threads cs) sched = some s') :
    Exclusive s' := by
  refine exclusive_run ?_ h
  intro t ht
  obtain ⟨c, _, rfl⟩ := List.mem_map.1 ht
  exact ⟨_, rfl⟩

/-- Three threads: lookups, a round with a new and a known gateway, a provider round and a shutdown. -/
def exCalls : List (List Call) :=
  [[.getGateway false, .getGatewaysNear, .getProvider .first], [.roundGateways [true, false], .shutdownGateways],
    [.roundProviders 2, .getAllProviders, .shutdownProviders]]

example : ∀ c ∈ exCalls, ∀ k ∈ c, Plain k := by
  intro c hc k hk
  simp only [exCalls, List.mem_cons, List.not_mem_nil, or_false] at hc
  rcases hc with rfl | rfl | rfl <;> simp only [List.mem_cons, List.not_mem_nil, or_false] at hk <;> rcases hk with rfl | rfl | rfl <;>
    constructor <;> intro h <;> cases h

/-- The lock of a thread that has finished stays taken: nobody ever gets to write under it. -/
theorem leak_stays {L : Type} [DecidableEq L] {i : Nat} {t : Thread L} {l : L} (h0 : t.todo = []) (hm : (l, false) ∈ t.held) :
    ∀ {sched : List Nat} {s s' : List (Thread L)}, s[i]? = some t → run s sched = some s' →
      s'[i]? = some t ∧ ∀ (j : Nat) (u : Thread L), s[j]? = some u → ∃ u' : Thread L, s'[j]? = some u' ∧ u'.todo.count (.lock l) = u.todo.count (.lock l) := by
  intro sched
  induction sched with
  | nil =>
    intro s s' hi h
    simp only [run, Option.some.injEq] at h
    subst h
    exact ⟨hi, fun j u hj => ⟨u, hj, rfl⟩⟩
  | cons k is ih =>
    intro s s' hi h
    simp only [run] at h
    obtain ⟨s1, h1, h2⟩ := Option.bind_eq_some_iff.1 h
    obtain ⟨v, v', hk, rfl, hc⟩ := step_some h1
    have hki : k ≠ i := by
      rintro rfl
      rw [hi] at hk
      injection hk with hk
      subst hk
      rw [h0] at hc
      simp at hc
    have hi1 : (s.set k v')[i]? = some t := by rw [List.getElem?_set_ne hki]; exact hi
    obtain ⟨h3, h4⟩ := ih hi1 h2
    refine ⟨h3, fun j u hj => ?_⟩
    have hcount : v'.todo.count (.lock l) = v.todo.count (.lock l) := by
      rcases hc with ⟨r, e1, rfl⟩ | ⟨l', r, e1, _, rfl⟩ | ⟨l', r, e1, _, rfl⟩ | ⟨l', r, e1, _, rfl⟩ | ⟨l', r, e1, _, _, rfl⟩ | ⟨l', r, e1, _, e3, rfl⟩
      · simp [e1, List.count_cons]
      · simp [e1, List.count_cons]
      · simp [e1, List.count_cons]
      · simp [e1, List.count_cons]
      · rfl
      · have hne : l' ≠ l := by
          rintro rfl
          have := e3 t (List.mem_of_getElem? hi)
          simp [Thread.holds, hm] at this
        simp [e1, List.count_cons, hne]
    by_cases hjk : k = j
    · subst hjk
      rw [hk] at hj
      injection hj with hj
      subst hj
      have hlt : k < s.length := by
        rcases Nat.lt_or_ge k s.length with h | h
        · exact h
        · rw [List.getElem?_eq_none h] at hk; cases hk
      obtain ⟨u', h5, h6⟩ := h4 k v' (by rw [List.getElem?_set_self hlt])
      exact ⟨u', h5, by rw [h6, hcount]⟩
    · obtain ⟨u', h5, h6⟩ := h4 j u (by rw [List.getElem?_set_ne hjk]; exact hj)
      exact ⟨u', h5, h6⟩

/-- **C41 (refuted).** One lookup of an unknown provider is enough: it returns, and afterwards, whatever else runs and however it is
scheduled, no update of the provider table and no shutdown ever completes. -/
theorem C41_never_again_refuted (cs : List (List Call)) (j : Nat) (c : List Call) (hj : cs[j]? = some c) (hc : .lock .providers ∈ c.flatMap Call.ops) :
    ∃ s, run (threads ([.getProvider .never] :: cs)) [0, 0, 0, 0, 0] = some s ∧ (∃ t, s[0]? = some t ∧ t.todo = []) ∧
      ∀ sched s', run s sched = some s' → ∃ u, s'[j + 1]? = some u ∧ u.todo ≠ [] := by
  have hfresh : ∀ x ∈ threads cs, x.held = [] ∧ x.waiting = false := by
    intro t ht
    obtain ⟨c, _, rfl⟩ := List.mem_map.1 ht
    exact ⟨rfl, rfl⟩
  have h1 : ∀ l, ¬ ∃ x, x ∈ threads cs ∧ ((l, true) ∈ x.held ∨ x.waiting = true ∧ x.todo.head? = some (Op.lock l)) := by
    rintro l ⟨x, hx, h | h⟩ <;> simp [hfresh x hx] at h
  have hthreads : threads ([.getProvider .never] :: cs) = begin_ (getProvider .never) :: threads cs := by
    simp [threads, Call.ops]
  have hrun : run (threads ([.getProvider .never] :: cs)) [0, 0, 0, 0, 0] =
      some ({ todo := [], held := [(.providers, false)], waiting := false } :: threads cs) := by
    rw [hthreads]
    simp [run, step, begin_, getProvider, h1, Thread.writes, Thread.announced]
  refine ⟨_, hrun, ⟨_, rfl, rfl⟩, fun sched s' hr => ?_⟩
  obtain ⟨_, h2⟩ := leak_stays (i := 0) (l := Lock.providers) rfl (by simp) rfl hr
  have hj' : ({ todo := [], held := [(Lock.providers, false)], waiting := false } :: threads cs)[j + 1]? = some (begin_ (c.flatMap Call.ops)) := by
    simp [threads, hj]
  obtain ⟨u, h3, h4⟩ := h2 (j + 1) _ hj'
  refine ⟨u, h3, fun h0 => ?_⟩
  rw [h0] at h4
  have : 0 < (c.flatMap Call.ops).count (.lock .providers) := List.count_pos_iff.2 hc
  simp only [begin_, List.count_nil] at h4
  omega

example : (Op.lock Lock.providers) ∈ [Call.roundProviders 1].flatMap Call.ops ∧ (Op.lock Lock.providers) ∈ [Call.shutdownProviders].flatMap Call.ops := by
  decide

/-! ## C42 -/

/-- **C42 (partial).** Range lookups always return as long as no update round brings a new gateway.
Missing: rounds with new gateways (`C42_deadlock_refuted`) and the lookups of C41. -/
theorem C42_range_completes_partial (cs : List (List Call))
    (h : ∀ c ∈ cs, ∀ k ∈ c, k ≠ .getProvider .never ∧ ∀ a, k = .roundGateways a → true ∉ a) : AlwaysCompletes (threads cs) := by
  refine disciplined_completes (rank := rank) (free := fun l => l == .ring) (good_threads fun c hc k hk => ?_)
  obtain ⟨h1, h2⟩ := h c hc k hk
  cases k with
  | getGateway f => cases f <;> decide
  | getProvider f =>
    cases f with
    | first => decide
    | second => decide
    | never => exact absurd rfl h1
  | getAllGateways => decide
  | getAllProviders => decide
  | getGatewaysNear => decide
  | getGatewayCIDRange => decide
  | roundGateways a => exact disciplined_round _ rfl a (fun hm => absurd hm (h2 a rfl))
  | roundProviders n => exact disciplined_roundProviders _ rfl n
  | shutdownGateways => decide
  | shutdownProviders => decide

/-- The range lookup holds the ring's lock and wants it again; the update routine has announced that it wants to write. -/
def Locked (s : List (Thread Lock)) : Prop :=
  (∃ t r, s[0]? = some t ∧ t.todo = .rlock .ring :: r ∧ (.ring, false) ∈ t.held) ∧
  (∃ t r, s[1]? = some t ∧ t.todo = .lock .ring :: r ∧ t.waiting = true)

/-- Lock operations on the ring that a thread has left. -/
def ringOps (t : Thread Lock) : Nat := t.todo.count (.rlock .ring) + t.todo.count (.lock .ring)

theorem locked_run : ∀ {sched : List Nat} {s s' : List (Thread Lock)}, Locked s → run s sched = some s' →
    Locked s' ∧ ∀ (j : Nat) (u : Thread Lock), s[j]? = some u → ∃ u', s'[j]? = some u' ∧ ringOps u' = ringOps u := by
  intro sched
  induction sched with
  | nil =>
    intro s s' hl h
    simp only [run, Option.some.injEq] at h
    subst h
    exact ⟨hl, fun j u hj => ⟨u, hj, rfl⟩⟩
  | cons k is ih =>
    intro s s' hl h
    simp only [run] at h
    obtain ⟨s1, h1, h2⟩ := Option.bind_eq_some_iff.1 h
    obtain ⟨v, v', hk, rfl, hc⟩ := step_some h1
    obtain ⟨⟨t0, r0, h00, h01, h02⟩, ⟨t1, r1, h10, h11, h12⟩⟩ := hl
    have hann : t1.announced .ring = true := by simp [Thread.announced, h12, h11]
    have hhold : t0.holds .ring = true := by simp [Thread.holds, h02]
    have hm0 := List.mem_of_getElem? h00
    have hm1 := List.mem_of_getElem? h10
    -- neither of the two moves, and nobody else touches the ring's lock
    have key : k ≠ 0 ∧ k ≠ 1 ∧ ringOps v' = ringOps v := by
      have hk0 : k = 0 → v = t0 := by rintro rfl; rw [h00] at hk; injection hk with hk; exact hk.symm
      have hk1 : k = 1 → v = t1 := by rintro rfl; rw [h10] at hk; injection hk with hk; exact hk.symm
      rcases hc with ⟨r, e1, rfl⟩ | ⟨l', r, e1, _, rfl⟩ | ⟨l', r, e1, _, rfl⟩ | ⟨l', r, e1, e2, rfl⟩ | ⟨l', r, e1, e2, e3, rfl⟩ | ⟨l', r, e1, e2, e3, rfl⟩
      · refine ⟨fun e => ?_, fun e => ?_, by simp [ringOps, e1, List.count_cons]⟩
        · rw [hk0 e, h01] at e1; cases e1
        · rw [hk1 e, h11] at e1; cases e1
      · refine ⟨fun e => ?_, fun e => ?_, by simp [ringOps, e1, List.count_cons]⟩
        · rw [hk0 e, h01] at e1; cases e1
        · rw [hk1 e, h11] at e1; cases e1
      · refine ⟨fun e => ?_, fun e => ?_, by simp [ringOps, e1, List.count_cons]⟩
        · rw [hk0 e, h01] at e1; cases e1
        · rw [hk1 e, h11] at e1; cases e1
      · have hne : l' ≠ .ring := by
          rintro rfl
          have := (e2 t1 hm1).2
          rw [hann] at this; cases this
        refine ⟨fun e => ?_, fun e => ?_, by simp [ringOps, e1, List.count_cons, hne]⟩
        · rw [hk0 e, h01] at e1; injection e1 with e1 _; injection e1 with e1; exact hne e1.symm
        · rw [hk1 e, h11] at e1; cases e1
      · have hne : l' ≠ .ring := by
          rintro rfl
          have := (e3 t1 hm1).2
          rw [hann] at this; cases this
        refine ⟨fun e => ?_, fun e => ?_, rfl⟩
        · rw [hk0 e, h01] at e1; cases e1
        · rw [hk1 e, h11] at e1; injection e1 with e1 _; injection e1 with e1; exact hne e1.symm
      · have hne : l' ≠ .ring := by
          rintro rfl
          have := e3 t0 hm0
          rw [hhold] at this; cases this
        refine ⟨fun e => ?_, fun e => ?_, by simp [ringOps, e1, List.count_cons, hne]⟩
        · rw [hk0 e, h01] at e1; cases e1
        · rw [hk1 e, h11] at e1; injection e1 with e1 _; injection e1 with e1; exact hne e1.symm
    obtain ⟨hk0, hk1, hcount⟩ := key
    have hl1 : Locked (s.set k v') := by
      refine ⟨⟨t0, r0, ?_, h01, h02⟩, ⟨t1, r1, ?_, h11, h12⟩⟩
      · rw [List.getElem?_set_ne hk0]; exact h00
      · rw [List.getElem?_set_ne hk1]; exact h10
    obtain ⟨h3, h4⟩ := ih hl1 h2
    refine ⟨h3, fun j u hj => ?_⟩
    by_cases hjk : k = j
    · subst hjk
      rw [hk] at hj
      injection hj with hj
      subst hj
      have hlt : k < s.length := by
        rcases Nat.lt_or_ge k s.length with h | h
        · exact h
        · rw [List.getElem?_eq_none h] at hk; cases hk
      obtain ⟨u', h5, h6⟩ := h4 k v' (by rw [List.getElem?_set_self hlt])
      exact ⟨u', h5, by rw [h6, hcount]⟩
    · obtain ⟨u', h5, h6⟩ := h4 j u (by rw [List.getElem?_set_ne hjk]; exact hj)
      exact ⟨u', h5, h6⟩

/-- **C42 (refuted).** A range lookup and an update round that finds a new gateway can block each other for ever; from then on no
call that needs the ring returns either, whatever else runs. -/
theorem C42_deadlock_refuted (as : List Bool) (cs : List (List Call)) :
    ∃ s, run (threads ([.getGatewayCIDRange] :: [.roundGateways (true :: as)] :: cs)) [0, 1, 1, 1, 1, 1, 1, 1, 1, 1] = some s ∧
      ∀ sched s', run s sched = some s' →
        (∃ t, s'[0]? = some t ∧ t.todo ≠ []) ∧ (∃ t, s'[1]? = some t ∧ t.todo ≠ []) ∧
        (∀ j c, cs[j]? = some c → (.getGatewaysNear ∈ c ∨ .getGatewayCIDRange ∈ c) → ∃ t, s'[j + 2]? = some t ∧ t.todo ≠ []) := by
  have hfresh : ∀ x ∈ threads cs, x.held = [] ∧ x.waiting = false := by
    intro t ht
    obtain ⟨c, _, rfl⟩ := List.mem_map.1 ht
    exact ⟨rfl, rfl⟩
  have h1 : ∀ l, ¬ ∃ x, x ∈ threads cs ∧ ((l, true) ∈ x.held ∨ x.waiting = true ∧ x.todo.head? = some (Op.lock l)) := by
    rintro l ⟨x, hx, h | h⟩ <;> simp [hfresh x hx] at h
  have h2 : ∀ l, ¬ ∃ x, x ∈ threads cs ∧ ((l, true) ∈ x.held ∨ (l, false) ∈ x.held) := by
    rintro l ⟨x, hx, h | h⟩ <;> simp [hfresh x hx] at h
  have hthreads : threads ([.getGatewayCIDRange] :: [.roundGateways (true :: as)] :: cs) =
      begin_ getGatewayCIDRange :: begin_ (roundGateways (true :: as)) :: threads cs := by
    simp [threads, Call.ops]
  have hrun : run (threads ([.getGatewayCIDRange] :: [.roundGateways (true :: as)] :: cs)) [0, 1, 1, 1, 1, 1, 1, 1, 1, 1] =
      some ({ todo := getGatewaysNear ++ [.runlock .ring], held := [(.ring, false)], waiting := false } ::
        { todo := [.lock .ring, .work, .unlock .ring] ++ as.flatMap storeGateway, held := [], waiting := true } :: threads cs) := by
    rw [hthreads]
    simp [run, step, begin_, getGatewayCIDRange, getGatewaysNear, roundGateways, storeGateway, h1, h2, Thread.writes, Thread.announced,
      Thread.holds]
  refine ⟨_, hrun, fun sched s' hr => ?_⟩
  obtain ⟨⟨⟨t0, r0, h3, h4, _⟩, ⟨t1, r1, h5, h6, _⟩⟩, h7⟩ := locked_run
    (s := { todo := getGatewaysNear ++ [.runlock .ring], held := [(.ring, false)], waiting := false } ::
        { todo := [.lock .ring, .work, .unlock .ring] ++ as.flatMap storeGateway, held := [], waiting := true } :: threads cs)
    ⟨⟨_, _, rfl, rfl, by simp⟩, ⟨_, _, rfl, rfl, rfl⟩⟩ hr
  refine ⟨⟨t0, h3, by simp [h4]⟩, ⟨t1, h5, by simp [h6]⟩, fun j c hj hc => ?_⟩
  obtain ⟨u, h8, h9⟩ := h7 (j + 2) (begin_ (c.flatMap Call.ops)) (by simp [threads, hj])
  refine ⟨u, h8, fun h0 => ?_⟩
  have hmem : (Op.rlock Lock.ring) ∈ c.flatMap Call.ops := by
    rcases hc with hc | hc
    · exact List.mem_flatMap.2 ⟨_, hc, by decide⟩
    · exact List.mem_flatMap.2 ⟨_, hc, by decide⟩
  have : 0 < (c.flatMap Call.ops).count (.rlock .ring) := List.count_pos_iff.2 hmem
  simp only [ringOps, h0, begin_, List.count_nil] at h9
  omega

end FcRetrieval.RegLocks
