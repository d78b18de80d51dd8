import Verif.Spec.RWLock
import Verif.Spec.AdminLocks
import Verif.Lemmas.RWHeld
set_option linter.unusedSimpArgs false
/-!
# C185: administrators whose calls overlap, while a node says nothing
-/

namespace FcRetrieval.AdminLocks
open FcRetrieval.RWLock

/-- The order in which locks are taken. -/
def rank : Lock → Nat
  | .book => 0
  | .wire => 1

theorem call_disciplined (k : Call) : Disciplined rank (fun _ => false) [] k.ops = true := by
  cases k <;> simp [Call.ops, initialise, initialiseFails, notSent, ask, refused, features, featuresNotSent, exchange, Disciplined, rank]

theorem good_threads (cs : List (List Call)) : ∀ t ∈ threads cs, Good rank (fun _ => false) t := by
  intro t ht
  obtain ⟨c, _, rfl⟩ := List.mem_map.1 ht
  exact good_begin (disciplined_flatMap (fun k _ => call_disciplined k))

/-- **C185 (no deadlock).** However the calls of one administration library overlap: as long as every exchange with a node comes to an
end, all of them return, after a bounded number of steps, with no lock left behind; and no two of them are under the same lock when one
of them may write. -/
theorem C185_completes (cs : List (List Call)) :
    AlwaysCompletes (threads cs) ∧
    ∀ sched s', run (threads cs) sched = some s' → Exclusive s' ∧ ∀ t ∈ s', t.todo = [] → t.held = [] := by
  refine ⟨disciplined_completes (good_threads cs), fun sched s' hrun => ⟨?_, fun t ht h0 => ?_⟩⟩
  · refine exclusive_run ?_ hrun
    intro t ht
    obtain ⟨c, _, rfl⟩ := List.mem_map.1 ht
    exact ⟨_, rfl⟩
  · have := (good_run (good_threads cs) hrun t ht).disciplined
    rw [h0] at this
    simpa [Disciplined] using this

theorem clear_calls {a b : Call} (h : ¬ Clash a b) : Clear a.ops b.ops := by
  intro l
  cases a <;> cases b <;> cases l <;>
    simp [Clash, Call.sends, Call.enters, Call.looksUp, Call.ops, initialise, initialiseFails, notSent, ask, refused, features, featuresNotSent,
      exchange] at h ⊢

theorem clear_flatMap {as bs : List Call} (h : ∀ a ∈ as, ∀ b ∈ bs, ¬ Clash a b) : Clear (as.flatMap Call.ops) (bs.flatMap Call.ops) := by
  intro l
  constructor
  · intro h1
    obtain ⟨a, ha, hl⟩ := List.mem_flatMap.1 h1
    constructor
    · intro h2
      obtain ⟨b, hb, hl2⟩ := List.mem_flatMap.1 h2
      exact ((clear_calls (h a ha b hb) l).1 hl).1 hl2
    · intro h2
      obtain ⟨b, hb, hl2⟩ := List.mem_flatMap.1 h2
      exact ((clear_calls (h a ha b hb) l).1 hl).2 hl2
  · intro h1 h2
    obtain ⟨a, ha, hl⟩ := List.mem_flatMap.1 h1
    obtain ⟨b, hb, hl2⟩ := List.mem_flatMap.1 h2
    exact (clear_calls (h a ha b hb) l).2 hl hl2

theorem map_pred {sched : List Nat} (h : 0 ∉ sched) : ∃ sched' : List Nat, sched = sched'.map (· + 1) := by
  induction sched with
  | nil => exact ⟨[], rfl⟩
  | cons i is ih =>
    obtain ⟨is', rfl⟩ := ih (fun h1 => h (by simp [h1]))
    cases i with
    | zero => exact absurd (by simp) h
    | succ i => exact ⟨i :: is', rfl⟩

/-- **C185 (partial).** A caller may rest wherever it is, in particular while a node keeps it waiting with its locks held: others go on
and finish, as long as they do not clash with its calls: they look a node up that is not in use, and nobody enters one; or they fail before
they do anything.
Missing: every other call (`C185_features_refuted`, `C185_ask_refuted`). -/
theorem C185_others_go_on_partial (ws : List Call) (cs : List (List Call)) (h : ∀ a ∈ ws, ∀ c ∈ cs, ∀ b ∈ c, ¬ Clash a b)
    (sched : List Nat) (s : List (Thread Lock)) (hrun : run (threads (ws :: cs)) sched = some s) : OthersComplete s := by
  have hlen := run_length hrun
  have hgood := good_run (good_threads (ws :: cs)) hrun
  let f : Nat → List (Op Lock) := fun j => (cs[j]?.getD []).flatMap Call.ops
  let g : Nat → List (Op Lock) := fun j => match j with | 0 => ws.flatMap Call.ops | j + 1 => f j
  have hfrom : ∀ j t, (threads (ws :: cs))[j]? = some t → From (g j) t := by
    intro j t hj
    cases j with
    | zero =>
      simp [threads] at hj
      subst hj
      exact from_begin _
    | succ j =>
      simp [threads] at hj
      obtain ⟨c, hc, rfl⟩ := hj
      show From ((cs[j]?.getD []).flatMap Call.ops) _
      rw [hc]
      exact from_begin _
  have hfrom := from_run hfrom hrun
  cases s with
  | nil => simp [threads] at hlen
  | cons t0 s =>
    have h0 : From (ws.flatMap Call.ops) t0 := hfrom 0 t0 rfl
    have hs : ∀ j t, s[j]? = some t → From (f j) t := fun j t hj => hfrom (j + 1) t (by simpa using hj)
    have hc : ∀ i, Clear (ws.flatMap Call.ops) (f i) := by
      intro i
      show Clear (ws.flatMap Call.ops) ((cs[i]?.getD []).flatMap Call.ops)
      cases hi : cs[i]? with
      | none => intro l; simp
      | some c => exact clear_flatMap (fun a ha b hb => h a ha c (List.mem_of_getElem? hi) b hb)
    have hg : ∀ t ∈ s, Good rank (fun _ => false) t := fun t ht => hgood t (by simp [ht])
    obtain ⟨bound, hb⟩ := disciplined_completes hg
    refine ⟨bound, fun sched' s' hn hr => ?_⟩
    obtain ⟨sched', rfl⟩ := map_pred hn
    rw [run_park h0 hc hs] at hr
    obtain ⟨s1, hr1, rfl⟩ := Option.map_eq_some_iff.1 hr
    obtain ⟨h1, h2, sched2, s2, h3, h4⟩ := hb sched' s1 hr1
    have hs1 := from_run hs hr1
    refine ⟨by simpa using h1, fun hst j t hj => ?_, sched2.map (· + 1), t0 :: s2, by simp, ?_, ?_⟩
    · refine h2 (fun i => ?_) t (List.mem_of_getElem? (by simpa using hj))
      have := hst (i + 1) (by simp)
      rw [step_park h0 (hs1 i) (hc i)] at this
      simpa using this
    · rw [run_park h0 hc hs1, h3]; rfl
    · intro j t hj
      exact h4 t (List.mem_of_getElem? (by simpa using hj))

/-- Somebody waits for a node's answer; others ask for nodes that are not in use. -/
example : ∀ a ∈ [Call.ask, .refused], ∀ c ∈ [[Call.refused, .refused], [.notSent]], ∀ b ∈ c, ¬ Clash a b := by
  intro a ha c hc b hb
  simp at ha hc
  rcases ha with rfl | rfl <;> rcases hc with rfl | rfl <;> simp at hb <;> subst hb <;>
    simp [Clash, Call.sends, Call.enters, Call.looksUp]

/-- And the schedule that brings it to the wait for the answer. -/
example : ∃ t s, run (threads [[.ask], [.refused]]) [0, 0, 0, 0] = some (t :: s) ∧
    t.todo = [.work, .unlock .wire, .runlock .book] ∧ t.held = [(.wire, true), (.book, false)] := by
  refine ⟨_, _, rfl, rfl, rfl⟩

theorem fresh (cs : List (List Call)) : ∀ x ∈ threads cs, x.held = [] ∧ x.waiting = false := by
  intro t ht
  obtain ⟨c, _, rfl⟩ := List.mem_map.1 ht
  exact ⟨rfl, rfl⟩

theorem nobody (cs : List (List Call)) (l : Lock) :
    ¬ ∃ x, x ∈ threads cs ∧ ((l, true) ∈ x.held ∨ x.waiting = true ∧ x.todo.head? = some (Op.lock l)) := by
  rintro ⟨x, hx, h | h⟩ <;> simp [fresh cs x hx] at h

theorem nobody' (cs : List (List Call)) (l : Lock) : ¬ ∃ x, x ∈ threads cs ∧ ((l, true) ∈ x.held ∨ (l, false) ∈ x.held) := by
  rintro ⟨x, hx, h⟩; simp [fresh cs x hx] at h

theorem call_needs {k : Call} (h : k.idle = false) : .rlock .book ∈ k.ops ∨ .lock .book ∈ k.ops ∨ .lock .wire ∈ k.ops := by
  cases k <;> simp [Call.idle, Call.sends, Call.enters, Call.looksUp] at h <;>
    simp [Call.ops, initialise, initialiseFails, ask, refused, features, featuresNotSent, exchange]

theorem heldUp_of {t0 : Thread Lock} {s : List (Thread Lock)} {j : Nat} {c : List Call} {op : Op Lock}
    (hc : op ∈ c.flatMap Call.ops) (h : ∀ sched s', 0 ∉ sched → run (t0 :: s) sched = some s' →
      ∃ u' : Thread Lock, s'[j]? = some u' ∧ u'.todo.count op = (begin_ (c.flatMap Call.ops)).todo.count op) : HeldUp (t0 :: s) j := by
  intro sched s' hn hr
  obtain ⟨u, h3, h4⟩ := h sched s' hn hr
  refine ⟨u, h3, fun h0 => ?_⟩
  rw [h0] at h4
  have : 0 < (c.flatMap Call.ops).count op := List.count_pos_iff.2 hc
  simp only [begin_, List.count_nil] at h4
  omega

/-- **C185 (refuted): features.** While the node that is told which providers to serve says nothing, no other call of the library returns,
whichever node it is about, and also when it is about no node in use; only a message that cannot be made is reported. -/
theorem C185_features_refuted (cs : List (List Call)) :
    ∃ t, run (threads ([.features] :: cs)) [0, 0, 0, 0] = some (t :: threads cs) ∧ t.todo = [.work, .unlock .wire, .work, .unlock .book] ∧
      ∀ j c, cs[j]? = some c → (∃ k ∈ c, k.idle = false) → HeldUp (t :: threads cs) (j + 1) := by
  refine ⟨{ todo := [.work, .unlock .wire, .work, .unlock .book], held := [(.wire, true), (.book, true)], waiting := false }, ?_, rfl,
    fun j c hj hk => ?_⟩
  · rw [show threads ([.features] :: cs) = begin_ features :: threads cs by simp [threads, Call.ops]]
    simp [run, step, begin_, features, exchange, nobody, nobody', Thread.writes, Thread.announced, Thread.holds]
  · obtain ⟨k, hk, hp⟩ := hk
    have hget : ∀ t0 : Thread Lock, (t0 :: threads cs)[j + 1]? = some (begin_ (c.flatMap Call.ops)) := fun t0 => by simp [threads, hj]
    rcases call_needs hp with h | h | h
    · exact heldUp_of (List.mem_flatMap.2 ⟨k, hk, h⟩) (fun sched s' hn hr => (written_stays (by simp) hn (i := 0) rfl hr).2 _ _ (hget _))
    · exact heldUp_of (List.mem_flatMap.2 ⟨k, hk, h⟩)
        (fun sched s' hn hr => (held_stays (by simp [Thread.holds]) hn (i := 0) rfl hr).2 _ _ (hget _))
    · exact heldUp_of (List.mem_flatMap.2 ⟨k, hk, h⟩)
        (fun sched s' hn hr => (held_stays (by simp [Thread.holds]) hn (i := 0) rfl hr).2 _ _ (hget _))

/-- **C185 (refuted): any other call.** While a node says nothing to a call about it, a node that has just been initialised is enough: its
initialisation does not return although the node has accepted, and from then on no call of the library returns, also none about a node
that is not in use. -/
theorem C185_ask_refuted (cs : List (List Call)) :
    ∃ t w, run (threads ([.ask] :: [.initialise] :: cs)) [1, 1, 1, 1, 0, 0, 0, 0, 1] = some (t :: w :: threads cs) ∧
      t.todo = [.work, .unlock .wire, .runlock .book] ∧ w.todo = [.lock .book, .work, .unlock .book] ∧ HeldUp (t :: w :: threads cs) 1 ∧
      ∀ j c, cs[j]? = some c → (∃ k ∈ c, k.idle = false) → HeldUp (t :: w :: threads cs) (j + 2) := by
  refine ⟨{ todo := [.work, .unlock .wire, .runlock .book], held := [(.wire, true), (.book, false)], waiting := false },
    { todo := [.lock .book, .work, .unlock .book], held := [], waiting := true }, ?_, rfl, rfl, ?_, fun j c hj hk => ?_⟩
  · rw [show threads ([.ask] :: [.initialise] :: cs) = begin_ ask :: begin_ initialise :: threads cs by simp [threads, Call.ops]]
    simp [run, step, begin_, ask, initialise, exchange, nobody, nobody', Thread.writes, Thread.announced, Thread.holds]
  · intro sched s' hn hr
    obtain ⟨_, h2, _⟩ := announced_stays (l := Lock.book) (by simp) (by simp [Thread.announced]) hn (i := 0) (k := 1) rfl rfl hr
    exact ⟨_, h2, by simp⟩
  · obtain ⟨k, hk, hp⟩ := hk
    have hget : ∀ t0 w0 : Thread Lock, (t0 :: w0 :: threads cs)[j + 2]? = some (begin_ (c.flatMap Call.ops)) := fun t0 w0 => by simp [threads, hj]
    rcases call_needs hp with h | h | h
    · exact heldUp_of (List.mem_flatMap.2 ⟨k, hk, h⟩) (fun sched s' hn hr =>
        (announced_stays (by simp) (by simp [Thread.announced]) hn (i := 0) (k := 1) rfl rfl hr).2.2 _ _ (hget _ _))
    · exact heldUp_of (List.mem_flatMap.2 ⟨k, hk, h⟩)
        (fun sched s' hn hr => (held_stays (by simp [Thread.holds]) hn (i := 0) rfl hr).2 _ _ (hget _ _))
    · exact heldUp_of (List.mem_flatMap.2 ⟨k, hk, h⟩)
        (fun sched s' hn hr => (held_stays (by simp [Thread.holds]) hn (i := 0) rfl hr).2 _ _ (hget _ _))

/-- A call about a node that nobody has initialised is among those held up. -/
example : ∃ k ∈ [Call.refused], k.idle = false := ⟨.refused, by simp, rfl⟩

end FcRetrieval.AdminLocks
