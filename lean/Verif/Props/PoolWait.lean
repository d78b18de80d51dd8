import Verif.Lemmas.PoolWait
import Verif.Props.Pool
/-!
# C169: a node that does not answer delays only the requests to it
-/
set_option linter.unusedSimpArgs false

namespace FcRetrieval.Pool.Wait
open FcRetrieval.Pool

/-- C169: holding the lock of the pool while waiting adds no behaviour: what the requests can reach here they can reach in the model
that C46 is about, so that all of C46 holds here. -/
theorem C169_pool (s : State) (h : Reachable s) : Pool.Reachable (seen s) := by
  obtain ⟨nodes, l, rfl⟩ := h
  obtain ⟨l', h'⟩ := seen_run (init nodes) (removal_init nodes) l
  refine ⟨nodes, l', ?_⟩
  rw [h']
  congr 1
  unfold seen init Pool.init
  simp only [List.map_map]
  congr 1

/-- C169: whatever has happened, as long as some request has not returned, some request can go on, and can whatever the network
does: requests never wait for each other in a circle. -/
theorem C169_no_deadlock (s : State) (t : Req) (ht : t ∈ s.reqs) (hd : ¬ Returned t) : ∃ i, ∀ ok, step s i ok ≠ s := by
  have hbusy : ∀ c, busy s c = true → ∃ i, ∀ ok, step s i ok ≠ s := by
    intro c hb
    obtain ⟨j, n, hj⟩ := busy_elim hb
    exact ⟨j, talker_moves s j n c hj⟩
  obtain ⟨i, hi⟩ := List.mem_iff_getElem?.1 ht
  obtain ⟨n, a⟩ := t
  by_cases hw : ∃ ok, step s i ok = s
  · obtain ⟨ok, hw⟩ := hw
    rcases waits_cases s i n a hi ok hw with ⟨r, e⟩ | ⟨hh, _⟩ | ⟨c, hb, _⟩
    · exact absurd ⟨r, e⟩ hd
    · obtain ⟨j, m, c, hj⟩ := held_elim hh
      by_cases hw' : ∃ ok, step s j ok = s
      · obtain ⟨ok, hw'⟩ := hw'
        rcases waits_cases s j m _ hj ok hw' with ⟨r, e⟩ | ⟨_, e | ⟨c', e⟩ | e⟩ | ⟨c', hb, _⟩
        · cases e
        · cases e
        · cases e
        · cases e
        · exact hbusy c' hb
      · exact ⟨j, fun ok e => hw' ⟨ok, e⟩⟩
    · exact hbusy c hb
  · exact ⟨i, fun ok e => hw ⟨ok, e⟩⟩

/-- C169: every request returns.  In every interleaving in which only requests that can go on get their turn, and whatever the
network does, `k` requests make at most `7 k` steps; and when none can go on, all have returned. -/
theorem C169_returns (nodes : List Nat) (l : List (Nat × Bool)) :
    (NoIdle (init nodes) l → l.length ≤ 7 * nodes.length) ∧
    ((∀ i, ∃ ok, step (run (init nodes) l) i ok = run (init nodes) l) → ∀ t ∈ (run (init nodes) l).reqs, Returned t) := by
  refine ⟨fun h => ?_, fun h t ht => ?_⟩
  · rw [← left_init nodes]
    exact noIdle_length _ l h
  · apply Classical.byContradiction
    intro hd
    obtain ⟨i, hi⟩ := C169_no_deadlock _ t ht hd
    obtain ⟨ok, h⟩ := h i
    exact hi ok h

/-- C169, in part: unless a request is waiting to remove a connection, a request that has to wait waits for a request to the same
node, which is talking over the one connection to it. -/
theorem C169_own_node_partial (s : State) (h : Reachable s) (hf : ∀ t ∈ s.reqs, ∀ c, t.at_ ≠ .removing c) (i : Nat) (t : Req)
    (ht : s.reqs[i]? = some t) (hd : ¬ Returned t) (ok : Bool) (hw : step s i ok = s) :
    ∃ c, ∃ u ∈ s.reqs, t.at_ = .pc (.got c) ∧ u.at_ = .pc (.talking c) ∧ u.node = t.node := by
  obtain ⟨n, a⟩ := t
  obtain ⟨f, hf'⟩ := h.owned
  rcases waits_cases s i n a ht ok hw with ⟨r, e⟩ | ⟨hh, _⟩ | ⟨c, hb, e | e⟩
  · exact absurd ⟨r, e⟩ hd
  · obtain ⟨j, m, c, hj⟩ := held_elim hh
    exact absurd rfl (hf _ (List.mem_of_getElem? hj) c)
  · obtain ⟨j, m, hj⟩ := busy_elim hb
    have hm := List.mem_of_getElem? hj
    refine ⟨c, _, hm, e, rfl, ?_⟩
    have h1 := (hf'.2 _ hm c (.inr (.inr (.inl rfl)))).1
    have h2 := (hf'.2 _ (List.mem_of_getElem? ht) c (.inr (.inl e))).1
    rw [← h1, ← h2]
  · exact absurd e (hf _ (List.mem_of_getElem? ht) c)

/-- C169, in part: a request that waits to remove a connection waits for a request to its own node. -/
theorem C169_remover_partial (s : State) (h : Reachable s) (i n c : Nat) (ht : s.reqs[i]? = some ⟨n, .removing c⟩) (ok : Bool)
    (hw : step s i ok = s) : ∃ u ∈ s.reqs, u.at_ = .pc (.talking c) ∧ u.node = n := by
  obtain ⟨f, hf'⟩ := h.owned
  rcases waits_cases s i n _ ht ok hw with ⟨r, e⟩ | ⟨_, e | ⟨c', e⟩ | e⟩ | ⟨c', hb, e | e⟩
  · cases e
  · cases e
  · cases e
  · cases e
  · cases e
  · cases e
    obtain ⟨j, m, hj⟩ := busy_elim hb
    have hm := List.mem_of_getElem? hj
    refine ⟨_, hm, rfl, ?_⟩
    have h1 := (hf'.2 _ hm c (.inr (.inr (.inl rfl)))).1
    have h2 := (hf'.2 _ (List.mem_of_getElem? ht) c (.inr (.inr (.inr rfl)))).1
    rw [← h1]
    exact h2

/-- The first request has failed and waits to remove the connection, over which the second one is talking; the third one is for
another node and has not begun. -/
def exStall : List (Nat × Bool) :=
  [(0, true), (0, true), (0, true), (1, true), (0, true), (0, false), (1, true), (0, true)]

example : Reachable (run (init [7, 7, 8]) exStall) ∧
    (run (init [7, 7, 8]) exStall).reqs = [⟨7, .removing 0⟩, ⟨7, .pc (.talking 0)⟩, ⟨8, .pc .start⟩] :=
  ⟨⟨_, _, rfl⟩, by decide⟩

/-- A request of the premises of `C169_own_node_partial`: the second waits for the first, to the same node. -/
example : (run (init [7, 7, 8]) [(0, true), (0, true), (0, true), (1, true), (0, true)]).reqs =
      [⟨7, .pc (.talking 0)⟩, ⟨7, .pc (.got 0)⟩, ⟨8, .pc .start⟩] ∧
    (step (run (init [7, 7, 8]) [(0, true), (0, true), (0, true), (1, true), (0, true)]) 1 true).reqs =
      (run (init [7, 7, 8]) [(0, true), (0, true), (0, true), (1, true), (0, true)]).reqs := by decide

/-- Seven steps are needed: nothing smaller will do in `C169_returns`. -/
example : NoIdle (init [7]) [(0, true), (0, true), (0, true), (0, true), (0, false), (0, true), (0, true)] := by
  refine ⟨?_, ?_, ?_, ?_, ?_, ?_, ?_, trivial⟩ <;>
    exact fun h => absurd (congrArg State.reqs h) (by decide)

/-- C169 is false: once a request to a node has failed and waits to remove the connection over which another request is talking to
that node, no request to any node that has not yet begun, and none that has just dialled, gets any further, in any interleaving and
however long, until the node has answered that other request or it has timed out. -/
theorem C169_refuted (s : State) (i j k n m c : Nat) (a : At) (hi : s.reqs[i]? = some ⟨n, .pc (.talking c)⟩)
    (hj : s.reqs[j]? = some ⟨n, .removing c⟩) (hk : s.reqs[k]? = some ⟨m, a⟩) (ha : a = .pc .start ∨ ∃ d, a = .pc (.dialled d))
    (l : List (Nat × Bool)) (hl : ∀ e ∈ l, e.1 ≠ i) : (run s l).reqs[k]? = some ⟨m, a⟩ := by
  induction l generalizing s with
  | nil => exact hk
  | cons e l ih =>
    obtain ⟨x, ok⟩ := e
    have hx : x ≠ i := hl (x, ok) (by simp)
    have hstay : ∀ (y : Nat) (u : Req), y ≠ x → s.reqs[y]? = some u → (step s x ok).reqs[y]? = some u := by
      intro y u hy hu
      cases hxr : s.reqs[x]? with
      | none => unfold step; rw [hxr]; exact hu
      | some v =>
        obtain ⟨p, b⟩ := v
        rcases step_move s x p b ok hxr with e | hmv
        · rw [e]; exact hu
        · generalize step s x ok = s' at hmv
          cases hmv <;> (dsimp only; rw [List.getElem?_set_ne (Ne.symm hy)]; exact hu)
    have hwait : x = j ∨ x = k → step s x ok = s := by
      rintro (rfl | rfl)
      · unfold step
        rw [hj]
        dsimp only
        rw [if_pos (busy_intro hi)]
      · unfold step
        rw [hk]
        rcases ha with rfl | ⟨d, rfl⟩ <;> (dsimp only; rw [if_pos (held_intro hj)])
    refine ih (step s x ok) (hstay i _ (Ne.symm hx) hi) ?_ ?_ (fun e he => hl e (List.mem_cons_of_mem _ he))
    · by_cases h : x = j
      · rw [hwait (.inl h)]; exact hj
      · exact hstay j _ (Ne.symm h) hj
    · by_cases h : x = k
      · rw [hwait (.inr h)]; exact hk
      · exact hstay k _ (Ne.symm h) hk

/-- The premises hold in a state that is reached: two requests to node 7, and the request to node 8 stands still. -/
example (l : List (Nat × Bool)) (hl : ∀ e ∈ l, e.1 ≠ 1) :
    (run (run (init [7, 7, 8]) exStall) l).reqs[2]? = some ⟨8, .pc .start⟩ :=
  C169_refuted _ 1 0 2 7 8 0 _ (by decide) (by decide) (by decide) (.inl rfl) l hl

end FcRetrieval.Pool.Wait
