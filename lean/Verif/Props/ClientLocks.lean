import Verif.Spec.RWLock
import Verif.Spec.ClientLocks
import Verif.Lemmas.RWHeld
import Verif.Lemmas.RWRest
set_option linter.unusedSimpArgs false
/-!
# C188: a client whose gateways, or whose chain, are slow
-/

namespace FcRetrieval.ClientLocks
open FcRetrieval.RWLock

/-- The order in which locks are taken. -/
def rank : Lock → Nat
  | .use => 0
  | .active => 1
  | .making => 2
  | .pay .outbound => 3
  | .pay .inbound => 3
  | .pay (.outCh _) => 4
  | .pay (.inCh _) => 4
  | .wire => 5

theorem step_under (st : Step) {r : List (Op Lock)} (h : Disciplined rank (fun _ => false) [(.active, false)] r = true) :
    Disciplined rank (fun _ => false) [(.active, false)] (st.ops ++ r) = true := by
  cases st <;>
    simpa [Step.ops, exchange, PayLocks.payUnknown, PayLocks.payKnown, PayLocks.topupNew, PayLocks.topupKnown, payOp, Disciplined, rank] using h

theorem steps_under {r : List (Op Lock)} (h : Disciplined rank (fun _ => false) [(.active, false)] r = true) : ∀ (sts : List Step),
    Disciplined rank (fun _ => false) [(.active, false)] (sts.flatMap Step.ops ++ r) = true
  | [] => h
  | st :: sts => by
    rw [List.flatMap_cons, List.append_assoc]
    exact step_under st (steps_under h sts)

theorem enters_under {r : List (Op Lock)} (h : Disciplined rank (fun _ => false) [(.use, true)] r = true) : ∀ (n : Nat),
    Disciplined rank (fun _ => false) [(.use, true)] ((List.replicate n enter).flatten ++ r) = true
  | 0 => h
  | n + 1 => by
    have := enters_under h n
    rw [List.replicate_succ, List.flatten_cons, List.append_assoc]
    simpa [enter, Disciplined, rank] using this

theorem addWay_disciplined (w : AddWay) : Disciplined rank (fun _ => false) [] w.ops = true := by
  cases w <;> simp [AddWay.ops, Disciplined, rank]

theorem actWay_disciplined (w : ActWay) : Disciplined rank (fun _ => false) [] w.ops = true := by
  cases w <;> simp [ActWay.ops, exchange, enter, Disciplined, rank]

theorem call_disciplined (k : Call) : Disciplined rank (fun _ => false) [] k.ops = true := by
  cases k with
  | add ways => exact disciplined_flatMap (fun w _ => addWay_disciplined w)
  | activate ways => exact disciplined_flatMap (fun w _ => actWay_disciplined w)
  | search steps =>
    show Disciplined rank (fun _ => false) [] ([.rlock .active, .work] ++ steps.flatMap Step.ops ++ [.work, .runlock .active]) = true
    rw [List.append_assoc]
    have := steps_under (r := [.work, .runlock .active]) (by simp [Disciplined]) steps
    simpa [Disciplined, rank] using this
  | remove n =>
    show Disciplined rank (fun _ => false) [] ([.lock .use, .work] ++ (List.replicate n enter).flatten ++ [.unlock .use]) = true
    rw [List.append_assoc]
    have := enters_under (r := [.unlock .use]) (by simp [Disciplined]) n
    simpa [Disciplined, rank] using this
  | findGateways => simp [Call.ops, Disciplined, rank]
  | removeAll => simp [Call.ops, Disciplined, rank]
  | inUse => simp [Call.ops, Disciplined, rank]
  | deactivate => simp [Call.ops, Disciplined, rank]
  | activeOnes => simp [Call.ops, Disciplined, rank]
  | proof => simp [Call.ops, exchange, Disciplined, rank]
  | proofRefused => simp [Call.ops, Disciplined, rank]

theorem good_threads (cs : List (List Call)) : ∀ t ∈ threads cs, Good rank (fun _ => false) t := by
  intro t ht
  obtain ⟨c, _, rfl⟩ := List.mem_map.1 ht
  exact good_begin (disciplined_flatMap (fun k _ => call_disciplined k))

/-- **C188 (no deadlock).** However the calls of one client overlap, searches and payments included: as long as every exchange with a gateway, a
provider, the register and the chain comes to an end, all of them return, after a bounded number of steps, with no lock left behind; and no two of them
are under the same lock when one of them may write. -/
theorem C188_completes (cs : List (List Call)) :
    AlwaysCompletes (threads cs) ∧
    ∀ sched s', run (threads cs) sched = some s' → Exclusive s' ∧ ∀ t ∈ s', t.todo = [] → t.held = [] := by
  refine ⟨disciplined_completes (good_threads cs), fun sched s' hrun => ⟨?_, fun t ht h0 => ?_⟩⟩
  · refine exclusive_run ?_ hrun
    intro t ht
    obtain ⟨c, _, rfl⟩ := List.mem_map.1 ht
    exact ⟨_, rfl⟩
  · have := (good_run (good_threads cs) hrun t ht).disciplined
    rw [h0] at this
    simpa [Disciplined] using this

theorem map_pred {sched : List Nat} (h : 0 ∉ sched) : ∃ sched' : List Nat, sched = sched'.map (· + 1) := by
  induction sched with
  | nil => exact ⟨[], rfl⟩
  | cons i is ih =>
    obtain ⟨is', rfl⟩ := ih (fun h1 => h (by simp [h1]))
    cases i with
    | zero => exact absurd (by simp) h
    | succ i => exact ⟨i :: is', rfl⟩

/-- If the others' steps are those they would make without the first thread, they finish. -/
theorem others_complete {t0 : Thread Lock} {s : List (Thread Lock)} (hg : ∀ t ∈ s, Good rank (fun _ => false) t)
    (hrun : ∀ sched s', run s sched = some s' → (∀ i, step (t0 :: s') (i + 1) = (step s' i).map (t0 :: ·)) ∧
      ∀ sched', run (t0 :: s') (sched'.map (· + 1)) = (run s' sched').map (t0 :: ·)) : OthersComplete (t0 :: s) := by
  obtain ⟨bound, hb⟩ := disciplined_completes hg
  refine ⟨bound, fun sched' s' hn hr => ?_⟩
  obtain ⟨sched', rfl⟩ := map_pred hn
  rw [(hrun [] s rfl).2] at hr
  obtain ⟨s1, hr1, rfl⟩ := Option.map_eq_some_iff.1 hr
  obtain ⟨h1, h2, sched2, s2, h3, h4⟩ := hb sched' s1 hr1
  refine ⟨by simpa using h1, fun hst j t hj => ?_, sched2.map (· + 1), t0 :: s2, by simp, ?_, ?_⟩
  · refine h2 (fun i => ?_) t (List.mem_of_getElem? (by simpa using hj))
    have := hst (i + 1) (by simp)
    rw [(hrun _ _ hr1).1] at this
    simpa using this
  · rw [(hrun _ _ hr1).2, h3]; rfl
  · intro j t hj
    exact h4 t (List.mem_of_getElem? (by simpa using hj))

theorem payOp_lock {ops : List (Op PayLocks.Lock)} {l : Lock} (h : .lock l ∈ ops.map payOp ∨ .rlock l ∈ ops.map payOp) : ∃ p, l = .pay p := by
  rcases h with h | h <;> obtain ⟨op, _, h⟩ := List.mem_map.1 h <;> cases op <;> simp [payOp] at h <;> exact ⟨_, h.symm⟩

theorem step_locks {st : Step} {l : Lock} (h : .lock l ∈ st.ops ∨ .rlock l ∈ st.ops) :
    (l = .wire ∧ st = .talk) ∨ ((l = .making ∨ ∃ p, l = .pay p) ∧ st ≠ .talk) := by
  cases st with
  | talk => simp [Step.ops, exchange] at h; exact Or.inl ⟨h, rfl⟩
  | make => simp [Step.ops] at h; exact Or.inr ⟨Or.inl h, by simp⟩
  | payUnknown => exact Or.inr ⟨Or.inr (payOp_lock h), by simp⟩
  | payKnown r => exact Or.inr ⟨Or.inr (payOp_lock h), by simp⟩
  | topupNew => exact Or.inr ⟨Or.inr (payOp_lock h), by simp⟩
  | topupKnown r => exact Or.inr ⟨Or.inr (payOp_lock h), by simp⟩

/-- Who takes which lock. -/
theorem call_locks (k : Call) :
    (.lock .use ∈ k.ops ↔ k.changesUse = true) ∧ (.rlock .use ∈ k.ops ↔ k.looksUse = true) ∧
    (.lock .active ∈ k.ops ↔ k.changesActive = true) ∧ (.rlock .active ∈ k.ops ↔ k.looksActive = true) ∧
    (.lock .wire ∈ k.ops ↔ k.talks = true) ∧ (.rlock .wire ∉ k.ops) ∧
    (∀ l, (l = .making ∨ ∃ p, l = .pay p) → (.lock l ∈ k.ops ∨ .rlock l ∈ k.ops) → k.pays = true) := by
  cases k with
  | add ways =>
    have h1 : ∀ op : Op Lock, op ∈ Call.ops (.add ways) ↔ ∃ w ∈ ways, op ∈ w.ops := fun op => List.mem_flatMap
    simp only [h1, Call.changesUse, Call.looksUse, Call.changesActive, Call.looksActive, Call.talks, Call.pays]
    refine ⟨⟨?_, fun h => ⟨.entered, by simpa using h, by simp [AddWay.ops]⟩⟩, ⟨?_, fun h => ?_⟩, ?_, ?_, ?_, ?_, ?_⟩
    · rintro ⟨w, hw, h⟩; cases w <;> simp [AddWay.ops] at h; simpa using hw
    · rintro ⟨w, hw, h⟩; cases ways <;> simp at hw ⊢
    · cases ways with
      | nil => simp at h
      | cons w ws => exact ⟨w, by simp, by cases w <;> simp [AddWay.ops]⟩
    · simp only [Bool.false_eq_true, iff_false]; rintro ⟨w, hw, h⟩; cases w <;> simp [AddWay.ops] at h
    · simp only [Bool.false_eq_true, iff_false]; rintro ⟨w, hw, h⟩; cases w <;> simp [AddWay.ops] at h
    · simp only [Bool.false_eq_true, iff_false]; rintro ⟨w, hw, h⟩; cases w <;> simp [AddWay.ops] at h
    · rintro ⟨w, hw, h⟩; cases w <;> simp [AddWay.ops] at h
    · rintro l (rfl | ⟨p, rfl⟩) (⟨w, hw, h⟩ | ⟨w, hw, h⟩) <;> cases w <;> simp [AddWay.ops] at h
  | activate ways =>
    have h1 : ∀ op : Op Lock, op ∈ Call.ops (.activate ways) ↔ ∃ w ∈ ways, op ∈ w.ops := fun op => List.mem_flatMap
    simp only [h1, Call.changesUse, Call.looksUse, Call.changesActive, Call.looksActive, Call.talks, Call.pays]
    refine ⟨?_, ⟨?_, fun h => ?_⟩, ⟨?_, fun h => ⟨.entered, by simpa using h, by simp [ActWay.ops, enter]⟩⟩, ⟨?_, fun h => ?_⟩, ⟨?_, fun h => ?_⟩, ?_, ?_⟩
    · simp only [Bool.false_eq_true, iff_false]; rintro ⟨w, hw, h⟩; cases w <;> simp [ActWay.ops, exchange, enter] at h
    · rintro ⟨w, hw, h⟩; refine List.any_eq_true.2 ⟨w, hw, ?_⟩; cases w <;> simp [ActWay.ops, exchange, enter] at h ⊢
    · obtain ⟨w, hw, h⟩ := List.any_eq_true.1 h
      exact ⟨w, hw, by cases w <;> simp [ActWay.ops, exchange, enter] at h ⊢⟩
    · rintro ⟨w, hw, h⟩; cases w <;> simp [ActWay.ops, exchange, enter] at h; simpa using hw
    · rintro ⟨w, hw, h⟩; cases ways <;> simp at hw ⊢
    · cases ways with
      | nil => simp at h
      | cons w ws => exact ⟨w, by simp, by cases w <;> simp [ActWay.ops]⟩
    · rintro ⟨w, hw, h⟩; cases w <;> simp [ActWay.ops, exchange, enter] at h <;> simp [hw]
    · simp only [Bool.or_eq_true, List.contains_iff_mem] at h
      rcases h with h | h
      · exact ⟨_, h, by simp [ActWay.ops, exchange]⟩
      · exact ⟨_, h, by simp [ActWay.ops, exchange]⟩
    · rintro ⟨w, hw, h⟩; cases w <;> simp [ActWay.ops, exchange, enter] at h
    · rintro l (rfl | ⟨p, rfl⟩) (⟨w, hw, h⟩ | ⟨w, hw, h⟩) <;> cases w <;> simp [ActWay.ops, exchange, enter] at h
  | search steps =>
    have h1 : ∀ op : Op Lock, op ∈ Call.ops (.search steps) ↔ op = .rlock .active ∨ op = .work ∨ op = .runlock .active ∨ ∃ st ∈ steps, op ∈ st.ops := by
      intro op
      simp only [Call.ops, List.mem_append, List.mem_cons, List.not_mem_nil, or_false, List.mem_flatMap]
      constructor
      · rintro (((h | h) | h) | h | h) <;> simp [h]
      · rintro (h | h | h | h) <;> simp [h]
    simp only [h1, Call.changesUse, Call.looksUse, Call.changesActive, Call.looksActive, Call.talks, Call.pays]
    refine ⟨?_, ?_, ?_, ?_, ⟨?_, fun h => ?_⟩, ?_, ?_⟩
    · simp; intro st _ h; have := step_locks (Or.inl h); simp at this
    · simp; intro st _ h; have := step_locks (Or.inr h); simp at this
    · simp; intro st _ h; have := step_locks (Or.inl h); simp at this
    · simp
    · simp; intro st hst h; have := step_locks (Or.inl h); simp at this; exact this ▸ hst
    · refine Or.inr (Or.inr (Or.inr ⟨.talk, by simpa using h, by simp [Step.ops, exchange]⟩))
    · simp
      intro st hst h
      have h2 := step_locks (Or.inr h)
      simp at h2
      subst h2
      simp [Step.ops, exchange] at h
    · intro l hl h
      have hw : l ≠ .wire := by rcases hl with rfl | ⟨p, rfl⟩ <;> simp
      have ha : l ≠ .active := by rcases hl with rfl | ⟨p, rfl⟩ <;> simp
      have : ∃ st ∈ steps, .lock l ∈ st.ops ∨ .rlock l ∈ st.ops := by
        rcases h with h | h
        · simp at h; obtain ⟨st, h2, h3⟩ := h; exact ⟨st, h2, Or.inl h3⟩
        · simp [ha] at h; obtain ⟨st, h2, h3⟩ := h; exact ⟨st, h2, Or.inr h3⟩
      obtain ⟨st, h2, h3⟩ := this
      have h4 := step_locks h3
      simp [hw] at h4
      exact List.any_eq_true.2 ⟨st, h2, by simpa using h4.2⟩
  | remove n =>
    have h1 : ∀ op : Op Lock, op ∈ Call.ops (.remove n) ↔ op = .lock .use ∨ op = .work ∨ op = .unlock .use ∨ (0 < n ∧ op ∈ enter) := by
      intro op
      simp only [Call.ops, List.mem_append, List.mem_cons, List.not_mem_nil, or_false, List.mem_flatten, List.mem_replicate]
      constructor
      · rintro (((h | h) | ⟨x, ⟨h, rfl⟩, h2⟩) | h)
        · simp [h]
        · simp [h]
        · exact Or.inr (Or.inr (Or.inr ⟨by omega, h2⟩))
        · simp [h]
      · rintro (h | h | h | ⟨h, h2⟩)
        · simp [h]
        · simp [h]
        · simp [h]
        · exact Or.inl (Or.inr ⟨enter, ⟨by omega, rfl⟩, h2⟩)
    simp only [h1, Call.changesUse, Call.looksUse, Call.changesActive, Call.looksActive, Call.talks, Call.pays]
    refine ⟨?_, ?_, ?_, ?_, ?_, ?_, ?_⟩
    · simp
    · simp [enter]
    · simp [enter]
    · simp [enter]
    · simp [enter]
    · simp [enter]
    · rintro l (rfl | ⟨p, rfl⟩) <;> simp [enter]
  | findGateways => simp [Call.ops, Call.changesUse, Call.looksUse, Call.changesActive, Call.looksActive, Call.talks]
  | removeAll =>
    refine ⟨?_, ?_, ?_, ?_, ?_, ?_, ?_⟩
    all_goals simp [Call.ops, Call.changesUse, Call.looksUse, Call.changesActive, Call.looksActive, Call.talks]
  | inUse =>
    refine ⟨?_, ?_, ?_, ?_, ?_, ?_, ?_⟩
    all_goals simp [Call.ops, Call.changesUse, Call.looksUse, Call.changesActive, Call.looksActive, Call.talks]
  | deactivate =>
    refine ⟨?_, ?_, ?_, ?_, ?_, ?_, ?_⟩
    all_goals simp [Call.ops, Call.changesUse, Call.looksUse, Call.changesActive, Call.looksActive, Call.talks]
  | activeOnes =>
    refine ⟨?_, ?_, ?_, ?_, ?_, ?_, ?_⟩
    all_goals simp [Call.ops, Call.changesUse, Call.looksUse, Call.changesActive, Call.looksActive, Call.talks]
  | proof =>
    refine ⟨?_, ?_, ?_, ?_, ?_, ?_, ?_⟩
    all_goals simp [Call.ops, exchange, Call.changesUse, Call.looksUse, Call.changesActive, Call.looksActive, Call.talks]
  | proofRefused => simp [Call.ops, Call.changesUse, Call.looksUse, Call.changesActive, Call.looksActive, Call.talks]

theorem clear_calls {a b : Call} (h : ¬ Clash a b) : Clear a.ops b.ops := by
  unfold Clash at h
  obtain ⟨a1, a2, a3, a4, a5, a6, a7⟩ := call_locks a
  obtain ⟨b1, b2, b3, b4, b5, b6, b7⟩ := call_locks b
  have hpay : ∀ l : Lock, (l = .making ∨ ∃ p, l = .pay p) →
      (.lock l ∈ a.ops → .rlock l ∉ b.ops ∧ .lock l ∉ b.ops) ∧ (.rlock l ∈ a.ops → .lock l ∉ b.ops) := by
    intro l hl
    refine ⟨fun h1 => ⟨fun h2 => ?_, fun h2 => ?_⟩, fun h1 h2 => ?_⟩
    · exact h (Or.inr (Or.inl ⟨a7 l hl (Or.inl h1), b7 l hl (Or.inr h2)⟩))
    · exact h (Or.inr (Or.inl ⟨a7 l hl (Or.inl h1), b7 l hl (Or.inl h2)⟩))
    · exact h (Or.inr (Or.inl ⟨a7 l hl (Or.inr h1), b7 l hl (Or.inl h2)⟩))
  intro l
  cases l with
  | use =>
    rw [a1, a2, b1, b2]
    refine ⟨fun h1 => ⟨fun h2 => h ?_, fun h2 => h ?_⟩, fun h1 h2 => h ?_⟩ <;> simp [h1, h2]
  | active =>
    rw [a3, a4, b3, b4]
    refine ⟨fun h1 => ⟨fun h2 => h ?_, fun h2 => h ?_⟩, fun h1 h2 => h ?_⟩ <;> simp [h1, h2]
  | wire =>
    rw [a5, b5]
    exact ⟨fun h1 => ⟨b6, fun h2 => h (Or.inl ⟨h1, h2⟩)⟩, fun h1 => absurd h1 a6⟩
  | making => exact hpay _ (Or.inl rfl)
  | pay p => exact hpay _ (Or.inr ⟨p, rfl⟩)

theorem clear_flatMap {as bs : List Call} (h : ∀ a ∈ as, ∀ b ∈ bs, ¬ Clash a b) : Clear (as.flatMap Call.ops) (bs.flatMap Call.ops) := by
  intro l
  constructor
  · intro h1
    obtain ⟨a, ha, hl⟩ := List.mem_flatMap.1 h1
    constructor
    · intro h2
      obtain ⟨b, hb, hl2⟩ := List.mem_flatMap.1 h2
      exact ((clear_calls (h a ha b hb) l).1 hl).1 hl2
    · intro h2
      obtain ⟨b, hb, hl2⟩ := List.mem_flatMap.1 h2
      exact ((clear_calls (h a ha b hb) l).1 hl).2 hl2
  · intro h1 h2
    obtain ⟨a, ha, hl⟩ := List.mem_flatMap.1 h1
    obtain ⟨b, hb, hl2⟩ := List.mem_flatMap.1 h2
    exact (clear_calls (h a ha b hb) l).2 hl hl2

/-- **C188 (partial).** A caller may rest wherever it is, in particular in a search whose gateway says nothing or whose payment is not on the chain:
others go on and finish, as long as they do not clash with its calls.  So while a search waits, the lists can be looked at and gateways can be added to
those in use; while it waits for the chain, another gateway can be asked without payment.
Missing: changes of the list of active gateways (`C188_deactivate_refuted`, `C188_remove_refuted`, `C188_chain_refuted`), and other exchanges (C176). -/
theorem C188_others_go_on_partial (ws : List Call) (cs : List (List Call)) (h : ∀ a ∈ ws, ∀ c ∈ cs, ∀ b ∈ c, ¬ Clash a b)
    (sched : List Nat) (s : List (Thread Lock)) (hrun : run (threads (ws :: cs)) sched = some s) : OthersComplete s := by
  have hlen := run_length hrun
  have hgood := good_run (good_threads (ws :: cs)) hrun
  let f : Nat → List (Op Lock) := fun j => (cs[j]?.getD []).flatMap Call.ops
  let g : Nat → List (Op Lock) := fun j => match j with | 0 => ws.flatMap Call.ops | j + 1 => f j
  have hfrom : ∀ j t, (threads (ws :: cs))[j]? = some t → From (g j) t := by
    intro j t hj
    cases j with
    | zero =>
      simp [threads] at hj
      subst hj
      exact from_begin _
    | succ j =>
      simp [threads] at hj
      obtain ⟨c, hc, rfl⟩ := hj
      show From ((cs[j]?.getD []).flatMap Call.ops) _
      rw [hc]
      exact from_begin _
  have hfrom := from_run hfrom hrun
  cases s with
  | nil => simp [threads] at hlen
  | cons t0 s =>
    have h0 : From (ws.flatMap Call.ops) t0 := hfrom 0 t0 rfl
    have hs : ∀ j t, s[j]? = some t → From (f j) t := fun j t hj => hfrom (j + 1) t (by simpa using hj)
    have hc : ∀ i, Clear (ws.flatMap Call.ops) (f i) := by
      intro i
      show Clear (ws.flatMap Call.ops) ((cs[i]?.getD []).flatMap Call.ops)
      cases hi : cs[i]? with
      | none => intro l; simp
      | some c => exact clear_flatMap (fun a ha b hb => h a ha c (List.mem_of_getElem? hi) b hb)
    refine others_complete (fun t ht => hgood t (by simp [ht])) fun sched1 s1 hr1 => ?_
    have hs1 := from_run hs hr1
    exact ⟨fun i => step_park h0 (hs1 i) (hc i), fun sched' => run_park h0 hc hs1⟩

/-- A search waits for its gateway; others look at the lists, add gateways and search at gateways that are not active.  A search waits for the chain;
another asks a gateway for free, and a provider for a proof. -/
example : (∀ a ∈ [Call.search [.talk]], ∀ c ∈ [[Call.inUse, .activeOnes, .add [.entered, .known]], [.search []]], ∀ b ∈ c, ¬ Clash a b) ∧
    (∀ a ∈ [Call.search [.topupKnown 3]], ∀ c ∈ [[Call.search [.talk]], [.proof]], ∀ b ∈ c, ¬ Clash a b) := by
  simp [Clash, Call.talks, Call.pays, Call.changesUse, Call.looksUse, Call.changesActive, Call.looksActive]

theorem greets_single {k : Call} (h : k.greets = true) : Disciplined (fun _ => 0) (fun _ => false) [] k.ops = true := by
  cases k <;> simp [Call.greets] at h
  · exact disciplined_flatMap (fun w _ => by cases w <;> simp [ActWay.ops, exchange, enter, Disciplined])
  · simp [Call.ops, exchange, Disciplined]

/-- **C188 (activation).** Whatever has happened: while somebody waits for a gateway that is being activated, or for a provider that is asked for a proof,
the calls of the others that talk to nobody return, also those that change the lists. -/
theorem C188_activation (ws : List Call) (hws : ∀ a ∈ ws, a.greets = true) (cs : List (List Call)) (hcs : ∀ c ∈ cs, ∀ b ∈ c, b.talks = false)
    (sched : List Nat) (t : Thread Lock) (s : List (Thread Lock)) (hrun : run (threads (ws :: cs)) sched = some (t :: s)) (hat : InExchange t) :
    OthersComplete (t :: s) := by
  have hgood := good_run (good_threads (ws :: cs)) hrun
  have ht := hgood t (by simp)
  have hsingle : Single t := by
    refine single_run (i := 0) ?_ hrun t rfl
    intro u hu
    simp [threads] at hu
    subst hu
    exact single_begin (disciplined_flatMap fun k hk => greets_single (hws k hk))
  have hmem : (Lock.wire, true) ∈ t.held := by simpa [InExchange, Thread.writes] using hat
  have hheld : t.held = [(.wire, true)] := by
    have h1 := hsingle.2
    cases hh : t.held with
    | nil => rw [hh] at hmem; simp at hmem
    | cons x l =>
      rw [hh] at hmem h1
      cases l with
      | nil => simp at hmem; rw [hmem]
      | cons y l => simp at h1
  have hwait : t.waiting = false := single_waits hsingle ht.waits (by simp [hheld])
  let f : Nat → List (Op Lock) := fun j => (cs[j]?.getD []).flatMap Call.ops
  let g : Nat → List (Op Lock) := fun j => match j with | 0 => ws.flatMap Call.ops | j + 1 => f j
  have hfrom : ∀ j t, (threads (ws :: cs))[j]? = some t → From (g j) t := by
    intro j t hj
    cases j with
    | zero =>
      simp [threads] at hj
      subst hj
      exact from_begin _
    | succ j =>
      simp [threads] at hj
      obtain ⟨c, hc, rfl⟩ := hj
      show From ((cs[j]?.getD []).flatMap Call.ops) _
      rw [hc]
      exact from_begin _
  have hfrom := from_run hfrom hrun
  have hs : ∀ j t, s[j]? = some t → From (f j) t := fun j t hj => hfrom (j + 1) t (by simpa using hj)
  have h0 : ∀ i l, t.holds l = true → .lock l ∉ f i ∧ .rlock l ∉ f i := by
    intro i l hl
    have hl : l = .wire := by
      simp only [Thread.holds, hheld] at hl
      simpa using hl
    subst hl
    have hno : ∀ c, cs[i]? = some c → ∀ k ∈ c, .lock .wire ∉ k.ops ∧ .rlock .wire ∉ k.ops := by
      intro c hc k hk
      obtain ⟨_, _, _, _, b5, b6, _⟩ := call_locks k
      refine ⟨fun h => ?_, b6⟩
      have := b5.1 h
      rw [hcs c (List.mem_of_getElem? hc) k hk] at this
      cases this
    show .lock .wire ∉ (cs[i]?.getD []).flatMap Call.ops ∧ .rlock .wire ∉ (cs[i]?.getD []).flatMap Call.ops
    cases hi : cs[i]? with
    | none => simp
    | some c =>
      constructor
      · intro h
        obtain ⟨k, hk, h⟩ := List.mem_flatMap.1 h
        exact (hno c hi k hk).1 h
      · intro h
        obtain ⟨k, hk, h⟩ := List.mem_flatMap.1 h
        exact (hno c hi k hk).2 h
  refine others_complete (fun u hu => hgood u (by simp [hu])) fun sched1 s1 hr1 => ?_
  have hs1 := from_run hs hr1
  exact ⟨fun i => step_apart hwait (h0 i) (hs1 i), fun sched' => run_apart hwait h0 hs1⟩

/-- A gateway that is being activated, or a provider, says nothing; somebody else removes gateways, and looks at the lists. -/
example : (∃ t s, run (threads [[.activate [.entered, .known], .proof], [.remove 2, .activeOnes]]) [0, 0, 0, 0, 0, 0, 0, 0, 0] = some (t :: s) ∧ InExchange t) ∧
    (∃ t s, run (threads [[.proof], [.remove 2, .activeOnes]]) [0, 0, 0] = some (t :: s) ∧ InExchange t) ∧
    (∀ a ∈ [Call.activate [.entered, .known], .proof], a.greets = true) ∧ ∀ b ∈ [Call.remove 2, .activeOnes], b.talks = false :=
  ⟨⟨_, _, rfl, rfl⟩, ⟨_, _, rfl, rfl⟩, by simp [Call.greets], by simp [Call.talks]⟩

theorem fresh (cs : List (List Call)) : ∀ x ∈ threads cs, x.held = [] ∧ x.waiting = false := by
  intro t ht
  obtain ⟨c, _, rfl⟩ := List.mem_map.1 ht
  exact ⟨rfl, rfl⟩

theorem nobody (cs : List (List Call)) (l : Lock) :
    ¬ ∃ x, x ∈ threads cs ∧ ((l, true) ∈ x.held ∨ x.waiting = true ∧ x.todo.head? = some (Op.lock l)) := by
  rintro ⟨x, hx, h | h⟩ <;> simp [fresh cs x hx] at h

theorem nobody' (cs : List (List Call)) (l : Lock) : ¬ ∃ x, x ∈ threads cs ∧ ((l, true) ∈ x.held ∨ (l, false) ∈ x.held) := by
  rintro ⟨x, hx, h⟩; simp [fresh cs x hx] at h

theorem heldUp_of {s : List (Thread Lock)} {j : Nat} {c : List Call} {op : Op Lock}
    (hc : op ∈ c.flatMap Call.ops) (h : ∀ sched s', 0 ∉ sched → run s sched = some s' →
      ∃ u' : Thread Lock, s'[j]? = some u' ∧ u'.todo.count op = (begin_ (c.flatMap Call.ops)).todo.count op) : HeldUp s j := by
  intro sched s' hn hr
  obtain ⟨u, h3, h4⟩ := h sched s' hn hr
  refine ⟨u, h3, fun h0 => ?_⟩
  rw [h0] at h4
  have : 0 < (c.flatMap Call.ops).count op := List.count_pos_iff.2 hc
  simp only [begin_, List.count_nil] at h4
  omega

/-- Everybody who uses the lists waits when somebody reads the active ones and rests, and somebody who writes those in use wants to write the active
ones. -/
theorem lists_held_up {t w : Thread Lock} {s : List (Thread Lock)} (hm : (.active, false) ∈ t.held) (hw : w.announced .active = true)
    (hu : (.use, true) ∈ w.held) {j : Nat} {c : List Call} (hj : s[j]? = some (begin_ (c.flatMap Call.ops))) (hk : ∃ k ∈ c, k.usesLists = true) :
    HeldUp (t :: w :: s) (j + 2) := by
  obtain ⟨k, hk, hp⟩ := hk
  obtain ⟨a1, a2, a3, a4, _⟩ := call_locks k
  have hget : (t :: w :: s)[j + 2]? = some (begin_ (c.flatMap Call.ops)) := by simpa using hj
  have hrests : ∀ sched s', 0 ∉ sched → run (t :: w :: s) sched = some s' → 1 ∉ sched := fun sched s' hn hr =>
    announced_rests hm hw hn (i := 0) (k := 1) rfl rfl hr
  simp only [Call.usesLists, Bool.or_eq_true] at hp
  rcases hp with ((hp | hp) | hp) | hp
  · exact heldUp_of (List.mem_flatMap.2 ⟨k, hk, a1.2 hp⟩)
      (fun sched s' hn hr => (held_stays (by simp [Thread.holds, hu]) (hrests _ _ hn hr) (i := 1) (t := w) rfl hr).2 _ _ hget)
  · exact heldUp_of (List.mem_flatMap.2 ⟨k, hk, a2.2 hp⟩)
      (fun sched s' hn hr => (written_stays hu (hrests _ _ hn hr) (i := 1) (t := w) rfl hr).2 _ _ hget)
  · exact heldUp_of (List.mem_flatMap.2 ⟨k, hk, a3.2 hp⟩)
      (fun sched s' hn hr => (held_stays (by simp [Thread.holds, hm]) hn (i := 0) (t := t) rfl hr).2 _ _ hget)
  · exact heldUp_of (List.mem_flatMap.2 ⟨k, hk, a4.2 hp⟩)
      (fun sched s' hn hr => (announced_stays hm hw hn (i := 0) (k := 1) rfl rfl hr).2.2 _ _ hget)

/-- **C188 (refuted): active gateways.** While a gateway says nothing to a search, a call that takes any gateway off the active ones, or even none, does
not return; and as soon as it waits, nobody sees the list of active gateways, and no search begins, whichever gateway it is about. -/
theorem C188_deactivate_refuted (steps : List Step) (cs : List (List Call)) :
    ∃ t w, run (threads ([.search (.talk :: steps)] :: [.deactivate] :: cs)) [0, 0, 0, 0, 1] = some (t :: w :: threads cs) ∧
      t.todo.take 2 = [.work, .unlock .wire] ∧ HeldUp (t :: w :: threads cs) 1 ∧
      ∀ j c, cs[j]? = some c → (∃ k ∈ c, k.changesActive = true ∨ k.looksActive = true) → HeldUp (t :: w :: threads cs) (j + 2) := by
  refine ⟨{ todo := [.work, .unlock .wire] ++ steps.flatMap Step.ops ++ [.work, .runlock .active], held := [(.wire, true), (.active, false)], waiting := false },
    { todo := [.lock .active, .work, .unlock .active], held := [], waiting := true }, ?_, by simp, ?_, fun j c hj hk => ?_⟩
  · rw [show threads ([.search (.talk :: steps)] :: [.deactivate] :: cs) =
      begin_ (Call.ops (.search (.talk :: steps))) :: begin_ (Call.ops .deactivate) :: threads cs by simp [threads]]
    simp [run, step, begin_, Call.ops, Step.ops, exchange, nobody, nobody', Thread.writes, Thread.announced, Thread.holds]
  · intro sched s' hn hr
    obtain ⟨_, h2, _⟩ := announced_stays (l := Lock.active) (by simp) (by simp [Thread.announced]) hn (i := 0) (k := 1) rfl rfl hr
    exact ⟨_, h2, by simp⟩
  · obtain ⟨k, hk, hp⟩ := hk
    obtain ⟨_, _, a3, a4, _⟩ := call_locks k
    have hget : ∀ t0 w0 : Thread Lock, (t0 :: w0 :: threads cs)[j + 2]? = some (begin_ (c.flatMap Call.ops)) := fun t0 w0 => by simp [threads, hj]
    rcases hp with hp | hp
    · exact heldUp_of (List.mem_flatMap.2 ⟨k, hk, a3.2 hp⟩)
        (fun sched s' hn hr => (held_stays (by simp [Thread.holds]) hn (i := 0) rfl hr).2 _ _ (hget _ _))
    · exact heldUp_of (List.mem_flatMap.2 ⟨k, hk, a4.2 hp⟩) (fun sched s' hn hr =>
        (announced_stays (by simp) (by simp [Thread.announced]) hn (i := 0) (k := 1) rfl rfl hr).2.2 _ _ (hget _ _))

/-- **C188 (refuted): gateways in use.** While a gateway says nothing to a search, the removal of another gateway from those in use does not return; and as
soon as it waits no call that uses one of the lists, or talks to anybody, returns. -/
theorem C188_remove_refuted (steps : List Step) (n : Nat) (cs : List (List Call)) :
    ∃ t w, run (threads ([.search (.talk :: steps)] :: [.remove (n + 1)] :: cs)) [0, 0, 0, 0, 1, 1, 1, 1] = some (t :: w :: threads cs) ∧
      t.todo.take 2 = [.work, .unlock .wire] ∧ HeldUp (t :: w :: threads cs) 1 ∧
      ∀ j c, cs[j]? = some c → (∃ k ∈ c, k.usesLists = true ∨ k.talks = true) → HeldUp (t :: w :: threads cs) (j + 2) := by
  refine ⟨{ todo := [.work, .unlock .wire] ++ steps.flatMap Step.ops ++ [.work, .runlock .active], held := [(.wire, true), (.active, false)], waiting := false },
    { todo := (List.replicate (n + 1) enter).flatten ++ [.unlock .use], held := [(.use, true)], waiting := true }, ?_, by simp, ?_, fun j c hj hk => ?_⟩
  · rw [show threads ([.search (.talk :: steps)] :: [.remove (n + 1)] :: cs) =
      begin_ (Call.ops (.search (.talk :: steps))) :: begin_ (Call.ops (.remove (n + 1))) :: threads cs by simp [threads]]
    simp [run, step, begin_, Call.ops, Step.ops, exchange, enter, List.replicate_succ, nobody, nobody', Thread.writes, Thread.announced, Thread.holds]
  · intro sched s' hn hr
    obtain ⟨_, h2, _⟩ := announced_stays (l := Lock.active) (by simp) (by simp [Thread.announced, List.replicate_succ, enter]) hn (i := 0) (k := 1) rfl rfl hr
    exact ⟨_, h2, by simp⟩
  · obtain ⟨k, hk, hp⟩ := hk
    rcases hp with hp | hp
    · exact lists_held_up (by simp) (by simp [Thread.announced, List.replicate_succ, enter]) (by simp) (by simp [threads, hj]) ⟨k, hk, hp⟩
    · obtain ⟨_, _, _, _, a5, _⟩ := call_locks k
      exact heldUp_of (List.mem_flatMap.2 ⟨k, hk, a5.2 hp⟩)
        (fun sched s' hn hr => (held_stays (by simp [Thread.holds]) hn (i := 0) rfl hr).2 _ _ (by simp [threads, hj]))

/-- **C188 (refuted): the chain.** The same while a search waits for the chain to confirm a new payment channel, however long that takes: the removal of
another gateway does not return, and from then on no call that uses one of the lists does. -/
theorem C188_chain_refuted (steps : List Step) (n : Nat) (cs : List (List Call)) :
    ∃ t w, run (threads ([.search (.topupNew :: steps)] :: [.remove (n + 1)] :: cs)) [0, 0, 0, 0, 0, 0, 0, 1, 1, 1, 1] = some (t :: w :: threads cs) ∧
      t.todo.take 2 = [.work, .unlock (.pay .outbound)] ∧ HeldUp (t :: w :: threads cs) 1 ∧
      ∀ j c, cs[j]? = some c → (∃ k ∈ c, k.usesLists = true) → HeldUp (t :: w :: threads cs) (j + 2) := by
  refine ⟨{ todo := [.work, .unlock (.pay .outbound)] ++ steps.flatMap Step.ops ++ [.work, .runlock .active], held := [(.pay .outbound, true), (.active, false)], waiting := false },
    { todo := (List.replicate (n + 1) enter).flatten ++ [.unlock .use], held := [(.use, true)], waiting := true }, ?_, by simp, ?_, fun j c hj hk => ?_⟩
  · rw [show threads ([.search (.topupNew :: steps)] :: [.remove (n + 1)] :: cs) =
      begin_ (Call.ops (.search (.topupNew :: steps))) :: begin_ (Call.ops (.remove (n + 1))) :: threads cs by simp [threads]]
    simp [run, step, begin_, Call.ops, Step.ops, PayLocks.topupNew, payOp, enter, List.replicate_succ, nobody, nobody', Thread.writes, Thread.announced,
      Thread.holds]
  · intro sched s' hn hr
    obtain ⟨_, h2, _⟩ := announced_stays (l := Lock.active) (by simp) (by simp [Thread.announced, List.replicate_succ, enter]) hn (i := 0) (k := 1) rfl rfl hr
    exact ⟨_, h2, by simp⟩
  · exact lists_held_up (by simp) (by simp [Thread.announced, List.replicate_succ, enter]) (by simp) (by simp [threads, hj]) hk

/-- Among those held up: whoever looks which gateways are in use, and whoever searches at another gateway. -/
example : (∃ k ∈ [Call.inUse], k.usesLists = true) ∧ (∃ k ∈ [Call.search [.payKnown 7, .talk]], k.usesLists = true) ∧
    ∃ k ∈ [Call.activeOnes], k.changesActive = true ∨ k.looksActive = true := by
  simp [Call.usesLists, Call.looksUse, Call.looksActive]

end FcRetrieval.ClientLocks
