import Verif.Spec.ClientConc
import Verif.Props.ClientGateways
/-!
# C111: calls of one client at the same time
-/
set_option linter.unusedSimpArgs false

namespace FcRetrieval.ClientConc
open FcRetrieval.Ids (Id)
open FcRetrieval.Merkle (exId)
open FcRetrieval.Register (Record)
open FcRetrieval.Client (Env Settings CompleteGateway Established validGateway validGateway_iff requestEstablishment requestEstablishment_ok exEnv exSettings exRecord)

variable {Sig : Type}

/-! ### every call returns -/

/-- The steps a call can still take. -/
def work : Pc → Nat
  | .addUse ids _ => 3 * ids.length + 1
  | .addUseLook _ ids _ => 3 * ids.length + 3
  | .addUseSet _ _ ids _ => 3 * ids.length + 2
  | .removeUse ids => 2 * ids.length + 2
  | .removing ids _ => 2 * ids.length + 1
  | .dropping _ ids _ => 2 * ids.length + 2
  | .addActive ids _ => 4 * ids.length + 1
  | .addActiveUse _ ids _ => 4 * ids.length + 4
  | .addActiveAsk _ _ ids _ => 4 * ids.length + 3
  | .addActiveSet _ _ ids _ => 4 * ids.length + 2
  | .removeAllUse => 1
  | .removeActive _ => 1
  | .removeAllActive => 1
  | .done _ => 0
  | .crashed => 0

theorem stepPc_work {E : Env Sig} {s : Settings} {i : Nat} {m m' : Shared} {pc pc' : Pc} (h : stepPc E s i m pc = some (m', pc')) : work pc' < work pc := by
  unfold stepPc at h
  split at h
  all_goals (repeat' split at h)
  all_goals first
    | (cases h; done)
    | (simp only [Option.some.injEq, Prod.mk.injEq] at h; obtain ⟨-, rfl⟩ := h; simp only [work, List.length_cons, List.length_nil]; omega)

theorem sum_set_lt {α : Type} (f : α → Nat) : ∀ {l : List α} {i : Nat} {a b : α}, l[i]? = some a → f b < f a →
    ((l.set i b).map f).sum < (l.map f).sum
  | [], i, a, b, h, _ => by simp at h
  | x :: l, 0, a, b, h, hb => by
    simp only [List.getElem?_cons_zero, Option.some.injEq] at h
    subst h
    simp only [List.set_cons_zero, List.map_cons, List.sum_cons]
    omega
  | x :: l, i + 1, a, b, h, hb => by
    have := sum_set_lt f (l := l) (i := i) (by simpa using h) hb
    simp only [List.set_cons_succ, List.map_cons, List.sum_cons]
    omega

theorem step_some {s : Settings} {E : Env Sig} {st st' : State} {i : Nat} (h : step s E st i = some st') :
    ∃ pc pc' m, st.calls[i]? = some pc ∧ stepPc E s i st.shared pc = some (m, pc') ∧ st' = ⟨m, st.calls.set i pc'⟩ := by
  unfold step at h
  split at h
  · cases h
  · rename_i pc hpc
    split at h
    · cases h
    · rename_i m pc' hs
      cases h
      exact ⟨pc, pc', m, hpc, hs, rfl⟩

/-- **C111**: whatever the schedule, the calls together take no more steps than this. -/
theorem C111_terminates (s : Settings) (l : List (Env Sig × Nat)) : ∀ (st st' : State), run s st l = some st' →
    l.length + (st'.calls.map work).sum ≤ (st.calls.map work).sum := by
  induction l with
  | nil =>
    intro st st' h
    cases h
    simp
  | cons e l ih =>
    obtain ⟨E, i⟩ := e
    intro st st' h
    unfold run at h
    split at h
    · cases h
    · rename_i st1 hs
      obtain ⟨pc, pc', m, h1, h2, rfl⟩ := step_some hs
      have h3 := ih _ _ h
      have h4 := sum_set_lt work h1 (stepPc_work h2)
      dsimp only at h3
      simp only [List.length_cons]
      omega

/-! ### some call can always go on -/

/-- A call inside `RemoveGatewaysToUse`. -/
def Holds : Pc → Prop
  | .removing _ _ => True
  | .dropping _ _ _ => True
  | _ => False

/-- The lock is held by the call that is inside `RemoveGatewaysToUse`. -/
def LockInv (st : State) : Prop := ∀ i, st.shared.holder = some i ↔ ∃ pc, st.calls[i]? = some pc ∧ Holds pc

theorem stepPc_lock {E : Env Sig} {s : Settings} {i : Nat} {m m' : Shared} {pc pc' : Pc} (h : stepPc E s i m pc = some (m', pc')) :
    (¬ Holds pc ∧ ¬ Holds pc' ∧ m'.holder = m.holder) ∨ (Holds pc ∧ Holds pc' ∧ m'.holder = m.holder) ∨
    (¬ Holds pc ∧ Holds pc' ∧ m.holder = none ∧ m'.holder = some i) ∨ (Holds pc ∧ ¬ Holds pc' ∧ m'.holder = none) := by
  unfold stepPc at h
  split at h
  all_goals (repeat' split at h)
  all_goals first
    | (cases h; done)
    | (simp only [Option.some.injEq, Prod.mk.injEq] at h; obtain ⟨rfl, rfl⟩ := h; simp_all [Holds])

theorem lockInv_fresh {st : State} (h : Fresh st) : LockInv st := by
  intro i
  constructor
  · intro hi
    rw [h.1] at hi
    cases hi
  · rintro ⟨pc, hpc, hh⟩
    have := h.2 pc (List.mem_of_getElem? hpc)
    cases pc <;> simp_all [Started, Holds]

theorem step_lock {s : Settings} {E : Env Sig} {st st' : State} {i : Nat} (hinv : LockInv st) (h : step s E st i = some st') : LockInv st' := by
  obtain ⟨pc, pc', m, h1, h2, rfl⟩ := step_some h
  have hlt : i < st.calls.length := (List.getElem?_eq_some_iff.1 h1).1
  have hset : ∀ j, (st.calls.set i pc')[j]? = if i = j then some pc' else st.calls[j]? := by
    intro j
    rw [List.getElem?_set]
    split
    · rename_i hij
      subst hij
      simp [hlt]
    · rfl
  have hi := hinv i
  intro j
  have hj := hinv j
  dsimp only
  rw [hset]
  by_cases hij : i = j
  · subst hij
    rw [if_pos rfl]
    simp only [Option.some.injEq, exists_eq_left']
    rcases stepPc_lock h2 with ⟨a, b, c⟩ | ⟨a, b, c⟩ | ⟨a, b, c, d⟩ | ⟨a, b, c⟩
    · rw [c, hi]
      simp only [h1, Option.some.injEq, exists_eq_left', a, b]
    · rw [c, hi]
      simp only [h1, Option.some.injEq, exists_eq_left', a, b]
    · simp [d, b]
    · simp [c, b]
  · rw [if_neg hij, ← hj]
    rcases stepPc_lock h2 with ⟨a, b, c⟩ | ⟨a, b, c⟩ | ⟨a, b, c, d⟩ | ⟨a, b, c⟩
    · rw [c]
    · rw [c]
    · rw [c, d]
      simp [hij]
    · have : st.shared.holder = some i := hi.2 ⟨pc, h1, a⟩
      rw [c, this]
      simp [hij]

theorem run_lock (s : Settings) (l : List (Env Sig × Nat)) : ∀ (st st' : State), LockInv st → run s st l = some st' → LockInv st' := by
  induction l with
  | nil =>
    intro st st' hi h
    cases h
    exact hi
  | cons e l ih =>
    obtain ⟨E, i⟩ := e
    intro st st' hi h
    unfold run at h
    split at h
    · cases h
    · rename_i st1 hs
      exact ih _ _ (step_lock hi hs) h

theorem stepPc_holds (E : Env Sig) (s : Settings) (i : Nat) (m : Shared) {pc : Pc} (h : Holds pc) : (stepPc E s i m pc).isSome := by
  unfold stepPc
  split
  all_goals (repeat' split)
  all_goals first
    | rfl
    | (simp [Holds] at h; done)

theorem stepPc_free (E : Env Sig) (s : Settings) (i : Nat) {m : Shared} (hm : m.holder = none) {pc : Pc} (h : ¬ Ended pc) : (stepPc E s i m pc).isSome := by
  unfold stepPc
  split
  all_goals (repeat' split)
  all_goals first
    | rfl
    | (simp_all; done)
    | (simp [Ended] at h; done)

/-- **C111**: there is no deadlock.  Whatever the schedule was, if some call has not ended, some call can take a step. -/
theorem C111_no_deadlock (s : Settings) (st st' : State) (hf : Fresh st) (l : List (Env Sig × Nat)) (h : run s st l = some st')
    (hu : ∃ pc ∈ st'.calls, ¬ Ended pc) : ∃ i, ∀ E : Env Sig, (step s E st' i).isSome := by
  have hinv := run_lock s l st st' (lockInv_fresh hf) h
  have key : ∀ i pc, st'.calls[i]? = some pc → (∀ E : Env Sig, (stepPc E s i st'.shared pc).isSome) → ∀ E : Env Sig, (step s E st' i).isSome := by
    intro i pc h1 h2 E
    unfold step
    rw [h1]
    dsimp only
    obtain ⟨x, hx⟩ := Option.isSome_iff_exists.1 (h2 E)
    rw [hx]
    rfl
  cases hh : st'.shared.holder with
  | some i =>
    obtain ⟨pc, h1, h2⟩ := (hinv i).1 hh
    exact ⟨i, key i pc h1 (fun E => stepPc_holds E s i _ h2)⟩
  | none =>
    obtain ⟨pc, hpc, hne⟩ := hu
    obtain ⟨i, hi⟩ := List.getElem?_of_mem hpc
    exact ⟨i, key i pc hi (fun E => stepPc_free E s i hh hne)⟩

/-! ### what the active gateways are -/

/-- What the maps and the calls hold is validated and established. -/
structure Held (V W : List Char → Record → Prop) (st : State) : Prop where
  use : ∀ k r, mget st.shared.toUse k = some r → V k r
  act : ∀ k r, mget st.shared.active k = some r → V k r ∧ W k r
  set_ : ∀ id r ids n, Pc.addUseSet id r ids n ∈ st.calls → V (Ids.toStr id) r
  ask : ∀ id r ids n, Pc.addActiveAsk id r ids n ∈ st.calls → V (Ids.toStr id) r
  put : ∀ id r ids n, Pc.addActiveSet id r ids n ∈ st.calls → V (Ids.toStr id) r ∧ W (Ids.toStr id) r

/-- What the step of a call writes. -/
theorem stepPc_held {V W : List Char → Record → Prop} {E : Env Sig} {s : Settings} {i : Nat} {st : State}
    (hV : ∀ id r, E.gateway id = some r → CompleteGateway r → V (Ids.toStr id) r)
    (hW : ∀ id r m, Established E 0 r (E.challenge id) m → W (Ids.toStr id) r) (hh : Held V W st) {pc pc' : Pc} {m : Shared}
    (h1 : st.calls[i]? = some pc) (h2 : stepPc E s i st.shared pc = some (m, pc')) : Held V W ⟨m, st.calls.set i pc'⟩ := by
  have hmem : pc ∈ st.calls := List.mem_of_getElem? h1
  have hset : ∀ q ∈ st.calls.set i pc', q ∈ st.calls ∨ q = pc' := fun q hq => List.mem_or_eq_of_mem_set hq
  have use : ∀ k r, mget m.toUse k = some r → V k r := by
    intro k r hk
    unfold stepPc at h2
    split at h2
    all_goals (repeat' split at h2)
    all_goals first
      | (cases h2; done)
      | (simp only [Option.some.injEq, Prod.mk.injEq] at h2; obtain ⟨rfl, -⟩ := h2; exact hh.use k r hk)
      | skip
    · simp only [Option.some.injEq, Prod.mk.injEq] at h2
      obtain ⟨rfl, -⟩ := h2
      dsimp only at hk
      rw [mget_mset] at hk
      split at hk
      · rename_i he
        subst he
        cases hk
        exact hh.set_ _ _ _ _ hmem
      · exact hh.use k r hk
    · simp only [Option.some.injEq, Prod.mk.injEq] at h2
      obtain ⟨rfl, -⟩ := h2
      dsimp only at hk
      rw [mget_mdel] at hk
      split at hk
      · cases hk
      · exact hh.use k r hk
    · simp only [Option.some.injEq, Prod.mk.injEq] at h2
      obtain ⟨rfl, -⟩ := h2
      cases hk
  have act : ∀ k r, mget m.active k = some r → V k r ∧ W k r := by
    intro k r hk
    unfold stepPc at h2
    split at h2
    all_goals (repeat' split at h2)
    all_goals first
      | (cases h2; done)
      | (simp only [Option.some.injEq, Prod.mk.injEq] at h2; obtain ⟨rfl, -⟩ := h2; exact hh.act k r hk)
      | skip
    · simp only [Option.some.injEq, Prod.mk.injEq] at h2
      obtain ⟨rfl, -⟩ := h2
      dsimp only at hk
      rw [mget_mdel] at hk
      split at hk
      · cases hk
      · exact hh.act k r hk
    · simp only [Option.some.injEq, Prod.mk.injEq] at h2
      obtain ⟨rfl, -⟩ := h2
      cases hk
    · simp only [Option.some.injEq, Prod.mk.injEq] at h2
      obtain ⟨rfl, -⟩ := h2
      dsimp only at hk
      rw [mget_mset] at hk
      split at hk
      · rename_i he
        subst he
        cases hk
        exact hh.put _ _ _ _ hmem
      · exact hh.act k r hk
    · simp only [Option.some.injEq, Prod.mk.injEq] at h2
      obtain ⟨rfl, -⟩ := h2
      dsimp only at hk
      refine hh.act k r ?_
      rename_i ids
      have : ∀ (ids : List Id) (m : List (List Char × Record)), mget (dropActive m ids).1 k = some r → mget m k = some r := by
        intro ids
        induction ids with
        | nil => exact fun m h => h
        | cons id ids ih =>
          intro m h
          unfold dropActive at h
          split at h
          · exact ih m h
          · have := ih _ h
            rw [mget_mdel] at this
            split at this
            · cases this
            · exact this
      exact this ids _ hk
    · simp only [Option.some.injEq, Prod.mk.injEq] at h2
      obtain ⟨rfl, -⟩ := h2
      cases hk
  have pcs : (∀ id r ids n, pc' = Pc.addUseSet id r ids n → V (Ids.toStr id) r) ∧
      (∀ id r ids n, pc' = Pc.addActiveAsk id r ids n → V (Ids.toStr id) r) ∧
      (∀ id r ids n, pc' = Pc.addActiveSet id r ids n → V (Ids.toStr id) r ∧ W (Ids.toStr id) r) := by
    unfold stepPc at h2
    split at h2
    all_goals (repeat' split at h2)
    all_goals first
      | (cases h2; done)
      | (simp only [Option.some.injEq, Prod.mk.injEq] at h2; obtain ⟨-, rfl⟩ := h2
         refine ⟨?_, ?_, ?_⟩ <;> (intro _ _ _ _ h; cases h; done))
      | skip
    · rename_i hr _ hv
      simp only [Option.some.injEq, Prod.mk.injEq] at h2
      obtain ⟨-, rfl⟩ := h2
      refine ⟨fun _ _ _ _ h => ?_, fun _ _ _ _ h => (by cases h), fun _ _ _ _ h => (by cases h)⟩
      cases h
      exact hV _ _ hr ((validGateway_iff _).1 hv)
    · rename_i r hr
      simp only [Option.some.injEq, Prod.mk.injEq] at h2
      obtain ⟨-, rfl⟩ := h2
      refine ⟨fun _ _ _ _ h => (by cases h), fun _ _ _ _ h => ?_, fun _ _ _ _ h => (by cases h)⟩
      cases h
      exact hh.use _ _ hr
    · rename_i hr
      simp only [Option.some.injEq, Prod.mk.injEq] at h2
      obtain ⟨-, rfl⟩ := h2
      refine ⟨fun _ _ _ _ h => (by cases h), fun _ _ _ _ h => (by cases h), fun _ _ _ _ h => ?_⟩
      cases h
      obtain ⟨-, mm, a, gw, e1, -, e2, e3, e4⟩ := requestEstablishment_ok hr
      exact ⟨hh.ask _ _ _ _ hmem, hW _ _ mm ⟨_, _, a, gw, e1, e2, e3, e4⟩⟩
  refine ⟨use, act, fun id r ids n hq => ?_, fun id r ids n hq => ?_, fun id r ids n hq => ?_⟩
  · rcases hset _ hq with hq | hq
    · exact hh.set_ _ _ _ _ hq
    · exact pcs.1 _ _ _ _ hq.symm
  · rcases hset _ hq with hq | hq
    · exact hh.ask _ _ _ _ hq
    · exact pcs.2.1 _ _ _ _ hq.symm
  · rcases hset _ hq with hq | hq
    · exact hh.put _ _ _ _ hq
    · exact pcs.2.2 _ _ _ _ hq.symm

theorem run_held {V W : List Char → Record → Prop} (s : Settings) : ∀ (l : List (Env Sig × Nat)) (st st' : State),
    (∀ e ∈ l, (∀ id r, e.1.gateway id = some r → CompleteGateway r → V (Ids.toStr id) r) ∧
      (∀ id r m, Established e.1 0 r (e.1.challenge id) m → W (Ids.toStr id) r)) →
    Held V W st → run s st l = some st' → Held V W st' := by
  intro l
  induction l with
  | nil =>
    intro st st' _ hi h
    cases h
    exact hi
  | cons e l ih =>
    obtain ⟨E, i⟩ := e
    intro st st' hl hi h
    unfold run at h
    split at h
    · cases h
    · rename_i st1 hs
      obtain ⟨pc, pc', m, h1, h2, rfl⟩ := step_some hs
      obtain ⟨hV, hW⟩ := hl (E, i) (List.mem_cons_self ..)
      exact ih _ _ (fun e he => hl e (List.mem_cons_of_mem _ he)) (stepPc_held hV hW hi h1 h2) h

/-- **C111**: whatever the schedule of calls on a new client, a gateway is active only with a record which was complete when it was looked
up, and with whose node an establishment exchange was made. -/
theorem C111_sound (s : Settings) (calls : List Pc) (hc : ∀ pc ∈ calls, Started pc) (l : List (Env Sig × Nat)) (st : State)
    (h : run s ⟨⟨[], [], none⟩, calls⟩ l = some st) :
    (∀ k r, mget st.shared.active k = some r → WasValidated l k r ∧ WasEstablished l k r) ∧
    (∀ k r, mget st.shared.toUse k = some r → WasValidated l k r) := by
  have := run_held (V := WasValidated l) (W := WasEstablished l) s l ⟨⟨[], [], none⟩, calls⟩ st
    (fun e he => ⟨fun id r h1 h2 => ⟨e, he, id, rfl, h1, h2⟩, fun id r m h1 => ⟨e, he, id, m, rfl, h1⟩⟩)
    ⟨fun k r hk => (by cases hk), fun k r hk => (by cases hk), fun id r ids n hq => (by have := hc _ hq; simp [Started] at this),
      fun id r ids n hq => (by have := hc _ hq; simp [Started] at this), fun id r ids n hq => (by have := hc _ hq; simp [Started] at this)⟩ h
  exact ⟨this.act, this.use⟩

/-! ### active gateways that are not in use -/

/-- **C111** is false: if a gateway in use is activated and taken out of use at the same time, both calls can report success and leave it
active although it is not in use. -/
theorem C111_refuted (s : Settings) (E : Env Sig) (id : Id) (r : Record) (toUse active : List (List Char × Record))
    (huse : mget toUse (Ids.toStr id) = some r) (hact : mget active (Ids.toStr id) = none)
    (hest : (requestEstablishment E 0 r (E.challenge id) s.clientID (E.now + s.ttl)).2 = .ok ()) :
    ∃ (l : List (Env Sig × Nat)) (m : Shared), run s ⟨⟨toUse, active, none⟩, [.addActive [id] 0, .removeUse [id]]⟩ l = some ⟨m, [.done 1, .done 1]⟩ ∧
      mget m.active (Ids.toStr id) = some r ∧ mget m.toUse (Ids.toStr id) = none := by
  refine ⟨[(E, 0), (E, 0), (E, 0), (E, 1), (E, 1), (E, 1), (E, 1), (E, 0), (E, 0)],
    ⟨mdel toUse (Ids.toStr id), mset (mdel active (Ids.toStr id)) (Ids.toStr id) r, none⟩, ?_, by simp [mget_mset], by simp [mget_mdel]⟩
  simp [run, step, stepPc, hact, huse, hest]

theorem mset_again {κ ν : Type} [DecidableEq κ] (k : κ) (v : ν) : ∀ (m : List (κ × ν)), mset (mset m k v) k v = mset m k v
  | [] => by simp [mset]
  | (a, b) :: m => by
    by_cases h : a = k
    · simp [mset, h]
    · simp [mset, h, mset_again k v m]

/-- Two calls that add the same gateway can both count it. -/
theorem C111_count_refuted (s : Settings) (E : Env Sig) (id : Id) (r : Record) (toUse active : List (List Char × Record))
    (huse : mget toUse (Ids.toStr id) = none) (hreg : E.gateway id = some r) (hc : CompleteGateway r) :
    ∃ (l : List (Env Sig × Nat)) (m : Shared), run s ⟨⟨toUse, active, none⟩, [.addUse [id] 0, .addUse [id] 0]⟩ l = some ⟨m, [.done 1, .done 1]⟩ ∧
      m.toUse.length = toUse.length + 1 := by
  have hv := (validGateway_iff r).2 hc
  refine ⟨[(E, 0), (E, 1), (E, 0), (E, 1), (E, 0), (E, 1), (E, 0), (E, 1)],
    ⟨mset (mset toUse (Ids.toStr id) r) (Ids.toStr id) r, active, none⟩, ?_, ?_⟩
  · simp [run, step, stepPc, huse, hreg, hv]
  · rw [mset_again, Client.mset_new r huse]
    simp

/-! ### without removals -/

/-- The active gateways are in use, and so are those that a call is about to activate. -/
structure InUse (st : State) : Prop where
  act : ∀ k, (mget st.shared.active k).isSome → (mget st.shared.toUse k).isSome
  ask : ∀ id r ids n, Pc.addActiveAsk id r ids n ∈ st.calls → (mget st.shared.toUse (Ids.toStr id)).isSome
  put : ∀ id r ids n, Pc.addActiveSet id r ids n ∈ st.calls → (mget st.shared.toUse (Ids.toStr id)).isSome
  calm : ∀ pc ∈ st.calls, ¬ Removes pc

theorem dropActive_sub (k : List Char) (r : Record) : ∀ (ids : List Id) (m : List (List Char × Record)),
    mget (dropActive m ids).1 k = some r → mget m k = some r
  | [], _, h => h
  | id :: ids, m, h => by
    unfold dropActive at h
    split at h
    · exact dropActive_sub k r ids m h
    · have := dropActive_sub k r ids _ h
      rw [mget_mdel] at this
      split at this
      · cases this
      · exact this

theorem stepPc_inUse {E : Env Sig} {s : Settings} {i : Nat} {st : State} (hh : InUse st) {pc pc' : Pc} {m : Shared}
    (h1 : st.calls[i]? = some pc) (h2 : stepPc E s i st.shared pc = some (m, pc')) : InUse ⟨m, st.calls.set i pc'⟩ := by
  have hmem : pc ∈ st.calls := List.mem_of_getElem? h1
  have hset : ∀ q ∈ st.calls.set i pc', q ∈ st.calls ∨ q = pc' := fun q hq => List.mem_or_eq_of_mem_set hq
  have hcalm := hh.calm pc hmem
  have grow : ∀ k, (mget st.shared.toUse k).isSome → (mget m.toUse k).isSome := by
    intro k hk
    unfold stepPc at h2
    split at h2
    all_goals (repeat' split at h2)
    all_goals first
      | (cases h2; done)
      | (simp only [Option.some.injEq, Prod.mk.injEq] at h2; obtain ⟨rfl, -⟩ := h2; exact hk)
      | (simp [Removes] at hcalm; done)
      | skip
    simp only [Option.some.injEq, Prod.mk.injEq] at h2
    obtain ⟨rfl, -⟩ := h2
    dsimp only
    rw [mget_mset]
    split
    · rfl
    · exact hk
  have act : ∀ k, (mget m.active k).isSome → (mget m.toUse k).isSome := by
    intro k hk
    apply grow
    unfold stepPc at h2
    split at h2
    all_goals (repeat' split at h2)
    all_goals first
      | (cases h2; done)
      | (simp only [Option.some.injEq, Prod.mk.injEq] at h2; obtain ⟨rfl, -⟩ := h2; exact hh.act k hk)
      | (simp [Removes] at hcalm; done)
      | skip
    · simp only [Option.some.injEq, Prod.mk.injEq] at h2
      obtain ⟨rfl, -⟩ := h2
      dsimp only at hk
      rw [mget_mset] at hk
      split at hk
      · rename_i he
        subst he
        exact hh.put _ _ _ _ hmem
      · exact hh.act k hk
    · simp only [Option.some.injEq, Prod.mk.injEq] at h2
      obtain ⟨rfl, -⟩ := h2
      dsimp only at hk
      obtain ⟨r, hr⟩ := Option.isSome_iff_exists.1 hk
      exact hh.act k (by rw [dropActive_sub k r _ _ hr]; rfl)
    · simp only [Option.some.injEq, Prod.mk.injEq] at h2
      obtain ⟨rfl, -⟩ := h2
      cases hk
  have pcs : (∀ id r ids n, pc' = Pc.addActiveAsk id r ids n → (mget st.shared.toUse (Ids.toStr id)).isSome) ∧
      (∀ id r ids n, pc' = Pc.addActiveSet id r ids n → (mget st.shared.toUse (Ids.toStr id)).isSome) ∧ ¬ Removes pc' := by
    unfold stepPc at h2
    split at h2
    all_goals (repeat' split at h2)
    all_goals first
      | (cases h2; done)
      | (simp [Removes] at hcalm; done)
      | (simp only [Option.some.injEq, Prod.mk.injEq] at h2; obtain ⟨-, rfl⟩ := h2
         refine ⟨?_, ?_, id⟩ <;> (intro _ _ _ _ h; cases h; done))
      | skip
    · rename_i hr
      simp only [Option.some.injEq, Prod.mk.injEq] at h2
      obtain ⟨-, rfl⟩ := h2
      refine ⟨fun _ _ _ _ h => ?_, fun _ _ _ _ h => (by cases h), id⟩
      cases h
      rw [hr]
      rfl
    · simp only [Option.some.injEq, Prod.mk.injEq] at h2
      obtain ⟨-, rfl⟩ := h2
      refine ⟨fun _ _ _ _ h => (by cases h), fun _ _ _ _ h => ?_, id⟩
      cases h
      exact hh.ask _ _ _ _ hmem
  refine ⟨act, fun id r ids n hq => ?_, fun id r ids n hq => ?_, fun q hq => ?_⟩
  · rcases hset _ hq with hq | hq
    · exact grow _ (hh.ask _ _ _ _ hq)
    · exact grow _ (pcs.1 _ _ _ _ hq.symm)
  · rcases hset _ hq with hq | hq
    · exact grow _ (hh.put _ _ _ _ hq)
    · exact grow _ (pcs.2.1 _ _ _ _ hq.symm)
  · rcases hset _ hq with hq | hq
    · exact hh.calm _ hq
    · rw [hq]
      exact pcs.2.2

/-- **C111**, in part: as long as no call takes gateways out of use, the active gateways stay among those in use, whatever the schedule. -/
theorem C111_partial (s : Settings) (st : State) (hf : Fresh st) (hr : ∀ pc ∈ st.calls, ¬ Removes pc)
    (ha : ∀ k, (mget st.shared.active k).isSome → (mget st.shared.toUse k).isSome) (l : List (Env Sig × Nat)) (st' : State)
    (h : run s st l = some st') : ∀ k, (mget st'.shared.active k).isSome → (mget st'.shared.toUse k).isSome := by
  have : ∀ (l : List (Env Sig × Nat)) (st st' : State), InUse st → run s st l = some st' → InUse st' := by
    intro l
    induction l with
    | nil =>
      intro st st' hi h
      cases h
      exact hi
    | cons e l ih =>
      obtain ⟨E, i⟩ := e
      intro st st' hi h
      unfold run at h
      split at h
      · cases h
      · rename_i st1 hs
        obtain ⟨pc, pc', m, h1, h2, rfl⟩ := step_some hs
        exact ih _ _ (stepPc_inUse hi h1 h2) h
  refine (this l st st' ⟨ha, fun id r ids n hq => ?_, fun id r ids n hq => ?_, hr⟩ h).act
  · have := hf.2 _ hq
    simp [Started] at this
  · have := hf.2 _ hq
    simp [Started] at this

/-! ### a call alone -/

theorem run_add {s : Settings} : ∀ {l1 l2 : List (Env Sig × Nat)} {st st1 : State}, run s st l1 = some st1 → run s st (l1 ++ l2) = run s st1 l2
  | [], _, st, st1, h => by cases h; rfl
  | (E, i) :: l1, l2, st, st1, h => by
    unfold run at h
    simp only [List.cons_append]
    conv => lhs; unfold run
    split at h
    · cases h
    · exact run_add h

theorem run_one {s : Settings} {E : Env Sig} {i : Nat} {st : State} {pc pc' : Pc} {m : Shared} (h1 : st.calls[i]? = some pc)
    (h2 : stepPc E s i st.shared pc = some (m, pc')) (l : List (Env Sig × Nat)) :
    run s st ((E, i) :: l) = run s ⟨m, st.calls.set i pc'⟩ l := by
  rw [run, step, h1]
  dsimp only
  rw [h2]

/-- How a call ends. -/
def endOf : Option Nat → Nat → Pc
  | some k, n => .done (n + k)
  | none, _ => .crashed

theorem endOf_map (o : Option Nat) (n : Nat) : endOf (o.map (· + 1)) n = endOf o (n + 1) := by
  cases o with
  | none => rfl
  | some k => simp only [Option.map_some, endOf, Pc.done.injEq]; omega

/-- The call at `pc` alone leads to these maps and this end. -/
def Alone (E : Env Sig) (s : Settings) (i : Nat) (m : Shared) (pc : Pc) (m' : Shared) (fin : Pc) : Prop :=
  ∀ (calls : List Pc), calls[i]? = some pc →
    ∃ k, run s ⟨m, calls⟩ (List.replicate k (E, i)) = some ⟨m', calls.set i fin⟩

theorem alone_step {E : Env Sig} {s : Settings} {i : Nat} {m m1 m' : Shared} {pc pc1 fin : Pc}
    (h : stepPc E s i m pc = some (m1, pc1)) (hn : Alone E s i m1 pc1 m' fin) : Alone E s i m pc m' fin := by
  intro calls hi
  have hlt : i < calls.length := (List.getElem?_eq_some_iff.1 hi).1
  obtain ⟨k, hk⟩ := hn (calls.set i pc1) (by rw [List.getElem?_set]; simp [hlt])
  refine ⟨k + 1, ?_⟩
  rw [List.replicate_succ, run_one hi h]
  dsimp only
  rw [hk, List.set_set]

theorem alone_end {E : Env Sig} {s : Settings} {i : Nat} {m m' : Shared} {pc fin : Pc} (h : stepPc E s i m pc = some (m', fin)) :
    Alone E s i m pc m' fin := by
  intro calls hi
  exact ⟨1, by rw [List.replicate_one, run_one hi h]; rfl⟩

theorem alone_addUse (E : Env Sig) (s : Settings) (i : Nat) : ∀ (ids : List Id) (c : Client.Client Sig) (n : Nat),
    Alone E s i ⟨c.toUse, c.active, none⟩ (.addUse ids n)
      ⟨(Client.addToUse E c (ids.map some)).1.toUse, (Client.addToUse E c (ids.map some)).1.active, none⟩
      (endOf (Client.addToUse E c (ids.map some)).2 n)
  | [], c, n => alone_end (rfl)
  | id :: ids, c, n => by
    simp only [List.map_cons]
    unfold Client.addToUse
    cases hm : mget c.toUse (Ids.toStr id) with
    | some r => exact alone_step (by simp [stepPc, hm]) (alone_addUse E s i ids c n)
    | none =>
      refine alone_step (m1 := ⟨c.toUse, c.active, none⟩) (pc1 := .addUseLook id ids n) (by simp [stepPc, hm]) ?_
      cases hg : E.gateway id with
      | none => exact alone_step (by simp only [stepPc, hg]) (alone_addUse E s i ids c n)
      | some r =>
        dsimp only
        cases hv : validGateway r with
        | panic => exact alone_end (by simp only [stepPc, hg, hv]; rfl)
        | err => exact alone_step (by simp only [stepPc, hg, hv]) (alone_addUse E s i ids c n)
        | ok b =>
          cases b with
          | false => exact alone_step (by simp only [stepPc, hg, hv]) (alone_addUse E s i ids c n)
          | true =>
            dsimp only
            rw [endOf_map]
            refine alone_step (m1 := ⟨c.toUse, c.active, none⟩) (pc1 := .addUseSet id r ids n) (by simp only [stepPc, hg, hv]) ?_
            exact alone_step (by simp [stepPc])
              (alone_addUse E s i ids { c with toUse := mset c.toUse (Ids.toStr id) r } (n + 1))

theorem dropActive_eq : ∀ (ids : List Id) (c : Client.Client Sig),
    Client.removeActive c (ids.map some) = ({ c with active := (dropActive c.active ids).1 }, some (dropActive c.active ids).2)
  | [], c => rfl
  | id :: ids, c => by
    simp only [List.map_cons]
    unfold Client.removeActive dropActive
    cases mget c.active (Ids.toStr id) with
    | none => exact dropActive_eq ids c
    | some r =>
      dsimp only
      rw [dropActive_eq ids]
      rfl

theorem alone_removing (E : Env Sig) (s : Settings) (i : Nat) : ∀ (ids : List Id) (c : Client.Client Sig) (n : Nat),
    Alone E s i ⟨c.toUse, c.active, some i⟩ (.removing ids n)
      ⟨(Client.removeToUse c (ids.map some)).1.toUse, (Client.removeToUse c (ids.map some)).1.active, none⟩
      (endOf (Client.removeToUse c (ids.map some)).2 n)
  | [], c, n => alone_end rfl
  | id :: ids, c, n => by
    simp only [List.map_cons]
    unfold Client.removeToUse
    cases hm : mget c.toUse (Ids.toStr id) with
    | none => exact alone_step (by simp only [stepPc, hm]) (alone_removing E s i ids c n)
    | some r =>
      dsimp only
      rw [endOf_map]
      refine alone_step (m1 := ⟨mdel c.toUse (Ids.toStr id), c.active, some i⟩) (pc1 := .dropping id ids (n + 1)) (by simp only [stepPc, hm]) ?_
      exact alone_step (by simp only [stepPc])
        (alone_removing E s i ids { c with toUse := mdel c.toUse (Ids.toStr id), active := mdel c.active (Ids.toStr id) } (n + 1))

/-- **C111**: a call that is alone does what the call does, in `Model/Client`. -/
theorem C111_alone (E : Env Sig) (c : Client.Client Sig) (i : Nat) (ids : List Id) :
    Alone E c.settings i ⟨c.toUse, c.active, none⟩ (.addUse ids 0)
      ⟨(Client.addToUse E c (ids.map some)).1.toUse, (Client.addToUse E c (ids.map some)).1.active, none⟩
      (endOf (Client.addToUse E c (ids.map some)).2 0) ∧
    Alone E c.settings i ⟨c.toUse, c.active, none⟩ (.removeUse ids)
      ⟨(Client.removeToUse c (ids.map some)).1.toUse, (Client.removeToUse c (ids.map some)).1.active, none⟩
      (endOf (Client.removeToUse c (ids.map some)).2 0) ∧
    Alone E c.settings i ⟨c.toUse, c.active, none⟩ (.removeActive ids)
      ⟨(Client.removeActive c (ids.map some)).1.toUse, (Client.removeActive c (ids.map some)).1.active, none⟩
      (endOf (Client.removeActive c (ids.map some)).2 0) ∧
    Alone E c.settings i ⟨c.toUse, c.active, none⟩ .removeAllUse
      ⟨(Client.removeAllToUse c).1.toUse, (Client.removeAllToUse c).1.active, none⟩ (.done (Client.removeAllToUse c).2) ∧
    Alone E c.settings i ⟨c.toUse, c.active, none⟩ .removeAllActive
      ⟨(Client.removeAllActive c).1.toUse, (Client.removeAllActive c).1.active, none⟩ (.done (Client.removeAllActive c).2) := by
  refine ⟨alone_addUse E _ i ids c 0, ?_, ?_, alone_end rfl, alone_end rfl⟩
  · exact alone_step (by simp [stepPc]) (alone_removing E _ i ids c 0)
  · rw [dropActive_eq]
    refine alone_end ?_
    simp [stepPc, endOf]

/-- ... and so does a call that activates one gateway. -/
theorem C111_alone_active (E : Env Sig) (c : Client.Client Sig) (i : Nat) (id : Id) :
    Alone E c.settings i ⟨c.toUse, c.active, none⟩ (.addActive [id] 0)
      ⟨(Client.addActive E c 0 [some id]).1.toUse, (Client.addActive E c 0 [some id]).1.active, none⟩
      (endOf (Client.addActive E c 0 [some id]).2.2 0) := by
  unfold Client.addActive
  cases hm : mget c.active (Ids.toStr id) with
  | some r => exact alone_step (m1 := ⟨c.toUse, c.active, none⟩) (pc1 := .addActive [] 0) (by simp only [stepPc, hm]) (alone_end rfl)
  | none =>
    refine alone_step (m1 := ⟨c.toUse, c.active, none⟩) (pc1 := .addActiveUse id [] 0) (by simp only [stepPc, hm]) ?_
    cases hu : mget c.toUse (Ids.toStr id) with
    | none => exact alone_step (m1 := ⟨c.toUse, c.active, none⟩) (pc1 := .addActive [] 0) (by simp [stepPc, hu]) (alone_end rfl)
    | some r =>
      refine alone_step (m1 := ⟨c.toUse, c.active, none⟩) (pc1 := .addActiveAsk id r [] 0) (by simp [stepPc, hu]) ?_
      dsimp only
      rcases hr : requestEstablishment E 0 r (E.challenge id) c.settings.clientID (E.now + c.settings.ttl) with ⟨out, res⟩
      cases res with
      | panic => exact alone_end (by simp only [stepPc, hr]; rfl)
      | err => exact alone_step (m1 := ⟨c.toUse, c.active, none⟩) (pc1 := .addActive [] 0) (by simp only [stepPc, hr]) (alone_end rfl)
      | ok u =>
        refine alone_step (m1 := ⟨c.toUse, c.active, none⟩) (pc1 := .addActiveSet id r [] 0) (by simp only [stepPc, hr]) ?_
        exact alone_step (m1 := ⟨c.toUse, mset c.active (Ids.toStr id) r, none⟩) (pc1 := .addActive [] 1) rfl (alone_end rfl)

/-! ### removals take effect -/

/-- While one call is inside `RemoveGatewaysToUse`, the steps of the others leave the gateways in use alone. -/
theorem stepPc_other {E : Env Sig} {s : Settings} {j : Nat} {m m' : Shared} {pc pc' : Pc} (hh : m.holder.isSome) (hp : ¬ Holds pc) (h : stepPc E s j m pc = some (m', pc')) : m'.toUse = m.toUse := by
  unfold stepPc at h
  split at h
  all_goals (repeat' split at h)
  all_goals first
    | (cases h; done)
    | (cases h; rfl)
    | (cases h; exact absurd trivial hp)
    | (exfalso; simp_all; done)

/-- How far the call `i`, which removes the gateways `ids`, has come. -/
def Progress (ids : List Id) (m : Shared) : Pc → Prop
  | .removeUse ids' => ids' = ids
  | .removing rest _ => ∃ gone, ids = gone ++ rest ∧ ∀ id ∈ gone, mget m.toUse (Ids.toStr id) = none
  | .dropping id rest _ => ∃ gone, ids = gone ++ rest ∧ id ∈ gone ∧ ∀ id ∈ gone, mget m.toUse (Ids.toStr id) = none
  | .done _ => True
  | _ => False

theorem progress_own {E : Env Sig} {s : Settings} {i : Nat} {m m' : Shared} {pc pc' : Pc} {ids : List Id} (hp : Progress ids m pc) (h : stepPc E s i m pc = some (m', pc')) :
    Progress ids m' pc' ∧ ∀ n, pc' = .done n → ∀ id ∈ ids, mget m'.toUse (Ids.toStr id) = none := by
  cases pc with
  | removeUse ids' =>
    cases hp
    simp only [stepPc] at h
    split at h
    · cases h
    · cases h
      exact ⟨⟨[], rfl, by simp⟩, fun n hn => by cases hn⟩
  | removing rest n =>
    obtain ⟨gone, rfl, hg⟩ := hp
    cases rest with
    | nil =>
      cases h
      exact ⟨trivial, fun _ _ => by simpa using hg⟩
    | cons id rest =>
      simp only [stepPc] at h
      split at h
      · rename_i hn
        cases h
        refine ⟨⟨gone ++ [id], by simp, ?_⟩, fun n hn => by cases hn⟩
        intro x hx
        rcases List.mem_append.1 hx with hx | hx
        · exact hg x hx
        · rw [List.mem_singleton.1 hx]
          exact hn
      · cases h
        refine ⟨⟨gone ++ [id], by simp, by simp, ?_⟩, fun n hn => by cases hn⟩
        intro x hx
        show mget (mdel m.toUse (Ids.toStr id)) (Ids.toStr x) = none
        rw [mget_mdel]
        split
        · rfl
        · rename_i hne
          rcases List.mem_append.1 hx with hx | hx
          · exact hg x hx
          · exact absurd (by rw [List.mem_singleton.1 hx]) hne
  | dropping id rest n =>
    obtain ⟨gone, rfl, -, hg⟩ := hp
    cases h
    exact ⟨⟨gone, rfl, hg⟩, fun n hn => by cases hn⟩
  | done n => cases h
  | _ => exact hp.elim

theorem progress_other {m m' : Shared} {pc : Pc} {ids : List Id} (hp : Progress ids m pc) (hh : Holds pc → m'.toUse = m.toUse) : Progress ids m' pc := by
  cases pc with
  | removeUse ids' => exact hp
  | removing rest n =>
    obtain ⟨gone, h1, h2⟩ := hp
    exact ⟨gone, h1, by rw [hh trivial]; exact h2⟩
  | dropping id rest n =>
    obtain ⟨gone, h1, h3, h2⟩ := hp
    exact ⟨gone, h1, h3, by rw [hh trivial]; exact h2⟩
  | done n => trivial
  | _ => exact hp.elim

theorem step_progress {s : Settings} {E : Env Sig} {st st' : State} {i j : Nat} {ids : List Id} (hl : LockInv st) (hi : ∃ pc, st.calls[i]? = some pc ∧ Progress ids st.shared pc)
    (h : step s E st j = some st') : ∃ pc, st'.calls[i]? = some pc ∧ Progress ids st'.shared pc := by
  obtain ⟨pc, pc', m, h1, h2, rfl⟩ := step_some h
  obtain ⟨q, hq, hp⟩ := hi
  have hlt : j < st.calls.length := (List.getElem?_eq_some_iff.1 h1).1
  by_cases hij : j = i
  · subst hij
    rw [hq] at h1
    cases h1
    exact ⟨pc', by simp [hlt], (progress_own hp h2).1⟩
  · refine ⟨q, by simp [hij, hq], progress_other hp fun hh => ?_⟩
    have h3 := (hl i).2 ⟨q, hq, hh⟩
    refine stepPc_other (by rw [h3]; rfl) (fun hc => hij ?_) h2
    have h4 := (hl j).2 ⟨pc, h1, hc⟩
    rw [h3] at h4
    exact (Option.some.inj h4).symm

/-- **C111**: whatever other calls do at the same time, at the moment `RemoveGatewaysToUse` returns none of the gateways it was given is in use. -/
theorem C111_removed (s : Settings) (st : State) (hf : Fresh st) (i : Nat) (ids : List Id) (hi : st.calls[i]? = some (.removeUse ids)) (l : List (Env Sig × Nat)) (st1 : State)
    (h1 : run s st l = some st1) (E : Env Sig) (st2 : State) (h2 : step s E st1 i = some st2) (n : Nat) (hd : st2.calls[i]? = some (.done n)) :
    ∀ id ∈ ids, mget st2.shared.toUse (Ids.toStr id) = none := by
  have key : ∀ (l : List (Env Sig × Nat)) (st st1 : State), LockInv st → (∃ pc, st.calls[i]? = some pc ∧ Progress ids st.shared pc) → run s st l = some st1 →
      ∃ pc, st1.calls[i]? = some pc ∧ Progress ids st1.shared pc := by
    intro l
    induction l with
    | nil =>
      intro st st1 _ hp h
      cases h
      exact hp
    | cons e l ih =>
      obtain ⟨E, j⟩ := e
      intro st st1 hl hp h
      unfold run at h
      split at h
      · cases h
      · rename_i st' hs
        exact ih _ _ (step_lock hl hs) (step_progress hl hp hs) h
  obtain ⟨pc, hpc, hp⟩ := key l st st1 (lockInv_fresh hf) ⟨_, hi, rfl⟩ h1
  obtain ⟨q, pc', m, h3, h4, rfl⟩ := step_some h2
  rw [hpc] at h3
  cases h3
  have hlt : i < st1.calls.length := (List.getElem?_eq_some_iff.1 hpc).1
  have hd' : pc' = .done n := by simpa [hlt] using hd
  exact (progress_own hp h4).2 n hd'

/-! ### the hypotheses can be met -/

theorem exReg : exEnv.gateway (exId 1) = some exRecord := by decide +kernel

theorem exEst : (requestEstablishment exEnv 0 exRecord (exEnv.challenge (exId 1)) exSettings.clientID (exEnv.now + exSettings.ttl)).2 = .ok () := by
  obtain ⟨m, hm⟩ := Client.C63_honest exEnv Codecs.defaultProtocolOk 0 exRecord (exEnv.challenge (exId 1)) (Merkle.exId_proper 1) (exId 6) (Merkle.exId_proper 6)
    (exEnv.now + exSettings.ttl) ⟨by decide, by decide⟩ Gateway.exEnv Client.exHolder (Client.exBehind 0) (by decide)
  have : exSettings.clientID = exId 6 := rfl
  rw [this, hm]

/-- Two calls on a new client. -/
def exStart : State := ⟨⟨[], [], none⟩, [.addUse [exId 1] 0, .addActive [exId 1] 0]⟩

example : Fresh exStart := ⟨rfl, by intro pc hpc; simp [exStart] at hpc; rcases hpc with rfl | rfl <;> simp [Started]⟩

/-- A schedule in which the second call waits for the first, and activates the gateway. -/
theorem exSchedule : ∃ (l : List (Env Unit × Nat)) (m : Shared), run exSettings exStart l = some ⟨m, [.done 1, .done 1]⟩ ∧ l.length = 9 ∧
    mget m.active (Ids.toStr (exId 1)) = some exRecord ∧ mget m.toUse (Ids.toStr (exId 1)) = some exRecord := by
  have hv := (validGateway_iff exRecord).2 Client.exRecord_complete
  refine ⟨[(exEnv, 0), (exEnv, 1), (exEnv, 0), (exEnv, 0), (exEnv, 1), (exEnv, 1), (exEnv, 0), (exEnv, 1), (exEnv, 1)],
    ⟨mset [] (Ids.toStr (exId 1)) exRecord, mset [] (Ids.toStr (exId 1)) exRecord, none⟩, ?_, rfl, by simp [mget_mset], by simp [mget_mset]⟩
  simp [run, step, stepPc, exStart, mget, mset, exReg, hv, exEst]

/-- ... and the two that leave a gateway active that is not in use. -/
example : ∃ (l : List (Env Unit × Nat)) (m : Shared),
    run exSettings ⟨⟨[(Ids.toStr (exId 1), exRecord)], [], none⟩, [.addActive [exId 1] 0, .removeUse [exId 1]]⟩ l = some ⟨m, [.done 1, .done 1]⟩ ∧
      mget m.active (Ids.toStr (exId 1)) = some exRecord ∧ mget m.toUse (Ids.toStr (exId 1)) = none :=
  C111_refuted exSettings exEnv (exId 1) exRecord _ [] (by simp [mget]) rfl exEst

example : ∃ (l : List (Env Unit × Nat)) (m : Shared),
    run exSettings ⟨⟨[], [], none⟩, [.addUse [exId 1] 0, .addUse [exId 1] 0]⟩ l = some ⟨m, [.done 1, .done 1]⟩ ∧ m.toUse.length = 1 :=
  C111_count_refuted exSettings exEnv (exId 1) exRecord [] [] rfl exReg Client.exRecord_complete

/-- The first call writes the gateway while the second waits, and the second takes it out of use. -/
example : ∃ (l : List (Env Unit × Nat)) (st1 st2 : State), run exSettings ⟨⟨[], [], none⟩, [.addUse [exId 1] 0, .removeUse [exId 1]]⟩ l = some st1 ∧
    step exSettings exEnv st1 1 = some st2 ∧ st2.calls[1]? = some (.done 1) ∧ mget st2.shared.toUse (Ids.toStr (exId 1)) = none := by
  have hv := (validGateway_iff exRecord).2 Client.exRecord_complete
  have h1 : run exSettings ⟨⟨[], [], none⟩, [.addUse [exId 1] 0, .removeUse [exId 1]]⟩ [(exEnv, 0), (exEnv, 0), (exEnv, 0), (exEnv, 1), (exEnv, 1), (exEnv, 1)] =
      some ⟨⟨[], [], some 1⟩, [.addUse [] 1, .removing [] 1]⟩ := by
    simp [run, step, stepPc, mget, mset, mdel, exReg, hv]
  refine ⟨_, _, ⟨⟨[], [], none⟩, [.addUse [] 1, .done 1]⟩, h1, rfl, rfl, ?_⟩
  exact C111_removed exSettings _ ⟨rfl, by intro pc hpc; simp at hpc; rcases hpc with rfl | rfl <;> simp [Started]⟩ 1 [exId 1] rfl _ _ h1 exEnv _ rfl 1 rfl
    (exId 1) (by simp)

end FcRetrieval.ClientConc
