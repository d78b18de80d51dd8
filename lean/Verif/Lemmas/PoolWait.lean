import Verif.Spec.PoolWait
import Verif.Lemmas.Maps
import Verif.Lemmas.Pool
/-!
# Requests that wait: what a step can be, invariants
-/
set_option linter.unusedSimpArgs false

namespace FcRetrieval.Pool.Wait
open FcRetrieval.Pool

/-- The steps that change something. -/
inductive Move (s : State) (i n : Nat) : At → State → Prop
  | found (c : Nat) (hh : held s = false) (hp : mget s.pool n = some c) :
      Move s i n (.pc .start) { s with reqs := s.reqs.set i ⟨n, .pc (.got c)⟩ }
  | missing (hh : held s = false) (hp : mget s.pool n = none) :
      Move s i n (.pc .start) { s with reqs := s.reqs.set i ⟨n, .pc .dial⟩ }
  | dialled : Move s i n (.pc .dial) { s with next := s.next + 1, reqs := s.reqs.set i ⟨n, .pc (.dialled s.next)⟩ }
  | undialled : Move s i n (.pc .dial) { s with reqs := s.reqs.set i ⟨n, .pc (.done none)⟩ }
  | stored (c : Nat) (hh : held s = false) (hp : mget s.pool n = none) :
      Move s i n (.pc (.dialled c)) { s with pool := mset s.pool n c, reqs := s.reqs.set i ⟨n, .pc (.got c)⟩ }
  | surplus (c c' : Nat) (hh : held s = false) (hp : mget s.pool n = some c') :
      Move s i n (.pc (.dialled c)) { s with closed := s.closed ++ [c], reqs := s.reqs.set i ⟨n, .pc (.got c')⟩ }
  | talk (c : Nat) (hb : busy s c = false) : Move s i n (.pc (.got c)) { s with reqs := s.reqs.set i ⟨n, .pc (.talking c)⟩ }
  | answered (c : Nat) (hc : c ∉ s.closed) :
      Move s i n (.pc (.talking c)) { s with reqs := s.reqs.set i ⟨n, .pc (.done (some c))⟩ }
  | failed (c : Nat) : Move s i n (.pc (.talking c)) { s with reqs := s.reqs.set i ⟨n, .pc .failed⟩ }
  | nothing (hh : held s = false) (hp : mget s.pool n = none) :
      Move s i n (.pc .failed) { s with reqs := s.reqs.set i ⟨n, .pc (.done none)⟩ }
  | remove (c : Nat) (hh : held s = false) (hp : mget s.pool n = some c) :
      Move s i n (.pc .failed) { s with reqs := s.reqs.set i ⟨n, .removing c⟩ }
  | removed (c : Nat) (hb : busy s c = false) :
      Move s i n (.removing c)
        { s with pool := mdel s.pool n, closed := s.closed ++ [c], reqs := s.reqs.set i ⟨n, .pc (.done none)⟩ }

theorem step_move (s : State) (i n : Nat) (a : At) (ok : Bool) (h : s.reqs[i]? = some ⟨n, a⟩) :
    step s i ok = s ∨ Move s i n a (step s i ok) := by
  unfold step
  rw [h]
  dsimp only
  cases a with
  | removing c =>
    dsimp only
    cases hb : busy s c with
    | true => exact .inl (by rw [if_pos rfl])
    | false => exact .inr (by rw [if_neg (by simp)]; exact .removed c hb)
  | pc p =>
    cases p with
    | start =>
      dsimp only
      cases hh : held s with
      | true => exact .inl (by rw [if_pos rfl])
      | false =>
        right
        rw [if_neg (by simp)]
        cases hp : mget s.pool n with
        | none => exact .missing hh hp
        | some c => exact .found c hh hp
    | dial =>
      right
      cases ok with
      | true => exact .dialled
      | false => exact .undialled
    | dialled c =>
      dsimp only
      cases hh : held s with
      | true => exact .inl (by rw [if_pos rfl])
      | false =>
        right
        rw [if_neg (by simp)]
        cases hp : mget s.pool n with
        | none => exact .stored c hh hp
        | some c' => exact .surplus c c' hh hp
    | got c =>
      dsimp only
      cases hb : busy s c with
      | true => exact .inl (by rw [if_pos rfl])
      | false => exact .inr (by rw [if_neg (by simp)]; exact .talk c hb)
    | talking c =>
      right
      dsimp only
      split
      · rename_i hc
        exact .answered c hc.2
      · exact .failed c
    | failed =>
      dsimp only
      cases hh : held s with
      | true => exact .inl (by rw [if_pos rfl])
      | false =>
        right
        rw [if_neg (by simp)]
        cases hp : mget s.pool n with
        | none => exact .nothing hh hp
        | some c => exact .remove c hh hp
    | done r => exact .inl rfl

/-- How far a request still has to go. -/
def At.left : At → Nat
  | .pc .start => 7
  | .pc .dial => 6
  | .pc (.dialled _) => 5
  | .pc (.got _) => 4
  | .pc (.talking _) => 3
  | .pc .failed => 2
  | .removing _ => 1
  | .pc (.done _) => 0

def left (s : State) : Nat := (s.reqs.map (fun t => t.at_.left)).sum

theorem sum_set (f : Req → Nat) : ∀ (l : List Req) (i : Nat) (t t' : Req), l[i]? = some t →
    ((l.set i t').map f).sum + f t = (l.map f).sum + f t'
  | [], i, t, t', h => by simp at h
  | a :: l, 0, t, t', h => by
    simp at h
    subst h
    simp only [List.set_cons_zero, List.map_cons, List.sum_cons]
    omega
  | a :: l, i + 1, t, t', h => by
    have ih := sum_set f l i t t' (by simpa using h)
    simp only [List.set_cons_succ, List.map_cons, List.sum_cons]
    omega

theorem step_left (s : State) (i : Nat) (ok : Bool) : step s i ok = s ∨ left (step s i ok) < left s := by
  cases h : s.reqs[i]? with
  | none => exact .inl (by unfold step; rw [h])
  | some t =>
    obtain ⟨n, a⟩ := t
    rcases step_move s i n a ok h with e | hm
    · exact .inl e
    · right
      have hs := fun a' => sum_set (fun t => t.at_.left) s.reqs i ⟨n, a⟩ ⟨n, a'⟩ h
      generalize step s i ok = s' at hm
      cases hm with
      | found c hh hp => have := hs (.pc (.got c)); simp only [At.left, left] at this ⊢; omega
      | missing hh hp => have := hs (.pc .dial); simp only [At.left, left] at this ⊢; omega
      | dialled => have := hs (.pc (.dialled s.next)); simp only [At.left, left] at this ⊢; omega
      | undialled => have := hs (.pc (.done none)); simp only [At.left, left] at this ⊢; omega
      | stored c hh hp => have := hs (.pc (.got c)); simp only [At.left, left] at this ⊢; omega
      | surplus c c' hh hp => have := hs (.pc (.got c')); simp only [At.left, left] at this ⊢; omega
      | talk c hb => have := hs (.pc (.talking c)); simp only [At.left, left] at this ⊢; omega
      | answered c hc => have := hs (.pc (.done (some c))); simp only [At.left, left] at this ⊢; omega
      | failed c => have := hs (.pc .failed); simp only [At.left, left] at this ⊢; omega
      | nothing hh hp => have := hs (.pc (.done none)); simp only [At.left, left] at this ⊢; omega
      | remove c hh hp => have := hs (.removing c); simp only [At.left, left] at this ⊢; omega
      | removed c hb => have := hs (.pc (.done none)); simp only [At.left, left] at this ⊢; omega

theorem noIdle_length (s : State) (l : List (Nat × Bool)) (h : NoIdle s l) : l.length ≤ left s := by
  induction l generalizing s with
  | nil => simp
  | cons e l ih =>
    obtain ⟨i, ok⟩ := e
    obtain ⟨h1, h2⟩ := h
    have := ih _ h2
    rcases step_left s i ok with h | h
    · exact absurd h h1
    · simp only [List.length_cons]; omega

theorem left_init (nodes : List Nat) : left (init nodes) = 7 * nodes.length := by
  unfold left init
  induction nodes with
  | nil => rfl
  | cons n l ih =>
    simp only [List.map_cons, List.sum_cons, List.length_cons, At.left] at ih ⊢
    omega

theorem ne_of_left {s s' : State} {i n : Nat} {a a' : At} (h : s.reqs[i]? = some ⟨n, a⟩) (h' : s'.reqs[i]? = some ⟨n, a'⟩)
    (hn : a' ≠ a) : s' ≠ s := by
  rintro rfl
  rw [h] at h'
  simp only [Option.some.injEq, Req.mk.injEq, true_and] at h'
  exact hn h'.symm

theorem talker_moves (s : State) (j n c : Nat) (h : s.reqs[j]? = some ⟨n, .pc (.talking c)⟩) (ok : Bool) : step s j ok ≠ s := by
  have hl : j < s.reqs.length := (List.getElem?_eq_some_iff.1 h).1
  unfold step
  rw [h]
  dsimp only
  split
  · exact ne_of_left h (by dsimp only; rw [List.getElem?_set_self hl]) (by simp)
  · exact ne_of_left h (by dsimp only; rw [List.getElem?_set_self hl]) (by simp)

theorem busy_elim {s : State} {c : Nat} (h : busy s c = true) : ∃ j n : Nat, s.reqs[j]? = some ⟨n, .pc (.talking c)⟩ := by
  unfold busy at h
  rw [List.any_eq_true] at h
  obtain ⟨⟨n, a⟩, ht, he⟩ := h
  obtain ⟨j, hj⟩ := List.mem_iff_getElem?.1 ht
  simp only [beq_iff_eq] at he
  subst he
  exact ⟨j, n, hj⟩

theorem held_elim {s : State} (h : held s = true) : ∃ j n c : Nat, s.reqs[j]? = some ⟨n, .removing c⟩ := by
  unfold held at h
  rw [List.any_eq_true] at h
  obtain ⟨⟨n, a⟩, ht, he⟩ := h
  obtain ⟨j, hj⟩ := List.mem_iff_getElem?.1 ht
  cases a with
  | removing c => exact ⟨j, n, c, hj⟩
  | pc p => simp [Req.removes] at he

theorem held_intro {s : State} {j n c : Nat} (h : s.reqs[j]? = some ⟨n, .removing c⟩) : held s = true := by
  unfold held
  rw [List.any_eq_true]
  exact ⟨_, List.mem_of_getElem? h, rfl⟩

theorem busy_intro {s : State} {j n c : Nat} (h : s.reqs[j]? = some ⟨n, .pc (.talking c)⟩) : busy s c = true := by
  unfold busy
  rw [List.any_eq_true]
  exact ⟨_, List.mem_of_getElem? h, by simp⟩

/-- A request that waits: for the lock of the pool, or for that of a connection. -/
theorem waits_cases (s : State) (i n : Nat) (a : At) (h : s.reqs[i]? = some ⟨n, a⟩) (ok : Bool) (hw : step s i ok = s) :
    (∃ r, a = .pc (.done r)) ∨ (held s = true ∧ (a = .pc .start ∨ (∃ c, a = .pc (.dialled c)) ∨ a = .pc .failed)) ∨
    (∃ c, busy s c = true ∧ (a = .pc (.got c) ∨ a = .removing c)) := by
  have hl : i < s.reqs.length := (List.getElem?_eq_some_iff.1 h).1
  unfold step at hw
  rw [h] at hw
  dsimp only at hw
  cases a with
  | removing c =>
    dsimp only at hw
    cases hb : busy s c with
    | true => exact .inr (.inr ⟨c, hb, .inr rfl⟩)
    | false =>
      rw [hb, if_neg (by simp)] at hw
      exact absurd hw (ne_of_left h (by dsimp only; rw [List.getElem?_set_self hl]) (by simp))
  | pc p =>
    cases p with
    | start =>
      dsimp only at hw
      cases hh : held s with
      | true => exact .inr (.inl ⟨rfl, .inl rfl⟩)
      | false =>
        rw [hh, if_neg (by simp)] at hw
        revert hw
        cases hp : mget s.pool n with
        | none => intro hw; exact absurd hw (ne_of_left h (by dsimp only; rw [List.getElem?_set_self hl]) (by simp))
        | some c => intro hw; exact absurd hw (ne_of_left h (by dsimp only; rw [List.getElem?_set_self hl]) (by simp))
    | dial =>
      cases ok with
      | true => exact absurd hw (ne_of_left h (by dsimp only; rw [if_pos rfl]; dsimp only; rw [List.getElem?_set_self hl]) (by simp))
      | false =>
        exact absurd hw (ne_of_left h (by dsimp only; rw [if_neg (by simp)]; dsimp only; rw [List.getElem?_set_self hl]) (by simp))
    | dialled c =>
      dsimp only at hw
      cases hh : held s with
      | true => exact .inr (.inl ⟨rfl, .inr (.inl ⟨c, rfl⟩)⟩)
      | false =>
        rw [hh, if_neg (by simp)] at hw
        revert hw
        cases hp : mget s.pool n with
        | none => intro hw; exact absurd hw (ne_of_left h (by dsimp only; rw [List.getElem?_set_self hl]) (by simp))
        | some c => intro hw; exact absurd hw (ne_of_left h (by dsimp only; rw [List.getElem?_set_self hl]) (by simp))
    | got c =>
      dsimp only at hw
      cases hb : busy s c with
      | true => exact .inr (.inr ⟨c, hb, .inl rfl⟩)
      | false =>
        rw [hb, if_neg (by simp)] at hw
        exact absurd hw (ne_of_left h (by dsimp only; rw [List.getElem?_set_self hl]) (by simp))
    | talking c =>
      have := talker_moves s i n c h ok
      unfold step at this
      rw [h] at this
      exact absurd hw this
    | failed =>
      dsimp only at hw
      cases hh : held s with
      | true => exact .inr (.inl ⟨rfl, .inr (.inr rfl)⟩)
      | false =>
        rw [hh, if_neg (by simp)] at hw
        revert hw
        cases hp : mget s.pool n with
        | none => intro hw; exact absurd hw (ne_of_left h (by dsimp only; rw [List.getElem?_set_self hl]) (by simp))
        | some c => intro hw; exact absurd hw (ne_of_left h (by dsimp only; rw [List.getElem?_set_self hl]) (by simp))
    | done r => exact .inl ⟨r, rfl⟩

/-! ### Connections belong to nodes -/

/-- The connection a request has in its hands. -/
def At.uses (a : At) (c : Nat) : Prop := a = .pc (.dialled c) ∨ a = .pc (.got c) ∨ a = .pc (.talking c) ∨ a = .removing c

/-- Every connection belongs to one node. -/
def Owned (s : State) (f : Nat → Nat) : Prop :=
  (∀ n c, mget s.pool n = some c → f c = n ∧ c < s.next) ∧ ∀ t ∈ s.reqs, ∀ c, t.at_.uses c → f c = t.node ∧ c < s.next

theorem owned_step (s : State) (f : Nat → Nat) (h : Owned s f) (i : Nat) (ok : Bool) : ∃ f', Owned (step s i ok) f' := by
  cases ht : s.reqs[i]? with
  | none => exact ⟨f, by unfold step; rw [ht]; exact h⟩
  | some t =>
    obtain ⟨n, a⟩ := t
    have hm := List.mem_of_getElem? ht
    have hother : ∀ (a' : At), (∀ c, a'.uses c → f c = n ∧ c < s.next) → ∀ t ∈ s.reqs.set i ⟨n, a'⟩, ∀ c, t.at_.uses c →
        f c = t.node ∧ c < s.next := by
      intro a' ha t ht c hc
      rcases List.mem_or_eq_of_mem_set ht with h' | rfl
      · exact h.2 t h' c hc
      · exact ha c hc
    rcases step_move s i n a ok ht with e | hmv
    · exact ⟨f, by rw [e]; exact h⟩
    · generalize step s i ok = s' at hmv
      cases hmv with
      | found c hh hp =>
        exact ⟨f, h.1, hother _ fun c' hc => by
          rcases hc with hc | hc | hc | hc <;> simp at hc
          subst hc; exact h.1 n c hp⟩
      | missing hh hp => exact ⟨f, h.1, hother _ fun c' hc => by rcases hc with hc | hc | hc | hc <;> simp at hc⟩
      | dialled =>
        refine ⟨fun c => if c = s.next then n else f c, fun n' c hp => ?_, fun t ht' c hc => ?_⟩
        · obtain ⟨h1, h2⟩ := h.1 n' c hp
          dsimp only
          rw [if_neg (by omega)]
          exact ⟨h1, by omega⟩
        · rcases List.mem_or_eq_of_mem_set ht' with h' | rfl
          · obtain ⟨h1, h2⟩ := h.2 t h' c hc
            dsimp only
            rw [if_neg (by omega)]
            exact ⟨h1, by omega⟩
          · rcases hc with hc | hc | hc | hc <;> simp at hc
            subst hc
            dsimp only
            rw [if_pos rfl]
            exact ⟨rfl, by omega⟩
      | undialled => exact ⟨f, h.1, hother _ fun c' hc => by rcases hc with hc | hc | hc | hc <;> simp at hc⟩
      | stored c hh hp =>
        have hc0 := h.2 _ hm c (.inl rfl)
        refine ⟨f, fun n' c' hp' => ?_, hother _ fun c' hc => ?_⟩
        · rw [mget_mset] at hp'
          split at hp'
          · rename_i e
            cases hp'
            exact ⟨by rw [hc0.1, e], hc0.2⟩
          · exact h.1 n' c' hp'
        · rcases hc with hc | hc | hc | hc <;> simp at hc
          subst hc; exact hc0
      | surplus c c' hh hp =>
        exact ⟨f, h.1, hother _ fun c'' hc => by
          rcases hc with hc | hc | hc | hc <;> simp at hc
          subst hc; exact h.1 n c' hp⟩
      | talk c hb =>
        have hc0 := h.2 _ hm c (.inr (.inl rfl))
        exact ⟨f, h.1, hother _ fun c'' hc => by
          rcases hc with hc | hc | hc | hc <;> simp at hc
          subst hc; exact hc0⟩
      | answered c hc => exact ⟨f, h.1, hother _ fun c' hc => by rcases hc with hc | hc | hc | hc <;> simp at hc⟩
      | failed c => exact ⟨f, h.1, hother _ fun c' hc => by rcases hc with hc | hc | hc | hc <;> simp at hc⟩
      | nothing hh hp => exact ⟨f, h.1, hother _ fun c' hc => by rcases hc with hc | hc | hc | hc <;> simp at hc⟩
      | remove c hh hp =>
        exact ⟨f, h.1, hother _ fun c'' hc => by
          rcases hc with hc | hc | hc | hc <;> simp at hc
          subst hc; exact h.1 n c hp⟩
      | removed c hb =>
        refine ⟨f, fun n' c' hp' => ?_, hother _ fun c' hc => by rcases hc with hc | hc | hc | hc <;> simp at hc⟩
        rw [mget_mdel] at hp'
        split at hp'
        · cases hp'
        · exact h.1 n' c' hp'

theorem owned_run (s : State) (f : Nat → Nat) (h : Owned s f) (l : List (Nat × Bool)) : ∃ f', Owned (run s l) f' := by
  induction l generalizing s f with
  | nil => exact ⟨f, h⟩
  | cons e l ih =>
    obtain ⟨f', h'⟩ := owned_step s f h e.1 e.2
    exact ih _ f' h'

theorem owned_init (nodes : List Nat) : Owned (init nodes) (fun _ => 0) := by
  refine ⟨fun n c h => by simp [init, mget] at h, fun t ht c hc => ?_⟩
  simp only [init, List.mem_map] at ht
  obtain ⟨n, _, rfl⟩ := ht
  rcases hc with hc | hc | hc | hc <;> simp at hc

theorem Reachable.owned {s : State} (h : Reachable s) : ∃ f, Owned s f := by
  obtain ⟨nodes, l, rfl⟩ := h
  exact owned_run _ _ (owned_init nodes) l

/-! ### The same steps without the lock of the pool -/

/-- A request that waits to remove a connection knows what is in the pool, and it is the only one. -/
def Removal (s : State) : Prop :=
  (∀ t ∈ s.reqs, ∀ c, t.at_ = .removing c → mget s.pool t.node = some c) ∧
  ∀ i j n n' c c' : Nat, s.reqs[i]? = some ⟨n, .removing c⟩ → s.reqs[j]? = some ⟨n', .removing c'⟩ → i = j

theorem not_held {s : State} (h : held s = false) (t : Req) (ht : t ∈ s.reqs) (c : Nat) : t.at_ ≠ .removing c := by
  intro e
  obtain ⟨j, hj⟩ := List.mem_iff_getElem?.1 ht
  obtain ⟨n, a⟩ := t
  dsimp only at e
  subst e
  rw [held_intro hj] at h
  cases h

theorem removal_step (s : State) (h : Removal s) (i : Nat) (ok : Bool) : Removal (step s i ok) := by
  cases ht : s.reqs[i]? with
  | none => unfold step; rw [ht]; exact h
  | some t =>
    obtain ⟨n, a⟩ := t
    have hl : i < s.reqs.length := (List.getElem?_eq_some_iff.1 ht).1
    have hsame : ∀ (s' : State) (p : Pc), s'.pool = s.pool → s'.reqs = s.reqs.set i ⟨n, .pc p⟩ → Removal s' := by
      intro s' p hp hr
      refine ⟨fun t ht' c hc => ?_, fun j k n1 n2 c c' hj hk => ?_⟩
      · rw [hr] at ht'
        rw [hp]
        rcases List.mem_or_eq_of_mem_set ht' with h' | rfl
        · exact h.1 t h' c hc
        · cases hc
      · rw [hr, List.getElem?_set] at hj hk
        split at hj
        · simp at hj
        · split at hk
          · simp at hk
          · exact h.2 j k n1 n2 c c' hj hk
    rcases step_move s i n a ok ht with e | hmv
    · rw [e]; exact h
    · generalize step s i ok = s' at hmv
      cases hmv with
      | found c hh hp => exact hsame _ _ rfl rfl
      | missing hh hp => exact hsame _ _ rfl rfl
      | dialled => exact hsame _ _ rfl rfl
      | undialled => exact hsame _ _ rfl rfl
      | stored c hh hp =>
        refine ⟨fun t ht' c' hc => ?_, fun j k n1 n2 c1 c2 hj hk => ?_⟩
        · rcases List.mem_or_eq_of_mem_set ht' with h' | rfl
          · exact absurd hc (not_held hh t h' c')
          · cases hc
        · dsimp only at hj
          rw [List.getElem?_set] at hj
          split at hj
          · simp at hj
          · exact absurd rfl (not_held hh _ (List.mem_of_getElem? hj) c1)
      | surplus c c' hh hp => exact hsame _ _ rfl rfl
      | talk c hb => exact hsame _ _ rfl rfl
      | answered c hc => exact hsame _ _ rfl rfl
      | failed c => exact hsame _ _ rfl rfl
      | nothing hh hp => exact hsame _ _ rfl rfl
      | remove c hh hp =>
        have honly : ∀ j n1 c1 : Nat, (s.reqs.set i ⟨n, .removing c⟩)[j]? = some ⟨n1, .removing c1⟩ → j = i := by
          intro j n1 c1 hj
          rw [List.getElem?_set] at hj
          split at hj
          · rename_i e; exact e.symm
          · exact absurd rfl (not_held hh _ (List.mem_of_getElem? hj) c1)
        refine ⟨fun t ht' c' hc => ?_, fun j k n1 n2 c1 c2 hj hk => by rw [honly j _ _ hj, honly k _ _ hk]⟩
        rcases List.mem_or_eq_of_mem_set ht' with h' | rfl
        · exact absurd hc (not_held hh t h' c')
        · cases hc
          exact hp
      | removed c hb =>
        have hno : ∀ j n1 c1 : Nat, (s.reqs.set i ⟨n, .pc (.done none)⟩)[j]? ≠ some ⟨n1, .removing c1⟩ := by
          intro j n1 c1 hj
          rw [List.getElem?_set] at hj
          split at hj
          · simp at hj
          · rename_i e
            exact e (h.2 i j n n1 c c1 ht hj)
        refine ⟨fun t ht' c' hc => ?_, fun j k n1 n2 c1 c2 hj hk => absurd hj (hno j n1 c1)⟩
        obtain ⟨j, hj⟩ := List.mem_iff_getElem?.1 ht'
        obtain ⟨n1, a1⟩ := t
        dsimp only at hc
        subst hc
        exact absurd hj (hno j n1 c')

theorem seen_set (l : List Req) (i n : Nat) (a : At) :
    (l.set i ⟨n, a⟩).map (fun t => (⟨t.node, t.at_.seen⟩ : Thread)) = (l.map (fun t => ⟨t.node, t.at_.seen⟩)).set i ⟨n, a.seen⟩ := by
  rw [List.map_set]

theorem seen_eq (s : State) : seen s =
    { pool := s.pool, next := s.next, closed := s.closed, threads := s.reqs.map (fun t => ⟨t.node, t.at_.seen⟩) } := rfl

theorem seen_locked (s : State) (c : Nat) : locked (seen s) c = busy s c := by
  unfold locked busy
  rw [seen_eq]
  dsimp only
  rw [List.any_map]
  congr 1
  funext t
  obtain ⟨n, a⟩ := t
  cases a with
  | pc p => simp only [Function.comp, At.seen]; rw [Bool.eq_iff_iff]; simp
  | removing c => simp only [Function.comp, At.seen]; rw [Bool.eq_iff_iff]; simp

theorem seen_pc (p : Pc) : (At.pc p).seen = p := rfl
theorem seen_removing (c : Nat) : (At.removing c).seen = .failed := rfl

theorem seen_step (s : State) (h : Removal s) (i : Nat) (ok : Bool) :
    seen (step s i ok) = seen s ∨ ∃ ok', seen (step s i ok) = Pool.step (seen s) i ok' := by
  cases ht : s.reqs[i]? with
  | none => left; unfold step; rw [ht]
  | some t =>
    obtain ⟨n, a⟩ := t
    have hth : (seen s).threads[i]? = some ⟨n, a.seen⟩ := by
      rw [seen_eq]; dsimp only; rw [List.getElem?_map, ht]; rfl
    rcases step_move s i n a ok ht with e | hmv
    · left; rw [e]
    · generalize step s i ok = s' at hmv
      cases hmv with
      | found c hh hp =>
        right
        refine ⟨true, ?_⟩
        simp only [Pool.step, hth, seen_pc, seen_removing]
        rw [seen_eq, seen_eq]
        simp only [hp, seen_set, seen_pc, seen_removing]
      | missing hh hp =>
        right
        refine ⟨true, ?_⟩
        simp only [Pool.step, hth, seen_pc, seen_removing]
        rw [seen_eq, seen_eq]
        simp only [hp, seen_set, seen_pc, seen_removing]
      | dialled =>
        right
        refine ⟨true, ?_⟩
        simp only [Pool.step, hth, seen_pc, seen_removing]
        rw [seen_eq, seen_eq]
        simp only [seen_set, seen_pc, seen_removing, ↓reduceIte]
      | undialled =>
        right
        refine ⟨false, ?_⟩
        simp only [Pool.step, hth, seen_pc, seen_removing]
        rw [seen_eq, seen_eq]
        simp only [seen_set, seen_pc, seen_removing, Bool.false_eq_true, ↓reduceIte]
      | stored c hh hp =>
        right
        refine ⟨true, ?_⟩
        simp only [Pool.step, hth, seen_pc, seen_removing]
        rw [seen_eq, seen_eq]
        simp only [hp, seen_set, seen_pc, seen_removing]
      | surplus c c' hh hp =>
        right
        refine ⟨true, ?_⟩
        simp only [Pool.step, hth, seen_pc, seen_removing]
        rw [seen_eq, seen_eq]
        simp only [hp, seen_set, seen_pc, seen_removing]
      | talk c hb =>
        right
        refine ⟨true, ?_⟩
        simp only [Pool.step, hth, seen_pc, seen_removing, seen_locked, hb, Bool.false_eq_true, ↓reduceIte]
        rw [seen_eq, seen_eq]
        simp only [seen_set, seen_pc, seen_removing]
      | answered c hc =>
        right
        refine ⟨true, ?_⟩
        simp only [Pool.step, hth, seen_pc, seen_removing]
        rw [seen_eq, seen_eq]
        simp only [seen_set, seen_pc, seen_removing, hc, not_false_eq_true, and_self, ↓reduceIte]
      | failed c =>
        right
        refine ⟨false, ?_⟩
        simp only [Pool.step, hth, seen_pc, seen_removing]
        rw [seen_eq, seen_eq]
        simp only [seen_set, seen_pc, seen_removing, Bool.false_eq_true, false_and, ↓reduceIte]
      | nothing hh hp =>
        right
        refine ⟨true, ?_⟩
        simp only [Pool.step, hth, seen_pc, seen_removing]
        rw [seen_eq, seen_eq]
        simp only [hp, seen_set, seen_pc, seen_removing]
      | remove c hh hp =>
        left
        rw [seen_eq, seen_eq]
        simp only [seen_set, seen_pc, seen_removing]
        congr 1
        apply List.ext_getElem?
        intro j
        rw [List.getElem?_set]
        split
        · rename_i e
          subst e
          rw [if_pos (by rw [List.length_map]; exact (List.getElem?_eq_some_iff.1 ht).1), List.getElem?_map, ht]
          rfl
        · rfl
      | removed c hb =>
        right
        refine ⟨true, ?_⟩
        have hp := h.1 _ (List.mem_of_getElem? ht) c rfl
        simp only [Pool.step, hth, seen_pc, seen_removing]
        have hp' : mget (seen s).pool n = some c := hp
        simp only [hp', seen_locked, hb, Bool.false_eq_true, ↓reduceIte]
        rw [seen_eq, seen_eq]
        simp only [seen_set, seen_pc, seen_removing]

theorem removal_init (nodes : List Nat) : Removal (init nodes) := by
  have hn : ∀ t ∈ (init nodes).reqs, ∀ c, t.at_ ≠ .removing c := by
    intro t ht c hc
    simp only [init, List.mem_map] at ht
    obtain ⟨n, _, rfl⟩ := ht
    cases hc
  exact ⟨fun t ht c hc => absurd hc (hn t ht c), fun i j n n' c c' hi _ => absurd rfl (hn _ (List.mem_of_getElem? hi) c)⟩

theorem seen_run (s : State) (h : Removal s) (l : List (Nat × Bool)) : ∃ l', seen (run s l) = Pool.run (seen s) l' := by
  induction l generalizing s with
  | nil => exact ⟨[], rfl⟩
  | cons e l ih =>
    obtain ⟨i, ok⟩ := e
    obtain ⟨l', h'⟩ := ih (step s i ok) (removal_step s h i ok)
    rcases seen_step s h i ok with e | ⟨ok', e⟩
    · exact ⟨l', by rw [← e]; exact h'⟩
    · exact ⟨(i, ok') :: l', by show _ = Pool.run (Pool.step (seen s) i ok') l'; rw [← e]; exact h'⟩

end FcRetrieval.Pool.Wait
