import Verif.Lemmas.Identity
/-!
# C170: a node's messages carry one identity, however requests overlap
-/
set_option linter.unusedSimpArgs false

namespace FcRetrieval.Identity

/-- C170, in part: if no request meets another one in the middle of writing or reading the identity, then for any number of requests,
and any number of identities that are set meanwhile, every message that is sent carries the identifier, key and version of one
identity: the one the node had or one of those set; and no request crashes. -/
theorem C170_apart_partial (a : Ident) (ts : List Thread) (h : ∀ t ∈ ts, t.arrived) (l : List Nat)
    (ha : AllApart ⟨.of a, ts⟩ l) :
    (∀ m, .sent m ∈ (run ⟨.of a, ts⟩ l).threads → m = a ∨ .setter m 0 ∈ ts) ∧ .crashed ∉ (run ⟨.of a, ts⟩ l).threads := by
  let S : List Ident := a :: ts.filterMap (fun t => match t with | .setter n 0 => some n | _ => none)
  have hS : ∀ m, m ∈ S → m = a ∨ .setter m 0 ∈ ts := by
    intro m hm
    rcases List.mem_cons.1 hm with rfl | hm
    · exact .inl rfl
    · obtain ⟨t, ht, he⟩ := List.mem_filterMap.1 hm
      right
      split at he
      · cases he; exact ht
      · cases he
  have hi : Inv S ⟨.of a, ts⟩ := by
    refine ⟨fun n k ht => ?_, fun m ht => ?_, ⟨fun ht => h _ ht, fun ht => h _ ht⟩, a, List.mem_cons_self,
      .inl ⟨fun t ht => ?_, rfl⟩⟩
    · have := h _ ht
      match k, this with
      | 0, _ => exact List.mem_cons_of_mem _ (List.mem_filterMap.2 ⟨_, ht, rfl⟩)
      | k + 1, h => exact absurd h (by simp [Thread.arrived])
    · exact absurd (h _ ht) (by simp [Thread.arrived])
    · have := h _ ht
      match t, this with
      | .setter n 0, _ => exact ⟨rfl, trivial⟩
      | .setter n (k + 1), h => exact absurd h (by simp [Thread.arrived])
      | .admin, _ => exact ⟨rfl, trivial⟩
      | .start, _ => exact ⟨rfl, trivial⟩
  have hr := inv_run hi l ha
  exact ⟨fun m hm => hS m (hr.sent m hm), hr.alive.1⟩

/-- C170, in part: while no request sets an identity, every message of any number of overlapping requests carries the identity the
node has. -/
theorem C170_steady_partial (a : Ident) (ts : List Thread) (h : ∀ t ∈ ts, t.arrived) (hs : ∀ t ∈ ts, t.sets = false)
    (l : List Nat) (m : Ident) (hm : .sent m ∈ (run ⟨.of a, ts⟩ l).threads) : m = a := by
  have hstep : ∀ (s : State) (i : Nat), (∀ t ∈ s.threads, t.sets = false) → ∀ t ∈ (step s i).threads, t.sets = false := by
    intro s i hs t ht
    unfold step at ht
    split at ht
    · exact hs t ht
    · rename_i u hu
      rcases List.mem_or_eq_of_mem_set ht with h' | h'
      · exact hs t h'
      · subst h'
        have := hs u (List.mem_of_getElem? hu)
        cases u with
        | setter n k => cases this
        | admin => simp only [act]; split <;> rfl
        | start => simp only [act]; split <;> rfl
        | named x => simp only [act]; split <;> rfl
        | keyed x y => simp only [act]; split <;> rfl
        | sent m => rfl
        | refused => rfl
        | crashed => rfl
  have hall : ∀ (l : List Nat) (s : State), (∀ t ∈ s.threads, t.sets = false) → AllApart s l := by
    intro l
    induction l with
    | nil => intro s _; trivial
    | cons i l ih =>
      intro s hs
      refine ⟨fun j t u ht hu hne => ⟨?_, fun h => ?_⟩, ih _ (hstep s i hs)⟩
      · have := hs u (List.mem_of_getElem? hu)
        cases u <;> simp [Thread.sets, Thread.writing] at this ⊢
      · rw [hs t (List.mem_of_getElem? ht)] at h
        cases h
  rcases (C170_apart_partial a ts h l (hall l _ hs)).1 m hm with h | h
  · exact h
  · have := hs _ h
    cases this

/-- Three requests keep apart: an answer with the old identity, the new identity set, an answer with the new one. -/
example : let s : State := ⟨.of ⟨1, 2, 3⟩, [.setter ⟨4, 5, 6⟩ 0, .start, .admin]⟩
    let l := [1, 1, 1, 0, 0, 0, 2, 2, 2, 2]
    AllApart s l ∧ (run s l).threads = [.setter ⟨4, 5, 6⟩ 3, .sent ⟨1, 2, 3⟩, .sent ⟨4, 5, 6⟩] := by
  refine ⟨?_, by decide⟩
  have key : ∀ (s : State) (i : Nat),
      (match s.threads[i]? with
        | none => true
        | some t => (List.range s.threads.length).all (fun j => j == i ||
            match s.threads[j]? with
            | none => true
            | some u => !u.writing && (!t.sets || !u.reading))) = true → Apart s i := by
    intro s i h j t u ht hu hne
    rw [ht] at h
    dsimp only at h
    rw [List.all_eq_true] at h
    have := h j (List.mem_range.2 (List.getElem?_eq_some_iff.1 hu).1)
    rw [hu] at this
    simp only [Bool.or_eq_true, beq_iff_eq, Bool.and_eq_true, Bool.not_eq_true'] at this
    rcases this with h' | ⟨h1, h2⟩
    · exact absurd h' hne
    · refine ⟨h1, fun hs => ?_⟩
      rcases h2 with h2 | h2
      · rw [hs] at h2; cases h2
      · exact h2
  exact ⟨key _ _ (by decide), key _ _ (by decide), key _ _ (by decide), key _ _ (by decide), key _ _ (by decide),
    key _ _ (by decide), key _ _ (by decide), key _ _ (by decide), key _ _ (by decide), key _ _ (by decide), trivial⟩

/-- C170 is false: while a new identity is being set, a message can carry any mixture of the old and the new one: for any two
identities and any choice of which parts are new there is an interleaving that sends it. -/
theorem C170_refuted (a b : Ident) (newId newKey newVer : Bool) :
    ∃ l, (run ⟨.of a, [.setter b 0, .start]⟩ l).threads =
      [.setter b 3, .sent ⟨if newId then b.id else a.id, if newKey then b.key else a.key, if newVer then b.ver else a.ver⟩] := by
  cases newId <;> cases newKey <;> cases newVer
  · exact ⟨[1, 1, 1, 0, 0, 0], rfl⟩
  · exact ⟨[1, 1, 0, 0, 0, 1], rfl⟩
  · exact ⟨[1, 0, 0, 1, 1, 0], rfl⟩
  · exact ⟨[1, 0, 0, 0, 1, 1], rfl⟩
  · exact ⟨[0, 1, 1, 1, 0, 0], rfl⟩
  · exact ⟨[0, 1, 1, 0, 0, 1], rfl⟩
  · exact ⟨[0, 0, 1, 1, 1, 0], rfl⟩
  · exact ⟨[0, 0, 0, 1, 1, 1], rfl⟩

/-- C170 is false, and the mixture can stay: two requests that set identities and overlap can leave any mixture of the two behind,
and all messages sent from then on carry it. -/
theorem C170_lasting_refuted (c : Cells) (a b : Ident) (idB keyB verB : Bool) :
    ∃ l m, m = ⟨if idB then b.id else a.id, if keyB then b.key else a.key, if verB then b.ver else a.ver⟩ ∧
      run ⟨c, [.setter a 0, .setter b 0]⟩ l = ⟨.of m, [.setter a 3, .setter b 3]⟩ ∧
      ∀ (ts : List Thread) (l' : List Nat) (m' : Ident), (∀ t ∈ ts, t.arrived) → (∀ t ∈ ts, t.sets = false) →
        .sent m' ∈ (run ⟨.of m, ts⟩ l').threads → m' = m := by
  have h : ∃ l, run ⟨c, [.setter a 0, .setter b 0]⟩ l =
      ⟨.of ⟨if idB then b.id else a.id, if keyB then b.key else a.key, if verB then b.ver else a.ver⟩, [.setter a 3, .setter b 3]⟩ := by
    cases idB <;> cases keyB <;> cases verB
    · exact ⟨[1, 0, 1, 0, 1, 0], rfl⟩
    · exact ⟨[1, 0, 1, 0, 0, 1], rfl⟩
    · exact ⟨[1, 0, 0, 1, 1, 0], rfl⟩
    · exact ⟨[1, 0, 0, 1, 0, 1], rfl⟩
    · exact ⟨[0, 1, 1, 0, 1, 0], rfl⟩
    · exact ⟨[0, 1, 1, 0, 0, 1], rfl⟩
    · exact ⟨[0, 1, 0, 1, 1, 0], rfl⟩
    · exact ⟨[0, 1, 0, 1, 0, 1], rfl⟩
  obtain ⟨l, hl⟩ := h
  exact ⟨l, _, rfl, hl, fun ts l' m' h1 h2 h3 => C170_steady_partial _ ts h1 h2 l' m' h3⟩

/-- C170 is false also for a node that is set up for the first time: a request to the admin interface that arrives when the key has been set and
the version has not finds a key, and crashes. -/
theorem C170_crash_refuted (a : Ident) : ∃ l, (run ⟨fresh, [.setter a 0, .admin]⟩ l).threads = [.setter a 3, .crashed] :=
  ⟨[0, 0, 1, 1, 1, 1, 0], rfl⟩

end FcRetrieval.Identity
