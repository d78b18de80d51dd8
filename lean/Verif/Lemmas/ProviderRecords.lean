import Verif.Spec.ProviderRecords
import Verif.Lemmas.Maps
/-!
# Invariant of the records of a provider
-/
set_option linter.unusedSimpArgs false

namespace FcRetrieval.Provider.Records

/-- The recorded offers of one gateway. -/
def offersOf (r : Recs) (g : Nat) : List Off := (mget r.offers g).getD []

/-- What the request has put into `NodeOfferMap` for gateway `g`. -/
def Job.put (g : Nat) : Job → List Off
  | .dht g' _ all k half => if g' = g then all.take (k + if half then 1 else 0) else []
  | .group g' o recorded => if g' = g ∧ recorded = true then [o] else []
  | _ => []

theorem offersOf_addOffer (r : Recs) (g g' : Nat) (o : Off) :
    offersOf (addOffer r g o) g' = offersOf r g' ++ if g = g' then [o] else [] := by
  unfold offersOf addOffer
  dsimp only
  rw [mget_mset]
  by_cases h : g = g'
  · subst h; simp
  · simp [h]

theorem offersOf_addAck (r : Recs) (c g a g' : Nat) : offersOf (addAck r c g a) g' = offersOf r g' := rfl

theorem acknowledged_addOffer (r : Recs) (g : Nat) (o : Off) (c g' : Nat) :
    acknowledged (addOffer r g o) c g' = acknowledged r c g' := rfl

theorem acknowledged_addAck (r : Recs) (c g a c' g' : Nat) :
    acknowledged (addAck r c g a) c' g' = if c = c' ∧ g = g' then some a else acknowledged r c' g' := by
  unfold acknowledged addAck
  dsimp only
  rw [mget_mset]
  by_cases h : c = c'
  · subst h
    simp only [↓reduceIte, true_and]
    rw [mget_mset]
    by_cases h' : g = g'
    · simp [h']
    · simp only [h', ↓reduceIte]
      cases mget r.acks c <;> simp [mget]
  · simp [h]

/-- A step of a request: what it adds for each gateway, what acknowledgement it sets. -/
def Acts (r : Recs) (j : Job) (r' : Recs) (j' : Job) : Prop :=
    (∀ g, ∃ d, offersOf r' g = offersOf r g ++ d ∧ j'.put g = j.put g ++ d) ∧
    (∀ g, j'.toGateway g = j.toGateway g) ∧ (∀ c g a, j'.acksFor c g a ↔ j.acksFor c g a) ∧
    (((∀ c g, acknowledged r' c g = acknowledged r c g) ∧
        ∀ g a all k half, j' = .dht g a all k half → ∃ half', j = .dht g a all k half') ∨
      ∃ g a all k o, j = .dht g a all k true ∧ all[k]? = some o ∧ j' = .dht g a all (k + 1) false ∧
        ∀ c g', acknowledged r' c g' = if o.cid = c ∧ g = g' then some a else acknowledged r c g')

theorem acts_still (r : Recs) (j j' : Job) (h1 : ∀ g, j'.put g = j.put g) (h2 : ∀ g, j'.toGateway g = j.toGateway g)
    (h3 : ∀ c g a, j'.acksFor c g a ↔ j.acksFor c g a)
    (h4 : ∀ g a all k half, j' = .dht g a all k half → ∃ half', j = .dht g a all k half') : Acts r j r j' :=
  ⟨fun g => ⟨[], by simp [h1]⟩, h2, h3, .inl ⟨fun _ _ => rfl, h4⟩⟩

theorem act_cases (r : Recs) (j : Job) : Acts r j (act r j).1 (act r j).2 := by
  cases j with
  | dht g a all k half =>
    cases ho : all[k]? with
    | none =>
      have e : act r (.dht g a all k half) = (r, .dht g a all k half) := by simp only [act, ho]
      rw [e]
      exact acts_still r _ _ (fun _ => rfl) (fun _ => rfl) (fun _ _ _ => Iff.rfl) (fun g a all k half h => ⟨half, h⟩)
    | some o =>
      cases half with
      | false =>
        have e : act r (.dht g a all k false) = (addOffer r g o, .dht g a all k true) := by simp [act, ho]
        rw [e]
        refine ⟨fun g' => ⟨if g = g' then [o] else [], offersOf_addOffer r g g' o, ?_⟩, fun _ => rfl, fun _ _ _ => Iff.rfl,
          .inl ⟨fun c g' => acknowledged_addOffer r g o c g', fun g1 a1 all1 k1 half1 h => ?_⟩⟩
        · simp only [Job.put, ↓reduceIte, Bool.false_eq_true, Nat.add_zero]
          by_cases h : g = g'
          · simp only [h, ↓reduceIte]
            rw [List.take_add_one, ho]
            rfl
          · simp [h]
        · cases h; exact ⟨_, rfl⟩
      | true =>
        have e : act r (.dht g a all k true) = (addAck r o.cid g a, .dht g a all (k + 1) false) := by simp [act, ho]
        rw [e]
        refine ⟨fun g' => ⟨[], by simp [offersOf_addAck], by simp [Job.put]⟩, fun _ => rfl, fun _ _ _ => Iff.rfl,
          .inr ⟨g, a, all, k, o, rfl, ho, rfl, fun c g' => acknowledged_addAck r o.cid g a c g'⟩⟩
  | group g o recorded =>
    cases recorded with
    | true => exact acts_still r _ _ (fun _ => rfl) (fun _ => rfl) (fun _ _ _ => Iff.rfl) (fun _ _ _ _ _ h => by cases h)
    | false =>
      have e : act r (.group g o false) = (addOffer r g o, .group g o true) := rfl
      rw [e]
      refine ⟨fun g' => ⟨if g = g' then [o] else [], offersOf_addOffer r g g' o, ?_⟩, fun _ => rfl, fun _ _ _ => Iff.rfl,
        .inl ⟨fun c g' => acknowledged_addOffer r g o c g', fun _ _ _ _ _ h => by cases h⟩⟩
      simp [Job.put]
  | list gs => exact acts_still r _ _ (fun _ => rfl) (fun _ => rfl) (fun _ _ _ => Iff.rfl) (fun _ _ _ _ _ h => by cases h)
  | listed gs l => exact acts_still r _ _ (fun _ => rfl) (fun _ => rfl) (fun _ _ _ => Iff.rfl) (fun _ _ _ _ _ h => by cases h)
  | ask c g => exact acts_still r _ _ (fun _ => rfl) (fun _ => rfl) (fun _ _ _ => Iff.rfl) (fun _ _ _ _ _ h => by cases h)
  | asked c g a => exact acts_still r _ _ (fun _ => rfl) (fun _ => rfl) (fun _ _ _ => Iff.rfl) (fun _ _ _ _ _ h => by cases h)

theorem flatMap_set (f : Job → List Off) : ∀ (l : List Job) (i : Nat) (j j' : Job) (d : List Off), l[i]? = some j → f j' = f j ++ d →
    ((l.set i j').flatMap f).Perm (l.flatMap f ++ d)
  | [], i, j, j', d, h, _ => by simp at h
  | a :: l, 0, j, j', d, h, hf => by
    simp at h
    subst h
    simp only [List.set_cons_zero, List.flatMap_cons, hf, List.append_assoc]
    exact List.Perm.append_left _ List.perm_append_comm
  | a :: l, i + 1, j, j', d, h, hf => by
    have ih := flatMap_set f l i j j' d (by simpa using h) hf
    simp only [List.set_cons_succ, List.flatMap_cons, List.append_assoc]
    exact List.Perm.append_left _ ih

structure Inv (r : Recs) (s : State) : Prop where
  all : ∀ g, (offersOf s.recs g).Perm (offersOf r g ++ s.jobs.flatMap (Job.put g))
  order : ∀ j ∈ s.jobs, ∀ g, (j.put g).Sublist (offersOf s.recs g)
  acked : ∀ g a all k half, .dht g a all k half ∈ s.jobs → ∀ o ∈ all.take k, ∃ a', acknowledged s.recs o.cid g = some a'
  real : ∀ c g a, acknowledged s.recs c g = some a → acknowledged r c g = some a ∨ ∃ j ∈ s.jobs, j.acksFor c g a

theorem inv_init (r : Recs) (jobs : List Job) (h : ∀ j ∈ jobs, j.new) : Inv r ⟨r, jobs⟩ := by
  have hput : ∀ j ∈ jobs, ∀ g, j.put g = [] := by
    intro j hj g
    have := h j hj
    cases j with
    | dht g' a all k half => simp only [Job.new] at this; simp [Job.put, this.1, this.2]
    | group g' o rec => simp only [Job.new] at this; simp [Job.put, this]
    | list gs => rfl
    | listed gs l => rfl
    | ask c g => rfl
    | asked c g a => rfl
  refine ⟨fun g => ?_, fun j hj g => ?_, fun g a all k half hj o ho => ?_, fun c g a ha => .inl ha⟩
  · have : jobs.flatMap (Job.put g) = [] := by
      rw [List.flatMap_eq_nil_iff]
      exact fun j hj => hput j hj g
    dsimp only
    rw [this, List.append_nil]
  · rw [hput j hj g]; exact List.nil_sublist _
  · have := h _ hj
    simp only [Job.new] at this
    rw [this.1] at ho
    simp at ho

theorem inv_step (r : Recs) (s : State) (h : Inv r s) (i : Nat) : Inv r (step s i) := by
  unfold step
  cases hj : s.jobs[i]? with
  | none => exact h
  | some j =>
    dsimp only
    obtain ⟨h1, h2, h3, h4⟩ := act_cases s.recs j
    have hin : ∀ x, x ∈ s.jobs.set i (act s.recs j).2 → x ∈ s.jobs ∨ x = (act s.recs j).2 := fun x hx => List.mem_or_eq_of_mem_set hx
    have hmem := List.mem_of_getElem? hj
    have hl : i < s.jobs.length := (List.getElem?_eq_some_iff.1 hj).1
    refine ⟨fun g => ?_, fun x hx g => ?_, fun g a all k half hx o ho => ?_, fun c g a ha => ?_⟩
    · obtain ⟨d, e1, e2⟩ := h1 g
      dsimp only
      rw [e1]
      refine ((h.all g).append_right d).trans ?_
      rw [List.append_assoc]
      exact List.Perm.append_left _ (flatMap_set _ _ _ _ _ d hj e2).symm
    · obtain ⟨d, e1, e2⟩ := h1 g
      dsimp only
      rw [e1]
      rcases hin x hx with hx | rfl
      · exact (h.order x hx g).trans (List.sublist_append_left _ _)
      · rw [e2]
        exact (h.order j hmem g).append (List.Sublist.refl d)
    · dsimp only
      have hold : ∀ (c g : Nat), (∃ a', acknowledged s.recs c g = some a') → ∃ a', acknowledged (act s.recs j).1 c g = some a' := by
        rintro c g ⟨a', ha⟩
        rcases h4 with h4 | ⟨g0, a0, all0, k0, o0, _, _, _, h4⟩
        · exact ⟨a', by rw [h4.1, ha]⟩
        · rw [h4]
          split
          · exact ⟨_, rfl⟩
          · exact ⟨a', ha⟩
      rcases hin _ hx with hx | hx
      · exact hold _ _ (h.acked g a all k half hx o ho)
      · rcases h4 with h4 | ⟨g0, a0, all0, k0, o0, ej, ho0, en, h4⟩
        · obtain ⟨half', e⟩ := h4.2 g a all k half hx.symm
          rw [e] at hmem
          exact hold _ _ (h.acked g a all k half' hmem o ho)
        · rw [en] at hx
          cases hx
          rw [List.take_add_one, ho0] at ho
          rcases List.mem_append.1 ho with ho | ho
          · rw [ej] at hmem
            exact hold _ _ (h.acked g a all k0 true hmem o ho)
          · simp at ho
            subst ho
            exact ⟨a, by rw [h4]; simp⟩
    · have hkeep : (∃ x ∈ s.jobs, x.acksFor c g a) → ∃ x ∈ s.jobs.set i (act s.recs j).2, x.acksFor c g a := by
        rintro ⟨x, hx, hax⟩
        obtain ⟨y, hy⟩ := List.mem_iff_getElem?.1 hx
        by_cases hyi : y = i
        · subst hyi
          rw [hj] at hy
          cases hy
          exact ⟨_, List.mem_of_getElem? (List.getElem?_set_self hl), (h3 c g a).2 hax⟩
        · exact ⟨x, List.mem_of_getElem? (by rw [List.getElem?_set_ne (Ne.symm hyi)]; exact hy), hax⟩
      dsimp only at ha
      rcases h4 with h4 | ⟨g0, a0, all0, k0, o0, ej, ho0, en, h4⟩
      · rw [h4.1] at ha
        exact (h.real c g a ha).imp id hkeep
      · rw [h4] at ha
        split at ha
        · rename_i e
          cases ha
          right
          apply hkeep
          refine ⟨j, hmem, ?_⟩
          rw [ej]
          exact ⟨e.2, rfl, o0, List.mem_of_getElem? ho0, e.1⟩
        · exact (h.real c g a ha).imp id hkeep

theorem inv_run (r : Recs) (s : State) (h : Inv r s) (l : List Nat) : Inv r (run s l) := by
  induction l generalizing s with
  | nil => exact h
  | cons i l ih => exact ih _ (inv_step r s h i)

/-- A request that is over stays as it is. -/
theorem over_act (r : Recs) (j : Job) (h : j.over) : act r j = (r, j) := by
  cases j with
  | dht g a all k half =>
    have : all[k]? = none := List.getElem?_eq_none (Nat.le_of_eq h.symm)
    simp only [act, this]
  | group g o rec => simp only [Job.over] at h; subst h; rfl
  | list gs => exact absurd h id
  | listed gs l => rfl
  | ask c g => exact absurd h id
  | asked c g a => rfl

theorem other_step (s : State) (i y : Nat) (h : y ≠ i) : (step s i).jobs[y]? = s.jobs[y]? := by
  unfold step
  split
  · rfl
  · dsimp only
    rw [List.getElem?_set_ne (Ne.symm h)]

theorem over_step (s : State) (i y : Nat) (j : Job) (hj : s.jobs[y]? = some j) (h : j.over) : (step s i).jobs[y]? = some j := by
  by_cases hy : y = i
  · subst hy
    unfold step
    rw [hj]
    dsimp only
    rw [over_act _ j h, List.getElem?_set_self (List.getElem?_eq_some_iff.1 hj).1]
  · rw [other_step s i y hy, hj]

theorem over_run (s : State) (l : List Nat) (y : Nat) (j : Job) (hj : s.jobs[y]? = some j) (h : j.over) :
    (run s l).jobs[y]? = some j := by
  induction l generalizing s with
  | nil => exact hj
  | cons i l ih => exact ih _ (over_step s i y j hj h)

theorem over_put (j : Job) (h : j.over) (g : Nat) : j.put g = j.toGateway g := by
  cases j with
  | dht g' a all k half =>
    simp only [Job.over] at h
    simp only [Job.put, Job.toGateway]
    split
    · rw [List.take_of_length_le (by omega)]
    · rfl
  | group g' o rec => simp only [Job.over] at h; simp [Job.put, Job.toGateway, h]
  | list gs => rfl
  | listed gs l => rfl
  | ask c g => rfl
  | asked c g a => rfl

theorem sub_published (r : Recs) (gs : List Nat) (g : Nat) (hg : g ∈ gs ∨ gs = []) : (offersOf r g).Sublist (published r gs) := by
  unfold published
  rcases hg with hg | rfl
  · rw [if_pos (List.length_pos_of_mem hg)]
    have : (offersOf r g) ∈ gs.map (fun g => (mget r.offers g).getD []) := List.mem_map.2 ⟨g, hg, rfl⟩
    rw [List.flatMap_def]
    exact List.sublist_flatten_of_mem this
  · rw [if_neg (by simp)]
    unfold offersOf
    cases h : mget r.offers g with
    | none => exact List.nil_sublist _
    | some l =>
      have hm := mget_some_mem h
      rw [List.flatMap_def]
      exact List.sublist_flatten_of_mem (List.mem_map.2 ⟨_, hm, rfl⟩)

end FcRetrieval.Provider.Records
