import Verif.Lemmas.ProviderRecords
/-!
# C171: what gateways have acknowledged is in the provider's records, however requests overlap
-/
set_option linter.unusedSimpArgs false

namespace FcRetrieval.Provider.Records

/-- C171: when all of any number of overlapping requests are over, the offers shown for a gateway are those shown before together
with those published to it, each as often as it was published: none is lost, none is made up. -/
theorem C171_complete (r : Recs) (jobs : List Job) (h : ∀ j ∈ jobs, j.new) (l : List Nat)
    (hd : ∀ j ∈ (run ⟨r, jobs⟩ l).jobs, j.over) (g : Nat) :
    (shown (run ⟨r, jobs⟩ l) g).Perm (shown ⟨r, jobs⟩ g ++ jobs.flatMap (Job.toGateway g)) := by
  have hi := inv_run r _ (inv_init r jobs h) l
  have hsh : ∀ s : State, shown s g = offersOf s.recs g := by
    intro s
    simp [shown, published, offersOf]
  have hto : ∀ (l : List Nat) (s : State), (run s l).jobs.map (Job.toGateway g) = s.jobs.map (Job.toGateway g) := by
    intro l
    induction l with
    | nil => intro s; rfl
    | cons i l ih =>
      intro s
      show (run (step s i) l).jobs.map _ = _
      rw [ih]
      unfold step
      split
      · rfl
      · rename_i j hj
        dsimp only
        rw [List.map_set, (act_cases s.recs j).2.1 g]
        apply List.ext_getElem?
        intro y
        rw [List.getElem?_set]
        split
        · rename_i e
          subst e
          rw [if_pos (by rw [List.length_map]; exact (List.getElem?_eq_some_iff.1 hj).1), List.getElem?_map, hj]
          rfl
        · rfl
  rw [hsh, hsh]
  refine (hi.all g).trans ?_
  have : (run ⟨r, jobs⟩ l).jobs.flatMap (Job.put g) = jobs.flatMap (Job.toGateway g) := by
    rw [List.flatMap_def, List.flatMap_def]
    have e := hto l ⟨r, jobs⟩
    dsimp only at e
    rw [← e]
    congr 1
    exact List.map_congr_left (fun j hj => over_put j (hd j hj) g)
  rw [this]

/-- C171: once a request that publishes offers to a gateway is over, whoever asks for the offers of that gateway, or of all, is shown
all of them and in the order in which they were published, whatever else is going on. -/
theorem C171_listed (r : Recs) (jobs : List Job) (h : ∀ j ∈ jobs, j.new) (l l' : List Nat) (x i : Nat) (j : Job)
    (hx : (run ⟨r, jobs⟩ l).jobs[x]? = some j) (ho : j.over) (gs gs' : List Nat) (res : List Off)
    (hi : (run ⟨r, jobs⟩ l).jobs[i]? = some (.list gs))
    (hr : (run (run ⟨r, jobs⟩ l) l').jobs[i]? = some (.listed gs' res)) (g : Nat) (hg : g ∈ gs ∨ gs = []) :
    (j.toGateway g).Sublist res := by
  have hinv := inv_run r _ (inv_init r jobs h) l
  generalize run ⟨r, jobs⟩ l = s at *
  induction l' generalizing s with
  | nil =>
    simp only [run] at hr
    rw [hi] at hr
    cases hr
  | cons y l' ih =>
    by_cases hy : y = i
    · subst hy
      have hs : (step s y).jobs[y]? = some (.listed gs (published s.recs gs)) := by
        unfold step
        rw [hi]
        dsimp only
        rw [List.getElem?_set_self (List.getElem?_eq_some_iff.1 hi).1]
        rfl
      have := over_run _ l' y _ hs trivial
      rw [show run s (y :: l') = run (step s y) l' from rfl, this] at hr
      cases hr
      rw [← over_put j ho g]
      exact (hinv.order j (List.mem_of_getElem? hx) g).trans (sub_published s.recs gs g hg)
    · exact ih (step s y) (over_step s y x j hx ho) (by rw [other_step s y i (Ne.symm hy)]; exact hi) hr (inv_step r s hinv y)

/-- C171: once a request that publishes DHT offers to a gateway is over, a client that asks for the acknowledgement for one of their
CIDs by that gateway is given one, whatever else is going on; and it is an acknowledgement by that gateway of offers among which is
one for that CID, or one that was recorded before. -/
theorem C171_ack (r : Recs) (jobs : List Job) (h : ∀ j ∈ jobs, j.new) (l l' : List Nat) (x i : Nat) (j : Job)
    (hx : (run ⟨r, jobs⟩ l).jobs[x]? = some j) (ho : j.over) (cid g a : Nat) (ha : j.acksFor cid g a) (cid' g' : Nat)
    (res : Option Nat) (hi : (run ⟨r, jobs⟩ l).jobs[i]? = some (.ask cid g))
    (hr : (run (run ⟨r, jobs⟩ l) l').jobs[i]? = some (.asked cid' g' res)) :
    ∃ a', res = some a' ∧ (acknowledged r cid g = some a' ∨ ∃ j ∈ (run (run ⟨r, jobs⟩ l) l').jobs, j.acksFor cid g a') := by
  have hinv := inv_run r _ (inv_init r jobs h) l
  generalize run ⟨r, jobs⟩ l = s at *
  have hkeep : ∀ (l : List Nat) (s : State) (a' : Nat), (∃ j ∈ s.jobs, j.acksFor cid g a') → ∃ j ∈ (run s l).jobs, j.acksFor cid g a' := by
    intro l
    induction l with
    | nil => intro s a' h; exact h
    | cons y l ih =>
      intro s a' h
      apply ih (step s y)
      obtain ⟨j, hj, hja⟩ := h
      obtain ⟨z, hz⟩ := List.mem_iff_getElem?.1 hj
      by_cases hzy : z = y
      · subst hzy
        refine ⟨(act s.recs j).2, ?_, ((act_cases s.recs j).2.2.1 cid g a').2 hja⟩
        unfold step
        rw [hz]
        exact List.mem_of_getElem? (List.getElem?_set_self (List.getElem?_eq_some_iff.1 hz).1)
      · exact ⟨j, List.mem_of_getElem? (by rw [other_step s y z hzy]; exact hz), hja⟩
  induction l' generalizing s with
  | nil =>
    simp only [run] at hr
    rw [hi] at hr
    cases hr
  | cons y l' ih =>
    by_cases hy : y = i
    · subst hy
      have hs : (step s y).jobs[y]? = some (.asked cid g (acknowledged s.recs cid g)) := by
        unfold step
        rw [hi]
        dsimp only
        rw [List.getElem?_set_self (List.getElem?_eq_some_iff.1 hi).1]
        rfl
      have := over_run _ l' y _ hs trivial
      rw [show run s (y :: l') = run (step s y) l' from rfl, this] at hr
      cases hr
      cases j with
      | dht g0 a0 all k half =>
        obtain ⟨rfl, rfl, o, hoo, rfl⟩ := ha
        obtain ⟨a', e⟩ := hinv.acked g0 a0 all k half (List.mem_of_getElem? hx) o (by
          rw [show k = all.length from ho, List.take_length]; exact hoo)
        exact ⟨a', e, (hinv.real _ _ _ e).imp id (fun h => hkeep (y :: l') s a' h)⟩
      | group g0 o rec => exact absurd ha id
      | list gs => exact absurd ha id
      | listed gs l => exact absurd ha id
      | ask c g => exact absurd ha id
      | asked c g a => exact absurd ha id
    · exact ih (step s y) (over_step s y x j hx ho) (by rw [other_step s y i (Ne.symm hy)]; exact hi) hr (inv_step r s hinv y)

/-- C171: an acknowledgement given to a client is one by that gateway of offers among which is one for that CID, at any moment. -/
theorem C171_real (r : Recs) (jobs : List Job) (h : ∀ j ∈ jobs, j.new) (l : List Nat) (cid g a : Nat)
    (ha : acknowledged (run ⟨r, jobs⟩ l).recs cid g = some a) :
    acknowledged r cid g = some a ∨ ∃ j ∈ (run ⟨r, jobs⟩ l).jobs, j.acksFor cid g a :=
  (inv_run r _ (inv_init r jobs h) l).real cid g a ha

/-- Two publications to gateway 7 that overlap, the admin asking for what has been published and a client for the acknowledgement of
CID 2. -/
def exJobs : List Job :=
  [.dht 7 100 [⟨1, 10⟩, ⟨2, 20⟩] 0 false, .dht 7 200 [⟨2, 21⟩] 0 false, .group 8 ⟨3, 30⟩ false, .list [7], .ask 2 7]

example : (∀ j ∈ exJobs, j.new) ∧
    (run ⟨empty, exJobs⟩ [0, 1, 0, 1, 0, 2, 0]).jobs =
      [.dht 7 100 [⟨1, 10⟩, ⟨2, 20⟩] 2 false, .dht 7 200 [⟨2, 21⟩] 1 false, .group 8 ⟨3, 30⟩ true, .list [7], .ask 2 7] ∧
    (run (run ⟨empty, exJobs⟩ [0, 1, 0, 1, 0, 2, 0]) [4, 3]).jobs =
      [.dht 7 100 [⟨1, 10⟩, ⟨2, 20⟩] 2 false, .dht 7 200 [⟨2, 21⟩] 1 false, .group 8 ⟨3, 30⟩ true,
        .listed [7] [⟨1, 10⟩, ⟨2, 21⟩, ⟨2, 20⟩], .asked 2 7 (some 100)] := by
  refine ⟨?_, by decide, by decide⟩
  intro j hj
  simp only [exJobs, List.mem_cons, List.not_mem_nil, or_false] at hj
  rcases hj with rfl | rfl | rfl | rfl | rfl <;> simp [Job.new]

end FcRetrieval.Provider.Records
