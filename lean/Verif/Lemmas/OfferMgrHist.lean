import Verif.Lemmas.OfferMgrSim
/-! Helper lemmas: histories of the offer manager. -/
set_option linter.unusedSimpArgs false
namespace FcRetrieval.OfferMgr
open FcRetrieval.Ids (Id Proper position)
open FcRetrieval.Merkle (Hash)
open FcRetrieval.Offer (CidOffer terms InRange)
open FcRetrieval.Ring (Fault Ring)

variable {H512 : Hash} {order : DigestMap CidOffer → DigestMap CidOffer} {orderE : Storage CidOffer → Storage CidOffer}

theorem sinv_new (A : List CidOffer) : SInv H512 A newMgr noOffers :=
  ⟨rep_empty _, rep_empty _, by simp [noOffers], by simp [noOffers]⟩

theorem ringInv_new : RingInv (newMgr (R := CidOffer)).ring noOffers.offered :=
  ⟨by simp [noOffers], [], Ring.isRing_create, by simp [noOffers]⟩

theorem steps_loose (hord : ∀ dm, (order dm).Perm dm) (hordE : ∀ st, (orderE st).Perm st) {A : List CidOffer}
    (hA : NoCollision H512 A) : ∀ (h : List (Clock × Op)) {m m' : Mgr CidOffer} {s : Shelf} {outs : List Out},
    SInv H512 A m s → (∀ e ∈ h, ∀ o ∈ added e.2, o ∈ A ∧ InRange o) → (∀ e ∈ h, ProperOp e.2) →
    execAll H512 order orderE m h = .ok (m', outs) → ∃ s', Steps H512 false s h outs s' ∧ SInv H512 A m' s'
  | [], m, m', s, outs, hs, _, _, he => by
    simp only [execAll] at he
    cases he
    exact ⟨s, ⟨rfl, rfl⟩, hs⟩
  | (t, op) :: h, m, m', s, outs, hs, hop, hp, he => by
    simp only [execAll, bind, Except.bind] at he
    cases e1 : exec H512 order orderE t m op with
    | error f => rw [e1] at he; cases he
    | ok p =>
      obtain ⟨m1, out⟩ := p
      rw [e1] at he
      simp only at he
      cases e2 : execAll H512 order orderE m1 h with
      | error f => rw [e2] at he; cases he
      | ok q =>
        obtain ⟨m2, outs2⟩ := q
        rw [e2] at he
        cases he
        obtain ⟨s1, h1, h2⟩ := sim_loose hord hordE hA hs (hop (t, op) (by simp)) (hp (t, op) (by simp)) e1
        obtain ⟨s2, h3, h4⟩ := steps_loose hord hordE hA h h2 (fun e he => hop e (by simp [he])) (fun e he => hp e (by simp [he])) e2
        exact ⟨s2, ⟨out, outs2, s1, rfl, h1, h3⟩, h4⟩

theorem steps_strict (hord : ∀ dm, (order dm).Perm dm) (hordE : ∀ st, (orderE st).Perm st) {A : List CidOffer}
    (hA : NoCollision H512 A) : ∀ (h : List (Clock × Op)) {m : Mgr CidOffer} {s : Shelf},
    SInv H512 A m s → RingInv m.ring s.offered → (∀ e ∈ h, ∀ o ∈ added e.2, o ∈ A ∧ InRange o) → (∀ e ∈ h, ProperOp e.2) →
    AllSafe s.offered h →
    ∃ m' outs s', execAll H512 order orderE m h = .ok (m', outs) ∧ Steps H512 true s h outs s' ∧ SInv H512 A m' s' ∧
      RingInv m'.ring s'.offered
  | [], m, s, hs, hr, _, _, _ => ⟨m, [], s, rfl, ⟨rfl, rfl⟩, hs, hr⟩
  | (t, op) :: h, m, s, hs, hr, hop, hp, hsafe => by
    have hsafe1 : ∀ a b max, op = .range a b max → Safe s.offered a b := by
      rintro a b max rfl
      exact hsafe.1
    obtain ⟨m1, out, s1, e1, e2, e3, e4, e5⟩ := sim_strict (t := t) hord hordE hA hs hr (hop (t, op) (by simp)) (hp (t, op) (by simp))
      (fun a b max h => (hsafe1 a b max h).1)
    have hsafe2 : AllSafe s1.offered h := by
      rw [e4]
      cases op with
      | addDht o =>
        simp only [AllSafe] at hsafe
        simp only
        split <;> simp_all
      | range a b max => exact hsafe.2
      | _ => exact hsafe
    obtain ⟨m2, outs, s2, f1, f2, f3, f4⟩ := steps_strict hord hordE hA h e3 (e5 hsafe1) (fun e he => hop e (by simp [he]))
      (fun e he => hp e (by simp [he])) hsafe2
    refine ⟨m2, out :: outs, s2, ?_, ⟨out, outs, s1, rfl, e2, f2⟩, f3, f4⟩
    simp only [execAll, bind, Except.bind, e1, f1, pure, Except.pure]

theorem steps_loosen : ∀ (h : List (Clock × Op)) {s s' : Shelf} {outs : List Out}, Steps H512 true s h outs s' →
    Steps H512 false s h outs s'
  | [], _, _, _, hs => hs
  | _ :: h, _, _, _, ⟨out, rest, s1, h1, h2, h3⟩ => ⟨out, rest, s1, h1, step_loosen h2, steps_loosen h h3⟩

theorem steps_append {strict : Bool} : ∀ (h : List (Clock × Op)) {h' : List (Clock × Op)} {s s' : Shelf} {outs : List Out},
    Steps H512 strict s (h ++ h') outs s' ↔
      ∃ o1 o2 s1, outs = o1 ++ o2 ∧ o1.length = h.length ∧ Steps H512 strict s h o1 s1 ∧ Steps H512 strict s1 h' o2 s'
  | [], h', s, s', outs => by
    constructor
    · intro hs
      exact ⟨[], outs, s, rfl, rfl, ⟨rfl, rfl⟩, hs⟩
    · rintro ⟨o1, o2, s1, rfl, _, ⟨rfl, rfl⟩, hs⟩
      exact hs
  | (t, op) :: h, h', s, s', outs => by
    simp only [List.cons_append, Steps]
    constructor
    · rintro ⟨out, rest, s1, rfl, h1, h2⟩
      obtain ⟨o1, o2, s2, rfl, h3, h4, h5⟩ := (steps_append h).1 h2
      exact ⟨out :: o1, o2, s2, rfl, by simp [h3], ⟨out, o1, s1, rfl, h1, h4⟩, h5⟩
    · rintro ⟨o1, o2, s2, rfl, h1, ⟨out, rest, s1, rfl, h2, h3⟩, h4⟩
      exact ⟨out, rest ++ o2, s1, rfl, h2, (steps_append h).2 ⟨rest, o2, s2, rfl, by simpa using h1, h3, h4⟩⟩

theorem steps_length {strict : Bool} : ∀ (h : List (Clock × Op)) {s s' : Shelf} {outs : List Out},
    Steps H512 strict s h outs s' → outs.length = h.length
  | [], _, _, _, hs => by rw [hs.1]; rfl
  | _ :: h, _, _, _, ⟨_, _, _, h1, _, h3⟩ => by rw [h1]; simp [steps_length h h3]

theorem execAll_append (h : List (Clock × Op)) : ∀ (h' : List (Clock × Op)) (m : Mgr CidOffer),
    execAll H512 order orderE m (h ++ h') = (do
      let (m, o1) ← execAll H512 order orderE m h
      let (m, o2) ← execAll H512 order orderE m h'
      return (m, o1 ++ o2)) := by
  induction h with
  | nil =>
    intro h' m
    simp only [List.nil_append, execAll, bind, Except.bind, pure, Except.pure]
    cases execAll H512 order orderE m h' <;> rfl
  | cons e h ih =>
    intro h' m
    obtain ⟨t, op⟩ := e
    simp only [List.cons_append, execAll, bind, Except.bind, pure, Except.pure] at ih ⊢
    cases exec H512 order orderE t m op with
    | error f => rfl
    | ok p =>
      obtain ⟨m1, out⟩ := p
      simp only [ih]
      cases execAll H512 order orderE m1 h with
      | error f => rfl
      | ok q =>
        obtain ⟨m2, outs⟩ := q
        simp only
        cases execAll H512 order orderE m2 h' <;> rfl

/-! ## time -/

theorem le_refl (t : Clock) : t.le t := Or.inr ⟨rfl, Nat.le_refl _⟩
theorem le_trans {a b c : Clock} (h1 : a.le b) (h2 : b.le c) : a.le c := by
  unfold Clock.le at *
  omega

theorem expired_mono (o : CidOffer) {t t' : Clock} (h : t.le t') (hs : t.Sane) (hs' : t'.Sane) (he : expired o t = true) :
    expired o t' = true := by
  unfold expired Offer.hasExpired at *
  simp only [Bool.or_eq_true, Bool.and_eq_true, decide_eq_true_eq] at he ⊢
  unfold Clock.Sane at hs hs'
  unfold Clock.le at h
  have e : ∀ x : Int, 0 ≤ x → x < 2 ^ 62 → Offer.wrapI64 (x + Offer.unixToInternal) = x + Offer.unixToInternal := by
    intro x h1 h2
    unfold Offer.wrapI64 Offer.unixToInternal
    omega
  rw [e _ hs.1 hs.2] at he
  rw [e _ hs'.1 hs'.2]
  generalize Offer.wrapI64 (o.expiry + Offer.unixToInternal) = z at he ⊢
  omega

theorem expired_terms {o o' : CidOffer} (h : terms o = terms o') (t : Clock) : expired o t = expired o' t := by
  unfold expired
  unfold terms at h
  simp only [Prod.mk.injEq] at h
  rw [h.2.2.2.1]

/-! ## what is on the shelf -/

/-- The list holds, up to equal terms, the offers with `E`, but for those expired at `now`; each of the terms once. -/
structure Keeps (E : CidOffer → Prop) (now : Clock) (acc : List CidOffer) : Prop where
  sane : now.Sane
  only : ∀ o ∈ acc, E o
  all : ∀ o, E o → ∀ t, now.le t → t.Sane → expired o t = false → ∃ o' ∈ acc, terms o' = terms o
  once : acc.Pairwise (fun o o' => terms o ≠ terms o')

theorem keeps_later {E : CidOffer → Prop} {now t : Clock} {acc : List CidOffer} (h : Keeps E now acc) (hl : now.le t) (ht : t.Sane) :
    Keeps E t acc := ⟨ht, h.only, fun o ho t' h1 h2 h3 => h.all o ho t' (le_trans hl h1) h2 h3, h.once⟩

theorem keeps_congr {E E' : CidOffer → Prop} {now : Clock} {acc : List CidOffer} (h : Keeps E now acc) (he : ∀ o, E o ↔ E' o) :
    Keeps E' now acc := ⟨h.sane, fun o ho => (he o).1 (h.only o ho), fun o ho => h.all o ((he o).2 ho), h.once⟩

theorem keeps_purge {E : CidOffer → Prop} {t : Clock} {acc : List CidOffer} (h : Keeps E t acc) (c : Id) :
    Keeps E t (purge t acc c) := by
  refine ⟨h.sane, fun o ho => h.only o (List.mem_filter.1 ho).1, ?_, h.once.sublist List.filter_sublist⟩
  intro o ho t' h1 h2 h3
  obtain ⟨o', h4, h5⟩ := h.all o ho t' h1 h2 h3
  refine ⟨o', List.mem_filter.2 ⟨h4, ?_⟩, h5⟩
  cases h6 : expired o' t with
  | false => simp
  | true =>
    have := expired_mono o' h1 h.sane h2 h6
    rw [expired_terms h5, h3] at this
    cases this

theorem keeps_purges {E : CidOffer → Prop} {t : Clock} : ∀ (cs : List Id) {acc : List CidOffer}, Keeps E t acc →
    Keeps E t (cs.foldl (purge t) acc)
  | [], _, h => h
  | c :: cs, _, h => keeps_purges cs (keeps_purge h c)

theorem keeps_shelve {E : CidOffer → Prop} {t : Clock} {acc : List CidOffer} (h : Keeps E t acc) (o : CidOffer) :
    Keeps (fun x => E x ∨ (x = o ∧ (shelve t acc o).2 = true)) t (shelve t acc o).1 := by
  unfold shelve
  by_cases h1 : acc.any (fun o' => decide (terms o' = terms o)) = true
  · rw [if_pos h1]
    obtain ⟨o', h2, h3⟩ := (any_terms_iff _ _).1 h1
    refine ⟨h.sane, fun x hx => Or.inl (h.only x hx), ?_, h.once⟩
    rintro x (hx | ⟨rfl, _⟩) t' h4 h5 h6
    · exact h.all x hx t' h4 h5 h6
    · exact ⟨o', h2, h3⟩
  · rw [if_neg h1]
    by_cases h2 : expired o t = true
    · rw [if_pos h2]
      refine keeps_congr h ?_
      intro x
      simp
    · rw [if_neg h2]
      refine ⟨h.sane, ?_, ?_, ?_⟩
      · intro x hx
        rcases List.mem_append.1 hx with hx | hx
        · exact Or.inl (h.only x hx)
        · exact Or.inr ⟨by simpa using hx, rfl⟩
      · rintro x (hx | ⟨rfl, _⟩) t' h4 h5 h6
        · obtain ⟨y, h7, h8⟩ := h.all x hx t' h4 h5 h6
          exact ⟨y, List.mem_append.2 (Or.inl h7), h8⟩
        · exact ⟨x, by simp, rfl⟩
      · rw [List.pairwise_append]
        refine ⟨h.once, by simp, ?_⟩
        intro a ha b hb
        simp at hb
        subst hb
        intro e
        exact h1 ((any_terms_iff _ _).2 ⟨a, ha, e⟩)

/-- Both lists, and the shapes of the offers on them. -/
structure KeepsAll (P : List ((Clock × Op) × Out)) (now : Clock) (s : Shelf) : Prop where
  dht : Keeps (fun o => ∃ t, ((t, Op.addDht o), Out.done true) ∈ P) now s.dht
  group : Keeps (fun o => ∃ t, ((t, Op.addGroup o), Out.done true) ∈ P) now s.group
  one : ∀ o ∈ s.dht, ∃ c ∈ s.offered, o.cids = [c]
  many : ∀ o ∈ s.group, 2 ≤ o.cids.length
  dhtOnly : ∀ o t, ((t, Op.addDht o), Out.done true) ∈ P → ∃ c ∈ s.offered, o.cids = [c]
  offeredBy : ∀ c ∈ s.offered, ∃ t o out, ((t, Op.addDht o), out) ∈ P ∧ o.cids = [c]

theorem mem_shelve {t : Clock} {acc : List CidOffer} {o x : CidOffer} (h : x ∈ (shelve t acc o).1) : x ∈ acc ∨ x = o := by
  unfold shelve at h
  split at h
  · exact Or.inl h
  · split at h
    · exact Or.inl h
    · rcases List.mem_append.1 h with h | h
      · exact Or.inl h
      · exact Or.inr (by simpa using h)

theorem mem_purges {t : Clock} : ∀ (cs : List Id) {acc : List CidOffer} {x : CidOffer}, x ∈ cs.foldl (purge t) acc → x ∈ acc
  | [], _, _, h => h
  | _ :: cs, _, _, h => (List.mem_filter.1 (mem_purges cs h)).1

theorem keepsAll_step {P : List ((Clock × Op) × Out)} {now t : Clock} {s s' : Shelf} {op : Op} {out : Out}
    (hk : KeepsAll P now s) (hl : now.le t) (ht : t.Sane) (hs : Step H512 false t s op out s') :
    KeepsAll (P ++ [((t, op), out)]) t s' := by
  have hd := keeps_later hk.dht hl ht
  have hg := keeps_later hk.group hl ht
  -- an event that is no successful add of a DHT offer or group offer adds nothing
  have nod : (∀ o, op ≠ .addDht o ∨ out ≠ .done true) → ∀ o, (∃ t', ((t', Op.addDht o), Out.done true) ∈ P) ↔
      ∃ t', ((t', Op.addDht o), Out.done true) ∈ P ++ [((t, op), out)] := by
    intro h o
    constructor
    · rintro ⟨t', h1⟩; exact ⟨t', List.mem_append.2 (Or.inl h1)⟩
    · rintro ⟨t', h1⟩
      rcases List.mem_append.1 h1 with h1 | h1
      · exact ⟨t', h1⟩
      · simp at h1
        rcases h o with h | h
        · exact absurd h1.1.2.symm h
        · exact absurd h1.2.symm h
  have nog : (∀ o, op ≠ .addGroup o ∨ out ≠ .done true) → ∀ o, (∃ t', ((t', Op.addGroup o), Out.done true) ∈ P) ↔
      ∃ t', ((t', Op.addGroup o), Out.done true) ∈ P ++ [((t, op), out)] := by
    intro h o
    constructor
    · rintro ⟨t', h1⟩; exact ⟨t', List.mem_append.2 (Or.inl h1)⟩
    · rintro ⟨t', h1⟩
      rcases List.mem_append.1 h1 with h1 | h1
      · exact ⟨t', h1⟩
      · simp at h1
        rcases h o with h | h
        · exact absurd h1.1.2.symm h
        · exact absurd h1.2.symm h
  have offBy : ∀ c ∈ s.offered, ∃ t' o out', ((t', Op.addDht o), out') ∈ P ++ [((t, op), out)] ∧ o.cids = [c] := by
    intro c hc
    obtain ⟨t', o, out', h1, h2⟩ := hk.offeredBy c hc
    exact ⟨t', o, out', List.mem_append.2 (Or.inl h1), h2⟩
  have dOnly : (∀ o, op ≠ .addDht o ∨ out ≠ .done true) → ∀ o t', ((t', Op.addDht o), Out.done true) ∈ P ++ [((t, op), out)] →
      ∃ c ∈ s.offered, o.cids = [c] := by
    intro h o t' h1
    obtain ⟨t'', h2⟩ := (nod h o).2 ⟨t', h1⟩
    exact hk.dhtOnly o t'' h2
  cases op with
  | addGroup o =>
    by_cases hc : o.cids.length ≤ 1
    · simp only [Step, if_pos hc] at hs
      obtain ⟨rfl, rfl⟩ := hs
      exact ⟨keeps_congr hd (nod (by simp)), keeps_congr hg (nog (by simp)), hk.one, hk.many, dOnly (by simp), offBy⟩
    · simp only [Step, if_neg hc] at hs
      obtain ⟨rfl, rfl⟩ := hs
      refine ⟨keeps_congr hd (nod (by simp)), keeps_congr (keeps_shelve hg o) ?_, hk.one, ?_, dOnly (by simp), offBy⟩
      · intro x
        constructor
        · rintro (⟨t', h⟩ | ⟨rfl, h⟩)
          · exact ⟨t', List.mem_append.2 (Or.inl h)⟩
          · exact ⟨t, by simp [h]⟩
        · rintro ⟨t', h⟩
          rcases List.mem_append.1 h with h | h
          · exact Or.inl ⟨t', h⟩
          · simp at h
            exact Or.inr ⟨h.1.2, h.2.symm ▸ rfl⟩
      · intro x hx
        rcases mem_shelve hx with hx | rfl
        · exact hk.many x hx
        · omega
  | addDht o =>
    simp only [Step] at hs
    split at hs
    · rename_i c hc
      obtain ⟨rfl, rfl⟩ := hs
      refine ⟨keeps_congr (keeps_shelve hd o) ?_, keeps_congr hg (nog (by simp)), ?_, hk.many, ?_, ?_⟩
      · intro x
        constructor
        · rintro (⟨t', h⟩ | ⟨rfl, h⟩)
          · exact ⟨t', List.mem_append.2 (Or.inl h)⟩
          · exact ⟨t, by simp [h]⟩
        · rintro ⟨t', h⟩
          rcases List.mem_append.1 h with h | h
          · exact Or.inl ⟨t', h⟩
          · simp at h
            exact Or.inr ⟨h.1.2, h.2.symm ▸ rfl⟩
      · intro x hx
        rcases mem_shelve hx with hx | rfl
        · obtain ⟨c', h1, h2⟩ := hk.one x hx
          exact ⟨c', by simp [h1], h2⟩
        · exact ⟨c, by simp, hc⟩
      · intro x t' h
        rcases List.mem_append.1 h with h | h
        · obtain ⟨c', h1, h2⟩ := hk.dhtOnly x t' h
          exact ⟨c', by simp [h1], h2⟩
        · simp at h
          rw [h.1.2]
          exact ⟨c, by simp, hc⟩
      · intro c' h
        rcases List.mem_cons.1 h with rfl | h
        · exact ⟨t, o, .done (shelve t s.dht o).2, by simp, hc⟩
        · exact offBy c' h
    · obtain ⟨rfl, rfl⟩ := hs
      exact ⟨keeps_congr hd (nod (by simp)), keeps_congr hg (nog (by simp)), hk.one, hk.many, dOnly (by simp), offBy⟩
  | getGroup c =>
    obtain ⟨l, _, rfl, rfl⟩ := hs
    exact ⟨keeps_congr hd (nod (by simp)), keeps_congr (keeps_purge hg c) (nog (by simp)), hk.one,
      fun o ho => hk.many o (List.mem_filter.1 ho).1, dOnly (by simp), offBy⟩
  | getDht c =>
    obtain ⟨l, _, rfl, rfl⟩ := hs
    exact ⟨keeps_congr (keeps_purge hd c) (nod (by simp)), keeps_congr hg (nog (by simp)),
      fun o ho => hk.one o (List.mem_filter.1 ho).1, hk.many, dOnly (by simp), offBy⟩
  | getOffers c =>
    obtain ⟨l, l', _, _, rfl, rfl⟩ := hs
    exact ⟨keeps_congr (keeps_purge hd c) (nod (by simp)), keeps_congr (keeps_purge hg c) (nog (by simp)),
      fun o ho => hk.one o (List.mem_filter.1 ho).1, fun o ho => hk.many o (List.mem_filter.1 ho).1, dOnly (by simp), offBy⟩
  | range a b max =>
    obtain ⟨es, full, visited, found, _, _, rfl, rfl, _⟩ := hs
    exact ⟨keeps_congr (keeps_purges visited hd) (nod (by simp)), keeps_congr hg (nog (by simp)),
      fun o ho => hk.one o (mem_purges _ ho), hk.many, dOnly (by simp), offBy⟩
  | byDigest d =>
    obtain ⟨rfl, r, rfl, _⟩ := hs
    exact ⟨keeps_congr hd (nod (by simp)), keeps_congr hg (nog (by simp)), hk.one, hk.many, dOnly (by simp), offBy⟩

theorem keepsAll_steps : ∀ (h : List (Clock × Op)) {P : List ((Clock × Op) × Out)} {start now : Clock} {s s' : Shelf} {outs : List Out},
    KeepsAll P start s → Steps H512 false s h outs s' → (start :: (h.map (·.1) ++ [now])).Pairwise Clock.le →
    (∀ t ∈ h.map (·.1) ++ [now], t.Sane) → KeepsAll (P ++ h.zip outs) now s'
  | [], P, start, now, s, s', outs, hk, hs, ho, hsane => by
    obtain ⟨rfl, rfl⟩ := hs
    have hl : start.le now := by simpa using ho
    have hn := hsane now (by simp)
    simp only [List.zip_nil_right, List.append_nil]
    exact ⟨keeps_later hk.dht hl hn, keeps_later hk.group hl hn, hk.one, hk.many, hk.dhtOnly, hk.offeredBy⟩
  | (t, op) :: h, P, start, now, s, s', outs, hk, hs, ho, hsane => by
    obtain ⟨out, rest, s1, rfl, h1, h2⟩ := hs
    simp only [List.map_cons, List.cons_append] at ho hsane
    have hlt := (List.pairwise_cons.1 ho).1 t (by simp)
    have := keepsAll_steps h (keepsAll_step hk hlt (hsane t (by simp)) h1) h2 (List.pairwise_cons.1 ho).2
      (fun x hx => hsane x (by simp at hx ⊢; exact Or.inr hx))
    simpa using this

theorem keepsAll_new (t : Clock) (ht : t.Sane) : KeepsAll [] t noOffers := by
  refine ⟨⟨ht, ?_, ?_, ?_⟩, ⟨ht, ?_, ?_, ?_⟩, ?_, ?_, ?_, ?_⟩ <;> simp [noOffers]

theorem ordered_start (h : List (Clock × Op)) (now : Clock) (ho : Ordered h now) :
    ∃ start : Clock, start.Sane ∧ (start :: (h.map (·.1) ++ [now])).Pairwise Clock.le := by
  obtain ⟨h1, h2⟩ := ho
  cases h with
  | nil => exact ⟨now, h2 now (by simp), by simp [le_refl]⟩
  | cons e h =>
    refine ⟨e.1, h2 e.1 (by simp), ?_⟩
    rw [List.pairwise_cons]
    refine ⟨?_, h1⟩
    intro x hx
    simp only [List.map_cons, List.cons_append, List.mem_cons] at hx
    rcases hx with rfl | hx
    · exact le_refl _
    · simp only [List.map_cons, List.cons_append] at h1
      exact (List.pairwise_cons.1 h1).1 x hx

theorem keepsAll_history {h : List (Clock × Op)} {outs : List Out} {s : Shelf} {now : Clock} (ho : Ordered h now)
    (hs : Steps H512 false noOffers h outs s) : KeepsAll (h.zip outs) now s := by
  obtain ⟨start, h1, h2⟩ := ordered_start h now ho
  have := keepsAll_steps h (keepsAll_new start h1) hs h2 ho.2
  simpa using this

end FcRetrieval.OfferMgr
