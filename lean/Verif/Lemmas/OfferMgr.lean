import Verif.Lemmas.Maps
import Verif.Lemmas.Ids
import Verif.Lemmas.RingProps
import Verif.Spec.OfferMgr
import Verif.Props.Offer
/-! Helper lemmas about the offer manager. -/
set_option linter.unusedSimpArgs false
namespace FcRetrieval.OfferMgr
open FcRetrieval.Ids (Id Proper position)
open FcRetrieval.Merkle (Hash)
open FcRetrieval.Offer (CidOffer terms InRange)
open FcRetrieval.Ring (Fault)

/-- What the storage holds under a CID and a digest. -/
def at? {R : Type} (st : Storage R) (c : List Char) (d : Bytes) : Option R := (mget st c).bind (fun dm => mget dm d)

theorem toStr_inj {a b : Id} (ha : Proper a) (hb : Proper b) : Ids.toStr a = Ids.toStr b ↔ a = b := by
  constructor
  · intro h
    have h1 := Ids.fromHex_toStr ha
    rw [h, Ids.fromHex_toStr hb] at h1
    simpa using h1.symm
  · rintro rfl; rfl

theorem mem_mapToString {c : Id} {cs : List Id} (hc : Proper c) (hcs : ∀ x ∈ cs, Proper x) :
    Ids.toStr c ∈ Ids.mapToString cs ↔ c ∈ cs := by
  unfold Ids.mapToString
  constructor
  · intro h
    obtain ⟨x, hx, e⟩ := List.mem_map.1 h
    rw [(toStr_inj (hcs x hx) hc).1 e] at hx
    exact hx
  · intro h; exact List.mem_map.2 ⟨c, h, rfl⟩

/-- Keys are unique at both levels. -/
structure WfS {R : Type} (st : Storage R) : Prop where
  keys : (mkeys st).Nodup
  inner : ∀ c dm, mget st c = some dm → (mkeys dm).Nodup

section generic
variable {R : Type}

theorem at?_addUnder (d : Bytes) (r : R) (st : Storage R) (c c' : List Char) (d' : Bytes) :
    at? (addUnder d r st c) c' d' = if c = c' ∧ d = d' then some r else at? st c' d' := by
  unfold addUnder at?
  cases h : mget st c with
  | none =>
    simp only [mget_mset]
    by_cases hc : c = c'
    · subst hc
      simp only [if_true, Option.bind_some, mget_mset, true_and, h, Option.bind_none]
      simp [mget]
    · simp [hc]
  | some dm =>
    simp only [mget_mset]
    by_cases hc : c = c'
    · subst hc
      simp only [if_true, Option.bind_some, mget_mset, true_and, h]
    · simp [hc]

theorem wf_addUnder (d : Bytes) (r : R) {st : Storage R} (c : List Char) (h : WfS st) : WfS (addUnder d r st c) := by
  unfold addUnder
  cases h1 : mget st c with
  | none =>
    refine ⟨mset_nodup h.keys _ _, ?_⟩
    intro c' dm hm
    rw [mget_mset] at hm
    split at hm
    · cases hm; simp [mset, mkeys]
    · exact h.inner c' dm hm
  | some dm0 =>
    refine ⟨mset_nodup h.keys _ _, ?_⟩
    intro c' dm hm
    rw [mget_mset] at hm
    split at hm
    · cases hm; exact mset_nodup (h.inner _ _ h1) _ _
    · exact h.inner c' dm hm

theorem at?_addAll (d : Bytes) (r : R) : ∀ (cs : List (List Char)) (st : Storage R) (c' : List Char) (d' : Bytes),
    at? (cs.foldl (addUnder d r) st) c' d' = if c' ∈ cs ∧ d = d' then some r else at? st c' d'
  | [], st, c', d' => by simp
  | c :: cs, st, c', d' => by
    rw [List.foldl_cons, at?_addAll d r cs, at?_addUnder]
    by_cases h1 : c' ∈ cs
    · simp [h1]
      by_cases h2 : d = d' <;> simp [h2]
    · by_cases h2 : c = c'
      · subst h2; simp [h1]
      · have : ¬ c' = c := fun e => h2 e.symm
        simp [h1, h2, this]

theorem wf_addAll (d : Bytes) (r : R) : ∀ (cs : List (List Char)) {st : Storage R}, WfS st → WfS (cs.foldl (addUnder d r) st)
  | [], _, h => h
  | c :: cs, _, h => wf_addAll d r cs (wf_addUnder d r c h)

theorem removeUnder_eq (d : Bytes) : ∀ (cs : List (List Char)) (st : Storage R), WfS st → (∀ c ∈ cs, c ∈ mkeys st) →
    ∃ st', removeUnder d cs st = .ok st' ∧ WfS st' ∧ (∀ c, c ∈ mkeys st ↔ c ∈ mkeys st') ∧
      ∀ c' d', at? st' c' d' = if c' ∈ cs ∧ d = d' then none else at? st c' d'
  | [], st, h, _ => ⟨st, rfl, h, fun _ => Iff.rfl, by simp⟩
  | c :: cs, st, h, hm => by
    have hc := hm c (by simp)
    rw [← mget_isSome_iff] at hc
    obtain ⟨dm, hdm⟩ := Option.isSome_iff_exists.1 hc
    have hmem : ∀ x, x ∈ mkeys (mset st c (mdel dm d)) ↔ x ∈ mkeys st := by
      intro x
      rw [mem_mkeys_mset]
      constructor
      · rintro (rfl | h)
        · exact hm x (by simp)
        · exact h
      · exact Or.inr
    have hw : WfS (mset st c (mdel dm d)) := by
      refine ⟨mset_nodup h.keys _ _, ?_⟩
      intro c' dm' he
      rw [mget_mset] at he
      split at he
      · cases he; exact mdel_nodup (h.inner _ _ hdm) _
      · exact h.inner _ _ he
    obtain ⟨st', e1, e2, e3, e4⟩ := removeUnder_eq d cs (mset st c (mdel dm d)) hw (fun x hx => (hmem x).2 (hm x (by simp [hx])))
    refine ⟨st', ?_, e2, fun x => by rw [← e3, hmem], ?_⟩
    · simp only [removeUnder, hdm, e1]
    · intro c' d'
      rw [e4]
      have e5 : at? (mset st c (mdel dm d)) c' d' = if c' = c ∧ d = d' then none else at? st c' d' := by
        unfold at?
        rw [mget_mset]
        by_cases hcc : c = c'
        · subst hcc
          simp only [if_true, Option.bind_some, mget_mdel, true_and, hdm]
        · have : ¬ c' = c := fun e => hcc e.symm
          simp [hcc, this]
      rw [e5]
      by_cases h1 : c' ∈ cs
      · simp [h1]
        by_cases h2 : d = d' <;> simp [h2]
      · simp [h1]

end generic

/-- The storage holds exactly the accepted offers, under each of their CIDs. -/
structure Rep (H512 : Hash) (st : Storage CidOffer) (acc : List CidOffer) : Prop where
  wf : WfS st
  mem : ∀ c d o, at? st c d = some o ↔ o ∈ acc ∧ Offer.digest H512 o = .ok d ∧ c ∈ Ids.mapToString o.cids
  distinct : acc.Pairwise (fun o o' => Offer.digest H512 o ≠ Offer.digest H512 o')
  good : ∀ o ∈ acc, InRange o
  some_cid : ∀ o ∈ acc, o.cids ≠ []

theorem rep_empty (H512 : Hash) : Rep H512 [] [] := by
  refine ⟨⟨by simp [mkeys], by simp [mget]⟩, ?_, by simp, by simp, by simp⟩
  intro c d o
  simp [at?, mget]

theorem digest_ok (H512 : Hash) {o : CidOffer} (h : InRange o) : ∃ d, Offer.digest H512 o = .ok d ∧ digestOf H512 o = .ok d := by
  obtain ⟨⟨p, hp, _⟩, _⟩ := h
  have : ∃ d, Offer.digest H512 o = .ok d := by
    unfold Offer.digest Offer.digestInput
    rw [hp]
    exact ⟨_, rfl⟩
  obtain ⟨d, hd⟩ := this
  exact ⟨d, hd, by unfold digestOf; rw [hd]⟩

theorem distinct_eq {H512 : Hash} {acc : List CidOffer} (h : acc.Pairwise (fun o o' => Offer.digest H512 o ≠ Offer.digest H512 o'))
    {o o' : CidOffer} (ho : o ∈ acc) (ho' : o' ∈ acc) (e : Offer.digest H512 o = Offer.digest H512 o') : o = o' := by
  induction acc with
  | nil => simp at ho
  | cons a acc ih =>
    rw [List.pairwise_cons] at h
    rcases List.mem_cons.1 ho with rfl | ho
    · rcases List.mem_cons.1 ho' with rfl | ho'
      · rfl
      · exact absurd e (h.1 _ ho')
    · rcases List.mem_cons.1 ho' with rfl | ho'
      · exact absurd e.symm (h.1 _ (by assumption))
      · exact ih h.2 ho ho'

theorem distinct_nodup {H512 : Hash} {acc : List CidOffer}
    (h : acc.Pairwise (fun o o' => Offer.digest H512 o ≠ Offer.digest H512 o')) : acc.Nodup := by
  unfold List.Nodup
  exact h.imp (fun h e => h (by rw [e]))

theorem any_terms_iff (acc : List CidOffer) (o : CidOffer) :
    acc.any (fun o' => decide (terms o' = terms o)) = true ↔ ∃ o' ∈ acc, terms o' = terms o := by
  simp [List.any_eq_true]

theorem add_rep {H512 : Hash} {t : Clock} {st : Storage CidOffer} {acc : List CidOffer} {o : CidOffer} (hr : Rep H512 st acc)
    (ho : InRange o) (hne : o.cids ≠ []) (hno : NoCollision H512 (o :: acc)) :
    ∃ st', add H512 id t st o = .ok (st', (shelve t acc o).2) ∧ Rep H512 st' (shelve t acc o).1 ∧
      ((shelve t acc o).1 = acc → st' = st) := by
  obtain ⟨d, hd, hd'⟩ := digest_ok H512 ho
  have hterms : ∀ o' ∈ acc, (Offer.digest H512 o' = Offer.digest H512 o ↔ terms o' = terms o) := by
    intro o' ho'
    exact Offer.C16_digest_identifies H512 o' o (hr.good o' ho') ho (hno o' (by simp [ho']) o (by simp))
  cases hcs : o.cids with
  | nil => exact absurd hcs hne
  | cons c cs =>
    have hholds : holds st (Ids.toStr c) d = (at? st (Ids.toStr c) d).isSome := by
      unfold holds at?
      cases mget st (Ids.toStr c) <;> rfl
    have hany : holds st (Ids.toStr c) d = acc.any (fun o' => decide (terms o' = terms o)) := by
      rw [Bool.eq_iff_iff, any_terms_iff, hholds, Option.isSome_iff_exists]
      constructor
      · rintro ⟨o', h⟩
        obtain ⟨h1, h2, _⟩ := (hr.mem _ _ _).1 h
        exact ⟨o', h1, (hterms o' h1).1 (by rw [h2, hd])⟩
      · rintro ⟨o', h1, h2⟩
        refine ⟨o', (hr.mem _ _ _).2 ⟨h1, by rw [(hterms o' h1).2 h2, hd], ?_⟩⟩
        have : o'.cids = o.cids := by
          unfold terms at h2
          simp only [Prod.mk.injEq] at h2
          exact h2.2.1
        rw [this, hcs]
        simp [Ids.mapToString]
    have hadd : add H512 id t st o = (if holds st (Ids.toStr c) d then .ok (st, true) else
        if expired o t then .ok (st, false) else .ok ((Ids.mapToString (c :: cs)).foldl (addUnder d o) st, true)) := by
      simp only [add, id, hcs, hd', bind, Except.bind, pure, Except.pure]
    rw [hadd, hany]
    unfold shelve
    by_cases h1 : acc.any (fun o' => decide (terms o' = terms o)) = true
    · rw [if_pos h1, if_pos h1]
      exact ⟨st, rfl, hr, fun _ => rfl⟩
    · rw [if_neg h1, if_neg h1]
      by_cases h2 : expired o t = true
      · rw [if_pos h2, if_pos h2]
        exact ⟨st, rfl, hr, fun _ => rfl⟩
      · rw [if_neg h2, if_neg h2]
        refine ⟨_, rfl, ⟨wf_addAll d o _ hr.wf, ?_, ?_, ?_, ?_⟩, fun h => by simp at h⟩
        · intro c' d' o'
          rw [at?_addAll]
          simp only [List.mem_append, List.mem_singleton]
          have hnew : ∀ o' ∈ acc, Offer.digest H512 o' ≠ .ok d := by
            intro o' ho' e
            exact h1 ((any_terms_iff _ _).2 ⟨o', ho', (hterms o' ho').1 (by rw [e, hd])⟩)
          split
          · rename_i h3
            obtain ⟨h3, rfl⟩ := h3
            constructor
            · intro e
              cases e
              exact ⟨Or.inr rfl, hd, by rw [hcs]; exact h3⟩
            · rintro ⟨h4 | h4, h5, _⟩
              · exact absurd h5 (hnew o' h4)
              · rw [h4]
          · rename_i h3
            rw [hr.mem]
            constructor
            · rintro ⟨h4, h5, h6⟩
              exact ⟨Or.inl h4, h5, h6⟩
            · rintro ⟨h4 | h4, h5, h6⟩
              · exact ⟨h4, h5, h6⟩
              · subst h4
                rw [hd] at h5
                cases h5
                rw [hcs] at h6
                exact absurd ⟨h6, rfl⟩ h3
        · rw [List.pairwise_append]
          refine ⟨hr.distinct, by simp, ?_⟩
          intro a ha b hb
          simp at hb
          subst hb
          intro e
          exact h1 ((any_terms_iff _ _).2 ⟨a, ha, (hterms a ha).1 e⟩)
        · intro o' ho'
          rcases List.mem_append.1 ho' with h | h
          · exact hr.good o' h
          · simp at h; rw [h]; exact ho
        · intro o' ho'
          rcases List.mem_append.1 ho' with h | h
          · exact hr.some_cid o' h
          · simp at h; rw [h]; exact hne

theorem removeAll_rep {H512 : Hash} {acc0 : List CidOffer} (hd0 : acc0.Pairwise (fun o o' => Offer.digest H512 o ≠ Offer.digest H512 o'))
    (hg0 : ∀ o ∈ acc0, InRange o) :
    ∀ (os : List CidOffer) (st : Storage CidOffer) (acc : List CidOffer), Rep H512 st acc → (∀ o ∈ acc, o ∈ acc0) →
      (∀ o ∈ os, o ∈ acc0) → (∀ o ∈ os, ∀ c ∈ Ids.mapToString o.cids, c ∈ mkeys st) →
      ∃ st', removeAll H512 os st = .ok st' ∧ Rep H512 st' (acc.filter (fun o => decide (o ∉ os)))
  | [], st, acc, hr, _, _, _ => ⟨st, rfl, by
      have : acc.filter (fun o => decide (o ∉ ([] : List CidOffer))) = acc := by
        rw [List.filter_eq_self]; simp
      rw [this]; exact hr⟩
  | o :: os, st, acc, hr, hsub, hos, hk => by
    obtain ⟨d, hd, hd'⟩ := digest_ok H512 (hg0 o (hos o (by simp)))
    obtain ⟨st1, e1, e2, e3, e4⟩ := removeUnder_eq d (Ids.mapToString o.cids) st hr.wf (hk o (by simp))
    have hr1 : Rep H512 st1 (acc.filter (fun x => decide (x ≠ o))) := by
      refine ⟨e2, ?_, hr.distinct.sublist List.filter_sublist, fun x hx => hr.good x ((List.mem_filter.1 hx).1), fun x hx => hr.some_cid x (List.mem_filter.1 hx).1⟩
      intro c' d' o'
      rw [e4]
      simp only [List.mem_filter, decide_eq_true_eq]
      split
      · rename_i h
        obtain ⟨h, rfl⟩ := h
        constructor
        · intro e; simp at e
        · rintro ⟨⟨h1, h2⟩, h3, _⟩
          exact absurd (distinct_eq hd0 (hsub o' h1) (hos o (by simp)) (by rw [h3, hd])) h2
      · rename_i h
        rw [hr.mem]
        constructor
        · rintro ⟨h1, h2, h3⟩
          refine ⟨⟨h1, ?_⟩, h2, h3⟩
          rintro rfl
          rw [hd] at h2
          cases h2
          exact h ⟨h3, rfl⟩
        · rintro ⟨⟨h1, _⟩, h2, h3⟩
          exact ⟨h1, h2, h3⟩
    obtain ⟨st', f1, f2⟩ := removeAll_rep hd0 hg0 os st1 _ hr1 (fun x hx => hsub x ((List.mem_filter.1 hx).1))
      (fun x hx => hos x (by simp [hx])) (fun x hx c hc => (e3 c).1 (hk x (by simp [hx]) c hc))
    refine ⟨st', ?_, ?_⟩
    · simp only [removeAll, hd', bind, Except.bind, e1, f1]
    · rw [List.filter_filter] at f2
      have : (fun a => decide (a ∉ os) && decide (a ≠ o)) = (fun a => decide (a ∉ o :: os)) := by
        funext a
        by_cases h1 : a = o <;> by_cases h2 : a ∈ os <;> simp [h1, h2]
      rw [this] at f2
      exact f2

theorem get_rep {H512 : Hash} {order : DigestMap CidOffer → DigestMap CidOffer} (hord : ∀ dm, (order dm).Perm dm) {t : Clock}
    {st : Storage CidOffer} {acc : List CidOffer} {c : Id} (hr : Rep H512 st acc) (hc : Proper c) :
    ∃ st' l, get H512 id order t st c = .ok (st', l) ∧ l.Perm (listing t acc c) ∧ Rep H512 st' (purge t acc c) := by
  have hcid : ∀ o ∈ acc, (Ids.toStr c ∈ Ids.mapToString o.cids ↔ c ∈ o.cids) := fun o ho =>
    mem_mapToString hc (hr.good o ho).2.1
  cases h : mget st (Ids.toStr c) with
  | none =>
    have hnone : ∀ o ∈ acc, c ∉ o.cids := by
      intro o ho hco
      obtain ⟨d, hd, _⟩ := digest_ok H512 (hr.good o ho)
      have := (hr.mem (Ids.toStr c) d o).2 ⟨ho, hd, (hcid o ho).2 hco⟩
      simp [at?, h] at this
    have e1 : listing t acc c = [] := by
      unfold listing
      rw [List.filter_eq_nil_iff]
      intro o ho
      simp [hnone o ho]
    have e2 : purge t acc c = acc := by
      unfold purge
      rw [List.filter_eq_self]
      intro o ho
      simp [hnone o ho]
    refine ⟨st, [], ?_, by rw [e1], by rw [e2]; exact hr⟩
    simp only [get, h]
  | some dm =>
    have hmem : ∀ o, o ∈ (order dm).map (fun e => id e.2) ↔ o ∈ acc ∧ c ∈ o.cids := by
      intro o
      rw [List.mem_map]
      constructor
      · rintro ⟨⟨d, o'⟩, h1, rfl⟩
        have h2 := (hord dm).mem_iff.1 h1
        have h3 := (mem_mget (hr.wf.inner _ _ h)).1 h2
        have h4 : at? st (Ids.toStr c) d = some o' := by simp [at?, h, h3]
        obtain ⟨h5, _, h6⟩ := (hr.mem _ _ _).1 h4
        exact ⟨h5, (hcid _ h5).1 h6⟩
      · rintro ⟨h1, h2⟩
        obtain ⟨d, hd, _⟩ := digest_ok H512 (hr.good o h1)
        have h3 := (hr.mem (Ids.toStr c) d o).2 ⟨h1, hd, (hcid o h1).2 h2⟩
        simp only [at?, h, Option.bind_some] at h3
        exact ⟨(d, o), (hord dm).mem_iff.2 (mget_some_mem h3), rfl⟩
    have hnd : ((order dm).map (fun e => id e.2)).Nodup := by
      have h1 : (order dm).Nodup := by
        refine (hord dm).nodup_iff.2 ?_
        have := hr.wf.inner _ _ h
        unfold mkeys at this
        unfold List.Nodup at this ⊢
        rw [List.pairwise_map] at this
        exact this.imp (fun h e => h (by rw [e]))
      unfold List.Nodup at h1 ⊢
      rw [List.pairwise_map]
      refine h1.imp_of_mem ?_
      rintro ⟨d1, o1⟩ ⟨d2, o2⟩ hm1 hm2 hne he
      simp only [id] at he
      subst he
      have g : ∀ d, (d, o1) ∈ order dm → Offer.digest H512 o1 = .ok d := by
        intro d hd
        have h2 := (hord dm).mem_iff.1 hd
        have h3 := (mem_mget (hr.wf.inner _ _ h)).1 h2
        exact ((hr.mem (Ids.toStr c) d o1).1 (by simp [at?, h, h3])).2.1
      have g1 := g d1 hm1
      rw [g d2 hm2] at g1
      cases g1
      exact hne rfl
    obtain ⟨st', f1, f2⟩ := removeAll_rep hr.distinct hr.good
      (((order dm).map (fun e => id e.2)).filter (fun o => expired o t)) st acc hr (fun _ h => h)
      (fun o ho => ((hmem o).1 ((List.mem_filter.1 ho).1)).1) (by
        intro o ho x hx
        have ho := (hmem o).1 ((List.mem_filter.1 ho).1)
        obtain ⟨d, hd, _⟩ := digest_ok H512 (hr.good o ho.1)
        have := (hr.mem x d o).2 ⟨ho.1, hd, hx⟩
        rw [← mget_isSome_iff]
        unfold at? at this
        cases hx : mget st x with
        | none => rw [hx] at this; simp at this
        | some _ => rfl)
    refine ⟨st', ((order dm).map (fun e => id e.2)).filter (fun o => !expired o t), ?_, ?_, ?_⟩
    · simp only [get, h, bind, Except.bind, f1, pure, Except.pure]
    · refine (List.perm_ext_iff_of_nodup (hnd.sublist List.filter_sublist)
        ((distinct_nodup hr.distinct).sublist List.filter_sublist)).2 ?_
      intro o
      simp only [List.mem_filter, hmem, listing, Bool.and_eq_true, decide_eq_true_eq, and_assoc]
    · have : acc.filter (fun o => decide (o ∉ ((order dm).map (fun e => id e.2)).filter (fun o => expired o t))) = purge t acc c := by
        unfold purge
        refine List.filter_congr ?_
        intro o ho
        rw [Bool.eq_iff_iff]
        simp only [decide_eq_true_eq, List.mem_filter, hmem, ho, true_and, Bool.not_eq_true', Bool.and_eq_false_iff,
          decide_eq_false_iff_not]
        by_cases h1 : c ∈ o.cids <;> cases h2 : expired o t <;> simp [h1, h2]
      rw [this] at f2
      exact f2

end FcRetrieval.OfferMgr
