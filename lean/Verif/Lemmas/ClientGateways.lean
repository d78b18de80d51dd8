import Verif.Lemmas.Client
/-! The lists of gateways of the client. -/
set_option linter.unusedSimpArgs false

namespace FcRetrieval.Client
open FcRetrieval.Ids (Id)
open FcRetrieval.Message (Msg)
open FcRetrieval.Register (Record)
open FcRetrieval.Wire (Codec encode decode)
open FcRetrieval.Codecs
open FcRetrieval.Gateway (res_ok_of_bind ofOption_ok verify_snd)

variable {Sig : Type}

theorem requestEstablishment_ok {E : Env Sig} {n : Nat} {r : Record} {ch : Bytes} {client : Id} {ttl : Int}
    (h : (requestEstablishment E n r ch client ttl).2 = .ok ()) :
    ch.length = 32 ∧ ∃ m a gw, encode clientEstablishmentRequest E.pr (some client, b64Encode ch, ttl) = .ok m ∧
      (requestEstablishment E n r ch client ttl).1 = [.asked r.netClient m] ∧ Answered E n r m a ∧
      decode clientEstablishmentResponse a = .ok (some gw, b64Encode ch) ∧ r.nodeID = Ids.toStr gw := by
  unfold requestEstablishment at h ⊢
  split at h
  · cases h
  · rename_i hl
    refine ⟨Decidable.not_not.1 hl, ?_⟩
    rw [if_neg hl]
    dsimp only at h ⊢
    obtain ⟨a, ha, h⟩ := res_ok_of_bind h
    obtain ⟨⟨gw, echo⟩, hd, h⟩ := res_ok_of_bind h
    obtain ⟨m, hm, ho, hans⟩ := ask_ok ha
    dsimp only at h
    obtain ⟨g, hg, h⟩ := res_ok_of_bind h
    split at h
    · cases h
    · rename_i h1
      split at h
      · cases h
      · rename_i h2
        cases gw with
        | none => cases hg
        | some gw =>
          cases hg
          rw [Decidable.not_not] at h1 h2
          subst h2
          exact ⟨m, a, _, hm, ho, hans, hd, h1⟩

/-- What holds of the lists of a client: `V` of the gateways to use, `A` of the active ones. -/
structure Inv (V A : Id → Record → Prop) (c : Client Sig) : Prop where
  use : Keyed c.toUse
  act : Keyed c.active
  sub : ∀ k r, mget c.active k = some r → mget c.toUse k = some r
  valid : ∀ id r, id.length = 32 → mget c.toUse (Ids.toStr id) = some r → V id r
  met : ∀ id r, id.length = 32 → mget c.active (Ids.toStr id) = some r → A id r

theorem Inv.mono {V A V' A' : Id → Record → Prop} {c : Client Sig} (h : Inv V A c) (hV : ∀ id r, V id r → V' id r) (hA : ∀ id r, A id r → A' id r) :
    Inv V' A' c := ⟨h.use, h.act, h.sub, fun id r h1 h2 => hV _ _ (h.valid id r h1 h2), fun id r h1 h2 => hA _ _ (h.met id r h1 h2)⟩

theorem ProperIds.tail {o : Option Id} {ids : List (Option Id)} (h : ProperIds (o :: ids)) : ProperIds ids :=
  fun id hid => h id (List.mem_cons_of_mem _ hid)

theorem ProperIds.head {id : Id} {ids : List (Option Id)} (h : ProperIds (some id :: ids)) : id.length = 32 := h id (List.mem_cons_self ..)

/-! ### adding to the gateways to use -/

theorem addToUse_inv {V A : Id → Record → Prop} (E : Env Sig) {ids : List (Option Id)} (hp : ProperIds ids)
    (hV : ∀ id r, some id ∈ ids → E.gateway id = some r → CompleteGateway r → V id r) :
    ∀ {c : Client Sig}, Inv V A c → Inv V A (addToUse E c ids).1 := by
  induction ids with
  | nil => intro c h; exact h
  | cons o ids ih =>
    have ih' := @ih hp.tail (fun id r hm => hV id r (List.mem_cons_of_mem _ hm))
    intro c h
    cases o with
    | none => exact ih' h
    | some id =>
      unfold addToUse
      split
      · exact ih' h
      · rename_i hn
        split
        · exact ih' h
        · rename_i r hr
          split
          · rename_i hv
            refine ih' ⟨(keyed_mset h.use hp.head r hn).1, h.act, ?_, ?_, h.met⟩
            · intro k r' hk
              have h1 := h.sub k r' hk
              rw [mget_mset]
              split
              · rename_i he
                subst he
                rw [hn] at h1
                cases h1
              · exact h1
            · intro id' r' hid' hk
              dsimp only at hk
              rw [mget_mset] at hk
              split at hk
              · rename_i he
                cases hk
                have := (OfferMgr.toStr_inj hp.head hid').1 he
                subst this
                exact hV _ _ (List.mem_cons_self ..) hr ((validGateway_iff r).1 hv)
              · exact h.valid id' r' hid' hk
          · exact h
          · exact ih' h

theorem addToUse_active (E : Env Sig) (ids : List (Option Id)) : ∀ c : Client Sig, (addToUse E c ids).1.active = c.active := by
  induction ids with
  | nil => intro c; rfl
  | cons o ids ih =>
    intro c
    cases o with
    | none => exact ih c
    | some id =>
      unfold addToUse
      split
      · exact ih c
      · split
        · exact ih c
        · split
          · exact ih _
          · rfl
          · exact ih c

theorem addToUse_spec (E : Env Sig) {ids : List (Option Id)} (hp : ProperIds ids) :
    ∀ {c : Client Sig}, Keyed c.toUse → ∃ new, idsOf (addToUse E c ids).1.toUse = idsOf c.toUse ++ new ∧
      (∀ id ∈ new, some id ∈ ids ∧ id ∉ idsOf c.toUse ∧ ∃ r, E.gateway id = some r ∧ CompleteGateway r) ∧
      ∀ k, (addToUse E c ids).2 = some k → k = new.length ∧
        ∀ id, some id ∈ ids → id ∉ idsOf c.toUse → (∃ r, E.gateway id = some r ∧ CompleteGateway r) → id ∈ new := by
  induction ids with
  | nil =>
    intro c h
    refine ⟨[], by simp [addToUse], by simp, ?_⟩
    intro k hk
    cases hk
    exact ⟨rfl, by simp⟩
  | cons o ids ih =>
    intro c h
    have skip (hno : ∀ id, o = some id → id ∉ idsOf c.toUse → ¬ ∃ r, E.gateway id = some r ∧ CompleteGateway r) :
        ∃ new, idsOf (addToUse E c ids).1.toUse = idsOf c.toUse ++ new ∧
      (∀ id ∈ new, some id ∈ o :: ids ∧ id ∉ idsOf c.toUse ∧ ∃ r, E.gateway id = some r ∧ CompleteGateway r) ∧
      ∀ k, (addToUse E c ids).2 = some k → k = new.length ∧
        ∀ id, some id ∈ o :: ids → id ∉ idsOf c.toUse → (∃ r, E.gateway id = some r ∧ CompleteGateway r) → id ∈ new := by
      obtain ⟨new, h1, h2, h3⟩ := ih hp.tail h
      refine ⟨new, h1, fun id hid => ⟨List.mem_cons_of_mem _ (h2 id hid).1, (h2 id hid).2⟩, fun k hk => ⟨(h3 k hk).1, ?_⟩⟩
      intro id hid hni hr
      rcases List.mem_cons.1 hid with he | hid
      · exact absurd hr (hno id he.symm hni)
      · exact (h3 k hk).2 id hid hni hr
    cases o with
    | none => exact skip (fun id he => by cases he)
    | some id =>
      have hid := hp.head
      unfold addToUse
      split
      · rename_i r hr
        exact skip (fun id' he hni => by
          cases he
          exact absurd ((mem_idsOf_mget h).2 ⟨hid, r, hr⟩) hni)
      · rename_i hn
        have hni : id ∉ idsOf c.toUse := fun hm => by
          obtain ⟨-, r, hr⟩ := (mem_idsOf_mget h).1 hm
          rw [hn] at hr; cases hr
        split
        · rename_i hr
          exact skip (fun id' he _ => by
            cases he
            rintro ⟨r, hr', -⟩
            rw [hr] at hr'; cases hr')
        · rename_i r hr
          split
          · rename_i hv
            obtain ⟨hk1, hk2⟩ := keyed_mset h hid r hn
            obtain ⟨new, h1, h2, h3⟩ := ih hp.tail (c := { c with toUse := mset c.toUse (Ids.toStr id) r }) hk1
            dsimp only at h1 h2 h3 ⊢
            rw [hk2] at h1 h2 h3
            refine ⟨id :: new, by rw [h1]; simp, ?_, ?_⟩
            · intro id' hm
              rcases List.mem_cons.1 hm with rfl | hm
              · exact ⟨List.mem_cons_self .., hni, r, hr, (validGateway_iff r).1 hv⟩
              · obtain ⟨ha, hb, hc⟩ := h2 id' hm
                exact ⟨List.mem_cons_of_mem _ ha, fun hx => hb (List.mem_append_left _ hx), hc⟩
            · intro k hk
              rw [Option.map_eq_some_iff] at hk
              obtain ⟨k', hk', rfl⟩ := hk
              refine ⟨by rw [(h3 k' hk').1]; simp, ?_⟩
              intro id' hm hni' hr'
              rcases List.mem_cons.1 hm with he | hm
              · cases he; exact List.mem_cons_self ..
              · by_cases he : id' = id
                · subst he; exact List.mem_cons_self ..
                · refine List.mem_cons_of_mem _ ((h3 k' hk').2 id' hm ?_ hr')
                  simp [hni', he]
          · refine ⟨[], by simp, by simp, ?_⟩
            intro k hk; cases hk
          · rename_i hv1 hv2
            exact skip (fun id' he _ => by
              cases he
              rintro ⟨r', hr', hc⟩
              rw [hr] at hr'; cases hr'
              exact hv1 ((validGateway_iff r).2 hc))

/-! ### removing from the gateways to use -/

theorem removeToUse_inv {V A : Id → Record → Prop} {ids : List (Option Id)} (hp : ProperIds ids) :
    ∀ {c : Client Sig}, Inv V A c → Inv V A (removeToUse c ids).1 := by
  induction ids with
  | nil => intro c h; exact h
  | cons o ids ih =>
    intro c h
    cases o with
    | none => exact h
    | some id =>
      unfold removeToUse
      split
      · exact ih hp.tail h
      · refine ih hp.tail ⟨(keyed_mdel h.use hp.head).1, (keyed_mdel h.act hp.head).1, ?_, ?_, ?_⟩
        · intro k r hk
          dsimp only at hk ⊢
          rw [mget_mdel] at hk ⊢
          split at hk
          · cases hk
          · rename_i hne
            rw [if_neg hne]
            exact h.sub k r hk
        · intro id' r hid' hk
          dsimp only at hk
          rw [mget_mdel] at hk
          split at hk
          · cases hk
          · exact h.valid id' r hid' hk
        · intro id' r hid' hk
          dsimp only at hk
          rw [mget_mdel] at hk
          split at hk
          · cases hk
          · exact h.met id' r hid' hk

theorem filter_ne_length {l : List Id} (hn : l.Nodup) {id : Id} (hm : id ∈ l) : (l.filter (fun x => decide (x ≠ id))).length + 1 = l.length := by
  induction l with
  | nil => cases hm
  | cons x l ih =>
    rw [List.nodup_cons] at hn
    by_cases he : x = id
    · subst he
      have : (x :: l).filter (fun y => decide (y ≠ x)) = l := by
        rw [List.filter_cons]
        simp only [ne_eq, not_true_eq_false, decide_false, Bool.false_eq_true, if_false]
        rw [List.filter_eq_self]
        intro y hy
        simp only [decide_eq_true_eq]
        rintro rfl
        exact hn.1 hy
      rw [this]
      rfl
    · have hm' : id ∈ l := by
        rcases List.mem_cons.1 hm with h | h
        · exact absurd h.symm he
        · exact h
      rw [List.filter_cons]
      simp only [ne_eq, he, not_false_eq_true, decide_true, if_true, List.length_cons]
      have := ih hn.2 hm'
      simp only [ne_eq] at this
      omega

theorem filter_none {l : List Id} {id : Id} (hm : id ∉ l) (p : Id → Bool) (q : Id → Bool) (h : ∀ x, x ≠ id → p x = q x) :
    l.filter p = l.filter q := by
  apply List.filter_congr
  intro x hx
  exact h x (fun e => hm (e ▸ hx))

theorem others_nil (l : List Id) : others [] l = l := by
  unfold others
  rw [List.filter_eq_self]
  simp

theorem others_cons_not {ids : List (Option Id)} {l : List Id} {id : Id} (h : id ∉ l) : others (some id :: ids) l = others ids l := by
  refine filter_none h _ _ (fun x hx => ?_)
  simp [hx]

theorem others_cons (ids : List (Option Id)) (l : List Id) (id : Id) : others (some id :: ids) l = others ids (l.filter (fun x => decide (x ≠ id))) := by
  unfold others
  rw [List.filter_filter]
  apply List.filter_congr
  intro x _
  by_cases hx : x = id <;> simp [hx]

theorem removeToUse_spec {ids : List (Option Id)} (hp : ProperIds ids) :
    ∀ {c : Client Sig}, Keyed c.toUse → Keyed c.active → (∀ k r, mget c.active k = some r → mget c.toUse k = some r) → ∀ {k}, (removeToUse c ids).2 = some k →
      idsOf (removeToUse c ids).1.toUse = others ids (idsOf c.toUse) ∧ idsOf (removeToUse c ids).1.active = others ids (idsOf c.active) ∧
      (idsOf (removeToUse c ids).1.toUse).length + k = (idsOf c.toUse).length := by
  induction ids with
  | nil =>
    intro c _ _ _ k hk
    cases hk
    simp [removeToUse, others_nil]
  | cons o ids ih =>
    intro c hu ha hs k hk
    cases o with
    | none => cases hk
    | some id =>
      have hid := hp.head
      unfold removeToUse at hk ⊢
      cases hg : mget c.toUse (Ids.toStr id) with
      | none =>
        rw [hg] at hk
        dsimp only at hk ⊢
        have hni : id ∉ idsOf c.toUse := fun hm => by
          obtain ⟨-, r, hr⟩ := (mem_idsOf_mget hu).1 hm
          rw [hg] at hr; cases hr
        have hna : id ∉ idsOf c.active := fun hm => by
          obtain ⟨-, r, hr⟩ := (mem_idsOf_mget ha).1 hm
          have := hs _ _ hr
          rw [hg] at this; cases this
        rw [others_cons_not hni, others_cons_not hna]
        exact ih hp.tail hu ha hs hk
      | some r =>
        rw [hg] at hk
        dsimp only at hk ⊢
        rw [Option.map_eq_some_iff] at hk
        obtain ⟨k', hk', rfl⟩ := hk
        obtain ⟨hu1, hu2⟩ := keyed_mdel hu hid
        obtain ⟨ha1, ha2⟩ := keyed_mdel ha hid
        have := ih hp.tail (c := { c with toUse := mdel c.toUse (Ids.toStr id), active := mdel c.active (Ids.toStr id) }) hu1 ha1 (by
          intro k r hk
          dsimp only at hk ⊢
          rw [mget_mdel] at hk ⊢
          split at hk
          · cases hk
          · rename_i hne
            rw [if_neg hne]
            exact hs k r hk) hk'
        dsimp only at this
        rw [hu2, ha2] at this
        obtain ⟨t1, t2, t3⟩ := this
        refine ⟨by rw [t1, others_cons], by rw [t2, others_cons], ?_⟩
        have hm : id ∈ idsOf c.toUse := (mem_idsOf_mget hu).2 ⟨hid, r, hg⟩
        have := filter_ne_length (idsOf_nodup hu) hm
        omega

/-! ### the active gateways -/

theorem addActive_inv {V A : Id → Record → Prop} (E : Env Sig) {ids : List (Option Id)} (hp : ProperIds ids)
    (hA : ∀ id r n m, some id ∈ ids → Established E n r (E.challenge id) m → A id r) :
    ∀ {c : Client Sig} {n : Nat}, Inv V A c → Inv V A (addActive E c n ids).1 := by
  induction ids with
  | nil => intro c n h; exact h
  | cons o ids ih =>
    have ih' := @ih hp.tail (fun id r n m hm => hA id r n m (List.mem_cons_of_mem _ hm))
    intro c n h
    cases o with
    | none => exact h
    | some id =>
      unfold addActive
      split
      · exact ih' h
      · rename_i hn
        split
        · exact ih' h
        · rename_i r hr
          split
          · exact h
          · exact ih' h
          · rename_i out _ hreq
            refine ih' ⟨h.use, (keyed_mset h.act hp.head r hn).1, ?_, h.valid, ?_⟩
            · intro k r' hk
              dsimp only at hk
              rw [mget_mset] at hk
              split at hk
              · rename_i he
                cases hk
                rw [← he]
                exact hr
              · exact h.sub k r' hk
            · intro id' r' hid' hk
              dsimp only at hk
              rw [mget_mset] at hk
              split at hk
              · rename_i he
                cases hk
                have := (OfferMgr.toStr_inj hp.head hid').1 he
                subst this
                obtain ⟨-, m, a, gw, h1, -, h3, h4, h5⟩ := requestEstablishment_ok (E := E) (n := n) (r := r) (ch := E.challenge id)
                  (client := c.settings.clientID) (ttl := E.now + c.settings.ttl) (by rw [hreq])
                exact hA _ _ n m (List.mem_cons_self ..) ⟨_, _, a, gw, h1, h3, h4, h5⟩
              · exact h.met id' r' hid' hk

theorem addActive_toUse (E : Env Sig) (ids : List (Option Id)) : ∀ (c : Client Sig) (n : Nat), (addActive E c n ids).1.toUse = c.toUse := by
  induction ids with
  | nil => intro c n; rfl
  | cons o ids ih =>
    intro c n
    cases o with
    | none => rfl
    | some id =>
      unfold addActive
      split
      · exact ih c n
      · split
        · exact ih c n
        · split
          · rfl
          · exact ih c _
          · exact ih _ _

theorem addActive_spec (E : Env Sig) {ids : List (Option Id)} (hp : ProperIds ids) :
    ∀ {c : Client Sig} {n : Nat}, Keyed c.toUse → Keyed c.active → ∃ new, idsOf (addActive E c n ids).1.active = idsOf c.active ++ new ∧
      (∀ id ∈ new, some id ∈ ids ∧ id ∉ idsOf c.active ∧ ∃ r i m, mget c.toUse (Ids.toStr id) = some r ∧
        Established E i r (E.challenge id) m ∧ Out.asked r.netClient m ∈ (addActive E c n ids).2.1) ∧
      ∀ k, (addActive E c n ids).2.2 = some k → k = new.length := by
  induction ids with
  | nil =>
    intro c n _ _
    refine ⟨[], by simp [addActive], by simp, ?_⟩
    intro k hk
    cases hk
    rfl
  | cons o ids ih =>
    intro c n hu ha
    have skip (n : Nat) (out : List (Out Sig)) : ∃ new, idsOf (addActive E c n ids).1.active = idsOf c.active ++ new ∧
      (∀ id ∈ new, some id ∈ o :: ids ∧ id ∉ idsOf c.active ∧ ∃ r i m, mget c.toUse (Ids.toStr id) = some r ∧
        Established E i r (E.challenge id) m ∧ Out.asked r.netClient m ∈ out ++ (addActive E c n ids).2.1) ∧
      ∀ k, (addActive E c n ids).2.2 = some k → k = new.length := by
      obtain ⟨new, h1, h2, h3⟩ := ih hp.tail (c := c) (n := n) hu ha
      refine ⟨new, h1, fun id hid => ?_, h3⟩
      obtain ⟨a, b, r, i, m, d, e, f⟩ := h2 id hid
      exact ⟨List.mem_cons_of_mem _ a, b, r, i, m, d, e, List.mem_append_right _ f⟩
    cases o with
    | none => exact ⟨[], by simp [addActive], by simp, by intro k hk; cases hk⟩
    | some id =>
      have hid := hp.head
      unfold addActive
      split
      · exact skip n []
      · rename_i hn
        split
        · exact skip n []
        · rename_i r hr
          split
          · exact ⟨[], by simp, by simp, by intro k hk; cases hk⟩
          · rename_i out hreq
            exact skip (n + 1) out
          · rename_i out _ hreq
            obtain ⟨hk1, hk2⟩ := keyed_mset ha hid r hn
            obtain ⟨new, h1, h2, h3⟩ := ih hp.tail (c := { c with active := mset c.active (Ids.toStr id) r }) (n := n + 1) hu hk1
            dsimp only at h1 h2 h3 ⊢
            rw [hk2] at h1 h2
            have hni : id ∉ idsOf c.active := fun hm => by
              obtain ⟨-, r, hr⟩ := (mem_idsOf_mget ha).1 hm
              rw [hn] at hr; cases hr
            refine ⟨id :: new, by rw [h1]; simp, ?_, ?_⟩
            · intro id' hm
              rcases List.mem_cons.1 hm with rfl | hm
              · obtain ⟨-, m, a, gw, g1, g2, g3, g4, g5⟩ := requestEstablishment_ok (E := E) (n := n) (r := r) (ch := E.challenge id')
                  (client := c.settings.clientID) (ttl := E.now + c.settings.ttl) (by rw [hreq])
                rw [hreq] at g2
                dsimp only at g2
                subst g2
                exact ⟨List.mem_cons_self .., hni, r, n, m, hr, ⟨_, _, a, gw, g1, g3, g4, g5⟩, by simp⟩
              · obtain ⟨a, b, r', i, m, d, e, f⟩ := h2 id' hm
                exact ⟨List.mem_cons_of_mem _ a, fun hx => b (List.mem_append_left _ hx), r', i, m, d, e, List.mem_append_right _ f⟩
            · intro k hk
              rw [Option.map_eq_some_iff] at hk
              obtain ⟨k', hk', rfl⟩ := hk
              rw [h3 k' hk']
              simp

theorem removeActive_inv {V A : Id → Record → Prop} {ids : List (Option Id)} (hp : ProperIds ids) :
    ∀ {c : Client Sig}, Inv V A c → Inv V A (removeActive c ids).1 := by
  induction ids with
  | nil => intro c h; exact h
  | cons o ids ih =>
    intro c h
    cases o with
    | none => exact h
    | some id =>
      unfold removeActive
      split
      · exact ih hp.tail h
      · refine ih hp.tail ⟨h.use, (keyed_mdel h.act hp.head).1, ?_, h.valid, ?_⟩
        · intro k r hk
          dsimp only at hk ⊢
          rw [mget_mdel] at hk
          split at hk
          · cases hk
          · exact h.sub k r hk
        · intro id' r hid' hk
          dsimp only at hk
          rw [mget_mdel] at hk
          split at hk
          · cases hk
          · exact h.met id' r hid' hk

theorem removeActive_spec {ids : List (Option Id)} (hp : ProperIds ids) :
    ∀ {c : Client Sig}, Keyed c.active → ∀ {k}, (removeActive c ids).2 = some k →
      (removeActive c ids).1.toUse = c.toUse ∧ idsOf (removeActive c ids).1.active = others ids (idsOf c.active) ∧
      (idsOf (removeActive c ids).1.active).length + k = (idsOf c.active).length := by
  induction ids with
  | nil =>
    intro c _ k hk
    cases hk
    simp [removeActive, others_nil]
  | cons o ids ih =>
    intro c ha k hk
    cases o with
    | none => cases hk
    | some id =>
      have hid := hp.head
      unfold removeActive at hk ⊢
      cases hg : mget c.active (Ids.toStr id) with
      | none =>
        rw [hg] at hk
        dsimp only at hk ⊢
        have hna : id ∉ idsOf c.active := fun hm => by
          obtain ⟨-, r, hr⟩ := (mem_idsOf_mget ha).1 hm
          rw [hg] at hr; cases hr
        rw [others_cons_not hna]
        exact ih hp.tail ha hk
      | some r =>
        rw [hg] at hk
        dsimp only at hk ⊢
        rw [Option.map_eq_some_iff] at hk
        obtain ⟨k', hk', rfl⟩ := hk
        obtain ⟨ha1, ha2⟩ := keyed_mdel ha hid
        have := ih hp.tail (c := { c with active := mdel c.active (Ids.toStr id) }) ha1 hk'
        dsimp only at this
        rw [ha2] at this
        obtain ⟨t1, t2, t3⟩ := this
        refine ⟨t1, by rw [t2, others_cons], ?_⟩
        have hm : id ∈ idsOf c.active := (mem_idsOf_mget ha).2 ⟨hid, r, hg⟩
        have := filter_ne_length (idsOf_nodup ha) hm
        omega

/-! ### histories -/

theorem step_inv {V A : Id → Record → Prop} (E : Env Sig) {op : Op} (hp : ProperOp op)
    (hV : ∀ ids id r, op = .addToUse ids → some id ∈ ids → E.gateway id = some r → CompleteGateway r → V id r)
    (hA : ∀ ids id r n m, op = .addActive ids → some id ∈ ids → Established E n r (E.challenge id) m → A id r)
    {c : Client Sig} (h : Inv V A c) : Inv V A (step E c op).1 := by
  cases op with
  | addToUse ids => exact addToUse_inv E hp (fun id r => hV ids id r rfl) h
  | removeToUse ids => exact removeToUse_inv hp h
  | removeAllToUse =>
    exact ⟨keyed_nil, keyed_nil, fun k r hk => (by cases hk), fun id r _ hk => (by cases hk), fun id r _ hk => (by cases hk)⟩
  | addActive ids => exact addActive_inv E hp (fun id r n m => hA ids id r n m rfl) h
  | removeActive ids => exact removeActive_inv hp h
  | removeAllActive => exact ⟨h.use, keyed_nil, fun k r hk => (by cases hk), h.valid, fun id r _ hk => (by cases hk)⟩

theorem run_inv_aux (hist : List (Env Sig × Op)) : ∀ (pre : List (Env Sig × Op)) {c : Client Sig}, (∀ e ∈ hist, ProperOp e.2) →
    Inv (WasValidated pre) (WasEstablished pre) c → Inv (WasValidated (pre ++ hist)) (WasEstablished (pre ++ hist)) (run c hist).1 := by
  induction hist with
  | nil => intro pre c _ h; simpa [run] using h
  | cons e hist ih =>
    obtain ⟨E, op⟩ := e
    intro pre c hp h
    unfold run
    dsimp only
    have hm : pre ++ (E, op) :: hist = (pre ++ [(E, op)]) ++ hist := by simp
    rw [hm]
    refine ih _ (fun e he => hp e (List.mem_cons_of_mem _ he)) (step_inv E (hp (E, op) (List.mem_cons_self ..)) ?_ ?_ (h.mono ?_ ?_))
    · rintro ids id r rfl h1 h2 h3
      exact ⟨E, ids, by simp, h1, h2, h3⟩
    · rintro ids id r n m rfl h1 h2
      exact ⟨E, ids, n, m, by simp, h1, h2⟩
    · rintro id r ⟨E', ids, h1, h2⟩
      exact ⟨E', ids, List.mem_append_left _ h1, h2⟩
    · rintro id r ⟨E', ids, n, m, h1, h2⟩
      exact ⟨E', ids, n, m, List.mem_append_left _ h1, h2⟩

theorem run_inv (s : Settings) {hist : List (Env Sig × Op)} (hp : ∀ e ∈ hist, ProperOp e.2) :
    Inv (WasValidated hist) (WasEstablished hist) (run (newClient s : Client Sig) hist).1 := by
  have := run_inv_aux hist [] (c := newClient s) hp
    ⟨keyed_nil, keyed_nil, fun k r hk => (by cases hk), fun id r _ hk => (by cases hk), fun id r _ hk => (by cases hk)⟩
  simpa using this

end FcRetrieval.Client
