import Verif.Lemmas.ProviderRun
import Verif.Props.Codecs
/-!
# What holds of a provider after every history
-/
set_option linter.unusedSimpArgs false

namespace FcRetrieval.Provider
open FcRetrieval.Ids (Id Proper)
open FcRetrieval.Message (Msg)
open FcRetrieval.Merkle (Hash)
open FcRetrieval.Offer (CidOffer Built)
open FcRetrieval.Crypto (KeyPair)
open FcRetrieval.Register (Record)
open FcRetrieval.Wire
open FcRetrieval.Codecs
open FcRetrieval.Gateway (fromHex_len res_ok_of_bind ofOption_ok verify_snd decode_inv decFields_cons)
open FcRetrieval.OfferMgr (toStr_inj Clock Mgr)

/-! ## messages in range -/

theorem encode_range {α : Type} {codec : Codec α} {pr : Message.Protocol} (hpr : ProtocolOk pr) (hc : inI32 codec.code) {a : α} {m : Msg}
    (h : encode codec pr a = .ok m) (sig : List Char) : Message.InRange { m with signature := sig } := by
  unfold encode at h
  obtain ⟨v, -, h⟩ := res_ok_of_bind h
  obtain ⟨fs, -, h⟩ := res_ok_of_bind h
  cases h
  exact ⟨hc, hpr.1, hpr.2⟩

theorem decI32_range {j : Option Json} {n : Int} (h : decI32 j = some n) : inI32 n := by
  unfold decI32 decNum at h
  split at h
  · cases h; exact ⟨by decide, by decide⟩
  · cases h; exact ⟨by decide, by decide⟩
  · split at h
    · rename_i hr
      cases h
      exact ⟨by omega, by omega⟩
    · cases h
  · cases h

theorem mapM_range {xs : List Json} : ∀ {l : List Int}, xs.mapM (fun x => decI32 (some x)) = some l → ∀ n ∈ l, inI32 n := by
  induction xs with
  | nil => intro l h n hn; simp at h; subst h; cases hn
  | cons x xs ih =>
    intro l h n hn
    simp [List.mapM_cons] at h
    cases h1 : decI32 (some x) with
    | none => simp [h1] at h
    | some a =>
      cases h2 : xs.mapM (fun x => decI32 (some x)) with
      | none => simp [h1, h2] at h
      | some as =>
        simp [h1, h2] at h
        subst h
        rcases List.mem_cons.1 hn with rfl | hn
        · exact decI32_range h1
        · exact ih h2 n hn

/-- A message read from JSON is in range. -/
theorem unmarshal_range {j : Json} {m : Msg} (h : Message.unmarshal j = .ok m) : Message.InRange m := by
  unfold Message.unmarshal at h
  obtain ⟨fs, -, h⟩ := res_ok_of_bind h
  obtain ⟨ty, h1, h⟩ := res_ok_of_bind h
  obtain ⟨ve, h2, h⟩ := res_ok_of_bind h
  obtain ⟨su, h3, h⟩ := res_ok_of_bind h
  obtain ⟨bo, -, h⟩ := res_ok_of_bind h
  obtain ⟨si, -, h⟩ := res_ok_of_bind h
  cases h
  refine ⟨decI32_range (ofOption_ok h1), decI32_range (ofOption_ok h2), ?_⟩
  intro l hl n hn
  dsimp only at hl
  subst hl
  have h3 := ofOption_ok h3
  unfold Message.decInts at h3
  split at h3
  · cases h3
  · cases h3
  · rename_i xs hx
    cases h4 : xs.mapM (fun x => decI32 (some x)) with
    | none => simp [h4] at h3
    | some l' =>
      simp [h4] at h3
      subst h3
      exact mapM_range h4 n hn
  · cases h3

theorem listAck_range {m : Msg} {l : List Msg} (h : decode gatewayListDHTOfferAck m = .ok l) : ∀ x ∈ l, Message.InRange x := by
  obtain ⟨-, fs, ⟨w1, ⟨⟩⟩, h1, h2⟩ := decode_inv h
  cases h2
  intro x hx
  obtain ⟨j, hj⟩ := slice_mem (decFields_cons h1).1 x hx
  exact unmarshal_range hj

/-! ## the invariant -/

structure Kept (H : Hash) (c : Core) : Prop where
  id : ∀ p, c.id = some p → Proper p
  heap : ∀ o ∈ c.heap, Built H o
  dht : Refs c.offers.dht (fun r => ∃ o, c.heap[r]? = some o ∧ o.cids.length = 1)
  sent : ∀ o ∈ c.sent.flatMap (·.2), Built H o
  acks : ∀ s g v, entry c s g = some v → Message.InRange v.1 ∧ Message.InRange v.2

theorem kept_new (H : Hash) : Kept H newCore := by
  refine ⟨?_, ?_, ?_, ?_, ?_⟩
  · intro p h; cases h
  · intro o h; cases h
  · intro x h; cases h
  · intro o h; cases h
  · intro s g v h; cases h

/-- What one request does. -/
structure Stepped (H : Hash) (E : Env) (c : Core) (outs : List Out) (c' : Core) : Prop where
  kept : Kept H c'
  sent : ∀ gid, Proper gid → (mget c'.sent (Ids.toStr gid)).getD [] = (mget c.sent (Ids.toStr gid)).getD [] ++ confirmedBy gid outs
  total : (c'.sent.flatMap (·.2)).Perm (c.sent.flatMap (·.2) ++ allConfirmed outs)
  grow : ∀ s g, (entry c s g).isSome → (entry c' s g).isSome
  sound : ∀ s g v, entry c' s g = some v → entry c s g = some v ∨
    ∃ cid gid, Proper cid ∧ Proper gid ∧ s = Ids.toStr cid ∧ g = Ids.toStr gid ∧ Evidence E cid gid v.1 v.2
  conf : ∀ g os, .confirmed g os ∈ outs → Proper g ∧ ∃ n req ack, .asked g req ∈ outs ∧ E.exchange n g req = some ack ∧ SignedBy E g ack ∧
    ((Carries E req os ∧ Acknowledges E g req ack) ∨
      ∃ o pid nonce gw d dig, os = [o] ∧ decode (providerPublishGroupOfferRequest E.H) req = .ok (pid, nonce, some o) ∧
        decode providerPublishGroupOfferResponse ack = .ok (gw, d) ∧ Offer.digest E.H512 o = .ok dig ∧ readDigest E d = dig)
  group : c'.groupGateways = c.groupGateways

theorem stepped_same {H : Hash} {E : Env} {c : Core} (hk : Kept H c) {outs : List Out} (hq : Quiet outs) : Stepped H E c outs c :=
  ⟨hk, fun gid _ => by simp [quiet_by hq], by simp [quiet_all hq], fun _ _ h => h, fun _ _ _ h => Or.inl h,
    fun g os hm => absurd hm (hq g os), rfl⟩

theorem quiet_append {a b : List Out} (ha : Quiet a) (hb : Quiet b) : Quiet (a ++ b) := by
  intro g os hm
  rcases List.mem_append.1 hm with h | h
  · exact ha g os h
  · exact hb g os h

theorem quiet_respond {α : Type} {E : Env} {c : Core} {codec : Codec α} {b1 b2 : List Out} {a : α} (h1 : Quiet b1) (h2 : Quiet b2) :
    Quiet (respond E c codec b1 b2 a) := by
  unfold respond
  split
  · intro g os; simp
  · exact h1
  · split
    · intro g os; simp
    · exact h2
    · intro g os; simp

/-- A change that leaves offers sent, acknowledgements and supporting gateways alone. -/
theorem stepped_frame {H : Hash} {E : Env} {c c' : Core} {outs : List Out} (hk : Kept H c') (h1 : c'.sent = c.sent) (h2 : c'.acks = c.acks)
    (h3 : c'.groupGateways = c.groupGateways) (hq : Quiet outs) : Stepped H E c outs c' := by
  refine ⟨hk, fun gid _ => by simp [quiet_by hq, h1], by simp [quiet_all hq, h1], ?_, ?_, fun g os hm => absurd hm (hq g os), h3⟩
  · intro s g h; unfold entry at *; rw [h2]; exact h
  · intro s g v h; unfold entry at *; rw [h2] at h; exact Or.inl h

/-! ## publishing -/

theorem storeLoop_refs {E : Env} {heap : List CidOffer} {final : CidOffer} (hfin : final.cids.length = 1) {mgr mgr' : Mgr Nat} :
    ∀ (os : List CidOffer), Refs mgr.dht (fun r => ∃ o, (heap ++ [final])[r]? = some o ∧ o.cids.length = 1) →
      storeLoop E heap heap.length mgr os = .ok mgr' →
      Refs mgr'.dht (fun r => ∃ o, (heap ++ [final])[r]? = some o ∧ o.cids.length = 1) := by
  intro os
  induction os generalizing mgr with
  | nil => intro h he; cases he; exact h
  | cons o os ih =>
    intro h he
    unfold storeLoop at he
    simp only [Bind.bind, Except.bind] at he
    split at he
    · cases he
    · rename_i x hx
      obtain ⟨m1, ok⟩ := x
      refine ih (refs_addDht h ?_ hx) he
      intro _
      exact ⟨final, by simp, hfin⟩

theorem kept_dht_grow {H : Hash} {c : Core} (hk : Kept H c) (o : CidOffer) :
    Refs c.offers.dht (fun r => ∃ x, (c.heap ++ [o])[r]? = some x ∧ x.cids.length = 1) :=
  refs_mono hk.dht (fun r ⟨x, hx, hl⟩ => ⟨x, by
    rw [List.getElem?_append_left (by
      obtain ⟨h, -⟩ := List.getElem?_eq_some_iff.1 hx
      exact h)]
    exact hx, hl⟩)

theorem allConfirmed_mem {outs : List Out} {o : CidOffer} (h : o ∈ allConfirmed outs) : ∃ g os, .confirmed g os ∈ outs ∧ o ∈ os := by
  induction outs with
  | nil => cases h
  | cons x outs ih =>
    cases x with
    | confirmed g os =>
      rcases List.mem_append.1 h with h | h
      · exact ⟨g, os, by simp, h⟩
      · obtain ⟨g', os', h1, h2⟩ := ih h
        exact ⟨g', os', by simp [h1], h2⟩
    | _ =>
      obtain ⟨g', os', h1, h2⟩ := ih h
      exact ⟨g', os', by simp [h1], h2⟩

theorem genuine_range {E : Env} (hpr : ProtocolOk E.pr) (hx : ∀ n gid m r, E.exchange n gid m = some r → Message.InRange r)
    {id : Option Id} {offers : List CidOffer} {gid : Id} {req ack : Msg} (h : Genuine E id offers gid req ack) :
    Message.InRange req ∧ Message.InRange ack := by
  obtain ⟨m, sig, n, he, rfl, hex, -⟩ := h
  exact ⟨encode_range hpr (show inI32 302 from ⟨by decide, by decide⟩) he sig, hx _ _ _ _ hex⟩

/-- A request that encodes is read back. -/
theorem carries_of_encode {E : Env} (hpr : ProtocolOk E.pr) {id : Option Id} (hid : ∀ p, id = some p → Proper p) {offers : List CidOffer}
    (hb : ∀ o ∈ offers, Built E.H o) (hs : ∀ o ∈ offers, o.cids.length = 1) (hl : inI64 offers.length) {m : Msg}
    (he : encode (providerPublishDHTOfferRequest E.H) E.pr (id, 1, offers) = .ok m) (sig : List Char) :
    decode (providerPublishDHTOfferRequest E.H) { m with signature := sig } = .ok (id, 1, offers) := by
  cases id with
  | none =>
    unfold encode at he
    obtain ⟨v, hv, -⟩ := res_ok_of_bind he
    obtain ⟨w, hw, -⟩ := res_ok_of_bind hv
    cases hw
  | some p =>
    obtain ⟨m', he', -, -, -, hd⟩ := C30_providerPublishDHTOfferRequest E.H E.pr hpr (some p) 1 offers ⟨p, rfl, hid p rfl⟩
      ⟨by decide, by decide⟩ hb hs hl
    rw [he] at he'
    cases he'
    exact (hd sig).2

theorem stepped_publishDht {H : Hash} {E : Env} {c : Core} {m : Msg} (hs : Sane H (E, .publishDht, m)) (hk : Kept H c) :
    Stepped H E c (publishDht E c m).2 (publishDht E c m).1 := by
  obtain ⟨rfl, hord, -, hpr, hex, hlen⟩ := hs
  dsimp only at *
  unfold publishDht
  split
  · exact stepped_same hk (by intro g os; simp)
  rename_i k v hkey
  split
  · exact stepped_same hk (by intro g os; simp)
  · exact stepped_same hk (by intro g os; simp)
  rename_i cids price expiry qos hd
  split
  · exact stepped_same hk (by intro g os; simp)
  rename_i hne
  split
  · exact stepped_same hk (by intro g os; simp)
  · exact stepped_same hk (by intro g os; simp)
  rename_i offers hmk
  split
  · exact stepped_same hk (by intro g os; simp)
  rename_i mgr hst
  have hl : cids.length ≠ 0 ∧ cids.length = price.length ∧ cids.length = expiry.length ∧ cids.length = qos.length := by
    refine ⟨fun h => hne (Or.inl h), ?_, ?_, ?_⟩ <;> apply Classical.byContradiction <;> intro h
    · exact hne (Or.inr (Or.inl h))
    · exact hne (Or.inr (Or.inr (Or.inl h)))
    · exact hne (Or.inr (Or.inr (Or.inr h)))
  have hmade := makeOffers_made hkey hl.2.1 hl.2.2.1 hl.2.2.2 hmk
  have hterms := publishDht_terms hd
  have hcids := madeAll_cids hmade
  have hbuilt : ∀ o ∈ offers, Built E.H o ∧ ∃ cid, Proper cid ∧ o.cids = [cid] := by
    intro o ho
    obtain ⟨cid, hcid, p, hp, e, he, q, hq, hm⟩ := madeAll_mem hmade o ho
    have hpc : IdsOk [cid] := by intro x hx; simp at hx; subst hx; exact hterms.1 _ hcid
    refine ⟨made_built hk.id hpc (hterms.2.1 p hp) (hterms.2.2.1 e he) (hterms.2.2.2 q hq) hm, cid, hterms.1 _ hcid, ?_⟩
    obtain ⟨k', v', -, -, h2, -⟩ := hm
    exact h2
  have holen : offers.length = cids.length := by
    have := congrArg List.length hcids
    simpa using this
  have hon : offers ≠ [] := fun h => hl.1 (by rw [← holen, h]; rfl)
  have hlast : offers.getLastD noOffer ∈ offers := by
    rw [List.getLastD_eq_getLast?, List.getLast?_eq_some_getLast hon]
    exact List.getLast_mem hon
  have hsingle : ∀ o ∈ offers, o.cids.length = 1 := by
    intro o ho
    obtain ⟨-, cid, -, h⟩ := hbuilt o ho
    rw [h]; rfl
  have hrun := ranDht_near (E := E) (offers := offers) cids { c with heap := c.heap ++ [offers.getLastD noOffer], offers := mgr } 0
  have hcar : ∀ gid req ack, Genuine E c.id offers gid req ack → Carries E req offers := by
    rintro gid req ack ⟨m0, sig, n, he, rfl, -⟩
    exact ⟨c.id, 1, carries_of_encode hpr hk.id (fun o ho => (hbuilt o ho).1) hsingle (holen ▸ hlen _ _ _ _ hd) he sig⟩
  have main : ∀ tail, Quiet tail → Stepped E.H E c
      ((nearLoop E offers { c with heap := c.heap ++ [offers.getLastD noOffer], offers := mgr } 0 cids).2.1 ++ tail)
      (nearLoop E offers { c with heap := c.heap ++ [offers.getLastD noOffer], offers := mgr } 0 cids).1 := by
    intro tail htail
    refine ⟨⟨?_, ?_, ?_, ?_, ?_⟩, ?_, ?_, ?_, ?_, ?_, ?_⟩
    · rw [hrun.ran.id]; exact hk.id
    · rw [hrun.ran.heap]
      intro o ho
      rcases List.mem_append.1 ho with ho | ho
      · exact hk.heap o ho
      · rw [List.mem_singleton.1 ho]
        exact (hbuilt _ hlast).1
    · rw [hrun.ran.offers, hrun.ran.heap]
      exact storeLoop_refs (hsingle _ hlast) offers (kept_dht_grow hk _) hst
    · intro o ho
      rcases List.mem_append.1 (hrun.ran.total.mem_iff.1 ho) with ho | ho
      · exact hk.sent o ho
      · obtain ⟨g, os, h1, h2⟩ := allConfirmed_mem ho
        obtain ⟨rfl, -⟩ := hrun.conf g os h1
        exact (hbuilt o h2).1
    · intro s g v hv
      rcases hrun.sound s g v hv with hv | ⟨gid, -, -, -, hg⟩
      · exact hk.acks s g v hv
      · exact genuine_range hpr hex hg
    · intro gid hg
      rw [confirmedBy_append, quiet_by htail, List.append_nil]
      exact hrun.ran.sent gid hg
    · rw [allConfirmed_append, quiet_all htail, List.append_nil]
      exact hrun.ran.total
    · exact hrun.grow
    · intro s g v hv
      rcases hrun.sound s g v hv with hv | ⟨gid, hp, hgs, ⟨o, ho, cid, rest, hc, hss⟩, hg⟩
      · exact Or.inl hv
      · refine Or.inr ⟨cid, gid, ?_, hp, hss, hgs, hg.choose_spec.choose_spec.choose_spec.2.2.2.2, offers, hcar _ _ _ hg, o, ho, ?_⟩
        · obtain ⟨-, cid', hp', hc'⟩ := hbuilt o ho
          rw [hc] at hc'
          cases hc'
          exact hp'
        · have := hsingle o ho
          rw [hc] at this ⊢
          simp at this
          simp [this]
    · intro g os hm
      rcases List.mem_append.1 hm with hm | hm
      · obtain ⟨rfl, hp, req, ack, ha, hg⟩ := hrun.conf g os hm
        have hg' := hg
        obtain ⟨m0, sig, n, he, hr, hx, h1, h2⟩ := hg'
        exact ⟨hp, n, req, ack, List.mem_append.2 (Or.inl ha), hx, h1, Or.inl ⟨hcar _ _ _ hg, h2⟩⟩
      · exact absurd hm (htail g os)
    · exact hrun.ran.group
  split
  · rename_i c' out hnl
    have := main [] (by intro g os; simp)
    rw [hnl] at this
    simpa using this
  · rename_i c' out hnl
    have := main (respond E c' providerAdminPublishDHTOfferResponse [] [] true) (quiet_respond (by intro g os; simp) (by intro g os; simp))
    rw [hnl] at this
    exact this

theorem stepped_publishGroup {H : Hash} {E : Env} {c : Core} {m : Msg} (hs : Sane H (E, .publishGroup, m)) (hk : Kept H c) :
    Stepped H E c (publishGroup E c m).2 (publishGroup E c m).1 := by
  obtain ⟨rfl, hord, -, hpr, hex, -⟩ := hs
  dsimp only at *
  unfold publishGroup
  split
  · exact stepped_same hk (by intro g os; simp)
  rename_i k v hkey
  split
  · exact stepped_same hk (by intro g os; simp)
  · exact stepped_same hk (by intro g os; simp)
  rename_i cids price expiry qos hd
  split
  · exact stepped_same hk (by intro g os; simp)
  rename_i o0 hnew
  split
  · exact stepped_same hk (by intro g os; simp)
  · exact stepped_same hk (by intro g os; simp)
  rename_i o hsg
  split
  · exact stepped_same hk (by intro g os; simp)
  rename_i mgr ok hst
  have hmade := made_sign hkey hnew hsg
  have hterms := publishGroup_terms hd
  have hbuilt : Built E.H o := made_built hk.id hterms.1 hterms.2.1 hterms.2.2.1 hterms.2.2.2 hmade
  have hrun := ranGroup_loop (E := E) (o := o) E.gateways { c with heap := c.heap ++ [o], offers := mgr } 0
  have main : ∀ tail, Quiet tail → Stepped E.H E c
      ((gatewayLoop (fun c n gid => publishGroupTo E c n o gid) { c with heap := c.heap ++ [o], offers := mgr } 0 E.gateways).2.1 ++ tail)
      (gatewayLoop (fun c n gid => publishGroupTo E c n o gid) { c with heap := c.heap ++ [o], offers := mgr } 0 E.gateways).1 := by
    intro tail htail
    refine ⟨⟨?_, ?_, ?_, ?_, ?_⟩, ?_, ?_, ?_, ?_, ?_, ?_⟩
    · rw [hrun.ran.id]; exact hk.id
    · rw [hrun.ran.heap]
      intro x ho
      rcases List.mem_append.1 ho with ho | ho
      · exact hk.heap x ho
      · simp at ho
        subst ho
        exact hbuilt
    · rw [hrun.ran.offers, hrun.ran.heap]
      dsimp only
      rw [(addGroup_dht hst).1]
      exact kept_dht_grow hk _
    · intro x ho
      rcases List.mem_append.1 (hrun.ran.total.mem_iff.1 ho) with ho | ho
      · exact hk.sent x ho
      · obtain ⟨g, os, h1, h2⟩ := allConfirmed_mem ho
        obtain ⟨rfl, -⟩ := hrun.conf g os h1
        simp at h2
        subst h2
        exact hbuilt
    · intro s g v hv
      unfold entry at hv
      rw [hrun.acks] at hv
      exact hk.acks s g v hv
    · intro gid hg
      rw [confirmedBy_append, quiet_by htail, List.append_nil]
      exact hrun.ran.sent gid hg
    · rw [allConfirmed_append, quiet_all htail, List.append_nil]
      exact hrun.ran.total
    · intro s g h
      unfold entry at *
      rw [hrun.acks]
      exact h
    · intro s g v hv
      unfold entry at *
      rw [hrun.acks] at hv
      exact Or.inl hv
    · intro g os hm
      rcases List.mem_append.1 hm with hm | hm
      · obtain ⟨rfl, hp, req, ack, ha, hg⟩ := hrun.conf g os hm
        obtain ⟨m0, sig, n, he, rfl, hx, h1, g', d, dig, h2, h3, h4⟩ := hg
        refine ⟨hp, n, _, ack, List.mem_append.2 (Or.inl ha), hx, h1, Or.inr ⟨o, c.id, 1, g', d, dig, rfl, ?_, h2, h3, h4⟩⟩
        obtain ⟨kk, vv, -, -, -, -, -, -, -, p, hid, -⟩ := hmade
        have hid' : c.id = some p := hid
        obtain ⟨m', he', -, -, -, hdel⟩ := C30_providerPublishGroupOfferRequest E.H E.pr hpr c.id 1 (some o) ⟨p, hid', hk.id p hid'⟩
          ⟨by decide, by decide⟩ ⟨o, rfl, hbuilt⟩
        have he2 : encode (providerPublishGroupOfferRequest E.H) E.pr (c.id, 1, some o) = .ok m0 := he
        rw [he2] at he'
        cases he'
        exact (hdel sig).2
      · exact absurd hm (htail g os)
    · exact hrun.ran.group
  split
  · rename_i c' out n' hnl
    have := main [] (by intro g os; simp)
    rw [hnl] at this
    simpa using this
  · rename_i c' out n' hnl
    have := main (respond E c' providerAdminPublishGroupOfferResponse [] [] true) (quiet_respond (by intro g os; simp) (by intro g os; simp))
    rw [hnl] at this
    exact this

end FcRetrieval.Provider
