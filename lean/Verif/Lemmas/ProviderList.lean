import Verif.Lemmas.ProviderInv
/-!
# Lemmas on the listing of offers for a gateway, and the history of a provider
-/
set_option linter.unusedSimpArgs false

namespace FcRetrieval.Provider
open FcRetrieval.Ids (Id Proper)
open FcRetrieval.Message (Msg)
open FcRetrieval.Merkle (Hash)
open FcRetrieval.Offer (CidOffer Built)
open FcRetrieval.Crypto (KeyPair)
open FcRetrieval.Register (Record)
open FcRetrieval.Wire
open FcRetrieval.Codecs
open FcRetrieval.Gateway (fromHex_len res_ok_of_bind ofOption_ok verify_snd decode_inv decFields_cons)
open FcRetrieval.OfferMgr (toStr_inj Clock Mgr)

/-! ## chunks -/

theorem chunks_flatten (offers : List CidOffer) : (chunks offers).flatten = offers := by
  induction offers using chunks.induct with
  | case1 offers h ih =>
    rw [chunks, if_pos h, List.flatten_cons, ih, List.take_append_drop]
  | case2 offers h => rw [chunks, if_neg h]; simp

theorem chunks_length (offers : List CidOffer) : ∀ p ∈ chunks offers, p.length ≤ 50 := by
  induction offers using chunks.induct with
  | case1 offers h ih =>
    rw [chunks, if_pos h]
    intro p hp
    rcases List.mem_cons.1 hp with rfl | hp
    · simp; omega
    · exact ih p hp
  | case2 offers h => rw [chunks, if_neg h]; intro p hp; simp at hp; subst hp; omega

theorem chunks_ne (offers : List CidOffer) : offers ≠ [] → ∀ p ∈ chunks offers, p ≠ [] := by
  induction offers using chunks.induct with
  | case1 offers h ih =>
    intro _
    rw [chunks, if_pos h]
    intro p hp
    rcases List.mem_cons.1 hp with rfl | hp
    · intro h0
      have : (offers.take 50).length = 0 := by rw [h0]; rfl
      rw [List.length_take] at this
      omega
    · refine ih (fun h0 => ?_) p hp
      have := congrArg List.length h0
      simp at this
      omega
  | case2 offers h => intro hn; rw [chunks, if_neg h]; intro p hp; simp at hp; subst hp; exact hn

theorem chunks_count (offers : List CidOffer) : (chunks offers).length ≤ offers.length / 50 + 1 := by
  induction offers using chunks.induct with
  | case1 offers h ih =>
    rw [chunks, if_pos h, List.length_cons]
    simp at ih
    omega
  | case2 offers h => rw [chunks, if_neg h]; simp

/-! ## the messages -/

theorem listMessages_ok {E : Env} {c : Core} (hpr : ProtocolOk E.pr) (hid : ∀ p, c.id = some p → Proper p) :
    ∀ {parts : List (List CidOffer)} {msgs : List Msg}, (∀ p ∈ parts, (∀ o ∈ p, Built E.H o ∧ o.cids.length = 1) ∧ inI64 p.length) →
      listMessages E c parts = .ok msgs →
      msgs.map (decode (providerPublishDHTOfferRequest E.H)) = parts.map (fun p => .ok (c.id, 1, p)) ∧ ∀ m ∈ msgs, Message.InRange m
  | [], msgs, _, h => by cases h; exact ⟨rfl, by simp⟩
  | p :: parts, msgs, hb, h => by
    unfold listMessages at h
    split at h
    · cases h
    · cases h
    · rename_i m hm
      split at h
      · cases h
      · cases h
      · rename_i m' hs
        obtain ⟨sig, rfl⟩ := signMsg_ok hs
        simp only [Bind.bind, Except.bind] at h
        split at h
        · cases h
        · rename_i ms hms
          cases h
          have hp := hb p (by simp)
          obtain ⟨h1, h2⟩ := listMessages_ok hpr hid (fun q hq => hb q (by simp [hq])) hms
          refine ⟨?_, ?_⟩
          · rw [List.map_cons, List.map_cons, h1, carries_of_encode hpr hid (fun o ho => (hp.1 o ho).1) (fun o ho => (hp.1 o ho).2) hp.2 hm sig]
          · intro x hx
            rcases List.mem_cons.1 hx with rfl | hx
            · exact encode_range hpr (show inI32 302 from ⟨by decide, by decide⟩) hm sig
            · exact h2 x hx

theorem listMessages_can {E : Env} {c : Core} (hpr : ProtocolOk E.pr) (hk : CanSign E c) : ∀ {parts : List (List CidOffer)},
    (∀ p ∈ parts, (∀ o ∈ p, Built E.H o ∧ o.cids.length = 1) ∧ inI64 p.length) → ∃ msgs, listMessages E c parts = .ok msgs
  | [], _ => ⟨[], rfl⟩
  | p :: parts, hb => by
    obtain ⟨msgs, hms⟩ := listMessages_can hpr hk (fun q hq => hb q (List.mem_cons_of_mem _ hq))
    have hk' := hk
    obtain ⟨id, k, v, hid, hp, -, -⟩ := hk'
    have hb' := hb p (by simp)
    obtain ⟨m, hm, -⟩ := C30_providerPublishDHTOfferRequest E.H E.pr hpr c.id 1 p ⟨id, hid, hp⟩ ⟨by decide, by decide⟩
      (fun o ho => (hb'.1 o ho).1) (fun o ho => (hb'.1 o ho).2) hb'.2
    obtain ⟨sig, hs⟩ := signMsg_can hk m
    refine ⟨{ m with signature := sig } :: msgs, ?_⟩
    unfold listMessages
    rw [hm]
    dsimp only
    rw [hs]
    dsimp only
    rw [hms]
    rfl

/-! ## the acknowledgements -/

theorem recordListed_spec {gid : Id} {req ack : Msg} : ∀ (os : List CidOffer) (c : Core),
    (∃ a, (recordListed gid req ack c os).1 = { c with acks := a }) ∧
    (∀ s, (mget (recordListed gid req ack c os).1.acks s).isSome ↔ (mget c.acks s).isSome) ∧
    (∀ s g v, entry (recordListed gid req ack c os).1 s g = some v → entry c s g = some v ∨
      (v = (req, ack) ∧ g = Ids.toStr gid ∧ ∃ o ∈ os, ∃ cid rest, o.cids = cid :: rest ∧ s = Ids.toStr cid)) ∧
    (∀ s g, (entry c s g).isSome → (entry (recordListed gid req ack c os).1 s g).isSome) ∧
    ((recordListed gid req ack c os).2 = true ↔ ∀ o ∈ os, ∃ cid rest, o.cids = cid :: rest ∧ (mget c.acks (Ids.toStr cid)).isSome) ∧
    ((recordListed gid req ack c os).2 = true → ∀ o ∈ os, ∀ cid rest, o.cids = cid :: rest →
      (entry (recordListed gid req ack c os).1 (Ids.toStr cid) (Ids.toStr gid)).isSome)
  | [], c => ⟨⟨c.acks, rfl⟩, fun _ => Iff.rfl, fun _ _ _ h => Or.inl h, fun _ _ h => h, by simp [recordListed], by simp⟩
  | o :: os, c => by
    unfold recordListed
    split
    · rename_i hc
      refine ⟨⟨c.acks, rfl⟩, fun _ => Iff.rfl, fun _ _ _ h => Or.inl h, fun _ _ h => h, ?_, by simp⟩
      simp [hc]
    · rename_i cid rest hc
      split
      · rename_i hm
        refine ⟨⟨c.acks, rfl⟩, fun _ => Iff.rfl, fun _ _ _ h => Or.inl h, fun _ _ h => h, ?_, by simp⟩
        simp [hc, hm]
      · rename_i gs hgs
        have hent : ∀ s g, entry { c with acks := mset c.acks (Ids.toStr cid) (mset gs (Ids.toStr gid) (req, ack)) } s g =
            if s = Ids.toStr cid ∧ g = Ids.toStr gid then some (req, ack) else entry c s g := by
          intro s g
          unfold entry
          dsimp only
          rw [mget_mset]
          by_cases hs : Ids.toStr cid = s
          · subst hs
            rw [if_pos rfl, Option.bind_some, mget_mset, hgs, Option.bind_some]
            by_cases hg : Ids.toStr gid = g
            · rw [if_pos hg, if_pos ⟨rfl, hg.symm⟩]
            · rw [if_neg hg, if_neg (fun h => hg h.2.symm)]
          · rw [if_neg hs, if_neg (fun h => hs h.1.symm)]
        have hout : ∀ s, (mget (mset c.acks (Ids.toStr cid) (mset gs (Ids.toStr gid) (req, ack))) s).isSome ↔ (mget c.acks s).isSome := by
          intro s
          rw [mget_mset]
          split
          · rename_i e
            subst e
            simp [hgs]
          · exact Iff.rfl
        obtain ⟨⟨a, h1⟩, h2, h3, h4, h5, h6⟩ :=
          recordListed_spec os { c with acks := mset c.acks (Ids.toStr cid) (mset gs (Ids.toStr gid) (req, ack)) } (gid := gid) (req := req) (ack := ack)
        refine ⟨⟨a, h1⟩, fun s => (h2 s).trans (hout s), ?_, ?_, ?_, ?_⟩
        · intro s g v hv
          rcases h3 s g v hv with hv | ⟨rfl, hg, o', ho', hx⟩
          · rw [hent] at hv
            split at hv
            · rename_i hsg
              cases hv
              exact Or.inr ⟨rfl, hsg.2, o, by simp, cid, rest, hc, hsg.1⟩
            · exact Or.inl hv
          · exact Or.inr ⟨rfl, hg, o', by simp [ho'], hx⟩
        · intro s g hs
          apply h4
          rw [hent]
          split
          · rfl
          · exact hs
        · rw [h5]
          constructor
          · intro h o' ho'
            rcases List.mem_cons.1 ho' with rfl | ho'
            · exact ⟨cid, rest, hc, by simp [hgs]⟩
            · obtain ⟨cid', rest', e, hs⟩ := h o' ho'
              exact ⟨cid', rest', e, (hout _).1 hs⟩
          · intro h o' ho'
            obtain ⟨cid', rest', e, hs⟩ := h o' (by simp [ho'])
            exact ⟨cid', rest', e, (hout _).2 hs⟩
        · intro hok o' ho' cid' rest' hc'
          rcases List.mem_cons.1 ho' with rfl | ho'
          · rw [hc] at hc'
            cases hc'
            apply h4
            rw [hent, if_pos ⟨rfl, rfl⟩]
            rfl
          · exact h6 hok o' ho' cid' rest' hc'

theorem takeAcks_spec {E : Env} {k : KeyPair} {gid : Id} (hr : Registered E gid k) : ∀ (pairs : List (Msg × Msg)) (c : Core),
    (∀ p ∈ pairs, ∃ offers, Carries E p.1 offers ∧ ∀ o ∈ offers, ∃ cid, Proper cid ∧ o.cids = [cid]) →
    (∃ a, (takeAcks E k gid c pairs).1 = { c with acks := a }) ∧
    (∀ s, (mget (takeAcks E k gid c pairs).1.acks s).isSome ↔ (mget c.acks s).isSome) ∧
    (∀ s g v, entry (takeAcks E k gid c pairs).1 s g = some v → entry c s g = some v ∨
      (v ∈ pairs ∧ g = Ids.toStr gid ∧ ∃ cid, Proper cid ∧ s = Ids.toStr cid ∧ Evidence E cid gid v.1 v.2)) ∧
    (∀ s g, (entry c s g).isSome → (entry (takeAcks E k gid c pairs).1 s g).isSome) ∧
    Quiet (takeAcks E k gid c pairs).2
  | [], c, _ => ⟨⟨c.acks, rfl⟩, fun _ => Iff.rfl, fun _ _ _ h => Or.inl h, fun _ _ h => h, by intro g os; simp [takeAcks]⟩
  | (req, ack) :: rest, c, hp => by
    have hstop : ∀ out : List Out, Quiet out → (∃ a, (c, out).1 = { c with acks := a }) ∧ (∀ s, (mget (c, out).1.acks s).isSome ↔ (mget c.acks s).isSome) ∧
        (∀ s g v, entry (c, out).1 s g = some v → entry c s g = some v ∨
          (v ∈ (req, ack) :: rest ∧ g = Ids.toStr gid ∧ ∃ cid, Proper cid ∧ s = Ids.toStr cid ∧ Evidence E cid gid v.1 v.2)) ∧
        (∀ s g, (entry c s g).isSome → (entry (c, out).1 s g).isSome) ∧ Quiet (c, out).2 :=
      fun out hq => ⟨⟨c.acks, rfl⟩, fun _ => Iff.rfl, fun _ _ _ h => Or.inl h, fun _ _ h => h, hq⟩
    unfold takeAcks
    split
    · exact hstop _ (by intro g os; simp)
    · exact hstop _ (by intro g os; simp)
    · rename_i nonce sig hd
      split
      · rename_i hv
        obtain ⟨offers, ⟨pid, n, hdec⟩, hone⟩ := hp (req, ack) (by simp)
        rw [hdec]
        dsimp only
        have hev : ∀ cid o, o ∈ offers → o.cids = [cid] → Evidence E cid gid req ack := fun cid o ho hc =>
          ⟨⟨k, nonce, sig, hr, hd, hv⟩, offers, ⟨pid, n, hdec⟩, o, ho, hc⟩
        obtain ⟨⟨a, h1⟩, h2, h3, h4, -, -⟩ := recordListed_spec (gid := gid) (req := req) (ack := ack) offers c
        have h3' : ∀ s g v, entry (recordListed gid req ack c offers).1 s g = some v → entry c s g = some v ∨
            (v ∈ (req, ack) :: rest ∧ g = Ids.toStr gid ∧ ∃ cid, Proper cid ∧ s = Ids.toStr cid ∧ Evidence E cid gid v.1 v.2) := by
          intro s g v hv
          rcases h3 s g v hv with hv | ⟨rfl, hg, o, ho, cid, rest', hc, hs⟩
          · exact Or.inl hv
          · obtain ⟨cid', hp', hc'⟩ := hone o ho
            rw [hc] at hc'
            cases hc'
            exact Or.inr ⟨by simp, hg, cid, hp', hs, hev cid o ho hc⟩
        split
        · rename_i c' he
          rw [he] at h1 h2 h3' h4
          exact ⟨⟨a, h1⟩, h2, h3', h4, by intro g os; simp⟩
        · rename_i c' he
          rw [he] at h1 h2 h3' h4
          dsimp only at h1
          obtain ⟨⟨a', i1⟩, i2, i3, i4, i5⟩ := takeAcks_spec hr rest c' (fun p hp' => hp p (by simp [hp']))
          refine ⟨⟨a', ?_⟩, fun s => (i2 s).trans (h2 s), ?_, fun s g hs => i4 s g (h4 s g hs), i5⟩
          · rw [i1, h1]
          · intro s g v hv
            rcases i3 s g v hv with hv | ⟨hm, hg, cid, hx⟩
            · exact h3' s g v hv
            · exact Or.inr ⟨by simp [hm], hg, cid, hx⟩
      · exact hstop _ (by intro g os; simp)

theorem finishListing_spec {E : Env} {k : KeyPair} {gid : Id} (hr : Registered E gid k) (c : Core) (msgs : List Msg) (reply : Option Msg)
    (hp : ∀ m ∈ msgs, ∃ offers, Carries E m offers ∧ ∀ o ∈ offers, ∃ cid, Proper cid ∧ o.cids = [cid]) (hrng : ∀ m ∈ msgs, Message.InRange m) :
    (∃ a, (finishListing E k gid c msgs reply).1 = { c with acks := a }) ∧
    (∀ s g v, entry (finishListing E k gid c msgs reply).1 s g = some v → entry c s g = some v ∨
      (g = Ids.toStr gid ∧ (Message.InRange v.1 ∧ Message.InRange v.2) ∧ ∃ cid, Proper cid ∧ s = Ids.toStr cid ∧ Evidence E cid gid v.1 v.2)) ∧
    (∀ s g, (entry c s g).isSome → (entry (finishListing E k gid c msgs reply).1 s g).isSome) ∧
    Quiet (finishListing E k gid c msgs reply).2 := by
  have hstop : ∀ out : List Out, Quiet out → (∃ a, (c, out).1 = { c with acks := a }) ∧
      (∀ s g v, entry (c, out).1 s g = some v → entry c s g = some v ∨
        (g = Ids.toStr gid ∧ (Message.InRange v.1 ∧ Message.InRange v.2) ∧ ∃ cid, Proper cid ∧ s = Ids.toStr cid ∧ Evidence E cid gid v.1 v.2)) ∧
      (∀ s g, (entry c s g).isSome → (entry (c, out).1 s g).isSome) ∧ Quiet (c, out).2 :=
    fun out hq => ⟨⟨c.acks, rfl⟩, fun _ _ _ h => Or.inl h, fun _ _ h => h, hq⟩
  unfold finishListing
  split
  · exact hstop _ (by intro g os; simp)
  · rename_i acks
    split
    · split
      · exact hstop _ (by intro g os; simp)
      · rename_i r hr0
        have hl : ∀ x ∈ ackList (decode gatewayListDHTOfferAck acks), Message.InRange x := by
          cases hd : decode gatewayListDHTOfferAck acks with
          | ok l => exact listAck_range hd
          | _ => intro x hx; cases hx
        generalize ackList (decode gatewayListDHTOfferAck acks) = l at hl ⊢
        split
        · exact hstop _ (by intro g os; simp)
        · obtain ⟨h1, -, h3, h4, h5⟩ := takeAcks_spec (k := k) hr (msgs.zip l) c (fun p hm => hp p.1 (List.of_mem_zip hm).1)
          refine ⟨h1, ?_, h4, h5⟩
          intro s g v hv
          rcases h3 s g v hv with hv | ⟨hm, hg, hx⟩
          · exact Or.inl hv
          · have := List.of_mem_zip (a := v.1) (b := v.2) hm
            exact Or.inr ⟨hg, ⟨hrng _ this.1, hl _ this.2⟩, hx⟩
    · exact hstop _ (by intro g os; simp)

/-! ## what the listing finds -/

theorem kept_range {H : Hash} {E : Env} {c : Core} (hk : Kept H c) (hord : ∀ dm, (E.order dm).Perm dm) {a b : Id} {max : Int} {mgr : Mgr Nat}
    {offers : List CidOffer} {found : Bool} (h : OfferMgr.getDhtRange E.H512 (deref c.heap) E.order E.now c.offers a b max = .ok (mgr, offers, found)) :
    Kept H { c with offers := mgr } ∧ (∀ o ∈ offers, Built H o ∧ o.cids.length = 1) ∧ (found = true → offers ≠ []) := by
  obtain ⟨h1, h2, h3⟩ := refs_range hord hk.dht h
  refine ⟨⟨hk.id, hk.heap, h1, hk.sent, hk.acks⟩, ?_, h3⟩
  intro o ho
  obtain ⟨r, ⟨x, hx, hl⟩, rfl⟩ := h2 o ho
  have : deref c.heap r = x := by
    unfold deref
    rw [List.getD_eq_getElem?_getD, hx]
    rfl
  rw [this]
  exact ⟨hk.heap x (List.mem_of_getElem? hx), hl⟩

theorem parts_ok {H : Hash} {offers : List CidOffer} (h : ∀ o ∈ offers, Built H o ∧ o.cids.length = 1) (found : Bool) :
    ∀ p ∈ (if found then chunks offers else []), (∀ o ∈ p, Built H o ∧ o.cids.length = 1) ∧ inI64 p.length := by
  intro p hp
  split at hp
  · refine ⟨fun o ho => h o ?_, ?_⟩
    · rw [← chunks_flatten offers]
      exact List.mem_flatten.2 ⟨p, hp, ho⟩
    · have := chunks_length offers p hp
      exact ⟨by omega, by omega⟩
  · cases hp

theorem stepped_listDht {H : Hash} {E : Env} {c : Core} {m : Msg} (hs : Sane H (E, .listDht, m)) (hk : Kept H c) :
    Stepped H E c (listDht E c m).2 (listDht E c m).1 := by
  obtain ⟨rfl, hord, -, hpr, hex, -⟩ := hs
  dsimp only at *
  unfold listDht
  split
  · exact stepped_same hk (by intro g os; simp)
  · exact stepped_same hk (by intro g os; simp)
  rename_i gw cidMin cidMax x hd
  split
  · rename_i k gid hsk
    split
    · rename_i a b
      split
      · exact stepped_same hk (by intro g os; simp)
      · rename_i mgr offers found hg
        obtain ⟨hk', hoff, hf⟩ := kept_range hk hord hg
        dsimp only
        split
        · rename_i out hl
          refine stepped_frame hk' rfl rfl rfl ?_
          have : ∀ (parts : List (List CidOffer)) out, listMessages E { c with offers := mgr } parts = .error out → Quiet out := by
            intro parts
            induction parts with
            | nil => intro out h; cases h
            | cons p parts ih =>
              intro out h
              unfold listMessages at h
              split at h
              · cases h; intro g os; simp
              · cases h; intro g os; simp
              · split at h
                · cases h; intro g os; simp
                · cases h; intro g os; simp
                · simp only [Bind.bind, Except.bind] at h
                  split at h
                  · cases h; exact ih _ (by assumption)
                  · cases h
          exact this _ _ hl
        · rename_i msgs hl
          obtain ⟨hdec, hrng⟩ := listMessages_ok hpr hk'.id (parts_ok hoff found) hl
          have hcar : ∀ m ∈ msgs, ∃ offers, Carries E m offers ∧ ∀ o ∈ offers, ∃ cid, Proper cid ∧ o.cids = [cid] := by
            intro m hm
            have hm' : decode (providerPublishDHTOfferRequest E.H) m ∈ msgs.map (decode (providerPublishDHTOfferRequest E.H)) :=
              List.mem_map_of_mem hm
            rw [hdec] at hm'
            obtain ⟨p, hp, he⟩ := List.mem_map.1 hm'
            refine ⟨p, ⟨_, _, he.symm⟩, ?_⟩
            intro o ho
            obtain ⟨hb, h1⟩ := (parts_ok hoff found p hp).1 o ho
            obtain ⟨cid, hc⟩ := List.length_eq_one_iff.1 h1
            exact ⟨cid, hb.1.2.1 cid (by simp [hc]), hc⟩
          split
          · rename_i r hresp
            obtain ⟨gid', hgid, hreg, -⟩ := senderKey_ok.1 hsk
            cases hgid
            have hp : Proper gid := by
              obtain ⟨-, fs, ⟨w1, w2, w3, w4, w5, w6, w7, ⟨⟩⟩, h1, h2⟩ := decode_inv hd
              have h2' := congrArg (fun r => match r with | Res.ok a => a.1 | _ => none) h2
              exact fromHex_len (s := w1) h2'
            obtain ⟨⟨ak, h1⟩, h2, h3, h4⟩ := finishListing_spec hreg { c with offers := mgr } msgs (E.reply r) hcar hrng
            generalize finishListing E k gid { c with offers := mgr } msgs (E.reply r) = f at *
            obtain ⟨c', out⟩ := f
            dsimp only at *
            have hq : Quiet (.message r :: out) := by
              intro g os hm
              simp at hm
              exact h4 g os hm
            subst h1
            refine ⟨⟨hk.id, hk.heap, hk'.dht, hk.sent, ?_⟩, fun gid _ => by simp [quiet_by hq], by simp [quiet_all hq], h3, ?_,
              fun g os hm => absurd hm (hq g os), rfl⟩
            · intro s g v hv
              rcases h2 s g v hv with hv | ⟨-, hr, -⟩
              · exact hk.acks s g v hv
              · exact hr
            · intro s g v hv
              rcases h2 s g v hv with hv | ⟨hg, -, cid, hc, hs, hev⟩
              · exact Or.inl hv
              · exact Or.inr ⟨cid, gid, hc, hp, hs, hg, hev⟩
          · exact stepped_frame hk' rfl rfl rfl (quiet_respond (by intro g os; simp) (by intro g os; simp))
    · exact stepped_same hk (by intro g os; simp)
  · exact stepped_same hk (by intro g os; simp)
  · exact stepped_same hk (by intro g os; simp)

theorem initialise_id {m : Msg} {id : Option Id} {k v} (h : decode providerAdminInitialiseKeyRequest m = .ok (id, k, v)) : ∀ p, id = some p → Proper p := by
  obtain ⟨-, fs, ⟨w1, w2, w3, ⟨⟩⟩, h1, h2⟩ := decode_inv h
  obtain ⟨kp, -, h2⟩ := res_ok_of_bind h2
  cases h2
  intro p hp
  exact fromHex_len hp

theorem initialiseV2_id {m : Msg} {id : Option Id} {k v x} (h : decode providerAdminInitialiseKeyRequestV2 m = .ok (id, k, v, x)) : ∀ p, id = some p → Proper p := by
  obtain ⟨-, fs, ⟨w1, w2, w3, w4, w5, w6, ⟨⟩⟩, h1, h2⟩ := decode_inv h
  obtain ⟨kp, -, h2⟩ := res_ok_of_bind h2
  cases h2
  intro p hp
  exact fromHex_len hp

/-- What every request does. -/
theorem stepped_serve {H : Hash} {E : Env} {c : Core} {k : Kind} {m : Msg} (hs : Sane H (E, k, m)) (hk : Kept H c) :
    Stepped H E c (serve E c k m).2 (serve E c k m).1 := by
  cases k with
  | publishDht => exact stepped_publishDht hs hk
  | publishGroup => exact stepped_publishGroup hs hk
  | listDht => exact stepped_listDht hs hk
  | initialise =>
    show Stepped H E c (initialise E c m).2 (initialise E c m).1
    unfold initialise
    split
    · rename_i id k v hd
      exact stepped_frame ⟨initialise_id hd, hk.heap, hk.dht, hk.sent, hk.acks⟩ rfl rfl rfl
        (by (try dsimp only); apply quiet_respond <;> (intro g os; simp))
    · exact stepped_same hk (by intro g os; simp)
    · exact stepped_same hk (by intro g os; simp)
  | initialiseV2 =>
    show Stepped H E c (initialiseV2 E c m).2 (initialiseV2 E c m).1
    unfold initialiseV2
    split
    · rename_i id k v x hd
      refine stepped_frame ⟨initialiseV2_id hd, hk.heap, hk.dht, hk.sent, hk.acks⟩ rfl rfl rfl ?_
      dsimp only
      split
      · exact quiet_respond (by intro g os; simp) (by intro g os; simp)
      · intro g os; simp
    · exact stepped_same hk (by intro g os; simp)
    · exact stepped_same hk (by intro g os; simp)
  | forceRefresh =>
    show Stepped H E c (forceRefresh E c m).2 (forceRefresh E c m).1
    unfold forceRefresh
    split
    · exact stepped_same hk (by intro g os; simp)
    · split
      · exact stepped_same hk (by intro g os; simp)
      · exact stepped_same hk (by intro g os; simp)
      · refine stepped_same hk (quiet_append ?_ (by (try dsimp only); apply quiet_respond <;> (intro g os; simp)))
        intro g os
        split <;> simp
  | getPublished =>
    show Stepped H E c (getPublished E c m).2 (getPublished E c m).1
    unfold getPublished
    split
    · exact stepped_same hk (by intro g os; simp)
    · split
      · exact stepped_same hk (by intro g os; simp)
      · exact stepped_same hk (by intro g os; simp)
      · exact stepped_same hk (by (try dsimp only); apply quiet_respond <;> (intro g os; simp))
  | offerAck =>
    show Stepped H E c (offerAck E c m).2 (offerAck E c m).1
    unfold offerAck
    split
    · exact stepped_same hk (by intro g os; simp)
    · exact stepped_same hk (by intro g os; simp)
    · split
      · split
        · exact stepped_same hk (by (try dsimp only); apply quiet_respond <;> (intro g os; simp))
        · exact stepped_same hk (by (try dsimp only); apply quiet_respond <;> (intro g os; simp))
      · exact stepped_same hk (by intro g os; simp)
  | notifyGroup =>
    show Stepped H E c (notifyGroup E c m).2 (notifyGroup E c m).1
    unfold notifyGroup
    split
    · exact stepped_same hk (by intro g os; simp)
    · exact stepped_same hk (by intro g os; simp)
    · split
      · refine stepped_frame ⟨hk.id, hk.heap, hk.dht, hk.sent, hk.acks⟩ rfl rfl ?_ (by (try dsimp only); apply quiet_respond <;> (intro g os; simp))
        simp [updateGroup, existsIn]
      · exact stepped_same hk (by intro g os; simp)
      · exact stepped_same hk (by intro g os; simp)

/-! ## histories -/

theorem kept_serveAll {H : Hash} : ∀ (h : List (Env × Kind × Msg)) {c : Core}, (∀ e ∈ h, Sane H e) → Kept H c → Kept H (serveAll c h).1
  | [], _, _, hk => hk
  | (E, k, m) :: h, c, hs, hk => by
    unfold serveAll
    exact kept_serveAll h (fun e he => hs e (by simp [he])) (stepped_serve (hs _ (by simp)) hk).kept

theorem serveAll_append (c : Core) : ∀ (h h' : List (Env × Kind × Msg)),
    serveAll c (h ++ h') = ((serveAll (serveAll c h).1 h').1, (serveAll c h).2 ++ (serveAll (serveAll c h).1 h').2) := by
  intro h
  induction h generalizing c with
  | nil => intro h'; rfl
  | cons e h ih =>
    obtain ⟨E, k, m⟩ := e
    intro h'
    simp only [List.cons_append, serveAll, ih, List.append_assoc]

theorem serveAll_sent {H : Hash} : ∀ (h : List (Env × Kind × Msg)) {c : Core}, (∀ e ∈ h, Sane H e) → Kept H c →
    (∀ gid, Proper gid → (mget (serveAll c h).1.sent (Ids.toStr gid)).getD [] = (mget c.sent (Ids.toStr gid)).getD [] ++ confirmedBy gid (serveAll c h).2) ∧
    ((serveAll c h).1.sent.flatMap (·.2)).Perm (c.sent.flatMap (·.2) ++ allConfirmed (serveAll c h).2)
  | [], c, _, _ => ⟨fun _ _ => by simp [serveAll, confirmedBy], by simp [serveAll, allConfirmed]⟩
  | (E, k, m) :: h, c, hs, hk => by
    have h1 := stepped_serve (hs (E, k, m) (by simp)) hk
    obtain ⟨h2, h3⟩ := serveAll_sent h (fun e he => hs e (by simp [he])) h1.kept
    unfold serveAll
    refine ⟨fun gid hg => ?_, ?_⟩
    · dsimp only
      rw [h2 gid hg, h1.sent gid hg, confirmedBy_append, List.append_assoc]
    · dsimp only
      rw [allConfirmed_append, ← List.append_assoc]
      exact h3.trans (h1.total.append_right _)

theorem serveAll_acks {H : Hash} : ∀ (h : List (Env × Kind × Msg)) {c : Core}, (∀ e ∈ h, Sane H e) → Kept H c →
    (∀ s g, (entry c s g).isSome → (entry (serveAll c h).1 s g).isSome) ∧
    ∀ s g v, entry (serveAll c h).1 s g = some v → entry c s g = some v ∨ ∃ e ∈ h, ∃ cid gid, Proper cid ∧ Proper gid ∧ s = Ids.toStr cid ∧
      g = Ids.toStr gid ∧ Evidence e.1 cid gid v.1 v.2
  | [], c, _, _ => ⟨fun _ _ h => h, fun _ _ _ h => Or.inl h⟩
  | (E, k, m) :: h, c, hs, hk => by
    have h1 := stepped_serve (hs (E, k, m) (by simp)) hk
    obtain ⟨h2, h3⟩ := serveAll_acks h (fun e he => hs e (by simp [he])) h1.kept
    unfold serveAll
    refine ⟨fun s g hx => h2 s g (h1.grow s g hx), fun s g v hv => ?_⟩
    rcases h3 s g v hv with hv | ⟨e, he, hx⟩
    · rcases h1.sound s g v hv with hv | hx
      · exact Or.inl hv
      · exact Or.inr ⟨(E, k, m), by simp, hx⟩
    · exact Or.inr ⟨e, by simp [he], hx⟩

end FcRetrieval.Provider
