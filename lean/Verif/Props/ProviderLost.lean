import Verif.Props.ProviderPublish
/-!
# C55: an acknowledgement that is not recorded
-/
set_option linter.unusedSimpArgs false

namespace FcRetrieval.Provider
open FcRetrieval.Ids (Id Proper)
open FcRetrieval.Merkle (Hash exId exId_proper)
open FcRetrieval.Message (Msg)
open FcRetrieval.Offer (CidOffer Built)
open FcRetrieval.Wire
open FcRetrieval.Codecs
open FcRetrieval.OfferMgr (Mgr Clock expired)
open FcRetrieval.Crypto (KeyPair)
open FcRetrieval.Gateway (exPub)

/-- Nothing but the acknowledgements has changed, and there are still none under the key. -/
def Unrecorded (s : List Char) (c c' : Core) : Prop := ∃ a, c' = { c with acks := a } ∧ mget a s = none

theorem unrecorded_same {s : List Char} {c : Core} (h : mget c.acks s = none) : Unrecorded s c c := ⟨c.acks, rfl, h⟩

theorem recordListed_none {gid : Id} {req ack : Msg} {s : List Char} : ∀ (os : List CidOffer) (c : Core), mget c.acks s = none →
    Unrecorded s c (recordListed gid req ack c os).1
  | [], c, h => unrecorded_same h
  | o :: os, c, h => by
    unfold recordListed
    split
    · exact unrecorded_same h
    · split
      · exact unrecorded_same h
      · rename_i cid _ _ _ gs hg
        obtain ⟨a, h1, h2⟩ := recordListed_none (gid := gid) (req := req) (ack := ack) (s := s) os
          { c with acks := mset c.acks (Ids.toStr cid) (mset gs (Ids.toStr gid) (req, ack)) } (by
            dsimp only
            rw [mget_mset_other]
            · exact h
            · rintro rfl
              rw [h] at hg
              cases hg)
        exact ⟨a, h1, h2⟩

theorem takeAcks_none {E : Env} {k : KeyPair} {gid : Id} {s : List Char} : ∀ (pairs : List (Msg × Msg)) (c : Core), mget c.acks s = none →
    Unrecorded s c (takeAcks E k gid c pairs).1
  | [], c, h => unrecorded_same h
  | (req, ack) :: rest, c, h => by
    unfold takeAcks
    split
    · exact unrecorded_same h
    · exact unrecorded_same h
    · split
      · split
        · exact unrecorded_same h
        · exact unrecorded_same h
        · rename_i offers _
          have hr := recordListed_none (gid := gid) (req := req) (ack := ack) offers c h
          split
          · rename_i c' he
            rw [he] at hr
            exact hr
          · rename_i c' he
            rw [he] at hr
            obtain ⟨a, rfl, ha⟩ := hr
            obtain ⟨a', h1, h2⟩ := takeAcks_none (E := E) (k := k) (gid := gid) rest { c with acks := a } ha
            exact ⟨a', h1, h2⟩
      · exact unrecorded_same h

theorem finishListing_none {E : Env} {k : KeyPair} {gid : Id} {s : List Char} {c : Core} {msgs : List Msg} {reply : Option Msg}
    (h : mget c.acks s = none) : Unrecorded s c (finishListing E k gid c msgs reply).1 := by
  unfold finishListing
  split
  · exact unrecorded_same h
  · split
    · split
      · exact unrecorded_same h
      · split
        · exact unrecorded_same h
        · exact takeAcks_none _ _ h
    · exact unrecorded_same h

/-- **C55 is false** for offers that a gateway gets by listing them: it acknowledges the request with an offer for a CID of which no
offer was acknowledged before, and the acknowledgement is not recorded.  The provider crashes, and were it to go on it would report
that there is none. -/
theorem C55_refuted (H : Hash) (hist : List (Env × Kind × Msg)) (hist_sane : ∀ e ∈ hist, Sane H e) (E : Env) (m : Msg)
    (hs : Sane H (E, .listDht, m)) (hsign : CanSign E (serveAll newCore hist).1)
    (gid a b : Id) (x) (hd : decode gatewayListDHTOfferRequest m = .ok (some gid, some a, some b, x)) (k : KeyPair)
    (ha : Authentic E (some gid) m k) (mgr : Mgr Nat) (offers : List CidOffer)
    (hg : OfferMgr.getDhtRange E.H512 (deref (serveAll newCore hist).1.heap) E.order E.now (serveAll newCore hist).1.offers a b 500 =
      .ok (mgr, offers, true))
    (hl : AcknowledgesLists E gid) (o : CidOffer) (ho : o ∈ offers) (cid : Id) (hcid : o.cids = [cid])
    (hnew : mget (serveAll newCore hist).1.acks (Ids.toStr cid) = none)
    (E' : Env) (hpr : ProtocolOk E'.pr) (hsign' : CanSign E' (serveAll newCore hist).1)
    (q : Msg) (hq : decode clientDHTOfferAckRequest q = .ok (some cid, some gid)) :
    (∃ r msgs reply acks req ack, (serve E (serveAll newCore hist).1 .listDht m).2 = [.message r, .panic] ∧
      decode gatewayListDHTOfferResponse r = .ok msgs ∧ E.reply r = some reply ∧ SignedBy E gid reply ∧ decode gatewayListDHTOfferAck reply = .ok acks ∧
      (req, ack) ∈ msgs.zip acks ∧ Evidence E cid gid req ack) ∧
    ∃ r req ack, (serve E' (serve E (serveAll newCore hist).1 .listDht m).1 .offerAck q).2 = [.message r] ∧
      decode clientDHTOfferAckResponse r = .ok (some cid, some gid, false, some req, some ack) := by
  have hk := kept_serveAll hist hist_sane (kept_new H)
  constructor
  · obtain ⟨r, hr⟩ := C74_refuted H hist hist_sane E m hs hsign gid a b x hd k ha mgr offers hg hl o ho cid hcid hnew
    obtain ⟨r', msgs, parts, h1, h2, h3, h4, -, -⟩ := listDht_open hs hk hsign hd ha hg
    have hrr : r' = r := by
      rw [h1] at hr
      simp only [List.cons.injEq] at hr
      have := hr.1
      cases this
      rfl
    subst hrr
    obtain ⟨reply, acks, f1, f2, f3, f4, f5⟩ := hl _ _ h2
    rw [if_pos rfl] at h4
    rw [← h4] at ho
    obtain ⟨p, hp, hop⟩ := List.mem_flatten.1 ho
    obtain ⟨i, hi, rfl⟩ := List.getElem_of_mem hp
    have hlen : msgs.length = parts.length := by simpa using congrArg List.length h3
    have hi' : i < msgs.length := by omega
    have hm : (msgs[i], acks[i]'(by omega)) ∈ msgs.zip acks :=
      List.mem_iff_getElem.2 ⟨i, by simp only [List.length_zip]; omega, by simp⟩
    refine ⟨r', msgs, reply, acks, msgs[i], acks[i]'(by omega), hr, h2, f1, f2, f3, hm, f5 _ hm, parts[i], ⟨(serveAll newCore hist).1.id, 1, ?_⟩, o, hop, hcid⟩
    have := List.getElem_of_eq h3 (i := i) (by simpa using hi')
    simpa using this
  · have hk' := (stepped_serve hs hk).kept
    obtain ⟨_, _, _, e, -⟩ := listDht_open hs hk hsign hd ha hg
    obtain ⟨a', h1, h2⟩ := finishListing_none (E := E) (k := k) (gid := gid) (c := { (serveAll newCore hist).1 with offers := mgr }) hnew
    rw [e, h1] at hk' ⊢
    obtain ⟨r, h3, h4⟩ := offerAck_answer hk' hpr hsign' hq
    have hn : entry { (serveAll newCore hist).1 with offers := mgr, acks := a' } (Ids.toStr cid) (Ids.toStr gid) = none := by
      unfold entry
      rw [h2]
      rfl
    rw [hn] at h4
    obtain ⟨req, ack, h4⟩ := h4
    exact ⟨r, req, ack, h3, h4⟩

/-- The hypotheses of `C55_refuted` can be met: no gateway was reachable when the offer was published. -/
example : ∃ r req ack, (serve exEnv (serve exEnv (serveAll newCore exHistAlone).1 .listDht exList).1 .offerAck exAsk).2 = [.message r] ∧
    decode clientDHTOfferAckResponse r = .ok (some (exId 2), some (exId 3), false, some req, some ack) := by
  obtain ⟨mgr, o, hg, ho, hn, -⟩ := exGood_offer exHistAlone_good
  have hsign := exGood_signs (E := exEnv) rfl exHistAlone_good
  exact (C55_refuted Merkle.toyHash exHistAlone exHistAlone_sane exEnv exList (exList_sane (Or.inr rfl)) hsign
    (exId 3) (exId 0) (exId 9) _ exList_decode exPub (exList_authentic rfl rfl) mgr [o] hg exEnv_acknowledges o (by simp) (exId 2)
    ho (by simpa using hn) exEnv defaultProtocolOk hsign exAsk exAsk_decode).2

end FcRetrieval.Provider
