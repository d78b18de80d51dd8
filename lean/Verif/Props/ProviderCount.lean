import Verif.Props.Provider
/-!
# A gateway that acknowledges another number of lists than it was sent: C74
-/
set_option linter.unusedSimpArgs false

namespace FcRetrieval.Provider
open FcRetrieval.Ids (Id)
open FcRetrieval.Merkle (Hash exId)
open FcRetrieval.Crypto (KeyPair)
open FcRetrieval.Message (Msg)
open FcRetrieval.Offer (CidOffer)
open FcRetrieval.Wire
open FcRetrieval.Codecs
open FcRetrieval.OfferMgr (Mgr)
open FcRetrieval.Gateway (exPub)

/-- **C74 (partial).** A gateway that lists the offers of a provider and sends back more acknowledgements than it got messages, or fewer, does not crash the
provider, whatever the acknowledgements are: the provider ends the request with an error, and takes down none of them. -/
theorem C74_miscount_partial (H : Hash) (hist : List (Env × Kind × Msg)) (hist_sane : ∀ e ∈ hist, Sane H e) (E : Env) (m : Msg)
    (hs : Sane H (E, .listDht, m)) (hsign : CanSign E (serveAll newCore hist).1)
    (gid a b : Id) (x) (hd : decode gatewayListDHTOfferRequest m = .ok (some gid, some a, some b, x)) (k : KeyPair)
    (ha : Authentic E (some gid) m k) (mgr : Mgr Nat) (offers : List CidOffer) (found : Bool)
    (hg : OfferMgr.getDhtRange E.H512 (deref (serveAll newCore hist).1.heap) E.order E.now (serveAll newCore hist).1.offers a b 500 =
      .ok (mgr, offers, found)) (hl : Miscounts E) :
    ∃ r, (serve E (serveAll newCore hist).1 .listDht m).2 = [.message r, .failed] ∧
      ∀ s g, entry (serve E (serveAll newCore hist).1 .listDht m).1 s g = entry (serveAll newCore hist).1 s g := by
  obtain ⟨r, msgs, parts, h1, h2, -⟩ := listDht_open hs (kept_serveAll hist hist_sane (kept_new H)) hsign hd ha hg
  obtain ⟨reply, acks, e1, e2, e3⟩ := hl r msgs h2
  have h : finishListing E k gid { (serveAll newCore hist).1 with offers := mgr } msgs (E.reply r) =
      ({ (serveAll newCore hist).1 with offers := mgr }, [.failed]) := by
    unfold finishListing
    rw [e1]
    dsimp only
    split
    · rw [e2]
      exact if_pos e3
    · rfl
  refine ⟨r, by rw [h1, h], ?_⟩
  intro s g
  rw [h1, h]
  rfl

/-- A gateway that acknowledges all messages but the first, or one message if there is none. -/
def exShort : Env :=
  { exEnv with
    reply := fun r =>
      match decode gatewayListDHTOfferResponse r with
      | .ok [] => some (exMsg gatewayListDHTOfferAck [exAck r])
      | .ok (_ :: msgs) => some (exMsg gatewayListDHTOfferAck (msgs.map exAck))
      | _ => none }

theorem exShort_miscounts : Miscounts exShort := by
  have hdel : ∀ l : List Msg, decode gatewayListDHTOfferAck (exMsg gatewayListDHTOfferAck (l.map exAck)) = .ok (l.map exAck) := fun l =>
    exMsg_decode (C30_gatewayListDHTOfferAck Message.defaultProtocol defaultProtocolOk (l.map exAck) (by
      intro x hx
      obtain ⟨y, -, rfl⟩ := List.mem_map.1 hx
      exact exAck_range y))
  intro r msgs hd
  cases msgs with
  | nil => exact ⟨_, _, by simp only [exShort, hd]; rfl, hdel [r], by simp⟩
  | cons m msgs => exact ⟨_, _, by simp only [exShort, hd], hdel msgs, by simp⟩

/-- The gateway acknowledged the offer when it was published; now it lists, and sends no acknowledgement for the one message it gets. -/
example : ∃ r, (serve exShort (serveAll newCore exHist).1 .listDht exList).2 = [.message r, .failed] := by
  obtain ⟨mgr, o, hg, -⟩ := exGood_offer exHist_good
  obtain ⟨r, hr, -⟩ := C74_miscount_partial Merkle.toyHash exHist exHist_sane exShort exList (exList_sane (E := exEnv) (Or.inr rfl)) exHist_signs
    (exId 3) (exId 0) (exId 9) _ exList_decode exPub (exList_authentic rfl rfl) mgr [o] true hg exShort_miscounts
  exact ⟨r, hr⟩

end FcRetrieval.Provider
