import Verif.Lemmas.ProviderList
/-!
# A small provider to show that the hypotheses of the theorems can be met
-/
set_option linter.unusedSimpArgs false

namespace FcRetrieval.Provider
open FcRetrieval.Ids (Id Proper)
open FcRetrieval.Message (Msg)
open FcRetrieval.Merkle (exId exId_proper)
open FcRetrieval.Offer (CidOffer)
open FcRetrieval.Wire
open FcRetrieval.Codecs
open FcRetrieval.Gateway (exRecord exPub exRecord_key verify_snd)

/-- A message of the given kind, signed with `Offer.exKey`. -/
def exMsg {α : Type} (codec : Codec α) (a : α) : Msg :=
  match encode codec Message.defaultProtocol a with
  | .ok m => (Message.sign Crypto.toy Offer.exKey 1 m).1
  | _ => ⟨0, 0, none, none, []⟩

/-- The acknowledgement of a gateway that signs with `Offer.exKey`. -/
def exAck (req : Msg) : Msg :=
  exMsg providerPublishDHTOfferResponse (1, (Crypto.signMessage Crypto.toy Offer.exKey 1 (req.body.getD [])).getD [])

/-- No gateway is reachable. -/
def exAlone : Env where
  H := Merkle.toyHash
  H512 := Crypto.toy.hash
  P := Crypto.toy
  pr := Message.defaultProtocol
  now := ⟨1000, 0⟩
  order := fun l => l
  orderSent := fun l => l
  badDigest := fun _ => []
  gateway := fun i => if i = exId 3 then some exRecord else none
  gateways := [exRecord]
  near := fun _ => some [exRecord]
  exchange := fun _ _ _ => none
  reply := fun _ => none
  payments := true

/-- The gateway acknowledges what it is sent, and what it lists. -/
def exEnv : Env :=
  { exAlone with
    exchange := fun _ _ req => some (exAck req)
    reply := fun r =>
      match decode gatewayListDHTOfferResponse r with
      | .ok msgs => some (exMsg gatewayListDHTOfferAck (msgs.map exAck))
      | _ => none }

def exInit : Msg := exMsg providerAdminInitialiseKeyRequest (some (exId 1), some Offer.exKey, some 1)
/-- One offer. -/
def exPublish : Msg := exMsg providerAdminPublishDHTOfferRequest ([exId 2], [5], [2000], [3])
/-- Two offers. -/
def exPublishTwo : Msg := exMsg providerAdminPublishDHTOfferRequest ([exId 2, exId 5], [5, 6], [2000, 3000], [3, 4])
def exList : Msg := exMsg gatewayListDHTOfferRequest (some (exId 3), some (exId 0), some (exId 9), [], [], [], some exProof)

theorem exMsg_decode {α : Type} {codec : Codec α} {a : α} (h : Delivers codec Message.defaultProtocol a) : decode codec (exMsg codec a) = .ok a := by
  obtain ⟨m, he, -, -, -, hd⟩ := h
  unfold exMsg
  rw [he]
  dsimp only
  unfold Message.sign
  split
  · exact (hd []).2
  · exact (hd _).2

theorem exKey_signs (b : Bytes) : (Crypto.signMessage Crypto.toy Offer.exKey 1 b).isSome := by
  simp [Crypto.signMessage, Crypto.keySign, Offer.exKey, Crypto.toy, Crypto.sigAlg]
  rw [if_pos (by omega)]
  rfl

theorem exMsg_signed {α : Type} {codec : Codec α} {a : α} (h : Delivers codec Message.defaultProtocol a) :
    Crypto.verifyMessage Crypto.toy exPub (exMsg codec a).signature (Message.toSign (exMsg codec a)) = some true := by
  obtain ⟨m, he, -, -, -, hd⟩ := h
  obtain ⟨sig, hs⟩ := Option.isSome_iff_exists.1 (exKey_signs (Message.toSign m))
  have hsign : Message.sign Crypto.toy Offer.exKey 1 m = ({ m with signature := sig }, true) := by
    unfold Message.sign
    rw [hs]
  have : exMsg codec a = { m with signature := sig } := by
    unfold exMsg
    rw [he]
    dsimp only
    rw [hsign]
  rw [this]
  exact verify_snd.1 (Message.C27_signed_verifies Crypto.toy Crypto.toy_correct Offer.exKey exPub 1 Offer.exKey_private
    ⟨rfl, by decide +kernel⟩ m _ hsign).1

theorem exMsg_range {α : Type} {codec : Codec α} (hc : inI32 codec.code) (a : α) : Message.InRange (exMsg codec a) := by
  unfold exMsg
  split
  · rename_i m he
    unfold Message.sign
    split
    · exact encode_range defaultProtocolOk hc he []
    · exact encode_range defaultProtocolOk hc he _
  · exact ⟨⟨by decide, by decide⟩, ⟨by decide, by decide⟩, fun l h => by cases h⟩

theorem exInit_decode : decode providerAdminInitialiseKeyRequest exInit = .ok (some (exId 1), some Offer.exKey, some 1) :=
  exMsg_decode (C30_providerAdminInitialiseKeyRequest _ defaultProtocolOk _ _ _ (exIdOk 1) ⟨_, rfl, Offer.exKey_private⟩ ⟨_, rfl⟩)

theorem exPublish_decode : decode providerAdminPublishDHTOfferRequest exPublish = .ok ([exId 2], [5], [2000], [3]) :=
  exMsg_decode (C30_providerAdminPublishDHTOfferRequest _ defaultProtocolOk _ _ _ _ (by intro p hp; simp at hp; subst hp; exact exId_proper 2)
    (by decide) (by unfold inI64; decide) (by decide))

theorem exPublishTwo_decode : decode providerAdminPublishDHTOfferRequest exPublishTwo = .ok ([exId 2, exId 5], [5, 6], [2000, 3000], [3, 4]) :=
  exMsg_decode (C30_providerAdminPublishDHTOfferRequest _ defaultProtocolOk _ _ _ _ (by
    intro p hp; simp at hp; rcases hp with rfl | rfl
    · exact exId_proper 2
    · exact exId_proper 5)
    (by decide) (by unfold inI64; decide) (by decide))

theorem exList_delivers : Delivers gatewayListDHTOfferRequest Message.defaultProtocol
    (some (exId 3), some (exId 0), some (exId 9), [], [], [], some exProof) :=
  C30_gatewayListDHTOfferRequest _ defaultProtocolOk _ _ _ _ _ _ _ (exIdOk 3) (exIdOk 0) (exIdOk 9) ⟨_, rfl, exProofOk⟩

theorem exList_decode : decode gatewayListDHTOfferRequest exList = .ok (some (exId 3), some (exId 0), some (exId 9), [], [], [], some exProof) :=
  exMsg_decode exList_delivers

theorem exRegistered {E : Env} (hg : E.gateway = exAlone.gateway) : Registered E (exId 3) exPub :=
  ⟨exRecord, by rw [hg]; decide +kernel, exRecord_key⟩

theorem exList_authentic {E : Env} (hP : E.P = Crypto.toy) (hg : E.gateway = exAlone.gateway) : Authentic E (some (exId 3)) exList exPub :=
  ⟨exId 3, rfl, exRegistered hg, by rw [hP]; exact exMsg_signed exList_delivers⟩

/-- Requests other than publishing are sane in both environments. -/
theorem exSane_of {E : Env} (hE : E = exAlone ∨ E = exEnv) {k : Kind} {m : Msg}
    (hm : ∀ cids price expiry qos, decode providerAdminPublishDHTOfferRequest m = .ok (cids, price, expiry, qos) → inI64 cids.length) :
    Sane Merkle.toyHash (E, k, m) := by
  rcases hE with rfl | rfl
  · exact ⟨rfl, fun _ => .refl _, fun _ => .refl _, defaultProtocolOk, (fun _ _ _ _ h => nomatch h), hm⟩
  · refine ⟨rfl, fun _ => .refl _, fun _ => .refl _, defaultProtocolOk, fun n gid m r h => ?_, hm⟩
    have h' : some (exAck m) = some r := h
    cases h'
    exact exMsg_range (show inI32 303 from ⟨by decide, by decide⟩) _

theorem exInit_sane {E : Env} (hE : E = exAlone ∨ E = exEnv) : Sane Merkle.toyHash (E, .initialise, exInit) := by
  refine exSane_of hE ?_
  intro cids price expiry qos h
  have h1 := (Gateway.decode_inv h).1
  have h2 := (Gateway.decode_inv exInit_decode).1
  rw [h1] at h2
  exact absurd h2 (by decide)

theorem exList_sane {E : Env} (hE : E = exAlone ∨ E = exEnv) : Sane Merkle.toyHash (E, .listDht, exList) := by
  refine exSane_of hE ?_
  intro cids price expiry qos h
  have h1 := (Gateway.decode_inv h).1
  have h2 := (Gateway.decode_inv exList_decode).1
  rw [h1] at h2
  exact absurd h2 (by decide)

theorem exPublish_sane {E : Env} (hE : E = exAlone ∨ E = exEnv) : Sane Merkle.toyHash (E, .publishDht, exPublish) := by
  refine exSane_of hE ?_
  intro cids price expiry qos h
  rw [exPublish_decode] at h
  cases h
  exact ⟨by decide, by decide⟩

theorem exPublishTwo_sane {E : Env} (hE : E = exAlone ∨ E = exEnv) : Sane Merkle.toyHash (E, .publishDht, exPublishTwo) := by
  refine exSane_of hE ?_
  intro cids price expiry qos h
  rw [exPublishTwo_decode] at h
  cases h
  exact ⟨by decide, by decide⟩

/-- A provider that could not reach any gateway when its admin published an offer. -/
def exHistAlone : List (Env × Kind × Msg) := [(exAlone, .initialise, exInit), (exAlone, .publishDht, exPublish)]
/-- A provider whose offer was acknowledged. -/
def exHist : List (Env × Kind × Msg) := [(exEnv, .initialise, exInit), (exEnv, .publishDht, exPublish)]

theorem exHistAlone_sane : ∀ e ∈ exHistAlone, Sane Merkle.toyHash e := by
  intro e he
  simp [exHistAlone] at he
  rcases he with rfl | rfl
  · exact exInit_sane (Or.inl rfl)
  · exact exPublish_sane (Or.inl rfl)

theorem exHist_sane : ∀ e ∈ exHist, Sane Merkle.toyHash e := by
  intro e he
  simp [exHist] at he
  rcases he with rfl | rfl
  · exact exInit_sane (Or.inr rfl)
  · exact exPublish_sane (Or.inr rfl)

theorem exCanSign {E : Env} (hP : E.P = Crypto.toy) {c : Core} (hi : c.id = some (exId 1)) (hk : c.key = some (Offer.exKey, 1)) : CanSign E c :=
  ⟨exId 1, Offer.exKey, 1, hi, exId_proper 1, hk, fun b => by rw [hP]; exact exKey_signs b⟩

theorem exAck_range (req : Msg) : Message.InRange (exAck req) := exMsg_range (show inI32 303 from ⟨by decide, by decide⟩) _

theorem exAck_acknowledges {E : Env} (hP : E.P = Crypto.toy) (hg : E.gateway = exAlone.gateway) (req : Msg) : Acknowledges E (exId 3) req (exAck req) := by
  obtain ⟨sig, hs⟩ := Option.isSome_iff_exists.1 (exKey_signs (req.body.getD []))
  refine ⟨exPub, 1, sig, exRegistered hg, ?_, ?_⟩
  · unfold exAck
    rw [hs]
    exact exMsg_decode (C30_providerPublishDHTOfferResponse _ defaultProtocolOk _ _ ⟨by decide, by decide⟩)
  · rw [hP]
    exact Crypto.C34_signed_verifies Crypto.toy Crypto.toy_correct Offer.exKey exPub 1 _ _ Offer.exKey_private ⟨rfl, by decide +kernel⟩ hs

theorem exEnv_acknowledges : AcknowledgesLists exEnv (exId 3) := by
  intro r msgs hd
  have hdel := C30_gatewayListDHTOfferAck Message.defaultProtocol defaultProtocolOk (msgs.map exAck) (by
    intro x hx
    obtain ⟨y, -, rfl⟩ := List.mem_map.1 hx
    exact exAck_range y)
  refine ⟨exMsg gatewayListDHTOfferAck (msgs.map exAck), msgs.map exAck, ?_, ⟨exPub, exRegistered rfl, exMsg_signed hdel⟩, exMsg_decode hdel, by simp, ?_⟩
  · show (match decode gatewayListDHTOfferResponse r with
      | .ok msgs => some (exMsg gatewayListDHTOfferAck (msgs.map exAck))
      | _ => none) = _
    rw [hd]
  · intro p hp
    rw [List.zip_map_right] at hp
    obtain ⟨q, hq, rfl⟩ := List.mem_map.1 hp
    have : q.1 = q.2 := by
      have hz : ∀ (l : List Msg), ∀ q ∈ l.zip l, q.1 = q.2 := by
        intro l
        induction l with
        | nil => intro q hq; cases hq
        | cons x l ih =>
          intro q hq
          rcases List.mem_cons.1 hq with rfl | hq
          · rfl
          · exact ih q hq
      exact hz msgs q hq
    show Acknowledges exEnv (exId 3) q.1 (exAck q.2)
    rw [← this]
    exact exAck_acknowledges rfl rfl q.1

/-- What the store of a provider gives for the range of `exList`. -/
def exListed (c : Core) : Option (List CidOffer × Bool) :=
  match OfferMgr.getDhtRange exEnv.H512 (deref c.heap) exEnv.order exEnv.now c.offers (exId 0) (exId 9) 500 with
  | .ok r => some r.2
  | .error _ => none

theorem exListed_some {c : Core} {r : List CidOffer × Bool} (h : exListed c = some r) : ∃ mgr,
    OfferMgr.getDhtRange exEnv.H512 (deref c.heap) exEnv.order exEnv.now c.offers (exId 0) (exId 9) 500 = .ok (mgr, r.1, r.2) := by
  unfold exListed at h
  split at h
  · rename_i x hx
    cases h
    exact ⟨x.1, hx⟩
  · cases h

/-- What the examples use of the two providers. -/
def exGood (c : Core) (acked : Bool) : Bool :=
  decide (c.id = some (exId 1)) && decide (c.key = some (Offer.exKey, 1)) &&
  match exListed c with
  | some ([o], true) => decide (o.cids = [exId 2]) && decide (o.expiry = 2000) &&
    decide ((mget c.acks (Ids.toStr (exId 2))).isSome = acked) && decide ((entry c (Ids.toStr (exId 2)) (Ids.toStr (exId 3))).isSome = acked) &&
    decide (((mget c.sent (Ids.toStr (exId 3))).getD []).length = if acked then 1 else 0)
  | _ => false

theorem exHist_good : exGood (serveAll newCore exHist).1 true = true := by decide +kernel
theorem exHistAlone_good : exGood (serveAll newCore exHistAlone).1 false = true := by decide +kernel

theorem exGood_signs {E : Env} (hP : E.P = Crypto.toy) {c : Core} {b : Bool} (h : exGood c b = true) : CanSign E c := by
  unfold exGood at h
  simp only [Bool.and_eq_true] at h
  exact exCanSign hP (of_decide_eq_true h.1.1) (of_decide_eq_true h.1.2)

theorem exGood_offer {c : Core} {b : Bool} (h : exGood c b = true) : ∃ mgr o,
    OfferMgr.getDhtRange exEnv.H512 (deref c.heap) exEnv.order exEnv.now c.offers (exId 0) (exId 9) 500 = .ok (mgr, [o], true) ∧
    o.cids = [exId 2] ∧ (mget c.acks (Ids.toStr (exId 2))).isSome = b ∧ (entry c (Ids.toStr (exId 2)) (Ids.toStr (exId 3))).isSome = b := by
  unfold exGood at h
  simp only [Bool.and_eq_true] at h
  have h2 := h.2
  split at h2
  · rename_i o ho
    obtain ⟨mgr, hg⟩ := exListed_some ho
    simp only [Bool.and_eq_true, decide_eq_true_eq] at h2
    exact ⟨mgr, o, hg, h2.1.1.1.1, h2.1.1.2, h2.1.2⟩
  · cases h2

end FcRetrieval.Provider
