import Verif.Lemmas.ClientGateway
import Verif.Lemmas.GatewayExamples
import Verif.Lemmas.ProviderExamples
import Verif.Lemmas.ClientCalm
import Verif.Props.Crypto
import Verif.Props.GatewayPublish
/-! A client, a gateway and a provider for the examples. -/
set_option linter.unusedSimpArgs false

namespace FcRetrieval.Client
open FcRetrieval.Ids (Id)
open FcRetrieval.Merkle (exId)
open FcRetrieval.Message (Msg)
open FcRetrieval.Offer (SubOffer)
open FcRetrieval.Register (Record)
open FcRetrieval.Wire (Codec encode decode)
open FcRetrieval.Codecs
open FcRetrieval.Provider (exMsg exMsg_decode exMsg_signed)

/-- A complete record of the gateway of `Lemmas/GatewayExamples`. -/
def exRecord : Record :=
  { nodeID := Ids.toStr (exId 1), address := ['p'], rootSigningKey := Gateway.exRecord.signingKey, signingKey := Gateway.exRecord.signingKey,
    regionCode := ['A', 'U'], netGateway := ['g'], netProvider := ['q'], netClient := ['c'], netAdmin := ['a'] }

/-- The gateway, holding an offer which its provider has signed. -/
@[irreducible] def exSignedDb : SqlOffer.DB :=
  match SqlOffer.addGroup Crypto.toy.hash (fun _ => false) SqlOffer.newDB Gateway.exSignedOffer with
  | .ok (db, _) => db
  | _ => SqlOffer.newDB
def exHolder : Gateway.Core Unit := { Gateway.exCore with db := exSignedDb }

def exEnv : Env Unit where
  H := Merkle.toyHash
  P := Crypto.toy
  pr := Message.defaultProtocol
  now := 900
  nonce := fun n => n + 7
  challenge := fun id => id
  gateway := fun i => if i = exId 1 then some exRecord else none
  provider := fun i => if i = exId 9 then some exRecord else none
  gateways := some [exRecord, { exRecord with regionCode := ['N', 'Z'] }, { exRecord with nodeID := Ids.toStr (exId 3) }]
  exchange := fun _ _ m => (clientKind m.type).bind (fun k => reply (Gateway.serve Gateway.exEnv exHolder k m).2)
  newPayments := some ⟨"cl", fun a => if a = "p" then some ⟨"c", 100000000000000000, 0, fun _ => none⟩ else none, fun _ => none⟩
  signVoucher := fun _ => some ()
  showVoucher := fun _ => ['5']
  topups := fun _ _ => .failed

def exSettings : Settings := ⟨exId 6, 200, 3, 2, 10⟩

theorem exRecord_key : Crypto.decodePublicKey exRecord.signingKey = .ok Gateway.exPub := Gateway.exRecord_key

theorem exRecord_complete : CompleteGateway exRecord :=
  ⟨by decide +kernel, by decide, by decide, by decide, by decide, by decide, by decide, ⟨_, exRecord_key⟩, ⟨_, exRecord_key⟩⟩

theorem exRecord_completeProvider : CompleteProvider exRecord :=
  ⟨by decide +kernel, by decide, by decide, by decide, by decide, by decide, ⟨_, exRecord_key⟩, ⟨_, exRecord_key⟩⟩

theorem exBehind (n : Nat) : Behind exEnv exRecord n Gateway.exEnv exHolder where
  served := fun _ => rfl
  prims := rfl
  correct := Crypto.toy_correct
  ident := rfl
  proper := Merkle.exId_proper 1
  private_ := Offer.exKey_private
  signs := Gateway.exCore_signs
  public_ := ⟨_, exRecord_key, rfl, rfl⟩
  protocol := defaultProtocolOk

/-- A client that uses the gateway, and has it active. -/
def exHist : List (Env Unit × Op) := [(exEnv, .addToUse [none, some (exId 1), some (exId 3)]), (exEnv, .addActive [some (exId 1)])]

theorem exHist_proper : ∀ e ∈ exHist, ProperOp e.2 := by
  intro e he
  simp only [exHist, List.mem_cons, List.not_mem_nil, or_false] at he
  rcases he with rfl | rfl
  · intro id hid
    simp only [List.mem_cons, Option.some.injEq, List.not_mem_nil, or_false, reduceCtorEq, false_or] at hid
    rcases hid with rfl | rfl <;> exact Merkle.exId_proper _
  · intro id hid
    simp only [List.mem_cons, Option.some.injEq, List.not_mem_nil, or_false, reduceCtorEq, false_or] at hid
    subst hid
    exact Merkle.exId_proper _

/-- An offer that verifies, and one of a provider that nobody knows. -/
def exGood : SubOffer := Offer.subOffer Merkle.toyHash Gateway.exSignedOffer (exId 2)
def exBad : SubOffer := { exGood with providerID := some (exId 8) }

theorem exGood_verified : Verified exEnv exGood := checkOffer_ok.1 (by decide +kernel)

theorem exBad_unknown : exBad.providerID = some (exId 8) ∧ exEnv.provider (exId 8) = none := ⟨rfl, by decide +kernel⟩

theorem subInRange_provider {o : SubOffer} {pid : Id} (h : Offer.SubInRange o) (hp : Ids.Proper pid) :
    Offer.SubInRange { o with providerID := some pid } := ⟨⟨pid, rfl, hp⟩, h.2⟩

theorem subInRange_signature {H : Merkle.Hash} {o : Offer.CidOffer} {c : Id} {s : List Char} (h : Offer.SubInRange (Offer.subOffer H o c)) :
    Offer.SubInRange (Offer.subOffer H { o with signature := s } c) := h

theorem exGood_inRange : Offer.SubInRange exGood := by
  unfold exGood Gateway.exSignedOffer
  exact subInRange_signature (Gateway.exSub_ok _ (List.mem_singleton.2 rfl))

theorem exBad_inRange : Offer.SubInRange exBad := by
  unfold exBad
  exact subInRange_provider exGood_inRange (Merkle.exId_proper 8)

theorem exGood_whole : Whole exGood := ⟨by decide +kernel, by decide +kernel, by decide +kernel⟩
theorem exBad_whole : Whole exBad := ⟨by decide +kernel, by decide +kernel, by decide +kernel⟩

theorem exOffers {P : SubOffer → Prop} (h1 : P exGood) (h2 : P exBad) {l : List SubOffer} (hl : ∀ o ∈ l, o = exGood ∨ o = exBad) : ∀ o ∈ l, P o := by
  intro o ho
  rcases hl o ho with h | h <;> rw [h]
  · exact h1
  · exact h2

theorem exHolder_offers : SqlOffer.getOffers Gateway.exEnv.H Gateway.exEnv.order Gateway.exEnv.off Gateway.exEnv.now exHolder.db (exId 2) =
    .ok ([Gateway.exSignedOffer], true) := by decide +kernel

theorem exHolder_byDigest : ((Gateway.digestTexts Gateway.exEnv [Gateway.exSignedOffer]).take 1).map
    (fun d => SqlOffer.getByDigest Gateway.exEnv.H Gateway.exEnv.order Gateway.exEnv.off Gateway.exEnv.now exHolder.db (Gateway.readDigest Gateway.exEnv d)) =
    [Gateway.exSignedOffer].map (fun o => .ok (some o)) := by decide +kernel

theorem exEnv_keys : HaveKeys exEnv.provider := by
  intro id r h
  simp only [exEnv] at h
  split at h
  · cases h
    exact ⟨by decide +kernel, by decide +kernel⟩
  · cases h

/-- The payment manager of the client, before and after two payments. -/
def exMgr : Payment.Mgr Unit := ⟨"cl", fun a => if a = "p" then some ⟨"c", 100000000000000000, 0, fun _ => none⟩ else none, fun _ => none⟩
def exPay (m : Payment.Mgr Unit) (amount : Int) : Payment.Mgr Unit := (Payment.pay exEnv.signVoucher m "p" 0 amount).1

/-- A client with the gateway active. -/
def exClient : Client Unit := ⟨exSettings, [(Ids.toStr (exId 1), exRecord)], [(Ids.toStr (exId 1), exRecord)], some exMgr⟩

/-- Worlds where every message, or the `n`-th message of a call, gets such an answer, signed by the gateway. -/
def exAnswering {α : Type} (codec : Codec α) (a : α) : Env Unit := { exEnv with exchange := fun _ _ _ => some (exMsg codec a) }
def exAnswers (l : List Msg) : Env Unit := { exEnv with exchange := fun n _ _ => l[n]? }

theorem exClient_active : ActiveRecord exClient (exId 1) exRecord := by
  unfold ActiveRecord exClient
  simp [mget]

theorem exAnswering_answered {α : Type} {codec : Codec α} {a : α} (h : Delivers codec Message.defaultProtocol a) (n : Nat) (m : Msg) :
    Answered (exAnswering codec a) n exRecord m (exMsg codec a) := ⟨rfl, _, exRecord_key, exMsg_signed h⟩

theorem exAnswers_answered {α : Type} {codec : Codec α} {a : α} (h : Delivers codec Message.defaultProtocol a) (l : List Msg) (n : Nat) (m : Msg)
    (hl : l[n]? = some (exMsg codec a)) : Answered (exAnswers l) n exRecord m (exMsg codec a) := ⟨hl, _, exRecord_key, exMsg_signed h⟩

end FcRetrieval.Client
