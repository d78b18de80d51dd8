import Verif.Lemmas.Gateway
import Verif.Props.SqlOffer
/-!
# A small gateway to show that the hypotheses of the theorems can be met
-/
set_option linter.unusedSimpArgs false

namespace FcRetrieval.Gateway
open FcRetrieval.Ids (Id)
open FcRetrieval.Message (Msg)
open FcRetrieval.Merkle (exId exId_proper)
open FcRetrieval.Wire
open FcRetrieval.Codecs
open FcRetrieval.Payment (Voucher)

/-- Two vouchers: one over 5, one over 1. -/
def exRead (s : List Char) : Option (Voucher Unit) :=
  if s = ['5'] then some ⟨⟨"ch", 0, 0, 5⟩, ()⟩ else if s = ['1'] then some ⟨⟨"ch", 0, 0, 1⟩, ()⟩ else none

/-- The record of a gateway that signs with `Offer.exKey`. -/
def exRecord : Register.Record :=
  ⟨Ids.toStr (exId 3), ['p'], (Crypto.encodePublicKey Crypto.toy Offer.exKey).getD [], (Crypto.encodePublicKey Crypto.toy Offer.exKey).getD [],
    ['A', 'U'], ['g'], ['q'], ['c'], ['a']⟩

def exEnv : Env Unit where
  H := Merkle.toyHash
  H512 := Crypto.toy.hash
  P := Crypto.toy
  pr := Message.defaultProtocol
  now := 1000
  off := 0
  order := fun l => l
  dbFails := fun _ _ => false
  badDigest := fun _ => []
  readVoucher := exRead
  showVoucher := fun _ => ['5']
  verifyVoucher := fun _ _ _ => true
  signVoucher := fun _ => some ()
  chain := fun _ => some ⟨100, .key "gw", .key "client"⟩
  topups := fun _ _ => .failed
  gateway := fun i => if i = exId 3 then some exRecord else none
  provider := fun i => if i = exId 9 then some exRecord else none
  near := fun _ _ => some [exRecord]
  exchange := fun _ _ => none

def exDb : SqlOffer.DB :=
  match SqlOffer.addGroup Crypto.toy.hash (fun _ => false) SqlOffer.newDB exSingle with
  | .ok (db, _) => db
  | _ => SqlOffer.newDB

def exCore : Core Unit where
  id := exId 1
  key := Offer.exKey
  keyVersion := 1
  searchPrice := 3
  offerPrice := 2
  topupAmount := 10
  db := exDb
  payment := ⟨"gw", fun a => if a = "p" then some ⟨"out", 100, 0, fun _ => none⟩ else none, fun _ => none⟩

theorem exCore_signs : CanSign exEnv exCore := by
  intro b
  simp [exEnv, exCore, Crypto.signMessage, Crypto.keySign, Offer.exKey, Crypto.toy, Crypto.sigAlg]
  rw [if_pos (by omega)]
  rfl

theorem exCore_offers : SqlOffer.getOffers exEnv.H exEnv.order exEnv.off exEnv.now exCore.db (exId 2) = .ok ([exSingle], true) := by
  decide +kernel

theorem exCore_none : SqlOffer.getOffers exEnv.H exEnv.order exEnv.off exEnv.now exCore.db (exId 4) = .ok ([], false) := by
  decide +kernel

theorem exCore_credits5 : Credits exEnv exCore ['c'] ['5'] 5 := by
  unfold Credits
  decide +kernel

theorem exCore_credits1 : Credits exEnv exCore ['c'] ['1'] 1 := by
  unfold Credits
  decide +kernel

theorem exDecodes {α : Type} {codec : Codec α} {pr : Message.Protocol} {a : α} (h : Delivers codec pr a) : ∃ m, decode codec m = .ok a := by
  obtain ⟨m, -, -, -, -, hsig⟩ := h
  exact ⟨{ m with signature := [] }, (hsig []).2⟩

/-- The key that the record shows. -/
def exPub : Crypto.KeyPair := ⟨none, some (Crypto.publicPart Crypto.toy Offer.exKey), Crypto.sigAlg⟩

theorem exRecord_key : Crypto.decodePublicKey exRecord.signingKey = .ok exPub := by decide +kernel

/-- Every request that can be delivered can be delivered signed with `Offer.exKey`. -/
theorem exSigned {α : Type} {codec : Codec α} {a : α} (h : Delivers codec exEnv.pr a) (look : Id → Option Register.Record) (i : Id)
    (hl : look i = some exRecord) : ∃ m, decode codec m = .ok a ∧ Authentic exEnv look (some i) m exPub := by
  obtain ⟨m, -, -, -, -, hsig⟩ := h
  obtain ⟨sig, hs⟩ := Option.isSome_iff_exists.1 (exCore_signs (Message.toSign m))
  have hsign : Message.sign exEnv.P Offer.exKey 1 m = ({ m with signature := sig }, true) := by
    unfold Message.sign
    have hs' : Crypto.signMessage exEnv.P Offer.exKey 1 (Message.toSign m) = some sig := hs
    rw [hs']
  refine ⟨{ m with signature := sig }, (hsig sig).2, i, exRecord, rfl, hl, exRecord_key, ?_⟩
  exact verify_snd.1 (Message.C27_signed_verifies Crypto.toy Crypto.toy_correct Offer.exKey exPub 1 Offer.exKey_private
    ⟨rfl, by decide +kernel⟩ m _ hsign).1

/-- The same, with the numbers of the message in range. -/
theorem exSigned_inRange {α : Type} {codec : Codec α} {a : α} (h : Delivers codec exEnv.pr a) (hcode : inI32 codec.code)
    (look : Id → Option Register.Record) (i : Id) (hl : look i = some exRecord) :
    ∃ m, decode codec m = .ok a ∧ Authentic exEnv look (some i) m exPub ∧ Message.InRange m := by
  obtain ⟨m, -, ht, hv, hp, hsig⟩ := h
  obtain ⟨sig, hs⟩ := Option.isSome_iff_exists.1 (exCore_signs (Message.toSign m))
  have hsign : Message.sign exEnv.P Offer.exKey 1 m = ({ m with signature := sig }, true) := by
    unfold Message.sign
    have hs' : Crypto.signMessage exEnv.P Offer.exKey 1 (Message.toSign m) = some sig := hs
    rw [hs']
  refine ⟨{ m with signature := sig }, (hsig sig).2, ⟨i, exRecord, rfl, hl, exRecord_key, ?_⟩, ?_⟩
  · exact verify_snd.1 (Message.C27_signed_verifies Crypto.toy Crypto.toy_correct Offer.exKey exPub 1 Offer.exKey_private
      ⟨rfl, by decide +kernel⟩ m _ hsign).1
  · refine ⟨by rw [ht]; exact hcode, ?_, fun l h => ?_⟩
    · show inI32 m.version
      rw [hv]
      exact defaultProtocolOk.1
    · have h' : m.supported = some l := h
      rw [hp] at h'
      exact defaultProtocolOk.2 l h'

theorem exSub_ok : ∀ x ∈ [exSingle].map (fun o => Offer.subOffer exEnv.H o (exId 2)), Offer.SubInRange x := by
  intro x hx
  simp at hx
  subst hx
  refine ⟨⟨exId 9, rfl, exId_proper 9⟩, ⟨exId 2, rfl, exId_proper 2⟩, by decide, by decide, by decide, by decide, ?_, by decide +kernel, by decide +kernel⟩
  intro l hl
  have : (Offer.subOffer exEnv.H exSingle (exId 2)).merkleProof.index = some [1] := by decide +kernel
  rw [this] at hl
  cases hl
  intro n hn
  simp at hn
  subst hn
  exact ⟨by decide, by decide⟩

end FcRetrieval.Gateway
