import Verif.Lemmas.Admin
import Verif.Lemmas.GatewayExamples
/-!
# An example of a gateway and its admin
-/
set_option linter.unusedSimpArgs false

namespace FcRetrieval.Admin
open FcRetrieval.Ids (Id)
open FcRetrieval.Crypto (Prims KeyPair KeyVersion)
open FcRetrieval.Message (Msg)
open FcRetrieval.Register (Record)
open FcRetrieval.Wire (Codec encode decode)
open FcRetrieval.Codecs
open FcRetrieval.GatewayAdmin (Node Kind serve)

variable {S : Type}

/-- A toy scheme in which a signature is the digest with the key. -/
def keyed : Prims where
  hash m := m.take 32 ++ List.replicate (32 - m.length) 0
  pub sk := sk.take 32 ++ List.replicate (32 - sk.length) 0 ++ List.replicate 33 7
  sign d sk := if d.length = 32 then some (d ++ (sk.take 32 ++ List.replicate (32 - sk.length) 0) ++ [9]) else none
  verify pk d s := decide (s = d ++ pk.take 32 ∧ d.length = 32)

theorem take_left {α : Type} {a b : List α} {n : Nat} (h : a.length = n) : (a ++ b).take n = a := by
  rw [List.take_append, h, List.take_of_length_le (by omega)]
  simp

theorem keyed_correct : Crypto.Correct keyed := by
  intro sk d sig h
  simp only [keyed] at h ⊢
  split at h
  · rename_i hd
    cases h
    have h1 : (sk.take 32 ++ List.replicate (32 - sk.length) (0 : UInt8)).length = 32 := by simp; omega
    refine ⟨by simp only [List.length_append, hd]; simp; omega, ?_⟩
    simp only [decide_eq_true_eq]
    refine ⟨?_, hd⟩
    rw [take_left (by rw [List.length_append, hd, h1]), take_left h1]
  · cases h

def exKey2 : KeyPair := ⟨some (List.replicate 32 6), none, 1⟩

theorem exKey2_private : Crypto.PrivateKey exKey2 := ⟨rfl, rfl, _, rfl, by decide⟩

def exRecord : Record :=
  { nodeID := Ids.toStr (Merkle.exId 1), address := ['p'], rootSigningKey := (Crypto.encodePublicKey keyed Offer.exKey).getD [],
    signingKey := (Crypto.encodePublicKey keyed Offer.exKey).getD [], regionCode := ['A', 'U'], netGateway := ['g'], netProvider := ['q'],
    netClient := ['c'], netAdmin := ['a'] }

def exPub : KeyPair := ⟨none, some (List.replicate 32 5 ++ List.replicate 33 7), 1⟩

theorem exRecord_key : Crypto.decodePublicKey exRecord.signingKey = .ok exPub := by decide +kernel

theorem keyed_signs {k : KeyPair} (hk : Crypto.PrivateKey k) (v : KeyVersion) (b : Bytes) : (Crypto.signMessage keyed k v b).isSome := by
  obtain ⟨h1, -, s, h2, h3⟩ := hk
  have hh : (keyed.hash b).length = 32 := by simp [keyed]; omega
  have hs : keyed.sign (keyed.hash b) s = some (keyed.hash b ++ (s.take 32 ++ List.replicate (32 - s.length) 0) ++ [9]) := if_pos hh
  simp [Crypto.signMessage, Crypto.keySign, h1, h2, hs]

theorem exOwns : Owns keyed exRecord Offer.exKey 1 :=
  ⟨Offer.exKey_private, keyed_signs Offer.exKey_private 1, exPub, exRecord_key, rfl, by decide +kernel⟩

theorem exStranger : Stranger keyed exRecord exKey2 1 := by
  refine ⟨exKey2_private, keyed_signs exKey2_private 1, exPub, exRecord_key, fun b sig h hv => ?_⟩
  have hh : (keyed.hash b).length = 32 := by simp [keyed]; omega
  have hs : keyed.sign (keyed.hash b) (List.replicate 32 6) = some (keyed.hash b ++ List.replicate 32 6 ++ [9]) := if_pos hh
  have h1 : Crypto.signMessage keyed exKey2 1 b = some (hexEncode (Crypto.encodeKeyVersionAsBytes 1 ++ (keyed.hash b ++ List.replicate 32 6 ++ [9]))) := by
    unfold Crypto.signMessage Crypto.keySign
    rw [if_neg (by decide)]
    show (match keyed.sign (keyed.hash b) (List.replicate 32 6) with | none => none | some raw => some (hexEncode (Crypto.encodeKeyVersionAsBytes 1 ++ raw))) = _
    rw [hs]
  rw [h1] at h
  cases h
  unfold Crypto.verifyMessage at hv
  rw [hexDecode_encode] at hv
  have hlen : (Crypto.encodeKeyVersionAsBytes 1).length = 4 := by decide
  simp only [List.length_append, hlen, hh] at hv
  rw [if_neg (by simp), List.drop_append, hlen, List.drop_of_length_le (by omega)] at hv
  simp only [Crypto.keyVerify] at hv
  rw [if_neg (by decide)] at hv
  simp only [Nat.sub_self, List.drop_zero, List.nil_append, Option.some.injEq, Crypto.secpVerify] at hv
  rw [if_pos (by simp [hh]), take_left (by simp [hh])] at hv
  have h2 : keyed.hash b ++ List.replicate 32 6 = keyed.hash b ++ (Crypto.publicPart keyed exPub).take 32 := (decide_eq_true_eq.mp hv).1
  have h3 := List.append_cancel_left h2
  revert h3
  decide +kernel

/-- A gateway with a client it knows. -/
def exNode : Node Unit :=
  { id := some (Merkle.exId 1), key := some (Offer.exKey, 1), payment := none, searchPrice := 3, offerPrice := 2, topupAmount := 10,
    db := SqlOffer.newDB, reputation := Reputation.setRep [] (Ids.toStr (Merkle.exId 7)) 20, groupProviders := [] }

def exGatewayEnv : GatewayAdmin.Env Unit :=
  { Gateway.exEnv with
    P := keyed
    newPayments := fun wallet _ _ => if wallet = [] then none else some (Payment.newMgr "me")
    providers := [{ exRecord with nodeID := Ids.toStr (Merkle.exId 9) }]
    cidRange := fun _ => some (Merkle.exId 0, Merkle.exId 9)
    proof := ⟨some [], some []⟩ }

/-- The admin of the gateway `n`. -/
def exAdmin (n : Node Unit) : Env where
  H := Merkle.toyHash
  P := keyed
  pr := Message.defaultProtocol
  key := some (exKey2, 1)
  exchange := fun _ m => (GatewayAdmin.kindOf m.type).bind (fun k => reply (serve exGatewayEnv n k m).2)

theorem exBehind (n : Node Unit) : Behind (exAdmin n) exRecord exGatewayEnv n where
  served := fun _ => rfl
  prims := rfl
  correct := keyed_correct
  protocol := defaultProtocolOk
  adminProtocol := defaultProtocolOk

theorem exHasKey (n : Node Unit) : HasKey (exAdmin n) := ⟨_, _, rfl, keyed_signs exKey2_private 1⟩

end FcRetrieval.Admin
