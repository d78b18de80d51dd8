import Verif.Model.JsDiscovery
import Verif.Model.Codecs
import Verif.Props.ClientJs
import Verif.Props.JsPayment
/-!
# Properties of offer discovery in the JavaScript client
-/

set_option linter.unusedSimpArgs false

namespace FcRetrieval.Js
open FcRetrieval.Crypto (Prims)
open FcRetrieval.Register (Record)

/-- C157 is not true: whatever the client has done before, whatever is in its purse and whatever the network and the register answer, no discovery
returns a single offer, and no acknowledgement is ever confirmed. -/
theorem C157_refuted (P : Prims) (S : Prices) (c : Client) (purse : Option Purse) (gateway : List Char) :
    (∀ (t : Trip) (cid : Cid) (l : List Json), (findStandard P S c purse t cid gateway).2 = some (some l) → l = []) ∧
    (∀ (numDHT : Nat) (l : List (List Char × List Json)), (findDHT S c purse gateway numDHT).2 = some l → l = []) ∧
    ∀ (net : Net) (provider : Option Record), findAck P net provider ≠ some true := by
  refine ⟨fun t cid l h => ?_, fun numDHT l h => ?_, fun net provider h => ?_⟩
  · unfold findStandard at h
    split at h
    · simp at h
    · split at h
      · simp at h
      · dsimp only at h
        split at h
        · split at h
          · simp at h
          · unfold collect at h
            split at h <;> simp at h <;> first | exact h | exact h.symm
        · simp at h
  · unfold findDHT at h
    split at h
    · simp at h; exact h
    · split at h
      · simp at h
      · split at h
        · simp at h; exact h
        · split at h
          · simp at h; exact h
          · split at h
            · simp at h; exact h
            · simp [requestDHTOffers] at h; exact h
  · unfold findAck at h
    cases provider with
    | none => cases h
    | some r =>
      dsimp only at h
      split at h
      · cases h
      · split at h
        · cases h
        · split at h
          · cases h
          · simp [ackFound] at h

/-- In base64 a text that begins with a brace begins with an `e`. -/
theorem brace_encoded (b : Bytes) : ∃ r, b64Encode (0x7B :: b) = 'e' :: r := by
  cases b with
  | nil => exact ⟨_, rfl⟩
  | cons x b =>
    cases b with
    | nil => exact ⟨_, rfl⟩
    | cons y b => exact ⟨_, rfl⟩

theorem e_unread (r : List Char) : parseJson ('e' :: r) = none := by
  have : readValue (2 * ('e' :: r).length + 2) ('e' :: r) = none := by
    rw [readValue]
    simp [skipWs, isWs, isDigitC]
  unfold parseJson
  rw [this]

theorem object_bytes (fs : List (String × Json)) : ∃ b, Message.jsonText (.obj fs) = 0x7B :: b := by
  unfold Message.jsonText
  cases fs with
  | nil => exact ⟨_, rfl⟩
  | cons f fs =>
    rw [render]
    exact ⟨_, by unfold utf8Bytes; rw [List.flatMap_cons]; rfl⟩

/-- The reason on the side of the messages: whatever kind of message a gateway writes, this client cannot read offers from it. -/
theorem C157_unread_refuted {α : Type} (c : Wire.Codec α) (pr : Message.Protocol) (a : α) (m : Message.Msg) (h : Wire.encode c pr a = .ok m) (signature : List Char) :
    decodeOffers (ofMembers (JsonGrammar.messageMembers { m with signature := signature })) = none := by
  obtain ⟨v, _, h⟩ := Gateway.res_ok_of_bind h
  obtain ⟨fs, _, h⟩ := Gateway.res_ok_of_bind h
  cases h
  obtain ⟨b, hb⟩ := object_bytes fs
  obtain ⟨r, hr⟩ := brace_encoded b
  have hbody : (ofMembers (JsonGrammar.messageMembers { Message.create pr c.code (some (Message.jsonText (.obj fs))) with signature := signature })).body = some (.str ('e' :: r)) := by
    show some (jsonBytes (some (Message.jsonText (.obj fs)))) = _
    rw [hb]
    show some (Json.str (b64Encode (0x7B :: b))) = _
    rw [hr]
  unfold decodeOffers
  split
  · rw [hbody]
    simp only [toText, e_unread]
  · rfl

/-- The payment: when the balance does not cover the price, what starts is a top-up, and the request goes out without a voucher. -/
theorem C157_charge (p : Purse) (payTo topupFor : List Char) (amount topup : Nat) (h : (JsPay.pay p.sign p.world.mgr payTo 0 amount).2 = .topup) :
    charge p payTo topupFor amount topup =
      ({ p with world := { p.world with tasks := p.world.tasks ++ [JsPay.start p.world.mgr topupFor topup] } }, .topup) := by
  have hp : JsPay.pay p.sign p.world.mgr payTo 0 amount = (p.world.mgr, .topup) := by
    rcases JsPay.pay_cases p.sign p.world.mgr payTo 0 amount with ⟨h1, _⟩ | ⟨cs, _, _, ⟨_, h1⟩ | ⟨t, _, h1⟩⟩
    · exact h1
    · rw [h1] at h; cases h
    · rw [h1] at h; cases h
  unfold charge
  rw [hp]
  simp only [JsPay.step, hp]

/-! ## Cases -/

/-- Signatures that are all taken as good, so that an answer can be written down. -/
def exGood : Prims := { Crypto.toy with verify := fun _ _ _ => true }

/-- A gateway whose key has the right form. -/
def exGateway : Record := { Admin.exRecord with signingKey := hexEncode (1 :: List.replicate 65 4), address := ['f', '1'] }

/-- A gateway that answers with a body this client can read: the offers are the given text. -/
def exAnswer (offers : List Char) : Net := fun _ _ => some (200, "{\"message_type\":111,\"message_body\":\"{\\\"pieceCID\\\":{},\\\"nonce\\\":5,\\\"subCIDOffers\\\":".toList ++ offers ++
  "}\",\"message_signature\":\"".toList ++ hexEncode (List.replicate 69 0) ++ "\"}".toList)

def exPurse : Purse := ⟨JsPay.exSign, JsPay.run JsPay.exSign (JsPay.newWorld 1) [.topup ['f', '1'] 9, .go 0 ['X'], .go 0 ['X'], .go 0 ['X']]⟩

/-- Without offers the search ends well, and has been paid for. -/
example : (findStandard exGood ⟨4, 100⟩ ⟨[(['a'], exGateway)], []⟩ (some exPurse) ⟨exAnswer ['[', ']'], exAnswer ['[', ']'], 5, 0⟩ ⟨.obj [], toText (.obj [])⟩ ['a']).2.isSome = true ∧
    ((findStandard exGood ⟨4, 100⟩ ⟨[(['a'], exGateway)], []⟩ (some exPurse) ⟨exAnswer ['[', ']'], exAnswer ['[', ']'], 5, 0⟩ ⟨.obj [], toText (.obj [])⟩ ['a']).1.map
      fun p => p.world.issued.map (·.amount)) = some [4] := by decide +kernel

/-- With an offer it does not. -/
example : (findStandard exGood ⟨4, 100⟩ ⟨[(['a'], exGateway)], []⟩ (some exPurse) ⟨exAnswer "[{}]".toList, exAnswer "[{}]".toList, 5, 0⟩ ⟨.obj [], toText (.obj [])⟩ ['a']).2.isSome = false := by
  decide +kernel

/-- Three searches with nothing on the channel start three top-ups. -/
example : ((charge (charge (charge ⟨JsPay.exSign, JsPay.newWorld 1⟩ ['f', '1'] ['g'] 4 100).1 ['f', '1'] ['g'] 4 100).1 ['f', '1'] ['g'] 4 100).1.world.tasks.length) = 3 := by
  decide +kernel

end FcRetrieval.Js
