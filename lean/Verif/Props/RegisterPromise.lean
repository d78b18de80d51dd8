import Verif.Props.Register
import Verif.Props.Journey
/-!
# C150: who is registered stays registered
-/
set_option linter.unusedSimpArgs false

namespace FcRetrieval.Register
open FcRetrieval.Ids (Id)
open FcRetrieval.Message (Msg)
open FcRetrieval.Wire (decode)
open FcRetrieval.Codecs
open FcRetrieval.Crypto (KeyPair)

/-- Whoever registers under an identifier that is taken, with whatever key, is told that this is done and takes it over: afterwards the listing of the service has the
new record under this identifier, and the old one nowhere. -/
theorem C150_refuted (ops : List Op) (k : Kind) (r r' : Record) (hr' : Fits k r') (hid : r'.nodeID = r.nodeID) (hne : r' ≠ r) :
    (∃ b, (add (after (ops ++ [.add k (registration k r)])) k (registration k r')).2 = .ok b ∧ readRecord k b = some r') ∧
    ∃ l : List Record, readListing k (list (after (ops ++ [.add k (registration k r), .add k (registration k r')])) k) = some (l.map some) ∧
      r' ∈ l ∧ r ∉ l ∧ ∀ x ∈ l, x.nodeID = r.nodeID → x = r' := by
  refine ⟨(C65_reply _ k _).2.1 r' (readBody_registration k r' hr'), ?_⟩
  obtain ⟨l, h1, h2⟩ := C65_registered_is_read (ops ++ [.add k (registration k r)]) [] k r' hr' (by simp)
  refine ⟨l, ?_, ((h2 r').2 rfl).1, fun h => hne ((h2 r).1 ⟨h, hid.symm⟩).symm, fun x hx hxid => (h2 x).1 ⟨hx, hxid.trans hid.symm⟩⟩
  simpa using h1

/-- Whoever takes over a provider's identifier speaks for the provider: a gateway that looks providers up in that listing acknowledges and stores an offer in the name
of the provider that is signed with the new key, in a request signed with the new key. -/
theorem C150_offers_refuted {Sig : Type} (ops : List Op) (r r' : Record) (hr' : Fits .provider r') (hid : r'.nodeID = r.nodeID) (id : Id)
    (key : KeyPair) (hkey : Crypto.decodePublicKey r'.signingKey = .ok key)
    (E : Gateway.Env Sig) (hw : Gateway.DbWorks E) (hpr : ProtocolOk E.pr)
    (hlook : ∀ l : List Record, readListing .provider (list (after (ops ++ [.add .provider (registration .provider r), .add .provider (registration .provider r')])) .provider) =
      some (l.map some) → ∀ x ∈ l, x.nodeID = r.nodeID → E.provider id = some x)
    (c : Gateway.Core Sig) (hk : Gateway.CanSign E c) (hc : c.id.length = 32) (m : Msg) (nonce : Int) (o : Offer.CidOffer)
    (hreq : decode (providerPublishGroupOfferRequest E.H) m = .ok (some id, nonce, some o))
    (hsig : Crypto.verifyMessage E.P key m.signature (Message.toSign m) = some true) (ho : Gateway.Storable E key o) :
    ∃ db ack, SqlOffer.run E.H512 c.db [(.group, o)] = .ok (db, [true]) ∧ Gateway.serve E c .publishGroup m = ({ c with db := db }, [.message ack]) ∧
      ack.type = providerPublishGroupOfferResponse.code := by
  obtain ⟨l, h1, h2⟩ := C65_registered_is_read (ops ++ [.add .provider (registration .provider r)]) [] .provider r' hr' (by simp)
  have h3 := hlook l (by simpa using h1) r' ((h2 r').2 rfl).1 hid
  have := Gateway.C52_publishGroup_served E hw hpr c hk hc m (some id) nonce o key hreq ⟨id, r', rfl, h3, hkey, hsig⟩
  rw [if_pos ho] at this
  obtain ⟨db, ack, d, g1, g2, g3, g4, -⟩ := this
  exact ⟨db, ack, g1, Prod.ext g2 g3, (Gateway.decode_inv g4).1⟩

/-- And anybody can remove all of them: one request, which nobody has to sign. -/
theorem C150_deleted_refuted (ops : List Op) (k : Kind) :
    readListing k (list (after (ops ++ [.deleteAll k])) k) = some [] := by
  have h : after (ops ++ [.deleteAll k]) = deleteAll (after ops) k := by
    unfold after
    rw [List.foldl_append]
    rfl
  rw [h, (C65_delete_all ops k k).1]
  obtain ⟨l, h1, -, h3⟩ := C65_listing [] k
  have : l = [] := by
    cases l with
    | nil => rfl
    | cons x l => exact absurd ((h3 x).1 (by simp)) (by simp [latest])
  subst this
  exact h1

/-- **C150, what is left**: a registration changes nobody's record but the one with its own identifier and of its own kind. -/
theorem C150_partial (ops : List Op) (k k' : Kind) (r' : Record) (hr' : Fits k' r') :
    ∃ l l' : List Record, readListing k (list (after ops) k) = some (l.map some) ∧
      readListing k (list (after (ops ++ [.add k' (registration k' r')])) k) = some (l'.map some) ∧
      ∀ r, k' ≠ k ∨ r.nodeID ≠ r'.nodeID → (r ∈ l' ↔ r ∈ l) := by
  obtain ⟨l, h1, -, h3⟩ := C65_listing ops k
  obtain ⟨l', h1', -, h3'⟩ := C65_listing (ops ++ [.add k' (registration k' r')]) k
  refine ⟨l, l', h1, h1', fun r hr => ?_⟩
  rw [h3, h3']
  unfold latest
  rw [List.foldl_append, List.foldl_cons, List.foldl_nil]
  simp only [note, readBody_registration k' r' hr']
  rw [if_neg]
  rintro ⟨e1, e2⟩
  rcases hr with h | h
  · exact h e1
  · exact h e2.symm

/-- A provider is registered with one key, then somebody registers under its identifier with another one. -/
example : ∃ l : List Record, readListing .gateway (list (after (exOps ++ [.add .gateway (registration .gateway exRecord), .add .gateway (registration .gateway { exRecord with signingKey := ['x'] })]))
    .gateway) = some (l.map some) ∧ { exRecord with signingKey := ['x'] } ∈ l ∧ exRecord ∉ l := by
  obtain ⟨-, l, h1, h2, h3, -⟩ := C150_refuted exOps .gateway exRecord { exRecord with signingKey := ['x'] } (by simp [Fits]) rfl (by decide)
  exact ⟨l, h1, h2, h3⟩

/-- A gateway that has read the register after somebody has registered as the provider `exId 1`. -/
def exTaken : Record := { Admin.exRecord with netProvider := [] }
def exMisled : Gateway.Env Unit := { Journey.exG2 with provider := fun _ => some exTaken }

/-- It takes the offer that is not of the provider that was registered first, with the key `first`. -/
example (first : List Char) (c : Gateway.Core Unit) (hc : c.id.length = 32) (hkey : c.key = Offer.exKey) :
    ∃ m db ack, Gateway.serve exMisled c .publishGroup m = ({ c with db := db }, [.message ack]) ∧ ack.type = providerPublishGroupOfferResponse.code := by
  have hpub : Admin.exPub.alg = Crypto.sigAlg ∧ Crypto.publicPart Admin.keyed Admin.exPub = Crypto.publicPart Admin.keyed Offer.exKey := ⟨rfl, by decide +kernel⟩
  obtain ⟨m, hd, ⟨i, rec, hi, hl, hkey', hv⟩⟩ := Journey.exRequest (k := Offer.exKey) (pub := Admin.exPub) (i := Merkle.exId 9) (rec := Admin.exRecord) (Merkle.exId_proper 9)
    (by simp [Journey.exG2]) Admin.exRecord_key Offer.exKey_private hpub
  have hstore := Journey.exOfferBy_storable Offer.exKey_private hpub
  have hd' : decode (providerPublishGroupOfferRequest exMisled.H) m = .ok (some (Merkle.exId 9), 1, some (Journey.exOfferBy Offer.exKey)) := hd
  have hstore : Gateway.Storable exMisled Admin.exPub (Journey.exOfferBy Offer.exKey) := hstore
  have hfits : Fits .provider exTaken := by simp [Fits, exTaken]
  generalize Journey.exOfferBy Offer.exKey = o at *
  obtain ⟨db, ack, -, h1, h2⟩ := C150_offers_refuted [] { exTaken with signingKey := first } exTaken hfits rfl (Merkle.exId 9) Admin.exPub Admin.exRecord_key
    exMisled (fun _ _ => rfl) defaultProtocolOk (by
      intro l hl x hx hxid
      obtain ⟨l', h1, h2⟩ := C65_registered_is_read [.add .provider (registration .provider { exTaken with signingKey := first })] [] .provider exTaken hfits (by simp)
      have h1 : readListing .provider (list (after ([] ++ [.add .provider (registration .provider { exTaken with signingKey := first }), .add .provider (registration .provider exTaken)]))
        .provider) = some (l'.map some) := h1
      rw [h1] at hl
      have : l' = l := List.map_inj_right (fun _ _ h => Option.some.inj h) |>.1 (Option.some.inj hl)
      subst this
      rw [(h2 x).1 ⟨hx, hxid⟩]
      rfl) c (fun b => by rw [hkey]; exact Admin.keyed_signs Offer.exKey_private _ b) hc m 1 o hd' hv hstore
  exact ⟨m, db, ack, h1, h2⟩

end FcRetrieval.Register
