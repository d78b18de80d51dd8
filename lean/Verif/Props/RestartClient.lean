import Verif.Props.Restart
import Verif.Props.Journey
import Verif.Spec.RestartClient
/-!
# C180: what the clients of a restarted gateway find
-/

set_option linter.unusedSimpArgs false

namespace FcRetrieval.Restart
open FcRetrieval.Ids (Id)
open FcRetrieval.Merkle (Hash)
open FcRetrieval.Message (Msg)
open FcRetrieval.Offer (CidOffer Built InRange terms)
open FcRetrieval.SqlOffer (DB OfferRow)
open FcRetrieval.GatewayAdmin (Env Node)
open FcRetrieval.GatewayLife (Request Event live step Brings Sound)
open FcRetrieval.Gateway (Publishes)

variable {Sig S T : Type}

/-- **C180, clients**: in one of its lives a gateway acknowledged an offer to its provider; its process ended and began again any number of times, each time
at any moment.  A client that then asks the gateway for a CID of the offer, and that the gateway answers (`C180_ready`), gets an offer on its terms, for as long as it has not expired;
and if nothing was brought to the gateway in the name of the provider that the provider has not signed, what the client gets is genuine. -/
theorem C180_client (H H512 : Hash) (hH : Merkle.Digest32 H) (As Bs : List (Life Sig)) (L : Life Sig)
    (hs : Sound H H512 (requests (As ++ L :: Bs))) (hf : Fit freshDisk (As ++ L :: Bs)) (hsize : ∀ e ∈ requests (As ++ L :: Bs), ∀ o, Brings e o → o.cids.length < 2 ^ 63)
    (h1 h2 : List (Env Sig × Request × Msg)) (E : Env Sig) (k : Gateway.Kind) (m m' : Msg) (hL : L.served = h1 ++ (E, .other k, m) :: h2)
    (hk : k = .publishDht ∨ k = .publishGroup) (hm : Event.other (.message m') ∈ (step E (live (up (after freshDisk As) L.boot) h1) (.other k) m).2)
    (pid : Option Id) (o : CidOffer) (ho : Publishes E.toEnv m pid o) (b : Boot) (hb : b.name = L.boot.name)
    (g : Gateway.Core T) (hg : g.db = (up (Sig := Sig) (after freshDisk (As ++ L :: Bs)) b).db)
    (C : Client.Env S) (c : Client.Client S) (gw : Id) (G : Gateway.Env T) (hu : Journey.Uses C c gw G g) (hG : G.H = H)
    (cid : Id) (hid : cid ∈ o.cids) (hlen : cid.length = 32) (hexp : G.now - G.off < o.expiry) (hyear : o.expiry ≤ 253402300799) :
    ∃ os, (Client.findStandard C c cid gw).2 = .ok os ∧
      ∃ s ∈ os, Journey.OnTerms o.providerID cid o.price o.expiry o.qos s ∧
        (C.H = H → Own C o.providerID (requests (As ++ L :: Bs)) → Client.Genuine C s) := by
  obtain ⟨os, g1, o', ho', ht, e, he, hbr⟩ := C180_kept H H512 G.order hu.order As Bs L hs hf h1 h2 E k m m' hL hk hm pid o ho b hb cid hid G.off G.now hu.clock hexp hyear
  obtain ⟨os2, q1, q2, -⟩ := C180_only H H512 G.order hu.order (As ++ L :: Bs) hs hf b cid hlen G.off G.now hu.clock
  rw [g1] at q1
  simp only [Res.ok.injEq, Prod.mk.injEq] at q1
  obtain ⟨rfl, -⟩ := q1
  have hS := set_of hs
  have hfit : ∀ x ∈ os, Offer.SubInRange (Offer.subOffer H x cid) ∧ Client.Whole (Offer.subOffer H x cid) := by
    intro x hx
    obtain ⟨-, -, e, he, y, hy, a1, a2, a3, a4, -, a6, a7⟩ := q2 x hx
    obtain ⟨⟨⟨p, b1, b2⟩, b3, b4, b5, b6, b7⟩, -⟩ := hS.built y ⟨e, he, hy⟩
    have := hsize e he y hy
    exact Offer.subOffer_fits hH ⟨⟨p, by rw [a1, b1], b2⟩, fun c hc => b3 c (a6 c hc), by rw [a2]; exact b4, by rw [a4]; exact b5, by rw [a3]; exact b6, by rw [a3]; exact b7⟩
      (by omega) hlen
  obtain ⟨r, hact, hbehind⟩ := hu.active
  have hfind := (Client.C110_standard_honest C hu.protocol c cid gw hlen hu.nonce hu.ttl r hact G _ hbehind hu.inTime os true (by rw [hG, hg]; exact g1) (by
    intro x hx
    obtain ⟨y, hy, rfl⟩ := List.mem_map.1 hx
    rw [hG]
    exact (hfit y hy).1) (by
    intro x hx
    obtain ⟨y, hy, rfl⟩ := List.mem_map.1 hx
    rw [hG]
    exact (hfit y hy).2) hu.keys).1
  rw [hG] at hfind
  have ht' := ht
  simp only [terms, Prod.mk.injEq] at ht'
  refine ⟨_, hfind, Offer.subOffer H o' cid, List.mem_map.2 ⟨o', ho', rfl⟩, ⟨ht'.1, rfl, ht'.2.2.1, ht'.2.2.2.1, ht'.2.2.2.2⟩, fun hC hown => ?_⟩
  obtain ⟨p, r, key, w1, w2, w3, w4⟩ := hown e he o' hbr ht'.1
  have h18 := Offer.C18_sub_offer_verifies H C.P key o' (hS.built o' ⟨e, he, hbr⟩) cid (q2 o' ho').1
  refine ⟨p, r, key, _, w1, w2, w3, rfl, w4, ?_⟩
  have := h18.1
  unfold Offer.verifyMerkleProof at this
  rw [hC]
  split at this
  · assumption
  · cases this
  · cases this
  · cases this

/-- The gateway, with any database, and a client that uses it. -/
theorem exUses3 (db : DB) : Journey.Uses (Journey.exC2 { Gateway.exFresh with db := db }) Journey.exClient2 (Merkle.exId 1) Journey.exG2 { Gateway.exFresh with db := db } := by
  refine ⟨⟨Admin.exRecord, by unfold Client.ActiveRecord Journey.exClient2; simp [mget], ?_⟩, Codecs.defaultProtocolOk, show inI64 7 from ⟨by decide, by decide⟩,
    show inI64 1100 from ⟨by decide, by decide⟩, show (1000 : Int) ≤ 1100 by decide, by decide, fun _ => .refl _, ?_⟩
  · exact ⟨fun _ => rfl, rfl, Admin.keyed_correct, rfl, Merkle.exId_proper 1, Offer.exKey_private, Journey.exG2_signs _ rfl,
      ⟨_, Admin.exRecord_key, rfl, by show Crypto.publicPart Admin.keyed Admin.exPub = Crypto.publicPart Admin.keyed Offer.exKey; decide +kernel⟩, Codecs.defaultProtocolOk⟩
  · intro i r hr
    simp only [Journey.exC2, Journey.exG2] at hr
    split at hr
    · cases hr
      exact ⟨by decide +kernel, by decide +kernel⟩
    · split at hr
      · cases hr
        exact ⟨by decide +kernel, by decide +kernel⟩
      · cases hr

open GatewayLife (exEnv exSound) in
/-- The gateway takes an offer, ends, is started again and ends at once; the client of the third life finds the offer, and it is genuine. -/
example : ∃ (Ls : List (Life Unit)) (g : Gateway.Core Unit), Ls.length = 2 ∧ g.db = (up (Sig := Unit) (after freshDisk Ls) exBoot).db ∧
    ∃ os, (Client.findStandard (Journey.exC2 g) Journey.exClient2 (Merkle.exId 2) (Merkle.exId 1)).2 = .ok os ∧
      ∃ s ∈ os, Journey.OnTerms (some (Merkle.exId 9)) (Merkle.exId 2) 5 1700000000 3 s ∧ Client.Genuine (Journey.exC2 g) s := by
  have hpub : Admin.exPub.alg = Crypto.sigAlg ∧ Crypto.publicPart Admin.keyed Admin.exPub = Crypto.publicPart Admin.keyed Offer.exKey := ⟨rfl, by decide +kernel⟩
  obtain ⟨set, publish, hset, ⟨hp, hq⟩, hin, hstep⟩ := exPublish
  let L1 : Life Unit := ⟨exBoot, [(exEnv, .admin .initialiseV2, set), (exEnv, .other .publishGroup, publish)], none⟩
  let L2 : Life Unit := ⟨exBoot, [], none⟩
  have hf : Fit freshDisk ([] ++ L1 :: [L2]) := by
    refine ⟨?_, ?_, trivial⟩
    · intro e x h; cases h
    · intro e x h; cases h
  have hs : Sound Merkle.toyHash exEnv.H512 (requests ([] ++ L1 :: [L2])) := exSound _ (by
    intro e he
    simp [requests, L1, L2] at he
    rcases he with rfl | rfl <;> rfl)
  have hbr : ∀ e ∈ requests ([] ++ L1 :: [L2]), ∀ o, Brings e o → o = Journey.exOfferBy Offer.exKey := by
    intro e he o hb
    simp [requests, L1, L2] at he
    rcases he with rfl | rfl
    · simp [Brings] at hb
    · obtain ⟨q, k, h1, -, -⟩ := (show Gateway.Vouched exEnv.toEnv publish o from hb)
      exact hq q o h1
  obtain ⟨db', m', h1, h2, h3, h4⟩ := hstep freshDisk exBoot
  let db := (up (Sig := Unit) (after freshDisk [L1, L2]) exBoot).db
  refine ⟨[L1, L2], { Gateway.exFresh with db := db }, rfl, rfl, ?_⟩
  obtain ⟨os, f1, s, f2, f3, f4⟩ := C180_client Merkle.toyHash exEnv.H512 Merkle.toyHash_digest [] [L2] L1 hs hf
    (fun e he o hb => by rw [hbr e he o hb]; show 1 < 2 ^ 63; decide) [(exEnv, .admin .initialiseV2, set)] [] exEnv .publishGroup publish m' rfl (.inr rfl) h3
    (some (Merkle.exId 9)) (Journey.exOfferBy Offer.exKey) hp exBoot rfl { Gateway.exFresh with db := db } rfl (Journey.exC2 { Gateway.exFresh with db := db })
    Journey.exClient2 (Merkle.exId 1) Journey.exG2 (exUses3 db) rfl (Merkle.exId 2) (List.mem_singleton.2 rfl) (Merkle.exId_proper 2)
    (show (1000 : Int) < 1700000000 by decide) (show (1700000000 : Int) ≤ 253402300799 by decide)
  refine ⟨os, f1, s, f2, f3, f4 rfl ?_⟩
  intro e he o hb _
  rw [hbr e he o hb]
  obtain ⟨⟨p, e1, e2⟩, -⟩ := Journey.exOfferBy_storable (k := Offer.exKey) (pub := Admin.exPub) Offer.exKey_private hpub
  have : p = Merkle.exId 9 := (Option.some.inj (e1.symm.trans rfl))
  subst this
  exact ⟨_, Admin.exRecord, Admin.exPub, rfl, rfl, Admin.exRecord_key, e2⟩

end FcRetrieval.Restart
