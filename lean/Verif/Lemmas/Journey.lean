import Verif.Spec.Journey
import Verif.Lemmas.ProofSize
import Verif.Props.AdminProvider
import Verif.Props.ProviderKey
import Verif.Props.GatewayStore
import Verif.Props.ClientReturn
/-!
# Lemmas about the way of an offer from the admin of a provider to a client
-/
set_option linter.unusedSimpArgs false

namespace FcRetrieval.Journey
open FcRetrieval.Ids (Id)
open FcRetrieval.Crypto (Prims)
open FcRetrieval.Merkle (Hash)
open FcRetrieval.Message (Msg)
open FcRetrieval.Offer (SubOffer CidOffer Built terms)
open FcRetrieval.Register (Record)
open FcRetrieval.Wire (encode decode)
open FcRetrieval.Codecs
open FcRetrieval.Provider (serveAll newCore CanSign Made MadeAll SignedUnder)

variable {Sig S : Type}

/-- A request signed by the provider is authentic for a gateway that knows the provider. -/
theorem authentic_of {G : Gateway.Env S} {E : Provider.Env} {pc : Provider.Core} (hP : G.P = E.P) (hc : Crypto.Correct G.P)
    (hk : Knows G.P G.provider pc) {req : Msg} (hs : SignedUnder E pc.key req) :
    ∃ pub, Gateway.Authentic G G.provider pc.id req pub ∧ ∀ b sig k v, pc.key = some (k, v) → Crypto.signMessage E.P k v b = some sig →
      Crypto.verifyMessage G.P pub sig b = some true := by
  obtain ⟨pid, rec, pub, k, v, h1, h2, h3, h4, h5, h6, h7⟩ := hk
  obtain ⟨k', v', m0, h8, h9⟩ := hs
  rw [h2] at h8
  cases h8
  rw [← hP] at h9
  refine ⟨pub, ⟨pid, rec, h1, h3, h4, Gateway.verify_snd.1 (Message.C27_signed_verifies G.P hc k pub v h5 ⟨h6, h7⟩ m0 req h9).1⟩, ?_⟩
  intro b sig k' v' h10 h11
  rw [h2] at h10
  cases h10
  rw [← hP] at h11
  exact Crypto.C34_signed_verifies G.P hc k pub v b sig h5 ⟨h6, h7⟩ h11

theorem made_signed {G : Gateway.Env S} {E : Provider.Env} {pc : Provider.Core} {pub : Crypto.KeyPair} {cids : List Id} {price : Nat} {expiry : Int} {qos : Nat}
    {o : CidOffer} (hm : Made E pc cids price expiry qos o)
    (hv : ∀ b sig k v, pc.key = some (k, v) → Crypto.signMessage E.P k v b = some sig → Crypto.verifyMessage G.P pub sig b = some true) :
    Gateway.Signed G pub o := by
  obtain ⟨k, v, h1, h2, h3, h4, h5, h6, h7, p, h8, h9⟩ := hm
  refine ⟨p, by rw [h2, h8], ?_⟩
  rw [h4, h5, h6]
  exact hv _ _ k v h1 h9

/-- The group offer and the requests with it, when the call of the admin succeeds. -/
theorem group_sent {H : Hash} {hist : List (Provider.Env × Provider.Kind × Msg)} (hist_sane : ∀ e ∈ hist, Provider.Sane H e) {A : Admin.Env} {r : Record} {E : Provider.Env}
    (hb : Admin.BehindProvider A r E (serveAll newCore hist).1) (hs : Admin.SaneWorld H E) (hsign : CanSign E (serveAll newCore hist).1)
    {cids : List Id} {price : Nat} {expiry : Int} {qos : Nat} (hcids : IdsOk cids) (h1 : price < 2 ^ 64) (h2 : inI64 expiry) (h3 : qos < 2 ^ 64)
    (h : (Admin.publishGroup A r cids price expiry qos).2 = .ok ()) :
    ∃ o, Made E (serveAll newCore hist).1 cids price expiry qos o ∧
      ∀ x ∈ E.gateways, ∃ gid req, Ids.fromHex x.nodeID = some gid ∧
        .asked gid req ∈ (Admin.providerAfter E (serveAll newCore hist).1 (Admin.publishGroup A r cids price expiry qos).1).2 ∧
        decode (providerPublishGroupOfferRequest H) req = .ok ((serveAll newCore hist).1.id, 1, some o) ∧ SignedUnder E (serveAll newCore hist).1.key req := by
  obtain ⟨m, x, hd, h4, h5, h6, -, -⟩ := Admin.ok_served hb (C30_providerAdminPublishGroupOfferRequest A.pr hb.adminProtocol cids price expiry qos hcids h1 h2 h3) (kind := .publishGroup) rfl h
  obtain ⟨o, h7, -, h8, h9⟩ := Provider.C106_partial H hist hist_sane E m x (Admin.sane_of hs (by rw [Admin.decode_type hd]; decide)) hsign cids price expiry qos hd h6
  have h10 : (Admin.publishGroup A r cids price expiry qos).1 = [(r.netAdmin, m)] := h4
  rw [h10, h5]
  refine ⟨o, h7, fun x hx => ?_⟩
  obtain ⟨gid, req, g1, g2, g3⟩ := h8 x hx
  refine ⟨gid, req, g1, g2, g3, ?_⟩
  obtain ⟨k1, k2⟩ := Provider.serve_under (E := E) (c := (serveAll newCore hist).1) (k := .publishGroup) (m := m)
  rw [← (k1 (by simp) (by simp)).2]
  exact k2 req (Or.inr ⟨gid, g2⟩)

/-- Who sends DHT offers names itself. -/
theorem dht_names {H : Hash} {hist : List (Provider.Env × Provider.Kind × Msg)} (hist_sane : ∀ e ∈ hist, Provider.Sane H e) {E : Provider.Env} {m r : Msg}
    (hs : Provider.Sane H (E, .publishDht, m)) (hr : .message r ∈ (Provider.serve E (serveAll newCore hist).1 .publishDht m).2) {gid : Id} {req : Msg}
    (hx : .asked gid req ∈ (Provider.serve E (serveAll newCore hist).1 .publishDht m).2) :
    ∃ nonce offers, decode (providerPublishDHTOfferRequest E.H) req = .ok ((serveAll newCore hist).1.id, nonce, offers) := by
  have hk := Provider.kept_serveAll hist hist_sane (Provider.kept_new H)
  generalize (serveAll newCore hist).1 = c at *
  obtain ⟨cids, price, expiry, qos, offers, mgr, hd, hne', hmade, hst, -, h3, h4, -⟩ := Provider.publishDht_answered hs.2.2.2.1 hr
  have hbuilt := Provider.made_built_all hk hd hmade
  have hsingle : ∀ o ∈ offers, o.cids.length = 1 := by
    intro o ho
    obtain ⟨-, x, -, -, hx, -⟩ := hbuilt o ho
    rw [hx]; rfl
  have holen : offers.length = cids.length := by
    have := congrArg List.length (Provider.madeAll_cids hmade)
    simpa using this
  have hin : inI64 offers.length := holen ▸ hs.2.2.2.2.2 _ _ _ _ hd
  have hmem := Provider.nearLoop_mem (E := E) (offers := offers) (Q := fun c' => c'.id = c.id ∧ c'.key = c.key) (by
    intro c' n gid ⟨h1, h2⟩
    obtain ⟨h3, h4⟩ := Provider.publishDhtTo_frame (E := E) (c := c') (offers := offers) (n := n) (gid := gid)
    exact ⟨h3.trans h1, h4.trans h2⟩) cids { c with heap := c.heap ++ [offers.getLastD Provider.noOffer], offers := mgr } 0 ⟨rfl, rfl⟩
  have hout : (Provider.serve E c .publishDht m).2 = _ := h4
  rw [hout] at hx
  rcases List.mem_append.1 hx with hx | hx
  · rcases hmem.1 _ hx with hx | hx | ⟨cid, hcid, rs, h5, x, hx1, gid', c', n', h6, ⟨h7, h8⟩, h9⟩
    · cases hx
    · cases hx
    · obtain ⟨rfl, m0, sig, h10, rfl⟩ := Provider.publishDhtTo_asked h9
      rw [h7] at h10
      exact ⟨1, offers, Provider.carries_of_encode hs.2.2.2.1 hk.id (fun o ho => (hbuilt o ho).1) hsingle hin h10 sig⟩
  · simp at hx

/-- The DHT offers and the requests with them, when the call of the admin succeeds. -/
theorem dht_sent {H : Hash} {hist : List (Provider.Env × Provider.Kind × Msg)} (hist_sane : ∀ e ∈ hist, Provider.Sane H e) {A : Admin.Env} {r : Record} {E : Provider.Env}
    (hb : Admin.BehindProvider A r E (serveAll newCore hist).1) (hs : Admin.SaneWorld H E) (hsign : CanSign E (serveAll newCore hist).1)
    {cids : List Id} {price : List Nat} {expiry : List Int} {qos : List Nat} (hcids : IdsOk cids) (hlen : inI64 cids.length)
    (h1 : ∀ x ∈ price, x < 2 ^ 64) (h2 : ∀ x ∈ expiry, inI64 x) (h3 : ∀ x ∈ qos, x < 2 ^ 64)
    (h : (Admin.publishDht A r cids price expiry qos).2 = .ok ()) :
    ∃ offers, MadeAll E (serveAll newCore hist).1 cids price expiry qos offers ∧
      ∀ cid ∈ cids, ∃ rs, E.near cid = some rs ∧ ∀ x ∈ rs, ∃ gid req nonce, Ids.fromHex x.nodeID = some gid ∧
        .asked gid req ∈ (Admin.providerAfter E (serveAll newCore hist).1 (Admin.publishDht A r cids price expiry qos).1).2 ∧
        decode (providerPublishDHTOfferRequest H) req = .ok ((serveAll newCore hist).1.id, nonce, offers) ∧ SignedUnder E (serveAll newCore hist).1.key req := by
  obtain ⟨m, x, hd, h4, h5, h6, -, -⟩ := Admin.ok_served hb (C30_providerAdminPublishDHTOfferRequest A.pr hb.adminProtocol cids price expiry qos hcids h1 h2 h3) (kind := .publishDht) rfl h
  have hsane : Provider.Sane H (E, .publishDht, m) := by
    obtain ⟨a1, a2, a3, a4, a5⟩ := id hs
    refine ⟨a1, a2, a3, a4, a5, fun c _ _ _ hd' => ?_⟩
    dsimp only at hd'
    rw [hd] at hd'
    cases hd'
    exact hlen
  obtain ⟨o, h7, h8, h9⟩ := Provider.C104_near H hist hist_sane E m x hsane hsign cids price expiry qos hd h6
  have h10 : (Admin.publishDht A r cids price expiry qos).1 = [(r.netAdmin, m)] := h4
  rw [h10, h5]
  refine ⟨o, h7, fun cid hc => ?_⟩
  obtain ⟨rs, g1, g2⟩ := h8 cid hc
  refine ⟨rs, g1, fun x hx => ?_⟩
  obtain ⟨gid, req, g3, g4, pid, nonce, g5⟩ := g2 x hx
  obtain ⟨nonce', offers', g6⟩ := dht_names hist_sane hsane h6 g4
  rw [g5] at g6
  cases g6
  refine ⟨gid, req, nonce, g3, g4, by rw [← show E.H = H from hs.1]; exact g5, ?_⟩
  obtain ⟨k1, k2⟩ := Provider.serve_under (E := E) (c := (serveAll newCore hist).1) (k := .publishDht) (m := m)
  rw [← (k1 (by simp) (by simp)).2]
  exact k2 req (Or.inr ⟨gid, g4⟩)

/-- What the gateway answers to a group offer. -/
theorem group_taken {G : Gateway.Env S} {g : Gateway.Core S} {E : Provider.Env} {pc : Provider.Core} (hr : Ready G g E pc) {req : Msg} {o : CidOffer}
    {cids : List Id} {price : Nat} {expiry : Int} {qos : Nat} (hm : Made E pc cids price expiry qos o) (hp : price < 2 ^ 63) (hq : qos < 2 ^ 63)
    (hd : decode (providerPublishGroupOfferRequest E.H) req = .ok (pc.id, 1, some o)) (hs : SignedUnder E pc.key req) :
    ∃ m', Gateway.Out.message m' ∈ (Gateway.serve G g .publishGroup req).2 := by
  obtain ⟨pub, ha, hv⟩ := authentic_of hr.prims hr.correct hr.knows hs
  have hsig := made_signed hm hv
  obtain ⟨k, v, -, -, -, e1, -, e2, -⟩ := hm
  rw [← hr.hash] at hd
  have := Gateway.C52_publishGroup_served G hr.works hr.protocol g hr.signs hr.proper req pc.id 1 o pub hd ha
  rw [if_pos ⟨hsig, by omega, by omega⟩] at this
  obtain ⟨db, m', d, -, -, h1, -⟩ := this
  exact ⟨m', by rw [show Gateway.serve G g .publishGroup req = Gateway.publishGroup G g req from rfl, h1]; simp⟩

theorem madeAll_mem {E : Provider.Env} {pc : Provider.Core} : ∀ {cids : List Id} {price : List Nat} {expiry : List Int} {qos : List Nat} {offers : List CidOffer},
    MadeAll E pc cids price expiry qos offers → ∀ o ∈ offers, ∃ cid p e q, p ∈ price ∧ q ∈ qos ∧ Made E pc [cid] p e q o
  | [], [], [], [], [], _, o, ho => by cases ho
  | cid :: cids, p :: price, e :: expiry, q :: qos, o' :: os, h, o, ho => by
    rcases List.mem_cons.1 ho with rfl | ho
    · exact ⟨cid, p, e, q, by simp, by simp, h.1⟩
    · obtain ⟨cid', p', e', q', h1, h2, h3⟩ := madeAll_mem h.2 o ho
      exact ⟨cid', p', e', q', by simp [h1], by simp [h2], h3⟩

theorem madeAll_at {E : Provider.Env} {pc : Provider.Core} : ∀ {cids : List Id} {price : List Nat} {expiry : List Int} {qos : List Nat} {offers : List CidOffer},
    MadeAll E pc cids price expiry qos offers → ∀ (i : Nat) {cid : Id} {p : Nat} {e : Int} {q : Nat}, cids[i]? = some cid → price[i]? = some p → expiry[i]? = some e →
      qos[i]? = some q → ∃ o ∈ offers, Made E pc [cid] p e q o
  | [], [], [], [], [], _, i, _, _, _, _, h, _, _, _ => by simp at h
  | cid :: cids, p :: price, e :: expiry, q :: qos, o' :: os, h, 0, _, _, _, _, h1, h2, h3, h4 => by
    simp only [List.getElem?_cons_zero, Option.some.injEq] at h1 h2 h3 h4
    subst h1 h2 h3 h4
    exact ⟨o', by simp, h.1⟩
  | cid :: cids, p :: price, e :: expiry, q :: qos, o' :: os, h, i + 1, _, _, _, _, h1, h2, h3, h4 => by
    simp only [List.getElem?_cons_succ] at h1 h2 h3 h4
    obtain ⟨o, g1, g2⟩ := madeAll_at h.2 i h1 h2 h3 h4
    exact ⟨o, by simp [g1], g2⟩

/-- What the gateway answers to DHT offers. -/
theorem dht_taken {G : Gateway.Env S} {g : Gateway.Core S} {E : Provider.Env} {pc : Provider.Core} (hr : Ready G g E pc) {req : Msg} {offers : List CidOffer} {nonce : Int}
    {cids : List Id} {price : List Nat} {expiry : List Int} {qos : List Nat} (hm : MadeAll E pc cids price expiry qos offers)
    (hp : ∀ x ∈ price, x < 2 ^ 63) (hq : ∀ x ∈ qos, x < 2 ^ 63)
    (hd : decode (providerPublishDHTOfferRequest E.H) req = .ok (pc.id, nonce, offers)) (hs : SignedUnder E pc.key req) :
    ∃ m', Gateway.Out.message m' ∈ (Gateway.serve G g .publishDht req).2 := by
  obtain ⟨pub, ha, hv⟩ := authentic_of hr.prims hr.correct hr.knows hs
  rw [← hr.hash] at hd
  obtain ⟨db, -, -, this⟩ := Gateway.C52_publishDht_served G hr.works hr.protocol g hr.signs req pc.id nonce offers pub hd ha
  rw [if_pos (by
    intro o ho
    obtain ⟨cid, p, e, q, h1, h2, h3⟩ := madeAll_mem hm o ho
    refine ⟨made_signed h3 hv, ?_⟩
    obtain ⟨k, v, -, -, -, e1, -, e2, -⟩ := h3
    have := hp p h1
    have := hq q h2
    omega)] at this
  obtain ⟨m', sig, h1, -⟩ := this
  exact ⟨m', by rw [show Gateway.serve G g .publishDht req = Gateway.publishDht G g req from rfl, h1]; simp⟩

/-- What a client finds at a gateway is what is in its store. -/
theorem standard_finds {H H512 : Hash} (hH : Merkle.Digest32 H) {g0 : Gateway.Core S} {hist : List (Gateway.Env S × Gateway.Kind × Msg)} (hl : Lived H H512 g0 hist)
    {C : Client.Env Sig} {c : Client.Client Sig} {gw : Id} {G : Gateway.Env S} (hu : Uses C c gw G (Gateway.serveAll g0 hist)) (hG : G.H = H) {cid : Id} (hcid : cid.length = 32) :
    ∃ os, SqlOffer.getOffers H G.order G.off G.now (Gateway.serveAll g0 hist).db cid = .ok (os, !os.isEmpty) ∧
      (∀ o ∈ os, cid ∈ o.cids ∧ ∃ e ∈ hist, Gateway.Vouched e.1 e.2.2 o) ∧
      (Client.findStandard C c cid gw).2 = .ok (os.map (fun o => Offer.subOffer H o cid)) := by
  obtain ⟨os, h1, h2⟩ := Gateway.C52_lookup H H512 G.order hu.order g0 hl.fresh hist hl.sound cid hcid G.off G.now hu.clock
  refine ⟨os, h1, fun o ho => ⟨(h2 o ho).1, (h2 o ho).2.2⟩, ?_⟩
  have hfit : ∀ o ∈ os, Offer.SubInRange (Offer.subOffer H o cid) ∧ Client.Whole (Offer.subOffer H o cid) := by
    intro o ho
    obtain ⟨-, -, e, he, hv⟩ := h2 o ho
    have hb := Gateway.vouched_built hv
    exact Offer.subOffer_fits hH hb.1 (hl.sizes e he o hv) hcid
  obtain ⟨r, hact, hbehind⟩ := hu.active
  have := (Client.C110_standard_honest C hu.protocol c cid gw hcid hu.nonce hu.ttl r hact G _ hbehind hu.inTime os _ (by rw [hG]; exact h1) (by
    intro x hx
    obtain ⟨o, ho, rfl⟩ := List.mem_map.1 hx
    rw [hG]
    exact (hfit o ho).1) (by
    intro x hx
    obtain ⟨o, ho, rfl⟩ := List.mem_map.1 hx
    rw [hG]
    exact (hfit o ho).2) hu.keys).1
  rw [hG] at this
  exact this

/-- An offer that only the provider can have published is genuine. -/
theorem genuine_of {C : Client.Env Sig} {pid : Option Id} {hist : List (Gateway.Env S × Gateway.Kind × Msg)} (hun : Unforged C pid hist)
    {e : Gateway.Env S × Gateway.Kind × Msg} (he : e ∈ hist) (hH : e.1.H = C.H) {o : CidOffer} (hv : Gateway.Vouched e.1 e.2.2 o) (ho : o.providerID = pid)
    {cid : Id} (hc : cid ∈ o.cids) : Client.Genuine C (Offer.subOffer C.H o cid) := by
  have hb := Gateway.vouched_built hv
  obtain ⟨q, k, h1, h2, h3⟩ := hv
  have hq := hun.alone e he o q k h1 h2 h3 ho
  obtain ⟨i, r, g1, g2, g3, -⟩ := h2
  obtain ⟨r', g4, g5⟩ := hun.sameKey e he i r (by rw [← hq, g1]) g2
  obtain ⟨p, g6, g7⟩ := h3
  have : p = i := by
    rw [ho, ← hq, g1] at g6
    exact (Option.some.inj g6).symm
  subst this
  rw [hun.prims e he] at g7
  have h18 := Offer.C18_sub_offer_verifies C.H C.P k o (hH ▸ hb) cid hc
  refine ⟨p, r', k, _, g6, g4, by rw [g5]; exact g3, rfl, g7, ?_⟩
  have := h18.1
  unfold Offer.verifyMerkleProof at this
  split at this
  · assumption
  · cases this
  · cases this
  · cases this

end FcRetrieval.Journey
