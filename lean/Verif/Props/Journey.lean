import Verif.Lemmas.Journey
/-!
# C134, C135: from the admin of a provider to a client
-/
set_option linter.unusedSimpArgs false

namespace FcRetrieval.Journey
open FcRetrieval.Ids (Id)
open FcRetrieval.Crypto (Prims KeyPair)
open FcRetrieval.Merkle (Hash)
open FcRetrieval.Message (Msg)
open FcRetrieval.Offer (SubOffer CidOffer Built terms)
open FcRetrieval.Register (Record)
open FcRetrieval.Wire (encode decode)
open FcRetrieval.Codecs
open FcRetrieval.Provider (serveAll newCore CanSign Made MadeAll SignedUnder)

variable {Sig S : Type}

/-- A published offer which a gateway acknowledged is found by the clients of the gateway. -/
theorem finds {H H512 : Hash} (hH : Merkle.Digest32 H) {g0 : Gateway.Core S} {h1 h2 : List (Gateway.Env S × Gateway.Kind × Msg)} {G : Gateway.Env S} {kind : Gateway.Kind} {req m' : Msg}
    (hk : kind = .publishDht ∨ kind = .publishGroup) (hl : Lived H H512 g0 (h1 ++ (G, kind, req) :: h2))
    (hm : Gateway.Out.message m' ∈ (Gateway.serve G (Gateway.serveAll g0 h1) kind req).2) {pid : Option Id} {o : CidOffer} (ho : Gateway.Publishes G req pid o)
    {C : Client.Env Sig} {c : Client.Client Sig} {gw : Id} {N : Gateway.Env S} (hu : Uses C c gw N (Gateway.serveAll g0 (h1 ++ (G, kind, req) :: h2))) (hN : N.H = H)
    (hexp : N.now - N.off < o.expiry) (hyear : o.expiry ≤ 253402300799) {cid : Id} (hcid : cid ∈ o.cids) (hlen : cid.length = 32) :
    ∃ os, (Client.findStandard C c cid gw).2 = .ok os ∧ (∃ s ∈ os, OnTerms o.providerID cid o.price o.expiry o.qos s) ∧
      (C.H = H → Unforged C o.providerID (h1 ++ (G, kind, req) :: h2) → ∀ s ∈ os, s.providerID = o.providerID → Client.Genuine C s) := by
  obtain ⟨os, f1, f2, f3⟩ := standard_finds hH hl hu hN hlen
  obtain ⟨os', k1, o', k2, k3⟩ := Gateway.C98_publish H H512 N.order hu.order g0 hl.fresh h1 h2 G kind req m' hl.sound hk hm pid o ho cid hcid N.off N.now hu.clock hexp hyear
  rw [k1] at f1
  simp only [Res.ok.injEq, Prod.mk.injEq] at f1
  obtain ⟨rfl, -⟩ := f1
  refine ⟨_, f3, ⟨_, List.mem_map.2 ⟨o', k2, rfl⟩, ?_⟩, ?_⟩
  · simp only [terms, Prod.mk.injEq] at k3
    exact ⟨k3.1, rfl, k3.2.2.1, k3.2.2.2.1, k3.2.2.2.2⟩
  · intro hC hun s hs hp
    obtain ⟨o'', ho'', rfl⟩ := List.mem_map.1 hs
    obtain ⟨hc, e, he, hv⟩ := f2 o'' ho''
    rw [← hC]
    exact genuine_of hun he (by rw [(hl.sound.1 e he).1, hC]) hv hp hc

/-- **C134**, group offers: when the call with which the admin of a provider publishes a group offer succeeds, then every gateway in the register of the provider was
sent a request such that, if it is ready to take it when it arrives, whatever it did before and does after, every client that uses the gateway finds, for every CID
of the offer and until it expires, an offer of this provider on these terms; if nobody else publishes in the name of the provider, all the offers of this provider
that the client gets are genuine. -/
theorem C134_group (H H512 : Hash) (hH : Merkle.Digest32 H) (hist : List (Provider.Env × Provider.Kind × Msg)) (hist_sane : ∀ e ∈ hist, Provider.Sane H e) {A : Admin.Env} {r : Record}
    {E : Provider.Env} (hb : Admin.BehindProvider A r E (serveAll newCore hist).1) (hs : Admin.SaneWorld H E) (hsign : CanSign E (serveAll newCore hist).1)
    (cids : List Id) (price : Nat) (expiry : Int) (qos : Nat) (hcids : IdsOk cids) (hp : price < 2 ^ 63) (he : inI64 expiry) (hq : qos < 2 ^ 63) (hyear : expiry ≤ 253402300799)
    (h : (Admin.publishGroup A r cids price expiry qos).2 = .ok ()) :
    ∀ x ∈ E.gateways, ∃ gid req o, Ids.fromHex x.nodeID = some gid ∧
      .asked gid req ∈ (Admin.providerAfter E (serveAll newCore hist).1 (Admin.publishGroup A r cids price expiry qos).1).2 ∧
      decode (providerPublishGroupOfferRequest H) req = .ok ((serveAll newCore hist).1.id, 1, some o) ∧ o.cids = cids ∧
      ∀ (g0 : Gateway.Core S) (h1 : List (Gateway.Env S × Gateway.Kind × Msg)) (G : Gateway.Env S) (h2 : List (Gateway.Env S × Gateway.Kind × Msg)),
        Ready G (Gateway.serveAll g0 h1) E (serveAll newCore hist).1 → Lived H H512 g0 (h1 ++ (G, .publishGroup, req) :: h2) →
        (∃ m', .message m' ∈ (Gateway.serve G (Gateway.serveAll g0 h1) .publishGroup req).2) ∧
        ∀ (C : Client.Env Sig) (c : Client.Client Sig) (gw : Id) (N : Gateway.Env S), Uses C c gw N (Gateway.serveAll g0 (h1 ++ (G, .publishGroup, req) :: h2)) → N.H = H →
          N.now - N.off < expiry → ∀ cid ∈ cids,
            ∃ os, (Client.findStandard C c cid gw).2 = .ok os ∧ (∃ s ∈ os, OnTerms (serveAll newCore hist).1.id cid price expiry qos s) ∧
              (C.H = H → Unforged C (serveAll newCore hist).1.id (h1 ++ (G, .publishGroup, req) :: h2) →
                ∀ s ∈ os, s.providerID = (serveAll newCore hist).1.id → Client.Genuine C s) := by
  obtain ⟨o, hmade, hsent⟩ := group_sent hist_sane hb hs hsign hcids (by omega) he (by omega) h
  intro x hx
  obtain ⟨gid, req, g1, g2, g3, g4⟩ := hsent x hx
  refine ⟨gid, req, o, g1, g2, g3, by obtain ⟨k, v, -, -, e2, -⟩ := hmade; exact e2, fun g0 h1 G h2 hr hl => ?_⟩
  have g3' := g3
  rw [← show E.H = H from hs.1] at g3'
  obtain ⟨m', hm'⟩ := group_taken hr hmade hp hq g3' g4
  refine ⟨⟨m', hm'⟩, fun C c gw N hu hN hexp cid hcid => ?_⟩
  obtain ⟨k, v, -, e1, e2, e3, e4, e5, -⟩ := hmade
  have hpub : Gateway.Publishes G req (serveAll newCore hist).1.id o := ⟨1, .inr (by rw [hr.hash]; exact g3')⟩
  have := finds (C := C) (c := c) (gw := gw) hH (.inr rfl) hl hm' hpub hu hN (by rw [e4]; exact hexp) (by rw [e4]; exact hyear) (by rw [e2]; exact hcid) (hcids cid hcid)
  rw [e1, e3, e4, e5] at this
  exact this

/-- **C134**, DHT offers: the same for the gateways near one of the CIDs, with the terms given for each of the CIDs. -/
theorem C134_dht (H H512 : Hash) (hH : Merkle.Digest32 H) (hist : List (Provider.Env × Provider.Kind × Msg)) (hist_sane : ∀ e ∈ hist, Provider.Sane H e) {A : Admin.Env} {r : Record}
    {E : Provider.Env} (hb : Admin.BehindProvider A r E (serveAll newCore hist).1) (hs : Admin.SaneWorld H E) (hsign : CanSign E (serveAll newCore hist).1)
    (cids : List Id) (price : List Nat) (expiry : List Int) (qos : List Nat) (hcids : IdsOk cids) (hlen : inI64 cids.length)
    (hp : ∀ x ∈ price, x < 2 ^ 63) (he : ∀ x ∈ expiry, inI64 x ∧ x ≤ 253402300799) (hq : ∀ x ∈ qos, x < 2 ^ 63)
    (h : (Admin.publishDht A r cids price expiry qos).2 = .ok ()) :
    ∀ near ∈ cids, ∃ rs, E.near near = some rs ∧ ∀ x ∈ rs, ∃ gid req nonce offers, Ids.fromHex x.nodeID = some gid ∧
      .asked gid req ∈ (Admin.providerAfter E (serveAll newCore hist).1 (Admin.publishDht A r cids price expiry qos).1).2 ∧
      decode (providerPublishDHTOfferRequest H) req = .ok ((serveAll newCore hist).1.id, nonce, offers) ∧ offers.map (·.cids) = cids.map ([·]) ∧
      ∀ (g0 : Gateway.Core S) (h1 : List (Gateway.Env S × Gateway.Kind × Msg)) (G : Gateway.Env S) (h2 : List (Gateway.Env S × Gateway.Kind × Msg)),
        Ready G (Gateway.serveAll g0 h1) E (serveAll newCore hist).1 → Lived H H512 g0 (h1 ++ (G, .publishDht, req) :: h2) →
        (∃ m', .message m' ∈ (Gateway.serve G (Gateway.serveAll g0 h1) .publishDht req).2) ∧
        ∀ (C : Client.Env Sig) (c : Client.Client Sig) (gw : Id) (N : Gateway.Env S), Uses C c gw N (Gateway.serveAll g0 (h1 ++ (G, .publishDht, req) :: h2)) → N.H = H →
          ∀ (i : Nat) (cid : Id) (p : Nat) (e : Int) (q : Nat), cids[i]? = some cid → price[i]? = some p → expiry[i]? = some e → qos[i]? = some q → N.now - N.off < e →
            ∃ os, (Client.findStandard C c cid gw).2 = .ok os ∧ (∃ s ∈ os, OnTerms (serveAll newCore hist).1.id cid p e q s) ∧
              (C.H = H → Unforged C (serveAll newCore hist).1.id (h1 ++ (G, .publishDht, req) :: h2) →
                ∀ s ∈ os, s.providerID = (serveAll newCore hist).1.id → Client.Genuine C s) := by
  obtain ⟨offers, hmade, hsent⟩ := dht_sent hist_sane hb hs hsign hcids hlen (fun x hx => by have := hp x hx; omega) (fun x hx => (he x hx).1) (fun x hx => by have := hq x hx; omega) h
  intro near hnear
  obtain ⟨rs, hrs, hsent⟩ := hsent near hnear
  refine ⟨rs, hrs, fun x hx => ?_⟩
  obtain ⟨gid, req, nonce, g1, g2, g3, g4⟩ := hsent x hx
  refine ⟨gid, req, nonce, offers, g1, g2, g3, Provider.madeAll_cids hmade, fun g0 h1 G h2 hr hl => ?_⟩
  have g3' := g3
  rw [← show E.H = H from hs.1] at g3'
  obtain ⟨m', hm'⟩ := dht_taken hr hmade hp hq g3' g4
  refine ⟨⟨m', hm'⟩, fun C c gw N hu hN i cid p e q i1 i2 i3 i4 hexp => ?_⟩
  obtain ⟨o, ho, hm⟩ := madeAll_at hmade i i1 i2 i3 i4
  obtain ⟨k, v, -, e1, e2, e3, e4, e5, -⟩ := hm
  have hpub : Gateway.Publishes G req (serveAll newCore hist).1.id o := ⟨nonce, .inl ⟨offers, by rw [hr.hash]; exact g3', ho⟩⟩
  have := finds (C := C) (c := c) (gw := gw) hH (.inl rfl) hl hm' hpub hu hN (by rw [e4]; exact hexp) (by rw [e4]; exact (he e (List.mem_of_getElem? i3)).2) (by rw [e2]; simp)
    (hcids cid (List.mem_of_getElem? i1))
  rw [e1, e3, e4, e5] at this
  exact this

theorem stored_pair {o1 o2 : CidOffer} (h1 : o1.price < 2 ^ 63) (h2 : o1.qos < 2 ^ 63) (h3 : o2.price < 2 ^ 63) (h4 : o2.qos < 2 ^ 63) (h : terms o1 = terms o2) :
    SqlOffer.stored [o1, o2] = [o1] := by
  have k1 : SqlOffer.keep [] o1 = [o1] := by
    unfold SqlOffer.keep
    rw [if_neg (by omega), if_neg (by simp)]
    rfl
  have k2 : SqlOffer.keep [o1] o2 = [o1] := by
    unfold SqlOffer.keep
    rw [if_neg (by omega), if_pos (by simp [h])]
  simp only [SqlOffer.stored, List.foldl_cons, List.foldl_nil, k1, k2]

/-! ## C135: others cannot displace an offer -/

/-- **C135**, partial: an acknowledged offer of a provider in whose name nobody else publishes is found by the clients of the gateway, and it is genuine. -/
theorem C135_partial (H H512 : Hash) (hH : Merkle.Digest32 H) (g0 : Gateway.Core S) (h1 h2 : List (Gateway.Env S × Gateway.Kind × Msg)) (G : Gateway.Env S) (kind : Gateway.Kind) (req m' : Msg)
    (hk : kind = .publishDht ∨ kind = .publishGroup) (hl : Lived H H512 g0 (h1 ++ (G, kind, req) :: h2))
    (hm : .message m' ∈ (Gateway.serve G (Gateway.serveAll g0 h1) kind req).2) (pid : Id) (o : CidOffer) (ho : Gateway.Publishes G req (some pid) o) (hpid : o.providerID = some pid)
    (C : Client.Env Sig) (c : Client.Client Sig) (gw : Id) (N : Gateway.Env S) (hu : Uses C c gw N (Gateway.serveAll g0 (h1 ++ (G, kind, req) :: h2))) (hN : N.H = H) (hC : C.H = H)
    (hun : Unforged C (some pid) (h1 ++ (G, kind, req) :: h2))
    (hexp : N.now - N.off < o.expiry) (hyear : o.expiry ≤ 253402300799) (cid : Id) (hcid : cid ∈ o.cids) (hlen : cid.length = 32) :
    ∃ os, (Client.findStandard C c cid gw).2 = .ok os ∧ ∃ s ∈ os, OnTerms (some pid) cid o.price o.expiry o.qos s ∧ Client.Genuine C s := by
  obtain ⟨os, g1, ⟨s, g2, g3⟩, g4⟩ := finds (C := C) (c := c) (gw := gw) hH hk hl hm ho hu hN hexp hyear hcid hlen
  rw [hpid] at g3 g4
  exact ⟨os, g1, s, g2, g3, g4 hC hun s g2 g3.1⟩

/-- **C135 is false**: whoever is registered as a provider can displace the offers of another one.  It publishes an offer in the name of the other provider, on the terms
of the offer it wants to displace, signed with its own key.  The gateway stores it, and when the other provider publishes its own offer the gateway acknowledges that
and drops it, as one that it already has.  All that a client then finds for the CIDs of the offer is the one with the wrong signature. -/
theorem C135_refuted (H H512 : Hash) (hH : Merkle.Digest32 H) (g0 : Gateway.Core S) (G1 G2 : Gateway.Env S) (m1 m2 : Msg)
    (hl : Lived H H512 g0 [(G1, .publishGroup, m1), (G2, .publishGroup, m2)]) (hpr1 : ProtocolOk G1.pr) (hpr2 : ProtocolOk G2.pr)
    (hsign1 : Gateway.CanSign G1 g0) (hsign2 : Gateway.CanSign G2 g0) (hid : g0.id.length = 32)
    (q p : Id) (_hq : q ≠ p) (n1 n2 : Int) (o1 o2 : CidOffer) (k1 k2 : KeyPair) (hp : o2.providerID = some p) (hterms : terms o1 = terms o2)
    (hd1 : decode (providerPublishGroupOfferRequest H) m1 = .ok (some q, n1, some o1)) (ha1 : Gateway.Authentic G1 G1.provider (some q) m1 k1) (hs1 : Gateway.Storable G1 k1 o1)
    (hd2 : decode (providerPublishGroupOfferRequest H) m2 = .ok (some p, n2, some o2)) (ha2 : Gateway.Authentic G2 G2.provider (some p) m2 k2) (hs2 : Gateway.Storable G2 k2 o2)
    (C : Client.Env Sig) (c : Client.Client Sig) (gw : Id) (N : Gateway.Env S) (hu : Uses C c gw N (Gateway.serveAll g0 [(G1, .publishGroup, m1), (G2, .publishGroup, m2)])) (hN : N.H = H)
    (hforged : ∀ r k, C.provider p = some r → Crypto.decodePublicKey r.signingKey = .ok k →
      Crypto.verifyMessage C.P k o1.signature (utf8Bytes (render (Offer.signJson p o1.merkleRoot o1.price o1.expiry o1.qos))) ≠ some true)
    (hexp : N.now - N.off < o2.expiry) (hyear : o2.expiry ≤ 253402300799) (cid : Id) (hcid : cid ∈ o2.cids) :
    (∃ m', (Gateway.serve G2 (Gateway.serveAll g0 [(G1, .publishGroup, m1)]) .publishGroup m2).2 = [.message m']) ∧
    ∃ os, (Client.findStandard C c cid gw).2 = .ok os ∧ os ≠ [] ∧
      ∀ s ∈ os, OnTerms (some p) cid o2.price o2.expiry o2.qos s ∧ s.signature = o1.signature ∧ ¬ Client.Genuine C s := by
  obtain ⟨e1, e2, e3⟩ := hl.sound.1 (G1, .publishGroup, m1) (by simp)
  obtain ⟨e4, e5, e6⟩ := hl.sound.1 (G2, .publishGroup, m2) (by simp)
  dsimp only at e1 e2 e3 e4 e5 e6
  have a1 := Gateway.C52_publishGroup_served G1 e3 hpr1 g0 hsign1 hid m1 (some q) n1 o1 k1 (by rw [e1]; exact hd1) ha1
  rw [if_pos hs1] at a1
  obtain ⟨db1, r1, d1, b1, b2, b3, -⟩ := a1
  have a2 := Gateway.C52_publishGroup_served G2 e6 hpr2 { g0 with db := db1 } hsign2 hid m2 (some p) n2 o2 k2 (by rw [e4]; exact hd2) ha2
  rw [if_pos hs2] at a2
  obtain ⟨db2, r2, d2, c1, c2, c3, -⟩ := a2
  have hst1 : Gateway.serveAll g0 [(G1, .publishGroup, m1)] = { g0 with db := db1 } := by
    simp only [Gateway.serveAll, Gateway.serve, b2]
  have hst2 : Gateway.serveAll g0 [(G1, .publishGroup, m1), (G2, .publishGroup, m2)] = { g0 with db := db2 } := by
    simp only [Gateway.serveAll, Gateway.serve, b2, c2]
  have hv1 : Gateway.Vouched G1 m1 o1 := ⟨some q, k1, ⟨n1, .inr (by rw [e1]; exact hd1)⟩, ha1, hs1.1⟩
  have hv2 : Gateway.Vouched G2 m2 o2 := ⟨some p, k2, ⟨n2, .inr (by rw [e4]; exact hd2)⟩, ha2, hs2.1⟩
  have hb2 := Gateway.vouched_built hv2
  have hlen := hb2.1.2.1 cid hcid
  refine ⟨⟨r2, by rw [hst1]; simp only [Gateway.serve, c3]⟩, ?_⟩
  -- the store has the first offer only
  rw [e2] at b1
  rw [e5] at c1
  rw [hl.fresh] at b1
  dsimp only at c1
  have hrun : SqlOffer.run H512 SqlOffer.newDB [(.group, o1), (.group, o2)] = .ok (db2, [true, true]) :=
    Gateway.run_append [(.group, o1)] [(.group, o2)] _ _ _ _ _ b1 c1
  have hsane := Gateway.history_sane hl.sound [(.group, o1), (.group, o2)] (by
    intro x hx
    simp only [List.mem_cons, List.not_mem_nil, or_false] at hx
    rcases hx with rfl | rfl
    · exact ⟨(G1, .publishGroup, m1), List.mem_cons_self .., hv1⟩
    · exact ⟨(G2, .publishGroup, m2), List.mem_cons_of_mem _ (List.mem_cons_self ..), hv2⟩)
  obtain ⟨db, oks, l, g1, g2, g3⟩ := SqlOffer.C26_by_cid H H512 N.order hu.order [(.group, o1), (.group, o2)] hsane cid hlen N.off N.now hu.clock
  rw [hrun] at g1
  cases g1
  have hstored : SqlOffer.stored [o1, o2] = [o1] := stored_pair hs1.2.1 hs1.2.2 hs2.2.1 hs2.2.2 hterms
  simp only [List.map_cons, List.map_nil, hstored, List.flatMap_cons, List.flatMap_nil, List.append_nil] at g3
  obtain ⟨t1, t2, t3, t4, t5⟩ : o1.providerID = o2.providerID ∧ o1.cids = o2.cids ∧ o1.price = o2.price ∧ o1.expiry = o2.expiry ∧ o1.qos = o2.qos := by
    simpa [terms] using hterms
  rw [if_pos ⟨by rw [t4]; exact hexp, by rw [t4]; exact hyear⟩] at g3
  have hcount : 0 < o1.cids.count cid := List.count_pos_iff.2 (by rw [t2]; exact hcid)
  obtain ⟨os, f1, f2, f3⟩ := standard_finds hH hl hu hN hlen
  rw [hst2] at f1
  rw [g2] at f1
  simp only [Res.ok.injEq, Prod.mk.injEq] at f1
  obtain ⟨rfl, -⟩ := f1
  refine ⟨_, f3, ?_, ?_⟩
  · have := g3.length_eq
    rw [List.length_replicate] at this
    intro h
    have h' := congrArg List.length h
    simp at h'
    rw [h'] at this
    simp at this
    omega
  · intro s hs
    obtain ⟨o, ho, rfl⟩ := List.mem_map.1 hs
    obtain ⟨-, rfl⟩ := List.mem_replicate.1 (g3.mem_iff.1 ho)
    refine ⟨⟨by rw [← hp]; exact t1, rfl, t3, t4, t5⟩, rfl, ?_⟩
    rintro ⟨pid, r, k, text, x1, x2, x3, x4, x5, -⟩
    have : pid = p := by
      have x1 : o.providerID = some pid := x1
      rw [t1, hp] at x1
      exact (Option.some.inj x1).symm
    subst this
    simp only [Offer.toSign, Res.ok.injEq] at x4
    rw [← x4] at x5
    exact hforged r k x2 x3 x5

/-! ## the theorems apply -/

/-- A gateway with an empty store that knows the provider of `Lemmas/ProviderExamples`. -/
def exG : Gateway.Env Unit := { Gateway.exEnv with H512 := fun b => b, provider := fun i => if i = Merkle.exId 1 then some Gateway.exRecord else none }
/-- A client whose gateway is `g`. -/
def exC (g : Gateway.Core Unit) : Client.Env Unit :=
  { Client.exEnv with
    provider := fun i => if i = Merkle.exId 1 then some Client.exRecord else none
    exchange := fun _ _ m => (Client.clientKind m.type).bind (fun k => Client.reply (Gateway.serve exG g k m).2) }

theorem exReady : (serveAll newCore Provider.exReady).1.id = some (Merkle.exId 1) ∧ (serveAll newCore Provider.exReady).1.key = some (Offer.exKey, 1) := by
  have h := Provider.exReady_facts
  unfold Provider.exReadyFacts at h
  simp only [Bool.and_eq_true] at h
  obtain ⟨⟨⟨⟨⟨⟨h1, h2⟩, -⟩, -⟩, -⟩, -⟩, -⟩ := h
  exact ⟨of_decide_eq_true h1, of_decide_eq_true h2⟩

theorem exG_ready (g : Gateway.Core Unit) (hg : g = Gateway.exFresh) : Ready exG g Provider.exEnv (serveAll newCore Provider.exReady).1 where
  prims := rfl
  hash := rfl
  correct := Crypto.toy_correct
  protocol := defaultProtocolOk
  works := Gateway.exEnv_works
  signs := by subst hg; exact Gateway.exCore_signs
  proper := by subst hg; exact Merkle.exId_proper 1
  knows := ⟨_, Gateway.exRecord, Gateway.exPub, _, _, exReady.1, exReady.2, by simp [exG], Gateway.exRecord_key, Offer.exKey_private, rfl, by decide +kernel⟩

theorem exVersion : ∀ (hist : List (Gateway.Env Unit × Gateway.Kind × Msg)) (g : Gateway.Core Unit), (Gateway.serveAll g hist).keyVersion = g.keyVersion
  | [], _ => rfl
  | (E, k, m) :: hist, g => by
    simp only [Gateway.serveAll]
    rw [exVersion hist, (Gateway.serve_frame E g k m).2.2.1]

theorem exUses (hist : List (Gateway.Env Unit × Gateway.Kind × Msg)) :
    Uses (exC (Gateway.serveAll Gateway.exFresh hist)) Client.exClient (Merkle.exId 1) exG (Gateway.serveAll Gateway.exFresh hist) := by
  have hv := exVersion hist Gateway.exFresh
  obtain ⟨-, -, hi, hk⟩ := Gateway.C50_search_price Gateway.exFresh hist
  generalize Gateway.serveAll Gateway.exFresh hist = g at *
  refine ⟨⟨Client.exRecord, Client.exClient_active, ?_⟩, defaultProtocolOk, show inI64 7 from ⟨by decide, by decide⟩,
    show inI64 1100 from ⟨by decide, by decide⟩, show (1000 : Int) ≤ 1100 by decide, by decide, fun _ => .refl _, ?_⟩
  · exact ⟨fun _ => rfl, rfl, Crypto.toy_correct, by rw [hi]; rfl, by rw [hi]; exact Merkle.exId_proper 1, by rw [hk]; exact Offer.exKey_private,
      by intro b; rw [hk, hv]; exact Gateway.exCore_signs b, ⟨_, Client.exRecord_key, rfl, by rw [hk]; rfl⟩, defaultProtocolOk⟩
  · intro i r hr
    simp only [exC] at hr
    split at hr
    · cases hr
      exact ⟨by decide +kernel, by decide +kernel⟩
    · cases hr

/-- The life of a gateway that served one request. -/
theorem exLived {req : Msg} (hlen : ∀ o, Gateway.Vouched exG req o → o.cids.length < 2 ^ 63) (kind : Gateway.Kind) :
    Lived Merkle.toyHash exG.H512 Gateway.exFresh ([] ++ (exG, kind, req) :: []) := by
  refine ⟨rfl, ⟨?_, fun l _ x _ y _ b b' _ _ h => h⟩, ?_⟩
  all_goals
    intro e he
    simp only [List.nil_append, List.mem_cons, List.not_mem_nil, or_false] at he
    subst he
  · exact ⟨rfl, rfl, Gateway.exEnv_works⟩
  · exact hlen

/-- The request names the provider. -/
theorem exUnforged {req : Msg} (g : Gateway.Core Unit) (kind : Gateway.Kind) (hq : ∀ q o, Gateway.Publishes exG req q o → q = some (Merkle.exId 1)) :
    Unforged (exC g) (some (Merkle.exId 1)) ([] ++ (exG, kind, req) :: []) := by
  refine ⟨?_, ?_, ?_⟩
  all_goals
    intro e he
    simp only [List.nil_append, List.mem_cons, List.not_mem_nil, or_false] at he
    subst he
  · rfl
  · intro o q k h _ _ _
    exact hq q o h
  · intro p r hp hr
    cases hp
    simp only [exG, if_true, Option.some.injEq] at hr
    subst hr
    exact ⟨Client.exRecord, by simp [exC], rfl⟩

theorem exGroup_publishes {req : Msg} {p : Option Id} {n : Int} {o : CidOffer} (hd : decode (providerPublishGroupOfferRequest Merkle.toyHash) req = .ok (p, n, some o))
    {q : Option Id} {o' : CidOffer} (h : Gateway.Publishes exG req q o') : q = p ∧ o' = o := by
  obtain ⟨nonce, ⟨offers, hd', ho⟩ | hd'⟩ := h
  · have t1 := (Gateway.decode_inv hd).1
    have t2 := (Gateway.decode_inv hd').1
    rw [t1] at t2
    cases t2
  · have hd'' : decode (providerPublishGroupOfferRequest Merkle.toyHash) req = .ok (q, nonce, some o') := hd'
    rw [hd] at hd''
    cases hd''
    exact ⟨rfl, rfl⟩

theorem exDht_publishes {req : Msg} {p : Option Id} {n : Int} {os : List CidOffer} (hd : decode (providerPublishDHTOfferRequest Merkle.toyHash) req = .ok (p, n, os))
    {q : Option Id} {o' : CidOffer} (h : Gateway.Publishes exG req q o') : q = p ∧ o' ∈ os := by
  obtain ⟨nonce, ⟨offers, hd', ho⟩ | hd'⟩ := h
  · have hd'' : decode (providerPublishDHTOfferRequest Merkle.toyHash) req = .ok (q, nonce, offers) := hd'
    rw [hd] at hd''
    cases hd''
    exact ⟨rfl, ho⟩
  · have t1 := (Gateway.decode_inv hd).1
    have t2 := (Gateway.decode_inv hd').1
    rw [t1] at t2
    cases t2

/-- A client finds both CIDs of a group offer, and what it finds is genuine. -/
example : ∃ hist, ∀ cid ∈ [Merkle.exId 2, Merkle.exId 5], ∃ os, (Client.findStandard (exC (Gateway.serveAll Gateway.exFresh hist)) Client.exClient cid (Merkle.exId 1)).2 = .ok os ∧
    ∃ s ∈ os, OnTerms (some (Merkle.exId 1)) cid 5 2000 3 s ∧ Client.Genuine (exC (Gateway.serveAll Gateway.exFresh hist)) s := by
  obtain ⟨gid, req, o, -, -, hd, hcids, h⟩ := C134_group (S := Unit) (Sig := Unit) Merkle.toyHash exG.H512 Merkle.toyHash_digest Provider.exReady Provider.exReady_sane (Admin.exBehindProvider _ _) Admin.exWorld
    Provider.exReady_use.1 [Merkle.exId 2, Merkle.exId 5] 5 2000 3 Admin.exIds (by decide) ⟨by decide, by decide⟩ (by decide) (by decide) Admin.exGroup_succeeds
    Gateway.exRecord (by simp [Provider.exEnv, Provider.exAlone])
  rw [exReady.1] at hd
  have hfin := (h Gateway.exFresh [] exG [] (exG_ready _ rfl) (exLived (by
    rintro o' ⟨pid, k, hp, -, -⟩
    rw [(exGroup_publishes hd hp).2, hcids]
    decide) _)).2 (exC _) Client.exClient (Merkle.exId 1) exG (exUses _) rfl (by decide)
  refine ⟨[] ++ (exG, .publishGroup, req) :: [], fun cid hcid => ?_⟩
  obtain ⟨os, k1, ⟨s, k2, k3⟩, k4⟩ := hfin cid hcid
  rw [exReady.1] at k3 k4
  exact ⟨os, k1, s, k2, k3, k4 rfl (exUnforged _ _ fun q o h => (exGroup_publishes hd h).1) s k2 k3.1⟩

/-- The same for two DHT offers, each with its own terms. -/
example : ∃ hist, ∃ os, (Client.findStandard (exC (Gateway.serveAll Gateway.exFresh hist)) Client.exClient (Merkle.exId 5) (Merkle.exId 1)).2 = .ok os ∧
    ∃ s ∈ os, OnTerms (some (Merkle.exId 1)) (Merkle.exId 5) 6 3000 4 s ∧ Client.Genuine (exC (Gateway.serveAll Gateway.exFresh hist)) s := by
  obtain ⟨rs, hrs, h⟩ := C134_dht (S := Unit) (Sig := Unit) Merkle.toyHash exG.H512 Merkle.toyHash_digest Provider.exReady Provider.exReady_sane (Admin.exBehindProvider _ _) Admin.exWorld
    Provider.exReady_use.1 [Merkle.exId 2, Merkle.exId 5] [5, 6] [2000, 3000] [3, 4] Admin.exIds ⟨by decide, by decide⟩ (by decide) (by
      intro x hx
      simp only [List.mem_cons, List.not_mem_nil, or_false] at hx
      rcases hx with rfl | rfl <;> exact ⟨⟨by decide, by decide⟩, by decide⟩) (by decide) Admin.exDht_succeeds (Merkle.exId 2) (by simp)
  simp only [Provider.exEnv, Provider.exAlone, Option.some.injEq] at hrs
  subst hrs
  obtain ⟨gid, req, nonce, offers, -, -, hd, hcids, h⟩ := h Gateway.exRecord (by simp)
  rw [exReady.1] at hd
  have hfin := (h Gateway.exFresh [] exG [] (exG_ready _ rfl) (exLived (by
    rintro o' ⟨pid, k, hp, -, -⟩
    have h1 : o'.cids ∈ offers.map (·.cids) := List.mem_map.2 ⟨o', (exDht_publishes hd hp).2, rfl⟩
    rw [hcids] at h1
    obtain ⟨x, -, h2⟩ := List.mem_map.1 h1
    rw [← h2]
    show 1 < 2 ^ 63
    decide) _)).2 (exC _) Client.exClient (Merkle.exId 1) exG (exUses _) rfl
  obtain ⟨os, k1, ⟨s, k2, k3⟩, k4⟩ := hfin 1 (Merkle.exId 5) 6 3000 4 rfl rfl rfl rfl (by decide)
  rw [exReady.1] at k3 k4
  have hun := exUnforged (req := req) (Gateway.serveAll Gateway.exFresh ([] ++ (exG, .publishDht, req) :: [])) .publishDht fun q o h => (exDht_publishes hd h).1
  generalize hh : ([] ++ (exG, Gateway.Kind.publishDht, req) :: [] : List (Gateway.Env Unit × Gateway.Kind × Msg)) = H at *
  have k5 := k4 rfl hun s k2 k3.1
  exact ⟨H, os, k1, s, k2, k3, k5⟩

/-- The record of another provider, which signs with `Admin.exKey2`. -/
def exOther : Record := { Admin.exRecord with nodeID := Ids.toStr (Merkle.exId 8), signingKey := (Crypto.encodePublicKey Admin.keyed Admin.exKey2).getD [] }
def exOtherPub : KeyPair := ⟨none, some (List.replicate 32 6 ++ List.replicate 33 7), 1⟩
theorem exOther_key : Crypto.decodePublicKey exOther.signingKey = .ok exOtherPub := by decide +kernel

/-- A gateway that knows both providers, where signatures depend on the key. -/
def exG2 : Gateway.Env Unit :=
  { exG with P := Admin.keyed, provider := fun i => if i = Merkle.exId 9 then some Admin.exRecord else if i = Merkle.exId 8 then some exOther else none }
def exC2 (g : Gateway.Core Unit) : Client.Env Unit :=
  { Client.exEnv with
    P := Admin.keyed
    provider := exG2.provider
    exchange := fun _ _ m => (Client.clientKind m.type).bind (fun k => Client.reply (Gateway.serve exG2 g k m).2) }
def exClient2 : Client.Client Unit :=
  { Client.exClient with active := [(Ids.toStr (Merkle.exId 1), Admin.exRecord)], toUse := [(Ids.toStr (Merkle.exId 1), Admin.exRecord)] }

/-- The offer of the provider `exId 9`, with a signature of the key. -/
def exOfferBy (k : KeyPair) : CidOffer :=
  { exSingle with signature := (Crypto.signMessage Admin.keyed k 1 (utf8Bytes (render (Offer.signJson (Merkle.exId 9) exSingle.merkleRoot exSingle.price exSingle.expiry exSingle.qos)))).getD [] }

theorem exOfferBy_built (k : KeyPair) : Offer.Built Merkle.toyHash (exOfferBy k) := Gateway.built_signature (exSinglesOk exSingle (by simp)) _

theorem exOfferBy_terms (k : KeyPair) : terms (exOfferBy k) = terms exSingle := rfl

theorem exOfferBy_sig {k : KeyPair} (hk : Crypto.PrivateKey k) :
    Crypto.signMessage Admin.keyed k 1 (utf8Bytes (render (Offer.signJson (Merkle.exId 9) exSingle.merkleRoot exSingle.price exSingle.expiry exSingle.qos))) = some (exOfferBy k).signature := by
  obtain ⟨s, hs⟩ := Option.isSome_iff_exists.1 (Admin.keyed_signs hk 1 (utf8Bytes (render (Offer.signJson (Merkle.exId 9) exSingle.merkleRoot exSingle.price exSingle.expiry exSingle.qos))))
  unfold exOfferBy
  rw [hs]
  rfl

theorem exOfferBy_storable {k pub : KeyPair} (hk : Crypto.PrivateKey k) (hpub : pub.alg = Crypto.sigAlg ∧ Crypto.publicPart Admin.keyed pub = Crypto.publicPart Admin.keyed k) :
    Gateway.Storable exG2 pub (exOfferBy k) :=
  ⟨⟨Merkle.exId 9, rfl, Crypto.C34_signed_verifies Admin.keyed Admin.keyed_correct k pub 1 _ _ hk hpub (exOfferBy_sig hk)⟩, show 5 < 2 ^ 63 by decide, show 3 < 2 ^ 63 by decide⟩

/-- The request with which a provider publishes that offer. -/
theorem exRequest {k pub : KeyPair} {i : Id} {rec : Record} (hi : i.length = 32) (hr : exG2.provider i = some rec) (hkey : Crypto.decodePublicKey rec.signingKey = .ok pub)
    (hk : Crypto.PrivateKey k) (hpub : pub.alg = Crypto.sigAlg ∧ Crypto.publicPart Admin.keyed pub = Crypto.publicPart Admin.keyed k) :
    ∃ m, decode (providerPublishGroupOfferRequest Merkle.toyHash) m = .ok (some i, 1, some (exOfferBy k)) ∧ Gateway.Authentic exG2 exG2.provider (some i) m pub := by
  obtain ⟨m, -, -, -, -, hsig⟩ := C30_providerPublishGroupOfferRequest Merkle.toyHash Message.defaultProtocol defaultProtocolOk (some i) 1 (some (exOfferBy k))
    ⟨i, rfl, hi⟩ ⟨by decide, by decide⟩ ⟨_, rfl, exOfferBy_built k⟩
  obtain ⟨sig, hs⟩ := Option.isSome_iff_exists.1 (Admin.keyed_signs hk 1 (Message.toSign m))
  have hsign : Message.sign Admin.keyed k 1 m = ({ m with signature := sig }, true) := by
    unfold Message.sign
    rw [hs]
  refine ⟨{ m with signature := sig }, (hsig sig).2, i, rec, rfl, hr, hkey, ?_⟩
  exact Gateway.verify_snd.1 (Message.C27_signed_verifies Admin.keyed Admin.keyed_correct k pub 1 hk hpub m _ hsign).1

theorem exG2_works : Gateway.DbWorks exG2 := fun _ _ => rfl

theorem exG2_hash : exG2.H = Merkle.toyHash := rfl

theorem exG2_signs (g : Gateway.Core Unit) (hk : g.key = Offer.exKey) : Gateway.CanSign exG2 g := by
  intro b
  rw [hk]
  exact Admin.keyed_signs Offer.exKey_private _ b

theorem exUses2 (hist : List (Gateway.Env Unit × Gateway.Kind × Msg)) :
    Uses (exC2 (Gateway.serveAll Gateway.exFresh hist)) exClient2 (Merkle.exId 1) exG2 (Gateway.serveAll Gateway.exFresh hist) := by
  obtain ⟨-, -, hi, hk⟩ := Gateway.C50_search_price Gateway.exFresh hist
  generalize Gateway.serveAll Gateway.exFresh hist = g at *
  have hk' : g.key = Offer.exKey := hk
  refine ⟨⟨Admin.exRecord, by unfold Client.ActiveRecord exClient2; simp [mget], ?_⟩, defaultProtocolOk, show inI64 7 from ⟨by decide, by decide⟩,
    show inI64 1100 from ⟨by decide, by decide⟩, show (1000 : Int) ≤ 1100 by decide, by decide, fun _ => .refl _, ?_⟩
  · exact ⟨fun _ => rfl, rfl, Admin.keyed_correct, by rw [hi]; rfl, by rw [hi]; exact Merkle.exId_proper 1, by rw [hk]; exact Offer.exKey_private,
      exG2_signs g hk', ⟨_, Admin.exRecord_key, rfl, by rw [hk']; show Crypto.publicPart Admin.keyed Admin.exPub = Crypto.publicPart Admin.keyed Offer.exKey; decide +kernel⟩, defaultProtocolOk⟩
  · intro i r hr
    simp only [exC2, exG2] at hr
    split at hr
    · cases hr
      exact ⟨by decide +kernel, by decide +kernel⟩
    · split at hr
      · cases hr
        exact ⟨by decide +kernel, by decide +kernel⟩
      · cases hr

theorem exLived2 (hist : List (Gateway.Env Unit × Gateway.Kind × Msg)) (h : ∀ e ∈ hist, e.1 = exG2 ∧ ∀ o, Gateway.Vouched exG2 e.2.2 o → o.cids.length < 2 ^ 63) :
    Lived Merkle.toyHash exG.H512 Gateway.exFresh hist := by
  refine ⟨rfl, ⟨fun e he => ?_, fun l _ x _ y _ b b' _ _ h => h⟩, fun e he => ?_⟩
  · rw [(h e he).1]
    exact ⟨rfl, rfl, Gateway.exEnv_works⟩
  · rw [(h e he).1]
    exact (h e he).2

theorem exShort {m : Msg} {p : Option Id} {n : Int} {k : KeyPair} (hd : decode (providerPublishGroupOfferRequest Merkle.toyHash) m = .ok (p, n, some (exOfferBy k))) :
    ∀ o, Gateway.Vouched exG2 m o → o.cids.length < 2 ^ 63 := by
  rintro o ⟨pid, k', hp, -, -⟩
  have := (exGroup_publishes hd (show Gateway.Publishes exG m pid o from hp)).2
  rw [this]
  show 1 < 2 ^ 63
  decide

/-- The offer of `exId 9` is found, and genuine, when only `exId 9` published. -/
example : ∃ hist, ∃ os, (Client.findStandard (exC2 (Gateway.serveAll Gateway.exFresh hist)) exClient2 (Merkle.exId 2) (Merkle.exId 1)).2 = .ok os ∧
    ∃ s ∈ os, OnTerms (some (Merkle.exId 9)) (Merkle.exId 2) 5 1700000000 3 s ∧ Client.Genuine (exC2 (Gateway.serveAll Gateway.exFresh hist)) s := by
  have hpub : Admin.exPub.alg = Crypto.sigAlg ∧ Crypto.publicPart Admin.keyed Admin.exPub = Crypto.publicPart Admin.keyed Offer.exKey := ⟨rfl, by decide +kernel⟩
  obtain ⟨m, hd, ha⟩ := exRequest (k := Offer.exKey) (Merkle.exId_proper 9) (by simp [exG2]) Admin.exRecord_key Offer.exKey_private hpub
  have hstore := exOfferBy_storable Offer.exKey_private hpub
  have hd' : decode (providerPublishGroupOfferRequest exG2.H) m = .ok (some (Merkle.exId 9), 1, some (exOfferBy Offer.exKey)) := by rw [exG2_hash]; exact hd
  have hsign := exG2_signs Gateway.exFresh rfl
  generalize ho : exOfferBy Offer.exKey = o at *
  have hserve := Gateway.C52_publishGroup_served exG2 exG2_works defaultProtocolOk Gateway.exFresh hsign (Merkle.exId_proper 1) m (some (Merkle.exId 9)) 1 o
    Admin.exPub hd' ha
  subst ho
  rw [if_pos hstore] at hserve
  obtain ⟨db, m', d, -, -, h1, -⟩ := hserve
  have hmem : ∀ e ∈ ([] ++ (exG2, .publishGroup, m) :: [] : List (Gateway.Env Unit × Gateway.Kind × Msg)), e = (exG2, .publishGroup, m) := by
    intro e he
    simpa using he
  refine ⟨_, C135_partial (S := Unit) (Sig := Unit) Merkle.toyHash exG.H512 Merkle.toyHash_digest Gateway.exFresh [] [] exG2 .publishGroup m m' (.inr rfl)
    (exLived2 _ fun e he => by rw [hmem e he]; exact ⟨rfl, exShort hd⟩) (by
      show Gateway.Out.message m' ∈ (Gateway.publishGroup exG2 Gateway.exFresh m).2
      rw [h1]
      simp) (Merkle.exId 9) (exOfferBy Offer.exKey) ⟨1, .inr hd⟩ rfl (exC2 _) exClient2 (Merkle.exId 1) exG2 (exUses2 _) rfl rfl ⟨?_, ?_, ?_⟩
    (show (1000 : Int) < 1700000000 by decide) (show (1700000000 : Int) ≤ 253402300799 by decide) (Merkle.exId 2) (List.mem_singleton.2 rfl) (Merkle.exId_proper 2)⟩
  all_goals
    intro e he
    rw [hmem e he]
  · rfl
  · intro o q k h _ _ _
    exact (exGroup_publishes hd (show Gateway.Publishes exG m q o from h)).1
  · intro p r _ hr
    exact ⟨r, hr, rfl⟩

/-- The provider `exId 8` displaces the offer of the provider `exId 9`. -/
example : ∃ m1 m2, (∃ m', (Gateway.serve exG2 (Gateway.serveAll Gateway.exFresh [(exG2, .publishGroup, m1)]) .publishGroup m2).2 = [.message m']) ∧
    ∃ os, (Client.findStandard (exC2 (Gateway.serveAll Gateway.exFresh [(exG2, .publishGroup, m1), (exG2, .publishGroup, m2)])) exClient2 (Merkle.exId 2) (Merkle.exId 1)).2 = .ok os ∧ os ≠ [] ∧
      ∀ s ∈ os, ¬ Client.Genuine (exC2 (Gateway.serveAll Gateway.exFresh [(exG2, .publishGroup, m1), (exG2, .publishGroup, m2)])) s := by
  have hpub1 : exOtherPub.alg = Crypto.sigAlg ∧ Crypto.publicPart Admin.keyed exOtherPub = Crypto.publicPart Admin.keyed Admin.exKey2 := ⟨rfl, by decide +kernel⟩
  have hpub2 : Admin.exPub.alg = Crypto.sigAlg ∧ Crypto.publicPart Admin.keyed Admin.exPub = Crypto.publicPart Admin.keyed Offer.exKey := ⟨rfl, by decide +kernel⟩
  obtain ⟨m1, hd1, ha1⟩ := exRequest (k := Admin.exKey2) (i := Merkle.exId 8) (Merkle.exId_proper 8) (by decide +kernel) exOther_key Admin.exKey2_private hpub1
  obtain ⟨m2, hd2, ha2⟩ := exRequest (k := Offer.exKey) (i := Merkle.exId 9) (Merkle.exId_proper 9) (by decide +kernel) Admin.exRecord_key Offer.exKey_private hpub2
  have h := C135_refuted (S := Unit) (Sig := Unit) Merkle.toyHash exG.H512 Merkle.toyHash_digest Gateway.exFresh exG2 exG2 m1 m2
    (exLived2 _ (by
      intro e he
      simp only [List.mem_cons, List.not_mem_nil, or_false] at he
      rcases he with rfl | rfl
      · exact ⟨rfl, exShort hd1⟩
      · exact ⟨rfl, exShort hd2⟩))
    defaultProtocolOk defaultProtocolOk (exG2_signs _ rfl) (exG2_signs _ rfl) (Merkle.exId_proper 1) (Merkle.exId 8) (Merkle.exId 9) (by decide) 1 1 (exOfferBy Admin.exKey2) (exOfferBy Offer.exKey)
    exOtherPub Admin.exPub rfl (by rw [exOfferBy_terms, exOfferBy_terms]) hd1 ha1 (exOfferBy_storable Admin.exKey2_private hpub1) hd2 ha2 (exOfferBy_storable Offer.exKey_private hpub2)
    (exC2 _) exClient2 (Merkle.exId 1) exG2 (exUses2 _) rfl (by
      intro r k hr hk
      have hr' : some Admin.exRecord = some r := hr
      cases hr'
      obtain ⟨-, -, pub, h1, h2⟩ := Admin.exStranger
      rw [h1] at hk
      cases hk
      exact h2 _ _ (exOfferBy_sig Admin.exKey2_private)) (show (1000 : Int) < 1700000000 by decide) (show (1700000000 : Int) ≤ 253402300799 by decide) (Merkle.exId 2)
      (List.mem_singleton.2 rfl)
  obtain ⟨h1, os, h2, h3, h4⟩ := h
  exact ⟨m1, m2, h1, os, h2, h3, fun s hs => (h4 s hs).2.2⟩

end FcRetrieval.Journey
