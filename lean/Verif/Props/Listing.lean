import Verif.Lemmas.Listing
import Verif.Spec.Listing
import Verif.Lemmas.Admin
import Verif.Lemmas.AdminExamples
/-!
# A gateway that lists the offers of a provider: C122
-/
set_option linter.unusedSimpArgs false

namespace FcRetrieval.Listing
open FcRetrieval.Ids (Id Proper)
open FcRetrieval.Merkle (Hash exId exId_proper)
open FcRetrieval.Crypto (KeyPair)
open FcRetrieval.Message (Msg)
open FcRetrieval.Offer (CidOffer Built)
open FcRetrieval.Wire
open FcRetrieval.Codecs
open FcRetrieval.Gateway (verify_snd)
open FcRetrieval.Provider (serveAll newCore)

variable {Sig : Type}

/-- Every offer that a provider keeps is signed under the one key it ever had. -/
theorem heap_signed {P : Crypto.Prims} (hP : Crypto.Correct P) {pk : KeyPair} : ∀ (hist : List (Provider.Env × Provider.Kind × Msg)) (c : Provider.Core),
    (∀ e ∈ hist, e.1.P = P) → (∀ h1 h2, hist = h1 ++ h2 → ∀ k v, (serveAll c h1).1.key = some (k, v) → Matches P pk k) →
    (∀ o ∈ c.heap, Offer.verify P pk o = .ok ()) → ∀ o ∈ (serveAll c hist).1.heap, Offer.verify P pk o = .ok ()
  | [], c, _, _, h => h
  | (E, k, m) :: hist, c, hE, hk, h => by
    unfold serveAll
    dsimp only
    refine heap_signed hP hist _ (fun e he => hE e (by simp [he])) ?_ ?_
    · intro h1 h2 heq k' v' hkey
      refine hk ((E, k, m) :: h1) h2 (by rw [heq]; rfl) k' v' ?_
      unfold serveAll
      exact hkey
    · intro o ho
      rcases Provider.heap_step E c k m o ho with ho | ⟨cids, price, expiry, qos, kp, v, hkey, hid, -, e1, e2, e3, -, p, hp, hs⟩
      · exact h o ho
      · obtain ⟨g1, g2, g3⟩ := hk [] _ rfl kp v hkey
        have hEP : E.P = P := hE (E, k, m) (by simp)
        rw [hEP] at hs
        have := Crypto.C34_signed_verifies P hP kp pk v _ o.signature g1 ⟨g2, g3⟩ hs
        unfold Offer.verify
        rw [hid, hp]
        simp only [Offer.toSign, Res.bind_ok, Offer.checkSig, e1, e2, e3]
        rw [this]

/-- What a provider does when the gateway acknowledges every message on the list. -/
theorem provider_reads {H : Hash} {PE : Provider.Env} {pc : Provider.Core} {q : Msg} (hs : Provider.Sane H (PE, .listDht, q)) (hk : Provider.Kept H pc)
    (hsign : Provider.CanSign PE pc) {gid a b : Id} {x} (hd : decode gatewayListDHTOfferRequest q = .ok (some gid, some a, some b, x)) {gk : KeyPair}
    (ha : Provider.Authentic PE (some gid) q gk) {mgr : OfferMgr.Mgr Nat} {l : List CidOffer} {found : Bool}
    (hg : OfferMgr.getDhtRange PE.H512 (Provider.deref pc.heap) PE.order PE.now pc.offers a b 500 = .ok (mgr, l, found))
    {r : Msg} {msgs : List Msg} (hhead : (Provider.serve PE pc .listDht q).2.head? = some (.message r)) (hdr : decode gatewayListDHTOfferResponse r = .ok msgs)
    {ack : Msg} {acks : List Msg} (hrep : ∀ r, PE.reply r = some ack) (hv : Crypto.verifyMessage PE.P gk ack.signature (Message.toSign ack) = some true)
    (hda : decode gatewayListDHTOfferAck ack = .ok acks) (hlen : acks.length = msgs.length) (h5 : ∀ p ∈ msgs.zip acks, Provider.Acknowledges PE gid p.1 p.2) :
    ((∀ o ∈ (if found then l else []), ∀ cid, o.cids = [cid] → (mget pc.acks (Ids.toStr cid)).isSome) →
      (Provider.serve PE pc .listDht q).2 = [.message r] ∧ ∀ o ∈ (if found then l else []), ∀ cid, o.cids = [cid] →
        (Provider.entry (Provider.serve PE pc .listDht q).1 (Ids.toStr cid) (Ids.toStr gid)).isSome) ∧
    ((∃ o ∈ (if found then l else []), ∃ cid, o.cids = [cid] ∧ mget pc.acks (Ids.toStr cid) = none) →
      (Provider.serve PE pc .listDht q).2 = [.message r, .panic]) := by
  obtain ⟨r', msgs', parts, o1, o2, o3, o4, -, o6, -⟩ := Provider.listDht_open hs hk hsign hd ha hg
  rw [o1] at hhead
  simp only [List.head?_cons, Option.some.injEq, Provider.Out.message.injEq] at hhead
  subst hhead
  rw [o2] at hdr
  cases hdr
  have hfin : Provider.finishListing PE gk gid { pc with offers := mgr } msgs (PE.reply r') = Provider.takeAcks PE gk gid { pc with offers := mgr } (msgs.zip acks) := by
    unfold Provider.finishListing
    rw [hrep]
    dsimp only
    rw [if_pos (verify_snd.2 hv), hda]
    simp [Provider.ackList, hlen]
  obtain ⟨gid', hgid, hreg, -⟩ := ha
  cases hgid
  obtain ⟨f1, f2⟩ := Provider.takeAcks_panic hreg (msgs.zip acks) parts { pc with offers := mgr } pc.id (by
    rw [← o3]
    have h := congrArg (List.map (decode (providerPublishDHTOfferRequest PE.H))) (List.map_fst_zip (l₁ := msgs) (l₂ := acks) (by omega))
    rw [List.map_map] at h
    exact h) o6 h5
  rw [o1, hfin]
  constructor
  · intro hall
    obtain ⟨e1, e2⟩ := f1 (by
      intro p hp o ho cid hcid
      exact hall o (by rw [← o4]; exact List.mem_flatten.2 ⟨p, hp, ho⟩) cid hcid)
    refine ⟨by rw [e1], ?_⟩
    intro o ho cid hcid
    rw [← o4] at ho
    obtain ⟨p, hp, hop⟩ := List.mem_flatten.1 ho
    exact e2 p hp o hop cid hcid
  · rintro ⟨o, ho, cid, hcid, hn⟩
    rw [← o4] at ho
    obtain ⟨p, hp, hop⟩ := List.mem_flatten.1 ho
    dsimp only
    rw [f2 ⟨p, hp, o, hop, cid, hcid, hn⟩]

/-- **C122**, one provider: the gateway asks, the provider writes its list, the gateway stores every offer on it, as `AddDHTOffer` would, and
acknowledges.  When the provider has read the acknowledgements it has one of this gateway for every CID on the list; or, if for one of these CIDs
it had none of any gateway before, it crashes (C74). -/
theorem C122_provider {E : Gateway.Env Sig} {c : Gateway.Core Sig} {pid : Id} {PE : Provider.Env} {hist : List (Provider.Env × Provider.Kind × Msg)}
    (hh : Honest E c.id c.key pid PE hist) (hP : Crypto.Correct E.P) (hpr : ProtocolOk E.pr) (hw : Gateway.DbWorks E) (hsign : Gateway.CanSign E c)
    (hid : Proper c.id) (lo hi : Id) (hlo : Proper lo) (hhi : Proper hi) (s1 s2 s3 : List Char) (proof : Merkle.Proof) (hproof : ProofOk proof)
    (offers : List CidOffer) (hold : Holds PE (serveAll newCore hist).1 lo hi offers) :
    ∃ q ack r db' oks, Gateway.listOffers E c pid (encode gatewayListDHTOfferRequest E.pr (some c.id, some lo, some hi, s1, s2, s3, some proof)) =
        ({ c with db := db' }, [.asked pid q, .message ack], true) ∧
      SqlOffer.run E.H512 c.db (offers.map (SqlOffer.Kind.dht, ·)) = .ok (db', oks) ∧
      ((∀ o ∈ offers, ∀ cid, o.cids = [cid] → AckedBefore (serveAll newCore hist).1 cid) →
        (Provider.serve { PE with reply := fun _ => some ack } (serveAll newCore hist).1 .listDht q).2 = [.message r] ∧
        ∀ o ∈ offers, ∀ cid, o.cids = [cid] →
          (Provider.entry (Provider.serve { PE with reply := fun _ => some ack } (serveAll newCore hist).1 .listDht q).1 (Ids.toStr cid) (Ids.toStr c.id)).isSome) ∧
      ((∃ o ∈ offers, ∃ cid, o.cids = [cid] ∧ ¬ AckedBefore (serveAll newCore hist).1 cid) →
        (Provider.serve { PE with reply := fun _ => some ack } (serveAll newCore hist).1 .listDht q).2 = [.message r, .panic]) := by
  obtain ⟨m0, he, ht, -, -, hdel⟩ := C30_gatewayListDHTOfferRequest E.pr hpr (some c.id) (some lo) (some hi) s1 s2 s3 (some proof)
    ⟨_, rfl, hid⟩ ⟨_, rfl, hlo⟩ ⟨_, rfl, hhi⟩ ⟨_, rfl, hproof⟩
  obtain ⟨sq, hsq⟩ := Option.isSome_iff_exists.1 (hsign (Message.toSign m0))
  have hq : Message.sign E.P c.key c.keyVersion m0 = ({ m0 with signature := sq }, true) := by simp [Message.sign, hsq]
  generalize hqe : ({ m0 with signature := sq } : Msg) = q at hq
  have hdq : decode gatewayListDHTOfferRequest q = .ok (some c.id, some lo, some hi, s1, s2, s3, some proof) := by rw [← hqe]; exact (hdel sq).2
  have htq : q.type = 200 := by rw [← hqe]; exact ht
  obtain ⟨gk, hreg, g1, g2, g3⟩ := hh.known
  have hvq := (Message.C27_signed_verifies E.P hP c.key gk c.keyVersion g1 ⟨g2, g3⟩ m0 q hq).1
  have hPE := hh.prims
  have hauth : Provider.Authentic PE (some c.id) q gk := ⟨c.id, rfl, hreg, by rw [hPE]; exact verify_snd.1 hvq⟩
  obtain ⟨hH, hw1, hw2, hw3, hw4⟩ := id hh.world
  have hsane : ∀ f, Provider.Sane E.H ({ PE with reply := f }, .listDht, q) := fun f => ⟨hH, hw1, hw2, hw3, hw4, by
    intro a b d e hd
    rw [(Gateway.decode_inv hd).1] at htq
    cases htq⟩
  have hkept := Provider.kept_serveAll hist (fun e he => (hh.sane e he).1) (Provider.kept_new E.H)
  obtain ⟨mgr, l, found, hg, rfl⟩ := hold
  obtain ⟨r, msgs, parts, o1, o2, o3, o4, -, o6, o7, o8⟩ := Provider.listDht_open (hsane PE.reply) hkept hh.signs hdq hauth hg
  obtain ⟨ppid, pkp, pv, hcid, hppid, hkey, -⟩ := hh.signs
  obtain ⟨rec, pk, hrec, hpk, hone⟩ := hh.registered
  have hm := hone hist [] (by simp) pkp pv hkey
  -- the answer and the messages in it verify under the registered key of the provider
  have hvr : Crypto.verifyMessage E.P pk r.signature (Message.toSign r) = some true := by
    obtain ⟨kp, v, m1, h1, h2⟩ := (Provider.serve_under (E := PE) (c := (serveAll newCore hist).1) (k := .listDht) (m := q)).2 r (Or.inl (by rw [show Provider.serve PE (serveAll newCore hist).1 .listDht q = _ from o1]; simp))
    rw [(Provider.serve_under.1 (by simp) (by simp)).2, hkey] at h1
    cases h1
    exact verify_snd.1 (Message.C27_signed_verifies E.P hP _ pk _ hm.1 hm.2 m1 r (hPE ▸ h2)).1
  have hvm : ∀ m ∈ msgs, Crypto.verifyMessage E.P pk m.signature (Message.toSign m) = some true := by
    intro m hmm
    obtain ⟨m1, h2⟩ := Provider.listMessages_signed (c := { (serveAll newCore hist).1 with offers := mgr }) hkey o8 m hmm
    exact verify_snd.1 (Message.C27_signed_verifies E.P hP _ pk _ hm.1 hm.2 m1 m (hPE ▸ h2)).1
  have hoff : ∀ p ∈ parts, ∀ o ∈ p, Gateway.Signed E pk o ∧ Built E.H o := by
    intro p hp o ho
    have hin : o ∈ l := by
      have : o ∈ parts.flatten := List.mem_flatten.2 ⟨p, hp, ho⟩
      rw [o4] at this
      split at this
      · exact this
      · cases this
    refine ⟨Gateway.verify_signed.1 (heap_signed hP hist newCore (fun e he => (hh.sane e he).2) hone (by simp [newCore]) o ?_), ((Provider.kept_range hkept hw1 hg).2.1 o hin).1⟩
    obtain ⟨i, ⟨x, hx, -⟩, rfl⟩ := (Provider.refs_range hw1 hkept.dht hg).2.1 o hin
    have : Provider.deref (serveAll newCore hist).1.heap i = x := by
      unfold Provider.deref
      rw [List.getD_eq_getElem?_getD, hx]
      rfl
    rw [this]
    exact List.mem_of_getElem? hx
  rw [show PE.H = E.H from hH] at o3
  obtain ⟨db', oks, acks, t1, t2, t3, t4, t5⟩ := Gateway.takeMessages_run hw hpr hsign (c := c) (k := pk) o3 hvm hoff c.db []
  rw [List.nil_append] at t1
  obtain ⟨a0, hae, -, -, -, hadel⟩ := C30_gatewayListDHTOfferAck E.pr hpr acks t4
  obtain ⟨sa, hsa⟩ := Option.isSome_iff_exists.1 (hsign (Message.toSign a0))
  have hack : Message.sign E.P c.key c.keyVersion a0 = ({ a0 with signature := sa }, true) := by simp [Message.sign, hsa]
  generalize hacke : ({ a0 with signature := sa } : Msg) = ack at hack
  have hda : decode gatewayListDHTOfferAck ack = .ok acks := by rw [← hacke]; exact (hadel sa).2
  have hva := verify_snd.1 (Message.C27_signed_verifies E.P hP c.key gk c.keyVersion g1 ⟨g2, g3⟩ a0 ack hack).1
  have hex : E.exchange pid q = some r := by
    rw [hh.served q htq, show Provider.serve PE (serveAll newCore hist).1 .listDht q = _ from o1]
    rfl
  have hend := provider_reads (PE := { PE with reply := fun _ => some ack }) (pc := (serveAll newCore hist).1) (hsane _) hkept hh.signs hdq hauth hg (r := r) (msgs := msgs)
    (by rw [Provider.serve_reply, show Provider.serve PE (serveAll newCore hist).1 .listDht q = _ from o1]; rfl) o2 (fun _ => rfl) (by rw [← hPE] at hva; exact hva) hda t3 (by
      intro p hp
      obtain ⟨sig, e1, e2⟩ := t5 p hp
      refine ⟨gk, 1, sig, hreg, e1, ?_⟩
      have := Crypto.C34_signed_verifies E.P hP c.key gk c.keyVersion _ sig g1 ⟨g2, g3⟩ e2
      rw [← hPE] at this
      exact this)
  refine ⟨q, ack, r, db', oks, ?_, ?_, ?_, ?_⟩
  · unfold Gateway.listOffers
    rw [he]
    dsimp only
    rw [hq]
    dsimp only
    rw [hex, hrec]
    dsimp only
    rw [show Gateway.signingKey rec = .ok pk from hpk]
    dsimp only
    rw [if_pos (verify_snd.2 hvr), o2]
    dsimp only
    rw [t1]
    dsimp only
    rw [hae]
    dsimp only
    rw [hack]
  · rw [← o4]
    exact t2
  · exact hend.1
  · rintro ⟨o, ho, cid, hcid, hn⟩
    refine hend.2 ⟨o, ho, cid, hcid, ?_⟩
    unfold AckedBefore at hn
    cases h : mget (serveAll newCore hist).1.acks (Ids.toStr cid) with
    | none => rfl
    | some v => rw [h] at hn; exact absurd rfl hn

/-- The first element of what a request to a provider does to the gateway. -/
theorem requestProvider_list (G : GatewayAdmin.Env Sig) (n : GatewayAdmin.Node Sig) {id : Id} {k : KeyPair} {v : Crypto.KeyVersion} (hid : n.id = some id)
    (hk : n.key = some (k, v)) (lo hi pid : Id) :
    (GatewayAdmin.requestProvider G n pid (gatewayListDHTOfferRequest).code [.cid lo, .cid hi, .node (some pid)]).1 =
      { n with db := (Gateway.listOffers G.toEnv ⟨id, k, v, n.searchPrice, n.offerPrice, n.topupAmount, n.db, n.payment.getD (Payment.newMgr "")⟩ pid
        (encode gatewayListDHTOfferRequest G.pr (some id, some lo, some hi, "TODO".toList, "TODO".toList, "TODO".toList, some G.proof))).1.db } := by
  unfold GatewayAdmin.requestProvider
  rw [show GatewayAdmin.requester (gatewayListDHTOfferRequest).code = some .listOffers from rfl]
  dsimp only
  rw [hid, hk]

/-- A request that nobody answers changes nothing. -/
theorem listOffers_silent {E : Gateway.Env Sig} {c : Gateway.Core Sig} {pid : Id} (h : ∀ m, E.exchange pid m = none) (req : Res Msg) :
    (Gateway.listOffers E c pid req).1.db = c.db := by
  unfold Gateway.listOffers
  split
  · rfl
  · rfl
  split
  · rfl
  rw [h]

theorem requestAll_run {G : GatewayAdmin.Env Sig} {id : Id} {k : KeyPair} {v : Crypto.KeyVersion} (hP : Crypto.Correct G.P) (hpr : ProtocolOk G.pr)
    (hw : Gateway.DbWorks G.toEnv) (hsign : ∀ b, (Crypto.signMessage G.P k v b).isSome) (hidp : Proper id) {lo hi : Id} (hlo : Proper lo) (hhi : Proper hi)
    (hproof : ProofOk G.proof) {rs : List Register.Record} {offers : List CidOffer} (h : Answers G.toEnv id k lo hi rs offers) :
    ∀ (n : GatewayAdmin.Node Sig), n.id = some id → n.key = some (k, v) → ∃ db oks,
      (GatewayAdmin.requestAll G (gatewayListDHTOfferRequest).code (fun pid => [.cid lo, .cid hi, .node (some pid)]) n rs).1 = { n with db := db } ∧
      SqlOffer.run G.H512 n.db (offers.map (SqlOffer.Kind.dht, ·)) = .ok (db, oks) := by
  induction h with
  | none => exact fun n _ _ => ⟨n.db, [], rfl, rfl⟩
  | malformed r rs offers hr _ ih =>
    intro n hid hk
    unfold GatewayAdmin.requestAll
    rw [hr]
    exact ih n hid hk
  | silent r rs offers pid hr hs _ ih =>
    intro n hid hk
    unfold GatewayAdmin.requestAll
    rw [hr]
    dsimp only
    rw [requestProvider_list G n hid hk, listOffers_silent hs]
    exact ih n hid hk
  | honest r rs mine offers pid PE hist hr hh hold _ ih =>
    intro n hid hk
    unfold GatewayAdmin.requestAll
    rw [hr]
    dsimp only
    obtain ⟨q, ack, x, db1, oks1, h1, h2, -⟩ := C122_provider (E := G.toEnv)
      (c := ⟨id, k, v, n.searchPrice, n.offerPrice, n.topupAmount, n.db, n.payment.getD (Payment.newMgr "")⟩) hh hP hpr hw hsign hidp lo hi hlo hhi
      "TODO".toList "TODO".toList "TODO".toList G.proof hproof mine hold
    obtain ⟨db2, oks2, h3, h4⟩ := ih { n with db := db1 } hid hk
    refine ⟨db2, oks1 ++ oks2, ?_, ?_⟩
    · rw [requestProvider_list G n hid hk, h1]
      exact h3
    · rw [List.map_append]
      exact Gateway.run_append _ _ _ _ _ _ _ h2 h4

/-- **C122**, for providers that are honest whenever they answer: the call of the admin succeeds, and the gateway stores, on top of what it has,
every offer that these providers hold for its range.

Missing: what the success of the call means for the others.  It means nothing: it is written before any provider is asked (`C122_refuted`). -/
theorem C122_partial {A : Admin.Env} {r : Register.Record} {G : GatewayAdmin.Env Sig} {n : GatewayAdmin.Node Sig} (hb : Admin.Behind A r G n) (hA : Admin.HasKey A)
    {k : KeyPair} {v : Crypto.KeyVersion} (hk : n.key = some (k, v)) (ho : Admin.Owns A.P r k v) {id : Id} (hid : n.id = some id) (hidp : Proper id)
    (hw : Gateway.DbWorks G.toEnv) (hproof : ProofOk G.proof) {lo hi : Id} (hrange : G.cidRange id = some (lo, hi)) (hlo : Proper lo) (hhi : Proper hi)
    {offers : List CidOffer} (h : Answers G.toEnv id k lo hi G.providers offers) :
    (Admin.gatewayList A r).2 = .ok () ∧ ∃ db oks, Admin.received G n (Admin.gatewayList A r).1 = { n with db := db } ∧
      SqlOffer.run G.H512 n.db (offers.map (SqlOffer.Kind.dht, ·)) = .ok (db, oks) := by
  have ho' := ho
  obtain ⟨-, hs, pk, hpk, -⟩ := ho'
  obtain ⟨m, hm, hrec, hask⟩ := Admin.ask_served hb hA hpk (C30_gatewayAdminListDHTOfferRequest A.pr hb.adminProtocol true) (kind := .listOffers) rfl
  obtain ⟨m', h1, h2, h3⟩ := Admin.respond_owned (n := n) hb.prims hb.correct hk ho (C30_gatewayAdminListDHTOfferResponse G.pr hb.protocol true)
  have hse : GatewayAdmin.serve G n .listOffers m = ((GatewayAdmin.listAll G n).1, .message m' :: (GatewayAdmin.listAll G n).2) := by
    simp [GatewayAdmin.serve, GatewayAdmin.listOffers, hm, hk, h1]
  obtain ⟨db, oks, h4, h5⟩ := requestAll_run (v := v) (by rw [hb.prims]; exact hb.correct) hb.protocol hw (by rw [hb.prims]; exact hs) hidp hlo hhi hproof h n hid hk
  have hall : (GatewayAdmin.listAll G n).1 = { n with db := db } := by
    unfold GatewayAdmin.listAll
    simp only [hid, hrange]
    rw [← hid]
    exact h4
  unfold Admin.gatewayList
  simp only [hask, Admin.flag, hse, Admin.reply, h3 pk hpk, if_true, Res.bind_ok, h2, hrec, hall, true_and]
  exact ⟨db, oks, rfl, h5⟩

/-- **C122**, what this is good for: a gateway that was started with an empty store, and stored the offers `before` since, finds the offers of the
providers by their CID, until they expire. -/
theorem C122_lookup_partial {A : Admin.Env} {r : Register.Record} {G : GatewayAdmin.Env Sig} {n : GatewayAdmin.Node Sig} (hb : Admin.Behind A r G n) (hA : Admin.HasKey A)
    {k : KeyPair} {v : Crypto.KeyVersion} (hk : n.key = some (k, v)) (ho : Admin.Owns A.P r k v) {id : Id} (hid : n.id = some id) (hidp : Proper id)
    (hw : Gateway.DbWorks G.toEnv) (hproof : ProofOk G.proof) {lo hi : Id} (hrange : G.cidRange id = some (lo, hi)) (hlo : Proper lo) (hhi : Proper hi)
    {offers : List CidOffer} (h : Answers G.toEnv id k lo hi G.providers offers)
    {before : List (SqlOffer.Kind × CidOffer)} {oks : List Bool} (hdb : SqlOffer.run G.H512 SqlOffer.newDB before = .ok (n.db, oks))
    (hs : SqlOffer.Sane G.H G.H512 (before.map (·.2) ++ offers)) (order : List SqlOffer.OfferRow → List SqlOffer.OfferRow) (hord : ∀ l, (order l).Perm l)
    (o : CidOffer) (hoff : o ∈ offers) (cid : Id) (hcid : cid ∈ o.cids) (hp : o.price < 2 ^ 63) (hq : o.qos < 2 ^ 63) (off now : Int) (hnow : 0 ≤ now - off)
    (hexp : now - off < o.expiry) (hyear : o.expiry ≤ 253402300799) :
    ∃ os, SqlOffer.getOffers G.H order off now (Admin.received G n (Admin.gatewayList A r).1).db cid = .ok (os, true) ∧ ∃ o' ∈ os, Offer.terms o' = Offer.terms o := by
  obtain ⟨-, db, oks2, h1, h2⟩ := C122_partial hb hA hk ho hid hidp hw hproof hrange hlo hhi h
  have hrun := Gateway.run_append _ _ _ _ _ _ _ hdb h2
  have hmap : (before ++ offers.map (SqlOffer.Kind.dht, ·)).map (·.2) = before.map (·.2) ++ offers := by
    rw [List.map_append, List.map_map]
    congr 1
    exact List.map_id _
  rw [h1]
  dsimp only
  obtain ⟨db', oks', os, g1, g2, g3⟩ := SqlOffer.C26_by_cid G.H G.H512 order hord (before ++ offers.map (SqlOffer.Kind.dht, ·)) (by rw [hmap]; exact hs) cid
    ((hs.1 o (by simp [hoff])).1.2.1 cid hcid) off now hnow
  rw [hrun] at g1
  cases g1
  rw [hmap] at g3
  obtain ⟨o', ho', ht⟩ := (SqlOffer.C26_stored (before.map (·.2) ++ offers)).2.1 o (by simp [hoff]) hp hq
  have hcids : o'.cids = o.cids := congrArg (fun t => t.2.1) ht
  have hexp' : o'.expiry = o.expiry := congrArg (fun t => t.2.2.2.1) ht
  have hmem : o' ∈ os := by
    refine g3.mem_iff.2 (List.mem_flatMap.2 ⟨o', ho', ?_⟩)
    rw [if_pos (by rw [hexp']; exact ⟨hexp, hyear⟩)]
    exact List.mem_replicate.2 ⟨by rw [hcids]; have := List.count_pos_iff.2 hcid; omega, rfl⟩
  refine ⟨os, ?_, o', hmem, ht⟩
  rw [g2]
  cases os with
  | nil => cases hmem
  | cons a as => rfl

/-- **C122 is false**: the success of the call does not mean that any provider was asked, or answered.  A gateway that reaches none of its
providers, or whose register cannot tell its range, reports success all the same, and stores nothing. -/
theorem C122_refuted {A : Admin.Env} {r : Register.Record} {G : GatewayAdmin.Env Sig} {n : GatewayAdmin.Node Sig} (hb : Admin.Behind A r G n) (hA : Admin.HasKey A)
    {k : KeyPair} {v : Crypto.KeyVersion} (hk : n.key = some (k, v)) (ho : Admin.Owns A.P r k v) {id : Id} (hid : n.id = some id)
    (h : G.cidRange id = none ∨ ∀ p m, G.exchange p m = none) :
    (Admin.gatewayList A r).2 = .ok () ∧ Admin.received G n (Admin.gatewayList A r).1 = n := by
  have ho' := ho
  obtain ⟨-, hs, pk, hpk, -⟩ := ho'
  obtain ⟨m, hm, hrec, hask⟩ := Admin.ask_served hb hA hpk (C30_gatewayAdminListDHTOfferRequest A.pr hb.adminProtocol true) (kind := .listOffers) rfl
  obtain ⟨m', h1, h2, h3⟩ := Admin.respond_owned (n := n) hb.prims hb.correct hk ho (C30_gatewayAdminListDHTOfferResponse G.pr hb.protocol true)
  have hse : GatewayAdmin.serve G n .listOffers m = ((GatewayAdmin.listAll G n).1, .message m' :: (GatewayAdmin.listAll G n).2) := by
    simp [GatewayAdmin.serve, GatewayAdmin.listOffers, hm, hk, h1]
  have hall : (GatewayAdmin.listAll G n).1 = n := by
    unfold GatewayAdmin.listAll
    rw [hid]
    dsimp only
    split
    · rfl
    · rename_i lo hi hr
      rcases h with h | h
      · rw [h] at hr; cases hr
      · have : ∀ rs, (GatewayAdmin.requestAll G (gatewayListDHTOfferRequest).code (fun pid => [.cid lo, .cid hi, .node (some pid)]) n rs).1 = n := by
          intro rs
          induction rs with
          | nil => rfl
          | cons a rs ih =>
            unfold GatewayAdmin.requestAll
            split
            · exact ih
            · dsimp only
              rw [requestProvider_list G n hid hk, listOffers_silent (h _)]
              exact ih
        exact this _
  unfold Admin.gatewayList
  simp only [hask, Admin.flag, hse, Admin.reply, h3 pk hpk, if_true, Res.bind_ok, h2, hrec, hall, true_and]

/-- **C122**, the flag: a request that says not to refresh changes nothing, and nobody is asked for a list. -/
theorem C122_unasked (G : GatewayAdmin.Env Sig) (n : GatewayAdmin.Node Sig) (m : Msg) (hd : decode gatewayAdminListDHTOfferRequest m = .ok false) :
    (GatewayAdmin.serve G n .listOffers m).1 = n ∧ ∀ o ∈ (GatewayAdmin.serve G n .listOffers m).2, (∀ i x, o ≠ .asked i x) ∧ (∀ i, o ≠ .gaveUp i) ∧ o ≠ .refresh ∧ o ≠ .crash := by
  have hr : ∀ o ∈ GatewayAdmin.respond G n gatewayAdminListDHTOfferResponse false, (∀ i x, o ≠ .asked i x) ∧ (∀ i, o ≠ .gaveUp i) ∧ o ≠ .refresh ∧ o ≠ .crash := by
    unfold GatewayAdmin.respond
    split
    · simp
    · simp
    · split <;> simp
  by_cases hk : n.key = none
  · simp [GatewayAdmin.serve, GatewayAdmin.listOffers, hk]
  · simp only [GatewayAdmin.serve, GatewayAdmin.listOffers, hk, hd, if_false, Bool.false_eq_true]
    exact ⟨trivial, hr⟩
example : ∃ m, decode gatewayAdminListDHTOfferRequest m = .ok false := by
  obtain ⟨m, -, -, -, -, h⟩ := C30_gatewayAdminListDHTOfferRequest Message.defaultProtocol defaultProtocolOk false
  exact ⟨_, (h []).2⟩

/-- **C133**, refreshing the register of a gateway: the call succeeds, the gateway refreshes its copy of the register, and nothing else changes. -/
theorem C133_gateway {A : Admin.Env} {r : Register.Record} {G : GatewayAdmin.Env Sig} {n : GatewayAdmin.Node Sig} (hb : Admin.Behind A r G n) (hA : Admin.HasKey A)
    {k : KeyPair} {v : Crypto.KeyVersion} (hk : n.key = some (k, v)) (ho : Admin.Owns A.P r k v) :
    (Admin.gatewayRefresh A r).2 = .ok () ∧ ∃ m a, (Admin.gatewayRefresh A r).1 = [(r.netAdmin, m)] ∧ GatewayAdmin.kindOf m.type = some .forceRefresh ∧
      GatewayAdmin.serve G n .forceRefresh m = (n, [.refresh, .message a]) := by
  have ho' := ho
  obtain ⟨-, hs, pk, hpk, -⟩ := ho'
  obtain ⟨m, hm, hrec, hask⟩ := Admin.ask_served hb hA hpk (C30_gatewayAdminForceRefreshRequest A.pr hb.adminProtocol true) (kind := .forceRefresh) rfl
  obtain ⟨m', h1, h2, h3⟩ := Admin.respond_owned (n := n) hb.prims hb.correct hk ho (C30_gatewayAdminForceRefreshResponse G.pr hb.protocol true)
  have hse : GatewayAdmin.serve G n .forceRefresh m = (n, [.refresh, .message m']) := by
    simp [GatewayAdmin.serve, GatewayAdmin.forceRefresh, hm, hk, h1]
  unfold Admin.gatewayRefresh
  simp only [hask, Admin.flag, hse, Admin.reply, h3 pk hpk, if_true, Res.bind_ok, h2, true_and]
  exact ⟨m, m', rfl, by rw [Admin.decode_type hm]; rfl, hse⟩

/-! ## the hypotheses can be met -/

/-- A gateway with the identifier `exId 3`, at which a provider with one offer answers; another provider does not answer. -/
def exGateway (hist : List (Provider.Env × Provider.Kind × Msg)) : GatewayAdmin.Env Unit :=
  { Admin.exGatewayEnv with
    P := Crypto.toy
    provider := fun i => if i = exId 1 then some Gateway.exRecord else none
    exchange := fun i m => if i = exId 1 then written (Provider.serve Provider.exEnv (serveAll newCore hist).1 .listDht m).2 else none
    providers := [{ Gateway.exRecord with nodeID := Ids.toStr (exId 9) }, { Gateway.exRecord with nodeID := ['z'] }, { Gateway.exRecord with nodeID := Ids.toStr (exId 1) }] }

def exNode : GatewayAdmin.Node Unit := { Admin.exNode with id := some (exId 3) }

def exAdmin (G : GatewayAdmin.Env Unit) : Admin.Env :=
  { Admin.exAdmin exNode with
    P := Crypto.toy
    key := some (Offer.exKey, 1)
    exchange := fun _ m => (GatewayAdmin.kindOf m.type).bind (fun k => Admin.reply (GatewayAdmin.serve G exNode k m).2) }

theorem exBehind (hist : List (Provider.Env × Provider.Kind × Msg)) : Admin.Behind (exAdmin (exGateway hist)) Gateway.exRecord (exGateway hist) exNode where
  served := fun _ => rfl
  prims := rfl
  correct := Crypto.toy_correct
  protocol := defaultProtocolOk
  adminProtocol := defaultProtocolOk

theorem exHasKey (G : GatewayAdmin.Env Unit) : Admin.HasKey (exAdmin G) := ⟨_, _, rfl, Provider.exKey_signs⟩

theorem exOwns : Admin.Owns Crypto.toy Gateway.exRecord Offer.exKey 1 :=
  ⟨Offer.exKey_private, Provider.exKey_signs, Gateway.exPub, Gateway.exRecord_key, rfl, by decide +kernel⟩

theorem exMatches : Matches Crypto.toy Gateway.exPub Offer.exKey := ⟨Offer.exKey_private, rfl, by decide +kernel⟩

theorem exHonest {hist : List (Provider.Env × Provider.Kind × Msg)} (h : hist = Provider.exHist ∨ hist = Provider.exHistAlone) :
    Honest (exGateway hist).toEnv (exId 3) Offer.exKey (exId 1) Provider.exEnv hist where
  served := fun m _ => by simp [exGateway]
  prims := rfl
  world := by
    obtain ⟨h1, h2, h3, h4, h5, -⟩ := Provider.exList_sane (Or.inr rfl)
    exact ⟨h1, h2, h3, h4, h5⟩
  sane := by
    rcases h with rfl | rfl
    · refine fun e he => ⟨Provider.exHist_sane e he, ?_⟩
      simp [Provider.exHist] at he
      rcases he with rfl | rfl <;> rfl
    · refine fun e he => ⟨Provider.exHistAlone_sane e he, ?_⟩
      simp [Provider.exHistAlone] at he
      rcases he with rfl | rfl <;> rfl
  signs := by
    rcases h with rfl | rfl
    · exact Provider.exGood_signs rfl Provider.exHist_good
    · exact Provider.exGood_signs rfl Provider.exHistAlone_good
  registered := by
    refine ⟨Gateway.exRecord, Gateway.exPub, by simp [exGateway], Gateway.exRecord_key, ?_⟩
    intro h1 h2 heq k v hk
    suffices hs : k = Offer.exKey by rw [hs]; exact exMatches
    have hlen := congrArg List.length heq
    have hpre : h1 = hist.take h1.length := by rw [heq]; simp
    have hcase : h1.length = 0 ∨ h1.length = 1 ∨ h1.length = 2 := by
      rcases h with rfl | rfl <;> simp [Provider.exHist, Provider.exHistAlone] at hlen <;> omega
    have h0 : ∀ l : List (Provider.Env × Provider.Kind × Msg), l = Provider.exHist ∨ l = Provider.exHistAlone →
        (serveAll newCore (l.take 1)).1.key = some (Offer.exKey, 1) ∧ (serveAll newCore (l.take 2)).1.key = some (Offer.exKey, 1) := by
      rintro l (rfl | rfl) <;> decide +kernel
    rcases hcase with hc | hc | hc <;> rw [hc] at hpre <;> rw [hpre] at hk
    · cases hk
    · rw [(h0 hist h).1] at hk; cases hk; rfl
    · rw [(h0 hist h).2] at hk; cases hk; rfl
  known := ⟨Gateway.exPub, ⟨Gateway.exRecord, by simp [Provider.exEnv, Provider.exAlone], Gateway.exRecord_key⟩, exMatches⟩

theorem exAnswers {hist : List (Provider.Env × Provider.Kind × Msg)} (h : hist = Provider.exHist ∨ hist = Provider.exHistAlone) {offers : List CidOffer}
    (hold : Holds Provider.exEnv (serveAll newCore hist).1 (exId 0) (exId 9) offers) :
    Answers (exGateway hist).toEnv (exId 3) Offer.exKey (exId 0) (exId 9) (exGateway hist).providers offers := by
  have h9 : (exId 9 : Id) ≠ exId 1 := by decide
  rw [← List.append_nil offers]
  exact .silent _ _ _ (exId 9) (Ids.fromHex_toStr (exId_proper 9)) (fun m => by simp [exGateway, h9])
    (.malformed _ _ _ (by decide +kernel) (.honest _ _ _ _ (exId 1) _ _ (Ids.fromHex_toStr (exId_proper 1)) (exHonest h) hold .none))

theorem exProof (hist : List (Provider.Env × Provider.Kind × Msg)) : ProofOk (exGateway hist).proof := by
  show ProofOk Admin.exGatewayEnv.proof
  refine ⟨?_, by decide, by decide⟩
  intro l hl n hn
  cases hl
  cases hn

/-- After the call the gateway finds the offer of the provider. -/
example : ∃ (o : CidOffer) (os : List CidOffer), o.cids = [exId 2] ∧
    SqlOffer.getOffers (exGateway Provider.exHist).H (fun l => l) 0 1500
      (Admin.received (exGateway Provider.exHist) exNode (Admin.gatewayList (exAdmin (exGateway Provider.exHist)) Gateway.exRecord).1).db (exId 2) = .ok (os, true) ∧
    ∃ o' ∈ os, Offer.terms o' = Offer.terms o := by
  obtain ⟨mgr, o, hg, hc, -⟩ := Provider.exGood_offer Provider.exHist_good
  have hterms : ((Provider.exListed (serveAll newCore Provider.exHist).1).map (fun x => x.1.map (fun o => (o.price, o.expiry, o.qos)))) = some [(5, 2000, 3)] := by decide +kernel
  have hl : Provider.exListed (serveAll newCore Provider.exHist).1 = some ([o], true) := by
    unfold Provider.exListed
    rw [hg]
  rw [hl] at hterms
  simp only [Option.map_some, List.map_cons, List.map_nil, Option.some.injEq, List.cons.injEq, Prod.mk.injEq, and_true] at hterms
  have hb := (Provider.kept_range (Provider.kept_serveAll Provider.exHist Provider.exHist_sane (Provider.kept_new _)) (E := Provider.exEnv) (fun _ => List.Perm.refl _) hg).2.1 o (by simp)
  obtain ⟨os, h1, h2⟩ := C122_lookup_partial (exBehind Provider.exHist) (exHasKey _) (k := Offer.exKey) (v := 1) rfl exOwns (id := exId 3) rfl (exId_proper 3) (fun _ _ => rfl)
    (exProof _) (lo := exId 0) (hi := exId 9) rfl (exId_proper 0) (exId_proper 9) (exAnswers (Or.inl rfl) ⟨mgr, [o], true, hg, rfl⟩) (before := []) (oks := []) rfl
    ⟨by intro x hx; simp at hx; subst hx; exact hb.1, by
      intro a ha b hb x y hx hy _
      simp at ha hb
      subst ha hb
      rw [hx] at hy
      cases hy
      rfl⟩ (fun l => l) (fun _ => List.Perm.refl _) o (by simp) (exId 2) (by simp [hc]) (by rw [hterms.1]; decide) (by rw [hterms.2.2]; decide) 0 1500 (by decide)
    (by rw [hterms.2.1]; decide) (by rw [hterms.2.1]; decide)
  exact ⟨o, os, hc, h1, h2⟩

/-- A provider whose offer nobody had acknowledged crashes when it reads the acknowledgement of the gateway. -/
example : ∃ q ack r, (Provider.serve { Provider.exEnv with reply := fun _ => some ack } (serveAll newCore Provider.exHistAlone).1 .listDht q).2 = [.message r, .panic] := by
  obtain ⟨mgr, o, hg, hc, hn, -⟩ := Provider.exGood_offer Provider.exHistAlone_good
  obtain ⟨q, ack, r, -, -, -, -, -, h⟩ := C122_provider (E := (exGateway Provider.exHistAlone).toEnv) (c := ⟨exId 3, Offer.exKey, 1, 3, 2, 10, SqlOffer.newDB, Payment.newMgr ""⟩)
    (exHonest (Or.inr rfl)) Crypto.toy_correct defaultProtocolOk (fun _ _ => rfl) Provider.exKey_signs (exId_proper 3) (exId 0) (exId 9) (exId_proper 0) (exId_proper 9) [] [] []
    _ (exProof Provider.exHistAlone) [o] ⟨mgr, [o], true, hg, rfl⟩
  exact ⟨q, ack, r, h ⟨o, by simp, exId 2, hc, by unfold AckedBefore; rw [hn]; simp⟩⟩

/-- A gateway whose providers do not answer. -/
def exSilent : GatewayAdmin.Env Unit := { exGateway [] with exchange := fun _ _ => none }

theorem exSilent_behind : Admin.Behind (exAdmin exSilent) Gateway.exRecord exSilent exNode :=
  ⟨fun _ => rfl, rfl, Crypto.toy_correct, defaultProtocolOk, defaultProtocolOk⟩

example : (Admin.gatewayList (exAdmin exSilent) Gateway.exRecord).2 = .ok () :=
  (C122_refuted exSilent_behind (exHasKey exSilent) (k := Offer.exKey) (v := 1) (by rfl) exOwns (id := exId 3) (by rfl) (Or.inr (fun _ _ => rfl))).1

example : (Admin.gatewayRefresh (exAdmin (exGateway [])) Gateway.exRecord).2 = .ok () :=
  (C133_gateway (exBehind []) (exHasKey (exGateway [])) (k := Offer.exKey) (v := 1) (by rfl) exOwns).1

end FcRetrieval.Listing
