import Verif.Spec.ClientAck
import Verif.Lemmas.ProviderAcks
import Verif.Props.GatewayStore
import Verif.Lemmas.GatewayPublish
import Verif.Props.ClientGateways
/-!
# C64: acknowledgements are checked
-/
set_option linter.unusedSimpArgs false

namespace FcRetrieval.Client
open FcRetrieval.Ids (Id)
open FcRetrieval.Message (Msg)
open FcRetrieval.Register (Record)
open FcRetrieval.Wire (encode decode)
open FcRetrieval.Codecs
open FcRetrieval.Gateway (res_ok_of_bind ofOption_ok verify_snd)

variable {Sig : Type}

theorem requestAck_ok {E : Env Sig} {r : Record} {cid gw : Id} {found : Bool} {request ack : Msg} :
    (requestAck E 0 r cid gw).2 = .ok (found, request, ack) ↔ ShownBy E r cid gw found request ack := by
  unfold requestAck ShownBy
  constructor
  · intro h
    obtain ⟨a, ha, h⟩ := res_ok_of_bind h
    obtain ⟨⟨c', g', f, q, k⟩, hd, h⟩ := res_ok_of_bind h
    obtain ⟨m, hm, -, hans⟩ := ask_ok ha
    cases q with
    | none => simp [deref, Bind.bind, Res.bind] at h
    | some q =>
      cases k with
      | none => simp [deref, Bind.bind, Res.bind] at h
      | some k =>
        simp [deref, Bind.bind, Res.bind, pure] at h
        obtain ⟨rfl, rfl, rfl⟩ := h
        exact ⟨m, a, c', g', hm, hans, hd⟩
  · rintro ⟨m, a, c', g', hm, hans, hd⟩
    dsimp only
    rw [hm, ask_answered hans]
    simp [hd, deref]

theorem published_cids {H : Merkle.Hash} {m : Msg} {pid : Option Id} {nonce : Int} {offers : List Offer.CidOffer}
    (h : decode (providerPublishDHTOfferRequest H) m = .ok (pid, nonce, offers)) : ∀ o ∈ offers, ∃ c, Ids.Proper c ∧ o.cids = [c] := by
  obtain ⟨-, fs, ⟨w1, w2, w3, w4, ⟨⟩⟩, h1, h2⟩ := Gateway.decode_inv h
  have h2' : (if (w4 : List Offer.CidOffer).any (fun o => decide (o.cids.length ≠ 1)) = true then Res.err else Res.ok (Ids.fromHex w1, w2, w4)) =
    Res.ok (pid, nonce, offers) := h2
  split at h2'
  · cases h2'
  rename_i hone
  cases h2'
  intro o ho
  have hd : (Wire.slice (Wire.offer H)).dec (memberFor "single_offers" fs) = .ok offers :=
    (Gateway.decFields_cons (Gateway.decFields_cons (Gateway.decFields_cons (Gateway.decFields_cons h1).2).2).2).1
  have hp : ∀ c ∈ o.cids, Ids.Proper c := by
    unfold Wire.slice at hd
    dsimp only at hd
    split at hd
    · cases hd; cases ho
    · cases hd; cases ho
    · obtain ⟨j, hj⟩ := Gateway.decAll_mem hd o ho
      have hj' : Offer.unmarshal H j = .ok o := hj
      unfold Offer.unmarshal at hj'
      obtain ⟨fs, -, h⟩ := res_ok_of_bind hj'
      obtain ⟨pid, -, h⟩ := res_ok_of_bind h
      obtain ⟨cids, -, h⟩ := res_ok_of_bind h
      obtain ⟨price, h1, h⟩ := res_ok_of_bind h
      obtain ⟨expiry, h2, h⟩ := res_ok_of_bind h
      obtain ⟨qos, h3, h⟩ := res_ok_of_bind h
      obtain ⟨sig, -, h⟩ := res_ok_of_bind h
      split at h
      · cases h
      rename_i ids hids
      obtain ⟨root, h4, h⟩ := res_ok_of_bind h
      cases h
      exact Gateway.mapFromString_proper hids
    · cases hd
  have hl : o.cids.length = 1 := by
    apply Classical.byContradiction
    intro hn
    exact hone (List.any_eq_true.2 ⟨o, ho, decide_eq_true hn⟩)
  match hc : o.cids, hl with
  | [c], _ => exact ⟨c, hp c (by rw [hc]; simp), rfl⟩

/-- **C64**: an acknowledgement is reported exactly if the registered provider, in a signed answer, shows a publish request signed by it
with an offer for the CID, and an acknowledgement signed by the registered gateway that holds the signature of the gateway over the
body of that request. -/
theorem C64 (E : Env Sig) (cid gw pid : Id) (hcid : cid.length = 32) : (findAck E cid gw pid).2 = .ok true ↔
    ∃ r request ack, E.provider pid = some r ∧ CompleteProvider r ∧ ShownBy E r cid gw true request ack ∧ PublishedBy E r cid request ∧
      AcknowledgedBy E gw request ack := by
  unfold findAck
  constructor
  · intro h
    split at h
    · cases h
    rename_i r hr
    split at h
    · cases h
    · rename_i hv
      dsimp only at h
      obtain ⟨⟨found, request, ack⟩, h1, h⟩ := res_ok_of_bind h
      dsimp only at h
      cases found with
      | false => simp at h
      | true =>
        simp only [Bool.not_true, Bool.false_eq_true, if_false] at h
        obtain ⟨gk, hgk, h⟩ := res_ok_of_bind h
        obtain ⟨pk, hpk, h⟩ := res_ok_of_bind h
        split at h
        · rename_i hver
          obtain ⟨⟨p', nonce, offers⟩, hd, h⟩ := res_ok_of_bind h
          dsimp only at h
          split at h
          · rename_i hany
            split at h
            · rename_i hack
              obtain ⟨⟨nonce', sig⟩, hda, h⟩ := res_ok_of_bind h
              obtain ⟨g, hg, hvg, hkg⟩ := checkedKey_ok hgk
              refine ⟨r, request, ack, hr, (validProvider_iff r).1 hv, requestAck_ok.1 h1, ⟨⟨pk, hpk, verify_snd.1 hver⟩, p', nonce, offers, hd, ?_⟩,
                g, gk, nonce', sig, hg, (validGateway_iff g).1 hvg, hkg, ⟨gk, hkg, verify_snd.1 hack⟩, hda, ofOption_ok h⟩
              obtain ⟨o, ho, hx⟩ := List.any_eq_true.1 hany
              obtain ⟨c, hc, hco⟩ := published_cids hd o ho
              refine ⟨o, ho, ?_⟩
              rw [hco] at hx ⊢
              simp only [List.head?_cons, Option.map_some, Option.some.injEq, decide_eq_true_eq] at hx
              rw [(OfferMgr.toStr_inj hc hcid).1 hx]
            · cases h
          · cases h
        · cases h
    · cases h
  · rintro ⟨r, request, ack, hr, hc, hsh, ⟨⟨pk, hpk, hver⟩, p', nonce, offers, hd, o, ho, hoc⟩, g, k, nonce', sig, hg, hcg, hk, ⟨k', hk', hack⟩, hda, hsig⟩
    rw [hk] at hk'
    cases hk'
    rw [hr]
    dsimp only
    rw [(validProvider_iff r).2 hc]
    dsimp only
    rw [requestAck_ok.2 hsh]
    have hck : checkedKey E.gateway validGateway gw = .ok k := by
      unfold checkedKey
      rw [hg]
      dsimp only
      rw [(validGateway_iff g).2 hcg]
      exact hk
    have hany : offers.any (fun o => decide ((o.cids.head?.map Ids.toStr) = some (Ids.toStr cid))) = true :=
      List.any_eq_true.2 ⟨o, ho, by rw [hoc]; simp⟩
    simp only [Res.bind_ok, Bool.not_true, Bool.false_eq_true, if_false, hck, hpk, verify_snd.2 hver, if_true, hd, hany, verify_snd.2 hack, hda, hsig, Res.ofOption]

/-- A provider that answers that it has none is believed. -/
theorem C64_not_found (E : Env Sig) (cid gw pid : Id) (r : Record) (request ack : Msg) (hr : E.provider pid = some r) (hc : CompleteProvider r)
    (hs : ShownBy E r cid gw false request ack) : (findAck E cid gw pid).2 = .ok false := by
  unfold findAck
  rw [hr]
  dsimp only
  rw [(validProvider_iff r).2 hc]
  dsimp only
  rw [requestAck_ok.2 hs]
  rfl

theorem verify_unsigned (P : Crypto.Prims) (k : Crypto.KeyPair) (b : Bytes) : Crypto.verifyMessage P k [] b = none := rfl

/-- **C64, an acknowledgement that is not signed** is never reported, although it holds the signature over the body of the request. -/
theorem C64_unsigned (E : Env Sig) (cid gw pid : Id) (hcid : cid.length = 32) (r : Record) (hr : E.provider pid = some r)
    (hsh : ∀ found request ack, ShownBy E r cid gw found request ack → ack.signature = []) : (findAck E cid gw pid).2 ≠ .ok true := by
  intro h
  obtain ⟨r', request, ack, hr', -, h1, -, g, k, nonce, sig, -, -, -, ⟨k', -, h2⟩, -⟩ := (C64 E cid gw pid hcid).1 h
  rw [hr] at hr'
  cases hr'
  rw [hsh _ _ _ h1, verify_unsigned] at h2
  cases h2

end FcRetrieval.Client

namespace FcRetrieval.Gateway
open FcRetrieval.Ids (Id)
open FcRetrieval.Message (Msg)
open FcRetrieval.Wire (encode decode)
open FcRetrieval.Codecs

variable {Sig : Type}

theorem takeMessages_unsigned {E : Env Sig} {c : Core Sig} {k : Crypto.KeyPair} : ∀ {ms acks acks' : List Msg} {db db' : SqlOffer.DB},
    (∀ a ∈ acks, a.signature = []) → takeMessages E c k db ms acks = (db', .ok acks') → ∀ a ∈ acks', a.signature = []
  | [], acks, acks', db, db', h, he => by
    cases he
    exact h
  | m :: ms, acks, acks', db, db', h, he => by
    unfold takeMessages at he
    split at he
    · exact takeMessages_unsigned h he
    split at he
    · cases he
    · exact takeMessages_unsigned h he
    split at he
    · cases he
    split at he
    · cases he
    split at he
    · rename_i ack hack
      refine takeMessages_unsigned ?_ he
      intro a ha
      rcases List.mem_append.1 ha with ha | ha
      · exact h a ha
      · rw [List.mem_singleton.1 ha]
        exact encode_unsigned hack
    · cases he
    · cases he

/-- **C64, the gateway**: when a gateway lists the offers of a provider, the list of acknowledgements which it sends holds messages that are
not signed; so what the provider shows of them is not reported (`C64_unsigned`). -/
theorem C64_listed_refuted (E : Env Sig) (c : Core Sig) (pid : Id) (req : Res Msg) (a : Msg)
    (h : .message a ∈ (listOffers E c pid req).2.1) : ∃ acks a0, encode gatewayListDHTOfferAck E.pr acks = .ok a0 ∧
      Message.sign E.P c.key c.keyVersion a0 = (a, true) ∧ ∀ x ∈ acks, x.signature = [] := by
  unfold listOffers at h
  split at h
  · simp at h
  · simp at h
  split at h
  · simp at h
  split at h
  · split at h
    · split at h
      · split at h
        · simp at h
        · simp at h
        split at h
        · simp at h
        · simp at h
        rename_i db acks htk
        split at h
        · rename_i a0 he
          split at h
          · rename_i a' hs
            simp at h
            subst h
            exact ⟨acks, a0, he, hs, takeMessages_unsigned (by simp) htk⟩
          · simp at h
        · simp at h
      · simp at h
    · simp at h
    · simp at h
  · simp at h

end FcRetrieval.Gateway

namespace FcRetrieval.Client
open FcRetrieval.Ids (Id)
open FcRetrieval.Message (Msg)
open FcRetrieval.Register (Record)
open FcRetrieval.Wire (encode decode)
open FcRetrieval.Codecs
open FcRetrieval.Gateway (verify_snd)
open FcRetrieval.Provider (serveAll newCore serve Sane entry)

variable {Sig : Type}

theorem under_verifies {P : Crypto.Prims} (hP : Crypto.Correct P) {G : Provider.Env} (hG : G.P = P) {kv : Option (Crypto.KeyPair × Crypto.KeyVersion)} {x : Msg}
    (h : Provider.SignedUnder G kv x) {pub : Crypto.KeyPair} (halg : pub.alg = Crypto.sigAlg)
    (hpub : ∀ kp v, kv = some (kp, v) → Crypto.PrivateKey kp ∧ Crypto.publicPart P pub = Crypto.publicPart P kp) :
    Crypto.verifyMessage P pub x.signature (Message.toSign x) = some true := by
  obtain ⟨k, v, m0, rfl, hs⟩ := h
  obtain ⟨h1, h2⟩ := hpub k v rfl
  exact verify_snd.1 (Message.C27_signed_verifies P hP k pub v h1 ⟨halg, h2⟩ m0 x (hG ▸ hs)).1

/-- **C64, honest nodes**: an offer which a gateway acknowledged to a provider when it was published can be confirmed by any client, also
after any number of further requests to the provider, unless a gateway listed the offers meanwhile (`C64_listed_refuted`) or the
provider or the gateway changed its key. -/
theorem C64_honest_partial (h1 h2 : List (Provider.Env × Provider.Kind × Msg)) (F : Provider.Env) (pm : Msg) (H : Merkle.Hash)
    (h1_sane : ∀ e ∈ h1, Sane H e) (hs : Sane H (F, .publishDht, pm)) (h2_sane : ∀ e ∈ h2, Sane H e)
    (gw : Id) (hgwp : gw.length = 32) (req : Msg) (hasked : .asked gw req ∈ (serve F (serveAll newCore h1).1 .publishDht pm).2)
    (hack : ∀ n, ∃ ack, F.exchange n gw req = some ack ∧ Provider.SignedBy F gw ack ∧ Provider.Acknowledges F gw req ack)
    (offers : List Offer.CidOffer) (hcar : Provider.Carries F req offers) (o : Offer.CidOffer) (ho : o ∈ offers) (cid : Id) (hcidp : cid.length = 32)
    (hcid : o.cids = [cid]) (hlist : ∀ e ∈ h1 ++ (F, .publishDht, pm) :: h2, e.2.1 ≠ .listDht)
    (E : Env Sig) (hE : E.H = H) (hprE : ProtocolOk E.pr) (g : Record) (hg : E.gateway gw = some g) (hgc : CompleteGateway g)
    (henv : ∀ e ∈ h1 ++ (F, .publishDht, pm) :: h2, e.1.P = E.P ∧ e.1.gateway gw = some g)
    (hkey : ∀ p, p <+: h1 ++ (F, .publishDht, pm) :: h2 → ∀ kv, (serveAll newCore p).1.key = some kv →
      (serveAll newCore (h1 ++ (F, .publishDht, pm) :: h2)).1.key = some kv)
    (pid : Id) (r : Record) (hr : E.provider pid = some r) (hrc : CompleteProvider r) (G : Provider.Env)
    (hb : BehindProvider E r G (serveAll newCore (h1 ++ (F, .publishDht, pm) :: h2)).1) :
    (findAck E cid gw pid).2 = .ok true := by
  have hsane : ∀ e ∈ h1 ++ (F, Provider.Kind.publishDht, pm) :: h2, Sane H e := by
    intro e he
    rcases List.mem_append.1 he with he | he
    · exact h1_sane e he
    · rcases List.mem_cons.1 he with rfl | he
      · exact hs
      · exact h2_sane e he
  obtain ⟨q, hq, hqt, -, -, hqd⟩ := C30_clientDHTOfferAckRequest E.pr hprE (some cid) (some gw) ⟨cid, rfl, hcidp⟩ ⟨gw, rfl, hgwp⟩
  have hqd' : decode clientDHTOfferAckRequest q = .ok (some cid, some gw) := (hqd q.signature).2
  obtain ⟨a, req', ack', ha, hda, e, he, hev⟩ := Provider.C55_partial H h1 h2 F pm h1_sane hs h2_sane gw req hasked hack offers hcar o ho cid hcid
    G hb.protocol hb.signs q hqd'
  obtain ⟨a', ha', hent⟩ := Provider.offerAck_answer (Provider.kept_serveAll _ hsane (Provider.kept_new H)) hb.protocol hb.signs hqd'
  rw [ha] at ha'
  cases ha'
  obtain ⟨pub, hpub, halg, hpp⟩ := hb.public_
  have hkp : ∀ kp v, (serveAll newCore (h1 ++ (F, Provider.Kind.publishDht, pm) :: h2)).1.key = some (kp, v) → Crypto.PrivateKey kp ∧ Crypto.publicPart E.P pub = Crypto.publicPart E.P kp :=
    fun kp v hk => ⟨hb.private_ kp v hk, hpp kp v hk⟩
  have hsent : SignedBy E r a := by
    refine ⟨pub, hpub, under_verifies hb.correct hb.prims ((Provider.serve_under (k := .offerAck) (m := q)).2 a (Or.inl (by rw [ha]; simp))) halg ?_⟩
    rw [((Provider.serve_under (E := G) (c := (serveAll newCore (h1 ++ (F, Provider.Kind.publishDht, pm) :: h2)).1) (k := .offerAck) (m := q)).1 (by simp) (by simp)).2]
    exact hkp
  have hans : Answered E 0 r q a := by
    refine ⟨?_, hsent⟩
    rw [hb.served q hqt, ha]
    rfl
  cases hx : entry (serveAll newCore (h1 ++ (F, Provider.Kind.publishDht, pm) :: h2)).1 (Ids.toStr cid) (Ids.toStr gw) with
  | none =>
    rw [hx] at hent
    obtain ⟨x, y, hxy⟩ := hent
    rw [hda] at hxy
    cases hxy
  | some v =>
    rw [hx] at hent
    obtain ⟨x, y⟩ := v
    dsimp only at hent
    rw [hda] at hent
    simp only [Res.ok.injEq, Prod.mk.injEq, Option.some.injEq, true_and] at hent
    obtain ⟨rfl, rfl⟩ := hent
    rcases Provider.serveAll_signs _ newCore hlist _ _ _ hx with h0 | ⟨p1, e', p2, hsplit, hu, gid, hgid, hgeq, hsb⟩
    · cases h0
    · have hgg : gid = gw := ((OfferMgr.toStr_inj hgwp hgid).1 hgeq).symm
      subst hgg
      obtain ⟨hP', hg'⟩ := henv e' (by rw [hsplit]; simp)
      obtain ⟨hP, hge⟩ := henv e he
      obtain ⟨⟨k, nonce, sig, ⟨g0, hg0, hk⟩, hdk, hver⟩, offers', ⟨pid', nonce', hdr⟩, o', ho', hoc'⟩ := hev
      rw [hge] at hg0
      cases hg0
      obtain ⟨k', ⟨g1, hg1, hk'⟩, hver'⟩ := hsb
      rw [hg'] at hg1
      cases hg1
      refine (C64 E cid gid pid hcidp).2 ⟨r, req', ack', hr, hrc, ⟨q, a, _, _, hq, hans, hda⟩, ⟨⟨pub, hpub, ?_⟩, pid', nonce', offers', ?_, o', ho', hoc'⟩,
        g, k, nonce, sig, hg, hgc, hk, ⟨k', hk', ?_⟩, hdk, ?_⟩
      · refine under_verifies hb.correct hP' hu halg ?_
        intro kp v hkv
        exact hkp kp v (hkey (p1 ++ [e']) (by rw [hsplit]; exact ⟨p2, by simp⟩) _ hkv)
      · rw [hE, ← (hsane e he).1]
        exact hdr
      · rw [← hP']
        exact hver'
      · rw [← hP]
        exact hver

/-! ### the hypotheses can be met -/

/-- A client of the provider of `Lemmas/ProviderExamples` after it published an offer. -/
def exAckEnv : Env Unit :=
  { exEnv with
    gateway := fun i => if i = Merkle.exId 3 then some Gateway.exRecord else none
    provider := fun i => if i = Merkle.exId 1 then some exRecord else none
    exchange := fun _ _ m => providerReply (serve Provider.exEnv (serveAll newCore Provider.exHist).1 .offerAck m).2 }

theorem exKeyOf : ∀ p, p <+: Provider.exHist → (serveAll newCore p).1.key = none ∨ (serveAll newCore p).1.key = some (Offer.exKey, 1) := by
  have h1 : (serveAll newCore Provider.exReady).1.key = some (Offer.exKey, 1) := by decide +kernel
  have h2 : (serveAll newCore Provider.exHist).1.key = some (Offer.exKey, 1) := by decide +kernel
  intro p hp
  have hl := hp.length_le
  have hp' := List.prefix_iff_eq_take.1 hp
  have : Provider.exHist.length = 2 := rfl
  have h3 : p.length = 0 ∨ p.length = 1 ∨ p.length = 2 := by omega
  rcases h3 with h3 | h3 | h3
  · rw [List.eq_nil_of_length_eq_zero h3]
    exact Or.inl rfl
  · rw [h3] at hp'
    rw [hp']
    exact Or.inr h1
  · rw [h3] at hp'
    rw [hp']
    exact Or.inr h2

theorem exAckBehind : BehindProvider exAckEnv exRecord Provider.exEnv (serveAll newCore Provider.exHist).1 where
  served := fun m _ => rfl
  prims := rfl
  correct := Crypto.toy_correct
  protocol := defaultProtocolOk
  signs := Provider.exGood_signs rfl Provider.exHist_good
  private_ := by
    intro k v h
    rcases exKeyOf Provider.exHist (List.prefix_refl _) with h' | h' <;> rw [h'] at h
    · cases h
    · cases h
      exact Offer.exKey_private
  public_ := by
    refine ⟨Gateway.exPub, exRecord_key, rfl, ?_⟩
    intro k v h
    rcases exKeyOf Provider.exHist (List.prefix_refl _) with h' | h' <;> rw [h'] at h
    · cases h
    · cases h
      decide +kernel

theorem exGateway_complete : CompleteGateway Gateway.exRecord :=
  ⟨by decide, by decide, by decide, by decide, by decide, by decide, by decide, ⟨Gateway.exPub, Gateway.exRecord_key⟩, Gateway.exPub, Gateway.exRecord_key⟩

/-- The client of the example confirms the acknowledgement. -/
theorem exAck_found : (findAck exAckEnv (Merkle.exId 2) (Merkle.exId 3) (Merkle.exId 1)).2 = .ok true := by
  obtain ⟨req, offers, o, h1, h2, h3, h4⟩ := Provider.exPublish_asked
  exact C64_honest_partial Provider.exReady [] Provider.exEnv Provider.exPublish Merkle.toyHash Provider.exReady_sane (Provider.exPublish_sane (Or.inr rfl)) (by simp)
    (Merkle.exId 3) (Merkle.exId_proper 3) req h1 (fun n => ⟨Provider.exAck req, rfl, Provider.exAck_signed req, Provider.exAck_acknowledges rfl rfl req⟩)
    offers h2 o h3 (Merkle.exId 2) (Merkle.exId_proper 2) h4 (by
      intro e he
      have : e ∈ Provider.exHist := he
      simp [Provider.exHist] at this
      rcases this with rfl | rfl <;> simp)
    exAckEnv rfl defaultProtocolOk Gateway.exRecord (by simp [exAckEnv]) exGateway_complete (by
      intro e he
      have : e ∈ Provider.exHist := he
      simp [Provider.exHist] at this
      rcases this with rfl | rfl <;> exact ⟨rfl, by simp [Provider.exEnv, Provider.exAlone]⟩)
    (by
      intro p hp kv hkv
      rcases exKeyOf p hp with h | h <;> rw [h] at hkv
      · cases hkv
      · rw [← hkv]
        rcases exKeyOf Provider.exHist (List.prefix_refl _) with h' | h'
        · have h2 : (serveAll newCore Provider.exHist).1.key = some (Offer.exKey, 1) := by decide +kernel
          exact h2
        · exact h')
    (Merkle.exId 1) exRecord (by simp [exAckEnv]) exRecord_completeProvider Provider.exEnv exAckBehind

/-- A provider that shows messages which nobody signed, or says that it has none. -/
theorem exShown (found : Bool) : ∃ E : Env Unit, E.provider (Merkle.exId 9) = some exRecord ∧
    ShownBy E exRecord (Merkle.exId 2) (Merkle.exId 3) found Message.exMsg Message.exMsg ∧
    ∀ f request ack, ShownBy E exRecord (Merkle.exId 2) (Merkle.exId 3) f request ack → ack.signature = [] := by
  have hd := C30_clientDHTOfferAckResponse Message.defaultProtocol defaultProtocolOk (some (Merkle.exId 2)) (some (Merkle.exId 3)) found (some Message.exMsg)
    (some Message.exMsg) (exIdOk 2) (exIdOk 3) ⟨_, rfl, Message.exMsg_inRange⟩ ⟨_, rfl, Message.exMsg_inRange⟩
  obtain ⟨q, hq, -⟩ := C30_clientDHTOfferAckRequest Message.defaultProtocol defaultProtocolOk (some (Merkle.exId 2)) (some (Merkle.exId 3)) (exIdOk 2) (exIdOk 3)
  refine ⟨exAnswering clientDHTOfferAckResponse (some (Merkle.exId 2), some (Merkle.exId 3), found, some Message.exMsg, some Message.exMsg), by simp [exAnswering, exEnv],
    ⟨q, _, _, _, hq, exAnswering_answered hd 0 q, Provider.exMsg_decode hd⟩, ?_⟩
  rintro f request ack ⟨m, a, _, _, -, ⟨ha, -⟩, hda⟩
  simp only [exAnswering, Option.some.injEq] at ha
  rw [← ha, Provider.exMsg_decode hd] at hda
  simp only [Res.ok.injEq, Prod.mk.injEq, Option.some.injEq] at hda
  rw [← hda.2.2.2.2]
  rfl

example : ∃ E : Env Unit, (findAck E (Merkle.exId 2) (Merkle.exId 3) (Merkle.exId 9)).2 = .ok false := by
  obtain ⟨E, h1, h2, -⟩ := exShown false
  exact ⟨E, C64_not_found E _ _ _ _ _ _ h1 exRecord_completeProvider h2⟩

example : ∃ E : Env Unit, (findAck E (Merkle.exId 2) (Merkle.exId 3) (Merkle.exId 9)).2 ≠ .ok true ∧
    ShownBy E exRecord (Merkle.exId 2) (Merkle.exId 3) true Message.exMsg Message.exMsg := by
  obtain ⟨E, h1, h2, h3⟩ := exShown true
  exact ⟨E, C64_unsigned E _ _ _ (Merkle.exId_proper 2) _ h1 h3, h2⟩

end FcRetrieval.Client

namespace FcRetrieval.Gateway
open FcRetrieval.Wire (encode decode)
open FcRetrieval.Codecs
open FcRetrieval.Merkle (exId exId_proper)

/-- A provider that lists one publish request. -/
example : ∃ resp acks a0 a, encode gatewayListDHTOfferAck exEnv.pr acks = .ok a0 ∧ Message.sign exEnv.P exCore.key exCore.keyVersion a0 = (a, true) ∧
    .message a ∈ (listOffers { exEnv with exchange := fun _ _ => some resp } exCore (exId 9) (.ok Message.exMsg)).2.1 ∧ ∀ x ∈ acks, x.signature = [] := by
  obtain ⟨m, h1, ⟨_, _, hi, hl, hkey, hvm⟩, hin⟩ := exSigned_inRange (C30_providerPublishDHTOfferRequest exEnv.H exEnv.pr defaultProtocolOk (some (exId 9)) 7 [exSingle]
    (exIdOk 9) ⟨by decide, by decide⟩ exSinglesOk (by intro o ho; simp at ho; subst ho; rfl) ⟨by decide, by decide⟩) ⟨by decide, by decide⟩ exEnv.provider (exId 9)
    (by simp [exEnv])
  obtain ⟨resp, g1, ⟨_, _, hi', hl', hkey', hvr⟩, -⟩ := exSigned_inRange (C30_gatewayListDHTOfferResponse exEnv.pr defaultProtocolOk [m] (by simpa using hin))
    ⟨by decide, by decide⟩ exEnv.provider (exId 9) (by simp [exEnv])
  obtain ⟨ack, a, sig, r1, r2, r3, r4, -⟩ := C98_list_refuted { exEnv with exchange := fun _ _ => some resp } defaultProtocolOk exCore exCore_signs (exId 9) Message.exMsg
    resp m exRecord exPub (by simp [exEnv]) exRecord_key (fun _ => rfl) hvr g1 hvm (some (exId 9)) 7 exSingle h1 exSingle_unsigned (by decide)
  obtain ⟨acks, a0, s1, s2, s3⟩ := C64_listed_refuted { exEnv with exchange := fun _ _ => some resp } exCore (exId 9) (.ok Message.exMsg) ack r2
  exact ⟨resp, acks, a0, ack, s1, s2, r2, s3⟩

end FcRetrieval.Gateway
