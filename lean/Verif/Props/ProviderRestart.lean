import Verif.Model.ProviderRestart
import Verif.Props.ClientAck
/-!
# C184: a provider that is stopped and started again

What a provider knows of its offers, of the gateways that have them and of their acknowledgements does not outlive the process.
-/

set_option linter.unusedSimpArgs false

namespace FcRetrieval.Provider
open FcRetrieval.Ids (Id)
open FcRetrieval.Message (Msg)
open FcRetrieval.Wire FcRetrieval.Codecs FcRetrieval.OfferMgr

theorem afterLives_eq (earlier : List (List (Env × Kind × Msg))) (now : List (Env × Kind × Msg)) : afterLives earlier now = (serveAll newCore now).1 := by
  unfold afterLives
  congr 2
  have : ∀ (Ls : List (List (Env × Kind × Msg))), Ls.foldl (fun c L => startAfter (serveAll c L).1) newCore = newCore := by
    intro Ls
    induction Ls with
    | nil => rfl
    | cons L Ls ih => exact ih
  exact this earlier

/-- Nothing published: no records, no acknowledgements, no DHT offers. -/
def Blank (c : Core) : Prop := c.sent = [] ∧ c.acks = [] ∧ c.offers.dht = []

theorem rangeGo_blank {R : Type} (H512 : Merkle.Hash) (deref : R → Offer.CidOffer) (order : DigestMap R → DigestMap R) (t : Clock) (max : Int) :
    ∀ (entries : List (List Char)) (r : Storage R × List Offer.CidOffer × Bool), rangeGo H512 deref order t max entries [] [] = .ok r → r = ([], [], false)
  | [], r, h => by simp [rangeGo] at h; exact h.symm
  | e :: es, r, h => by
    unfold rangeGo at h
    split at h
    · cases h; rfl
    · simp only [OfferMgr.get, bind, Except.bind, mget, appendUpTo] at h
      exact rangeGo_blank H512 deref order t max es r h

theorem getDhtRange_blank {R : Type} (H512 : Merkle.Hash) (deref : R → Offer.CidOffer) (order : DigestMap R → DigestMap R) (t : Clock) (m m' : Mgr R) (a b : Id) (max : Int)
    (offers : List Offer.CidOffer) (found : Bool) (hm : m.dht = []) (h : getDhtRange H512 deref order t m a b max = .ok (m', offers, found)) :
    m'.dht = [] ∧ offers = [] ∧ found = false := by
  unfold getDhtRange at h
  rw [hm] at h
  simp only [bind, Except.bind] at h
  split at h
  · cases h
  · rename_i x hx
    split at h
    · cases h
      exact ⟨rfl, rfl, rfl⟩
    · split at h
      · cases h
      · rename_i y hy
        have := rangeGo_blank _ _ _ _ _ _ _ hy
        subst this
        cases h
        exact ⟨rfl, rfl, rfl⟩

theorem recordListed_blank (gid : Id) (req ack : Msg) (c : Core) (h : c.acks = []) (os : List Offer.CidOffer) : (recordListed gid req ack c os).1 = c := by
  cases os with
  | nil => rfl
  | cons o os =>
    unfold recordListed
    split
    · rfl
    · rw [h]; rfl

theorem takeAcks_blank (E : Env) (k : Crypto.KeyPair) (gid : Id) (c : Core) (h : c.acks = []) : ∀ l, (takeAcks E k gid c l).1 = c
  | [] => rfl
  | (req, ack) :: rest => by
    unfold takeAcks
    split
    · rfl
    · rfl
    · split
      · split
        · rfl
        · rfl
        · rename_i offers _
          split
          · rename_i c' hr
            have := recordListed_blank gid req ack c h offers
            rw [hr] at this
            exact this
          · rename_i c' hr
            have := recordListed_blank gid req ack c h offers
            rw [hr] at this
            simp only at this
            subst this
            exact takeAcks_blank E k gid c' h rest
      · rfl

theorem listDht_blank (E : Env) (c : Core) (m : Msg) (h : Blank c) : Blank (listDht E c m).1 ∧
    (ProtocolOk E.pr → ∀ r, .message r ∈ (listDht E c m).2 → decode gatewayListDHTOfferResponse r = .ok []) := by
  unfold listDht
  split
  · exact ⟨h, fun _ r hr => by simp at hr⟩
  · exact ⟨h, fun _ r hr => by simp at hr⟩
  · split
    · split
      · split
        · exact ⟨h, fun _ r hr => by simp at hr⟩
        · rename_i mgr offers found hg
          obtain ⟨g1, g2, g3⟩ := getDhtRange_blank _ _ _ _ _ _ _ _ _ _ _ h.2.2 hg
          subst g2 g3
          have hc' : Blank { c with offers := mgr } := ⟨h.1, h.2.1, g1⟩
          have hfin : ∀ (k : Crypto.KeyPair) (gid : Id) (msgs : List Msg) (reply : Option Msg),
              (finishListing E k gid { c with offers := mgr } msgs reply).1 = { c with offers := mgr } ∧ ∀ r, .message r ∉ (finishListing E k gid { c with offers := mgr } msgs reply).2 := by
            intro k gid msgs reply
            have htm : ∀ (c : Core) l r, .message r ∉ (takeAcks E k gid c l).2 := by
              intro c l
              induction l generalizing c with
              | nil => intro r; simp [takeAcks]
              | cons x l ih =>
                intro r
                unfold takeAcks
                split
                · simp
                · simp
                · split
                  · split
                    · simp
                    · simp
                    · split
                      · simp
                      · exact ih _ r
                  · simp
            unfold finishListing
            split
            · exact ⟨rfl, by simp⟩
            · split
              · split
                · exact ⟨rfl, by simp⟩
                · split
                  · exact ⟨rfl, by simp⟩
                  · exact ⟨takeAcks_blank E k gid { c with offers := mgr } h.2.1 _, htm _ _⟩
              · exact ⟨rfl, by simp⟩
          dsimp only
          split
          · rename_i out ho
            simp [listMessages] at ho
          · rename_i msgs hms
            simp [listMessages] at hms
            subst hms
            split
            · rename_i r hr
              refine ⟨?_, fun hpr r' hr' => ?_⟩
              · dsimp only
                rw [(hfin _ _ _ _).1]; exact hc'
              · rcases List.mem_cons.1 hr' with e | e
                · cases e
                  exact (respond_decode (b1 := [.invalid]) (b2 := [.invalid]) (by simp) (by simp) (C30_gatewayListDHTOfferResponse E.pr hpr [] (by simp)) (by rw [hr]; simp)).2
                · exact absurd e ((hfin _ _ _ _).2 r')
            · rename_i hno
              refine ⟨hc', fun hpr r' hr' => ?_⟩
              exact (hno _ (respond_mem (by simp) (by simp) hr').1).elim
      · exact ⟨h, fun _ r hr => by simp at hr⟩
    · exact ⟨h, fun _ r hr => by simp at hr⟩
    · exact ⟨h, fun _ r hr => by simp at hr⟩

theorem serve_blank (E : Env) (c : Core) (k : Kind) (m : Msg) (h : Blank c) (h1 : k ≠ .publishDht) (h2 : k ≠ .publishGroup) : Blank (serve E c k m).1 := by
  cases k with
  | publishDht => exact absurd rfl h1
  | publishGroup => exact absurd rfl h2
  | listDht => exact (listDht_blank E c m h).1
  | initialise => show Blank (initialise E c m).1; unfold initialise; split <;> first | exact h | (split <;> exact h)
  | initialiseV2 => show Blank (initialiseV2 E c m).1; unfold initialiseV2; split <;> first | exact h | (split <;> exact h)
  | forceRefresh =>
    show Blank (forceRefresh E c m).1; unfold forceRefresh; split
    · exact h
    · split <;> first | exact h | (split <;> exact h)
  | getPublished =>
    show Blank (getPublished E c m).1; unfold getPublished; split
    · exact h
    · split <;> exact h
  | offerAck =>
    show Blank (offerAck E c m).1; unfold offerAck; split
    · exact h
    · exact h
    · split
      · split <;> exact h
      · exact h
  | notifyGroup =>
    show Blank (notifyGroup E c m).1; unfold notifyGroup; split
    · exact h
    · exact h
    · split <;> exact h

theorem serveAll_blank : ∀ (hist : List (Env × Kind × Msg)) (c : Core), Blank c → (∀ e ∈ hist, e.2.1 ≠ .publishDht ∧ e.2.1 ≠ .publishGroup) → Blank (serveAll c hist).1
  | [], c, h, _ => h
  | (E, k, m) :: hist, c, h, hn => by
    have := hn (E, k, m) (by simp)
    exact serveAll_blank hist _ (serve_blank E c k m h this.1 this.2) (fun e he => hn e (by simp [he]))

/-- **C184 is false**: whatever a provider published in earlier lives, and whatever else it is asked in this one, set up again or not: until it publishes again,
its answer to its admin is that it has published nothing, to a gateway that it has no offers in whatever range, and to a client that it has no acknowledgement for whatever
CID and gateway. -/
theorem C184_forgets_refuted (earlier : List (List (Env × Kind × Msg))) (now : List (Env × Kind × Msg)) (hnow : ∀ e ∈ now, e.2.1 ≠ .publishDht ∧ e.2.1 ≠ .publishGroup)
    (E : Env) (hpr : ProtocolOk E.pr) (horder : ∀ l, (E.orderSent l).Perm l) (m r : Msg) :
    (.message r ∈ (serve E (afterLives earlier now) .getPublished m).2 → decode (providerAdminGetPublishedOfferResponse E.H) r = .ok (false, [])) ∧
    (.message r ∈ (serve E (afterLives earlier now) .listDht m).2 → decode gatewayListDHTOfferResponse r = .ok []) ∧
    ∀ cid gid, decode clientDHTOfferAckRequest m = .ok (some cid, some gid) → CanSign E (afterLives earlier now) →
      ∃ a, (serve E (afterLives earlier now) .offerAck m).2 = [.message a] ∧ ∃ req ack, decode clientDHTOfferAckResponse a = .ok (some cid, some gid, false, some req, some ack) := by
  rw [afterLives_eq]
  have hb : Blank (serveAll newCore now).1 := serveAll_blank now newCore ⟨rfl, rfl, rfl⟩ hnow
  refine ⟨fun h => ?_, (listDht_blank E _ m hb).2 hpr r, fun cid gid hq hs => ?_⟩
  · simp only [serve, getPublished] at h
    split at h
    · simp at h
    · split at h
      · simp at h
      · simp at h
      · rename_i ids hids
        have h0 : E.orderSent [] = [] := (horder []).eq_nil
        have hnil : (if ids.length > 0 then ids.flatMap (fun id => (mget (serveAll newCore now).1.sent (Ids.toStr id)).getD []) else (E.orderSent (serveAll newCore now).1.sent).flatMap (fun e => e.2)) = [] := by
          rw [hb.1]
          split
          · simp [mget]
          · rw [h0]; rfl
        simp only [hnil] at h
        exact (respond_decode (by simp) (by simp) (C30_providerAdminGetPublishedOfferResponse E.H E.pr hpr false [] (by simp)) h).2
  · obtain ⟨hc, hg⟩ := ackRequest_ids hq
    have hsign := hs
    obtain ⟨id, k, v, hid, hp, -, -⟩ := hsign
    obtain ⟨m1, e1, -⟩ := C30_providerPublishDHTOfferRequest E.H E.pr hpr (serveAll newCore now).1.id 0 [] ⟨id, hid, hp⟩ ⟨by decide, by decide⟩ (by simp) (by simp) ⟨by decide, by decide⟩
    obtain ⟨m2, e2, -⟩ := C30_providerPublishDHTOfferResponse E.pr hpr 0 [] ⟨by decide, by decide⟩
    show ∃ r, (offerAck E _ m).2 = [.message r] ∧ _
    unfold offerAck
    rw [hq, e1, e2, hb.2.1]
    dsimp only [mget, Option.bind]
    obtain ⟨m', e3, -, e4⟩ := respond_writes (b1 := [.panic]) (b2 := [.status 500]) hs (C30_clientDHTOfferAckResponse E.pr hpr (some cid) (some gid) false (some m1) (some m2)
      ⟨cid, rfl, hc _ rfl⟩ ⟨gid, rfl, hg _ rfl⟩ ⟨m1, rfl, encode_range hpr (show inI32 302 from ⟨by decide, by decide⟩) e1 m1.signature⟩
      ⟨m2, rfl, encode_range hpr (show inI32 303 from ⟨by decide, by decide⟩) e2 m2.signature⟩)
    exact ⟨m', e3, m1, m2, e4⟩

/-- **C184 is false, seen by a client**: a provider was stopped and started again and set up with its key; it has not published anything in this life.  A client that asks
for the acknowledgement of whatever offer of an earlier life is told that there is none. -/
theorem C184_client_refuted {Sig : Type} (earlier : List (List (Env × Kind × Msg))) (now : List (Env × Kind × Msg)) (hnow : ∀ e ∈ now, e.2.1 ≠ .publishDht ∧ e.2.1 ≠ .publishGroup)
    (C : Client.Env Sig) (hprC : ProtocolOk C.pr) (pid : Id) (r : Register.Record) (hr : C.provider pid = some r) (hrc : Client.CompleteProvider r) (G : Env)
    (hG : ∀ l, (G.orderSent l).Perm l) (hb : Client.BehindProvider C r G (afterLives earlier now)) (cid gw : Id) (hc : cid.length = 32) (hg : gw.length = 32) :
    (Client.findAck C cid gw pid).2 = .ok false := by
  obtain ⟨q, hq, hqt, -, -, hqd⟩ := C30_clientDHTOfferAckRequest C.pr hprC (some cid) (some gw) ⟨cid, rfl, hc⟩ ⟨gw, rfl, hg⟩
  have hqd' : decode clientDHTOfferAckRequest q = .ok (some cid, some gw) := (hqd q.signature).2
  obtain ⟨a, h1, req, ack, h2⟩ := (C184_forgets_refuted earlier now hnow G hb.protocol hG q q).2.2 cid gw hqd' hb.signs
  obtain ⟨pub, hpub, halg, hpp⟩ := hb.public_
  have hsent : Client.SignedBy C r a := by
    refine ⟨pub, hpub, Client.under_verifies hb.correct hb.prims ((serve_under (k := .offerAck) (m := q)).2 a (Or.inl (by rw [h1]; simp))) halg ?_⟩
    rw [((serve_under (E := G) (c := afterLives earlier now) (k := .offerAck) (m := q)).1 (by simp) (by simp)).2]
    exact fun kp v hk => ⟨hb.private_ kp v hk, hpp kp v hk⟩
  refine Client.C64_not_found C cid gw pid r req ack hr hrc ⟨q, a, _, _, hq, ⟨?_, hsent⟩, h2⟩
  rw [hb.served q hqt, h1]
  rfl

/-- The provider of `exHist` publishes an offer, a client confirms the acknowledgement; the provider is started again and set up again, and the client is told that there is none. -/
example : (Client.findAck Client.exAckEnv (Merkle.exId 2) (Merkle.exId 3) (Merkle.exId 1)).2 = .ok true ∧
    (Client.findAck { Client.exAckEnv with exchange := fun _ _ m => Client.providerReply (serve exEnv (afterLives [exHist] exReady) .offerAck m).2 }
      (Merkle.exId 2) (Merkle.exId 3) (Merkle.exId 1)).2 = .ok false := by
  refine ⟨Client.exAck_found, ?_⟩
  have hkey : (afterLives [exHist] exReady).key = some (Offer.exKey, 1) := by rw [afterLives_eq]; decide +kernel
  have hid : (afterLives [exHist] exReady) = (serveAll newCore exReady).1 := afterLives_eq _ _
  refine C184_client_refuted [exHist] exReady ?_ _ defaultProtocolOk (Merkle.exId 1) Client.exRecord (by simp [Client.exAckEnv]) Client.exRecord_completeProvider exEnv ?_ ?_ _ _
    (Merkle.exId_proper 2) (Merkle.exId_proper 3)
  · intro e he
    simp [exReady] at he
    subst he
    simp
  · intro l; exact .refl _
  · refine ⟨fun m _ => rfl, rfl, Crypto.toy_correct, defaultProtocolOk, ?_, ?_, ?_⟩
    · rw [hid]; exact exReady_use.1
    · intro k v h
      rw [hkey] at h; cases h
      exact Offer.exKey_private
    · refine ⟨Gateway.exPub, Client.exRecord_key, rfl, ?_⟩
      intro k v h
      rw [hkey] at h; cases h
      decide +kernel

end FcRetrieval.Provider
