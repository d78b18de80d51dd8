import Verif.Lemmas.GatewayConc
/-!
# A handler that runs alone
-/

set_option linter.unusedSimpArgs false

namespace FcRetrieval.Gateway.Conc
open FcRetrieval.Ids (Id)
open FcRetrieval.Message (Msg)
open FcRetrieval.Payment (Addr Voucher ChainView RecvOut Mgr inC)
open FcRetrieval.Wire (encode decode)
open FcRetrieval.Codecs
open FcRetrieval.Offer (CidOffer SubOffer)
open FcRetrieval.Wire (Codec)

variable {Sig : Type}

/-- Running alone, the program ends like this. -/
def Ends (E : Env Sig) (c : Core Sig) (p : Prog Sig) (r : Core Sig × List (Out Sig)) : Prop := ∃ n, alone E n c p = (r.1, .done r.2)

theorem ends_done {E : Env Sig} {c : Core Sig} {o : List (Out Sig)} : Ends E c (.done o) (c, o) := ⟨0, rfl⟩

theorem Ends.step {E : Env Sig} {c : Core Sig} {p : Prog Sig} {r : Core Sig × List (Out Sig)}
    (h : Ends E (step E E.chain c p).1 (step E E.chain c p).2.1 r) : Ends E c p r := by
  obtain ⟨n, hn⟩ := h
  exact ⟨n + 1, hn⟩

theorem ends_find {E : Env Sig} {c : Core Sig} {cid : Id} {k : Res (List CidOffer × Bool) → Prog Sig} {r : Core Sig × List (Out Sig)}
    (h : Ends E c (k (getOffers E c cid)) r) : Ends E c (.find cid k) r := Ends.step h

theorem ends_lookup {E : Env Sig} {c : Core Sig} {cid : Option Id} {ds : List (List Char)} {k : Res (List SubOffer) → Prog Sig} {r : Core Sig × List (Out Sig)}
    (h : Ends E c (k (offersByDigest E c cid ds)) r) : Ends E c (.lookup cid ds k) r := Ends.step h

theorem ends_prices {E : Env Sig} {c : Core Sig} {k : Int → Int → Prog Sig} {r : Core Sig × List (Out Sig)}
    (h : Ends E c (k c.searchPrice c.offerPrice) r) : Ends E c (.prices k) r := Ends.step h

theorem ends_reprice {E : Env Sig} {c : Core Sig} {n : Nat} {k : Prog Sig} {r : Core Sig × List (Out Sig)}
    (h : Ends E { c with offerPrice := c.offerPrice * n } k r) : Ends E c (.reprice n k) r := Ends.step h

theorem ends_peers {E : Env Sig} {c : Core Sig} {run : Core Sig → Core Sig × List (Out Sig) × Option Contacts} {k : List (Out Sig) → Option Contacts → Prog Sig}
    {r : Core Sig × List (Out Sig)} (h : Ends E (run c).1 (k (run c).2.1 (run c).2.2) r) : Ends E c (.peers run k) r := Ends.step h

theorem ends_receive {E : Env Sig} {c : Core Sig} {ch v : List Char} {k : RecvOut → Prog Sig} {r : Core Sig × List (Out Sig)}
    (h : Ends E (receive E c ch v).1 (k (receive E c ch v).2) r) : Ends E c (.receive ch v k) r := by
  apply Ends.step
  simp only [Gateway.receive, Payment.receive] at h
  simp only [Conc.step]
  cases hv : E.readVoucher v with
  | none => simpa [hv] using h
  | some w => cases hcv : E.chain (String.ofList ch) with
    | none => simpa [hv, hcv] using h
    | some cv =>
      simp only [hv, hcv] at h
      cases hin : c.payment.inbound (String.ofList ch) with
      | none =>
        simp only [hin] at h
        exact Ends.step h
      | some s => simpa [hin] using h

theorem respond_key {α : Type} {E : Env Sig} {c c' : Core Sig} (codec : Codec α) (b1 b2 : Out Sig) (a : α) (h1 : c'.key = c.key) (h2 : c'.keyVersion = c.keyVersion) :
    respond E c' codec b1 b2 a = respond E c codec b1 b2 a := by simp only [respond, h1, h2]

theorem getOffers_receive {E : Env Sig} {c : Core Sig} {ch v : List Char} (cid : Id) : getOffers E (receive E c ch v).1 cid = getOffers E c cid := rfl

theorem offersByDigest_db {E : Env Sig} {c c' : Core Sig} (h : c'.db = c.db) (cid : Option Id) : ∀ ds, offersByDigest E c' cid ds = offersByDigest E c cid ds
  | [] => rfl
  | d :: ds => by
    simp only [offersByDigest, h]
    cases SqlOffer.getByDigest E.H E.order E.off E.now c.db (readDigest E d) with
    | ok o => cases o with
      | none => rfl
      | some o => cases cid with
        | none => rfl
        | some cid => simp only [offersByDigest_db h (some cid) ds]
    | err => rfl
    | panic => rfl

theorem ends_standardV2 (E : Env Sig) (c : Core Sig) (m : Msg) : Ends E c (standardV2 E c m) (Gateway.standardV2 E c m) := by
  unfold standardV2 Gateway.standardV2
  cases decode clientStandardDiscoverRequestV2 m with
  | panic => exact ends_done
  | err => exact ends_done
  | ok a =>
    obtain ⟨cid, nonce, ttl, ch, v⟩ := a
    dsimp only
    split
    · exact ends_done
    cases cid with
    | none => exact ends_done
    | some id =>
      refine ends_find ?_
      dsimp only
      cases getOffers E c id with
      | err => exact ends_done
      | panic => exact ends_done
      | ok a =>
        obtain ⟨offers, found⟩ := a
        refine ends_receive ?_
        have hp : (receive E c ch v).1.searchPrice = c.searchPrice := rfl
        generalize hr : receive E c ch v = r at hp ⊢
        obtain ⟨c', o⟩ := r
        cases o with
        | panic => exact ends_done
        | error => exact ends_done
        | credited a =>
          refine ends_prices ?_
          simp only at hp
          dsimp only
          rw [hp]
          split
          · cases digests E offers <;> exact ends_done
          · exact ends_done

theorem ends_standardOffer (E : Env Sig) (c : Core Sig) (m : Msg) : Ends E c (standardOffer E c m) (Gateway.standardOffer E c m) := by
  unfold standardOffer Gateway.standardOffer
  cases decode clientStandardDiscoverOfferRequest m with
  | panic => exact ends_done
  | err => exact ends_done
  | ok a =>
    obtain ⟨cid, nonce, ttl, ds, ch, v⟩ := a
    dsimp only
    split
    · exact ends_done
    refine ends_receive ?_
    have hp : (receive E c ch v).1.offerPrice = c.offerPrice := rfl
    have hd : (receive E c ch v).1.db = c.db := rfl
    generalize hr : receive E c ch v = r at hp hd ⊢
    obtain ⟨c', o⟩ := r
    cases o with
    | panic => exact ends_done
    | error => exact ends_done
    | credited a =>
      refine ends_prices ?_
      simp only at hp hd
      dsimp only
      rw [hp]
      split
      · refine ends_lookup ?_
        rw [offersByDigest_db hd]
        cases offersByDigest E c cid ds <;> exact ends_done
      · exact ends_done

theorem ends_peerDhtV2 (E : Env Sig) (c : Core Sig) (m : Msg) : Ends E c (peerDhtV2 E c m) (Gateway.peerDhtV2 E c m) := by
  unfold peerDhtV2 Gateway.peerDhtV2
  cases decode gatewayDHTDiscoverRequestV2 m with
  | panic => exact ends_done
  | err => exact ends_done
  | ok a =>
    obtain ⟨gw, cid, nonce, ttl, ch, v⟩ := a
    dsimp only
    cases senderKey E E.gateway gw m with
    | panic => exact ends_done
    | err => exact ends_done
    | ok _ =>
      dsimp only
      split
      · exact ends_done
      refine ends_receive ?_
      have hp : (receive E c ch v).1.searchPrice = c.searchPrice := rfl
      have hd : ∀ id, getOffers E (receive E c ch v).1 id = getOffers E c id := fun _ => rfl
      generalize hr : receive E c ch v = r at hp hd ⊢
      obtain ⟨c', o⟩ := r
      cases o with
      | panic => exact ends_done
      | error => exact ends_done
      | credited a =>
        simp only at hp hd
        cases cid with
        | none => exact ends_done
        | some id =>
          refine ends_find ?_
          rw [hd]
          dsimp only
          cases getOffers E c id with
          | err => exact ends_done
          | panic => exact ends_done
          | ok a =>
            obtain ⟨offers, found⟩ := a
            dsimp only
            cases digests E offers with
            | err => exact ends_done
            | panic => exact ends_done
            | ok ds =>
              refine ends_prices ?_
              rw [hp]
              dsimp only
              split <;> exact ends_done

theorem ends_peerDhtOffer (E : Env Sig) (c : Core Sig) (m : Msg) : Ends E c (peerDhtOffer E c m) (Gateway.peerDhtOffer E c m) := by
  unfold peerDhtOffer Gateway.peerDhtOffer
  cases decode gatewayDHTDiscoverOfferRequest m with
  | panic => exact ends_done
  | err => exact ends_done
  | ok a =>
    obtain ⟨cid, nonce, ds, ch, v⟩ := a
    dsimp only
    refine ends_receive ?_
    have hp : (receive E c ch v).1.offerPrice = c.offerPrice := rfl
    have hd : (receive E c ch v).1.db = c.db := rfl
    generalize hr : receive E c ch v = r at hp hd ⊢
    obtain ⟨c', o⟩ := r
    cases o with
    | panic => exact ends_done
    | error => exact ends_done
    | credited a =>
      refine ends_reprice (ends_lookup ?_)
      simp only at hp hd
      rw [hp, offersByDigest_db (show ({ c' with offerPrice := c.offerPrice * ds.length } : Core Sig).db = c.db from hd)]
      dsimp only
      cases offersByDigest E c cid ds with
      | err => exact ends_done
      | panic => exact ends_done
      | ok os =>
        refine ends_prices ?_
        dsimp only
        split <;> exact ends_done

theorem payPeer_key {E : Env Sig} {c : Core Sig} {r : Addr} {a : Int} : (payPeer E c r a).1.key = c.key ∧ (payPeer E c r a).1.keyVersion = c.keyVersion := by
  unfold payPeer
  split
  · exact ⟨rfl, rfl⟩
  · exact ⟨rfl, rfl⟩
  · split <;> exact ⟨rfl, rfl⟩

theorem payPeerOffer_key {E : Env Sig} {c : Core Sig} {r : Addr} {a : Int} : (payPeerOffer E c r a).1.key = c.key ∧ (payPeerOffer E c r a).1.keyVersion = c.keyVersion := by
  unfold payPeerOffer
  repeat' split
  all_goals exact ⟨rfl, rfl⟩

theorem dhtV2Loop_key (E : Env Sig) (cid : Id) : ∀ (rs : List Register.Record) (c : Core Sig) (k : Contacts),
    (dhtV2Loop E cid c rs k).1.key = c.key ∧ (dhtV2Loop E cid c rs k).1.keyVersion = c.keyVersion
  | [], c, k => ⟨rfl, rfl⟩
  | r :: rs, c, k => by
    unfold dhtV2Loop
    split
    · exact ⟨rfl, rfl⟩
    · have h1 := payPeer_key (E := E) (c := c) (r := String.ofList r.address) (a := c.searchPrice)
      split <;> rename_i e1 <;> rw [e1] at h1
      · exact h1
      · split
        · exact h1
        · have := dhtV2Loop_key E cid rs
          exact ⟨(this _ _).1.trans h1.1, (this _ _).2.trans h1.2⟩

theorem dhtOfferLoop_key (E : Env Sig) (cid : Option Id) (nonce : Int) : ∀ (ids : List Id) (dss : List (List (List Char))) (c : Core Sig) (k : Contacts),
    (dhtOfferLoop E cid nonce c ids dss k).1.key = c.key ∧ (dhtOfferLoop E cid nonce c ids dss k).1.keyVersion = c.keyVersion
  | [], dss, c, k => by simp [dhtOfferLoop]
  | id :: ids, [], c, k => by simp [dhtOfferLoop]
  | id :: ids, ds :: dss, c, k => by
    unfold dhtOfferLoop
    split
    · exact ⟨rfl, rfl⟩
    · rename_i g _
      have h1 := payPeerOffer_key (E := E) (c := c) (r := String.ofList g.address) (a := (ds.length : Int) * c.offerPrice)
      have ih := dhtOfferLoop_key E cid nonce ids dss
      split <;> rename_i e1 <;> rw [e1] at h1
      · exact h1
      · split
        · exact h1
        · exact ⟨(ih _ _).1.trans h1.1, (ih _ _).2.trans h1.2⟩

theorem ends_dhtV2 (E : Env Sig) (c : Core Sig) (m : Msg) : Ends E c (dhtV2 E c m) (Gateway.dhtV2 E c m) := by
  unfold dhtV2 Gateway.dhtV2
  cases decode clientDHTDiscoverRequestV2 m with
  | panic => exact ends_done
  | err => exact ends_done
  | ok a =>
    obtain ⟨cid, nonce, ttl, num, inc, ch, v⟩ := a
    dsimp only
    split
    · exact ends_done
    cases cid with
    | none => exact ends_done
    | some id =>
      dsimp only
      cases E.near id num with
      | none => exact ends_done
      | some rs =>
        refine ends_receive ?_
        have hp : (receive E c ch v).1.searchPrice = c.searchPrice := rfl
        have hk : (receive E c ch v).1.key = c.key ∧ (receive E c ch v).1.keyVersion = c.keyVersion := ⟨rfl, rfl⟩
        generalize hr : receive E c ch v = r at hp hk ⊢
        obtain ⟨c', o⟩ := r
        cases o with
        | panic => exact ends_done
        | error => exact ends_done
        | credited a =>
          simp only at hp hk
          refine ends_prices (ends_peers ?_)
          rw [hp]
          dsimp only
          have hl := dhtV2Loop_key E id rs c' ⟨[], [], []⟩
          generalize hr2 : dhtV2Loop E id c' rs ⟨[], [], []⟩ = r2 at hl ⊢
          obtain ⟨c2, out, k⟩ := r2
          cases k with
          | none => exact ends_done
          | some k =>
            dsimp only at hl ⊢
            rw [respond_key clientDHTDiscoverResponseV2 _ _ _ (hl.1.trans hk.1) (hl.2.trans hk.2)]
            exact ends_done

theorem ends_dhtOffer (E : Env Sig) (c : Core Sig) (m : Msg) : Ends E c (dhtOffer E c m) (Gateway.dhtOffer E c m) := by
  unfold dhtOffer Gateway.dhtOffer
  cases decode clientDHTDiscoverOfferRequest m with
  | panic => exact ends_done
  | err => exact ends_done
  | ok a =>
    obtain ⟨cid, nonce, dss, ids, ch, v⟩ := a
    dsimp only
    refine ends_receive ?_
    have hp : (receive E c ch v).1.offerPrice = c.offerPrice := rfl
    have hk : (receive E c ch v).1.key = c.key ∧ (receive E c ch v).1.keyVersion = c.keyVersion := ⟨rfl, rfl⟩
    generalize hr : receive E c ch v = r at hp hk ⊢
    obtain ⟨c', o⟩ := r
    cases o with
    | panic => exact ends_done
    | error => exact ends_done
    | credited a =>
      simp only at hp hk
      refine ends_prices (ends_peers ?_)
      rw [hp]
      dsimp only
      have hl := dhtOfferLoop_key E cid nonce ids dss c' ⟨[], [], []⟩
      generalize hr2 : dhtOfferLoop E cid nonce c' ids dss ⟨[], [], []⟩ = r2 at hl ⊢
      obtain ⟨c2, out, k⟩ := r2
      cases k with
      | none => exact ends_done
      | some k =>
        dsimp only at hl ⊢
        rw [respond_key clientDHTDiscoverOfferResponse _ _ _ (hl.1.trans hk.1) (hl.2.trans hk.2)]
        exact ends_done

theorem ends_handler (E : Env Sig) (c : Core Sig) (p : Paid) (m : Msg) : Ends E c (handler E c p m) (serve E c p.kind m) := by
  cases p
  · exact ends_standardV2 E c m
  · exact ends_standardOffer E c m
  · exact ends_dhtV2 E c m
  · exact ends_dhtOffer E c m
  · exact ends_peerDhtV2 E c m
  · exact ends_peerDhtOffer E c m

/-- A handler depends on the gateway it was started in only by the key that it signs with. -/
theorem handler_key {E : Env Sig} {c c' : Core Sig} (h1 : c'.key = c.key) (h2 : c'.keyVersion = c.keyVersion) (p : Paid) (m : Msg) :
    handler E c' p m = handler E c p m := by
  cases p <;> simp only [handler, standardV2, standardOffer, dhtV2, dhtOffer, peerDhtV2, peerDhtOffer, respond, h1, h2]

/-- One thread runs to its end. -/
theorem thread_runs {E : Env Sig} {s : Sys Sig} {i : Nat} {p : Prog Sig} {r : Core Sig × List (Out Sig)} (h : s.threads[i]? = some p) (he : Ends E s.core p r) :
    ∃ sched, (sysRun E s sched).core = r.1 ∧ (sysRun E s sched).threads = s.threads.set i (.done r.2) := by
  obtain ⟨n, hn⟩ := he
  induction n generalizing s p with
  | zero =>
    simp only [alone, Prod.mk.injEq] at hn
    refine ⟨[], hn.1, ?_⟩
    simp only [sysRun, List.foldl_nil]
    rw [hn.2] at h
    obtain ⟨hlt, e⟩ := List.getElem?_eq_some_iff.1 h
    rw [← e, List.set_getElem_self]
  | succ n ih =>
    have hlt : i < s.threads.length := (List.getElem?_eq_some_iff.1 h).1
    have e1 : sysStep E s (.go i E.chain) = ⟨(step E E.chain s.core p).1, s.threads.set i (step E E.chain s.core p).2.1,
        ((step E E.chain s.core p).2.2.map fun e => (i, e)).toList ++ s.log⟩ := by simp only [sysStep, h]
    obtain ⟨sched, g1, g2⟩ := ih (s := sysStep E s (.go i E.chain)) (p := (step E E.chain s.core p).2.1)
      (by rw [e1]; simp [List.getElem?_set, hlt]) (by rw [e1]; exact hn)
    refine ⟨.go i E.chain :: sched, g1, ?_⟩
    show (sysRun E (sysStep E s (.go i E.chain)) sched).threads = _
    rw [g2, e1]
    simp

end FcRetrieval.Gateway.Conc
