import Verif.Spec.GatewayConc
import Verif.Lemmas.GatewayConcAlone
/-!
# Copies of one request that are served in rounds
-/

set_option linter.unusedSimpArgs false

namespace FcRetrieval.Gateway.Conc
open FcRetrieval.Ids (Id)
open FcRetrieval.Message (Msg)
open FcRetrieval.Payment (Addr Voucher ChainView RecvOut Mgr inC)
open FcRetrieval.Wire (encode decode)
open FcRetrieval.Codecs
open FcRetrieval.Offer (CidOffer SubOffer)
open FcRetrieval.GatewayLife (carries)

variable {Sig : Type}

theorem sysRun_append (E : Env Sig) (s : Sys Sig) (a b : List (Label Sig)) : sysRun E s (a ++ b) = sysRun E (sysRun E s a) b := by
  simp [sysRun, List.foldl_append]

theorem set_append_replicate {α : Type} (A : List α) (k : Nat) (P Q : α) :
    (A ++ List.replicate (k + 1) P).set A.length Q = (A ++ [Q]) ++ List.replicate k P := by
  simp [List.replicate_succ, List.set_append_right]

/-- One step of each of the threads that are left. -/
theorem round_from {E : Env Sig} {chain : Addr → Option ChainView} {c' : Core Sig} {P Q : Prog Sig} {e : Option Entry}
    (h' : step E chain c' P = (c', Q, e)) : ∀ (k : Nat) (A : List (Prog Sig)) (c : Core Sig) (log : List (Nat × Entry)),
    step E chain c P = (c', Q, e) →
    ∃ sched log', sysRun E ⟨c, A ++ List.replicate (k + 1) P, log⟩ sched = ⟨c', A ++ List.replicate (k + 1) Q, log'⟩
  | 0, A, c, log, h => by
    refine ⟨[.go A.length chain], (e.map fun e => (A.length, e)).toList ++ log, ?_⟩
    simp [sysRun, sysStep, h]
  | k + 1, A, c, log, h => by
    obtain ⟨sched, log', hs⟩ := round_from h' k (A ++ [Q]) c' ((e.map fun e => (A.length, e)).toList ++ log) h'
    refine ⟨.go A.length chain :: sched, log', ?_⟩
    have : (A ++ List.replicate (k + 1 + 1) P)[A.length]? = some P := by simp [List.replicate_succ]
    have e1 : sysStep E ⟨c, A ++ List.replicate (k + 1 + 1) P, log⟩ (.go A.length chain) =
        ⟨c', (A ++ [Q]) ++ List.replicate (k + 1) P, (e.map fun e => (A.length, e)).toList ++ log⟩ := by
      simp only [sysStep, this, h, set_append_replicate]
    show sysRun E (sysStep E _ _) sched = _
    rw [e1, hs]
    simp [List.replicate_succ]

/-- All threads get from one point to another, and the gateway with them. -/
def Reach (E : Env Sig) (n : Nat) (c : Core Sig) (P : Prog Sig) (c' : Core Sig) (Q : Prog Sig) : Prop :=
  ∀ log, ∃ sched log', sysRun E ⟨c, List.replicate (n + 1) P, log⟩ sched = ⟨c', List.replicate (n + 1) Q, log'⟩

theorem Reach.trans {E : Env Sig} {n : Nat} {c c1 c2 : Core Sig} {P P1 P2 : Prog Sig} (h : Reach E n c P c1 P1) (h' : Reach E n c1 P1 c2 P2) :
    Reach E n c P c2 P2 := by
  intro log
  obtain ⟨s1, l1, e1⟩ := h log
  obtain ⟨s2, l2, e2⟩ := h' l1
  exact ⟨s1 ++ s2, l2, by rw [sysRun_append, e1, e2]⟩

theorem Reach.refl {E : Env Sig} {n : Nat} {c : Core Sig} {P : Prog Sig} : Reach E n c P c P := fun log => ⟨[], log, rfl⟩

theorem reach_step {E : Env Sig} {n : Nat} {c c' : Core Sig} {P Q : Prog Sig} {e : Option Entry} {chain : Addr → Option ChainView}
    (h : step E chain c P = (c', Q, e)) (h' : step E chain c' P = (c', Q, e)) : Reach E n c P c' Q := by
  intro log
  obtain ⟨sched, log', hs⟩ := round_from h' n [] c log h
  exact ⟨sched, log', by simpa using hs⟩

theorem reach_still {E : Env Sig} {n : Nat} {c : Core Sig} {P Q : Prog Sig} {e : Option Entry}
    (h : step E E.chain c P = (c, Q, e)) : Reach E n c P c Q := reach_step h h

theorem recvCreate_again (verify : Sig → Addr → Payment.VBody → Bool) (m : Mgr Sig) (x : Addr) (w : Voucher Sig) (cv : ChainView) :
    Payment.recvCreate verify (Payment.recvCreate verify m x w cv).1 x w cv = Payment.recvCreate verify m x w cv := by
  unfold Payment.recvCreate
  simp only [Prod.mk.injEq, and_true]
  congr 1
  funext y
  simp only [Payment.put]
  split <;> rfl

theorem reach_receive {E : Env Sig} {n : Nat} {c : Core Sig} {ch v : List Char} {k : RecvOut → Prog Sig}
    (hu : c.payment.inbound (String.ofList ch) = none) : Reach E n c (.receive ch v k) (receive E c ch v).1 (k (receive E c ch v).2) := by
  simp only [Gateway.receive, Payment.receive]
  cases hv : E.readVoucher v with
  | none =>
    refine reach_still (e := some ⟨ch, v, .error⟩) ?_
    simp [step, hv]
  | some w => cases hcv : E.chain (String.ofList ch) with
    | none =>
      refine reach_still (e := some ⟨ch, v, .error⟩) ?_
      simp [step, hv, hcv]
    | some cv =>
      simp only [hu]
      refine Reach.trans (c1 := c) (P1 := .create ch v w cv k) (reach_still (e := none) ?_) (reach_step (chain := E.chain) (e := some ⟨ch, v, _⟩) rfl ?_)
      · simp [step, hv, hcv, hu]
      · simp only [step, recvCreate_again]

/-- The kinds of requests whose handlers change nothing but the payment they receive. -/
def Paid.quiet : Paid → Bool
  | .standardV2 | .standardOffer | .peerDhtV2 => true
  | _ => false

theorem reach_quiet (E : Env Sig) (n : Nat) (c : Core Sig) (p : Paid) (m : Msg) (hq : p.quiet = true) {ch v : List Char} (hc : carries p.kind m = some (ch, v))
    (hu : c.payment.inbound (String.ofList ch) = none) : Reach E n c (handler E c p m) (serve E c p.kind m).1 (.done (serve E c p.kind m).2) := by
  cases p with
  | dhtV2 => simp [Paid.quiet] at hq
  | dhtOffer => simp [Paid.quiet] at hq
  | peerDhtOffer => simp [Paid.quiet] at hq
  | standardV2 =>
    simp only [handler, Paid.kind, serve, carries] at hc ⊢
    unfold standardV2 Gateway.standardV2
    cases hreq : decode clientStandardDiscoverRequestV2 m with
    | panic => exact Reach.refl
    | err => exact Reach.refl
    | ok a =>
      obtain ⟨cid, nonce, ttl, ch', v'⟩ := a
      simp only [hreq, Option.some.injEq, Prod.mk.injEq] at hc
      obtain ⟨rfl, rfl⟩ := hc
      dsimp only
      split
      · exact Reach.refl
      cases cid with
      | none => exact Reach.refl
      | some id =>
        refine Reach.trans (reach_still (e := none) rfl) ?_
        dsimp only
        cases getOffers E c id with
        | err => exact Reach.refl
        | panic => exact Reach.refl
        | ok a =>
          obtain ⟨offers, found⟩ := a
          refine Reach.trans (reach_receive hu) ?_
          have hp : (receive E c ch' v').1.searchPrice = c.searchPrice := rfl
          generalize hr : receive E c ch' v' = r at hp ⊢
          obtain ⟨c', o⟩ := r
          cases o with
          | panic => exact Reach.refl
          | error => exact Reach.refl
          | credited a =>
            refine Reach.trans (reach_still (e := none) rfl) ?_
            simp only at hp
            dsimp only
            rw [hp]
            split
            · cases digests E offers <;> exact Reach.refl
            · exact Reach.refl
  | standardOffer =>
    simp only [handler, Paid.kind, serve, carries] at hc ⊢
    unfold standardOffer Gateway.standardOffer
    cases hreq : decode clientStandardDiscoverOfferRequest m with
    | panic => exact Reach.refl
    | err => exact Reach.refl
    | ok a =>
      obtain ⟨cid, nonce, ttl, ds, ch', v'⟩ := a
      simp only [hreq, Option.some.injEq, Prod.mk.injEq] at hc
      obtain ⟨rfl, rfl⟩ := hc
      dsimp only
      split
      · exact Reach.refl
      refine Reach.trans (reach_receive hu) ?_
      have hp : (receive E c ch' v').1.offerPrice = c.offerPrice := rfl
      have hd : (receive E c ch' v').1.db = c.db := rfl
      generalize hr : receive E c ch' v' = r at hp hd ⊢
      obtain ⟨c', o⟩ := r
      cases o with
      | panic => exact Reach.refl
      | error => exact Reach.refl
      | credited a =>
        refine Reach.trans (reach_still (e := none) rfl) ?_
        simp only at hp hd
        dsimp only
        rw [hp]
        split
        · refine Reach.trans (reach_still (e := none) rfl) ?_
          rw [offersByDigest_db hd]
          cases offersByDigest E c cid ds <;> exact Reach.refl
        · exact Reach.refl
  | peerDhtV2 =>
    simp only [handler, Paid.kind, serve, carries] at hc ⊢
    unfold peerDhtV2 Gateway.peerDhtV2
    cases hreq : decode gatewayDHTDiscoverRequestV2 m with
    | panic => exact Reach.refl
    | err => exact Reach.refl
    | ok a =>
      obtain ⟨gw, cid, nonce, ttl, ch', v'⟩ := a
      simp only [hreq, Option.some.injEq, Prod.mk.injEq] at hc
      obtain ⟨rfl, rfl⟩ := hc
      dsimp only
      cases senderKey E E.gateway gw m with
      | panic => exact Reach.refl
      | err => exact Reach.refl
      | ok _ =>
        dsimp only
        split
        · exact Reach.refl
        refine Reach.trans (reach_receive hu) ?_
        have hp : (receive E c ch' v').1.searchPrice = c.searchPrice := rfl
        have hd : ∀ id, getOffers E (receive E c ch' v').1 id = getOffers E c id := fun _ => rfl
        generalize hr : receive E c ch' v' = r at hp hd ⊢
        obtain ⟨c', o⟩ := r
        cases o with
        | panic => exact Reach.refl
        | error => exact Reach.refl
        | credited a =>
          simp only at hp hd
          cases cid with
          | none => exact Reach.refl
          | some id =>
            refine Reach.trans (reach_still (e := none) rfl) ?_
            rw [hd]
            dsimp only
            cases getOffers E c id with
            | err => exact Reach.refl
            | panic => exact Reach.refl
            | ok a =>
              obtain ⟨offers, found⟩ := a
              dsimp only
              cases digests E offers with
              | err => exact Reach.refl
              | panic => exact Reach.refl
              | ok ds =>
                refine Reach.trans (reach_still (e := none) rfl) ?_
                rw [hp]
                dsimp only
                split <;> exact Reach.refl

end FcRetrieval.Gateway.Conc
