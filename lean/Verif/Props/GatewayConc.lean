import Verif.Lemmas.GatewayConcRace
import Verif.Lemmas.GatewayConcRun
import Verif.Props.Gateway
/-!
# C167: a voucher buys one answer, however requests overlap
-/

set_option linter.unusedSimpArgs false

namespace FcRetrieval.Gateway.Conc
open FcRetrieval.Ids (Id)
open FcRetrieval.Message (Msg)
open FcRetrieval.Payment (Addr Voucher ChainView RecvOut Mgr)
open FcRetrieval.Wire (encode decode)
open FcRetrieval.Codecs
open FcRetrieval.GatewayLife (carries)
open FcRetrieval.Merkle (exId)

variable {Sig : Type}

/-- Served alone, in steps, a request does what it does when it is served at once. -/
theorem C167_alone (E : Env Sig) (c : Core Sig) (p : Paid) (m : Msg) :
    ∃ n, alone E n c (handler E c p m) = ((serve E c p.kind m).1, .done (serve E c p.kind m).2) := ends_handler E c p m

/-- On a channel that the gateway has received from before, of any two requests that are served, however their steps are mixed
with each other's and with those of other requests, the vouchers are worth different amounts if they are on the same lane; and
both are worth more than what had been paid before.  If the one with the higher voucher is a standard discovery, then
the difference is at least the price of a search, and so is that to what had been paid before. -/
theorem C167_apart_partial (E : Env Sig) (c : Core Sig) (reqs : List (Env Sig × Paid × Msg)) (hpr : ∀ r ∈ reqs, ProtocolOk r.1.pr) (sched : List (Label Sig))
    (i j : Nat) (hij : i ≠ j) (p q : Paid) (ch : List Char) (w w' : Voucher Sig) (hknown : c.payment.inbound (String.ofList ch) ≠ none)
    (hi : Served E reqs (sysRun E (serving c reqs) sched) i p ch w) (hj : Served E reqs (sysRun E (serving c reqs) sched) j q ch w')
    (hlane : w.body.lane = w'.body.lane) :
    w.body.amount ≠ w'.body.amount ∧ paidOn c (String.ofList ch) w.body.lane < w.body.amount ∧
      (q = .standardV2 → paidOn c (String.ofList ch) w.body.lane + c.searchPrice ≤ w'.body.amount ∧
        (w.body.amount < w'.body.amount → w.body.amount + c.searchPrice ≤ w'.body.amount)) := by
  obtain ⟨v, a, hm, hh, hn⟩ := served_hit hpr hknown hi
  obtain ⟨v', b, hm', hh', hn'⟩ := served_hit hpr hknown hj
  rw [← hlane] at hh'
  have hs := ((serving_ok E c reqs hpr _ hknown).run sched).log
  have p1 := hs.pos _ hm _ _ _ hh
  have p2 := hs.pos _ hm' _ _ _ hh'
  have hb : q = .standardV2 → c.searchPrice ≤ b := fun e => by subst e; exact hn'
  rcases pairwise_either hs.apart hm hm' (fun e => hij (Prod.mk.inj e).1) with h | h
  · have := h _ _ _ _ _ hh hh'
    refine ⟨by omega, by omega, fun e => ⟨?_, fun hlt => by omega⟩⟩
    have := hb e
    omega
  · have := h _ _ _ _ _ hh' hh
    refine ⟨by omega, by omega, fun e => ?_⟩
    have := hb e
    exact ⟨by omega, fun _ => by omega⟩

/-- So whoever is served any number of standard discoveries on a lane of a channel that the gateway has received from before, has
signed a voucher that pays the price of a search for each of them. -/
theorem C167_total_partial (E : Env Sig) (c : Core Sig) (reqs : List (Env Sig × Paid × Msg)) (hpr : ∀ r ∈ reqs, ProtocolOk r.1.pr) (sched : List (Label Sig))
    (ch : List Char) (lane : Nat) (hknown : c.payment.inbound (String.ofList ch) ≠ none) (hprice : 0 ≤ c.searchPrice)
    (served : List (Nat × Voucher Sig)) (hne : served ≠ []) (hnd : (served.map Prod.fst).Nodup)
    (hs : ∀ x ∈ served, Served E reqs (sysRun E (serving c reqs) sched) x.1 .standardV2 ch x.2 ∧ x.2.body.lane = lane) :
    ∃ x ∈ served, paidOn c (String.ofList ch) lane + served.length * c.searchPrice ≤ x.2.body.amount := by
  have hlog := ((serving_ok E c reqs hpr _ hknown).run sched).log
  obtain ⟨x, hx, hge⟩ := largest (d := c.searchPrice) (base := paidOn c (String.ofList ch) lane) served.length (served.map fun x => x.2.body.amount)
    (by simp) (by simpa using hne) (by
      rw [List.pairwise_map]
      have hnd' : served.Pairwise fun a b => a.1 ≠ b.1 := by
        rw [List.nodup_iff_pairwise_ne, List.pairwise_map] at hnd
        exact hnd
      refine hnd'.imp_of_mem ?_
      intro a b ha hb hab
      obtain ⟨h1, l1⟩ := hs a ha
      obtain ⟨h2, l2⟩ := hs b hb
      have hne := (C167_apart_partial E c reqs hpr sched a.1 b.1 hab _ _ ch a.2 b.2 hknown h1 h2 (l1.trans l2.symm)).1
      have g1 := ((C167_apart_partial E c reqs hpr sched a.1 b.1 hab _ _ ch a.2 b.2 hknown h1 h2 (l1.trans l2.symm)).2.2 rfl).2
      have g2 := ((C167_apart_partial E c reqs hpr sched b.1 a.1 (Ne.symm hab) _ _ ch b.2 a.2 hknown h2 h1 (l2.trans l1.symm)).2.2 rfl).2
      by_cases hlt : a.2.body.amount < b.2.body.amount
      · exact Or.inl (g1 hlt)
      · exact Or.inr (g2 (by omega))) hprice (by
      intro y hy
      obtain ⟨z, hz, rfl⟩ := List.mem_map.1 hy
      obtain ⟨h1, l1⟩ := hs z hz
      obtain ⟨v, a, hm, hh, hn⟩ := served_hit hpr hknown h1
      have p1 := hlog.pos _ hm _ _ _ hh
      rw [l1] at p1
      have : c.searchPrice ≤ a := hn
      omega)
  obtain ⟨z, hz, rfl⟩ := List.mem_map.1 hx
  exact ⟨z, hz, hge⟩

/-- Against C167: on a channel that the gateway has not received from before, any number of copies of one request that would be served alone are all
served, when all of them have looked the channel up before the first has entered it. -/
theorem C167_refuted (E : Env Sig) (c : Core Sig) (p : Paid) (hp : p = .standardV2 ∨ p = .standardOffer ∨ p = .peerDhtV2) (m : Msg)
    (ch v : List Char) (w : Voucher Sig) (hc : carries p.kind m = some (ch, v)) (hv : E.readVoucher v = some w)
    (hnew : c.payment.inbound (String.ofList ch) = none) (x : Msg) (hx : Out.message x ∈ (serve E c p.kind m).2) (hd : Discloses x) (n : Nat) :
    ∃ sched, ∀ i, i < n → Served E (List.replicate n (E, p, m)) (sysRun E (serving c (List.replicate n (E, p, m))) sched) i p ch w := by
  cases n with
  | zero => exact ⟨[], fun i hi => absurd hi (Nat.not_lt_zero i)⟩
  | succ n =>
    have hq : p.quiet = true := by rcases hp with rfl | rfl | rfl <;> rfl
    obtain ⟨sched, log', hs⟩ := reach_quiet E n c p m hq hc hnew []
    refine ⟨sched, fun i hi => ⟨E, m, v, (serve E c p.kind m).2, x, by simp [hi], hc, hv, ?_, hx, hd⟩⟩
    have : serving c (List.replicate (n + 1) (E, p, m)) = ⟨c, List.replicate (n + 1) (handler E c p m), []⟩ := by
      simp [serving]
    rw [this, hs]
    simp [hi]

/-! ### the hypotheses can be met -/

/-- A world in which vouchers say what they are worth. -/
def exDigits : Env Unit :=
  { exEnv with readVoucher := fun t => match t with | [d] => if 48 ≤ d.toNat ∧ d.toNat < 58 then some ⟨⟨"c", 0, d.toNat - 48, (d.toNat : Int) - 48⟩, ()⟩ else none | _ => none }

/-- The example gateway after it has received 1 on channel `c`. -/
def exReceived : Core Unit := { exCore with payment := (Payment.receive exDigits.verifyVoucher exCore.payment "c" (exDigits.readVoucher ['1']) (exDigits.chain "c")).1 }

theorem exReceived_known : exReceived.payment.inbound (String.ofList ['c']) ≠ none := by decide +kernel

theorem exDigits_signs (c : Core Unit) (hk : c.key = exCore.key) (hv : c.keyVersion = exCore.keyVersion) : CanSign exDigits c := by
  intro b
  rw [hk, hv]
  exact exCore_signs b

/-- A request for a search. -/
theorem exSearch (v : List Char) : ∃ m, carries .standardV2 m = some (['c'], v) ∧
    ∀ c : Core Unit, c.key = exCore.key → c.keyVersion = exCore.keyVersion → c.db = exCore.db → Pays exDigits c ['c'] v c.searchPrice →
      (∃ x, (serve exDigits c .standardV2 m).2 = [.message x] ∧ Discloses x) ∧ (serve exDigits c .standardV2 m).1 = (receive exDigits c ['c'] v).1 := by
  obtain ⟨m, hd⟩ := exDecodes (C30_clientStandardDiscoverRequestV2 exDigits.pr defaultProtocolOk (some (exId 2)) 7 2000 ['c'] v
    (exIdOk 2) ⟨by decide, by decide⟩ ⟨by decide, by decide⟩)
  refine ⟨m, by simp [carries, hd], fun c hk hkv hdb hpay => ?_⟩
  obtain ⟨m', h1, h2⟩ := C49_standardV2_served exDigits defaultProtocolOk c (exDigits_signs c hk hkv) m (exId 2) 7 2000 ['c'] v hd (by decide) hpay [exSingle] true
    (by rw [hdb]; exact exCore_offers) exSingle_named
  refine ⟨⟨m', h1, .inr (.inl ⟨_, h2, by simp [digestTexts]⟩)⟩, ?_⟩
  have ho : getOffers exDigits c (exId 2) = .ok ([exSingle], true) := by unfold getOffers; rw [hdb]; exact exCore_offers
  have hlt : ¬ exDigits.now > 2000 := by decide
  simp only [serve, Gateway.standardV2, hd, ho, if_neg hlt]
  generalize receive exDigits c ['c'] v = r
  obtain ⟨c', o⟩ := r
  cases o with
  | panic => rfl
  | error => rfl
  | credited a =>
    dsimp only
    split
    · cases digests exDigits [exSingle] <;> rfl
    · rfl

/-- Seven copies of one request, on a new channel, are all served. -/
example : ∃ m sched, ∀ i, i < 7 → ∃ w, Served exDigits (List.replicate 7 (exDigits, .standardV2, m))
    (sysRun exDigits (serving exCore (List.replicate 7 (exDigits, .standardV2, m))) sched) i .standardV2 ['c'] w := by
  obtain ⟨m, hc, hs⟩ := exSearch ['5']
  obtain ⟨⟨x, hx, hd⟩, -⟩ := hs exCore rfl rfl rfl ⟨5, by unfold Credits; decide +kernel, by decide⟩
  obtain ⟨sched, h⟩ := C167_refuted exDigits exCore .standardV2 (Or.inl rfl) m ['c'] ['5'] ⟨⟨"c", 0, 5, 5⟩, ()⟩ hc rfl (by decide) x
    (by simp only [Paid.kind]; rw [hx]; simp) hd 7
  exact ⟨m, sched, fun i hi => ⟨_, h i hi⟩⟩

/-- Two requests on a channel that is known, served one after the other: vouchers of 4 and 8 after one of 1. -/
theorem exServed : ∃ (reqs : List (Env Unit × Paid × Msg)) (sched : List (Label Unit)), (∀ r ∈ reqs, ProtocolOk r.1.pr) ∧
    Served exDigits reqs (sysRun exDigits (serving exReceived reqs) sched) 0 .standardV2 ['c'] ⟨⟨"c", 0, 4, 4⟩, ()⟩ ∧
    Served exDigits reqs (sysRun exDigits (serving exReceived reqs) sched) 1 .standardV2 ['c'] ⟨⟨"c", 0, 8, 8⟩, ()⟩ := by
  obtain ⟨m, hc, hs⟩ := exSearch ['4']
  obtain ⟨m', hc', hs'⟩ := exSearch ['8']
  obtain ⟨⟨x, hx, hd⟩, hcore⟩ := hs exReceived rfl rfl rfl ⟨3, by unfold Credits; decide +kernel, by decide⟩
  obtain ⟨⟨x', hx', hd'⟩, -⟩ := hs' (receive exDigits exReceived ['c'] ['4']).1 rfl rfl rfl ⟨4, by unfold Credits; decide +kernel, by decide⟩
  let reqs : List (Env Unit × Paid × Msg) := [(exDigits, .standardV2, m), (exDigits, .standardV2, m')]
  obtain ⟨s1, g1, g2⟩ := thread_runs (E := exDigits) (s := serving exReceived reqs) (i := 0) (by simp [serving, reqs]) (ends_handler exDigits exReceived .standardV2 m)
  rw [show (serve exDigits exReceived Paid.standardV2.kind m).1 = _ from hcore] at g1
  have hth : (sysRun exDigits (serving exReceived reqs) s1).threads[1]? = some (handler exDigits (receive exDigits exReceived ['c'] ['4']).1 .standardV2 m') := by
    rw [g2, handler_key (E := exDigits) (c := exReceived) (c' := (receive exDigits exReceived ['c'] ['4']).1) rfl rfl]
    simp [serving, reqs]
  have hend := ends_handler exDigits (receive exDigits exReceived ['c'] ['4']).1 .standardV2 m'
  rw [← g1] at hend hth
  obtain ⟨s2, f1, f2⟩ := thread_runs hth hend
  rw [g1] at f2
  have hfin : (sysRun exDigits (serving exReceived reqs) (s1 ++ s2)).threads = [.done [.message x], .done [.message x']] := by
    rw [sysRun_append, f2, g2]
    simp only [Paid.kind, hx, hx']
    simp [serving, reqs]
  refine ⟨reqs, s1 ++ s2, ?_, ⟨exDigits, m, ['4'], _, x, rfl, hc, rfl, ?_, List.mem_singleton.2 rfl, hd⟩, ⟨exDigits, m', ['8'], _, x', rfl, hc', rfl, ?_, List.mem_singleton.2 rfl, hd'⟩⟩
  · intro r hr
    simp only [reqs, List.mem_cons, List.not_mem_nil, or_false] at hr
    rcases hr with rfl | rfl <;> exact defaultProtocolOk
  · rw [hfin]; rfl
  · rw [hfin]; rfl

/-- The price of two searches is 6, and 7 more than before has been signed for. -/
example : ∃ a : Int, paidOn exReceived "c" 0 + 2 * 3 ≤ a ∧ (a = 4 ∨ a = 8) := by
  obtain ⟨reqs, sched, hpr, h0, h1⟩ := exServed
  obtain ⟨x, hx, hge⟩ := C167_total_partial exDigits exReceived reqs hpr sched ['c'] 0 exReceived_known (by decide)
    [(0, ⟨⟨"c", 0, 4, 4⟩, ()⟩), (1, ⟨⟨"c", 0, 8, 8⟩, ()⟩)] (by simp) (by simp) (by
      intro x hx
      simp only [List.mem_cons, List.not_mem_nil, or_false] at hx
      rcases hx with rfl | rfl
      · exact ⟨h0, rfl⟩
      · exact ⟨h1, rfl⟩)
  refine ⟨x.2.body.amount, hge, ?_⟩
  simp only [List.mem_cons, List.not_mem_nil, or_false] at hx
  rcases hx with rfl | rfl <;> simp

/-- They are at least the price of a search apart. -/
example : (4 : Int) + 3 ≤ 8 := by
  obtain ⟨reqs, sched, hpr, h0, h1⟩ := exServed
  exact ((C167_apart_partial exDigits exReceived reqs hpr sched 0 1 (by decide) _ _ ['c'] _ _ exReceived_known h0 h1 rfl).2.2 rfl).2 (by decide)

end FcRetrieval.Gateway.Conc
