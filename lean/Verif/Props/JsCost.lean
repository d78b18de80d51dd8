import Verif.Props.JsAsks
/-!
# C192, C157: what a discovery of the JavaScript client costs, and what it gets from a gateway written in Go
-/

set_option linter.unusedSimpArgs false

namespace FcRetrieval.Js
open FcRetrieval.Crypto (Prims)
open FcRetrieval.Register (Record)

/-- What has been spent on the channel to a recipient; `none` without a channel. -/
def spent (p : Purse) (recipient : List Char) : Option Nat := (mget p.world.mgr recipient).map (·.redeemed)

theorem charge_paid (p : Purse) (hs : ∀ v, (p.sign v).isSome) {payTo : List Char} {cs : JsPay.Chan} (hc : mget p.world.mgr payTo = some cs) {amount : Nat}
    (hb : cs.redeemed + amount ≤ cs.balance) (topupFor : List Char) (topup : Nat) :
    ∃ p' t v cs', charge p payTo topupFor amount topup = (p', .paid cs.addr t v) ∧ p'.sign = p.sign ∧ mget p'.world.mgr payTo = some cs' ∧
      cs'.redeemed = cs.redeemed + amount ∧ cs'.balance = cs.balance ∧ p'.world.issued = p.world.issued ++ [v] ∧ p'.world.tasks = p.world.tasks ∧
      ∀ r, r ≠ payTo → mget p'.world.mgr r = mget p.world.mgr r := by
  rcases JsPay.pay_cases p.sign p.world.mgr payTo 0 amount with ⟨_, h⟩ | ⟨cs1, h1, _, ⟨h2, _⟩ | ⟨t, _, h3⟩⟩
  · have := h cs hc; omega
  · have := hs ⟨cs1.addr, ((mget cs1.lanes 0).getD ⟨0, 0, []⟩).redeemed + amount, 0, ((mget cs1.lanes 0).getD ⟨0, 0, []⟩).nonce⟩
    rw [h2] at this; cases this
  · rw [hc] at h1; cases h1
    unfold charge
    rw [h3]
    dsimp only
    have hw : ∀ (M : JsPay.Mgr) (C : List Char × List Char) (v : JsPay.Voucher), JsPay.pay p.sign p.world.mgr payTo 0 amount = (M, .paid C.1 C.2 v) → (JsPay.step p.sign p.world (.pay payTo 0 amount)).mgr = M ∧
        (JsPay.step p.sign p.world (.pay payTo 0 amount)).issued = p.world.issued ++ [v] ∧ (JsPay.step p.sign p.world (.pay payTo 0 amount)).tasks = p.world.tasks := by
      intro M C v h
      simp only [JsPay.step, h]
      exact ⟨trivial, trivial, trivial⟩
    have hw := hw _ (cs.addr, JsPay.urlSafe t) _ h3
    refine ⟨_, _, _, _, rfl, rfl, (congrArg (mget · payTo) hw.1).trans (mget_mset_same p.world.mgr payTo _), rfl, rfl, hw.2.1, hw.2.2, ?_⟩
    intro r hr
    dsimp only
    rw [hw.1]
    exact mget_mset_other _ _ (Ne.symm hr)

/-- **C192 (partial)**, standard discovery: with enough on the channel to the gateway it costs the price of a search, once, and starts no top-up, whatever the network answers and
whether or not it ends with an exception.  Missing: DHT discovery (`C192_dht_refuted`). -/
theorem C192_standard_partial (P : Prims) (S : Prices) (c : Client) (p : Purse) (hs : ∀ v, (p.sign v).isSome) (t : Trip) (cid : Cid) (gateway : List Char) (g : Record)
    (hg : mget c.active gateway = some g) (cs : JsPay.Chan) (hc : mget p.world.mgr g.address = some cs) (hb : cs.redeemed + S.search ≤ cs.balance) :
    ∃ p', (findStandard P S c (some p) t cid gateway).1 = some p' ∧ spent p' g.address = some (cs.redeemed + S.search) ∧
      p'.world.issued.length = p.world.issued.length + 1 ∧ p'.world.tasks = p.world.tasks ∧ ∀ r, r ≠ g.address → spent p' r = spent p r := by
  obtain ⟨p', t', v, cs', h1, _, h3, h4, _, h6, h7, h8⟩ := charge_paid p hs hc hb g.nodeID S.topup
  refine ⟨p', ?_, by rw [spent, h3, Option.map_some, h4], by rw [h6]; simp, h7, fun r hr => by rw [spent, spent, h8 r hr]⟩
  unfold findStandard
  rw [hg]
  simp only [h1]

/-- **C192 (refuted)**, DHT discovery: with enough on the channel it costs twice the price of the searches asked for, in two vouchers, and returns nothing; no other gateway has been asked
(`requestDHT`). -/
theorem C192_dht_refuted (S : Prices) (c : Client) (p : Purse) (hs : ∀ v, (p.sign v).isSome) (gateway : List Char) (g : Record) (numDHT : Nat)
    (hg : mget c.active gateway = some g) (cs : JsPay.Chan) (hc : mget p.world.mgr g.address = some cs) (hb : cs.redeemed + 2 * (numDHT * S.search) ≤ cs.balance) :
    ∃ p', findDHT S c (some p) gateway numDHT = (some p', some []) ∧ spent p' g.address = some (cs.redeemed + 2 * (numDHT * S.search)) ∧
      p'.world.issued.length = p.world.issued.length + 2 ∧ p'.world.tasks = p.world.tasks ∧ ∀ r, r ≠ g.address → spent p' r = spent p r := by
  obtain ⟨p1, t1, v1, cs1, h1, h2, h3, h4, h5, h6, h7, h8⟩ := charge_paid p hs hc (amount := numDHT * S.search) (by omega) g.address S.topup
  obtain ⟨p2, t2, v2, cs2, k1, _, k3, k4, _, k6, k7, k8⟩ := charge_paid p1 (by rw [h2]; exact hs) h3 (amount := numDHT * S.search) (by omega) g.address S.topup
  refine ⟨p2, ?_, by rw [spent, k3, Option.map_some, k4, h4]; congr 1; omega, by rw [k6, h6]; simp, by rw [k7, h7], fun r hr => by rw [spent, spent, k8 r hr, h8 r hr]⟩
  unfold findDHT
  rw [hg]
  simp only [h1, requestDHT, dhtAnswers, k1, requestDHTOffers, Bool.false_eq_true, if_false, List.foldl_nil]

/-- **C192 (partial)**, without a gateway: nothing is paid. -/
theorem C192_inactive_partial (P : Prims) (S : Prices) (c : Client) (purse : Option Purse) (t : Trip) (cid : Cid) (gateway : List Char) (numDHT : Nat)
    (hg : mget c.active gateway = none) : (findStandard P S c purse t cid gateway).1 = purse ∧ (findDHT S c purse gateway numDHT).1 = purse := by
  unfold findStandard findDHT
  rw [hg]
  exact ⟨rfl, rfl⟩

/-- Behind the address there is this gateway: to a text that Go reads as a search comes back the status its handler writes, if it writes only a status. -/
def Refuses {Sig : Type} (E : Gateway.Env Sig) (core : Gateway.Core Sig) (net : Net) (url : List Char) : Prop :=
  ∀ t m code, Message.fromBytes (utf8Bytes t) = .ok m → m.type = 108 → (Gateway.standardV2 E core m).2 = [.status code] → ∃ s, net url t = some (code, s)

/-- **C157 (refuted)**, with a gateway written in Go: whatever the gateway holds and the client asks for, a standard discovery throws, and it has spent the price of a search. -/
theorem C157_gateway_refuted {Sig : Type} (E : Gateway.Env Sig) (core : Gateway.Core Sig) (P : Prims) (S : Prices) (c : Client) (p : Purse) (hs : ∀ v, (p.sign v).isSome) (t : Trip)
    (cid : Cid) (gateway : List Char) (g : Record) (hg : mget c.active gateway = some g) (cs : JsPay.Chan) (hc : mget p.world.mgr g.address = some cs)
    (hb : cs.redeemed + S.search ≤ cs.balance) (hnet : Refuses E core t.search g.netClient) :
    ∃ p', findStandard P S c (some p) t cid gateway = (some p', none) ∧ spent p' g.address = some (cs.redeemed + S.search) := by
  obtain ⟨p', h1, h2, -⟩ := C192_standard_partial P S c p hs t cid gateway g hg cs hc hb
  refine ⟨p', ?_, h2⟩
  obtain ⟨m, k1, k2, k3⟩ := C191_search_refuted E core
  obtain ⟨s, hnet⟩ := hnet _ m 400 k1 k2 (by rw [k3])
  have hr : requestSearch P t.search g = false := by
    unfold requestSearch sendMessage post
    rw [hnet]
    rfl
  have h3 : (findStandard P S c (some p) t cid gateway).2 = none := by
    unfold findStandard
    rw [hg]
    simp only [hr, Bool.false_eq_true, if_false]
  exact Prod.ext h1 h3

/-- A channel of 9 to `f1`; searches at 1, four gateways: 8 are gone. -/
example : (∀ v, (exPurse.sign v).isSome) ∧ mget (⟨[(['a'], exGateway)], []⟩ : Client).active ['a'] = some exGateway ∧
    (mget exPurse.world.mgr exGateway.address).map (fun cs => (cs.redeemed, cs.balance)) = some (0, 9) ∧
    ((findDHT ⟨1, 100⟩ ⟨[(['a'], exGateway)], []⟩ (some exPurse) ['a'] 4).1.bind fun p => spent p ['f', '1']) = some 8 :=
  ⟨fun v => by simp [exPurse, JsPay.exSign], by rfl, by decide +kernel, by decide +kernel⟩

/-- A network in which every search is refused as malformed. -/
example {Sig : Type} (E : Gateway.Env Sig) (core : Gateway.Core Sig) : ∃ net, Refuses E core net ['h'] := by
  refine ⟨fun _ t => match Message.fromBytes (utf8Bytes t) with
    | .ok m => match (Gateway.standardV2 E core m).2 with
      | [.status code] => some (code, [])
      | _ => none
    | _ => none, ?_⟩
  intro t m code h1 _ h2
  refine ⟨[], ?_⟩
  simp only [h1, h2]

end FcRetrieval.Js
