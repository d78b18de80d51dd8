import Verif.Lemmas.PaymentProps
/-!
# Properties of the payment manager: C35–C40, C62, C78–C81

The vocabulary (`funded`, `issued`, `credits`, …) is in `Spec/Payment.lean`.  Amounts are in one currency, any integers
unless a hypothesis says otherwise.
-/

set_option linter.unusedSimpArgs false

namespace FcRetrieval.Payment

variable {Sig : Type}

/-! A toy signature scheme for the examples: a signature names its key and its text. -/

abbrev ToySig := Addr × VBody
def toySign (key : Addr) (b : VBody) : Option ToySig := some (key, b)
def toyVerify (s : ToySig) (key : Addr) (b : VBody) : Bool := s == (key, b)

/-- Two recipients, two lanes, a payment that is refused. -/
def exampleOps : List PayOp :=
  [.pay "bob" 0 5, .topup "bob" 100 (.executed "ch1"), .pay "bob" 0 30, .pay "bob" 1 20, .topup "eve" 7 (.executed "ch2"),
   .pay "bob" 0 60, .topup "bob" 50 .failed, .pay "bob" 0 40, .topup "bob" 1 (.executed "ignored"), .pay "eve" 3 7]

/-! ## C35 -/

/-- **C35.** In every history of `Topup` and `Pay` moving non-negative amounts, what the vouchers issued to a recipient
promise (per lane the highest one counts) is within the successful top-ups for that recipient. -/
theorem C35_promised_le_funded_partial (sign : VBody → Option Sig) (me : Addr) (ops : List PayOp) (hops : ∀ op ∈ ops, NonNeg op)
    (r : Addr) (lanes : List Nat) (hl : lanes.Nodup) :
    (lanes.map fun i => highest (issued r i (payRun sign (newMgr me) ops).2)).sum ≤ funded r (payRun sign (newMgr me) ops).2 := by
  have hn : NoncesOk (newMgr me : Mgr Sig) := nonces_new
  obtain ⟨h1, h2, h3, h4⟩ := payRun_spec (sign := sign) ops hn
  have hs : Solvent (newMgr me : Mgr Sig) := by intro r; simp [newMgr, outC]
  have hsol := payRun_solvent (sign := sign) ops hs hn hops r
  rw [h1 r, h2 r] at hsol
  have ham := payRun_amounts (sign := sign) (m := newMgr me) ops hops r
  have htot := lanes_le_total r hl (payRun sign (newMgr me) ops).2 ham
  have hhigh : ∀ i, highest (issued r i (payRun sign (newMgr me) ops).2) ≤ (paidAmounts r i (payRun sign (newMgr me) ops).2).sum := by
    intro i
    have := highest_cumulative (issued r i (payRun sign (newMgr me) ops).2) _ _ _ (by simp [newMgr, outC, Chan.lane, newLane])
      (ham i) (h4 r i)
    simpa [newMgr, outC, Chan.lane, newLane] using this
  have hsum : ∀ l : List Nat, (l.map fun i => highest (issued r i (payRun sign (newMgr me) ops).2)).sum ≤
      (l.map fun i => (paidAmounts r i (payRun sign (newMgr me) ops).2).sum).sum := by
    intro l
    induction l with
    | nil => simp
    | cons i l ih => simp only [List.map_cons, List.sum_cons]; have := hhigh i; omega
  have := hsum lanes
  have e1 : (outC (newMgr me : Mgr Sig) r).balance = 0 := rfl
  have e2 : (outC (newMgr me : Mgr Sig) r).redeemed = 0 := rfl
  omega

/-- **C35**, refusal: after any history (any amounts), `Pay` asks for a top-up, and does and issues nothing, when the
amount exceeds what is left of the top-ups. -/
theorem C35_pay_refuses_partial (sign : VBody → Option Sig) (me : Addr) (ops : List PayOp) (r : Addr) (lane : Nat) (amount : Int)
    (h : funded r (payRun sign (newMgr me) ops).2 < totalPaid r (payRun sign (newMgr me) ops).2 + amount) :
    pay sign (payRun sign (newMgr me) ops).1 r lane amount = ((payRun sign (newMgr me) ops).1, .needTopup) := by
  obtain ⟨h1, h2, _, _⟩ := payRun_spec (sign := sign) ops (nonces_new (a := me))
  have h1 := h1 r
  have h2 := h2 r
  have e1 : (outC (newMgr me : Mgr Sig) r).balance = 0 := rfl
  have e2 : (outC (newMgr me : Mgr Sig) r).redeemed = 0 := rfl
  unfold pay
  cases hc : (payRun sign (newMgr me) ops).1.outbound r with
  | none => rfl
  | some c =>
    have h0 : outC (payRun sign (newMgr me) ops).1 r = c := by simp [outC, hc]
    rw [h0] at h1 h2
    simp only
    rw [if_pos]
    omega

/-- **C35**, no needless refusal: with a channel in place and enough left of the top-ups, `Pay` issues a voucher
(unless signing fails). -/
theorem C35_pay_issues_partial (sign : VBody → Option Sig) (hsign : ∀ b, sign b ≠ none) (me : Addr) (ops : List PayOp) (r : Addr) (lane : Nat)
    (amount : Int) (hch : ∃ a, .toppedUp r a ∈ (payRun sign (newMgr me) ops).2)
    (h : totalPaid r (payRun sign (newMgr me) ops).2 + amount ≤ funded r (payRun sign (newMgr me) ops).2) :
    ∃ ch v, (pay sign (payRun sign (newMgr me) ops).1 r lane amount).2 = .paid ch v ∧ v.body.lane = lane ∧ v.body.channelAddr = ch := by
  obtain ⟨h1, h2, _, _⟩ := payRun_spec (sign := sign) ops (nonces_new (a := me))
  have h1 := h1 r
  have h2 := h2 r
  have e1 : (outC (newMgr me : Mgr Sig) r).balance = 0 := rfl
  have e2 : (outC (newMgr me : Mgr Sig) r).redeemed = 0 := rfl
  obtain ⟨c, hc⟩ := payRun_funded_channel sign r ops (newMgr me) (Or.inr hch)
  rcases pay_cases sign (payRun sign (newMgr me) ops).1 r lane amount with ⟨hp, h3 | h3⟩ | ⟨m', hp, b, hb⟩ | ⟨c', m', v, hc', hp, _, h4, h5, _⟩
  · rw [hc] at h3; simp at h3
  · omega
  · exact absurd hb (hsign b)
  · exact ⟨c'.addr, v, by rw [hp], h4, h5⟩

example : (∀ op ∈ exampleOps, NonNeg op) ∧
    funded "bob" (payRun (toySign "me") (newMgr "me") exampleOps).2 = 101 ∧
    (issued "bob" 0 (payRun (toySign "me") (newMgr "me") exampleOps).2).map (·.body.amount) = [30, 70] ∧
    ([0, 1, 2].map fun i => highest (issued "bob" i (payRun (toySign "me") (newMgr "me") exampleOps).2)).sum = 90 := by
  refine ⟨?_, by decide +kernel, by decide +kernel, by decide +kernel⟩
  intro op hop
  simp only [exampleOps, List.mem_cons, List.not_mem_nil, or_false] at hop
  rcases hop with rfl | rfl | rfl | rfl | rfl | rfl | rfl | rfl | rfl | rfl <;> simp [NonNeg]
example : funded "bob" (payRun (toySign "me") (newMgr "me") exampleOps).2 <
    totalPaid "bob" (payRun (toySign "me") (newMgr "me") exampleOps).2 + 12 := by decide +kernel
example : (∃ a, PayEvent.toppedUp "bob" a ∈ (payRun (toySign "me") (newMgr "me") exampleOps).2) ∧
    totalPaid "bob" (payRun (toySign "me") (newMgr "me") exampleOps).2 + 11 ≤ funded "bob" (payRun (toySign "me") (newMgr "me") exampleOps).2 :=
  ⟨⟨100, List.mem_of_getElem? (i := 1) rfl⟩, by decide +kernel⟩

/-! ## C36 -/

/-- **C36.** On each lane to a recipient the vouchers issued carry the nonces 0, 1, 2, … (as `uint64`) and the running
sums of the amounts paid on that lane.  The formula mentions no other lane and no other recipient. -/
theorem C36_cumulative (sign : VBody → Option Sig) (me : Addr) (ops : List PayOp) (r : Addr) (lane : Nat) :
    (issued r lane (payRun sign (newMgr me) ops).2).map (fun v => (v.body.nonce, v.body.amount)) =
      cumulative 0 0 (paidAmounts r lane (payRun sign (newMgr me) ops).2) :=
  (payRun_spec (sign := sign) ops (nonces_new (a := me))).2.2.2 r lane

/-- **C36**, the rest of a voucher: it names the lane it was issued for and the channel `Pay` returned, and is signed. -/
theorem C36_voucher_fields (sign : VBody → Option Sig) (me : Addr) (ops : List PayOp) {r : Addr} {lane : Nat} {a : Int} {ch : Addr}
    {v : Voucher Sig} (h : .paid r lane a ch v ∈ (payRun sign (newMgr me) ops).2) :
    v.body.lane = lane ∧ v.body.channelAddr = ch ∧ sign v.body = some v.sig :=
  payRun_bodies sign ops _ h

/-- **C36**, one channel per recipient: all vouchers issued to a recipient are on the same channel. -/
theorem C36_one_channel (sign : VBody → Option Sig) (me : Addr) (ops : List PayOp) (r : Addr) :
    ∃ ch0, ∀ {lane a ch v}, .paid r lane a ch v ∈ (payRun sign (newMgr me) ops).2 → ch = ch0 :=
  payRun_channel sign r ops _

example : (issued "bob" 0 (payRun (toySign "me") (newMgr "me") exampleOps).2).map (fun v => (v.body.nonce, v.body.amount)) =
    [(0, 30), (1, 70)] ∧ paidAmounts "bob" 0 (payRun (toySign "me") (newMgr "me") exampleOps).2 = [30, 40] ∧
    (issued "bob" 1 (payRun (toySign "me") (newMgr "me") exampleOps).2).map (fun v => (v.body.channelAddr, v.body.nonce, v.body.amount)) =
    [("ch1", 0, 20)] := by decide +kernel

/-! ## C37 -/

/-- A history of `Receive`: two lanes, a replay, a forged voucher, a smaller one, an unreadable one. -/
def exampleRecv : List (RecvOp ToySig) :=
  let v (lane nonce : Nat) (amount : Int) (key : Addr) : Voucher ToySig := ⟨⟨"ch", lane, nonce, amount⟩, (key, ⟨"ch", lane, nonce, amount⟩)⟩
  let cv : ChainView := ⟨100, .key "me", .key "payer"⟩
  [⟨"ch", some (v 0 0 10 "payer"), some cv⟩, ⟨"ch", some (v 0 0 10 "payer"), some cv⟩, ⟨"ch", some (v 0 1 25 "payer"), some cv⟩,
   ⟨"ch", some (v 0 2 90 "mallory"), some cv⟩, ⟨"ch", none, some cv⟩, ⟨"ch", some (v 7 0 75 "payer"), some cv⟩,
   ⟨"ch", some (v 0 2 26 "payer"), some cv⟩]

/-- **C37.** In every history of `Receive`, on each channel and lane: every credit is positive, the sum of the credits
is the highest accepted cumulative voucher amount, and the accepted amounts are the running sums of the credits. -/
theorem C37_credited_is_highest (verify : Sig → Addr → VBody → Bool) (me : Addr) (ops : List (RecvOp Sig)) (ch : Addr) (lane : Nat) :
    let cr := credits ch lane ops (recvRun verify (newMgr me) ops).2
    let ac := accepted ch lane ops (recvRun verify (newMgr me) ops).2
    (∀ a ∈ cr, 0 < a) ∧ ac = runningSums 0 cr ∧ (∀ x ∈ ac, x ≤ cr.sum) ∧ (ac ≠ [] → cr.sum ∈ ac) ∧ (ac = [] → cr.sum = 0) := by
  obtain ⟨_, _, h3, h4⟩ := recvRun_spec verify ch lane ops (newMgr me)
  have e : ((inC (newMgr me : Mgr Sig) ch).lane lane).redeemed = 0 := rfl
  rw [e] at h3
  obtain ⟨h5, h6⟩ := runningSums_max _ 0 h4
  simp only
  rw [h3]
  refine ⟨h4, rfl, by simpa using h5, by simpa using h6, ?_⟩
  intro h
  cases hc : credits ch lane ops (recvRun verify (newMgr me) ops).2 with
  | nil => simp
  | cons a l => rw [hc] at h; simp [runningSums] at h

/-- **C37**, replay: after a voucher has been accepted, presenting it again on that channel (or any voucher of that lane
with no larger amount) is not credited, whatever the chain shows, and leaves all records as they were. -/
theorem C37_replay_rejected (verify : Sig → Addr → VBody → Bool) (me : Addr) (ops : List (RecvOp Sig)) {k : Nat} {op : RecvOp Sig}
    {v : Voucher Sig} {a : Int} (hop : ops[k]? = some op) (hv : op.voucher = some v)
    (hacc : (recvRun verify (newMgr me) ops).2[k]? = some (.credited a))
    (w : Voucher Sig) (hl : w.body.lane = v.body.lane) (ha : w.body.amount ≤ v.body.amount) (chain : Option ChainView) :
    let m := (recvRun verify (newMgr me) ops).1
    (∀ b, (receive verify m op.channel (some w) chain).2 ≠ .credited b) ∧
    ∀ x i, onRecord (receive verify m op.channel (some w) chain).1 x i = onRecord m x i := by
  have h := recvRun_accepted verify ops (newMgr me) k op v a hop hv hacc
  exact replay_refused verify _ ⟨op.channel, some w, chain⟩ w rfl (by rw [hl]; simp only; omega)

/-- **C37**, on chain: when a voucher is credited, everything credited on that channel up to and including this call is
within the balance the chain showed. -/
theorem C37_within_chain_balance (verify : Sig → Addr → VBody → Bool) (me : Addr) (ops : List (RecvOp Sig)) (op : RecvOp Sig) (a : Int)
    (h : (recvRun verify (newMgr me) (ops ++ [op])).2.getLast? = some (.credited a)) :
    ∃ cv, op.chain = some cv ∧
      totalCredited op.channel (ops ++ [op]) (recvRun verify (newMgr me) (ops ++ [op])).2 ≤ cv.balance := by
  rw [recvRun_append] at h ⊢
  simp only at h ⊢
  rw [totalCredited_append _ _ _ _ _ (recvRun_length verify ops _).symm]
  obtain ⟨h1, _⟩ := recvRun_spec verify op.channel 0 ops (newMgr me)
  have e : (inC (newMgr me : Mgr Sig) op.channel).redeemed = 0 := rfl
  generalize (recvRun verify (newMgr me) ops) = R at *
  rw [recvRun_cons] at h ⊢
  simp only [recvRun] at h ⊢
  simp [List.getLast?_append] at h
  obtain ⟨_, ⟨a', v', cv, k1, k2, k3, k4, k5, k6, k7, _⟩ | ⟨k1, _⟩⟩ := receive_spec verify R.1 op
  · refine ⟨cv, k3, ?_⟩
    rw [k1]
    simp only [totalCredited, if_pos]
    omega
  · exact absurd h (k1 a)

example : (recvRun toyVerify (newMgr "me") exampleRecv).2 =
    [.credited 10, .error, .credited 15, .error, .error, .credited 75, .error] ∧
    credits "ch" 0 exampleRecv (recvRun toyVerify (newMgr "me") exampleRecv).2 = [10, 15] ∧
    accepted "ch" 0 exampleRecv (recvRun toyVerify (newMgr "me") exampleRecv).2 = [10, 25] ∧
    totalCredited "ch" exampleRecv (recvRun toyVerify (newMgr "me") exampleRecv).2 = 100 := by decide +kernel

/-! ## C38 -/

/-- **C38.** In every history of positive top-ups and payments, the vouchers issued to a recipient, each presented to
the recipient's `Receive` when issued while the chain shows what was topped up by then, are all accepted, in order, each
credited with exactly the amount paid. -/
theorem C38_payee_credits_what_was_paid (sign : VBody → Option Sig) (verify : Sig → Addr → VBody → Bool) (payer payee : Addr)
    (hsv : ∀ b s, sign b = some s → verify s payer b = true) (ops : List PayOp) (hops : ∀ op ∈ ops, Positive op) (r : Addr) :
    let es := (payRun sign (newMgr payer) ops).2
    (recvRun verify (newMgr payee) (presented r payer payee 0 es)).2 = (amountsTo r es).map .credited :=
  agree_run r hsv ops (newMgr payer) (newMgr payee) hops (by intro x; rfl)

example : (∀ b s, toySign "me" b = some s → toyVerify s "me" b = true) ∧ (∀ op ∈ exampleOps, Positive op) ∧
    (presented "bob" "me" "bob" 0 (payRun (toySign "me") (newMgr "me") exampleOps).2).length = 3 ∧
    (recvRun toyVerify (newMgr "bob") (presented "bob" "me" "bob" 0 (payRun (toySign "me") (newMgr "me") exampleOps).2)).2 =
      [.credited 30, .credited 20, .credited 40] := by
  refine ⟨?_, ?_, by decide +kernel, by decide +kernel⟩
  · intro b s h
    simp [toySign] at h
    simp [toyVerify, ← h]
  · intro op hop
    simp only [exampleOps, List.mem_cons, List.not_mem_nil, or_false] at hop
    rcases hop with rfl | rfl | rfl | rfl | rfl | rfl | rfl | rfl | rfl | rfl <;> simp [Positive]

/-! ## C39 -/

/-- One step of a concurrent `Receive` call. -/
abbrev recvThread (verify : Sig → Addr → VBody → Bool) (m : Mgr Sig) (c : RecvCall Sig) : Pc RecvOut → Mgr Sig × Pc RecvOut :=
  recvThreadStep verify m c.1 c.2.1 c.2.2

/-- **C39 (partial).** If the manager already has an entry for every channel involved, then under every interleaving of
`Receive` calls no voucher is credited twice on a channel.
Missing: the first voucher on a channel the manager does not know yet, where the code does credit twice
(`C39_double_credit_refuted`). -/
theorem C39_credited_once_partial (verify : Sig → Addr → VBody → Bool) (m : Mgr Sig) (calls : List (RecvCall Sig))
    (hknown : ∀ c ∈ calls, m.inbound c.1 ≠ none) (sched : List Nat) {i j : Nat} (hij : i ≠ j) {ch : Addr} {v : Voucher Sig}
    {cv cv' : ChainView} {a b : Int}
    (hi : (sysRun (recvThread verify) ⟨m, calls.map (·, .start)⟩ sched).threads[i]? = some ((ch, v, cv), .done (.credited a)))
    (hj : (sysRun (recvThread verify) ⟨m, calls.map (·, .start)⟩ sched).threads[j]? = some ((ch, v, cv'), .done (.credited b))) :
    False := by
  obtain ⟨order, hnd, hmem, hst, _, hlen, hun, hsub, hd⟩ := linearise (step := recvThread verify)
    (call := fun m c => receive verify m c.1 (some c.2.1) (some c.2.2)) (Inv := fun m => ∀ c ∈ calls, m.inbound c.1 ≠ none) (calls := calls)
    (by
      intro st hI c hc
      have := hI c hc
      simp only [recvThread, recvThreadStep, receive]
      cases h : st.inbound c.1 with
      | none => exact absurd h this
      | some c => rfl)
    (fun _ _ _ => rfl) (fun st c _ hI d hd => receive_keeps_entry verify st _ _ _ _ (hI d hd)) hknown sched
  generalize sysRun (recvThread verify) ⟨m, calls.map (·, .start)⟩ sched = s at *
  obtain ⟨ops, o1, o2, o3, o4⟩ := serially_recv verify calls order m (fun k hk => ((hmem k).1 hk).2)
  have hpos : ∀ (k : Nat) (c : RecvCall Sig) (o : RecvOut), s.threads[k]? = some (c, Pc.done o) → ∃ p : Nat, order[p]? = some k ∧ ops[p]? = some c ∧
      (recvRun verify m (ops.map recvOpOf)).2[p]? = some o := by
    intro k c o hk
    have hkl : k < calls.length := by
      rcases Nat.lt_or_ge k calls.length with h | h
      · exact h
      · rw [List.getElem?_eq_none (by omega)] at hk; simp at hk
    have hck : calls[k]? = some calls[k] := by simp [hkl]
    by_cases hko : k ∈ order
    · obtain ⟨o', h1, h2⟩ := hd k _ hck hko
      rw [hk] at h2
      simp only [Option.some.injEq, Prod.mk.injEq, Pc.done.injEq] at h2
      obtain ⟨rfl, rfl⟩ := h2
      rw [o4] at h1
      obtain ⟨p, hp⟩ := List.getElem?_of_mem h1
      rw [List.getElem?_zip_eq_some] at hp
      refine ⟨p, hp.1, ?_, hp.2⟩
      rw [o2 p, hp.1]
      exact hck
    · have := hun k _ hck hko
      rw [hk] at this
      simp at this
  obtain ⟨p, p1, p2, p3⟩ := hpos i _ _ hi
  obtain ⟨q, q1, q2, q3⟩ := hpos j _ _ hj
  rcases Nat.lt_trichotomy p q with h | h | h
  · exact once_in_run verify m ops h p2 q2 p3 q3
  · subst h
    rw [p1] at q1
    simp only [Option.some.injEq] at q1
    exact hij q1
  · exact once_in_run verify m ops h q2 p2 q3 p3

/-- The system of the counterexample: two calls with the same voucher on a channel not known yet. -/
def twoReceives : Sys (Mgr ToySig) (RecvCall ToySig) RecvOut :=
  let body : VBody := ⟨"ch", 0, 0, 10⟩
  let call : RecvCall ToySig := ("ch", ⟨body, ("payer", body)⟩, ⟨100, .key "me", .key "payer"⟩)
  ⟨newMgr "me", [(call, .start), (call, .start)]⟩

/-- **C39 refuted.** Two concurrent `Receive` calls with the same voucher on a new channel can both be credited: both find
no entry, and each then creates a fresh one. -/
theorem C39_double_credit_refuted : ∃ sched : List Nat,
    ((sysRun (recvThread toyVerify) twoReceives sched).threads.map fun t => match t.2 with | .done o => some o | _ => none) =
      [some (.credited 10), some (.credited 10)] :=
  ⟨[0, 1, 0, 1], by decide +kernel⟩

/-- The same calls one after the other: credited once. -/
example : ((sysRun (recvThread toyVerify) twoReceives [0, 0, 1, 1]).threads.map fun t => match t.2 with | .done o => some o | _ => none) =
    [some (.credited 10), some .error] := by decide +kernel

/-- A manager that knows channel `ch`, and two calls with the same voucher: the hypotheses of the partial theorem. -/
example : let m := (recvRun toyVerify (newMgr "me") exampleRecv).1
    let body : VBody := ⟨"ch", 0, 2, 30⟩
    let call : RecvCall ToySig := ("ch", ⟨body, ("payer", body)⟩, ⟨200, .key "me", .key "payer"⟩)
    m.inbound "ch" ≠ none ∧
    (((sysRun (recvThread toyVerify) ⟨m, [(call, .start), (call, .start)]⟩ [1, 0, 1, 0]).threads.map fun t => match t.2 with | .done o => some o | _ => none) =
      [some .error, some (.credited 5)]) := by
  refine ⟨?_, by decide +kernel⟩
  intro h
  have : (((recvRun toyVerify (newMgr "me") exampleRecv).1.inbound "ch").isSome) = true := by decide +kernel
  rw [h] at this
  simp at this

/-! ## C40 -/

/-- One step of a concurrent `Topup` call. -/
abbrev topupThread (m : Mgr Sig) (c : TopupCall) : Pc Unit → Mgr Sig × Pc Unit := topupThreadStep m c.1 c.2.1 c.2.2

/-- Recorded balance of the channel to a recipient. -/
def recordedBalance (m : Mgr Sig) (r : Addr) : Int := match m.outbound r with | none => 0 | some c => c.balance

/-- **C40 (partial).** If every recipient involved has a channel already, then under every interleaving that lets every
`Topup` call run, the recorded balance of each recipient grows by the sum of the amounts deposited.
Missing: concurrent first top-ups for a recipient, where the code loses one (`C40_lost_topup_refuted`). -/
theorem C40_balance_is_sum_partial (m : Mgr Sig) (calls : List TopupCall) (hknown : ∀ c ∈ calls, m.outbound c.1 ≠ none)
    (sched : List Nat) (hall : ∀ i < calls.length, i ∈ sched) (r : Addr) :
    recordedBalance (sysRun topupThread ⟨m, calls.map (·, .start)⟩ sched).state r =
      recordedBalance m r + (calls.map fun c => if c.1 = r then c.2.1 else 0).sum := by
  have hrb : ∀ m : Mgr Sig, recordedBalance m r = (outC m r).balance := by
    intro m
    unfold recordedBalance outC
    cases m.outbound r <;> rfl
  obtain ⟨_, h2, _, h4, h5⟩ := topup_sched hknown r sched
  rw [hrb, hrb, h5]
  congr 1
  refine finished_all r calls _ h2 ?_
  intro t ht
  obtain ⟨i, hi⟩ := List.getElem?_of_mem ht
  have hlt : i < calls.length := by
    have hl := congrArg List.length h2
    rw [List.length_map] at hl
    rcases Nat.lt_or_ge i calls.length with h | h
    · exact h
    · rw [List.getElem?_eq_none (by omega)] at hi; simp at hi
  obtain ⟨c, hc⟩ := h4 i hlt (hall i hlt)
  rw [hi] at hc
  simp only [Option.some.injEq] at hc
  rw [hc]

/-- **C40 refuted.** Two concurrent first top-ups for one recipient, both executed on chain, can leave only one of the
amounts on record. -/
theorem C40_lost_topup_refuted : ∃ sched : List Nat,
    let s := sysRun topupThread ⟨(newMgr "me" : Mgr ToySig), [(("bob", 10, "ch1"), .start), (("bob", 20, "ch2"), .start)]⟩ sched
    (s.threads.all fun t => match t.2 with | .done _ => true | _ => false) = true ∧ recordedBalance s.state "bob" = 20 :=
  ⟨[0, 1, 0, 1], by decide +kernel⟩

example : let m := (payRun (toySign "me") (newMgr "me") exampleOps).1
    (m.outbound "bob").isSome = true ∧ recordedBalance m "bob" = 101 ∧
    recordedBalance (sysRun topupThread ⟨m, [(("bob", 10, "x"), .start), (("bob", 20, "y"), .start)]⟩ [1, 1, 0]).state "bob" = 131 := by
  decide +kernel

/-! ## C62 -/

/-- **C62.** `topupAndPay` amounts to at most two top-ups and at most two `Pay` calls; it issues exactly the voucher it
returns when it succeeds, for the recipient, lane and amount asked for, and none when it fails. -/
theorem C62_topupAndPay (sign : VBody → Option Sig) (topUpAmount : Int) (m : Mgr Sig) (r : Addr) (lane : Nat) (amount : Int)
    (chain1 chain2 : TopupChain) :
    ∃ ops, (topupAndPay sign topUpAmount m r lane amount chain1 chain2).1 = (payRun sign m ops).1 ∧
      topups ops ≤ 2 ∧
      payments (payRun sign m ops).2 =
        match (topupAndPay sign topUpAmount m r lane amount chain1 chain2).2 with
        | .paid ch v => [(r, lane, amount, ch, v)]
        | _ => [] := by
  have htop : ∀ (m : Mgr Sig) c, payStep sign m (.topup r topUpAmount c) =
      ((topup m r topUpAmount c).1, if (topup m r topUpAmount c).2 then .toppedUp r topUpAmount else .refused) := by
    intro m c
    simp only [payStep]
    cases topup m r topUpAmount c with
    | mk a b => cases b <;> rfl
  unfold topupAndPay
  cases h1 : topup m r topUpAmount chain1 with
  | mk m1 b1 =>
    cases b1 with
    | false =>
      refine ⟨[.topup r topUpAmount chain1], ?_, by simp [topups], ?_⟩ <;> simp [payRun, htop, h1, payments]
    | true =>
      simp only
      cases h2 : pay sign m1 r lane amount with
      | mk m2 o2 =>
        cases o2 with
        | error =>
          refine ⟨[.topup r topUpAmount chain1, .pay r lane amount], ?_, by simp [topups], ?_⟩ <;>
            simp [payRun, htop, h1, payStep, h2, payments]
        | paid ch v =>
          refine ⟨[.topup r topUpAmount chain1, .pay r lane amount], ?_, by simp [topups], ?_⟩ <;>
            simp [payRun, htop, h1, payStep, h2, payments]
        | needTopup =>
          simp only
          cases h3 : topup m2 r topUpAmount chain2 with
          | mk m3 b3 =>
            cases b3 with
            | false =>
              refine ⟨[.topup r topUpAmount chain1, .pay r lane amount, .topup r topUpAmount chain2], ?_, by simp [topups], ?_⟩ <;>
                simp only [payRun, htop, h1, payStep, h2, h3, payments] <;> rfl
            | true =>
              simp only
              cases h4 : pay sign m3 r lane amount with
              | mk m4 o4 =>
                refine ⟨[.topup r topUpAmount chain1, .pay r lane amount, .topup r topUpAmount chain2, .pay r lane amount], ?_,
                  by simp [topups], ?_⟩ <;> cases o4 <;>
                  simp [payRun, htop, h1, payStep, h2, h3, h4, payments]

/-- **C62**, success: when the chain executes the top-ups, signing works, and the amount is covered by what is left of the
earlier top-ups plus two more, `topupAndPay` succeeds. -/
theorem C62_topupAndPay_succeeds (sign : VBody → Option Sig) (hsign : ∀ b, sign b ≠ none) (me : Addr) (ops : List PayOp)
    (topUpAmount : Int) (r : Addr) (lane : Nat) (amount : Int) (a1 a2 : Addr)
    (h : totalPaid r (payRun sign (newMgr me) ops).2 + amount ≤ funded r (payRun sign (newMgr me) ops).2 + 2 * topUpAmount) :
    ∃ ch v, (topupAndPay sign topUpAmount (payRun sign (newMgr me) ops).1 r lane amount (.executed a1) (.executed a2)).2 = .paid ch v := by
  obtain ⟨g1, g2, _, _⟩ := payRun_spec (sign := sign) ops (nonces_new (a := me))
  have g1 := g1 r
  have g2 := g2 r
  have e1 : (outC (newMgr me : Mgr Sig) r).balance = 0 := rfl
  have e2 : (outC (newMgr me : Mgr Sig) r).redeemed = 0 := rfl
  rw [e1] at g1
  rw [e2] at g2
  generalize (payRun sign (newMgr me) ops).1 = m at *
  have htop : ∀ (m : Mgr Sig) a, ∃ m', topup m r topUpAmount (.executed a) = (m', true) ∧ m'.outbound r ≠ none ∧
      (outC m' r).balance = (outC m r).balance + topUpAmount ∧ (outC m' r).redeemed = (outC m r).redeemed := by
    intro m a
    simp only [topup]
    cases hc : m.outbound r with
    | none => exact ⟨_, rfl, by simp [topupCreate], by simp [outC, topupCreate, hc], by simp [outC, topupCreate, hc]⟩
    | some c => exact ⟨_, rfl, by simp [topupAdd], by simp [outC, topupAdd, hc], by simp [outC, topupAdd, hc]⟩
  unfold topupAndPay
  obtain ⟨m1, t1, t2, t3, t4⟩ := htop m a1
  rw [t1]
  simp only
  rcases pay_cases sign m1 r lane amount with ⟨hp, h3 | h3⟩ | ⟨m', hp, b, hb⟩ | ⟨c', m', v, hc', hp, _⟩
  · exact absurd h3 t2
  · rw [hp]
    simp only
    obtain ⟨m3, s1, s2, s3, s4⟩ := htop m1 a2
    rw [s1]
    simp only
    rcases pay_cases sign m3 r lane amount with ⟨hp, h3 | h3⟩ | ⟨m', hp, b, hb⟩ | ⟨c', m', v, hc', hp, _⟩
    · exact absurd h3 s2
    · omega
    · exact absurd hb (hsign b)
    · exact ⟨c'.addr, v, by rw [hp]⟩
  · exact absurd hb (hsign b)
  · exact ⟨c'.addr, v, by rw [hp]⟩

example : (∀ b, toySign "me" b ≠ none) ∧
    totalPaid "bob" (payRun (toySign "me") (newMgr "me") exampleOps).2 + 30 ≤
      funded "bob" (payRun (toySign "me") (newMgr "me") exampleOps).2 + 2 * 10 := by
  refine ⟨by simp [toySign], by decide +kernel⟩

/-! ## C78–C81 -/

/-- **C78 refuted.** `Receive` does not look at the channel a voucher names: one voucher, for channel `chA`, is credited
on `chA` and again on `chB`. -/
theorem C78_other_channel_refuted : ∃ (v : Voucher ToySig) (cv : ChainView), v.body.channelAddr = "chA" ∧
    (recvRun toyVerify (newMgr "me") [⟨"chA", some v, some cv⟩, ⟨"chB", some v, some cv⟩]).2 = [.credited 10, .credited 10] :=
  ⟨⟨⟨"chA", 0, 0, 10⟩, ("payer", ⟨"chA", 0, 0, 10⟩)⟩, ⟨100, .key "me", .key "payer"⟩, rfl, by decide +kernel⟩

/-- What `Receive` does instead: the outcome is the same whatever channel the voucher names, as long as the signature
checks the same way. -/
theorem C78_channel_ignored_partial (verify : Sig → Addr → VBody → Bool) (me ch : Addr) (v w : Voucher Sig) (cv : Option ChainView)
    (hl : w.body.lane = v.body.lane) (hn : w.body.nonce = v.body.nonce) (ha : w.body.amount = v.body.amount)
    (hs : ∀ k, verify w.sig k w.body = verify v.sig k v.body) (ops : List (RecvOp Sig)) :
    (receive verify (recvRun verify (newMgr me) ops).1 ch (some w) cv).2 =
      (receive verify (recvRun verify (newMgr me) ops).1 ch (some v) cv).2 := by
  have hrc : ∀ c cv, (recvCheck verify me c w cv).2 = (recvCheck verify me c v cv).2 := by
    intro c cv
    unfold recvCheck
    rw [hl, hn, ha]
    cases cv.to with
    | absent => rfl
    | unresolved => rfl
    | key to =>
      simp only
      split
      · rfl
      · cases cv.frm with
        | absent => rfl
        | unresolved => rfl
        | key k =>
          simp only [hs]
          split
          · rfl
          · split
            · rfl
            · split
              · rfl
              · split <;> rfl
  have hme : (recvRun verify (newMgr me) ops).1.address = me := recvRun_address verify ops _
  generalize (recvRun verify (newMgr me) ops).1 = m at *
  cases cv with
  | none => rfl
  | some cv =>
    simp only [receive]
    cases m.inbound ch with
    | none => simp only [recvCreate, hme, hrc]
    | some c =>
      simp only [recvFound, hme]
      split
      · rfl
      · exact hrc _ _

/-- **C79 refuted**, for every manager state, voucher and channel: if the address presented is not a payment channel (its
state has no `To`), and its balance is not below the recorded one, `Receive` panics — before looking at the signature. -/
theorem C79_receive_panics_refuted (verify : Sig → Addr → VBody → Bool) (m : Mgr Sig) (ch : Addr) (v : Voucher Sig) (cv : ChainView)
    (hto : cv.to = .absent) (hb : ∀ c, m.inbound ch = some c → c.balance ≤ cv.balance) :
    (receive verify m ch (some v) (some cv)).2 = .panic := by
  cases hc : m.inbound ch with
  | none => simp [receive, hc, recvCreate, recvCheck, hto]
  | some c =>
    have := hb c hc
    simp only [receive, hc, recvFound]
    rw [if_neg (by omega)]
    simp [recvCheck, hto]

/-- **C79 (partial).** For a payment channel actor, whose state has both `To` and `From`, `Receive` never panics. -/
theorem C79_no_panic_partial (verify : Sig → Addr → VBody → Bool) (m : Mgr Sig) (ch : Addr) (v : Option (Voucher Sig))
    (cv : Option ChainView) (h : ∀ c, cv = some c → c.to ≠ .absent ∧ c.frm ≠ .absent) :
    (receive verify m ch v cv).2 ≠ .panic := by
  have hrc : ∀ me c v cv, cv.to ≠ .absent → cv.frm ≠ .absent → (recvCheck verify me c v cv).2 ≠ .panic := by
    intro me c v cv h1 h2
    unfold recvCheck
    cases h3 : cv.to with
    | absent => exact absurd h3 h1
    | unresolved => simp
    | key to =>
      simp only
      split
      · simp
      · cases h4 : cv.frm with
        | absent => exact absurd h4 h2
        | unresolved => simp
        | key k =>
          simp only
          split
          · simp
          · split
            · simp
            · split
              · simp
              · split <;> simp
  cases v with
  | none => simp [receive]
  | some v =>
    cases cv with
    | none => simp [receive]
    | some cv =>
      have := h cv rfl
      simp only [receive]
      cases m.inbound ch with
      | none => exact hrc _ _ _ _ this.1 this.2
      | some c =>
        simp only [recvFound]
        split
        · simp
        · exact hrc _ _ _ _ this.1 this.2

example : (receive toyVerify (newMgr "me") "ch" (some ⟨⟨"ch", 0, 0, 1⟩, ("nobody", ⟨"x", 0, 0, 0⟩)⟩) (some ⟨5, .absent, .absent⟩)).2 = .panic := by
  decide +kernel
example : ∀ c, some (⟨100, .key "me", .unresolved⟩ : ChainView) = some c → c.to ≠ .absent ∧ c.frm ≠ .absent := by
  intro c h
  simp at h
  subst h
  simp

/-- **C80 refuted.** `Pay` accepts negative amounts, and with them the vouchers issued promise more than was topped up:
10 on lane 0, −10 on lane 1, 10 on lane 2 against a top-up of 10. -/
theorem C80_negative_amount_refuted :
    let es := (payRun (toySign "me") (newMgr "me")
      [.topup "bob" 10 (.executed "ch"), .pay "bob" 0 10, .pay "bob" 1 (-10), .pay "bob" 2 10]).2
    funded "bob" es = 10 ∧ ([0, 1, 2].map fun i => highest (issued "bob" i es)).sum = 20 := by
  decide +kernel

/-- What the code does with a negative amount: on any channel within its funds it issues a voucher. -/
theorem C80_negative_amount_accepted (sign : VBody → Option Sig) (hsign : ∀ b, sign b ≠ none) (me : Addr) (ops : List PayOp)
    (hops : ∀ op ∈ ops, NonNeg op) (r : Addr) (lane : Nat) (amount : Int) (hneg : amount < 0)
    (hch : ∃ a, .toppedUp r a ∈ (payRun sign (newMgr me) ops).2) :
    ∃ ch v, (pay sign (payRun sign (newMgr me) ops).1 r lane amount).2 = .paid ch v := by
  have hn : NoncesOk (newMgr me : Mgr Sig) := nonces_new
  obtain ⟨h1, h2, _, _⟩ := payRun_spec (sign := sign) ops hn
  have hs : Solvent (newMgr me : Mgr Sig) := by intro r; simp [newMgr, outC]
  have hsol := payRun_solvent (sign := sign) ops hs hn hops r
  rw [h1 r, h2 r] at hsol
  have e1 : (outC (newMgr me : Mgr Sig) r).balance = 0 := rfl
  have e2 : (outC (newMgr me : Mgr Sig) r).redeemed = 0 := rfl
  obtain ⟨ch, v, h3, _⟩ := C35_pay_issues_partial sign hsign me ops r lane amount hch (by omega)
  exact ⟨ch, v, h3⟩

/-- **C81.** A voucher is credited only if its signature verifies under the on-chain payer of the channel presented, and
that channel pays this manager. -/
theorem C81_only_authentic (verify : Sig → Addr → VBody → Bool) (me : Addr) (ops : List (RecvOp Sig)) (ch : Addr)
    (v : Option (Voucher Sig)) (cv : Option ChainView) (a : Int)
    (h : (receive verify (recvRun verify (newMgr me) ops).1 ch v cv).2 = .credited a) :
    ∃ w c payer, v = some w ∧ cv = some c ∧ c.to = .key me ∧ c.frm = .key payer ∧ verify w.sig payer w.body = true := by
  have hme : (recvRun verify (newMgr me) ops).1.address = me := recvRun_address verify ops _
  obtain ⟨_, ⟨a', w, c, _, k2, k3, _, _, _, _, k7, ⟨p, k8, k9⟩, _⟩ | ⟨k1, _⟩⟩ :=
    receive_spec verify (recvRun verify (newMgr me) ops).1 ⟨ch, v, cv⟩
  · exact ⟨w, c, p, k2, k3, by rw [k7, hme], k8, k9⟩
  · exact absurd h (k1 a)

example : (receive toyVerify (recvRun toyVerify (newMgr "me") (exampleRecv.take 2)).1 "ch" (some ⟨⟨"ch", 0, 1, 25⟩, ("payer", ⟨"ch", 0, 1, 25⟩)⟩)
    (some ⟨100, .key "me", .key "payer"⟩)).2 = .credited 15 := by decide +kernel

/-- **C82.** On each channel and lane the vouchers credited come in strictly increasing nonce order: after one with nonce
`n` has been credited, one with nonce `≤ n` is not (nonces below 2^64 − 1, where the `uint64` counter wraps). -/
theorem C82_nonces_increase (verify : Sig → Addr → VBody → Bool) (me : Addr) (ops : List (RecvOp Sig))
    (hwrap : ∀ op ∈ ops, ∀ v, op.voucher = some v → v.body.nonce + 1 < 2 ^ 64) {k : Nat} {op : RecvOp Sig} {v : Voucher Sig} {a : Int}
    (hop : ops[k]? = some op) (hv : op.voucher = some v) (hacc : (recvRun verify (newMgr me) ops).2[k]? = some (.credited a))
    (w : Voucher Sig) (hl : w.body.lane = v.body.lane) (hw : w.body.nonce ≤ v.body.nonce) (chain : Option ChainView) (b : Int) :
    (receive verify (recvRun verify (newMgr me) ops).1 op.channel (some w) chain).2 ≠ .credited b := by
  have h := recvRun_nonce_accepted verify ops (newMgr me) k op v a hwrap hop hv hacc
  obtain ⟨_, ⟨a', w', c, _, k2, k3, _, _, k6, _⟩ | ⟨k1, _⟩⟩ :=
    receive_spec verify (recvRun verify (newMgr me) ops).1 ⟨op.channel, some w, chain⟩
  · simp only [Option.some.injEq] at k2
    subst k2
    simp only at k6
    rw [hl] at k6
    omega
  · exact k1 b

/-- At the wrap-around the order is lost: after nonce 2^64 − 1, nonce 0 is accepted. -/
theorem C82_wrap : (recvRun toyVerify (newMgr "me")
    [⟨"ch", some ⟨⟨"ch", 0, 2 ^ 64 - 1, 5⟩, ("p", ⟨"ch", 0, 2 ^ 64 - 1, 5⟩)⟩, some ⟨9, .key "me", .key "p"⟩⟩,
     ⟨"ch", some ⟨⟨"ch", 0, 0, 6⟩, ("p", ⟨"ch", 0, 0, 6⟩)⟩, some ⟨9, .key "me", .key "p"⟩⟩]).2 = [.credited 5, .credited 1] := by
  decide +kernel

example : (∀ op ∈ exampleRecv, ∀ v, op.voucher = some v → v.body.nonce + 1 < 2 ^ 64) ∧
    (recvRun toyVerify (newMgr "me") exampleRecv).2[2]? = some (.credited 15) := by
  refine ⟨?_, by decide +kernel⟩
  intro op hop v hv
  simp only [exampleRecv, List.mem_cons, List.not_mem_nil, or_false] at hop
  rcases hop with rfl | rfl | rfl | rfl | rfl | rfl | rfl <;> simp at hv <;> subst hv <;> decide

end FcRetrieval.Payment
