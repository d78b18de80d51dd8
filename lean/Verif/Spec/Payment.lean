import Verif.Model.Payment
/-!
# Specification vocabulary for payments

Sums and lists over the observable events of a history; nothing here refers to the manager's internal state.
-/

namespace FcRetrieval.Payment

variable {Sig : Type}

/-- Total of the successful top-ups for a recipient. -/
def funded (r : Addr) : List (PayEvent Sig) → Int
  | [] => 0
  | .toppedUp r' a :: es => (if r' = r then a else 0) + funded r es
  | _ :: es => funded r es

/-- The amounts paid to a recipient on a lane, in order. -/
def paidAmounts (r : Addr) (lane : Nat) : List (PayEvent Sig) → List Int
  | [] => []
  | .paid r' lane' a _ _ :: es => if r' = r ∧ lane' = lane then a :: paidAmounts r lane es else paidAmounts r lane es
  | _ :: es => paidAmounts r lane es

/-- The vouchers issued to a recipient on a lane, in order. -/
def issued (r : Addr) (lane : Nat) : List (PayEvent Sig) → List (Voucher Sig)
  | [] => []
  | .paid r' lane' _ _ v :: es => if r' = r ∧ lane' = lane then v :: issued r lane es else issued r lane es
  | _ :: es => issued r lane es

/-- Total of all amounts paid to a recipient, whatever the lane. -/
def totalPaid (r : Addr) : List (PayEvent Sig) → Int
  | [] => 0
  | .paid r' _ a _ _ :: es => (if r' = r then a else 0) + totalPaid r es
  | _ :: es => totalPaid r es

/-- The largest amount a list of (cumulative) vouchers promises; 0 if there is none. -/
def highest : List (Voucher Sig) → Int
  | [] => 0
  | v :: vs => max v.body.amount (highest vs)

/-- Numbered running sums: `cumulative n s [a, b, …] = [(n, s + a), (n + 1, s + a + b), …]`, numbers modulo 2^64. -/
def cumulative (n : Nat) (s : Int) : List Int → List (Nat × Int)
  | [] => []
  | a :: as => (n % 2 ^ 64, s + a) :: cumulative (n + 1) (s + a) as

/-- The operation moves no negative amount. -/
def NonNeg : PayOp → Prop
  | .topup _ a _ => 0 ≤ a
  | .pay _ _ a => 0 ≤ a

/-- The amounts credited by `Receive` on a channel and lane, in order. -/
def credits (ch : Addr) (lane : Nat) : List (RecvOp Sig) → List RecvOut → List Int
  | op :: ops, .credited a :: outs =>
    match op.voucher with
    | some v => if op.channel = ch ∧ v.body.lane = lane then a :: credits ch lane ops outs else credits ch lane ops outs
    | none => credits ch lane ops outs
  | _ :: ops, _ :: outs => credits ch lane ops outs
  | _, _ => []

/-- The cumulative amounts of the vouchers `Receive` accepted on a channel and lane, in order. -/
def accepted (ch : Addr) (lane : Nat) : List (RecvOp Sig) → List RecvOut → List Int
  | op :: ops, .credited _ :: outs =>
    match op.voucher with
    | some v => if op.channel = ch ∧ v.body.lane = lane then v.body.amount :: accepted ch lane ops outs
                else accepted ch lane ops outs
    | none => accepted ch lane ops outs
  | _ :: ops, _ :: outs => accepted ch lane ops outs
  | _, _ => []

/-- Total credited on a channel, whatever the lane. -/
def totalCredited (ch : Addr) : List (RecvOp Sig) → List RecvOut → Int
  | op :: ops, .credited a :: outs => (if op.channel = ch then a else 0) + totalCredited ch ops outs
  | _ :: ops, _ :: outs => totalCredited ch ops outs
  | _, _ => 0

/-- Running sums. -/
def runningSums (s : Int) : List Int → List Int
  | [] => []
  | a :: as => (s + a) :: runningSums (s + a) as

end FcRetrieval.Payment

namespace FcRetrieval.Payment

variable {Sig : Type}

/-- The operation moves a positive amount. -/
def Positive : PayOp → Prop
  | .topup _ a _ => 0 < a
  | .pay _ _ a => 0 < a

/-- The vouchers issued to `r`, each as it is presented to `Receive` right when it is issued: on the channel `Pay`
named, while the chain shows the channel from `payer` to `payee` with everything topped up so far (`bal` before the
list starts). -/
def presented (r payer payee : Addr) (bal : Int) : List (PayEvent Sig) → List (RecvOp Sig)
  | [] => []
  | .toppedUp r' a :: es => presented r payer payee (if r' = r then bal + a else bal) es
  | .paid r' _ _ ch v :: es =>
    if r' = r then ⟨ch, some v, some ⟨bal, .key payee, .key payer⟩⟩ :: presented r payer payee bal es
    else presented r payer payee bal es
  | .refused :: es => presented r payer payee bal es

/-- The amounts paid to `r`, in order, whatever the lane. -/
def amountsTo (r : Addr) : List (PayEvent Sig) → List Int
  | [] => []
  | .paid r' _ a _ _ :: es => if r' = r then a :: amountsTo r es else amountsTo r es
  | _ :: es => amountsTo r es

/-- The calls `calls` (by number), run one after the other in the given order; result: final state and the outcome of
each call. -/
def serially {St Call Out : Type} (call : St → Call → St × Out) (calls : List Call) : St → List Nat → St × List (Nat × Out)
  | st, [] => (st, [])
  | st, i :: is =>
    match calls[i]? with
    | none => serially call calls st is
    | some c =>
      let (st1, o) := call st c
      let (st2, os) := serially call calls st1 is
      (st2, (i, o) :: os)

/-- What the manager has on record for a channel and lane: credited on the lane, lowest nonce still acceptable on the lane,
credited on the channel; all zero when there is no record. -/
def onRecord (m : Mgr Sig) (ch : Addr) (lane : Nat) : Int × Nat × Int :=
  match m.inbound ch with
  | none => (0, 0, 0)
  | some c =>
    match c.lanes lane with
    | none => (0, 0, c.redeemed)
    | some l => (l.redeemed, l.nonce, c.redeemed)

/-- The payments among the events. -/
def payments : List (PayEvent Sig) → List (Addr × Nat × Int × Addr × Voucher Sig)
  | [] => []
  | .paid r lane a ch v :: es => (r, lane, a, ch, v) :: payments es
  | _ :: es => payments es

/-- Number of top-up calls. -/
def topups : List PayOp → Nat
  | [] => 0
  | .topup _ _ _ :: ops => topups ops + 1
  | .pay _ _ _ :: ops => topups ops

end FcRetrieval.Payment
