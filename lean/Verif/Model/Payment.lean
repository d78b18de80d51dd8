/-!
# Model of the payment manager (`common/pkg/fcrpaymentmgr/payment_manager.go`)

The Lotus node is an input: each call carries what the chain answered.  Amounts are `Int` (`big.Int`); the sharing of
digit arrays that copying a `big.Int` by value causes is modelled in `Model/BigInt.lean`.  `uint64` nonces wrap.
Recipient and channel addresses are strings, as the map keys of the code are.
-/

namespace FcRetrieval.Payment

abbrev Addr := String

/-- paych.SignedVoucher without its signature: the fields the code fills in (payment_manager.go:246-251). -/
structure VBody where
  channelAddr : Addr
  lane : Nat
  nonce : Nat
  amount : Int
  deriving DecidableEq, Repr

/-- A signed voucher.  The text encoding (CBOR, base64) is not modelled: a voucher string that does not decode is
`none` where a voucher is expected. -/
structure Voucher (Sig : Type) where
  body : VBody
  sig : Sig

/-- payment_manager.go:81-85 `laneState`; the list of voucher strings is kept as the list of vouchers. -/
structure Lane (Sig : Type) where
  nonce : Nat
  redeemed : Int
  vouchers : List (Voucher Sig)

/-- payment_manager.go:69-78 `channelState`. -/
structure Chan (Sig : Type) where
  addr : Addr
  balance : Int
  redeemed : Int
  lanes : Nat → Option (Lane Sig)

/-- payment_manager.go:51-66 `FCRPaymentMgr`, the fields the operations use. -/
structure Mgr (Sig : Type) where
  address : Addr
  outbound : Addr → Option (Chan Sig)
  inbound : Addr → Option (Chan Sig)

/-- Map assignment `m[k] = v`. -/
def put {κ β : Type} [DecidableEq κ] (m : κ → Option β) (k : κ) (v : β) : κ → Option β :=
  fun i => if i = k then some v else m i

/-- payment_manager.go:89-114 `NewFCRPaymentMgr`: fresh maps. -/
def newMgr {Sig : Type} (address : Addr) : Mgr Sig := ⟨address, fun _ => none, fun _ => none⟩

/-- A fresh lane (payment_manager.go:237-241, 373-377). -/
def newLane {Sig : Type} : Lane Sig := ⟨0, 0, []⟩

/-- The lane state found or created (payment_manager.go:233-243, 369-379). -/
def Chan.lane {Sig : Type} (c : Chan Sig) (i : Nat) : Lane Sig := (c.lanes i).getD newLane

/-- What the chain did with a top-up: it failed somewhere (bad address, node unreachable, not executed: lines 118-166,
182-202), or it was executed; the address is that of the new channel, used only when one is created. -/
inductive TopupChain where
  | failed
  | executed (addr : Addr)

/-- payment_manager.go:167-174, the new entry: whatever was there is overwritten. -/
def topupCreate {Sig : Type} (m : Mgr Sig) (recipient : Addr) (amount : Int) (addr : Addr) : Mgr Sig :=
  { m with outbound := put m.outbound recipient ⟨addr, amount, 0, fun _ => none⟩ }

/-- payment_manager.go:203-204, the addition to an existing entry. -/
def topupAdd {Sig : Type} (m : Mgr Sig) (recipient : Addr) (c : Chan Sig) (amount : Int) : Mgr Sig :=
  { m with outbound := put m.outbound recipient { c with balance := c.balance + amount } }

/-- payment_manager.go:117-207 `Topup`, run without interference.  The result tells whether it succeeded. -/
def topup {Sig : Type} (m : Mgr Sig) (recipient : Addr) (amount : Int) (chain : TopupChain) : Mgr Sig × Bool :=
  match chain with
  | .failed => (m, false)
  | .executed addr =>
    match m.outbound recipient with
    | none => (topupCreate m recipient amount addr, true)
    | some c => (topupAdd m recipient c amount, true)

/-- What `Pay` returns (payment_manager.go:209-211): channel address and voucher, or "needs to top up", or an error. -/
inductive PayOut (Sig : Type) where
  | paid (channel : Addr) (voucher : Voucher Sig)
  | needTopup
  | error

/-- payment_manager.go:211-272 `Pay`.  `sign` is `sigs.Sign` with the manager's key; `none` is a signing or encoding
error, after which the lane has been created but nothing else changed. -/
def pay {Sig : Type} (sign : VBody → Option Sig) (m : Mgr Sig) (recipient : Addr) (lane : Nat) (amount : Int) :
    Mgr Sig × PayOut Sig :=
  match m.outbound recipient with
  | none => (m, .needTopup)
  | some c =>
    if c.balance < c.redeemed + amount then (m, .needTopup)
    else
      let ls := c.lane lane
      let body : VBody := ⟨c.addr, lane, ls.nonce, ls.redeemed + amount⟩
      match sign body with
      | none => ({ m with outbound := put m.outbound recipient { c with lanes := put c.lanes lane ls } }, .error)
      | some sig =>
        let v : Voucher Sig := ⟨body, sig⟩
        let ls' : Lane Sig := ⟨(ls.nonce + 1) % 2 ^ 64, ls.redeemed + amount, ls.vouchers ++ [v]⟩
        let c' : Chan Sig := { c with redeemed := c.redeemed + amount, lanes := put c.lanes lane ls' }
        ({ m with outbound := put m.outbound recipient c' }, .paid c.addr v)

/-- A string field of the actor state (payment_manager.go:339, 352): absent or not a string (the type assertion
panics), not resolvable to an account key (error), or the account key. -/
inductive Field where
  | absent
  | unresolved
  | key (a : Addr)
  deriving DecidableEq, Repr

/-- The channel actor on chain as `StateReadState` shows it (payment_manager.go:297-306). -/
structure ChainView where
  balance : Int
  to : Field
  frm : Field

/-- What `Receive` does: credit an amount, return an error, or panic. -/
inductive RecvOut where
  | credited (amount : Int)
  | error
  | panic
  deriving DecidableEq, Repr

/-- payment_manager.go:338-402, the checks of a voucher against the channel state `c` and the updates.  `verify sig key
body` is `sigs.Verify`.  The returned channel state replaces `c`. -/
def recvCheck {Sig : Type} (verify : Sig → Addr → VBody → Bool) (me : Addr) (c : Chan Sig) (v : Voucher Sig)
    (chain : ChainView) : Chan Sig × RecvOut :=
  match chain.to with
  | .absent => (c, .panic)
  | .unresolved => (c, .error)
  | .key to =>
    if to ≠ me then (c, .error)
    else
      match chain.frm with
      | .absent => (c, .panic)
      | .unresolved => (c, .error)
      | .key frm =>
        if verify v.sig frm v.body = false then (c, .error)
        else
          let ls := c.lane v.body.lane
          let c1 : Chan Sig := { c with lanes := put c.lanes v.body.lane ls }
          if ls.nonce > v.body.nonce then (c1, .error)
          else if ls.redeemed ≥ v.body.amount then (c1, .error)
          else
            let value := v.body.amount - ls.redeemed
            if c.balance < c.redeemed + value then (c1, .error)
            else
              let ls' : Lane Sig := ⟨(v.body.nonce + 1) % 2 ^ 64, v.body.amount, ls.vouchers ++ [v]⟩
              ({ c with redeemed := c.redeemed + value, lanes := put c.lanes v.body.lane ls' }, .credited value)

/-- payment_manager.go:311-323: a new entry for the channel, stored before any check, then the checks. -/
def recvCreate {Sig : Type} (verify : Sig → Addr → VBody → Bool) (m : Mgr Sig) (channel : Addr) (v : Voucher Sig)
    (chain : ChainView) : Mgr Sig × RecvOut :=
  let (c, out) := recvCheck verify m.address ⟨channel, chain.balance, 0, fun _ => none⟩ v chain
  ({ m with inbound := put m.inbound channel c }, out)

/-- payment_manager.go:324-336: the balance of an existing entry is refreshed, then the checks. -/
def recvFound {Sig : Type} (verify : Sig → Addr → VBody → Bool) (m : Mgr Sig) (channel : Addr) (c : Chan Sig)
    (v : Voucher Sig) (chain : ChainView) : Mgr Sig × RecvOut :=
  if c.balance > chain.balance then (m, .error)
  else
    let (c', out) := recvCheck verify m.address { c with balance := chain.balance } v chain
    ({ m with inbound := put m.inbound channel c' }, out)

/-- payment_manager.go:276-403 `Receive`, run without interference.  `none` for the voucher: it does not decode;
`none` for the chain: bad address, node unreachable, or not a map (lines 280-306). -/
def receive {Sig : Type} (verify : Sig → Addr → VBody → Bool) (m : Mgr Sig) (channel : Addr)
    (voucher : Option (Voucher Sig)) (chain : Option ChainView) : Mgr Sig × RecvOut :=
  match voucher, chain with
  | some v, some ch =>
    match m.inbound channel with
    | none => recvCreate verify m channel v ch
    | some c => recvFound verify m channel c v ch
  | _, _ => (m, .error)

/-! ## Histories -/

/-- A call on the paying side. -/
inductive PayOp where
  | topup (recipient : Addr) (amount : Int) (chain : TopupChain)
  | pay (recipient : Addr) (lane : Nat) (amount : Int)

/-- What an observer sees of a call on the paying side: successful top-ups, and issued vouchers. -/
inductive PayEvent (Sig : Type) where
  | toppedUp (recipient : Addr) (amount : Int)
  | paid (recipient : Addr) (lane : Nat) (amount : Int) (channel : Addr) (voucher : Voucher Sig)
  | refused

/-- One call. -/
def payStep {Sig : Type} (sign : VBody → Option Sig) (m : Mgr Sig) : PayOp → Mgr Sig × PayEvent Sig
  | .topup r a ch =>
    match topup m r a ch with
    | (m', true) => (m', .toppedUp r a)
    | (m', false) => (m', .refused)
  | .pay r lane a =>
    match pay sign m r lane a with
    | (m', .paid ch v) => (m', .paid r lane a ch v)
    | (m', _) => (m', .refused)

/-- A history of calls, with its events in order. -/
def payRun {Sig : Type} (sign : VBody → Option Sig) : Mgr Sig → List PayOp → Mgr Sig × List (PayEvent Sig)
  | m, [] => (m, [])
  | m, op :: ops =>
    let (m1, e) := payStep sign m op
    let (m2, es) := payRun sign m1 ops
    (m2, e :: es)

/-- A call of `Receive` with what the chain showed. -/
structure RecvOp (Sig : Type) where
  channel : Addr
  voucher : Option (Voucher Sig)
  chain : Option ChainView

/-- A history of `Receive` calls, with the outcomes in order. -/
def recvRun {Sig : Type} (verify : Sig → Addr → VBody → Bool) : Mgr Sig → List (RecvOp Sig) →
    Mgr Sig × List RecvOut
  | m, [] => (m, [])
  | m, op :: ops =>
    let (m1, e) := receive verify m op.channel op.voucher op.chain
    let (m2, es) := recvRun verify m1 ops
    (m2, e :: es)

/-! ## The client's combination -/

/-- What `topupAndPay` returns: channel and voucher, or one of its five errors. -/
inductive TopupPayOut (Sig : Type) where
  | paid (channel : Addr) (voucher : Voucher Sig)
  | topupFailed
  | payFailed
  | secondTopupFailed
  | secondPayFailed
  | stillNeedsTopup

/-- client/pkg/fcrclient/filecoin_retrieval_client.go:768-791 `topupAndPay`.  `chain1`, `chain2` are what the chain does
with the first and, if it comes to that, the second top-up. -/
def topupAndPay {Sig : Type} (sign : VBody → Option Sig) (topUpAmount : Int) (m : Mgr Sig) (recipient : Addr) (lane : Nat)
    (amount : Int) (chain1 chain2 : TopupChain) : Mgr Sig × TopupPayOut Sig :=
  match topup m recipient topUpAmount chain1 with
  | (m1, false) => (m1, .topupFailed)
  | (m1, true) =>
    match pay sign m1 recipient lane amount with
    | (m2, .error) => (m2, .payFailed)
    | (m2, .paid ch v) => (m2, .paid ch v)
    | (m2, .needTopup) =>
      match topup m2 recipient topUpAmount chain2 with
      | (m3, false) => (m3, .secondTopupFailed)
      | (m3, true) =>
        match pay sign m3 recipient lane amount with
        | (m4, .error) => (m4, .secondPayFailed)
        | (m4, .needTopup) => (m4, .stillNeedsTopup)
        | (m4, .paid ch v) => (m4, .paid ch v)

/-! ## Interleavings

The map lock protects the lookup.  When the entry is found the read lock and the channel's own lock are held to the end,
so lookup and update are one step.  When it is missing the read lock is released and the write lock taken afterwards,
without looking again (payment_manager.go:133-138, 311-315): two steps. -/

/-- Where a call stands. -/
inductive Pc (Out : Type) where
  | start
  | missing
  | done (out : Out)

/-- One step of a `Receive` call. -/
def recvThreadStep {Sig : Type} (verify : Sig → Addr → VBody → Bool) (m : Mgr Sig) (channel : Addr) (v : Voucher Sig)
    (ch : ChainView) : Pc RecvOut → Mgr Sig × Pc RecvOut
  | .start =>
    match m.inbound channel with
    | none => (m, .missing)
    | some c => let (m', o) := recvFound verify m channel c v ch; (m', .done o)
  | .missing => let (m', o) := recvCreate verify m channel v ch; (m', .done o)
  | .done o => (m, .done o)

/-- One step of a `Topup` call whose transaction is executed. -/
def topupThreadStep {Sig : Type} (m : Mgr Sig) (recipient : Addr) (amount : Int) (addr : Addr) :
    Pc Unit → Mgr Sig × Pc Unit
  | .start =>
    match m.outbound recipient with
    | none => (m, .missing)
    | some c => (topupAdd m recipient c amount, .done ())
  | .missing => (topupCreate m recipient amount addr, .done ())
  | .done o => (m, .done o)

/-- A running system: shared state and the calls in progress. -/
structure Sys (St Call Out : Type) where
  state : St
  threads : List (Call × Pc Out)

/-- Let thread `i` take one step. -/
def sysStep {St Call Out : Type} (step : St → Call → Pc Out → St × Pc Out) (s : Sys St Call Out) (i : Nat) :
    Sys St Call Out :=
  match s.threads[i]? with
  | none => s
  | some (call, pc) =>
    let (st, pc') := step s.state call pc
    ⟨st, s.threads.set i (call, pc')⟩

/-- Run a schedule: the list of threads that move. -/
def sysRun {St Call Out : Type} (step : St → Call → Pc Out → St × Pc Out) (s : Sys St Call Out) (sched : List Nat) :
    Sys St Call Out :=
  sched.foldl (sysStep step) s

end FcRetrieval.Payment
