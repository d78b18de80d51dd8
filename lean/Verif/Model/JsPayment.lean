import Verif.Model.Go
import Verif.Model.Maps
/-!
# Model of the payment manager of the JavaScript client (`client-js/src/fcrPaymentMgr/payment_manager.class.ts`)

`pay` runs at once.  `topup` is asynchronous: it is cut where it awaits the node of the chain, and what happens between two cuts is one event, so
several top-ups can be under way at once and `pay` can come in between.  Amounts are natural numbers (`BN`, without a bound).
-/

namespace FcRetrieval.JsPay

/-- payment_manager.class.ts:6-16 `LaneState`. -/
structure Lane where
  nonce : Nat
  redeemed : Nat
  vouchers : List (List Char)

/-- payment_manager.class.ts:18-30 `ChannelState`. -/
structure Chan where
  addr : List Char
  balance : Nat
  redeemed : Nat
  lanes : List (Nat × Lane)

/-- payment_manager.class.ts:37 `outboundChs`: by recipient. -/
abbrev Mgr := List (List Char × Chan)

/-- What `createVoucher` is given (payment_manager.class.ts:163-171; the other arguments are constants). -/
structure Voucher where
  addr : List Char
  amount : Nat
  lane : Nat
  nonce : Nat

/-- payment_manager.class.ts:178: to the alphabet for URLs, without padding. -/
def urlSafe (s : List Char) : List Char :=
  ((s.map fun c => if c = '+' then '-' else if c = '/' then '_' else c).reverse.dropWhile (· == '=')).reverse

/-- What `pay` returns (payment_manager.class.ts:145, 151, 175, 184): a top-up is needed; no voucher could be signed; the channel's address and a
voucher.  With the voucher's text goes, for the reader, what it says. -/
inductive PayOut where
  | topup
  | failed
  | paid (addr : List Char) (text : List Char) (v : Voucher)

/-- payment_manager.class.ts:141-185 `pay`; `sign` is the signing library, `none` when it gives no voucher. -/
def pay (sign : Voucher → Option (List Char)) (m : Mgr) (recipient : List Char) (lane amount : Nat) : Mgr × PayOut :=
  match mget m recipient with
  | none => (m, .topup)
  | some cs =>
    if cs.balance < cs.redeemed + amount then (m, .topup)
    else
      let ls := (mget cs.lanes lane).getD ⟨0, 0, []⟩
      let v : Voucher := ⟨cs.addr, ls.redeemed + amount, lane, ls.nonce⟩
      match sign v with
      | none => (mset m recipient { cs with lanes := mset cs.lanes lane ls }, .failed)
      | some text =>
        (mset m recipient
          { cs with
            lanes := mset cs.lanes lane ⟨ls.nonce + 1, ls.redeemed + amount, ls.vouchers ++ [urlSafe text]⟩
            redeemed := cs.redeemed + amount }, .paid cs.addr (urlSafe text) v)

/-- Where a `topup` stands. -/
inductive Task where
  /-- payment_manager.class.ts:62-63, waiting for the nonce. -/
  | update (recipient : List Char) (amount : Nat)
  /-- payment_manager.class.ts:64-82: the address of the channel and the nonce are in the message. -/
  | updateTo (recipient : List Char) (amount : Nat) (addr : List Char) (nonce : Nat)
  /-- payment_manager.class.ts:83-84, the message has been sent. -/
  | updated (recipient : List Char) (amount : Nat) (addr : List Char)
  /-- payment_manager.class.ts:100-103, waiting for the nonce. -/
  | create (recipient : List Char) (amount : Nat)
  /-- payment_manager.class.ts:107-125: the nonce is in the message. -/
  | creating (recipient : List Char) (amount : Nat) (nonce : Nat)
  /-- payment_manager.class.ts:127-134, the message has been sent and the channel exists. -/
  | created (recipient : List Char) (amount : Nat) (addr : List Char)

/-- The manager, the top-ups under way, what each channel holds on the chain, the nonce the chain expects next from the wallet, and the vouchers that
have been given out, the last one last. -/
structure World where
  mgr : Mgr
  tasks : List Task
  chain : List (List Char × Nat)
  nonce : Nat
  issued : List Voucher

/-- payment_manager.class.ts:40-46, for a wallet that has sent `n` messages. -/
def newWorld (n : Nat) : World := ⟨[], [], [], n, []⟩

/-- What happens. -/
inductive Event where
  | pay (recipient : List Char) (lane amount : Nat)
  /-- `topup` is called. -/
  | topup (recipient : List Char) (amount : Nat)
  /-- The `i`-th top-up goes on; a new channel gets the address. -/
  | go (i : Nat) (addr : List Char)
  /-- The `i`-th top-up ends with an exception. -/
  | fail (i : Nat)
  /-- The node takes the message of the `i`-th top-up, but its execution on the chain fails, which takes the nonce and moves no money. -/
  | reject (i : Nat)
  /-- Somebody else sends a message from the wallet. -/
  | other

/-- payment_manager.class.ts:48-54 `topup`, up to its first `await`. -/
def start (m : Mgr) (recipient : List Char) (amount : Nat) : Task :=
  if (mget m recipient).isSome then .update recipient amount else .create recipient amount

/-- A deposit on the chain. -/
def deposit (chain : List (List Char × Nat)) (addr : List Char) (amount : Nat) : List (List Char × Nat) :=
  mset chain addr ((mget chain addr).getD 0 + amount)

/-- One event.  The chain takes a message only with the nonce it expects, and gives every new channel an address that was not in use. -/
def step (sign : Voucher → Option (List Char)) (w : World) : Event → World
  | .pay recipient lane amount =>
    match pay sign w.mgr recipient lane amount with
    | (m, .paid _ _ v) => { w with mgr := m, issued := w.issued ++ [v] }
    | (m, _) => { w with mgr := m }
  | .topup recipient amount => { w with tasks := w.tasks ++ [start w.mgr recipient amount] }
  | .fail i => { w with tasks := w.tasks.eraseIdx i }
  | .reject i =>
    match w.tasks[i]? with
    | some (.updateTo r a ad n) =>
      -- :84 what `waitMessage` returns is not looked at
      if n = w.nonce then { w with tasks := w.tasks.set i (.updated r a ad), nonce := w.nonce + 1 } else w
    | some (.creating _ _ n) =>
      -- :129 there is no `ReturnDec` to take a field of
      if n = w.nonce then { w with tasks := w.tasks.eraseIdx i, nonce := w.nonce + 1 } else w
    | _ => w
  | .other => { w with nonce := w.nonce + 1 }
  | .go i addr =>
    match w.tasks[i]? with
    | none => w
    | some (.update r a) =>
      -- :67 `?.addr`; a message to nobody gets no estimate (:78-80)
      match mget w.mgr r with
      | none => { w with tasks := w.tasks.eraseIdx i }
      | some cs => { w with tasks := w.tasks.set i (.updateTo r a cs.addr w.nonce) }
    | some (.updateTo r a ad n) =>
      if n = w.nonce then
        { w with tasks := w.tasks.set i (.updated r a ad), chain := deposit w.chain ad a, nonce := w.nonce + 1 }
      else { w with tasks := w.tasks.eraseIdx i }
    | some (.updated r a _) =>
      -- :85-90
      match mget w.mgr r with
      | none => { w with tasks := w.tasks.eraseIdx i }
      | some cs => { w with tasks := w.tasks.eraseIdx i, mgr := mset w.mgr r { cs with balance := cs.balance + a } }
    | some (.create r a) =>
      -- :104-106 `!nonceRes.result`
      if w.nonce = 0 then { w with tasks := w.tasks.eraseIdx i }
      else { w with tasks := w.tasks.set i (.creating r a w.nonce) }
    | some (.creating r a n) =>
      if (mget w.chain addr).isSome then w
      else if n = w.nonce then
        { w with tasks := w.tasks.set i (.created r a addr), chain := deposit w.chain addr a, nonce := w.nonce + 1 }
      else { w with tasks := w.tasks.eraseIdx i }
    | some (.created r a ad) =>
      -- :135-136
      { w with tasks := w.tasks.eraseIdx i, mgr := mset w.mgr r ⟨ad, a, 0, []⟩ }

/-- Events one after the other. -/
def run (sign : Voucher → Option (List Char)) (w : World) (h : List Event) : World := h.foldl (step sign) w

end FcRetrieval.JsPay
