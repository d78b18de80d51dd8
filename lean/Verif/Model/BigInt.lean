import Verif.Model.Payment
/-!
# The arrays behind the payment manager's numbers

A `big.Int` is a slice of machine words.  `common/pkg/fcrpaymentmgr/payment_manager.go` copies such numbers by value
(`balance: *amount`, line 170), which copies the slice header and shares the words; `Add` writes its result into the words
of its receiver whenever the array has room for it.  This model keeps the arrays, so that two numbers can share one.

The parts of math/big used are those of Go 1.16 on a 64-bit platform.  Amounts are not negative.  The numbers other than
the recorded balances (`redeemed` of channels and lanes, voucher amounts) are made by the manager itself, on lines 171,
212, 228, 239 and 245, and never share an array with another number; they stay plain numbers, as in `Model/Payment.lean`.
-/

namespace FcRetrieval.BigInt

open Payment

/-- math/big/arith.go `_B`: the base of the words, on a 64-bit platform. -/
def W : Nat := 2 ^ 64

/-- The array of a slice of words: how many words it has, and the words, least significant first, as one number. -/
structure Arr where
  cap : Nat
  val : Nat
  deriving DecidableEq, Repr

/-- The arrays in memory. -/
abbrev Heap := List Arr

/-- A `big.Int` that is not negative: its `abs` slice, the first `len` words of an array. -/
structure Num where
  arr : Nat
  len : Nat
  deriving DecidableEq, Repr

/-- The array at an index (one without words if there is none). -/
def Heap.at (h : Heap) (i : Nat) : Arr := h[i]?.getD ⟨0, 0⟩

/-- The value of a number: its words as they are now. -/
def read (h : Heap) (n : Num) : Nat := (h.at n.arr).val % W ^ n.len

/-- math/big/nat.go `norm`: leading zero words are dropped. -/
def norm : Nat → Nat → Nat
  | 0, _ => 0
  | n + 1, v => if v < W ^ n then norm n v else n + 1

/-- math/big/nat.go `make`: the capacity of a new array of `n` words. -/
def newCap (n : Nat) : Nat := if n = 1 then 1 else n + 4

/-- math/big/nat.go `z = z.make(n)`, after which the `n` words are set to `v`: the array of `z` is used if it has `n` words,
otherwise there is a new one.  The words after the first `n` stay. -/
def store (h : Heap) (z : Num) (n v : Nat) : Heap × Num :=
  if n ≤ (h.at z.arr).cap then
    (h.set z.arr ⟨(h.at z.arr).cap, v + W ^ n * ((h.at z.arr).val / W ^ n)⟩, ⟨z.arr, n⟩)
  else (h ++ [⟨newCap n, v⟩], ⟨h.length, n⟩)

/-- math/big `z.Add(z, y)` (int.go `Add`, nat.go `add`) for numbers that are not negative: nothing to add; `z.set(x)`; `z.set(y)`;
or the sum in one word more than the longer number, without leading zeros.  `addVV` reads each word before it writes it, so
the sum is right even if the numbers share their words. -/
def add (h : Heap) (z y : Num) : Heap × Num :=
  if y.len = 0 then
    if z.len = 0 then (h, z) else store h z z.len (read h z)
  else if z.len = 0 then store h z y.len (read h y)
  else
    let (h', z') := store h z (max z.len y.len + 1) (read h z + read h y)
    (h', ⟨z'.arr, norm z'.len (read h z + read h y)⟩)

/-- The payment manager: the balance of each outbound channel is a number with an array; what `mgr` records in its place
is not looked at. -/
structure SMgr (Sig : Type) where
  mgr : Mgr Sig
  balances : Addr → Num
  heap : Heap

/-- The manager as its methods read it: each balance is what its words say now. -/
def view {Sig : Type} (s : SMgr Sig) : Mgr Sig :=
  { s.mgr with outbound := fun r => (s.mgr.outbound r).map fun c => { c with balance := (read s.heap (s.balances r) : Nat) } }

/-- payment_manager.go:89-114 `NewFCRPaymentMgr`, in a program that already has the given numbers. -/
def start {Sig : Type} (me : Addr) (h : Heap) : SMgr Sig := ⟨newMgr me, fun _ => ⟨0, 0⟩, h⟩

/-- payment_manager.go:117-207 `Topup`, run without interference, called with the number `amount`: a new channel's balance is a
copy of the slice header (line 170), an old one is added to (line 204). -/
def topup {Sig : Type} (s : SMgr Sig) (recipient : Addr) (amount : Num) (chain : TopupChain) : SMgr Sig × Bool :=
  match chain with
  | .failed => (s, false)
  | .executed addr =>
    match s.mgr.outbound recipient with
    | none =>
      ({ s with mgr := topupCreate s.mgr recipient (read s.heap amount : Nat) addr,
                balances := fun r => if r = recipient then amount else s.balances r }, true)
    | some _ =>
      let (h, z) := add s.heap (s.balances recipient) amount
      ({ s with heap := h, balances := fun r => if r = recipient then z else s.balances r }, true)

/-- A call on the paying side: a top-up with a number of the caller's, or a payment. -/
inductive Op where
  | topup (recipient : Addr) (amount : Num) (chain : TopupChain)
  | pay (recipient : Addr) (lane : Nat) (amount : Int)

/-- One call.  What is sent to the chain is the value of the number at the time of the call (lines 140 and 185: `lotusbig.NewFromGo`
copies the number).  `Pay` (lines 211-272) does not write to a balance. -/
def step {Sig : Type} (sign : VBody → Option Sig) (s : SMgr Sig) : Op → SMgr Sig × PayEvent Sig
  | .topup r a ch =>
    match topup s r a ch with
    | (s', true) => (s', .toppedUp r (read s.heap a : Nat))
    | (s', false) => (s', .refused)
  | .pay r lane a =>
    match pay sign (view s) r lane a with
    | (m', .paid ch v) => ({ s with mgr := m' }, .paid r lane a ch v)
    | (m', _) => ({ s with mgr := m' }, .refused)

/-- A history of calls, with its events in order. -/
def run {Sig : Type} (sign : VBody → Option Sig) : SMgr Sig → List Op → SMgr Sig × List (PayEvent Sig)
  | s, [] => (s, [])
  | s, op :: ops =>
    let (s1, e) := step sign s op
    let (s2, es) := run sign s1 ops
    (s2, e :: es)

/-! ## Where the caller's number comes from

gateway/config/config.go:58-63 and provider/config/config.go:68-73 read the top-up amount from the settings with `fmt.Sscan`,
and keep the number; gateway/internal/api/clientapi/dht_discover_handler_v2.go:140, 149 and dht_discover_offer_handler.go:79
pass it to every `Topup`. -/

/-- A number being read: its array's length, its words and its value. -/
structure Acc where
  cap : Nat
  len : Nat
  val : Nat
  deriving DecidableEq, Repr

/-- math/big/nat.go `mulAddWW` with the number itself as receiver: `z*y + r`.  The words after the first `len` are left out: they are
written before they are read. -/
def mulAddWW (z : Acc) (y r : Nat) : Acc :=
  if z.len = 0 ∨ y = 0 then
    if r = 0 then { z with len := 0, val := 0 } else ⟨max z.cap 1, 1, r⟩
  else ⟨if z.len + 1 ≤ z.cap then z.cap else newCap (z.len + 1), norm (z.len + 1) (z.val * y + r), z.val * y + r⟩

/-- math/big/natconv.go `scan` in base ten: digits are collected in groups of 19, the most that fit in a word (`maxPow(10)`). -/
def scanGo (z : Acc) (di i : Nat) : List Nat → Acc
  | [] => if 0 < i then mulAddWW z (10 ^ i) di else z
  | d :: ds =>
    if i + 1 = 19 then scanGo (mulAddWW z (10 ^ 19) (di * 10 + d)) 0 0 ds else scanGo z (di * 10 + d) (i + 1) ds

/-- `fmt.Sscan(text, new(big.Int))` for a text of decimal digits that does not begin with a zero. -/
def scanDec (ds : List Nat) : Acc := scanGo ⟨0, 0, 0⟩ 0 0 ds

/-- math/big/int.go `NewInt` (nat.go `setUint64`, `setWord`) for an argument that is not negative. -/
def newInt (v : Nat) : Acc := if v = 0 then ⟨0, 0, 0⟩ else ⟨1, 1, v⟩

/-- math/big/int.go `Mul` into a new number (nat.go `mul`): as many words as both together, or, if one of the two is a single word,
`mulAddWW`; both ask for `m + n` words. -/
def mulNew (x y : Acc) : Acc :=
  if x.len = 0 ∨ y.len = 0 then ⟨0, 0, 0⟩
  else ⟨newCap (x.len + y.len), norm (x.len + y.len) (x.val * y.val), x.val * y.val⟩

/-- The number in memory. -/
def Acc.arr (a : Acc) : Arr := ⟨a.cap, a.val⟩

end FcRetrieval.BigInt
