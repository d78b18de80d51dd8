/-!
# Model of the DHT ring (`common/pkg/dhtring/dhtring.go`)

The Go ring is a circular doubly linked list of heap nodes.  The model keeps the heap explicit, so that
every pointer write of the source is a write here, a nil dereference is the result `Fault.panic`, and a
loop that never ends is the result `Fault.diverge`.
-/

namespace FcRetrieval.Ring

/-- How a call can fail to return: a Go run-time panic (nil dereference), or an endless loop. -/
inductive Fault where
  | panic
  | diverge
  deriving DecidableEq, Repr

/-- Outcomes can be compared (used to evaluate concrete cases). -/
instance {ε α : Type} [DecidableEq ε] [DecidableEq α] : DecidableEq (Except ε α)
  | .ok a, .ok b => if h : a = b then isTrue (h ▸ rfl) else isFalse (fun e => h (by injection e))
  | .error a, .error b => if h : a = b then isTrue (h ▸ rfl) else isFalse (fun e => h (by injection e))
  | .ok _, .error _ => isFalse (by intro h; cases h)
  | .error _, .ok _ => isFalse (by intro h; cases h)

/-- A Go string holding an identifier.  Simplification: a list of characters instead of bytes; the two agree
on the strings `validateInput` accepts, which are ASCII, and it rejects all others. -/
abbrev Hex := List Char

/-- Value of a hex digit, as accepted by `validateInput` (dhtring.go:429-439) and read by
`big.Int.SetString(_, 16)`. -/
def digitVal (c : Char) : Option Nat :=
  if '0' ≤ c ∧ c ≤ '9' then some (c.toNat - 48)
  else if 'A' ≤ c ∧ c ≤ 'F' then some (c.toNat - 55)
  else if 'a' ≤ c ∧ c ≤ 'f' then some (c.toNat - 87)
  else none

/-- dhtring.go:429-439 `validateInput`. -/
def validateInput (hex : Hex) : Bool :=
  hex.length == 64 && hex.all (fun c => (digitVal c).isSome)

/-- `new(big.Int).SetString(hex, 16)` (dhtring.go:61, 190) on strings that passed `validateInput`. -/
def keyOf (hex : Hex) : Nat :=
  hex.foldl (fun acc c => 16 * acc + (digitVal c).getD 0) 0

/-- dhtring.go:413-426 `getDist`: `max` is 2^256-1 and `min` is 0 there. -/
def getDist (frm to : Nat) : Nat :=
  if frm < to then to - frm
  else ((2 ^ 256 - 1) - frm) + (to - 0) + 1

/-- dhtring.go:28-38 `ringNode`; pointers are heap addresses, `nil` is `none`. -/
structure Node where
  prv : Option Nat
  distPrv : Option Nat
  key : Nat
  val : Hex
  distNext : Option Nat
  next : Option Nat

/-- The Go heap restricted to ring nodes: contents by address. -/
abbrev Heap := Nat → Node

/-- dhtring.go:40-44 `Ring`, together with the heap its nodes live in.  Addresses below `cap` are allocated. -/
structure Ring where
  heap : Heap
  cap : Nat
  head : Option Nat
  size : Nat

/-- Contents of unallocated memory; never read. -/
def blank : Node := ⟨none, none, 0, [], none, none⟩

/-- dhtring.go:47-52 `CreateRing`. -/
def createRing : Ring := ⟨fun _ => blank, 0, none, 0⟩

/-- Assignment to the fields of the node at address `a` (`a.f = v`). -/
def Heap.upd (h : Heap) (a : Nat) (f : Node → Node) : Heap :=
  fun i => if i = a then f (h i) else h i

/-- `a.prv = v` -/
def Heap.setPrv (h : Heap) (a : Nat) (v : Option Nat) : Heap := h.upd a fun n => { n with prv := v }
/-- `a.next = v` -/
def Heap.setNext (h : Heap) (a : Nat) (v : Option Nat) : Heap := h.upd a fun n => { n with next := v }
/-- `a.distPrv = v` -/
def Heap.setDistPrv (h : Heap) (a : Nat) (v : Option Nat) : Heap := h.upd a fun n => { n with distPrv := v }
/-- `a.distNext = v` -/
def Heap.setDistNext (h : Heap) (a : Nat) (v : Option Nat) : Heap := h.upd a fun n => { n with distNext := v }

/-- Following a pointer; a nil pointer panics. -/
def deref : Option Nat → Except Fault Nat
  | some a => .ok a
  | none => .error .panic

/-- Reading a `*big.Int` as an operand of `Add`; a nil pointer panics. -/
def derefInt : Option Nat → Except Fault Nat
  | some d => .ok d
  | none => .error .panic

/-- `getDist(x.key, y.key)` -/
def Heap.dist (h : Heap) (x y : Nat) : Nat := getDist (h x).key (h y).key

/-- Outcome of the search loop of `Insert`: the key exists, or the place where the new node goes. -/
inductive Place where
  | exists
  | between (prv current : Nat)
  | atEnd (prv : Nat) (current : Option Nat)

/-- dhtring.go:100-124, the loop of `Insert` up to (not including) the pointer writes, which happen just before
the `return` in the loop body. -/
def insertLoop (h : Heap) (headVal : Hex) (newKey : Nat) : Nat → Nat → Option Nat → Except Fault Place
  | 0, _, _ => .error .diverge
  | _ + 1, prv, none => .ok (.atEnd prv none)
  | fuel + 1, prv, some current =>
    if (h current).val = headVal then .ok (.atEnd prv (some current))
    else if (h current).key = newKey then .ok .exists
    else if (h current).key > newKey then .ok (.between prv current)
    else insertLoop h headVal newKey fuel current (h current).next

/-- The eight assignments that put node `n` between `prv` and `current`; the same sequence of assignments occurs three
times in `Insert`: dhtring.go:84-92 (`prv` is the tail, `current` the head), 108-115, and 130-137, where
`newNode.distNext` is computed from `r.head` (`far`) instead of `current`. -/
def putBetween (h : Heap) (prv n current far : Nat) : Heap :=
  let h1 := h.setPrv current (some n)
  let h2 := h1.setDistPrv current (some (h1.dist n current))
  let h3 := h2.setNext n (some current)
  let h4 := h3.setDistNext n (some (h3.dist n far))
  let h5 := h4.setNext prv (some n)
  let h6 := h5.setDistNext prv (some (h5.dist prv n))
  let h7 := h6.setPrv n (some prv)
  h7.setDistPrv n (some (h7.dist prv n))

/-- dhtring.go:68-142, `Insert` once the new node has been allocated at `n`. -/
def insertNode (r : Ring) (n : Nat) : Except Fault Ring := do
  let r := if r.size = 0 then { r with head := some n, size := r.size + 1 } else r
  let head ← deref r.head
  if (r.heap head).key = (r.heap n).key then
    return r
  if (r.heap head).key > (r.heap n).key then
    let tail := (r.heap head).prv.getD head
    return { r with heap := putBetween r.heap tail n head head, head := some n, size := r.size + 1 }
  match ← insertLoop r.heap (r.heap head).val (r.heap n).key (r.cap + 1) head (r.heap head).next with
  | .exists => return r
  | .between prv current =>
    return { r with heap := putBetween r.heap prv n current current, size := r.size + 1 }
  | .atEnd prv current? =>
    let current := current?.getD prv
    return { r with heap := putBetween r.heap prv n current head, size := r.size + 1 }

/-- dhtring.go:61-67, allocation of the new node. -/
def allocNode (r : Ring) (hex : Hex) : Ring :=
  { r with heap := r.heap.upd r.cap fun _ => ⟨none, none, keyOf hex, hex, none, none⟩, cap := r.cap + 1 }

/-- dhtring.go:55-143 `Insert`. -/
def insert (r : Ring) (hex : Hex) : Except Fault Ring :=
  if validateInput hex = false then .ok r
  else insertNode (allocNode r hex) r.cap

/-- dhtring.go:191-224, the loop of `Remove` up to the pointer writes: `some a` is the node to unlink. -/
def removeLoop (h : Heap) (headVal hex : Hex) (hexKey : Nat) : Nat → Option Nat → Except Fault (Option Nat)
  | 0, _ => .error .diverge
  | _ + 1, none => .ok none
  | fuel + 1, some current =>
    if (h current).val = headVal then .ok none
    else if (h current).val = hex then .ok (some current)
    else if (h current).key > hexKey then .ok none
    else removeLoop h headVal hex hexKey fuel (h current).next

/-- dhtring.go:194-215, unlinking `current` from its neighbours.  (Lines 212-214, moving the head, are dead code: the
loop condition excludes the head.) -/
def unlink (h : Heap) (current : Nat) : Heap :=
  match (h current).prv, (h current).next with
  | some prv, some next =>
    if (h prv).val = (h next).val then
      let h1 := h.setPrv next none
      let h2 := h1.setDistPrv next none
      let h3 := h2.setNext next none
      h3.setDistNext next none
    else
      let h1 := h.setNext prv (some next)
      let h2 := h1.setDistNext prv (some (h1.dist prv next))
      let h3 := h2.setPrv next (some prv)
      h3.setDistPrv next (some (h3.dist prv next))
  | _, _ => h

/-- dhtring.go:145-225 `Remove`. -/
def remove (r : Ring) (hex : Hex) : Except Fault Ring := do
  if validateInput hex = false then
    return r
  if r.size = 0 then
    return r
  if r.size = 1 then
    return { r with head := none, size := 0 }
  let head ← deref r.head
  if r.size = 2 then
    let second ← deref (r.heap head).next
    if (r.heap head).val = hex then
      let h1 := r.heap.setNext second none
      let h2 := h1.setPrv second none
      let h3 := h2.setDistPrv second (some 0)
      let h4 := h3.setDistNext second (some 0)
      return { r with heap := h4, head := some second, size := 1 }
    else if (r.heap second).val = hex then
      let h1 := r.heap.setNext head none
      let h2 := h1.setPrv head none
      let h3 := h2.setDistPrv head (some 0)
      let h4 := h3.setDistNext head (some 0)
      return { r with heap := h4, size := 1 }
    else
      return r
  if (r.heap head).val = hex then
    let newHead ← deref (r.heap head).next
    let h1 := r.heap.setPrv head (some newHead)
    let before ← deref (h1 newHead).prv
    let d := h1.dist before newHead
    let h2 := h1.setDistPrv newHead (some d)
    let h3 := h2.setDistNext before (some d)
    return { r with heap := h3, head := some newHead, size := r.size - 1 }
  match ← removeLoop r.heap (r.heap head).val hex (keyOf hex) (r.cap + 1) (r.heap head).next with
  | none => return r
  | some current =>
    return { r with heap := unlink r.heap current, size := r.size - 1 }

/-- The walk `for current != nil && current.val != r.head.val { ...; current = current.next }`
(dhtring.go:248-251, 380-385), collecting the values visited. -/
def walk (h : Heap) (headVal : Hex) : Nat → Option Nat → Except Fault (List Hex)
  | 0, _ => .error .diverge
  | _ + 1, none => .ok []
  | fuel + 1, some current =>
    if (h current).val = headVal then .ok []
    else do
      let rest ← walk h headVal fuel (h current).next
      return (h current).val :: rest

/-- dhtring.go:369-387 `Dump`, the values printed, in order. -/
def dump (r : Ring) : Except Fault (List Hex) :=
  match r.head with
  | none => .ok []
  | some head => do
    let rest ← walk r.heap (r.heap head).val (r.cap + 1) (r.heap head).next
    return (r.heap head).val :: rest

/-- dhtring.go:277-284, the search `for ok := true; ok; ok = current.val != r.head.val`. -/
def searchLoop (h : Heap) (headVal hex : Hex) : Nat → Nat → Except Fault Nat
  | 0, _ => .error .diverge
  | fuel + 1, current =>
    if (h current).val = hex then .ok current
    else do
      let nxt ← deref (h current).next
      if (h nxt).val = headVal then .ok nxt
      else searchLoop h headVal hex fuel nxt

/-- dhtring.go:285-308, the expansion loop of `GetClosest`. -/
def expandLoop (h : Heap) (num : Int) : Nat → Option Nat → Nat → Option Nat → Nat → List Hex →
    Except Fault (List Hex)
  | 0, _, _, _, _, _ => .error .diverge
  | fuel + 1, prv?, distToPrv, next?, distToNext, res => do
    let prv ← deref prv?
    let next ← deref next?
    if (h prv).val = (h next).val then
      return res ++ [(h prv).val]
    if distToPrv ≤ distToNext then
      let res := (h prv).val :: res
      let d ← derefInt (h prv).distPrv
      if (res.length : Int) = num then return res
      expandLoop h num fuel (h prv).prv (distToPrv + d) next? distToNext res
    else
      let res := res ++ [(h next).val]
      let d ← derefInt (h next).distNext
      if (res.length : Int) = num then return res
      expandLoop h num fuel prv? distToPrv (h next).next (distToNext + d) res

/-- dhtring.go:275-309, from the search for the inserted node to the end of the expansion. -/
def searchAndExpand (r : Ring) (hex : Hex) (num : Int) (res : List Hex) : Except Fault (List Hex) := do
  let head ← deref r.head
  let current ← searchLoop r.heap (r.heap head).val hex (r.cap + 1) head
  let dp ← derefInt (r.heap current).distPrv
  let dn ← derefInt (r.heap current).distNext
  expandLoop r.heap num (r.cap + 1) (r.heap current).prv dp (r.heap current).next dn res

/-- dhtring.go:253-310, `GetClosest` after the exclusion and the `num > r.size` branch; the deferred
`r.Remove(hex)` is executed at the end.  The result is the ring afterwards and the returned slice. -/
def insertSearchRemove (r : Ring) (hex : Hex) (num : Int) : Except Fault (Ring × List Hex) := do
  let r1 ← insert r hex
  if r1.size = r.size then
    if num = 1 then
      return (r1, [hex])
    let res ← searchAndExpand r1 hex num [hex]
    return (r1, res)
  else
    let res ← searchAndExpand r1 hex num []
    let r2 ← remove r1 hex
    return (r2, res)

/-- dhtring.go:245-310, `GetClosest` after the exclusion. -/
def closestBody (r : Ring) (hex : Hex) (num : Int) : Except Fault (Ring × List Hex) := do
  if num > (r.size : Int) then
    let head ← deref r.head
    let rest ← walk r.heap (r.heap head).val (r.cap + 1) (r.heap head).next
    return (r, (if (r.heap head).val = hex then [(r.heap head).val] else []) ++ rest)
  insertSearchRemove r hex num

/-- What an API call returns: a value or an `error`. -/
inductive Ret (α : Type) where
  | val (a : α)
  | err
  deriving DecidableEq, Repr

/-- dhtring.go:227-310 `GetClosest`.  `exclude = []` is the Go empty string.  The deferred `r.Insert(exclude)` runs
last (deferred calls run last-in first-out). -/
def getClosest (r : Ring) (hex : Hex) (num : Int) (exclude : Hex) : Except Fault (Ring × Ret (List Hex)) := do
  if validateInput hex = false ∨ (exclude ≠ [] ∧ validateInput exclude = false) then
    return (r, .err)
  if num = 0 ∨ r.size = 0 ∨ (exclude ≠ [] ∧ r.size = 1) then
    return (r, .val [])
  if exclude ≠ [] then
    let r1 ← remove r exclude
    let (r2, res) ← closestBody r1 hex num
    if r1.size ≠ r.size then
      let r3 ← insert r2 exclude
      return (r3, .val res)
    else
      return (r2, .val res)
  else
    let (r2, res) ← closestBody r hex num
    return (r2, .val res)

/-- dhtring.go:402-408, the loop of `get`. -/
def getLoop (h : Heap) (headVal hex : Hex) : Nat → Option Nat → Except Fault (Option Nat)
  | 0, _ => .error .diverge
  | _ + 1, none => .ok none
  | fuel + 1, some current =>
    if (h current).val = headVal then .ok none
    else if (h current).val = hex then .ok (some current)
    else getLoop h headVal hex fuel (h current).next

/-- dhtring.go:389-410 `get`. -/
def get (r : Ring) (hex : Hex) : Except Fault (Option Nat) := do
  if validateInput hex = false then
    return none
  if r.size = 0 then
    return none
  let head ← deref r.head
  if (r.heap head).val = hex then
    return some head
  getLoop r.heap (r.heap head).val hex (r.cap + 1) (r.heap head).next

/-- dhtring.go:351-355, the loop `for next.val != endNode.val`. -/
def rangeLoop (h : Heap) (endVal : Hex) : Nat → Option Nat → Except Fault (List Hex)
  | 0, _ => .error .diverge
  | fuel + 1, next? => do
    let next ← deref next?
    if (h next).val = endVal then return []
    let rest ← rangeLoop h endVal fuel (h next).next
    return (h next).val :: rest

/-- dhtring.go:322-331 and again 334-343: find the node of an end of the range, inserting it first if it is not
stored.  The flag tells whether it was stored. -/
def ensure (r : Ring) (hex : Hex) : Except Fault (Ring × Bool × Option Nat) := do
  match ← get r hex with
  | some n => return (r, true, some n)
  | none =>
    let r1 ← insert r hex
    let n ← get r1 hex
    return (r1, false, n)

/-- The deferred `r.Remove(hex)` (dhtring.go:331, 343), registered only if `hex` was not stored. -/
def dropTemp (r : Ring) (hex : Hex) (stored : Bool) : Except Fault Ring :=
  if stored then .ok r else remove r hex

/-- dhtring.go:312-362 `GetWithinRange`.  The deferred `Remove` calls run at every return, last-in first-out. -/
def getWithinRange (r : Ring) (startHex endHex : Hex) : Except Fault (Ring × Ret (List Hex)) := do
  if validateInput startHex = false ∨ validateInput endHex = false then
    return (r, .err)
  let (r1, addStart, s) ← ensure r startHex
  match s with
  | none => return (r1, .err)
  | some startNode =>
    let (r2, addEnd, e) ← ensure r1 endHex
    match e with
    | none =>
      let r4 ← dropTemp r2 startHex addStart
      return (r4, .err)
    | some endNode =>
      let mid ← rangeLoop r2.heap (r2.heap endNode).val (r2.cap + 1) (r2.heap startNode).next
      let res := (if addStart then [startHex] else []) ++ mid ++ (if addEnd then [endHex] else [])
      let r3 ← dropTemp r2 endHex addEnd
      let r4 ← dropTemp r3 startHex addStart
      return (r4, .val res)

/-- dhtring.go:364-367 `Size`. -/
def Ring.getSize (r : Ring) : Nat := r.size

/-- A history of `Insert` calls. -/
def insertAll : Ring → List Hex → Except Fault Ring
  | r, [] => .ok r
  | r, x :: xs => do
    let r ← insert r x
    insertAll r xs

end FcRetrieval.Ring
