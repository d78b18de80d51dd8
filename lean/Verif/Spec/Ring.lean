import Verif.Model.Ring
/-!
# Specification vocabulary for the DHT ring

Independent of how the operations work: what it means for the linked structure to be a proper ring holding a
given sorted list of identifiers, clockwise distance, and nearness.
-/

namespace FcRetrieval.Ring

/-- Clockwise distance on the circle of 2^256 points. -/
def cw (a b : Nat) : Nat := (b + 2 ^ 256 - a) % 2 ^ 256

/-- Distance on the circle, in whichever direction is shorter. -/
def circ (a b : Nat) : Nat := min (cw a b) (cw b a)

/-- Every two neighbours in the list are related. -/
def Consecutive {α : Type} (R : α → α → Prop) : List α → Prop
  | [] => True
  | [_] => True
  | a :: b :: l => R a b ∧ Consecutive R (b :: l)

/-- `b` is the successor of `a`: the pointers agree in both directions and both nodes store the distance. -/
def Linked (h : Heap) (a b : Nat) : Prop :=
  (h a).next = some b ∧ (h b).prv = some a ∧
  (h a).distNext = some (cw (h a).key (h b).key) ∧ (h b).distPrv = some (cw (h a).key (h b).key)

/-- The ring `r` is well formed, its nodes in order are `as`, and it holds the identifiers `l`. -/
structure IsRingAt (r : Ring) (as : List Nat) (l : List Hex) : Prop where
  head : r.head = as.head?
  size : r.size = as.length
  nodup : as.Nodup
  alloc : ∀ a ∈ as, a < r.cap
  vals : as.map (fun a => (r.heap a).val) = l
  keys : ∀ a ∈ as, (r.heap a).key = keyOf (r.heap a).val
  valid : ∀ x ∈ l, validateInput x = true
  /-- ascending numeric order, no value twice -/
  sorted : l.Pairwise (fun x y => keyOf x < keyOf y)
  links : Consecutive (Linked r.heap) as
  /-- a single node has no neighbours -/
  single : ∀ a, as = [a] → (r.heap a).next = none ∧ (r.heap a).prv = none
  /-- the last node links back to the first -/
  closed : 2 ≤ as.length → ∀ a b, as.getLast? = some a → as.head? = some b → Linked r.heap a b

/-- The ring `r` is well formed and holds exactly the identifiers `l`, listed in ascending order. -/
def IsRing (r : Ring) (l : List Hex) : Prop := ∃ as, IsRingAt r as l

/-- `x` is not stored under another spelling (upper/lower case) than its own. -/
def SameSpelling (l : List Hex) (x : Hex) : Prop := ∀ y ∈ l, keyOf y = keyOf x → y = x

/-- Sorted list `l` with `x` added, unless its value is there already. -/
def addSorted (x : Hex) : List Hex → List Hex
  | [] => [x]
  | y :: ys =>
    if keyOf x < keyOf y then x :: y :: ys
    else if keyOf x = keyOf y then y :: ys
    else y :: addSorted x ys

/-- The stored identifiers on the clockwise arc from `a` to `b` (both included), clockwise from `a`. -/
def arc (a b : Nat) (l : List Hex) : List Hex :=
  if a ≤ b then l.filter (fun x => a ≤ keyOf x ∧ keyOf x ≤ b)
  else l.filter (fun x => a ≤ keyOf x) ++ l.filter (fun x => keyOf x ≤ b)

/-- The digits of identifiers. -/
def hexDigits : List Char := "0123456789abcdefABCDEF".toList

/-- The number a digit stands for. -/
def hexDigit (c : Char) : Nat := "0123456789abcdef".toList.idxOf c.toLower

/-- The number a string of hexadecimal digits stands for, most significant digit first. -/
def hexNum : List Char → Nat
  | [] => 0
  | c :: cs => hexDigit c * 16 ^ cs.length + hexNum cs

end FcRetrieval.Ring
