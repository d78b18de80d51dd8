import Verif.Model.JsPayment
/-!
# What a user expects of the payment manager of the JavaScript client

A voucher says: on this channel and this lane, the recipient may take this much altogether, and this is the so many-th voucher.
-/

namespace FcRetrieval.JsPay

/-- The vouchers for one lane of one channel. -/
def onLane (l : List Voucher) (addr : List Char) (lane : Nat) : List Voucher := l.filter fun v => v.addr = addr ∧ v.lane = lane

/-- What the recipient can take on a lane: the largest amount on a voucher for it. -/
def best (l : List Voucher) (addr : List Char) (lane : Nat) : Nat := ((onLane l addr lane).map (·.amount)).foldl max 0

/-- What the recipient can take on some lanes. -/
def owed (l : List Voucher) (addr : List Char) (lanes : List Nat) : Nat := (lanes.map (best l addr)).sum

/-- Whom a top-up is for. -/
def Task.recipient : Task → List Char
  | .update r _ => r
  | .updateTo r _ _ _ => r
  | .updated r _ _ => r
  | .create r _ => r
  | .creating r _ _ => r
  | .created r _ _ => r

/-- The caller waits for a top-up before asking for another one for the same recipient. -/
def Orderly (sign : Voucher → Option (List Char)) : World → List Event → Prop
  | _, [] => True
  | w, e :: h => (∀ r a, e = .topup r a → ∀ t ∈ w.tasks, t.recipient ≠ r) ∧ Orderly sign (step sign w e) h

/-- No top-up ends with an exception it gets from outside. -/
def Smooth (h : List Event) : Prop := ∀ i, .fail i ∉ h

/-- Every message the chain takes is executed. -/
def Executed (h : List Event) : Prop := ∀ i, .reject i ∉ h

/-- The characters of base64 for URLs (RFC 4648, section 5). -/
def urlChar (n : Nat) : Char := "ABCDEFGHIJKLMNOPQRSTUVWXYZabcdefghijklmnopqrstuvwxyz0123456789-_".toList.getD n 'A'

/-- `base64.RawURLEncoding`, in which Lotus writes and reads vouchers: six bits a character, no padding. -/
def rawUrl : Bytes → List Char
  | [] => []
  | [a] => [urlChar (a.toNat / 4), urlChar (a.toNat % 4 * 16)]
  | [a, b] => [urlChar (a.toNat / 4), urlChar (a.toNat % 4 * 16 + b.toNat / 16), urlChar (b.toNat % 16 * 4)]
  | a :: b :: c :: r =>
    urlChar (a.toNat / 4) :: urlChar (a.toNat % 4 * 16 + b.toNat / 16) :: urlChar (b.toNat % 16 * 4 + c.toNat / 64) :: urlChar (c.toNat % 64) :: rawUrl r

/-- The wallet is used by nobody else. -/
def Alone (h : List Event) : Prop := .other ∉ h

end FcRetrieval.JsPay
