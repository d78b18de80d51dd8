import Verif.Model.Payment
/-!
# The terms of a voucher (`common/pkg/fcrpaymentmgr/payment_manager.go`)

`paych.SignedVoucher`, of the Lotus library, has more fields than those of `Payment.VBody`: the terms under which the chain redeems the voucher.
`Pay` leaves them empty (payment_manager.go:246-251); `Receive` decodes a voucher whole (286) and looks at its terms only to check the signature, which is over all
fields (360-367).  `Model/Payment` is used as it is: the terms travel with the signature.
-/

namespace FcRetrieval.Payment.Terms

/-- The fields of `paych.SignedVoucher` that `Pay` does not set.  `secretHash` is `SecretPreimage`; `extra` tells whether there is a call to make (`Extra`). -/
structure Terms where
  timeLockMin : Int
  timeLockMax : Int
  secretHash : List UInt8
  extra : Bool
  minSettleHeight : Int
  merges : List (Nat × Nat)
  deriving DecidableEq, Repr

/-- payment_manager.go:246-251: the terms of the vouchers that `Pay` makes are the zero values. -/
def empty : Terms := ⟨0, 0, [], false, 0, []⟩

/-- A signature and the terms it is for. -/
abbrev Signed (Sig : Type) := Sig × Terms

/-- payment_manager.go:252-259: `Pay` signs all fields of the voucher. -/
def signer {Sig : Type} (sign : VBody × Terms → Option Sig) (b : VBody) : Option (Signed Sig) :=
  match sign (b, empty) with
  | some s => some (s, empty)
  | none => none

/-- payment_manager.go:360-367: `Receive` checks the signature over all fields of the voucher. -/
def checker {Sig : Type} (verify : Sig → Addr → VBody × Terms → Bool) (s : Signed Sig) (key : Addr) (b : VBody) : Bool :=
  verify s.1 key (b, s.2)

/-- What the chain shows of a channel actor (payment_manager.go:297-306), with the epoch from which it redeems nothing any more (0: none), which `Receive` does not read. -/
structure Actor where
  view : ChainView
  settlingAt : Int

end FcRetrieval.Payment.Terms
