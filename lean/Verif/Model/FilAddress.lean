import Verif.Model.Payment
/-!
# Addresses of the chain as text

`common/pkg/fcrpaymentmgr/payment_manager.go` keeps one entry for each text that it has been given as a channel (lines
309-322, `inboundChs[channel]`), but what the chain shows for the channel it asks for by the address that the text reads as
(lines 281, 298).  The reading is `NewFromString` of `github.com/filecoin-project/go-address` v0.0.5 (`common/go.mod`:9), a
dependency; it is modelled here from its source, `address.go` `decode`, because it decides which texts mean the same channel.
-/

namespace FcRetrieval.FilAddress
open FcRetrieval.Payment (Addr Voucher ChainView RecvOp)

/-- An address, by its protocol.  go-address keeps the protocol and the payload in one string of bytes. -/
inductive Address where
  | undef
  | id (n : Nat)
  /-- The protocols '1' (key), '2' (actor) and '3' (BLS key). -/
  | payload (protocol : Char) (bytes : List UInt8)
  deriving DecidableEq, Repr

/-- `strconv.ParseUint(s, 10, 64)`, for a text of at most twenty characters: digits only, at least one. -/
def digitsVal : Nat → List Char → Option Nat
  | acc, [] => some acc
  | acc, c :: cs => if 48 ≤ c.toNat ∧ c.toNat ≤ 57 then digitsVal (acc * 10 + (c.toNat - 48)) cs else none

/-- `strconv.ParseUint(s, 10, 64)`. -/
def parseUint (s : List Char) : Option Nat :=
  if s = [] then none
  else
    match digitsVal 0 s with
    | some n => if n < 2 ^ 64 then some n else none
    | none => none

/-- go-address `UndefAddressString`. -/
def undefText : List Char := ['<', 'e', 'm', 'p', 't', 'y', '>']

/-- go-address `decode`.  `rest` reads what follows the protocol for the protocols other than '0': base 32, then a length and
a checksum. -/
def read (rest : Char → List Char → Option (List UInt8)) (s : List Char) : Option Address :=
  if s = [] ∨ s = undefText then some .undef
  else if s.length > 86 then none
  else
    match s with
    | network :: protocol :: c :: raw =>
      if network ≠ 'f' ∧ network ≠ 't' then none
      else if protocol = '0' then
        if (c :: raw).length > 20 then none else (parseUint (c :: raw)).map .id
      else if protocol = '1' ∨ protocol = '2' ∨ protocol = '3' then (rest protocol (c :: raw)).map (.payload protocol)
      else none
    | _ => none

/-- payment_manager.go:281-306: a call of `Receive` for the channel written like this; `net` is what the chain shows for an
address. -/
def call {Sig : Type} (rest : Char → List Char → Option (List UInt8)) (net : Address → Option ChainView) (v : Option (Voucher Sig)) (text : List Char) : RecvOp Sig :=
  ⟨String.ofList text, v, (read rest text).bind net⟩

end FcRetrieval.FilAddress
