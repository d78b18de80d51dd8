import Verif.Model.VoucherTerms
/-!
# Specification of C179: what is credited can be collected
-/

namespace FcRetrieval.Payment.Terms

/-- Whoever holds the voucher can redeem it on the chain, at this channel and at this epoch, without anything else: it names the channel, no time lock is open, it needs
no secret and no call to another actor, and the channel has not been settled.  (What the documentation of `paych.SignedVoucher` and of the actor says of the fields.  Amounts, lanes
and nonces are C37 and C82.) -/
structure Collectable {Sig : Type} (channel : Addr) (settlingAt epoch : Int) (v : Voucher (Signed Sig)) : Prop where
  named : v.body.channelAddr = channel
  started : v.sig.2.timeLockMin ≤ epoch
  lasting : v.sig.2.timeLockMax = 0 ∨ epoch ≤ v.sig.2.timeLockMax
  open_ : v.sig.2.secretHash = []
  alone : v.sig.2.extra = false
  unsettled : settlingAt = 0 ∨ epoch < settlingAt

/-- The same voucher under other terms, with the signature of `sign` for them. -/
def under {Sig : Type} (sign : VBody × Terms → Sig) (t : Terms) (v : Voucher (Signed Sig)) : Voucher (Signed Sig) :=
  ⟨v.body, (sign (v.body, t), t)⟩

end FcRetrieval.Payment.Terms
