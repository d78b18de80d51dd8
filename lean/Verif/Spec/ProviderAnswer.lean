import Verif.Spec.Provider
/-!
# Specification vocabulary: how often a provider answers
-/

namespace FcRetrieval.Provider

/-- The requester gets to see this: a message, an error status, or the message that says that the request is not valid. -/
def Out.answers : Out → Bool
  | .message _ | .status _ | .invalid => true
  | _ => false

/-- The handler broke down. -/
def Out.breaks : Out → Bool
  | .panic => true
  | _ => false

/-- The number of answers that the requester gets. -/
def answers (o : List Out) : Nat := (o.filter Out.answers).length

/-- How often the handler broke down. -/
def breaks (o : List Out) : Nat := (o.filter Out.breaks).length

/-- The key that the provider was given, if any, signs whatever it is asked to (C12 gives this for well-formed keys). -/
def KeySigns (E : Env) (c : Core) : Prop := ∀ k v, c.key = some (k, v) → ∀ b, (Crypto.signMessage E.P k v b).isSome

end FcRetrieval.Provider
