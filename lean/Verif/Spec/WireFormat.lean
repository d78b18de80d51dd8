import Verif.Model.Codecs
import Verif.Spec.JsonGrammar
/-!
# What the message kinds look like on the wire

The names and shapes are those of the struct tags of `common/pkg/fcrmessages` (and of `cidoffer` and `fcrmerkletree` for the nested ones).
-/

namespace FcRetrieval.WireFormat
open FcRetrieval.Wire
open FcRetrieval.Message (Msg)

/-- What a member holds. -/
inductive Shape where
  | text
  | number
  | flag
  | list (s : Shape)
  | message
  | offer
  | subOffer

/-- The members of an object are these, in this order. -/
def Named (names : List String) (j : Json) : Prop := ∃ fs, j = .obj fs ∧ fs.map Prod.fst = names

/-- The value has the shape. -/
def HasShape : Shape → Json → Prop
  | .text, j => ∃ s, j = .str s
  | .number, j => ∃ n, j = .num n
  | .flag, j => ∃ b, j = .bool b
  | .list s, j => j = .null ∨ ∃ xs, j = .arr xs ∧ ∀ x ∈ xs, HasShape s x
  | .message, j => Named ["message_type", "protocol_version", "protocol_supported", "message_body", "message_signature"] j
  | .offer, j => Named ["provider_id", "cids", "price", "expiry", "qos", "signature"] j
  | .subOffer, j => Named ["provider_id", "sub_cid", "merkle_root", "merkle_proof", "price", "expiry", "qos", "signature"] j

/-- The members have these names and shapes, in this order. -/
def Fits : List (String × Json) → List (String × Shape) → Prop
  | [], [] => True
  | (n, j) :: fs, (n', s) :: l => n = n' ∧ HasShape s j ∧ Fits fs l
  | _, _ => False

/-- What is sent of this kind has the type code and, as body, an object with these members; and what is received is judged by these members alone. -/
def Speaks {α : Type} (c : Codec α) (code : Int) (members : List (String × Shape)) : Prop :=
  (∀ pr a m, encode c pr a = .ok m → m.type = code ∧ ∃ fs, Message.parseText (m.body.getD []) = some (.obj fs) ∧ Fits fs members) ∧
  (∀ m m' fs fs', m.type = m'.type → Message.parseText (m.body.getD []) = some (.obj fs) → Message.parseText (m'.body.getD []) = some (.obj fs') →
    (∀ x ∈ members, memberFor x.1 fs = memberFor x.1 fs') → decode c m = decode c m')

end FcRetrieval.WireFormat
