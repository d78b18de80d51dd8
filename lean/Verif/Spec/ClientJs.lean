import Verif.Model.ClientJs
import Verif.Model.GatewayLife
import Verif.Spec.JsonGrammar
/-!
# What the JavaScript client promises about its gateways
-/

namespace FcRetrieval.Js
open FcRetrieval.Crypto (Prims)
open FcRetrieval.JsonGrammar (Whole)
open FcRetrieval.Register (Record)

/-- The value is the text, perhaps wrapped in arrays of one element. -/
inductive Carries (s : List Char) : Json → Prop
  | text : Carries s (.str s)
  | wrapped (j : Json) : Carries s j → Carries s (.arr [j])

/-- The text is a message that confirms an establishment (type 101), and its body names the gateway (in any letter case) and carries the challenge. -/
def Confirms (id challenge text : List Char) : Prop :=
  ∃ fs body bodyText gs gid ch, Whole false (.obj fs) text ∧ field "message_type" fs = some (.num 101) ∧ field "message_body" fs = some (.str body) ∧
    fromB64 body = utf8Bytes bodyText ∧ Whole true (.obj gs) bodyText ∧ field "gateway_id" gs = some (.str gid) ∧ field "challenge" gs = some ch ∧
    gid.map Char.toLower = id.map Char.toLower ∧ Carries challenge ch

/-- Under the key of the registration, somebody has signed a text that confirms the establishment with this challenge. -/
def Signed (P : Prims) (g : Record) (challenge : Bytes) : Prop :=
  ∃ pk text sig, publicKey g.signingKey = some pk ∧ P.verify pk (P.hash (utf8Bytes text)) sig = true ∧ Confirms g.nodeID (b64Encode challenge) text

/-- In this history the register has returned this registration for the identifier. -/
def Registered (h : List Call) (id : List Char) (g : Record) : Prop := ∃ l, Call.toUse l ∈ h ∧ (id, some g) ∈ l

/-- In this history an establishment with the identifier was attempted with these random bytes. -/
def Attempted (h : List Call) (id : List Char) (challenge : Bytes) : Prop := ∃ l a, Call.active l ∈ h ∧ (id, a) ∈ l ∧ a.challenge = challenge

/-- Behind the address there is this gateway: a text that Go reads as an establishment request is handed to its handler, and what the handler writes comes back with
status 200, laid out in any way JSON allows. -/
def Behind {Sig : Type} (E : GatewayAdmin.Env Sig) (n : GatewayAdmin.Node Sig) (net : Net) (url : List Char) : Prop :=
  ∀ t m x, Message.fromBytes (utf8Bytes t) = .ok m → m.type = 100 → (GatewayLife.step E n (.other .establishment) m).2 = [.other (.message x)] →
    ∃ s, net url t = some (200, s) ∧ Whole false (.obj (JsonGrammar.messageMembers x)) s

end FcRetrieval.Js
