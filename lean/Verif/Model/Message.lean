import Verif.Model.Crypto
/-!
# Model of `common/pkg/fcrmessages/fcrmessage.go`: the message envelope
-/

namespace FcRetrieval.Message
open FcRetrieval.Crypto (Prims KeyPair KeyVersion)

/-- fcrmessage.go:34-40 `FCRMessage`; a nil slice is `none`. -/
structure Msg where
  type : Int
  version : Int
  supported : Option (List Int)
  body : Option Bytes
  signature : List Char
  deriving DecidableEq

/-- fcrmessage.go:26-31, 180-189: the protocol version and the versions supported, process-wide variables. -/
structure Protocol where
  version : Int
  supported : Option (List Int)

/-- fcrmessage.go:26-31, the initial values. -/
def defaultProtocol : Protocol := ⟨1, some [1, 1]⟩

/-- fcrmessage.go:52-60 `CreateFCRMessage`. -/
def create (pr : Protocol) (type : Int) (body : Option Bytes) : Msg :=
  { type := type, body := body, version := pr.version, supported := pr.supported, signature := [] }

/-- A `[]int32`. -/
def intsJson : Option (List Int) → Json
  | none => .null
  | some l => .arr (l.map .num)

/-- fcrmessage.go:43-49, 141-149 and 168-175: the JSON of a message with the given signature. -/
def msgJson (m : Msg) (signature : List Char) : Json :=
  .obj [("message_type", .num m.type), ("protocol_version", .num m.version), ("protocol_supported", intsJson m.supported),
    ("message_body", jsonBytes m.body), ("message_signature", .str signature)]

/-- fcrmessage.go:141-149 `MarshalJSON`. -/
def marshal (m : Msg) : Json := msgJson m m.signature

/-- `json.Unmarshal` into a nil `[]int32`. -/
def decInts : Option Json → Option (Option (List Int))
  | none => some none
  | some .null => some none
  | some (.arr xs) => (xs.mapM (fun x => decI32 (some x))).map some
  | some _ => none

/-- fcrmessage.go:152-164 `UnmarshalJSON`. -/
def unmarshal (j : Json) : Res Msg := do
  let fs ← Res.ofOption (decObj j)
  let type ← Res.ofOption (decI32 (memberFor "message_type" fs))
  let version ← Res.ofOption (decI32 (memberFor "protocol_version" fs))
  let supported ← Res.ofOption (decInts (memberFor "protocol_supported" fs))
  let body ← Res.ofOption (decBytes (memberFor "message_body" fs))
  let signature ← Res.ofOption (decStr (memberFor "message_signature" fs))
  return { type := type, version := version, supported := supported, body := body, signature := signature }

/-- `json.Marshal` as bytes. -/
def jsonText (j : Json) : Bytes := utf8Bytes (render j)

/-- The parsing half of `json.Unmarshal`. -/
def parseText (b : Bytes) : Option Json := (utf8Text b).bind parseJson

/-- fcrmessage.go:126-128 `FCRMsgToBytes`. -/
def toBytes (m : Msg) : Bytes := jsonText (marshal m)

/-- fcrmessage.go:131-138 `FCRMsgFromBytes`. -/
def fromBytes (b : Bytes) : Res Msg :=
  match parseText b with
  | none => .err
  | some j => unmarshal j

/-- fcrmessage.go:168-175 `MarshalToSign`: the signature is written as the empty string. -/
def toSign (m : Msg) : Bytes := jsonText (msgJson m [])

/-- fcrmessage.go:88-101 `Sign`: the message afterwards, and whether it succeeded. -/
def sign (P : Prims) (k : KeyPair) (v : KeyVersion) (m : Msg) : Msg × Bool :=
  match Crypto.signMessage P k v (toSign m) with
  | none => ({ m with signature := [] }, false)
  | some sig => ({ m with signature := sig }, true)

/-- fcrmessage.go:104-123 `Verify`: the message afterwards (the method clears the signature and puts it back only on success),
and whether it verified. -/
def verify (P : Prims) (k : KeyPair) (m : Msg) : Msg × Bool :=
  match Crypto.verifyMessage P k m.signature (toSign m) with
  | some true => (m, true)
  | _ => ({ m with signature := [] }, false)

end FcRetrieval.Message
