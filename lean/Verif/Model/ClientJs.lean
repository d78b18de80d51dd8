import Verif.Model.Message
import Verif.Model.Register
import Verif.Model.Maps
/-!
# Model of the JavaScript client (`client-js/src`)

Establishment with gateways, discovery of offers, and what they stand on: the encoding helpers, the message class, `JSON.stringify`,
Node's base64.  Library behaviour from its documentation.

Simplifications: strings are lists of characters (in JavaScript of UTF-16 units, so a lone surrogate is a character of its own); numbers are
integers; a member that `JSON.parse` has read twice stands where the last one stood.  An exception is `none`; messages to the console are
not modelled.  A method of the client runs to its end before the next one is called.
-/

namespace FcRetrieval.Js
open FcRetrieval.Crypto (Prims)
open FcRetrieval.Register (Record)

/-! ## `JSON.stringify` -/

/-- One character of a string. -/
def escChar (c : Char) : List Char :=
  if c = '"' then ['\\', '"']
  else if c = '\\' then ['\\', '\\']
  else if c.toNat = 8 then ['\\', 'b']
  else if c.toNat = 12 then ['\\', 'f']
  else if c = '\n' then ['\\', 'n']
  else if c = '\r' then ['\\', 'r']
  else if c = '\t' then ['\\', 't']
  else if c.toNat < 32 then '\\' :: 'u' :: hex4Digits c.toNat
  else [c]

/-- A string without its quotes. -/
def escStr : List Char → List Char
  | [] => []
  | c :: cs => escChar c ++ escStr cs

mutual
/-- `JSON.stringify(v)`. -/
def stringify : Json → List Char
  | .null => ['n', 'u', 'l', 'l']
  | .bool true => ['t', 'r', 'u', 'e']
  | .bool false => ['f', 'a', 'l', 's', 'e']
  | .num n => intDigits n
  | .str s => '"' :: (escStr s ++ ['"'])
  | .arr [] => ['[', ']']
  | .arr (x :: xs) => '[' :: (stringify x ++ stringifyElems xs)
  | .obj [] => ['{', '}']
  | .obj (f :: fs) => '{' :: (stringifyField f ++ stringifyFields fs)
/-- The rest of an array after its first element. -/
def stringifyElems : List Json → List Char
  | [] => [']']
  | x :: xs => ',' :: (stringify x ++ stringifyElems xs)
/-- One member of an object. -/
def stringifyField : String × Json → List Char
  | (k, v) => '"' :: (escStr k.toList ++ '"' :: ':' :: stringify v)
/-- The rest of an object after its first member. -/
def stringifyFields : List (String × Json) → List Char
  | [] => ['}']
  | f :: fs => ',' :: (stringifyField f ++ stringifyFields fs)
end

/-- A member whose value may be `undefined`: it is then left out. -/
def member (k : String) : Option Json → List (String × Json)
  | none => []
  | some v => [(k, v)]

/-! ## fcrcrypto/encode.helper.ts -/

/-- `\w` of a regular expression. -/
def isWord (c : Char) : Bool := ('a' ≤ c && c ≤ 'z') || ('A' ≤ c && c ≤ 'Z') || ('0' ≤ c && c ≤ '9') || c == '_'

/-- fcrcrypto/encode.helper.ts:23-25: `split(/(\w\w)/g)` without the empty pieces.  The first argument is what has been read since the last pair, reversed. -/
def pieces : List Char → List Char → List (List Char)
  | [], [] => []
  | acc, [] => [acc.reverse]
  | acc, [c] => [(c :: acc).reverse]
  | acc, a :: b :: r =>
    if isWord a && isWord b then
      if acc = [] then [a, b] :: pieces [] r else acc.reverse :: [a, b] :: pieces [] r
    else pieces (a :: acc) (b :: r)

/-- White space that `parseInt` skips. -/
def isSpace (c : Char) : Bool :=
  c.toNat ∈ [9, 10, 11, 12, 13, 32, 0xA0, 0x1680, 0x2028, 0x2029, 0x202F, 0x205F, 0x3000, 0xFEFF] || (0x2000 ≤ c.toNat && c.toNat ≤ 0x200A)

/-- The longest prefix of hex digits, as a number. -/
def hexPrefix (acc : Nat) : List Char → Nat
  | [] => acc
  | c :: r => match hexVal c with
    | none => acc
    | some d => hexPrefix (16 * acc + d) r

/-- Without `0x`. -/
def dropHexMark : List Char → List Char
  | '0' :: 'x' :: r => r
  | '0' :: 'X' :: r => r
  | r => r

/-- `parseInt(s, 16)` put into a `Uint8Array`: `NaN` becomes 0, other numbers are taken modulo 256. -/
def parseHexByte (s : List Char) : UInt8 :=
  match s.dropWhile isSpace with
  | '-' :: r => UInt8.ofNat ((-(hexPrefix 0 (dropHexMark r) : Int)) % 256).toNat
  | '+' :: r => UInt8.ofNat (hexPrefix 0 (dropHexMark r))
  | r => UInt8.ofNat (hexPrefix 0 (dropHexMark r))

/-- fcrcrypto/encode.helper.ts:21-28 `decodeStringAsHexArray`. -/
def hexArray (s : List Char) : Bytes := (pieces [] s).map parseHexByte

/-! ## Node's `Buffer.from(s, 'base64')` -/

/-- The value of a character; both alphabets are understood. -/
def b64Value (c : Char) : Option Nat := if c = '-' then some 62 else if c = '_' then some 63 else b64Val c

/-- Groups of four values; a single one left over is dropped. -/
def b64Bytes : List Nat → Bytes
  | a :: b :: c :: d :: r =>
    UInt8.ofNat (a * 4 + b / 16) :: UInt8.ofNat (b % 16 * 16 + c / 4) :: UInt8.ofNat (c % 4 * 64 + d) :: b64Bytes r
  | [a, b, c] => [UInt8.ofNat (a * 4 + b / 16), UInt8.ofNat (b % 16 * 16 + c / 4)]
  | [a, b] => [UInt8.ofNat (a * 4 + b / 16)]
  | _ => []

/-- Every other character is skipped, padding included. -/
def fromB64 (s : List Char) : Bytes := b64Bytes (s.filterMap b64Value)

/-! ## fcrcrypto/msg_signing.ts, secp256k1.service.ts -/

/-- fcrcrypto/msg_signing.ts:34-44 and 55-63 `decodePublicKey`, `decodeSecP256K1PublicKey`. -/
def publicKey (s : List Char) : Option Bytes :=
  match hexArray s with
  | 1 :: r => if r.length = 65 then some r else none
  | _ => none

/-- fcrcrypto/msg_signing.ts:66-72 `extractKeyFromMessage`: neither the key version nor the last byte is looked at. -/
def rawSignature (s : List Char) : Option Bytes :=
  if (hexArray s).length < 4 then none else some (((hexArray s).take ((hexArray s).length - 1)).drop 4)

/-- fcrcrypto/secp256k1.service.ts:24-33 `secp256k1Verify`; the library throws unless the signature has 64 bytes. -/
def secpVerify (P : Prims) (sig : Bytes) (text : List Char) (pk : Bytes) : Bool :=
  sig.length == 64 && P.verify pk (P.hash (utf8Bytes text)) sig

/-- fcrcrypto/msg_signing.ts:50-53 `verifyMessage`. -/
def verifyMessage (P : Prims) (pk : Bytes) (signature text : List Char) : Option Bool :=
  match rawSignature signature with
  | none => none
  | some sig => some (secpVerify P sig text pk)

/-! ## fcrMessages/fcrMessage.class.ts -/

/-- fcrMessages/fcrMessage.class.ts:8-13 `FCRMessage`.  `none` is `undefined`. -/
structure FcrMsg where
  type : Option Json
  version : Json
  supported : Json
  body : Option Json
  signature : Json

/-- fcrMessages/fcrMessage.class.ts:4-6, 15-27: the constructor, from the members of an object. -/
def ofMembers (fs : List (String × Json)) : FcrMsg :=
  { type := field "message_type" fs
    version := (field "protocol_version" fs).getD (.num 1)
    supported := (field "protocol_supported" fs).getD (.arr [.num 1, .num 1])
    body := field "message_body" fs
    signature := (field "message_signature" fs).getD (.str []) }

/-- fcrMessages/fcrMessage.class.ts:15-27: the constructor, from any value. -/
def ofValue : Json → Option FcrMsg
  | .null => none
  | .obj fs => some (ofMembers fs)
  | _ => some (ofMembers [])

/-- fcrMessages/fcrMessage.class.ts:33-39: the text that is verified. -/
def toVerify (m : FcrMsg) : List Char :=
  stringify (.obj (member "message_type" m.type ++ [("protocol_version", m.version), ("protocol_supported", m.supported)] ++
    member "message_body" m.body ++ [("message_signature", .str [])]))

/-- fcrMessages/fcrMessage.class.ts:29-41 `verify`.  A signature that is no string has no method `split`. -/
def verify (P : Prims) (pk : Bytes) (m : FcrMsg) : Option Bool :=
  match m.signature with
  | .str s => verifyMessage P pk s (toVerify m)
  | _ => none

/-- The text `axios` sends for a message: the members in the order the constructor sets them. -/
def toSend (m : FcrMsg) : List Char :=
  stringify (.obj (member "message_type" m.type ++ member "message_body" m.body ++
    [("protocol_version", m.version), ("protocol_supported", m.supported), ("message_signature", m.signature)]))

/-- What comes back for a text that is posted: a status and a text, or nothing. -/
abbrev Net := List Char → List Char → Option (Nat × List Char)

/-- request/request.ts:12-21: a text is posted.  An answer that is no JSON is handed over by `axios` as a string. -/
def post (net : Net) (url text : List Char) : Option FcrMsg :=
  match net url text with
  | none => none
  | some (status, text) =>
    if status ≠ 200 then none
    else
      match parseJson text with
      | none => some (ofMembers [])
      | some j => ofValue j

/-- request/request.ts:11-22 `sendMessage`. -/
def sendMessage (net : Net) (url : List Char) (m : FcrMsg) : Option FcrMsg := post net url (toSend m)

/-! ## fcrMessages/client_establishment.ts, clientapi/establishment_requester.ts -/

/-- fcrMessages/client_establishment.ts:24-35 `encodeClientEstablishmentRequest`. -/
def encodeRequest (client challenge : List Char) (ttl : Int) : FcrMsg :=
  ofMembers [("message_type", .num 100), ("message_body", .str (b64Encode (utf8Bytes (stringify (.obj
    [("client_id", .str client), ("challenge", .str challenge), ("ttl", .num ttl)])))))]

/-- A property of a value that `JSON.parse` has returned; `none` is an exception, `some none` is `undefined`. -/
def prop (name : String) : Json → Option (Option Json)
  | .null => none
  | .obj fs => some (field name fs)
  | _ => some none

/-- fcrMessages/client_establishment.ts:43-52 `decodeClientEstablishmentResponse`.  Simplification: a body that is neither a string nor
`undefined` or `null` is an error (`Buffer.from` also takes arrays); so is a body that is not UTF-8. -/
def decodeResponse (m : FcrMsg) : Option (Option Json × Option Json) :=
  match m.type, m.body with
  | some (.num 101), some (.str s) =>
    match (utf8Text (fromB64 s)).bind parseJson with
    | none => none
    | some j =>
      match prop "gateway_id" j, prop "challenge" j with
      | some g, some c => some (g, c)
      | _, _ => none
  | _, _ => none

/-- `toLowerCase`, on ASCII letters. -/
def lower (s : List Char) : List Char := s.map Char.toLower

/-- Whether a value is `null`. -/
def isNull : Json → Bool
  | .null => true
  | _ => false

mutual
/-- `String(v)`. -/
def toText : Json → List Char
  | .null => ['n', 'u', 'l', 'l']
  | .bool true => ['t', 'r', 'u', 'e']
  | .bool false => ['f', 'a', 'l', 's', 'e']
  | .num n => intDigits n
  | .str s => s
  | .arr [] => []
  | .arr (x :: xs) => (if isNull x then [] else toText x) ++ joinText xs
  | .obj _ => ['[', 'o', 'b', 'j', 'e', 'c', 't', ' ', 'O', 'b', 'j', 'e', 'c', 't', ']']
/-- `join(',')`, after the first element. -/
def joinText : List Json → List Char
  | [] => []
  | x :: xs => ',' :: ((if isNull x then [] else toText x) ++ joinText xs)
end

/-- `v == s` for a string `s` that is no numeral (a challenge in base64 ends in `=`). -/
def looselyEqual : Option Json → List Char → Bool
  | some (.str t), s => t == s
  | some (.arr xs), s => toText (.arr xs) == s
  | some (.obj fs), s => toText (.obj fs) == s
  | _, _ => false

/-- clientapi/establishment_requester.ts:18-43 `requestEstablishment`: whether it returns (it then returns `true`). -/
def requestEstablishment (P : Prims) (net : Net) (g : Record) (challenge : Bytes) (client : List Char) (ttl : Int) : Bool :=
  if challenge.length ≠ 32 then false
  else
    match sendMessage net ("http://".toList ++ g.netClient ++ "/v1".toList) (encodeRequest client (b64Encode challenge) ttl) with
    | none => false
    | some r =>
      match publicKey g.signingKey with
      | none => false
      | some pk =>
        match verify P pk r with
        | some true =>
          match decodeResponse r with
          | some (some (.str id), c) =>
            if lower g.nodeID ≠ lower id then false else looselyEqual c (b64Encode challenge)
          | _ => false
        | _ => false

/-! ## FilecoinRetrievalClient.ts: the gateways -/

/-- config/settings.config.ts:28-43, what the gateways need. -/
structure Settings where
  clientId : List Char
  establishmentTTL : Int

/-- FilecoinRetrievalClient.ts:26-30, the two maps. -/
structure Client where
  active : List (List Char × Record)
  toUse : List (List Char × Record)

/-- FilecoinRetrievalClient.ts:32-37. -/
def newClient : Client := ⟨[], []⟩

/-- register/register.class.ts:43-45 and 52-63 `getSigningKeyPair`, `validateInfo`: only the signing key is looked at. -/
def validInfo (g : Record) : Bool := (publicKey g.signingKey).isSome

/-- FilecoinRetrievalClient.ts:46-64 `addGatewaysToUse`: the identifiers, each with what the register returns for it; how many were added. -/
def addToUse (c : Client) : List (List Char × Option Record) → Client × Nat
  | [] => (c, 0)
  | (id, r) :: l =>
    if (mget c.toUse id).isSome then addToUse c l
    else
      match r with
      | none => addToUse c l
      | some g =>
        if validInfo g then
          let x := addToUse { c with toUse := mset c.toUse id g } l
          (x.1, x.2 + 1)
        else addToUse c l

/-- What meets one attempt to establish: the random bytes, the clock in milliseconds, and the network. -/
structure Attempt where
  challenge : Bytes
  nowMs : Int
  net : Net

/-- FilecoinRetrievalClient.ts:73-101 `addActiveGateways`; how many were added. -/
def addActive (P : Prims) (S : Settings) (c : Client) : List (List Char × Attempt) → Client × Nat
  | [] => (c, 0)
  | (id, a) :: l =>
    if (mget c.active id).isSome then addActive P S c l
    else
      match mget c.toUse id with
      | none => addActive P S c l
      | some g =>
        if requestEstablishment P a.net g a.challenge S.clientId (a.nowMs + S.establishmentTTL) then
          let x := addActive P S { c with active := mset c.active id g } l
          (x.1, x.2 + 1)
        else addActive P S c l

/-- A call. -/
inductive Call where
  | toUse (l : List (List Char × Option Record))
  | active (l : List (List Char × Attempt))

/-- One call. -/
def step (P : Prims) (S : Settings) (c : Client) : Call → Client
  | .toUse l => (addToUse c l).1
  | .active l => (addActive P S c l).1

/-- Calls one after the other. -/
def run (P : Prims) (S : Settings) (c : Client) (h : List Call) : Client := h.foldl (step P S) c

end FcRetrieval.Js
