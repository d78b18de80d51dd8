import Verif.Model.Merkle
import Verif.Model.Crypto
/-!
# Model of `common/pkg/cidoffer`

sha256 (for the Merkle tree) and sha512/256 (for the digest) are parameters.  A nil pointer is `none`; dereferencing it
panics.  The Merkle tree held by an offer is the one over its CIDs.
-/

namespace FcRetrieval.Offer
open FcRetrieval.Ids (Id)
open FcRetrieval.Merkle (Hash Proof)
open FcRetrieval.Crypto (Prims KeyPair KeyVersion)

/-- cidoffer.go:43-53 `CIDOffer`, without the tree. -/
structure CidOffer where
  providerID : Option Id
  cids : List Id
  price : Nat
  expiry : Int
  qos : Nat
  signature : List Char
  merkleRoot : List Char
  deriving DecidableEq

/-- cidoffer.go:75-101 `NewCIDOffer`; `none` is an error. -/
def newOffer (H : Hash) (providerID : Option Id) (cids : List Id) (price : Nat) (expiry : Int) (qos : Nat) :
    Option CidOffer :=
  if cids.length < 1 then none
  else
    match Merkle.rootHex H cids with
    | none => none
    | some root =>
      some { providerID := providerID, cids := cids, price := price, expiry := expiry, qos := qos, signature := [],
             merkleRoot := root }

/-- The value of a 64-bit signed addition. -/
def wrapI64 (n : Int) : Int := (n + 9223372036854775808) % 18446744073709551616 - 9223372036854775808

/-- Seconds between the year 1 and 1970, package `time`. -/
def unixToInternal : Int := 62135596800

/-- cidoffer.go:139-143, subcidoffer.go:119-123 `HasExpired` at the time `nowSec` (seconds since 1970) and `nowNsec`
nanoseconds.  `time.Unix` adds the seconds up to 1970 in 64 bits, `Before` compares seconds, then nanoseconds. -/
def hasExpired (expiry : Int) (nowSec : Int) (nowNsec : Nat) : Bool :=
  let t := wrapI64 (expiry + unixToInternal)
  let u := wrapI64 (nowSec + unixToInternal)
  decide (t < u) || (decide (t = u) && decide (0 < nowNsec))

/-- The JSON signed, cidoffer.go:65-71 and 217-225, subcidoffer.go:54-60 and 183-191. -/
def signJson (pid : Id) (root : List Char) (price : Nat) (expiry : Int) (qos : Nat) : Json :=
  .obj [("provider_id", Ids.marshal pid), ("merkle_root", .str root), ("price", .num price), ("expiry", .num expiry),
    ("qos", .num qos)]

/-- cidoffer.go:217-225, subcidoffer.go:183-191 `MarshalToSign`. -/
def toSign (pid : Option Id) (root : List Char) (price : Nat) (expiry : Int) (qos : Nat) : Res Bytes :=
  match pid with
  | none => .panic
  | some pid => .ok (utf8Bytes (render (signJson pid root price expiry qos)))

/-- cidoffer.go:146-157 `Sign`. -/
def sign (P : Prims) (k : KeyPair) (v : KeyVersion) (o : CidOffer) : Res CidOffer := do
  let raw ← toSign o.providerID o.merkleRoot o.price o.expiry o.qos
  let sig ← Res.ofOption (Crypto.signMessage P k v raw)
  pure { o with signature := sig }

/-- cidoffer.go:162-172, subcidoffer.go:128-138: the result of `VerifyMessage` as an error or not. -/
def checkSig (P : Prims) (k : KeyPair) (signature : List Char) (raw : Bytes) : Res Unit :=
  match Crypto.verifyMessage P k signature raw with
  | some true => .ok ()
  | _ => .err

/-- cidoffer.go:160-173 `Verify`. -/
def verify (P : Prims) (k : KeyPair) (o : CidOffer) : Res Unit := do
  let raw ← toSign o.providerID o.merkleRoot o.price o.expiry o.qos
  checkSig P k o.signature raw

/-- `binary.BigEndian.PutUint64` of `uint64(expiry)`. -/
def be64I (n : Int) : Bytes := be64 (n % 18446744073709551616).toNat

/-- cidoffer.go:188-200, the bytes hashed by `GetMessageDigest`. -/
def digestInput (o : CidOffer) : Res Bytes :=
  match o.providerID with
  | none => .panic
  | some pid => .ok (Ids.toBytes pid ++ (o.cids.map Ids.toBytes).flatten ++ be64 o.price ++ be64I o.expiry ++ be64 o.qos)

/-- cidoffer.go:187-202 `GetMessageDigest`. -/
def digest (H512 : Hash) (o : CidOffer) : Res Bytes := do
  let b ← digestInput o
  pure (H512 b)

/-- cidoffer.go:256-258 `EncodeMessageDigest`. -/
def encodeDigest (d : Bytes) : List Char := b64Encode d

/-- cidoffer.go:262-267 `DecodeMessageDigest`: zero-filled or cut to 32 bytes.  Of malformed text the bytes decoded before the
fault are taken; that is not modelled (`none`). -/
def decodeDigest (s : List Char) : Option Bytes :=
  match b64Decode s with
  | none => none
  | some b => some (b.take 32 ++ List.replicate (32 - b.length) 0)

/-- cidoffer.go:205-214 `MarshalJSON`. -/
def marshal (o : CidOffer) : Res Json :=
  match o.providerID with
  | none => .panic
  | some pid => .ok (.obj [("provider_id", .str (Ids.toStr pid)), ("cids", jsonStrs (Ids.mapToString o.cids)),
      ("price", .num o.price), ("expiry", .num o.expiry), ("qos", .num o.qos), ("signature", .str o.signature)])

/-- cidoffer.go:228-252 `UnmarshalJSON`: a malformed provider is dropped, a malformed CID crashes. -/
def unmarshal (H : Hash) (j : Json) : Res CidOffer := do
  let fs ← Res.ofOption (decObj j)
  let pid ← Res.ofOption (decStr (memberFor "provider_id" fs))
  let cids ← Res.ofOption (decList decStr (memberFor "cids" fs))
  let price ← Res.ofOption (decU64 (memberFor "price" fs))
  let expiry ← Res.ofOption (decI64 (memberFor "expiry" fs))
  let qos ← Res.ofOption (decU64 (memberFor "qos" fs))
  let signature ← Res.ofOption (decStr (memberFor "signature" fs))
  match Ids.mapFromString cids with
  | none => Res.panic
  | some ids =>
    let root ← Res.ofOption (Merkle.rootHex H ids)
    pure { providerID := Ids.fromHex pid, cids := ids, price := price, expiry := expiry, qos := qos, signature := signature,
           merkleRoot := root }

/-! ## sub-offers -/

/-- subcidoffer.go:32-41 `SubCIDOffer`. -/
structure SubOffer where
  providerID : Option Id
  subCID : Option Id
  merkleRoot : List Char
  merkleProof : Proof
  price : Nat
  expiry : Int
  qos : Nat
  signature : List Char
  deriving DecidableEq

/-- cidoffer.go:176-182 `GenerateSubCIDOffer` with subcidoffer.go:65-76 `NewSubCIDOffer`; it never fails. -/
def subOffer (H : Hash) (o : CidOffer) (c : Id) : SubOffer :=
  { providerID := o.providerID, subCID := some c, merkleRoot := o.merkleRoot, merkleProof := Merkle.generate H o.cids c,
    price := o.price, expiry := o.expiry, qos := o.qos, signature := o.signature }

/-- subcidoffer.go:126-139 `Verify`. -/
def subVerify (P : Prims) (k : KeyPair) (o : SubOffer) : Res Unit := do
  let raw ← toSign o.providerID o.merkleRoot o.price o.expiry o.qos
  checkSig P k o.signature raw

/-- subcidoffer.go:142-147 `VerifyMerkleProof`. -/
def verifyMerkleProof (H : Hash) (o : SubOffer) : Res Unit :=
  match Merkle.verify H o.merkleProof o.subCID o.merkleRoot with
  | .ok true => .ok ()
  | .ok false => .err
  | .err => .err
  | .panic => .panic

/-- subcidoffer.go:150-161 `MarshalJSON`. -/
def subMarshal (o : SubOffer) : Res Json :=
  match o.providerID, o.subCID with
  | some pid, some c => .ok (.obj [("provider_id", .str (Ids.toStr pid)), ("sub_cid", .str (Ids.toStr c)),
      ("merkle_root", .str o.merkleRoot), ("merkle_proof", Merkle.marshal o.merkleProof), ("price", .num o.price),
      ("expiry", .num o.expiry), ("qos", .num o.qos), ("signature", .str o.signature)])
  | _, _ => .panic

/-- The field `merkle_proof`: absent leaves the zero proof. -/
def decProof : Option Json → Res Proof
  | none => .ok { path := none, index := none }
  | some j => Merkle.unmarshal j

/-- subcidoffer.go:164-180 `UnmarshalJSON`: malformed identifiers are dropped. -/
def subUnmarshal (j : Json) : Res SubOffer := do
  let fs ← Res.ofOption (decObj j)
  let pid ← Res.ofOption (decStr (memberFor "provider_id" fs))
  let c ← Res.ofOption (decStr (memberFor "sub_cid" fs))
  let root ← Res.ofOption (decStr (memberFor "merkle_root" fs))
  let proof ← decProof (memberFor "merkle_proof" fs)
  let price ← Res.ofOption (decU64 (memberFor "price" fs))
  let expiry ← Res.ofOption (decI64 (memberFor "expiry" fs))
  let qos ← Res.ofOption (decU64 (memberFor "qos" fs))
  let signature ← Res.ofOption (decStr (memberFor "signature" fs))
  pure { providerID := Ids.fromHex pid, subCID := Ids.fromHex c, merkleRoot := root, merkleProof := proof, price := price,
         expiry := expiry, qos := qos, signature := signature }

end FcRetrieval.Offer
