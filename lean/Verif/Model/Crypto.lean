import Verif.Model.Go
import Verif.Model.JsonText
/-!
# Model of `common/pkg/fcrcrypto`: key versions, key encodings, signature strings

The primitives (blake2b, secp256k1) are a parameter.
-/

namespace FcRetrieval.Crypto

/-- The primitives: hash.go:57-60 `RetrievalV1Hash`; secp256k1.go:42-45 `secp256k1PublicKey`; secp256k1.go:48-50
`secp256k1Sign` (digest, private key; `none` is an error); `secp256k1.VerifySignature` (public key, digest, signature). -/
structure Prims where
  hash : Bytes → Bytes
  pub : Bytes → Bytes
  sign : Bytes → Bytes → Option Bytes
  verify : Bytes → Bytes → Bytes → Bool

/-! ## key versions -/

/-- key_version.go:36-38 `KeyVersion`: a `uint32`. -/
abbrev KeyVersion := UInt32

/-- key_version.go:41-43 `InitialKeyVersion`. -/
def initialKeyVersion : KeyVersion := 1

/-- key_version.go:46-48 `NextKeyVersion`. -/
def nextKeyVersion (k : KeyVersion) : KeyVersion := k + 1

/-- key_version.go:51-53, 66-68 `DecodeKeyVersion` and `EncodeKeyVersion`: the number itself. -/
def decodeKeyVersion (n : UInt32) : KeyVersion := n

/-- key_version.go:56-63 `DecodeKeyVersionFromBytes`: `binary.BigEndian.Uint32` reads the first four bytes. -/
def decodeKeyVersionFromBytes (b : Bytes) : Option KeyVersion :=
  match b with
  | x :: y :: z :: w :: _ => some (UInt32.ofNat (x.toNat * 16777216 + y.toNat * 65536 + z.toNat * 256 + w.toNat))
  | _ => none

/-- key_version.go:71-75 `EncodeKeyVersionAsBytes`. -/
def encodeKeyVersionAsBytes (k : KeyVersion) : Bytes := be32 k.toNat

/-! ## keys -/

/-- keypair_retrieval.go:27-31 `KeyPair`; a nil slice is `none`. -/
structure KeyPair where
  pKey : Option Bytes
  pubKey : Option Bytes
  alg : UInt8
  deriving DecidableEq

/-- key_sig_alg.go:28 `SigAlgEcdsaSecP256K1Blake2b`. -/
def sigAlg : UInt8 := 1

/-- keypair_retrieval.go:43-47 `EncodePrivateKey`. -/
def encodePrivateKey (k : KeyPair) : List Char := hexEncode (k.alg :: k.pKey.getD [])

/-- keypair_retrieval.go:52-57 `EncodeRawPrivateKey`. -/
def encodeRawPrivateKey (k : KeyPair) : Option (List Char) :=
  if k.alg ≠ sigAlg then none else some (hexEncode (k.pKey.getD []))

/-- keypair_retrieval.go:85-93 `decodeSecP256K1PrivateKey`. -/
def decodeSecPrivate (b : Bytes) : Res KeyPair :=
  if b.length ≠ 32 then .err else .ok { pKey := some b, pubKey := none, alg := sigAlg }

/-- keypair_retrieval.go:60-73 `DecodePrivateKey`; indexing an empty slice panics. -/
def decodePrivateKey (s : List Char) : Res KeyPair :=
  match hexDecode s with
  | none => .err
  | some [] => .panic
  | some (a :: b) => if a = sigAlg then decodeSecPrivate b else .err

/-- keypair_retrieval.go:77-83 `DecodeRawPrivateKey`. -/
def decodeRawPrivateKey (s : List Char) : Res KeyPair :=
  match hexDecode s with
  | none => .err
  | some b => decodeSecPrivate b

/-- The public part, computed when absent (keypair_retrieval.go:100-102, 148-150, 177-179). -/
def publicPart (P : Prims) (k : KeyPair) : Bytes := k.pubKey.getD (P.pub (k.pKey.getD []))

/-- keypair_retrieval.go:96-106 `EncodePublicKey`. -/
def encodePublicKey (P : Prims) (k : KeyPair) : Option (List Char) :=
  if k.alg ≠ sigAlg then none else some (hexEncode (k.alg :: publicPart P k))

/-- keypair_retrieval.go:124-132 `decodeSecP256K1PublicKey`. -/
def decodeSecPublic (b : Bytes) : Res KeyPair :=
  if b.length ≠ 65 then .err else .ok { pKey := none, pubKey := some b, alg := sigAlg }

/-- keypair_retrieval.go:109-122 `DecodePublicKey`. -/
def decodePublicKey (s : List Char) : Res KeyPair :=
  match hexDecode s with
  | none => .err
  | some [] => .panic
  | some (a :: b) => if a = sigAlg then decodeSecPublic b else .err

/-- keypair_retrieval.go:135-141 `Sign`; `none` is an error. -/
def keySign (P : Prims) (k : KeyPair) (m : Bytes) : Option Bytes :=
  if k.alg ≠ sigAlg then none else P.sign (P.hash m) (k.pKey.getD [])

/-- secp256k1.go:58-66 `secp256k1Verify`: of 65 bytes the last is dropped. -/
def secpVerify (P : Prims) (pk digest sig : Bytes) : Bool :=
  if sig.length = 65 then P.verify pk digest (sig.take 64) else P.verify pk digest sig

/-- keypair_retrieval.go:144-154 `Verify`; `none` is an error. -/
def keyVerify (P : Prims) (k : KeyPair) (sig m : Bytes) : Option Bool :=
  if k.alg ≠ sigAlg then none else some (secpVerify P (publicPart P k) (P.hash m) sig)

/-- keypair_retrieval.go:172-185 `HashPublicKey`. -/
def hashPublicKey (P : Prims) (k : KeyPair) : Option Bytes :=
  if k.alg ≠ sigAlg then none else some (P.hash (k.alg :: publicPart P k))

/-- keypair_retrieval.go:188-194 `MarshalJSON`. -/
def marshalKey (P : Prims) (k : KeyPair) : Option Json := (encodePublicKey P k).map .str

/-- keypair_retrieval.go:197-210 `UnmarshalJSON` into a zero `KeyPair`; `null` decodes to the empty string. -/
def unmarshalKey (j : Json) : Res KeyPair :=
  match decStr (some j) with
  | none => .err
  | some s => decodePublicKey s

/-! ## signature strings -/

/-- msg_signing.go:39-47 `SignMessage`; `none` is an error. -/
def signMessage (P : Prims) (k : KeyPair) (v : KeyVersion) (m : Bytes) : Option (List Char) :=
  match keySign P k m with
  | none => none
  | some raw => some (hexEncode (encodeKeyVersionAsBytes v ++ raw))

/-- msg_signing.go:50-56 `ExtractKeyVersionFromMessage`.  The slice expression `[0:4]` is checked against the capacity.
`hex.DecodeString` decodes in place: it returns the first half of a slice that holds the text, so of a string with one to
three bytes the missing bytes are read from the undecoded second half and from zeroed spare capacity (at least 8 bytes);
only of the empty string, with capacity 0, does it panic. -/
def extractKeyVersion (s : List Char) : Res KeyVersion :=
  match hexDecode s with
  | none => .err
  | some [] => .panic
  | some b => Res.ofOption (decodeKeyVersionFromBytes ((b ++ (asciiBytes s).drop b.length ++ [0, 0]).take 4))

/-- msg_signing.go:60-71 `VerifyMessage`; `none` is an error. -/
def verifyMessage (P : Prims) (k : KeyPair) (s : List Char) (m : Bytes) : Option Bool :=
  match hexDecode s with
  | none => none
  | some b => if b.length < 4 then none else keyVerify P k (b.drop 4) m

end FcRetrieval.Crypto
