import Verif.Model.Go
/-!
# Model of the builders of settings: `client/pkg/fcrclient/builder.go`, `gateway-admin/pkg/fcrgatewayadmin/builder.go`, `provider-admin/pkg/fcrprovideradmin/builder.go`

Keys and versions of keys are opaque.  A pointer that may be nil is an `Option`; a `*big.Int` is its value, so a caller who changes the number after handing it
over is outside the model.  The settings for logging are left out.
-/

namespace FcRetrieval.Settings

/-! ## the client -/

/-- client/pkg/fcrclient/builder.go:33-52 `SettingsBuilder`; `clientID` is left out, because nothing sets it. -/
structure ClientBuilder (κ ν : Type) where
  ttl : Int
  registerURL : String
  blockchainKey : Option κ
  key : Option κ
  keyVer : Option ν
  wallet : String
  lotusAP : String
  lotusToken : String
  searchPrice : Option Int
  offerPrice : Option Int
  topup : Option Int

/-- client/pkg/fcrclient/client_settings.go:26-102 `ClientSettings` and what its methods return. -/
structure ClientSettings (ι κ ν : Type) where
  ttl : Int
  registerURL : String
  id : ι
  blockchainKey : κ
  key : κ
  keyVer : Option ν
  wallet : String
  lotusAP : String
  lotusToken : String
  searchPrice : Option Int
  offerPrice : Option Int
  topup : Option Int

/-- builder.go:55-66 `CreateSettings`, with the defaults of defaults.go:18-43. -/
def createClient (κ ν : Type) : ClientBuilder κ ν where
  ttl := 100
  registerURL := "http://register:9020"
  blockchainKey := none
  key := none
  keyVer := none
  wallet := ""
  lotusAP := ""
  lotusToken := ""
  searchPrice := some 1000000000000000
  offerPrice := some 1000000000000000
  topup := some 100000000000000000

/-- The calls of the setters, builder.go:76-118. -/
inductive ClientCall (κ ν : Type) where
  | ttl (n : Int)
  | registerURL (s : String)
  | blockchainKey (k : Option κ)
  | key (k : Option κ) (v : Option ν)
  | wallet (s : String)
  | lotusAP (s : String)
  | lotusToken (s : String)
  | searchPrice (n : Option Int)
  | offerPrice (n : Option Int)
  | topup (n : Option Int)

/-- builder.go:76-118, one setter each. -/
def ClientBuilder.set {κ ν : Type} (f : ClientBuilder κ ν) : ClientCall κ ν → ClientBuilder κ ν
  | .ttl n => { f with ttl := n }
  | .registerURL s => { f with registerURL := s }
  | .blockchainKey k => { f with blockchainKey := k }
  | .key k v => { f with key := k, keyVer := v }
  | .wallet s => { f with wallet := s }
  | .lotusAP s => { f with lotusAP := s }
  | .lotusToken s => { f with lotusToken := s }
  | .searchPrice n => { f with searchPrice := n }
  | .offerPrice n => { f with offerPrice := n }
  | .topup n => { f with topup := n }

/-- builder.go:121-163 `Build`.  `id` is what `nodeid.NewRandomNodeID` returns, `gen` what `fcrcrypto.GenerateRetrievalV1KeyPair` returns, and `one` the key
version 1. -/
def ClientBuilder.build {ι κ ν : Type} (id : ι) (gen : Res κ) (one : ν) (f : ClientBuilder κ ν) : Res (ClientSettings ι κ ν) :=
  match f.blockchainKey with
  | none => .panic
  | some b =>
    match f.key with
    | none =>
      match gen with
      | .ok k => .ok { ttl := f.ttl, registerURL := f.registerURL, id := id, blockchainKey := b, key := k, keyVer := some one, wallet := f.wallet, lotusAP := f.lotusAP,
                       lotusToken := f.lotusToken, searchPrice := f.searchPrice, offerPrice := f.offerPrice, topup := f.topup }
      | _ => .panic
    | some k => .ok { ttl := f.ttl, registerURL := f.registerURL, id := id, blockchainKey := b, key := k, keyVer := f.keyVer, wallet := f.wallet, lotusAP := f.lotusAP,
                      lotusToken := f.lotusToken, searchPrice := f.searchPrice, offerPrice := f.offerPrice, topup := f.topup }

/-! ## the admins -/

/-- gateway-admin/pkg/fcrgatewayadmin/builder.go:30-44 and provider-admin/pkg/fcrprovideradmin/builder.go:30-44 `SettingsBuilder`; the three `lotus` fields are left out, because nothing
sets or reads them. -/
structure AdminBuilder (κ ν : Type) where
  registerURL : String
  blockchainKey : Option κ
  key : Option κ
  keyVer : Option ν

/-- gateway-admin/pkg/fcrgatewayadmin/gateway-admin-settings.go:23-57 `GatewayAdminSettings` and provider-admin/pkg/fcrprovideradmin/provider_admin_settings.go:21-48
`ProviderAdminSettings`, and what their methods return. -/
structure AdminSettings (κ ν : Type) where
  /-- Gateway admin only. -/
  ttl : Int
  registerURL : String
  blockchainKey : κ
  key : κ
  keyVer : Option ν

/-- gateway-admin/pkg/fcrgatewayadmin/builder.go:47-53 `CreateSettings`. -/
def createGatewayAdmin (κ ν : Type) : AdminBuilder κ ν where
  registerURL := ""
  blockchainKey := none
  key := none
  keyVer := none

/-- provider-admin/pkg/fcrprovideradmin/builder.go:47-54 `CreateSettings`. -/
def createProviderAdmin (κ ν : Type) : AdminBuilder κ ν where
  registerURL := "http://register:9020"
  blockchainKey := none
  key := none
  keyVer := none

/-- The calls of the setters: gateway-admin builder.go:62-76, provider-admin builder.go:63-77. -/
inductive AdminCall (κ ν : Type) where
  | registerURL (s : String)
  | blockchainKey (k : Option κ)
  | key (k : Option κ) (v : Option ν)

/-- One setter each. -/
def AdminBuilder.set {κ ν : Type} (f : AdminBuilder κ ν) : AdminCall κ ν → AdminBuilder κ ν
  | .registerURL s => { f with registerURL := s }
  | .blockchainKey k => { f with blockchainKey := k }
  | .key k v => { f with key := k, keyVer := v }

/-- gateway-admin builder.go:79-103 and provider-admin builder.go:80-105 `Build`; `establishmentTTL` is not assigned. -/
def AdminBuilder.build {κ ν : Type} (gen : Res κ) (one : ν) (f : AdminBuilder κ ν) : Res (AdminSettings κ ν) :=
  match f.blockchainKey with
  | none => .panic
  | some b =>
    match f.key with
    | none =>
      match gen with
      | .ok k => .ok { ttl := 0, registerURL := f.registerURL, blockchainKey := b, key := k, keyVer := some one }
      | _ => .panic
    | some k => .ok { ttl := 0, registerURL := f.registerURL, blockchainKey := b, key := k, keyVer := f.keyVer }

end FcRetrieval.Settings
