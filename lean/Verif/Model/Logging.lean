import Verif.Model.Settings
/-!
# Model of `common/pkg/logging/logging.go` as far as it decides what the builders of settings do

The builders report a missing key with `logging.ErrorAndPanic`, which is a message of the logging library (zerolog 1.23, common/go.mod:20) that panics
once it has been written.  A message below the level that is set is not made, and then does nothing at all (`Logger.newEvent`, `Event.Msgf`).
`parse` is `zerolog.ParseLevel`: the number of a level, or none for a text that it does not know.  Of its results only those are used that the theorems name.
-/

namespace FcRetrieval.Logging
open FcRetrieval.Settings

/-- zerolog's `InfoLevel`. -/
def infoLevel : Int := 1

/-- zerolog's `PanicLevel`. -/
def panicLevel : Int := 5

/-- zerolog's `NoLevel`, the level of the empty text. -/
def noLevel : Int := 6

/-- logging.go:52-61 `setLogLevel`: the level that is set; a text that cannot be read means `info`. -/
def setLogLevel (parse : String → Option Int) (text : String) : Int := (parse text).getD infoLevel

/-- logging.go:138-145 `Panic`, `ErrorAndPanic`: whether it panics when this level is set. -/
def stops (level : Int) : Bool := decide (level ≤ panicLevel)

variable {ι κ ν : Type}

/-- client/pkg/fcrclient/builder.go:121-163 `Build` with the logging: `text` is the level given to `SetLogging` (builder.go:69-73), or the default "trace".
What `ErrorAndPanic` does not stop goes on, with nil pointers. -/
def buildClient (parse : String → Option Int) (text : String) (id : ι) (gen : Res κ) (one : ν) (f : ClientBuilder κ ν) : Res (ClientSettings ι (Option κ) ν) :=
  if f.blockchainKey.isNone && stops (setLogLevel parse text) then .panic
  else
    match f.key with
    | some k => .ok { ttl := f.ttl, registerURL := f.registerURL, id := id, blockchainKey := f.blockchainKey, key := some k, keyVer := f.keyVer, wallet := f.wallet,
                      lotusAP := f.lotusAP, lotusToken := f.lotusToken, searchPrice := f.searchPrice, offerPrice := f.offerPrice, topup := f.topup }
    | none =>
      match gen with
      | .panic => .panic
      | .err =>
        if stops (setLogLevel parse text) then .panic
        else .ok { ttl := f.ttl, registerURL := f.registerURL, id := id, blockchainKey := f.blockchainKey, key := none, keyVer := some one, wallet := f.wallet,
                   lotusAP := f.lotusAP, lotusToken := f.lotusToken, searchPrice := f.searchPrice, offerPrice := f.offerPrice, topup := f.topup }
      | .ok k => .ok { ttl := f.ttl, registerURL := f.registerURL, id := id, blockchainKey := f.blockchainKey, key := some k, keyVer := some one, wallet := f.wallet,
                       lotusAP := f.lotusAP, lotusToken := f.lotusToken, searchPrice := f.searchPrice, offerPrice := f.offerPrice, topup := f.topup }

/-- gateway-admin/pkg/fcrgatewayadmin/builder.go:79-103 and provider-admin/pkg/fcrprovideradmin/builder.go:80-105 `Build` with the logging. -/
def buildAdmin (parse : String → Option Int) (text : String) (gen : Res κ) (one : ν) (f : AdminBuilder κ ν) : Res (AdminSettings (Option κ) ν) :=
  if f.blockchainKey.isNone && stops (setLogLevel parse text) then .panic
  else
    match f.key with
    | some k => .ok { ttl := 0, registerURL := f.registerURL, blockchainKey := f.blockchainKey, key := some k, keyVer := f.keyVer }
    | none =>
      match gen with
      | .panic => .panic
      | .err =>
        if stops (setLogLevel parse text) then .panic
        else .ok { ttl := 0, registerURL := f.registerURL, blockchainKey := f.blockchainKey, key := none, keyVer := some one }
      | .ok k => .ok { ttl := 0, registerURL := f.registerURL, blockchainKey := f.blockchainKey, key := some k, keyVer := some one }

end FcRetrieval.Logging
