import Verif.Model.Settings
/-!
# Specification vocabulary for the builders of settings
-/

namespace FcRetrieval.Settings

/-- The value of the last call that `f` picks, or else the default. -/
def last {γ α : Type} (f : γ → Option α) (calls : List γ) (default : α) : α := ((calls.filterMap f).getLast?).getD default

/-- Settings made by calling setters in turn, and then `Build`. -/
def clientSettings {ι κ ν : Type} (id : ι) (gen : Res κ) (one : ν) (calls : List (ClientCall κ ν)) : Res (ClientSettings ι κ ν) :=
  (calls.foldl ClientBuilder.set (createClient κ ν)).build id gen one

def gatewayAdminSettings {κ ν : Type} (gen : Res κ) (one : ν) (calls : List (AdminCall κ ν)) : Res (AdminSettings κ ν) :=
  (calls.foldl AdminBuilder.set (createGatewayAdmin κ ν)).build gen one

def providerAdminSettings {κ ν : Type} (gen : Res κ) (one : ν) (calls : List (AdminCall κ ν)) : Res (AdminSettings κ ν) :=
  (calls.foldl AdminBuilder.set (createProviderAdmin κ ν)).build gen one

section
variable {κ ν : Type}
def ClientCall.ttl? : ClientCall κ ν → Option Int | .ttl n => some n | _ => none
def ClientCall.registerURL? : ClientCall κ ν → Option String | .registerURL s => some s | _ => none
def ClientCall.blockchainKey? : ClientCall κ ν → Option (Option κ) | .blockchainKey k => some k | _ => none
def ClientCall.key? : ClientCall κ ν → Option (Option κ × Option ν) | .key k v => some (k, v) | _ => none
def ClientCall.wallet? : ClientCall κ ν → Option String | .wallet s => some s | _ => none
def ClientCall.lotusAP? : ClientCall κ ν → Option String | .lotusAP s => some s | _ => none
def ClientCall.lotusToken? : ClientCall κ ν → Option String | .lotusToken s => some s | _ => none
def ClientCall.searchPrice? : ClientCall κ ν → Option (Option Int) | .searchPrice n => some n | _ => none
def ClientCall.offerPrice? : ClientCall κ ν → Option (Option Int) | .offerPrice n => some n | _ => none
def ClientCall.topup? : ClientCall κ ν → Option (Option Int) | .topup n => some n | _ => none
def AdminCall.registerURL? : AdminCall κ ν → Option String | .registerURL s => some s | _ => none
def AdminCall.blockchainKey? : AdminCall κ ν → Option (Option κ) | .blockchainKey k => some k | _ => none
def AdminCall.key? : AdminCall κ ν → Option (Option κ × Option ν) | .key k v => some (k, v) | _ => none
end

end FcRetrieval.Settings
