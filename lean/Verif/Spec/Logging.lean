import Verif.Model.Logging
import Verif.Spec.Settings
/-!
# Specification vocabulary for settings built at some level of logging
-/

namespace FcRetrieval.Logging
open FcRetrieval.Settings

variable {ι κ ν : Type}

/-- Settings of a client made by calling setters in turn, and then `Build`, with this level of logging. -/
def clientAt (parse : String → Option Int) (text : String) (id : ι) (gen : Res κ) (one : ν) (calls : List (ClientCall κ ν)) : Res (ClientSettings ι (Option κ) ν) :=
  buildClient parse text id gen one (calls.foldl ClientBuilder.set (createClient κ ν))

/-- Settings of an admin (of gateways or of providers, by the builder that is begun with). -/
def adminAt (parse : String → Option Int) (text : String) (gen : Res κ) (one : ν) (f : AdminBuilder κ ν) (calls : List (AdminCall κ ν)) : Res (AdminSettings (Option κ) ν) :=
  buildAdmin parse text gen one (calls.foldl AdminBuilder.set f)

/-- Messages at the level of panics are written when this text is given as the level: it is a level up to `panic`, or no level at all. -/
def Writes (parse : String → Option Int) (text : String) : Prop := ∀ n, parse text = some n → n ≤ panicLevel

end FcRetrieval.Logging
