import Verif.Model.Provider
/-! # Model of the handler table of the provider's admin API -/
namespace FcRetrieval.Provider

/-- provider/cmd/provider/main.go:72-77: the handlers at the admin address, by message type
(common/pkg/fcrmessages/type.go:82-92). -/
def adminKindOf (type : Int) : Option Kind :=
  if type = 500 then some .initialise
  else if type = 510 then some .initialiseV2
  else if type = 506 then some .getPublished
  else if type = 504 then some .publishDht
  else if type = 502 then some .publishGroup
  else if type = 508 then some .forceRefresh
  else none

end FcRetrieval.Provider
