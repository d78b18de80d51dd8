import Verif.Model.Provider
/-! # A provider that is stopped and started again -/

namespace FcRetrieval.Provider
open FcRetrieval.Message (Msg)

/-- provider/cmd/provider/main.go:40-118 with core.go:99-125 `GetSingleInstance` and common/pkg/fcroffermgr/offer_manager.go:41-47 `NewFCROfferMgr`: a process starts with
an empty core.  Nothing under provider/internal reads or writes a file, so what the process before it knew is gone. -/
def startAfter (_before : Core) : Core := newCore

/-- The provider during a life, after other lives: each life is a list of requests that it served. -/
def afterLives (earlier : List (List (Env × Kind × Msg))) (now : List (Env × Kind × Msg)) : Core :=
  (serveAll (earlier.foldl (fun c L => startAfter (serveAll c L).1) newCore) now).1

end FcRetrieval.Provider
