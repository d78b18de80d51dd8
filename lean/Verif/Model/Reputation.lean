import Verif.Model.Maps
import Verif.Model.Go
/-!
# Model of `gateway/internal/reputation` and of the two admin handlers that use it

Clients are named by the text of their identifier (`NodeID.ToString`, `Model/Ids`).  `int64` additions wrap.  Panics are `none`.
-/

namespace FcRetrieval.Reputation

/-- The name of a client. -/
abbrev Client := List Char

/-- `int64` arithmetic wraps around. -/
def wrap (n : Int) : Int := (n + 9223372036854775808) % 18446744073709551616 - 9223372036854775808

/-- reputation_constants.go:5. -/
def clientMax : Int := 10000
/-- reputation_constants.go:6. -/
def clientMin : Int := -10000
/-- reputation_constants.go:7. -/
def clientInitial : Int := 10

/-- The events of reputation.go:92-158. -/
inductive Event where
  | onChainDeposit
  | stdDiscOneCidOffer
  | stdDiscNoCidOffers
  | stdDiscLateCidOffers
  | stdDiscNonPayment
  | dhtDiscOneCidOffer
  | dhtDiscNoCidOffers
  | dhtDiscLateCidOffers
  | dhtDiscNonPayment
  | microPayment
  | invalidMessage
  deriving DecidableEq

/-- reputation_constants.go:9-39. -/
def Event.amount : Event → Int
  | .onChainDeposit => 1000
  | .stdDiscOneCidOffer => 10
  | .stdDiscNoCidOffers => 1
  | .stdDiscLateCidOffers => 1
  | .stdDiscNonPayment => -100
  | .dhtDiscOneCidOffer => 10
  | .dhtDiscNoCidOffers => 1
  | .dhtDiscLateCidOffers => 1
  | .dhtDiscNonPayment => -300
  | .microPayment => 1
  | .invalidMessage => -10

/-- reputation_constants.go:8. -/
def establishmentChallenge : Int := -1

/-- The map `clients`. -/
abbrev Store := List (Client × Int)

/-- reputation_store.go:12-18. -/
def getRep (s : Store) (c : Client) : Option Int := mget s c

/-- reputation_store.go:20-25. -/
def setRep (s : Store) (c : Client) (v : Int) : Store := mset s c v

/-- reputation_store.go:27-48; `none` is the panic in line 35. -/
def changeRep (s : Store) (c : Client) (amount : Int) : Option (Store × Int) :=
  match mget s c with
  | none => none
  | some val =>
    let newVal := wrap (val + amount)
    let newVal := if newVal > clientMax then clientMax else if newVal < clientMin then clientMin else newVal
    some (mset s c newVal, newVal)

/-- reputation.go:92-158. -/
def event (s : Store) (c : Client) (e : Event) : Option Store := (changeRep s c e.amount).map (·.1)

/-- reputation.go:84-90. -/
def challenge (s : Store) (c : Client) : Option (Store × Int) :=
  let s := if (getRep s c).isSome then s else setRep s c clientInitial
  changeRep s c establishmentChallenge

/-- set_client_reputation_handler.go:48-58: the new store and what is answered. -/
def adminSet (s : Store) (c : Client) (v : Int) : Store × Int × Bool :=
  if (getRep s c).isSome then (setRep s c v, v, true) else (s, 0, false)

/-- get_client_reputation_handler.go:48-52. A missing entry of a Go map reads as zero. -/
def adminGet (s : Store) (c : Client) : Int × Bool := ((getRep s c).getD 0, (getRep s c).isSome)

/-! ### Threads: every access to the map is made under the lock -/

/-- The accesses to the map: reputation.go:85; 86-88, where `missing` is what line 85 saw; reputation_store.go:31-45. -/
inductive Step where
  | look (c : Client)
  | establish (c : Client) (missing : Bool)
  | change (c : Client) (amount : Int)
  deriving DecidableEq

/-- A call. -/
inductive Call where
  | event (c : Client) (e : Event)
  | challenge (c : Client)
  deriving DecidableEq

/-- The accesses of a call: reputation.go:84-158. -/
def Call.steps : Call → List Step
  | .event c e => [.change c e.amount]
  | .challenge c => [.look c, .establish c false, .change c establishmentChallenge]

/-- The next access of a thread: the store and what is left to do. `look` decides whether the following `establish` will write. -/
def stepThread (s : Store) : List Step → Option (Store × List Step)
  | [] => none
  | .look c :: .establish c' _ :: rest => some (s, .establish c' (getRep s c).isNone :: rest)
  | .look _ :: rest => some (s, rest)
  | .establish c missing :: rest => some (if missing then setRep s c clientInitial else s, rest)
  | .change c a :: rest => (changeRep s c a).map (fun r => (r.1, rest))

/-- Threads, each with what it has still to do. -/
structure Sys where
  store : Store
  threads : List (List Step)
  deriving DecidableEq

/-- Thread `i` makes its next access. -/
def sysStep (s : Sys) (i : Nat) : Option Sys :=
  (s.threads[i]?).bind (fun t => (stepThread s.store t).map (fun r => ⟨r.1, s.threads.set i r.2⟩))

/-- A schedule. -/
def sysRun (s : Sys) : List Nat → Option Sys
  | [] => some s
  | i :: is => (sysStep s i).bind (fun s => sysRun s is)

end FcRetrieval.Reputation
