import Verif.Model.Reputation
/-!
# What the reputation of a client should be
-/

namespace FcRetrieval.Reputation

/-- What can happen to the reputations. -/
inductive Op where
  | event (c : Client) (e : Event)
  | challenge (c : Client)
  | set (c : Client) (v : Int)   -- `SetClientReputation`

/-- The code run on a history; `none` if it panics. -/
def runOps (s : Store) : List Op → Option Store
  | [] => some s
  | .event c e :: ops => (event s c e).bind (fun s => runOps s ops)
  | .challenge c :: ops => (challenge s c).bind (fun r => runOps r.1 ops)
  | .set c v :: ops => runOps (setRep s c v) ops

/-- What an event is worth: a search that is paid for and finds offers in time, one that finds none or too late, a search that is not paid for to the end, a
deposit, a payment for content, a message that is not valid. -/
def worth : Event → Int
  | .stdDiscOneCidOffer | .dhtDiscOneCidOffer => 10
  | .stdDiscNoCidOffers | .dhtDiscNoCidOffers | .stdDiscLateCidOffers | .dhtDiscLateCidOffers => 1
  | .stdDiscNonPayment => -100
  | .dhtDiscNonPayment => -300
  | .onChainDeposit => 1000
  | .microPayment => 1
  | .invalidMessage => -10

/-- The value brought into the range -10000 … 10000. -/
def clamp (v : Int) : Int := max (-10000) (min 10000 v)

/-- One entry of the history, for the client `c`, on unbounded integers. -/
def note (c : Client) (cur : Option Int) : Op → Option Int
  | .event c' e => if c' = c then cur.map (fun v => clamp (v + e.amount)) else cur
  | .challenge c' => if c' = c then some (clamp (cur.getD 10 - 1)) else cur
  | .set c' v => if c' = c then some v else cur

/-- The reputation the client should have after a history. -/
def value (c : Client) (ops : List Op) : Option Int := ops.foldl (note c) none

/-- The value is far enough from the ends of `int64`. -/
def Safe (v : Int) : Prop := inI64 (v - 300) ∧ inI64 (v + 1000)

/-- Calls made one after the other. -/
def serially (s : Store) : List Call → Option Store
  | [] => some s
  | .event c e :: cs => (event s c e).bind (fun s => serially s cs)
  | .challenge c :: cs => (challenge s c).bind (fun r => serially r.1 cs)

/-- The client of a call. -/
def Call.client : Call → Client
  | .event c _ => c
  | .challenge c => c

/-- Threads that make these calls. -/
def threads (css : List (List Call)) : List (List Step) := css.map (fun cs => cs.flatMap Call.steps)

end FcRetrieval.Reputation
