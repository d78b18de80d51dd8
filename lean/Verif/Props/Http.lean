import Verif.Model.Http
import Verif.Props.Register
/-!
# C161: what a node that registers is told
-/

set_option linter.unusedSimpArgs false

namespace FcRetrieval.Http
open FcRetrieval.Register (Record Kind Service Op Fits)

/-- Calls of nodes, each with whether the register's store was up. -/
inductive Call where
  | register (up : Bool) (k : Kind) (r : Record)
  | clear (up : Bool) (k : Kind)

/-- One call against the service: the service after it, and whether the caller was told that it succeeded. -/
def call (s : Service) : Call → Service × Bool
  | .register up k r => register (serveAdd up k) s k r
  | .clear up k => ((serveDelete up k s).1, delete (serveDelete up k s).2)

/-- What a call asks for. -/
def Call.op : Call → Op
  | .register _ k r => .add k (Register.registration k r)
  | .clear _ k => .deleteAll k

/-- The service after some calls, and what was reported as done, the first first. -/
def calls (cs : List Call) : Service × List Op :=
  cs.foldl (fun x c => ((call x.1 c).1, if (call x.1 c).2 then x.2 ++ [c.op] else x.2)) (⟨[], []⟩, [])

/-- Records of registrations are of their kind. -/
def Call.Fits : Call → Prop
  | .register _ k r => Register.Fits k r
  | .clear _ _ => True

theorem call_spec (s : Service) (c : Call) (h : c.Fits) :
    (call s c).1 = if (call s c).2 then Register.serve s c.op else s := by
  cases c with
  | register up k r =>
    cases up with
    | true =>
      have : Register.add s k (Register.registration k r) = (s.setHash k (mset (s.hash k) r.nodeID (Register.storedText k r)), .ok (Register.storedText k r)) := by
        rw [Register.add, Register.readBody_registration k r h]
      simp [call, register, serveAdd, this, sendJSON, Call.op, Register.serve]
    | false => simp [call, register, serveAdd, Register.readBody_registration k r h, sendJSON]
  | clear up k => cases up <;> simp [call, serveDelete, delete, Call.op, Register.serve]

theorem calls_spec (cs : List Call) (h : ∀ c ∈ cs, c.Fits) : (calls cs).1 = Register.after (calls cs).2 := by
  have key : ∀ (cs : List Call) (x : Service × List Op), (∀ c ∈ cs, c.Fits) → x.1 = Register.after x.2 →
      (cs.foldl (fun x c => ((call x.1 c).1, if (call x.1 c).2 then x.2 ++ [c.op] else x.2)) x).1 =
        Register.after (cs.foldl (fun x c => ((call x.1 c).1, if (call x.1 c).2 then x.2 ++ [c.op] else x.2)) x).2 := by
    intro cs
    induction cs with
    | nil => intro x _ hx; exact hx
    | cons c cs ih =>
      intro x h hx
      rw [List.foldl_cons]
      apply ih _ (fun c hc => h c (by simp [hc]))
      simp only
      rw [call_spec x.1 c (h c (by simp))]
      split
      · rw [hx, Register.after, Register.after, List.foldl_append]; rfl
      · exact hx
  exact key cs _ h rfl

/-- C161, what holds: with the register service itself at the address, after any calls, with its store up or down at each of them, the service has for every
identifier exactly the last registration that was reported as done since the last deletion that was reported as done. -/
theorem C161_partial (cs : List Call) (h : ∀ c ∈ cs, c.Fits) (k : Kind) (id : List Char) :
    match Register.latest k id (calls cs).2 with
    | some r => ∃ b, Register.getByID (calls cs).1 k id = .ok b ∧ Register.readRecord k b = some r
    | none => Register.getByID (calls cs).1 k id = .error := by
  rw [calls_spec cs h]
  exact Register.C65_latest (calls cs).2 k id

/-- C161, and a registration is reported as done exactly when the store is up. -/
theorem C161_up_partial (s : Service) (up : Bool) (k : Kind) (r : Record) (h : Register.Fits k r) :
    (call s (.register up k r)).2 = up := by
  cases up with
  | true =>
    have : Register.add s k (Register.registration k r) = (s.setHash k (mset (s.hash k) r.nodeID (Register.storedText k r)), .ok (Register.storedText k r)) := by
      rw [Register.add, Register.readBody_registration k r h]
    simp [call, register, serveAdd, this, sendJSON]
  | false => simp [call, register, serveAdd, Register.readBody_registration k r h, sendJSON]

/-- C161 is false of anything else that may answer at the address of the register (a wrong path, a proxy whose register is down): whatever the status,
nothing is registered and the node is told that it is. -/
theorem C161_refuted (s : Service) (k : Kind) (r : Record) (status : Nat) (body : Option Bytes) :
    register (fun s _ => (s, .answered status body)) s k r = (s, true) := rfl

/-- C161: a listing that is refused because the store is down is read as no answer, although the status is not looked at; a refresh then changes nothing. -/
theorem C161_outage (s : Service) (m : RegMgr.Mgr) :
    answer .gateway (serveList false .gateway s) = none ∧ answer .provider (serveList false .provider s) = none ∧
    RegMgr.refresh m (answer .gateway (serveList false .gateway s)) (answer .provider (serveList false .provider s)) = .ok m := by
  have h (k : Kind) : answer k (serveList false k s) = none := by
    have : Message.parseText errorBody = some (.obj [("code", .null), ("message", .str "Unable to get Redis value".toList)]) :=
      Register.parse_jsonText _
    simp only [answer, serveList, getJSON, Bool.false_eq_true, if_false, Option.bind_some, Register.readListing, this]
    rfl
  refine ⟨h _, h _, ?_⟩
  rw [h, h]
  have pg (m : RegMgr.Mgr) : RegMgr.roundGateways m none = .ok m := by
    unfold RegMgr.roundGateways RegMgr.pull
    split <;> rfl
  have pp (m : RegMgr.Mgr) : RegMgr.roundProviders m none = .ok m := by
    unfold RegMgr.roundProviders RegMgr.pull
    split <;> rfl
  unfold RegMgr.refresh
  simp only [pg, pp]
  split
  · rfl
  · split <;> simp [bind, Except.bind, pure, Except.pure] <;> split <;> rfl

/-- C161: a listing taken while the store is up is read as the records that are registered. -/
theorem C161_listing (cs : List Call) (h : ∀ c ∈ cs, c.Fits) (k : Kind) :
    ∃ l : List Record, answer k (serveList true k (calls cs).1) = some (l.map some) ∧ (l.map (·.nodeID)).Nodup ∧
      ∀ r, r ∈ l ↔ Register.latest k r.nodeID (calls cs).2 = some r := by
  rw [calls_spec cs h]
  exact Register.C65_listing (calls cs).2 k

/-- A node that registers while the store is down and again when it is up. -/
def exRecord : Record := ⟨"0a".toList, "t1".toList, "01".toList, "01".toList, "AU".toList, "g:1".toList, "g:2".toList, "g:3".toList, "g:4".toList⟩

example : Register.latest .gateway "0a".toList (calls [.register false .gateway exRecord, .register true .gateway exRecord]).2 = some exRecord ∧
    Register.latest .gateway "0a".toList (calls [.register true .gateway exRecord, .clear false .gateway]).2 = some exRecord ∧
    Register.latest .gateway "0a".toList (calls [.register false .gateway exRecord]).2 = none := by
  decide +kernel

end FcRetrieval.Http
