import Verif.Spec.Logging
import Verif.Props.Settings
set_option linter.unusedSimpArgs false
/-!
# C186: settings without keys are refused, whatever is logged
-/

namespace FcRetrieval.Logging
open FcRetrieval.Settings

variable {ι κ ν : Type}

theorem stops_of_writes {parse : String → Option Int} {text : String} (h : Writes parse text) : stops (setLogLevel parse text) = true := by
  unfold stops setLogLevel
  cases hp : parse text with
  | none => decide
  | some n => simpa using h n hp

/-- **C186 (partial).** If messages at the level of panics are written, `Build` never returns settings without a blockchain key or without a retrieval
key: it fails exactly if no blockchain key was set, or if no retrieval key was set and none can be made; and the settings that it returns have
the keys that were set last.  For clients.
Missing: the levels above (`C186_client_refuted`). -/
theorem C186_client_partial {parse : String → Option Int} {text : String} (hw : Writes parse text) (id : ι) (gen : Res κ) (one : ν)
    (calls : List (ClientCall κ ν)) :
    (clientAt parse text id gen one calls = .panic ↔
      last ClientCall.blockchainKey? calls none = none ∨ ((last ClientCall.key? calls (none, none)).1 = none ∧ ∀ k, gen ≠ .ok k)) ∧
    clientAt parse text id gen one calls ≠ .err ∧
    ∀ s, clientAt parse text id gen one calls = .ok s →
      s.blockchainKey ≠ none ∧ s.blockchainKey = last ClientCall.blockchainKey? calls none ∧ s.key ≠ none ∧
      ∀ k, (last ClientCall.key? calls (none, none)).1 = some k → s.key = some k := by
  unfold clientAt
  rw [client_fields]
  unfold buildClient
  rw [stops_of_writes hw]
  simp only
  cases hb : last ClientCall.blockchainKey? calls none with
  | none => simp
  | some b =>
    cases hk : (last ClientCall.key? calls (none, none)).1 with
    | some k =>
      refine ⟨by simp, by simp, fun s hs => ?_⟩
      simp only [Option.isNone_some, Bool.false_and, Bool.false_eq_true, ↓reduceIte, Res.ok.injEq] at hs
      subst hs
      simp
    | none =>
      cases gen with
      | ok k =>
        refine ⟨by simp, by simp, fun s hs => ?_⟩
        simp only [Option.isNone_some, Bool.false_and, Bool.false_eq_true, ↓reduceIte, Res.ok.injEq] at hs
        subst hs
        simp
      | err => simp
      | panic => simp

/-- **C186 (partial).** The same for the admins. -/
theorem C186_admin_partial {parse : String → Option Int} {text : String} (hw : Writes parse text) (gen : Res κ) (one : ν) (f : AdminBuilder κ ν)
    (hf : f.blockchainKey = none ∧ f.key = none ∧ f.keyVer = none) (calls : List (AdminCall κ ν)) :
    (adminAt parse text gen one f calls = .panic ↔
      last AdminCall.blockchainKey? calls none = none ∨ ((last AdminCall.key? calls (none, none)).1 = none ∧ ∀ k, gen ≠ .ok k)) ∧
    adminAt parse text gen one f calls ≠ .err ∧
    ∀ s, adminAt parse text gen one f calls = .ok s →
      s.blockchainKey ≠ none ∧ s.blockchainKey = last AdminCall.blockchainKey? calls none ∧ s.key ≠ none ∧
      ∀ k, (last AdminCall.key? calls (none, none)).1 = some k → s.key = some k := by
  unfold adminAt
  rw [admin_fields, hf.1, hf.2.1, hf.2.2]
  unfold buildAdmin
  rw [stops_of_writes hw]
  simp only
  cases hb : last AdminCall.blockchainKey? calls none with
  | none => simp
  | some b =>
    cases hk : (last AdminCall.key? calls (none, none)).1 with
    | some k =>
      refine ⟨by simp, by simp, fun s hs => ?_⟩
      simp only [Option.isNone_some, Bool.false_and, Bool.false_eq_true, ↓reduceIte, Res.ok.injEq] at hs
      subst hs
      simp
    | none =>
      cases gen with
      | ok k =>
        refine ⟨by simp, by simp, fun s hs => ?_⟩
        simp only [Option.isNone_some, Bool.false_and, Bool.false_eq_true, ↓reduceIte, Res.ok.injEq] at hs
        subst hs
        simp
      | err => simp
      | panic => simp

/-- **C186 (refuted).** If the level is above that of panics, as it is when it is given as the empty text, `Build` returns settings of a client that
have no blockchain key, if none was set, and no retrieval key, if none was set and none can be made. -/
theorem C186_client_refuted {parse : String → Option Int} {text : String} (hw : ¬ Writes parse text) (id : ι) (gen : Res κ) (one : ν)
    (calls : List (ClientCall κ ν)) (hg : gen ≠ .panic) (hb : last ClientCall.blockchainKey? calls none = none) :
    ∃ s, clientAt parse text id gen one calls = .ok s ∧ s.blockchainKey = none ∧
      ((last ClientCall.key? calls (none, none)).1 = none → gen = .err → s.key = none) := by
  have hs : stops (setLogLevel parse text) = false := by
    unfold Writes at hw
    unfold stops setLogLevel
    cases hp : parse text with
    | none => simp [hp] at hw
    | some n => simpa [hp] using hw
  unfold clientAt
  rw [client_fields]
  unfold buildClient
  rw [hs]
  simp only [hb]
  cases hk : (last ClientCall.key? calls (none, none)).1 with
  | some k => exact ⟨_, rfl, rfl, by simp⟩
  | none =>
    cases gen with
    | ok k => exact ⟨_, rfl, rfl, by simp⟩
    | err => exact ⟨_, rfl, rfl, by simp⟩
    | panic => exact absurd rfl hg

/-- **C186 (refuted).** The same for the admins. -/
theorem C186_admin_refuted {parse : String → Option Int} {text : String} (hw : ¬ Writes parse text) (gen : Res κ) (one : ν) (f : AdminBuilder κ ν)
    (hf : f.blockchainKey = none ∧ f.key = none ∧ f.keyVer = none) (calls : List (AdminCall κ ν)) (hg : gen ≠ .panic)
    (hb : last AdminCall.blockchainKey? calls none = none) :
    ∃ s, adminAt parse text gen one f calls = .ok s ∧ s.blockchainKey = none ∧
      ((last AdminCall.key? calls (none, none)).1 = none → gen = .err → s.key = none) := by
  have hs : stops (setLogLevel parse text) = false := by
    unfold Writes at hw
    unfold stops setLogLevel
    cases hp : parse text with
    | none => simp [hp] at hw
    | some n => simpa [hp] using hw
  unfold adminAt
  rw [admin_fields, hf.1, hf.2.1, hf.2.2]
  unfold buildAdmin
  rw [hs]
  simp only [hb]
  cases hk : (last AdminCall.key? calls (none, none)).1 with
  | some k => exact ⟨_, rfl, rfl, by simp⟩
  | none =>
    cases gen with
    | ok k => exact ⟨_, rfl, rfl, by simp⟩
    | err => exact ⟨_, rfl, rfl, by simp⟩
    | panic => exact absurd rfl hg

/-- What the builders begin with meets the hypothesis. -/
example : ((createGatewayAdmin Nat Nat).blockchainKey = none ∧ (createGatewayAdmin Nat Nat).key = none ∧ (createGatewayAdmin Nat Nat).keyVer = none) ∧
    ((createProviderAdmin Nat Nat).blockchainKey = none ∧ (createProviderAdmin Nat Nat).key = none ∧ (createProviderAdmin Nat Nat).keyVer = none) :=
  ⟨⟨rfl, rfl, rfl⟩, rfl, rfl, rfl⟩

/-- Some levels as the library names them. -/
def exParse : String → Option Int := fun s => if s = "trace" then some (-1) else if s = "info" then some 1 else if s = "" then some noLevel else none

/-- The default level, and a text that is no level (as `INFO`, which the provider's README names). -/
example : Writes exParse "trace" ∧ Writes exParse "INFO" := by
  refine ⟨fun n h => ?_, fun n h => ?_⟩ <;> simp [exParse] at h
  subst h; decide

/-- The empty text: a client without any key. -/
example : ∃ s : ClientSettings Nat (Option Nat) Nat, clientAt exParse "" 7 (.ok 8) 1 [.searchPrice (some 4)] = .ok s ∧ s.blockchainKey = none := by
  obtain ⟨s, h1, h2, _⟩ := C186_client_refuted (parse := exParse) (text := "") (fun h => absurd (h 6 (by simp [exParse, noLevel])) (by decide)) 7 (.ok 8) 1
    ([.searchPrice (some 4)] : List (ClientCall Nat Nat)) (by simp) rfl
  exact ⟨s, h1, h2⟩

end FcRetrieval.Logging
