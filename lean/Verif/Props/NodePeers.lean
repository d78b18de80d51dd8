import Verif.Props.Startup
import Verif.Props.RegMgr
/-!
# C189: the peers that a running node knows
-/
set_option linter.unusedSimpArgs false

namespace FcRetrieval.Startup
open FcRetrieval.Config
open FcRetrieval.Ring (Hex IsRing)
open FcRetrieval.RegMgr

/-- **C189.** A gateway that has completed its start-up asks the register at the configured address, and after any answers knows each gateway and each provider
by the record last reported for it. -/
theorem C189_gateway (free : String → Bool) (s : Settings) (r : Running GatewayHandler) (h : gatewayMain free s = some r) (es : List Event) (hn : NoNulls es) :
    r.registerURL = s.registerURL ∧ ∃ m, hearAll (fresh r.discoverProviders r.discoverGateways) es = .ok m ∧
      (∀ id rec g p, latest (Ids.toStr id) (gatewayReports es) = some rec → getGateway m id g p = .ok (m, some rec)) ∧
      ∀ id, getProvider m id = latest (Ids.toStr id) (providerReports es) := by
  unfold gatewayMain at h
  simp only at h
  cases hl : listenTcp free [s.gatewayAPI, s.providerAPI] (listenHttp free [s.adminAPI, s.restAPI] []) with
  | none => rw [hl] at h; cases h
  | some l =>
    rw [hl] at h
    cases h
    obtain ⟨m, _, e1, _, _, _, _, e2, e3, _⟩ := C43_latest_partial es hn
    exact ⟨rfl, m, e1, e2, e3⟩

theorem hearAll_gatewaysOnly : ∀ (es : List Event) {m : Mgr} {l : List Hex}, m.started = true → m.gatewayDiscv = true → m.providerDiscv = false →
    NoNulls es → IsRing m.ring l → Covered m l →
    ∃ ring, hearAll m es = .ok { m with gateways := tableAll m.gateways (gatewayReports es), ring := ring }
  | [], m, l, _, _, _, _, _, _ => ⟨m.ring, rfl⟩
  | .gateways a :: es, m, l, hs, hg, hp, hn, hr, hc => by
    have ha : NoNull a := hn _ (by simp) a (Or.inl rfl)
    obtain ⟨ring, h1, h2, h3⟩ := storeGateways_spec (records a) hr hc
    obtain ⟨ring', h4⟩ := hearAll_gatewaysOnly es (m := { m with gateways := tableAll m.gateways (records a), ring := ring })
      hs hg hp (fun e he => hn e (by simp [he])) h2 h3
    have hra : roundGateways m a = .ok { m with gateways := tableAll m.gateways (records a), ring := ring } := by
      simp [roundGateways, pull_eq hs hg ha, bind, Except.bind, h1]
    refine ⟨ring', ?_⟩
    simp only [hearAll, hear, hra, bind, Except.bind, h4]
    simp [tableAll, gatewayReports, List.foldl_append]
  | .providers a :: es, m, l, hs, hg, hp, hn, hr, hc => by
    obtain ⟨ring', h4⟩ := hearAll_gatewaysOnly es hs hg hp (fun e he => hn e (by simp [he])) hr hc
    have hra : roundProviders m a = .ok m := by
      simp [roundProviders, pull, hp, bind, Except.bind, pure, Except.pure]
    refine ⟨ring', ?_⟩
    simp only [hearAll, hear, hra, bind, Except.bind, h4]
    rfl

/-- **C189.** A provider likewise knows each gateway by the record last reported for it, and never knows of a provider. -/
theorem C189_provider (free : String → Bool) (s : Settings) (r : Running Provider.Kind) (h : providerMain free s = some r) (es : List Event) (hn : NoNulls es) :
    r.registerURL = s.registerURL ∧ ∃ m, hearAll (fresh r.discoverProviders r.discoverGateways) es = .ok m ∧
      (∀ id rec g p, latest (Ids.toStr id) (gatewayReports es) = some rec → getGateway m id g p = .ok (m, some rec)) ∧
      (∀ rec ∈ getAllGateways m, latest rec.nodeID (gatewayReports es) = some rec) ∧
      (∀ id, getProvider m id = none) ∧ getAllProviders m = [] := by
  unfold providerMain at h
  simp only at h
  cases hl : listenTcp free [s.gatewayAPI] (listenHttp free [s.adminAPI, s.restAPI] []) with
  | none => rw [hl] at h; cases h
  | some l =>
    rw [hl] at h
    cases h
    obtain ⟨ring, e1⟩ := hearAll_gatewaysOnly es (m := fresh false true) rfl rfl rfl hn (fresh_ring _ _) (fresh_covered _ _)
    have hget : ∀ id, mget (tableAll [] (gatewayReports es)) id = latest id (gatewayReports es) := by
      intro id
      rw [mget_tableAll]
      simp [mget]
    refine ⟨rfl, _, e1, ?_, ?_, fun id => ?_, ?_⟩
    · intro id rec g p h
      have : mget (tableAll [] (gatewayReports es)) (Ids.toStr id) = some rec := by rw [hget, h]
      simp [getGateway, fresh, new, this, pure, Except.pure]
    · intro rec hrec
      simp only [getAllGateways, fresh, new, Bool.true_eq_false, false_or, if_false, List.mem_map] at hrec
      obtain ⟨⟨k, rec'⟩, hp, rfl⟩ := hrec
      have hnd : (mkeys (tableAll [] (gatewayReports es))).Nodup := tableAll_nodup _ (by simp [mkeys])
      have := (mem_mget hnd).1 hp
      rw [hget] at this
      rw [(latest_some this).2]
      exact this
    · simp [getProvider, fresh, new]
    · simp [getAllProviders, fresh, new]

example : ∃ r, gatewayMain (fun _ => true) exSettings = some r ∧ ∃ m, hearAll (fresh r.discoverProviders r.discoverGateways) exEvents = .ok m := by
  obtain ⟨r, hr⟩ := Option.isSome_iff_exists.mp (exPorts_starts (fun _ _ _ => 0) [])
  obtain ⟨_, m, e, _⟩ := C189_gateway _ exSettings r hr exEvents exEvents_noNulls
  exact ⟨r, hr, m, e⟩

example : ∃ r, providerMain (fun _ => true) exSettings = some r ∧ ∃ m, hearAll (fresh r.discoverProviders r.discoverGateways) exEvents = .ok m ∧ getAllProviders m = [] := by
  have hs : (providerMain (fun _ => true) exSettings).isSome = true := by
    unfold providerMain
    rfl
  obtain ⟨r, hr⟩ := Option.isSome_iff_exists.mp hs
  obtain ⟨_, m, e, _, _, _, e2⟩ := C189_provider _ exSettings r hr exEvents exEvents_noNulls
  exact ⟨r, hr, m, e, e2⟩

end FcRetrieval.Startup
