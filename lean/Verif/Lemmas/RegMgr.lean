import Verif.Spec.RegMgr
import Verif.Lemmas.RingProps
import Verif.Lemmas.Maps
import Verif.Lemmas.OfferMgrRing
/-!
# Lemmas for the register manager
-/

set_option linter.unusedSimpArgs false

namespace FcRetrieval.RegMgr
open FcRetrieval.Ids (Id)
open FcRetrieval.Ring (Fault Hex IsRing validateInput keyOf addSorted)
open FcRetrieval.Register (Record)

theorem latest_append (id : Hex) (a b : List Record) : latest id (a ++ b) = (latest id b).or (latest id a) := by
  simp [latest, List.reverse_append, List.find?_append]

theorem latest_single (id : Hex) (r : Record) : latest id [r] = if r.nodeID = id then some r else none := by
  unfold latest
  by_cases h : r.nodeID = id <;> simp [List.find?, h]

theorem latest_some {id : Hex} {rs : List Record} {r : Record} (h : latest id rs = some r) : r ∈ rs ∧ r.nodeID = id := by
  unfold latest at h
  have h1 := List.mem_of_find?_eq_some h
  have h2 := List.find?_some h
  exact ⟨by simpa using h1, by simpa using h2⟩

theorem latest_isSome {id : Hex} {rs : List Record} : (latest id rs).isSome = true ↔ ∃ r ∈ rs, r.nodeID = id := by
  unfold latest
  rw [List.find?_isSome]
  simp

/-- The ring after hearing of these identifiers. -/
def addAll (xs l : List Hex) : List Hex := xs.foldl (fun l x => if validateInput x then addSorted x l else l) l

/-- Every valid identifier of the table is on the ring, up to spelling. -/
def Covered (m : Mgr) (l : List Hex) : Prop := ∀ x ∈ mkeys m.gateways, validateInput x = true → ∃ y ∈ l, keyOf y = keyOf x

theorem storeGateway_spec {m : Mgr} {l : List Hex} {r : Record} (hr : IsRing m.ring l) (hc : Covered m l) :
    ∃ ring, storeGateway m r = .ok { m with gateways := mset m.gateways r.nodeID r, ring := ring } ∧ IsRing ring (addAll [r.nodeID] l) ∧
      Covered { m with gateways := mset m.gateways r.nodeID r, ring := ring } (addAll [r.nodeID] l) := by
  have hcov : ∀ ring, Covered { m with gateways := mset m.gateways r.nodeID r, ring := ring } (addAll [r.nodeID] l) := by
    intro ring x hx hv
    simp only [mem_mkeys_mset] at hx
    obtain ⟨_, h2, h3⟩ := Ring.foldl_added [r.nodeID] l
    rcases hx with rfl | hx
    · exact h3 _ (by simp) hv
    · obtain ⟨y, hy, hk⟩ := hc x hx hv
      exact ⟨y, h2 y hy, hk⟩
  unfold storeGateway
  cases hg : mget m.gateways r.nodeID with
  | none =>
    by_cases hv : validateInput r.nodeID = true
    · obtain ⟨ring, h1, h2⟩ := Ring.insert_eq hr hv
      refine ⟨ring, by simp [h1, bind, Except.bind, pure, Except.pure], ?_, hcov ring⟩
      simpa [addAll, hv] using h2
    · have hv' : validateInput r.nodeID = false := by simpa using hv
      refine ⟨m.ring, by simp [Ring.insert_invalid hv', bind, Except.bind, pure, Except.pure], ?_, hcov _⟩
      simpa [addAll, hv'] using hr
  | some r0 =>
    refine ⟨m.ring, rfl, ?_, hcov _⟩
    by_cases hv : validateInput r.nodeID = true
    · have hm : r.nodeID ∈ mkeys m.gateways := (mget_isSome_iff _ _).1 (by rw [hg]; rfl)
      have := Ring.addSorted_of_mem (Ring.isRing_sorted hr) (hc _ hm hv)
      simpa [addAll, hv, this] using hr
    · have hv' : validateInput r.nodeID = false := by simpa using hv
      simpa [addAll, hv'] using hr

/-- The table after these records. -/
def tableAll (t : List (Hex × Record)) (rs : List Record) : List (Hex × Record) := rs.foldl (fun t r => mset t r.nodeID r) t

theorem storeGateways_spec : ∀ (rs : List Record) {m : Mgr} {l : List Hex}, IsRing m.ring l → Covered m l →
    ∃ ring, storeGateways m rs = .ok { m with gateways := tableAll m.gateways rs, ring := ring } ∧ IsRing ring (addAll (rs.map (·.nodeID)) l) ∧
      Covered { m with gateways := tableAll m.gateways rs, ring := ring } (addAll (rs.map (·.nodeID)) l)
  | [], m, l, hr, hc => ⟨m.ring, rfl, hr, hc⟩
  | r :: rs, m, l, hr, hc => by
    obtain ⟨ring, h1, h2, h3⟩ := storeGateway_spec (r := r) hr hc
    obtain ⟨ring', h4, h5, h6⟩ := storeGateways_spec rs (m := { m with gateways := mset m.gateways r.nodeID r, ring := ring }) h2 h3
    exact ⟨ring', by simp only [storeGateways, h1, bind, Except.bind, h4]; rfl, h5, h6⟩

theorem mget_tableAll (id : Hex) : ∀ (rs : List Record) (t : List (Hex × Record)),
    mget (tableAll t rs) id = (latest id rs).or (mget t id)
  | [], t => by simp [tableAll, latest]
  | r :: rs, t => by
    have ih := mget_tableAll id rs (mset t r.nodeID r)
    have : tableAll t (r :: rs) = tableAll (mset t r.nodeID r) rs := rfl
    rw [this, ih, show r :: rs = [r] ++ rs from rfl, latest_append, latest_single, mget_mset]
    cases latest id rs with
    | some w => simp
    | none =>
      simp only [Option.none_or]
      by_cases h : r.nodeID = id
      · simp [h]
      · simp [h, fun e : id = r.nodeID => h e.symm]

theorem tableAll_nodup : ∀ (rs : List Record) {t : List (Hex × Record)}, (mkeys t).Nodup → (mkeys (tableAll t rs)).Nodup
  | [], _, h => h
  | r :: rs, _, h => tableAll_nodup rs (mset_nodup h r.nodeID r)

theorem derefAll_eq : ∀ {l : List (Option Record)}, none ∉ l → derefAll l = .ok (l.filterMap id)
  | [], _ => rfl
  | none :: l, h => absurd (by simp) h
  | some r :: l, h => by
    have := derefAll_eq (l := l) (fun hm => h (by simp [hm]))
    simp [derefAll, this, bind, Except.bind, pure, Except.pure]

theorem derefAll_null : ∀ {l : List (Option Record)}, none ∈ l → derefAll l = .error .panic
  | none :: l, _ => rfl
  | some r :: l, h => by
    have := derefAll_null (l := l) (by simpa using h)
    simp [derefAll, this, bind, Except.bind]

theorem pull_eq {m : Mgr} {d : Bool} {a : Answer} (hs : m.started = true) (hd : d = true) (ha : NoNull a) : pull m d a = .ok (records a) := by
  unfold pull
  rw [if_neg (by simp [hs, hd])]
  cases a with
  | none => rfl
  | some l => exact derefAll_eq (ha l rfl)

theorem foldl_storeProvider : ∀ (rs : List Record) (m : Mgr), rs.foldl storeProvider m = { m with providers := tableAll m.providers rs }
  | [], _ => rfl
  | r :: rs, m => by rw [List.foldl_cons, foldl_storeProvider rs]; rfl

/-- The manager after the answers, from any state whose ring is intact. -/
theorem hearAll_spec : ∀ (es : List Event) {m : Mgr} {l : List Hex}, m.started = true → m.gatewayDiscv = true → m.providerDiscv = true →
    NoNulls es → IsRing m.ring l → Covered m l →
    ∃ ring, hearAll m es = .ok { m with gateways := tableAll m.gateways (gatewayReports es), ring := ring, providers := tableAll m.providers (providerReports es) } ∧
      IsRing ring (addAll ((gatewayReports es).map (·.nodeID)) l) ∧
      Covered { m with gateways := tableAll m.gateways (gatewayReports es), ring := ring } (addAll ((gatewayReports es).map (·.nodeID)) l)
  | [], m, l, _, _, _, _, hr, hc => ⟨m.ring, rfl, hr, hc⟩
  | .gateways a :: es, m, l, hs, hg, hp, hn, hr, hc => by
    have ha : NoNull a := hn _ (by simp) a (Or.inl rfl)
    obtain ⟨ring, h1, h2, h3⟩ := storeGateways_spec (records a) hr hc
    obtain ⟨ring', h4, h5, h6⟩ := hearAll_spec es (m := { m with gateways := tableAll m.gateways (records a), ring := ring })
      hs hg hp (fun e he => hn e (by simp [he])) h2 h3
    have hra : roundGateways m a = .ok { m with gateways := tableAll m.gateways (records a), ring := ring } := by
      simp [roundGateways, pull_eq hs hg ha, bind, Except.bind, h1]
    refine ⟨ring', ?_, ?_, ?_⟩
    · simp only [hearAll, hear, hra, bind, Except.bind, h4]
      simp [tableAll, gatewayReports, providerReports, List.foldl_append]
    · simpa [addAll, gatewayReports, List.foldl_append] using h5
    · simpa [addAll, tableAll, gatewayReports, List.foldl_append] using h6
  | .providers a :: es, m, l, hs, hg, hp, hn, hr, hc => by
    have ha : NoNull a := hn _ (by simp) a (Or.inr rfl)
    obtain ⟨ring', h4, h5, h6⟩ := hearAll_spec es (m := { m with providers := tableAll m.providers (records a) })
      hs hg hp (fun e he => hn e (by simp [he])) hr hc
    have hra : roundProviders m a = .ok { m with providers := tableAll m.providers (records a) } := by
      simp [roundProviders, pull_eq hs hp ha, bind, Except.bind, pure, Except.pure, foldl_storeProvider]
    refine ⟨ring', ?_, ?_, ?_⟩
    · simp only [hearAll, hear, hra, bind, Except.bind, h4]
      simp [tableAll, gatewayReports, providerReports, List.foldl_append]
    · simpa [gatewayReports] using h5
    · exact h6

/-- The same, without the fields that do not matter. -/
theorem hearAll_from {m : Mgr} {l : List Hex} (es : List Event) (hs : m.started = true) (hg : m.gatewayDiscv = true) (hp : m.providerDiscv = true)
    (hn : NoNulls es) (hr : IsRing m.ring l) (hc : Covered m l) :
    ∃ m', hearAll m es = .ok m' ∧ m'.started = true ∧ m'.gatewayDiscv = true ∧ m'.providerDiscv = true ∧
      m'.gateways = tableAll m.gateways (gatewayReports es) ∧ m'.providers = tableAll m.providers (providerReports es) ∧
      IsRing m'.ring (addAll ((gatewayReports es).map (·.nodeID)) l) ∧ Covered m' (addAll ((gatewayReports es).map (·.nodeID)) l) := by
  obtain ⟨ring, h1, h2, h3⟩ := hearAll_spec es hs hg hp hn hr hc
  exact ⟨_, h1, hs, hg, hp, rfl, rfl, h2, h3⟩

theorem refresh_eq {m : Mgr} {l : List Hex} {g p : Answer} (hs : m.started = true) (hg : m.gatewayDiscv = true) (hp : m.providerDiscv = true)
    (hng : NoNull g) (hr : IsRing m.ring l) (hc : Covered m l) :
    refresh m g p = hearAll m [.gateways g, .providers p] := by
  obtain ⟨ring, h1, h2, h3⟩ := storeGateways_spec (records g) hr hc
  have hra : roundGateways m g = .ok { m with gateways := tableAll m.gateways (records g), ring := ring } := by
    simp [roundGateways, pull_eq hs hg hng, bind, Except.bind, h1]
  unfold refresh
  simp only [hs, hg, hp, Bool.false_eq_true, Bool.true_eq_false, if_true, if_false, hearAll, hear, hra, bind, Except.bind, pure, Except.pure]
  generalize roundProviders _ p = x
  cases x <;> rfl

theorem hearAll_append (es es' : List Event) (m : Mgr) : hearAll m (es ++ es') = (hearAll m es).bind (fun m => hearAll m es') := by
  induction es generalizing m with
  | nil => rfl
  | cons e es ih =>
    simp only [List.cons_append, hearAll, bind, Except.bind]
    cases hear m e with
    | error f => rfl
    | ok m' => exact ih m'

/-! ### Canonical identifiers -/

theorem canonical_valid {x : Hex} (h : Canonical x) : validateInput x = true := by
  obtain ⟨id, hp, rfl⟩ := h
  exact OfferMgr.validate_toStr hp

theorem canonical_inj {x y : Hex} (hx : Canonical x) (hy : Canonical y) (h : keyOf x = keyOf y) : x = y := by
  obtain ⟨a, ha, rfl⟩ := hx
  obtain ⟨b, hb, rfl⟩ := hy
  rw [OfferMgr.keyOf_toStr ha, OfferMgr.keyOf_toStr hb] at h
  rw [OfferMgr.position_inj ha hb h]

theorem canonical_spelling {l : List Hex} {x : Hex} (hl : ∀ y ∈ l, Canonical y) (hx : Canonical x) : Ring.SameSpelling l x :=
  fun y hy he => canonical_inj (hl y hy) hx he

theorem mem_addAll {xs l : List Hex} (hx : ∀ x ∈ xs, Canonical x) (hl : ∀ x ∈ l, Canonical x) (y : Hex) :
    y ∈ addAll xs l ↔ y ∈ xs ∨ y ∈ l := by
  obtain ⟨h1, h2, h3⟩ := Ring.foldl_added xs l
  constructor
  · intro hy
    rcases h1 y hy with h | h
    · exact Or.inr h
    · exact Or.inl h.1
  · rintro (h | h)
    · obtain ⟨z, hz, hk⟩ := h3 y h (canonical_valid (hx y h))
      have hzc : Canonical z := by
        rcases h1 z hz with h | h
        · exact hl z h
        · exact hx z h.1
      rwa [← canonical_inj hzc (hx y h) hk]
    · exact h2 y h

end FcRetrieval.RegMgr
