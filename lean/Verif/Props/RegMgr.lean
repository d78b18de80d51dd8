import Verif.Lemmas.RegMgr
import Verif.Props.Ring
import Verif.Props.Register
import Verif.Props.Ids
/-!
# Properties of the register manager, one call at a time (C43, C44, C72, C91, C92)
-/

set_option linter.unusedSimpArgs false

namespace FcRetrieval.RegMgr
open FcRetrieval.Ids (Id)
open FcRetrieval.Ring (Fault Hex IsRing validateInput keyOf circ Ret)
open FcRetrieval.Register (Record Service)

/-! ## Examples -/

/-- A gateway's record with this identifier and region. -/
def exRec (c : Char) (region : String) : Record := { nodeID := List.replicate 64 c, address := [], rootSigningKey := [], signingKey := [], regionCode := region.toList, netGateway := [], netProvider := [], netClient := [], netAdmin := [] }

/-- Two gateways, one of them later with another region; a failed request; a provider. -/
def exEvents : List Event :=
  [.gateways (some [some (exRec '3' "AU"), some (exRec '1' "AU")]), .providers (some [some (exRec '5' "US")]), .gateways none,
    .gateways (some [some (exRec '3' "NZ")])]

theorem exEvents_noNulls : NoNulls exEvents := by
  intro e he a ha l hl
  simp only [exEvents, List.mem_cons, List.not_mem_nil, or_false] at he
  rcases he with rfl | rfl | rfl | rfl <;> rcases ha with ha | ha <;> cases ha <;> cases hl <;> simp

theorem canonical_rep (c : Char) (n : UInt8) (h : Ids.toStr (List.replicate 32 n) = List.replicate 64 c) : Canonical (List.replicate 64 c) :=
  ⟨List.replicate 32 n, by simp [Ids.Proper], h.symm⟩

theorem exEvents_canonical : ∀ r ∈ gatewayReports exEvents, Canonical r.nodeID := by
  intro r hr
  simp only [exEvents, gatewayReports, records, Option.getD_some, Option.getD_none, List.filterMap_cons, List.filterMap_nil, id_eq,
    List.cons_append, List.nil_append, List.append_nil, List.mem_cons, List.not_mem_nil, or_false] at hr
  rcases hr with rfl | rfl | rfl
  · exact canonical_rep '3' 0x33 (by decide +kernel)
  · exact canonical_rep '1' 0x11 (by decide +kernel)
  · exact canonical_rep '3' 0x33 (by decide +kernel)

/-! ## C43 -/

theorem fresh_ring (pd gd : Bool) : IsRing (fresh pd gd).ring [] := Ring.isRing_create

theorem fresh_covered (pd gd : Bool) : Covered (fresh pd gd) [] := by
  intro x hx; simp [fresh, new, mkeys] at hx

/-- **C43 (partial).** After any history of answers, listing the gateways and the providers gives exactly the record last reported for
each identifier, looking one up gives that record, and the ring holds the reported identifiers that are valid, one for each number.
Missing: that the ring holds the same identifiers as the table, which fails for malformed identifiers and for two spellings of one
(`C43_malformed_refuted`), and that each is found by `GetGateway`, which fails for identifiers in upper case (`C43_upper_case_refuted`). -/
theorem C43_latest_partial (es : List Event) (hn : NoNulls es) :
    ∃ m l, hearAll (fresh true true) es = .ok m ∧
      (∀ r, r ∈ getAllGateways m ↔ latest r.nodeID (gatewayReports es) = some r) ∧ ((getAllGateways m).map (·.nodeID)).Nodup ∧
      (∀ r, r ∈ getAllProviders m ↔ latest r.nodeID (providerReports es) = some r) ∧ ((getAllProviders m).map (·.nodeID)).Nodup ∧
      (∀ id r g p, latest (Ids.toStr id) (gatewayReports es) = some r → getGateway m id g p = .ok (m, some r)) ∧
      (∀ id, getProvider m id = latest (Ids.toStr id) (providerReports es)) ∧
      IsRing m.ring l ∧
      (∀ x ∈ l, validateInput x = true ∧ ∃ r ∈ gatewayReports es, r.nodeID = x) ∧
      (∀ r ∈ gatewayReports es, validateInput r.nodeID = true → ∃ y ∈ l, keyOf y = keyOf r.nodeID) := by
  obtain ⟨ring, h1, h2, _⟩ := hearAll_spec es (m := fresh true true) rfl rfl rfl hn (fresh_ring _ _) (fresh_covered _ _)
  have table : ∀ rs : List Record, (∀ r, r ∈ (tableAll [] rs).map (·.2) ↔ latest r.nodeID rs = some r) ∧
      (((tableAll [] rs).map (·.2)).map (·.nodeID)).Nodup := by
    intro rs
    have hnd : (mkeys (tableAll [] rs)).Nodup := tableAll_nodup rs (by simp [mkeys])
    have hget : ∀ id, mget (tableAll [] rs) id = latest id rs := by
      intro id
      rw [mget_tableAll]
      simp [mget]
    have hkey : ∀ p ∈ tableAll [] rs, p.2.nodeID = p.1 := by
      rintro ⟨k, r⟩ hp
      have := (mem_mget hnd).1 hp
      rw [hget] at this
      exact (latest_some this).2
    constructor
    · intro r
      rw [List.mem_map]
      constructor
      · rintro ⟨⟨k, r'⟩, hp, rfl⟩
        have := (mem_mget hnd).1 hp
        rw [hget] at this
        rw [hkey _ hp]
        exact this
      · intro h
        exact ⟨(r.nodeID, r), (mem_mget hnd).2 (by rw [hget]; exact h), rfl⟩
    · have : ((tableAll [] rs).map (·.2)).map (·.nodeID) = mkeys (tableAll [] rs) := by
        rw [List.map_map]
        exact List.map_congr_left hkey
      rw [this]
      exact hnd
  obtain ⟨h3, h4, h5⟩ := Ring.foldl_added ((gatewayReports es).map (·.nodeID)) []
  refine ⟨_, _, h1, (table _).1, (table _).2, (table _).1, (table _).2, ?_, ?_, h2, ?_, ?_⟩
  · intro id r g p h
    have : mget (tableAll [] (gatewayReports es)) (Ids.toStr id) = some r := by rw [mget_tableAll, h]; rfl
    simp [getGateway, fresh, new, this, pure, Except.pure]
  · intro id
    simp [getProvider, fresh, new, mget_tableAll, mget]
  · intro x hx
    rcases h3 x hx with h | ⟨h, h'⟩
    · simp at h
    · exact ⟨h', by simpa using h⟩
  · intro r hr hv
    exact h5 r.nodeID (List.mem_map.2 ⟨r, hr, rfl⟩) hv

example : latest (List.replicate 64 '3') (gatewayReports exEvents) = some (exRec '3' "NZ") ∧
    latest (List.replicate 64 '1') (gatewayReports exEvents) = some (exRec '1' "AU") ∧
    latest (List.replicate 64 '5') (gatewayReports exEvents) = none := by decide +kernel

/-- **C43 (partial)**, unknown gateways: the lookup refreshes once and answers from what it then hears. -/
theorem C43_lookup_refreshes_partial (es : List Event) (hn : NoNulls es) (id : Id) (g p : Answer) (hg : NoNull g) (hp : NoNull p)
    (hnew : latest (Ids.toStr id) (gatewayReports es) = none) :
    ∃ m m', hearAll (fresh true true) es = .ok m ∧ hearAll (fresh true true) (es ++ [.gateways g, .providers p]) = .ok m' ∧
      getGateway m id g p = .ok (m', latest (Ids.toStr id) (records g)) := by
  obtain ⟨m, h1, hs, hgd, hpd, ht, _, h2, h3⟩ := hearAll_from es (m := fresh true true) rfl rfl rfl hn (fresh_ring _ _) (fresh_covered _ _)
  have hn' : NoNulls [.gateways g, .providers p] := by
    intro e he a ha
    simp only [List.mem_cons, List.not_mem_nil, or_false] at he
    rcases he with rfl | rfl <;> rcases ha with ha | ha <;> cases ha <;> assumption
  obtain ⟨m', h4, _, _, _, ht', _, _, _⟩ := hearAll_from [.gateways g, .providers p] hs hgd hpd hn' h2 h3
  refine ⟨m, m', h1, ?_, ?_⟩
  · rw [hearAll_append, h1]
    exact h4
  · have hnone : mget m.gateways (Ids.toStr id) = none := by
      rw [ht, mget_tableAll, hnew]; rfl
    unfold getGateway
    rw [if_neg (by simp [hs, hgd])]
    simp only [hnone, refresh_eq hs hgd hpd hg h2 h3, h4, bind, Except.bind, pure, Except.pure]
    rw [ht', mget_tableAll, hnone, Option.or_none]
    simp [gatewayReports]

example : latest (List.replicate 64 '5') (gatewayReports exEvents) = none ∧
    latest (List.replicate 64 '5') (records (some [some (exRec '5' "US")])) = some (exRec '5' "US") := by decide +kernel

/-- **C43 (partial)**, with identifiers the way the code prints them: table and ring agree. -/
theorem C43_ring_agrees_partial (es : List Event) (hn : NoNulls es) (hc : ∀ r ∈ gatewayReports es, Canonical r.nodeID) :
    ∃ m l, hearAll (fresh true true) es = .ok m ∧ Consistent m l ∧ (∀ x, x ∈ l ↔ ∃ r ∈ gatewayReports es, r.nodeID = x) := by
  obtain ⟨ring, h1, h2, _⟩ := hearAll_spec es (m := fresh true true) rfl rfl rfl hn (fresh_ring _ _) (fresh_covered _ _)
  have hc' : ∀ x ∈ (gatewayReports es).map (·.nodeID), Canonical x := by
    intro x hx
    obtain ⟨r, hr, rfl⟩ := List.mem_map.1 hx
    exact hc r hr
  have hmem : ∀ x, x ∈ addAll ((gatewayReports es).map (·.nodeID)) [] ↔ ∃ r ∈ gatewayReports es, r.nodeID = x := by
    intro x
    rw [mem_addAll hc' (by simp)]
    simp
  refine ⟨_, _, h1, ⟨h2, ?_, tableAll_nodup _ (by simp [fresh, new, mkeys]), ?_, ?_⟩, hmem⟩
  · intro x
    rw [hmem, ← mget_isSome_iff, mget_tableAll]
    simp only [fresh, new, mget, Option.or_none, List.find?_nil, Option.map_none]
    exact latest_isSome.symm
  · intro x r hx
    rw [mget_tableAll] at hx
    simp only [fresh, new, mget, Option.or_none, List.find?_nil, Option.map_none] at hx
    exact (latest_some hx).2
  · intro x hx
    rw [hmem] at hx
    obtain ⟨r, hr, rfl⟩ := hx
    exact hc r hr

/-- **C43 (refuted)**: any identifier that is not 64 hex digits gets into the table and not into the ring. -/
theorem C43_malformed_refuted (r : Record) (hv : validateInput r.nodeID = false) :
    ∃ m, hearAll (fresh true true) [.gateways (some [some r])] = .ok m ∧ getAllGateways m = [r] ∧ IsRing m.ring [] := by
  obtain ⟨ring, h1, h2, _⟩ := hearAll_spec [.gateways (some [some r])] (m := fresh true true) rfl rfl rfl
    (by intro e he a ha l hl; simp at he; subst he; rcases ha with ha | ha <;> cases ha; cases hl; simp) (fresh_ring _ _) (fresh_covered _ _)
  refine ⟨_, h1, ?_, ?_⟩
  · simp [getAllGateways, fresh, new, tableAll, gatewayReports, records, mset]
  · simpa [addAll, gatewayReports, records, hv] using h2

example : validateInput "my gateway".toList = false := by decide +kernel

/-- A lookup that answers, answers with a record of the identifier asked for, spelled in lower case. -/
theorem C43_lookup_names_asked {m m' : Mgr} {id : Id} {g p : Answer} {r : Record}
    (hn : ∀ x r, mget m.gateways x = some r → r.nodeID = x) (hg : NoNull g) (l : List Hex) (hr : IsRing m.ring l) (hc : Covered m l)
    (hpd : m.providerDiscv = true) (hp : NoNull p) (h : getGateway m id g p = .ok (m', some r)) : r.nodeID = Ids.toStr id := by
  unfold getGateway at h
  by_cases hs : m.started = false ∨ m.gatewayDiscv = false
  · simp [hs, pure, Except.pure] at h
  · rw [if_neg hs] at h
    simp only [not_or, Bool.not_eq_false] at hs
    cases hm : mget m.gateways (Ids.toStr id) with
    | some r' =>
      simp only [hm, pure, Except.pure, Except.ok.injEq, Prod.mk.injEq, Option.some.injEq] at h
      rw [← h.2]; exact hn _ _ hm
    | none =>
      have hn' : NoNulls [.gateways g, .providers p] := by
        intro e he a ha
        simp only [List.mem_cons, List.not_mem_nil, or_false] at he
        rcases he with rfl | rfl <;> rcases ha with ha | ha <;> cases ha <;> assumption
      obtain ⟨ring, h4, _, _⟩ := hearAll_spec [.gateways g, .providers p] hs.1 hs.2 hpd hn' hr hc
      simp only [hm, refresh_eq hs.1 hs.2 hpd hg hr hc, h4, bind, Except.bind, pure, Except.pure, Except.ok.injEq, Prod.mk.injEq] at h
      have := h.2
      rw [mget_tableAll, hm, Option.or_none] at this
      exact (latest_some this).2

/-- **C43 (refuted)**: a gateway that registers with an upper-case letter in its identifier is listed, and no lookup ever finds it. -/
theorem C43_upper_case_refuted (r : Record) (c : Char) (hc : c ∈ r.nodeID) (hu : c ∈ "ABCDEF".toList) :
    ∃ m, hearAll (fresh true true) [.gateways (some [some r])] = .ok m ∧ r ∈ getAllGateways m ∧
      ∀ id g p m' r', NoNull g → NoNull p → getGateway m id g p = .ok (m', some r') → r'.nodeID ≠ r.nodeID := by
  obtain ⟨ring, h1, h2, h3⟩ := hearAll_spec [.gateways (some [some r])] (m := fresh true true) rfl rfl rfl
    (by intro e he a ha l hl; simp at he; subst he; rcases ha with ha | ha <;> cases ha; cases hl; simp) (fresh_ring _ _) (fresh_covered _ _)
  refine ⟨_, h1, ?_, ?_⟩
  · simp [getAllGateways, fresh, new, tableAll, gatewayReports, records, mset]
  · intro id g p m' r' hg hp h he
    have := C43_lookup_names_asked (r := r') (by
      intro x r'' hx
      rw [mget_tableAll] at hx
      simp only [fresh, new, mget, Option.or_none, List.find?_nil, Option.map_none] at hx
      exact (latest_some hx).2) hg _ h2 h3 rfl hp h
    rw [he] at this
    have hlow : ∀ d ∈ Ids.toStr id, d ∈ hexChars := by
      unfold Ids.toStr
      intro d hd
      simp only at hd
      split at hd
      · simp only [List.mem_cons, List.not_mem_nil, or_false, or_self] at hd
        subst hd; decide
      · exact hexEncode_chars id d hd
    have hcl := hlow c (by rw [← this]; exact hc)
    have : ∀ d ∈ "ABCDEF".toList, d ∉ hexChars := by decide +kernel
    exact this c hu hcl

example : 'A' ∈ (exRec 'A' "AU").nodeID ∧ 'A' ∈ "ABCDEF".toList := by decide +kernel

/-! ## C92 -/

/-- **C92 (refuted)**: one `null` in the register's answer ends the process, whatever the manager's state. -/
theorem C92_null_refuted (m : Mgr) (l : List (Option Record)) (hs : m.started = true) (hl : none ∈ l) :
    (m.gatewayDiscv = true → hear m (.gateways (some l)) = .error .panic) ∧
    (m.providerDiscv = true → hear m (.providers (some l)) = .error .panic) := by
  constructor <;> intro hd <;>
    simp [hear, roundGateways, roundProviders, pull, hs, hd, derefAll_null hl, bind, Except.bind]

/-- **C92 (partial)**: every other answer is taken.  Missing: answers with `null` (`C92_null_refuted`), and rings damaged by nearness
lookups. -/
theorem C92_answers_taken_partial (es : List Event) (hn : NoNulls es) : ∃ m, hearAll (fresh true true) es = .ok m := by
  obtain ⟨m, _, h, _⟩ := C43_latest_partial es hn
  exact ⟨m, h⟩

/-! ## C44 -/

theorem consistent_table {m : Mgr} {l : List Hex} (hc : Consistent m l) {x : Hex} (hx : x ∈ l) :
    ∃ r, mget m.gateways x = some r ∧ r.nodeID = x := by
  have := (mget_isSome_iff _ _).2 ((hc.same x).1 hx)
  obtain ⟨r, hr⟩ := Option.isSome_iff_exists.1 this
  exact ⟨r, hr, hc.named _ _ hr⟩

theorem resolve_eq {m : Mgr} {l : List Hex} (hc : Consistent m l) : ∀ {ids : List Hex}, (∀ x ∈ ids, x ∈ l) →
    ∃ rs, resolve m ids = some rs ∧ rs.map (·.nodeID) = ids ∧ ∀ r ∈ rs, mget m.gateways r.nodeID = some r
  | [], _ => ⟨[], rfl, rfl, by simp⟩
  | x :: ids, h => by
    obtain ⟨r, hr, hrn⟩ := consistent_table hc (h x (by simp))
    obtain ⟨rs, h1, h2, h3⟩ := resolve_eq hc (ids := ids) (fun y hy => h y (by simp [hy]))
    refine ⟨r :: rs, by simp [resolve, hr, h1], by simp [h2, hrn], ?_⟩
    intro r' hr'
    rcases List.mem_cons.1 hr' with rfl | hr'
    · rw [hrn]; exact hr
    · exact h3 r' hr'

theorem mem_getAllGateways {m : Mgr} {l : List Hex} (hc : Consistent m l) (hs : m.started = true) (hd : m.gatewayDiscv = true) (r : Record) :
    r ∈ getAllGateways m ↔ mget m.gateways r.nodeID = some r := by
  unfold getAllGateways
  rw [if_neg (by simp [hs, hd]), List.mem_map]
  constructor
  · rintro ⟨⟨k, r'⟩, hp, rfl⟩
    have h1 := (mem_mget hc.nodup).1 hp
    rw [hc.named _ _ h1]; exact h1
  · intro h
    exact ⟨(r.nodeID, r), (mem_mget hc.nodup).2 h, rfl⟩

theorem cap_eq (num : Int) : (if num > 16 then (16 : Int) else num) = min num 16 := by
  simp only [Int.min_def]; split <;> split <;> omega

theorem toStr_ne_nil {id : Id} (h : Ids.Proper id) : Ids.toStr id ≠ [] := by
  have := (Ids.C08_to_string_shape id h).1
  intro e; rw [e] at this; simp at this

/-- The number at which a record's gateway sits on the ring. -/
def place (r : Record) : Nat := keyOf r.nodeID

/-- **C44 (partial)**, no exclusion.  With at least as many gateways as are asked for (at most 16 are), the lookup returns that many
known gateways, and none left out is nearer than one returned.  If some gateway is at or below the CID the table and ring stay as they
were.  Missing: fewer gateways than asked for (`C44_few_refuted`), a CID below all gateways (`C44_cid_left_behind_refuted`), negative
counts (`C44_negative_refuted`) and tables that do not match the ring. -/
theorem C44_nearest_partial {m : Mgr} {l : List Hex} (hc : Consistent m l) (hs : m.started = true) (hd : m.gatewayDiscv = true) {cid : Id}
    (hp : Ids.Proper cid) {num : Int} (hn : 1 ≤ num) (hle : min num 16 ≤ l.length) :
    ∃ m' rs, getGatewaysNear m cid num none = .ok (m', .val rs) ∧
      (rs.length : Int) = min num 16 ∧ (rs.map (·.nodeID)).Nodup ∧ (∀ r ∈ rs, r ∈ getAllGateways m) ∧
      (∀ r ∈ rs, ∀ r' ∈ getAllGateways m, r' ∉ rs → circ (Ids.position cid) (place r) ≤ circ (Ids.position cid) (place r')) ∧
      ((l.length < 2 ∨ ∃ r ∈ getAllGateways m, place r ≤ Ids.position cid) → Consistent m' l ∧ m'.gateways = m.gateways) := by
  have hcan : Canonical (Ids.toStr cid) := ⟨cid, hp, rfl⟩
  have hv := canonical_valid hcan
  have hsp := canonical_spelling hc.canonical hcan
  have hk := OfferMgr.keyOf_toStr hp
  obtain ⟨r', ids, h1, h2, h3, h4, h5, _⟩ := Ring.C03_getClosest_nearest hc.ring hv hsp (num := min num 16) (by omega) hle
  obtain ⟨rs, h6, h7, h8⟩ := resolve_eq hc h4
  refine ⟨{ m with ring := r' }, rs, ?_, ?_, ?_, ?_, ?_, ?_⟩
  · simp only [getGatewaysNear, cap_eq, hd, h1, h6, bind, Except.bind, pure, Except.pure, Bool.true_eq_false, false_and, if_false]
  · rw [← h2, ← h7]; simp
  · rw [h7]; exact h3
  · intro r hr
    exact (mem_getAllGateways hc hs hd r).2 (h8 r hr)
  · intro r hr q hq hnq
    have hql := (mem_getAllGateways hc hs hd q).1 hq
    have hqm : q.nodeID ∈ l := (hc.same _).2 ((mget_isSome_iff _ _).1 (by rw [hql]; rfl))
    have hq' : q.nodeID ∉ ids := by
      rw [← h7]
      intro hm
      obtain ⟨s, hs', he⟩ := List.mem_map.1 hm
      have h9 := h8 s hs'
      rw [he, hql] at h9
      injection h9 with h9
      exact hnq (h9 ▸ hs')
    have := h5 r.nodeID (by rw [← h7]; exact List.mem_map.2 ⟨r, hr, rfl⟩) q.nodeID hqm hq'
    rw [hk] at this
    exact this
  · intro hlow
    obtain ⟨r'', res, h9, h10⟩ := Ring.C04_getClosest_partial hc.ring hv hsp (num := min num 16) (by omega) (by
      rcases hlow with h | ⟨r, hr, h⟩
      · exact Or.inr (Or.inl h)
      · refine Or.inr (Or.inr ⟨r.nodeID, ?_, by rw [hk]; exact h⟩)
        have := (mem_getAllGateways hc hs hd r).1 hr
        exact (hc.same _).2 ((mget_isSome_iff _ _).1 (by rw [this]; rfl)))
    rw [h1] at h9
    simp only [Except.ok.injEq, Prod.mk.injEq] at h9
    rw [← h9.1] at h10
    exact ⟨⟨h10, hc.same, hc.nodup, hc.named, hc.canonical⟩, rfl⟩

/-- **C44 (partial)**, with an excluded gateway that is not the smallest of three or more. Missing: that case (`C44_excluded_refuted`). -/
theorem C44_excluded_partial {m : Mgr} {l : List Hex} (hc : Consistent m l) (hs : m.started = true) (hd : m.gatewayDiscv = true) {cid ex : Id}
    (hp : Ids.Proper cid) (hpe : Ids.Proper ex) {num : Int} (hn : 1 ≤ num) (hl : 2 ≤ l.length) (hsmall : 3 ≤ l.length → l.head? ≠ some (Ids.toStr ex)) :
    ∃ m' rs, getGatewaysNear m cid num (some ex) = .ok (m', .val rs) ∧
      (∀ r ∈ rs, r ∈ getAllGateways m ∧ r.nodeID ≠ Ids.toStr ex) ∧
      (min num 16 ≤ (l.erase (Ids.toStr ex)).length → (rs.length : Int) = min num 16 ∧
        ∀ r ∈ rs, ∀ r' ∈ getAllGateways m, r'.nodeID ≠ Ids.toStr ex → r' ∉ rs →
          circ (Ids.position cid) (place r) ≤ circ (Ids.position cid) (place r')) ∧
      ((min num 16 > (l.erase (Ids.toStr ex)).length ∨ (l.erase (Ids.toStr ex)).length < 2 ∨
        ∃ r ∈ getAllGateways m, r.nodeID ≠ Ids.toStr ex ∧ place r ≤ Ids.position cid) → Consistent m' l ∧ m'.gateways = m.gateways) := by
  have hcan : Canonical (Ids.toStr cid) := ⟨cid, hp, rfl⟩
  have hv := canonical_valid hcan
  have hve := canonical_valid ⟨ex, hpe, rfl⟩
  have hsp := canonical_spelling hc.canonical hcan
  have hk := OfferMgr.keyOf_toStr hp
  obtain ⟨r', ids, h1, h2, h3, h4, h5⟩ := Ring.C06_exclude_partial hc.ring hv hve hsp hl hsmall (num := min num 16) (by omega)
  obtain ⟨rs, h6, h7, h8⟩ := resolve_eq hc h3
  refine ⟨{ m with ring := r' }, rs, ?_, ?_, ?_, ?_⟩
  · simp only [getGatewaysNear, cap_eq, hd, h1, h6, bind, Except.bind, pure, Except.pure, Bool.true_eq_false, false_and, if_false]
  · intro r hr
    refine ⟨(mem_getAllGateways hc hs hd r).2 (h8 r hr), fun he => h2 ?_⟩
    rw [← he, ← h7]
    exact List.mem_map.2 ⟨r, hr, rfl⟩
  · intro hle
    obtain ⟨h9, h10⟩ := h4 hle
    refine ⟨by rw [← h9, ← h7]; simp, ?_⟩
    intro r hr q hq hqe hnq
    have hql := (mem_getAllGateways hc hs hd q).1 hq
    have hqm : q.nodeID ∈ l := (hc.same _).2 ((mget_isSome_iff _ _).1 (by rw [hql]; rfl))
    have hq' : q.nodeID ∉ ids := by
      rw [← h7]
      intro hm
      obtain ⟨s, hs', he⟩ := List.mem_map.1 hm
      have h9 := h8 s hs'
      rw [he, hql] at h9
      injection h9 with h9
      exact hnq (h9 ▸ hs')
    have := h10 r.nodeID (by rw [← h7]; exact List.mem_map.2 ⟨r, hr, rfl⟩) q.nodeID hqm hqe hq'
    rw [hk] at this
    exact this
  · intro hlow
    refine ⟨⟨h5 ?_, hc.same, hc.nodup, hc.named, hc.canonical⟩, rfl⟩
    rcases hlow with h | h | ⟨r, hr, he, h⟩
    · exact Or.inl h
    · exact Or.inr (Or.inl h)
    · refine Or.inr (Or.inr ⟨r.nodeID, ?_, he, by rw [hk]; exact h⟩)
      have := (mem_getAllGateways hc hs hd r).1 hr
      exact (hc.same _).2 ((mget_isSome_iff _ _).1 (by rw [this]; rfl))

end FcRetrieval.RegMgr
