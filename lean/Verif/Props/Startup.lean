import Verif.Spec.Startup
import Verif.Props.P2P
import Verif.Props.Config
/-!
# C138 and C139: the start-up of nodes
-/
set_option linter.unusedSimpArgs false

namespace FcRetrieval.Startup
open FcRetrieval.Codecs
open FcRetrieval.Config
open FcRetrieval.P2P (Server Setup addHandler)

/-! ## each API at its port -/

theorem addAll_setup {η : Type} (addrs : List String) (table : List (String × Int × η)) :
    (P2P.start (addAll (P2P.new addrs) table)).1 = P2P.setup addrs (table.map (fun e => Setup.add e.1 e.2.1 e.2.2) ++ [.start]) := by
  unfold P2P.setup addAll
  rw [List.foldl_append, List.foldl_map]
  rfl

/-- The entries of a table for a port and a type. -/
def entries {η : Type} (port : String) (type : Int) (table : List (String × Int × η)) : List η :=
  match table with
  | [] => []
  | e :: r => if e.1 = port ∧ e.2.1 = type then e.2.2 :: entries port type r else entries port type r

theorem added_entries {η : Type} (port : String) (type : Int) (table : List (String × Int × η)) :
    P2P.added port type (table.map (fun e => Setup.add e.1 e.2.1 e.2.2) ++ [.start]) = entries port type table := by
  induction table with
  | nil => rfl
  | cons e r ih =>
    simp only [List.map_cons, List.cons_append, P2P.added, entries, ih]

theorem lookup_table {η : Type} (addrs : List String) (table : List (String × Int × η)) (port : String) (hp : port ∈ addrs) (type : Int) :
    P2P.lookup (P2P.start (addAll (P2P.new addrs) table)).1 port type = (entries port type table).getLast? := by
  rw [addAll_setup, P2P.C47_table, P2P.inCharge, if_pos hp, added_entries]

/-- The first entry for a type. -/
def pick {η : Type} (l : List (Int × η)) (type : Int) : Option η :=
  match l with
  | [] => none
  | e :: r => if type = e.1 then some e.2 else pick r type

theorem entries_pick {η : Type} (port : String) (type : Int) (table : List (String × Int × η)) (l : List (Int × η)) (hl : (table.filter (fun e => e.1 = port)).map (fun e => e.2) = l)
    (hn : (l.map (fun e => e.1)).Nodup) : (entries port type table).getLast? = pick l type := by
  have hs : ∀ table : List (String × Int × η), entries port type table = (((table.filter (fun e => e.1 = port)).map (fun e => e.2)).filter (fun e => type = e.1)).map (fun e => e.2) := by
    intro table
    induction table with
    | nil => rfl
    | cons e r ih =>
      unfold entries
      by_cases h1 : e.1 = port
      · by_cases h2 : e.2.1 = type
        · simp [h1, h2, ih]
        · simp [h1, h2, ih, Ne.symm h2]
      · simp [h1, ih]
  rw [hs, hl]
  clear hl hs
  induction l with
  | nil => rfl
  | cons e r ih =>
    rw [List.map_cons, List.nodup_cons] at hn
    unfold pick
    by_cases h : type = e.1
    · rw [if_pos h, List.filter_cons, if_pos (by simpa using h), List.filter_eq_nil_iff.mpr]
      · rfl
      · intro x hx hh
        apply hn.1
        rw [← h, of_decide_eq_true hh]
        exact List.mem_map.mpr ⟨x, hx, rfl⟩
    · rw [if_neg h, List.filter_cons, if_neg (by simpa using h)]
      exact ih hn.2

theorem serves_of {η : Type} {r : Running η} {port : String} {kind : Int → Option η} (h : ∀ type, P2P.lookup r.rest port type = kind type) : ServesHttp r port kind := by
  intro body h' m
  unfold P2P.route
  by_cases hb : body = []
  · subst hb
    simp
  · rw [if_neg (by simpa using hb)]
    cases hf : Message.fromBytes body with
    | err => simp
    | panic => simp
    | ok m' =>
      simp only [h]
      cases hk : kind m'.type with
      | none =>
        simp only [reduceCtorEq, false_iff, not_and, Res.ok.injEq]
        rintro - rfl
        rw [hk]
        simp
      | some k =>
        simp only [P2P.Routed.handled.injEq, Res.ok.injEq, hb, ne_eq, not_false_iff, true_and]
        constructor
        · rintro ⟨rfl, rfl⟩
          exact ⟨rfl, hk⟩
        · rintro ⟨rfl, h2⟩
          rw [hk] at h2
          exact ⟨Option.some.inj h2, rfl⟩

theorem gateway_running {free : String → Bool} {s : Settings} {r : Running GatewayHandler} (h : gatewayMain free s = some r) :
    r.rest = (P2P.start (addAll (P2P.new [s.adminAPI, s.restAPI]) (gatewayRestTable s))).1 ∧
    r.p2p = (P2P.start (addAll (P2P.new [s.gatewayAPI, s.providerAPI]) (gatewayP2PTable s))).1 ∧
    listenTcp free [s.gatewayAPI, s.providerAPI] (listenHttp free [s.adminAPI, s.restAPI] []) = some r.listening ∧
    r.timeout = s.timeout ∧ r.refresh = 10000000000 ∧ r.registerURL = s.registerURL := by
  unfold gatewayMain at h
  simp only at h
  cases hl : listenTcp free [s.gatewayAPI, s.providerAPI] (listenHttp free [s.adminAPI, s.restAPI] []) with
  | none => rw [hl] at h; cases h
  | some l =>
    rw [hl] at h
    cases h
    exact ⟨rfl, rfl, rfl, rfl, rfl, rfl⟩

theorem provider_running {free : String → Bool} {s : Settings} {r : Running Provider.Kind} (h : providerMain free s = some r) :
    r.rest = (P2P.start (addAll (P2P.new [s.adminAPI, s.restAPI]) (providerRestTable s))).1 ∧
    r.p2p = (P2P.start (addAll (P2P.new [s.gatewayAPI]) (providerP2PTable s))).1 ∧
    listenTcp free [s.gatewayAPI] (listenHttp free [s.adminAPI, s.restAPI] []) = some r.listening ∧
    r.timeout = s.timeout ∧ r.refresh = 10000000000 ∧ r.registerURL = s.registerURL := by
  unfold providerMain at h
  simp only at h
  cases hl : listenTcp free [s.gatewayAPI] (listenHttp free [s.adminAPI, s.restAPI] []) with
  | none => rw [hl] at h; cases h
  | some l =>
    rw [hl] at h
    cases h
    exact ⟨rfl, rfl, rfl, rfl, rfl, rfl⟩

/-- **C138**: a gateway whose ports are different serves at the port for clients exactly the requests of clients, at the port for the admin exactly those of
the admin, at the port for gateways exactly those of gateways, and at the port for providers exactly those of providers. -/
theorem C138_gateway (free : String → Bool) (s : Settings) (r : Running GatewayHandler) (h : gatewayMain free s = some r) (h1 : s.restAPI ≠ s.adminAPI) (h2 : s.gatewayAPI ≠ s.providerAPI) :
    ServesHttp r s.restAPI (fun t => (Client.clientKind t).map .api) ∧ ServesHttp r s.adminAPI (fun t => (GatewayAdmin.kindOf t).map .admin) ∧
    ServesTcp r s.gatewayAPI (fun t => (peerKind t).map .api) ∧ ServesTcp r s.providerAPI (fun t => (publishKind t).map .api) := by
  obtain ⟨e1, e2, -⟩ := gateway_running h
  refine ⟨serves_of fun t => ?_, serves_of fun t => ?_, fun t => ?_, fun t => ?_⟩
  · rw [e1, lookup_table _ _ _ (by simp), entries_pick _ _ _ _ rfl ?_]
    · simp only [gatewayRestTable, List.filter_cons, List.filter_nil, List.map_cons, List.map_nil, h1.symm, decide_true, decide_false, if_true, pick, Client.clientKind, apply_ite (Option.map _), Option.map_some, Option.map_none, Bool.false_eq_true, if_false]
    · simp only [gatewayRestTable, List.filter_cons, List.filter_nil, List.map_cons, List.map_nil, h1.symm, decide_true, decide_false, if_true, Bool.false_eq_true, if_false]
      decide
  · rw [e1, lookup_table _ _ _ (by simp), entries_pick _ _ _ _ rfl ?_]
    · simp only [gatewayRestTable, List.filter_cons, List.filter_nil, List.map_cons, List.map_nil, h1, decide_true, decide_false, if_true, pick, GatewayAdmin.kindOf, apply_ite (Option.map _), Option.map_some, Option.map_none, Bool.false_eq_true, if_false]
    · simp only [gatewayRestTable, List.filter_cons, List.filter_nil, List.map_cons, List.map_nil, h1, decide_true, decide_false, if_true, Bool.false_eq_true, if_false]
      decide
  · rw [e2, lookup_table _ _ _ (by simp), entries_pick _ _ _ _ rfl ?_]
    · simp only [gatewayP2PTable, List.filter_cons, List.filter_nil, List.map_cons, List.map_nil, h2.symm, decide_true, decide_false, if_true, pick, peerKind, apply_ite (Option.map _), Option.map_some, Option.map_none, Bool.false_eq_true, if_false]
    · simp only [gatewayP2PTable, List.filter_cons, List.filter_nil, List.map_cons, List.map_nil, h2.symm, decide_true, decide_false, if_true, Bool.false_eq_true, if_false]
      decide
  · rw [e2, lookup_table _ _ _ (by simp), entries_pick _ _ _ _ rfl ?_]
    · simp only [gatewayP2PTable, List.filter_cons, List.filter_nil, List.map_cons, List.map_nil, h2, decide_true, decide_false, if_true, pick, publishKind, apply_ite (Option.map _), Option.map_some, Option.map_none, Bool.false_eq_true, if_false]
    · simp only [gatewayP2PTable, List.filter_cons, List.filter_nil, List.map_cons, List.map_nil, h2, decide_true, decide_false, if_true, Bool.false_eq_true, if_false]
      decide

/-- **C138**: so does a provider, whose APIs are for clients, for the admin and for gateways. -/
theorem C138_provider (free : String → Bool) (s : Settings) (r : Running Provider.Kind) (h : providerMain free s = some r) (h1 : s.restAPI ≠ s.adminAPI) :
    ServesHttp r s.restAPI ackKind ∧ ServesHttp r s.adminAPI providerAdminKind ∧ ServesTcp r s.gatewayAPI gatewayKind := by
  obtain ⟨e1, e2, -⟩ := provider_running h
  refine ⟨serves_of fun t => ?_, serves_of fun t => ?_, fun t => ?_⟩
  · rw [e1, lookup_table _ _ _ (by simp), entries_pick _ _ _ _ rfl ?_]
    · simp only [providerRestTable, List.filter_cons, List.filter_nil, List.map_cons, List.map_nil, h1.symm, decide_true, decide_false, if_true, pick, ackKind, apply_ite (Option.map _), Option.map_some, Option.map_none, Bool.false_eq_true, if_false]
    · simp only [providerRestTable, List.filter_cons, List.filter_nil, List.map_cons, List.map_nil, h1.symm, decide_true, decide_false, if_true, Bool.false_eq_true, if_false]
      decide
  · rw [e1, lookup_table _ _ _ (by simp), entries_pick _ _ _ _ rfl ?_]
    · simp only [providerRestTable, List.filter_cons, List.filter_nil, List.map_cons, List.map_nil, h1, decide_true, decide_false, if_true, pick, providerAdminKind, apply_ite (Option.map _), Option.map_some, Option.map_none, Bool.false_eq_true, if_false]
    · simp only [providerRestTable, List.filter_cons, List.filter_nil, List.map_cons, List.map_nil, h1, decide_true, decide_false, if_true, Bool.false_eq_true, if_false]
      decide
  · rw [e2, lookup_table _ _ _ (by simp), entries_pick _ _ _ _ rfl ?_]
    · simp only [providerP2PTable, List.filter_cons, List.filter_nil, List.map_cons, List.map_nil, true_and, decide_true, decide_false, if_true, pick, gatewayKind, apply_ite (Option.map _), Option.map_some, Option.map_none, Bool.false_eq_true, if_false]
    · simp only [providerP2PTable, List.filter_cons, List.filter_nil, List.map_cons, List.map_nil, true_and, decide_true, decide_false, if_true, Bool.false_eq_true, if_false]
      decide

/-- With one port for clients and for the admin, nothing keeps them apart: all the requests of the admin are served there as well, among them the one that
gives a gateway a new key. -/
theorem C138_shared (free : String → Bool) (s : Settings) (r : Running GatewayHandler) (h : gatewayMain free s = some r) (h1 : s.restAPI = s.adminAPI) (t : Int) :
    (∀ k, Client.clientKind t = some k → P2P.lookup r.rest s.restAPI t = some (.api k)) ∧ (∀ k, GatewayAdmin.kindOf t = some k → P2P.lookup r.rest s.restAPI t = some (.admin k)) := by
  obtain ⟨e1, -⟩ := gateway_running h
  rw [e1, lookup_table _ _ _ (by simp), entries_pick _ _ _ _ rfl ?_]
  · simp only [gatewayRestTable, List.filter_cons, List.filter_nil, List.map_cons, List.map_nil, h1, decide_true, if_true]
    constructor
    · intro k hk
      unfold Client.clientKind at hk
      repeat' split at hk
      all_goals first
        | (cases hk; subst_vars; rfl)
        | cases hk
    · intro k hk
      unfold GatewayAdmin.kindOf at hk
      repeat' split at hk
      all_goals first
        | (cases hk; subst_vars; rfl)
        | cases hk
  · simp only [gatewayRestTable, List.filter_cons, List.filter_nil, List.map_cons, List.map_nil, h1, decide_true, if_true]
    decide

/-! ## a node listens on its ports -/

theorem listenHttp_grows (free : String → Bool) (as : List String) : ∀ l x, x ∈ l → x ∈ listenHttp free as l := by
  induction as with
  | nil => exact fun l x h => h
  | cons a as ih =>
    intro l x h
    unfold listenHttp
    split
    · exact ih _ x (List.mem_append_left _ h)
    · exact ih _ x h

theorem listenHttp_mem (free : String → Bool) (as : List String) : ∀ l x, x ∈ listenHttp free as l → x ∈ l ∨ (x ∈ as ∧ free x = true) := by
  induction as with
  | nil => exact fun l x h => .inl h
  | cons a as ih =>
    intro l x h
    unfold listenHttp at h
    split at h
    · rename_i hf
      rcases ih _ x h with h | ⟨h, h'⟩
      · rcases List.mem_append.mp h with h | h
        · exact .inl h
        · rw [List.mem_singleton.mp h]
          exact .inr ⟨List.mem_cons_self, hf.1⟩
      · exact .inr ⟨List.mem_cons_of_mem _ h, h'⟩
    · rcases ih _ x h with h | ⟨h, h'⟩
      · exact .inl h
      · exact .inr ⟨List.mem_cons_of_mem _ h, h'⟩

theorem listenHttp_free (free : String → Bool) (as : List String) : ∀ l x, x ∈ as → free x = true → x ∈ listenHttp free as l := by
  induction as with
  | nil => intro l x h; cases h
  | cons a as ih =>
    intro l x h hf
    unfold listenHttp
    rcases List.mem_cons.mp h with rfl | h
    · split
      · exact listenHttp_grows free as _ x (List.mem_append_right _ List.mem_cons_self)
      · rename_i hn
        exact listenHttp_grows free as _ x (Classical.byContradiction fun hx => hn ⟨hf, hx⟩)
    · split
      · exact ih _ x h hf
      · exact ih _ x h hf

theorem listenTcp_mem (free : String → Bool) (as : List String) : ∀ l l', listenTcp free as l = some l' → l' = l ++ as ∧ as.Nodup ∧ ∀ x ∈ as, free x = true ∧ x ∉ l := by
  induction as with
  | nil =>
    intro l l' h
    cases h
    exact ⟨(List.append_nil l).symm, List.nodup_nil, by simp⟩
  | cons a as ih =>
    intro l l' h
    unfold listenTcp at h
    split at h
    · rename_i hf
      obtain ⟨rfl, h2, h3⟩ := ih _ _ h
      refine ⟨by simp, List.nodup_cons.mpr ⟨fun ha => (h3 a ha).2 (List.mem_append_right _ List.mem_cons_self), h2⟩, ?_⟩
      intro x hx
      rcases List.mem_cons.mp hx with rfl | hx
      · exact hf
      · exact ⟨(h3 x hx).1, fun hl => (h3 x hx).2 (List.mem_append_left _ hl)⟩
    · cases h

theorem listenTcp_some (free : String → Bool) (as : List String) : ∀ l, as.Nodup → (∀ x ∈ as, free x = true ∧ x ∉ l) → listenTcp free as l = some (l ++ as) := by
  induction as with
  | nil => intro l _ _; simp [listenTcp]
  | cons a as ih =>
    intro l hn hf
    rw [List.nodup_cons] at hn
    rw [listenTcp, if_pos (hf a List.mem_cons_self), ih _ hn.2 ?_]
    · simp
    · intro x hx
      refine ⟨(hf x (List.mem_cons_of_mem _ hx)).1, fun hl => ?_⟩
      rcases List.mem_append.mp hl with hl | hl
      · exact (hf x (List.mem_cons_of_mem _ hx)).2 hl
      · rw [List.mem_singleton.mp hl] at hx
        exact hn.1 hx

/-- **C139** (partial): a gateway that has completed its start-up listens on its ports for gateways and for providers, and on its ports for clients and for the
admin if these were free; a provider on its port for gateways, and on the others if they were free. -/
theorem C139_partial (free : String → Bool) (s : Settings) :
    (∀ r, gatewayMain free s = some r → s.gatewayAPI ∈ r.listening ∧ s.providerAPI ∈ r.listening ∧
      (free s.restAPI = true → s.restAPI ∈ r.listening) ∧ (free s.adminAPI = true → s.adminAPI ∈ r.listening)) ∧
    (∀ r, providerMain free s = some r → s.gatewayAPI ∈ r.listening ∧
      (free s.restAPI = true → s.restAPI ∈ r.listening) ∧ (free s.adminAPI = true → s.adminAPI ∈ r.listening)) := by
  constructor
  · intro r h
    obtain ⟨-, -, hl, -⟩ := gateway_running h
    obtain ⟨hl, -⟩ := listenTcp_mem free _ _ _ hl
    rw [hl]
    refine ⟨by simp, by simp, fun hf => ?_, fun hf => ?_⟩
    · exact List.mem_append_left _ (listenHttp_free free _ _ _ (by simp) hf)
    · exact List.mem_append_left _ (listenHttp_free free _ _ _ (by simp) hf)
  · intro r h
    obtain ⟨-, -, hl, -⟩ := provider_running h
    obtain ⟨hl, -⟩ := listenTcp_mem free _ _ _ hl
    rw [hl]
    refine ⟨by simp, fun hf => ?_, fun hf => ?_⟩
    · exact List.mem_append_left _ (listenHttp_free free _ _ _ (by simp) hf)
    · exact List.mem_append_left _ (listenHttp_free free _ _ _ (by simp) hf)

/-- **C139**: it does not complete its start-up if one of the ports for nodes is taken. -/
theorem C139_taken (free : String → Bool) (s : Settings) :
    (free s.gatewayAPI = false ∨ free s.providerAPI = false → gatewayMain free s = none) ∧ (free s.gatewayAPI = false → providerMain free s = none) := by
  constructor
  · intro hf
    cases h : gatewayMain free s with
    | none => rfl
    | some r =>
      obtain ⟨-, -, hl, -⟩ := gateway_running h
      obtain ⟨-, -, hl⟩ := listenTcp_mem free _ _ _ hl
      have h1 := (hl s.gatewayAPI (by simp)).1
      have h2 := (hl s.providerAPI (by simp)).1
      rcases hf with hf | hf
      · rw [hf] at h1; cases h1
      · rw [hf] at h2; cases h2
  · intro hf
    cases h : providerMain free s with
    | none => rfl
    | some r =>
      obtain ⟨-, -, hl, -⟩ := provider_running h
      obtain ⟨-, -, hl⟩ := listenTcp_mem free _ _ _ hl
      have h1 := (hl s.gatewayAPI (by simp)).1
      rw [hf] at h1; cases h1

/-- **C139**, refuted: a gateway whose port for clients, or whose port for the admin, is taken by another program completes its start-up all the same, and does
not listen there. -/
theorem C139_refuted (free : String → Bool) (s : Settings) (h1 : free s.gatewayAPI = true) (h2 : free s.providerAPI = true) (hn : s.gatewayAPI ≠ s.providerAPI)
    (hd : ∀ x ∈ [s.gatewayAPI, s.providerAPI], x ≠ s.restAPI ∧ x ≠ s.adminAPI) :
    ∃ r, gatewayMain free s = some r ∧ (free s.restAPI = false → s.restAPI ∉ r.listening) ∧ (free s.adminAPI = false → s.adminAPI ∉ r.listening) := by
  have hl := listenTcp_some free [s.gatewayAPI, s.providerAPI] (listenHttp free [s.adminAPI, s.restAPI] []) (by simpa using hn) (by
    intro x hx
    refine ⟨?_, fun hm => ?_⟩
    · simp only [List.mem_cons, List.not_mem_nil, or_false] at hx
      rcases hx with rfl | rfl
      · exact h1
      · exact h2
    · rcases listenHttp_mem free _ _ _ hm with hm | ⟨hm, -⟩
      · cases hm
      · simp only [List.mem_cons, List.not_mem_nil, or_false] at hm
        rcases hm with hm | hm
        · exact (hd x hx).2 hm
        · exact (hd x hx).1 hm)
  cases h : gatewayMain free s with
  | none =>
    unfold gatewayMain at h
    simp only [hl] at h
    cases h
  | some r =>
    obtain ⟨-, -, hr, -⟩ := gateway_running h
    rw [hl] at hr
    have hr := Option.some.inj hr
    have key : ∀ y, (∀ x ∈ [s.gatewayAPI, s.providerAPI], x ≠ y) → free y = false → y ∉ r.listening := by
      intro y hy hf hm
      rw [← hr] at hm
      rcases List.mem_append.mp hm with hm | hm
      · rcases listenHttp_mem free _ _ _ hm with hm | ⟨-, hm⟩
        · cases hm
        · rw [hf] at hm; cases hm
      · exact hy y hm rfl
    exact ⟨r, rfl, key _ fun x hx => (hd x hx).1, key _ fun x hx => (hd x hx).2⟩

/-! ## examples -/

/-- Ports 1 to 4 for clients, the admin, gateways and providers. -/
def exSettings : Settings := gateway (fun _ _ _ => 0) (exPorts [])

theorem exSettings_ports : exSettings.restAPI = "1" ∧ exSettings.adminAPI = "2" ∧ exSettings.gatewayAPI = "3" ∧ exSettings.providerAPI = "4" := ⟨rfl, rfl, rfl, rfl⟩

example : ∃ r, gatewayMain (fun _ => true) exSettings = some r ∧ P2P.lookup r.p2p "3" gatewayDHTDiscoverRequest.code = some (.api .peerDht) ∧
    P2P.lookup r.p2p "4" gatewayDHTDiscoverRequest.code = none := by
  obtain ⟨r, hr⟩ := Option.isSome_iff_exists.mp (exPorts_starts (fun _ _ _ => 0) [])
  obtain ⟨-, -, h3, h4⟩ := C138_gateway _ exSettings r hr (by decide) (by decide)
  exact ⟨r, hr, h3 _, h4 _⟩

/-- Another program has the port for clients. -/
example : ∃ r, gatewayMain (fun p => p ≠ "1") exSettings = some r ∧ exSettings.restAPI ∉ r.listening ∧ exSettings.adminAPI ∈ r.listening := by
  obtain ⟨r, hr, h1, -⟩ := C139_refuted (fun p => p ≠ "1") exSettings (by decide) (by decide) (by decide) (by decide)
  exact ⟨r, hr, h1 (by decide), (((C139_partial _ _).1 r hr).2.2.2) (by decide)⟩

example : gatewayMain (fun p => p ≠ "3") exSettings = none := (C139_taken _ _).1 (.inl (by decide))

/-- A provider with ports 1 to 3. -/
example : ∃ r, providerMain (fun _ => true) exSettings = some r ∧ P2P.lookup r.p2p "3" gatewayListDHTOfferRequest.code = some .listDht ∧ exSettings.restAPI ∈ r.listening := by
  have hs : (providerMain (fun _ => true) exSettings).isSome = true := by
    unfold providerMain
    have : listenTcp (fun _ => true) [exSettings.gatewayAPI] (listenHttp (fun _ => true) [exSettings.adminAPI, exSettings.restAPI] []) = some ["2", "1", "3"] := rfl
    simp only [this]
    rfl
  obtain ⟨r, hr⟩ := Option.isSome_iff_exists.mp hs
  obtain ⟨-, -, h3⟩ := C138_provider _ exSettings r hr (by decide)
  exact ⟨r, hr, h3 _, (((C139_partial _ _).2 r hr).2.1) rfl⟩

/-- One port for clients and for the admin. -/
example : ∃ r, gatewayMain (fun _ => true) { exSettings with adminAPI := "1" } = some r ∧ P2P.lookup r.rest "1" gatewayAdminInitialiseKeyRequest.code = some (.admin .initialise) := by
  have hs : (gatewayMain (fun _ => true) { exSettings with adminAPI := "1" }).isSome = true := by
    unfold gatewayMain
    have : listenTcp (fun _ => true) ["3", "4"] (listenHttp (fun _ => true) ["1", "1"] []) = some ["1", "3", "4"] := rfl
    simp only [show ({ exSettings with adminAPI := "1" } : Settings).gatewayAPI = "3" from rfl, show ({ exSettings with adminAPI := "1" } : Settings).providerAPI = "4" from rfl,
      show ({ exSettings with adminAPI := "1" } : Settings).restAPI = "1" from rfl, this]
    rfl
  obtain ⟨r, hr⟩ := Option.isSome_iff_exists.mp hs
  exact ⟨r, hr, (C138_shared _ _ r hr rfl _).2 _ rfl⟩

end FcRetrieval.Startup
