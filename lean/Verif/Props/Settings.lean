import Verif.Spec.Settings
/-!
# C140: the settings of clients and admins
-/
set_option linter.unusedSimpArgs false

namespace FcRetrieval.Settings

theorem last_nil {γ α : Type} (f : γ → Option α) (d : α) : last f [] d = d := rfl

theorem last_concat {γ α : Type} (f : γ → Option α) (l : List γ) (c : γ) (d : α) : last f (l ++ [c]) d = (f c).getD (last f l d) := by
  unfold last
  rw [List.filterMap_append]
  cases h : f c with
  | none => simp [h]
  | some a => simp [h]

variable {ι κ ν : Type}

theorem client_fields (calls : List (ClientCall κ ν)) : calls.foldl ClientBuilder.set (createClient κ ν) =
    { ttl := last ClientCall.ttl? calls 100
      registerURL := last ClientCall.registerURL? calls "http://register:9020"
      blockchainKey := last ClientCall.blockchainKey? calls none
      key := (last ClientCall.key? calls (none, none)).1
      keyVer := (last ClientCall.key? calls (none, none)).2
      wallet := last ClientCall.wallet? calls ""
      lotusAP := last ClientCall.lotusAP? calls ""
      lotusToken := last ClientCall.lotusToken? calls ""
      searchPrice := last ClientCall.searchPrice? calls (some (10 ^ 15))
      offerPrice := last ClientCall.offerPrice? calls (some (10 ^ 15))
      topup := last ClientCall.topup? calls (some (10 ^ 17)) } := by
  induction h : calls.length generalizing calls with
  | zero =>
    rw [List.length_eq_zero_iff.mp h]
    rfl
  | succ n ih =>
    rcases List.eq_nil_or_concat calls with rfl | ⟨l, c, rfl⟩
    · cases h
    · rw [List.concat_eq_append] at h ⊢
      rw [List.foldl_append, ih l (by simpa using h)]
      simp only [last_concat, List.foldl_cons, List.foldl_nil]
      cases c <;> rfl

theorem admin_fields (f : AdminBuilder κ ν) (calls : List (AdminCall κ ν)) : calls.foldl AdminBuilder.set f =
    { registerURL := last AdminCall.registerURL? calls f.registerURL
      blockchainKey := last AdminCall.blockchainKey? calls f.blockchainKey
      key := (last AdminCall.key? calls (f.key, f.keyVer)).1
      keyVer := (last AdminCall.key? calls (f.key, f.keyVer)).2 } := by
  induction h : calls.length generalizing calls with
  | zero =>
    rw [List.length_eq_zero_iff.mp h]
    rfl
  | succ n ih =>
    rcases List.eq_nil_or_concat calls with rfl | ⟨l, c, rfl⟩
    · cases h
    · rw [List.concat_eq_append] at h ⊢
      rw [List.foldl_append, ih l (by simpa using h)]
      simp only [last_concat, List.foldl_cons, List.foldl_nil]
      cases c <;> rfl

/-- **C140** (partial): whatever calls are made before `Build`, each setting of a client is what the last call for it says, or the default; the identifier is a new one. -/
theorem C140_partial (id : ι) (gen : Res κ) (one : ν) (calls : List (ClientCall κ ν)) (s : ClientSettings ι κ ν) (h : clientSettings id gen one calls = .ok s) :
    s.ttl = last ClientCall.ttl? calls 100 ∧ s.registerURL = last ClientCall.registerURL? calls "http://register:9020" ∧
    s.searchPrice = last ClientCall.searchPrice? calls (some (10 ^ 15)) ∧ s.offerPrice = last ClientCall.offerPrice? calls (some (10 ^ 15)) ∧
    s.topup = last ClientCall.topup? calls (some (10 ^ 17)) ∧ s.wallet = last ClientCall.wallet? calls "" ∧
    s.lotusAP = last ClientCall.lotusAP? calls "" ∧ s.lotusToken = last ClientCall.lotusToken? calls "" ∧
    some s.blockchainKey = last ClientCall.blockchainKey? calls none ∧ s.id = id ∧
    (∀ k v, last ClientCall.key? calls (none, none) = (some k, v) → s.key = k ∧ s.keyVer = v) ∧
    (∀ v, last ClientCall.key? calls (none, none) = (none, v) → gen = .ok s.key ∧ s.keyVer = some one) := by
  unfold clientSettings at h
  rw [client_fields] at h
  unfold ClientBuilder.build at h
  simp only at h
  cases hb : last ClientCall.blockchainKey? calls none with
  | none => rw [hb] at h; cases h
  | some b =>
    rw [hb] at h
    simp only at h
    cases hk : last ClientCall.key? calls (none, none) with
    | mk k v =>
      rw [hk] at h
      simp only at h
      cases k with
      | some k =>
        cases h
        exact ⟨rfl, rfl, rfl, rfl, rfl, rfl, rfl, rfl, rfl, rfl, fun k' v' he => (by cases he; exact ⟨rfl, rfl⟩), fun v' he => by cases he⟩
      | none =>
        cases gen with
        | ok k =>
          cases h
          exact ⟨rfl, rfl, rfl, rfl, rfl, rfl, rfl, rfl, rfl, rfl, fun k' v' he => (by cases he), fun v' he => ⟨rfl, rfl⟩⟩
        | err => cases h
        | panic => cases h

/-- **C140**: `Build` fails exactly if there is no blockchain key, or if there is no retrieval key and none can be made; it never returns an error. -/
theorem C140_build (id : ι) (gen : Res κ) (one : ν) (calls : List (ClientCall κ ν)) :
    clientSettings id gen one calls ≠ .err ∧
    (clientSettings id gen one calls = .panic ↔ last ClientCall.blockchainKey? calls none = none ∨ ((last ClientCall.key? calls (none, none)).1 = none ∧ ∀ k, gen ≠ .ok k)) := by
  unfold clientSettings
  rw [client_fields]
  unfold ClientBuilder.build
  simp only
  cases hb : last ClientCall.blockchainKey? calls none with
  | none => simp
  | some b =>
    cases hk : (last ClientCall.key? calls (none, none)).1 with
    | some k => simp
    | none => cases gen <;> simp

/-- **C140**, for the admins: the same; the default address of the register is empty for the admin of gateways. -/
theorem C140_admin (gen : Res κ) (one : ν) (calls : List (AdminCall κ ν)) (s : AdminSettings κ ν) :
    (gatewayAdminSettings gen one calls = .ok s → s.registerURL = last AdminCall.registerURL? calls "" ∧ some s.blockchainKey = last AdminCall.blockchainKey? calls none ∧
      (∀ k v, last AdminCall.key? calls (none, none) = (some k, v) → s.key = k ∧ s.keyVer = v) ∧
      (∀ v, last AdminCall.key? calls (none, none) = (none, v) → gen = .ok s.key ∧ s.keyVer = some one)) ∧
    (providerAdminSettings gen one calls = .ok s → s.registerURL = last AdminCall.registerURL? calls "http://register:9020" ∧ some s.blockchainKey = last AdminCall.blockchainKey? calls none ∧
      (∀ k v, last AdminCall.key? calls (none, none) = (some k, v) → s.key = k ∧ s.keyVer = v) ∧
      (∀ v, last AdminCall.key? calls (none, none) = (none, v) → gen = .ok s.key ∧ s.keyVer = some one)) := by
  have key : ∀ f : AdminBuilder κ ν, f.blockchainKey = none → f.key = none → f.keyVer = none → (calls.foldl AdminBuilder.set f).build gen one = .ok s →
      s.registerURL = last AdminCall.registerURL? calls f.registerURL ∧ some s.blockchainKey = last AdminCall.blockchainKey? calls none ∧
      (∀ k v, last AdminCall.key? calls (none, none) = (some k, v) → s.key = k ∧ s.keyVer = v) ∧
      (∀ v, last AdminCall.key? calls (none, none) = (none, v) → gen = .ok s.key ∧ s.keyVer = some one) := by
    intro f f1 f2 f3 h
    rw [admin_fields, f1, f2, f3] at h
    unfold AdminBuilder.build at h
    simp only at h
    cases hb : last AdminCall.blockchainKey? calls none with
    | none => rw [hb] at h; cases h
    | some b =>
      rw [hb] at h
      simp only at h
      cases hk : last AdminCall.key? calls (none, none) with
      | mk k v =>
        rw [hk] at h
        simp only at h
        cases k with
        | some k =>
          cases h
          exact ⟨rfl, rfl, fun k' v' he => (by cases he; exact ⟨rfl, rfl⟩), fun v' he => by cases he⟩
        | none =>
          cases gen with
          | ok k =>
            cases h
            exact ⟨rfl, rfl, fun k' v' he => (by cases he), fun v' he => ⟨rfl, rfl⟩⟩
          | err => cases h
          | panic => cases h
  exact ⟨key _ rfl rfl rfl, key _ rfl rfl rfl⟩

/-- **C140**, refuted: the time to live that the settings of the admin of gateways return is zero, whatever is called before; the default in the code is 100. -/
theorem C140_refuted (gen : Res κ) (one : ν) (calls : List (AdminCall κ ν)) (s : AdminSettings κ ν) (h : gatewayAdminSettings gen one calls = .ok s) : s.ttl = 0 := by
  unfold gatewayAdminSettings AdminBuilder.build at h
  split at h
  · cases h
  · split at h
    · split at h
      · cases h
        rfl
      · cases h
    · cases h
      rfl

/-! ## examples -/

/-- The blockchain key 1, the search price set twice, and the retrieval key 2 with version 3. -/
def exCalls : List (ClientCall Nat Nat) := [.searchPrice (some 4), .blockchainKey (some 1), .key (some 2) (some 3), .searchPrice (some 5)]

example : ∃ s, clientSettings 7 (.ok 8) 1 exCalls = .ok s ∧ s.searchPrice = some 5 ∧ s.offerPrice = some (10 ^ 15) ∧ s.key = 2 ∧ s.keyVer = some 3 ∧ s.id = 7 := by
  refine ⟨_, rfl, ?_⟩
  obtain ⟨-, -, h1, h2, -, -, -, -, -, h3, h4, -⟩ := C140_partial 7 (.ok 8) 1 exCalls _ rfl
  exact ⟨h1, h2, (h4 2 (some 3) rfl).1, (h4 2 (some 3) rfl).2, h3⟩

/-- Without a retrieval key, a new one is made; without a blockchain key, `Build` fails. -/
example : ∃ s, clientSettings 7 (.ok 8) 1 (exCalls.eraseIdx 2) = .ok s ∧ s.keyVer = some 1 := by
  refine ⟨_, rfl, ?_⟩
  obtain ⟨-, -, -, -, -, -, -, -, -, -, -, h⟩ := C140_partial 7 (.ok 8) 1 (exCalls.eraseIdx 2) _ rfl
  exact (h none rfl).2

example : clientSettings 7 (.ok 8) 1 (exCalls.eraseIdx 1) = .panic := (C140_build 7 (.ok 8) 1 (exCalls.eraseIdx 1)).2.mpr (.inl rfl)

def exAdminCalls : List (AdminCall Nat Nat) := [.registerURL "a", .blockchainKey none, .blockchainKey (some 1), .registerURL "b"]

example : ∃ s, gatewayAdminSettings (.ok 8) 1 exAdminCalls = .ok s ∧ s.registerURL = "b" ∧ s.ttl = 0 :=
  ⟨_, rfl, ((C140_admin (.ok 8) 1 exAdminCalls _).1 rfl).1, C140_refuted (.ok 8) 1 exAdminCalls _ rfl⟩

example : ∃ s, providerAdminSettings (.ok 8) 1 (exAdminCalls.drop 1) = .ok s ∧ s.registerURL = "b" ∧ s.keyVer = some 1 :=
  ⟨_, rfl, ((C140_admin (.ok 8) 1 (exAdminCalls.drop 1) _).2 rfl).1, (((C140_admin (.ok 8) 1 (exAdminCalls.drop 1) _).2 rfl).2.2.2 none rfl).2⟩

end FcRetrieval.Settings
