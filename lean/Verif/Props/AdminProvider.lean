import Verif.Lemmas.AdminProvider
import Verif.Lemmas.AdminExamples
import Verif.Props.AdminGateway
import Verif.Props.ProviderPublish
/-!
# The admin of a provider and the provider together
-/
set_option linter.unusedSimpArgs false

namespace FcRetrieval.Admin
open FcRetrieval.Ids (Id)
open FcRetrieval.Merkle (Hash)
open FcRetrieval.Crypto (Prims KeyPair KeyVersion)
open FcRetrieval.Message (Msg)
open FcRetrieval.Register (Record)
open FcRetrieval.Wire (Codec encode decode)
open FcRetrieval.Codecs
open FcRetrieval.Offer (CidOffer)
open FcRetrieval.Provider (Core serve serveAll newCore Sane CanSign Made MadeAll Carries confirmedBy allConfirmed over)

/-! ## An example -/

/-- The record of a provider whose key is `Offer.exKey`. -/
def exProviderRecord : Record := { Gateway.exRecord with nodeID := Ids.toStr (Merkle.exId 1) }

/-- The admin of the provider `c`. -/
def exProviderAdmin (E : Provider.Env) (c : Core) : Env where
  H := E.H
  P := E.P
  pr := Message.defaultProtocol
  key := some (Offer.exKey, 1)
  exchange := fun _ m => atProvider E c m

theorem exBehindProvider (c : Core) (r : Record) : BehindProvider (exProviderAdmin Provider.exEnv c) r Provider.exEnv c :=
  ⟨fun _ => rfl, rfl, rfl, Crypto.toy_correct, defaultProtocolOk, defaultProtocolOk⟩

theorem exProviderKey (c : Core) : HasKey (exProviderAdmin Provider.exEnv c) := ⟨_, _, rfl, Provider.exKey_signs⟩

theorem exProviderOwns : Owns Crypto.toy exProviderRecord Offer.exKey 1 :=
  ⟨Offer.exKey_private, Provider.exKey_signs, Gateway.exPub, Gateway.exRecord_key, rfl, by decide +kernel⟩

/-- The same provider with a scheme in which keys differ. -/
def exKeyedEnv : Provider.Env := { Provider.exEnv with P := keyed, payments := false }

theorem exBehindKeyed (c : Core) (r : Record) : BehindProvider (exProviderAdmin exKeyedEnv c) r exKeyedEnv c :=
  ⟨fun _ => rfl, rfl, rfl, keyed_correct, defaultProtocolOk, defaultProtocolOk⟩

theorem exKeyedKey (c : Core) : HasKey (exProviderAdmin exKeyedEnv c) := ⟨_, _, rfl, keyed_signs Offer.exKey_private 1⟩

theorem exRecord_id : Ids.fromHex exRecord.nodeID = some (Merkle.exId 1) := by decide +kernel
theorem exProviderRecord_id : Ids.fromHex exProviderRecord.nodeID = some (Merkle.exId 1) := by decide +kernel

/-! ## C124: setting up a provider -/

/-- With a key that belongs to the record, the call succeeds, and the provider has the identifier of the record and the key; nothing else changes. -/
theorem C124_initialise_partial {A : Env} {r : Record} {E : Provider.Env} {c : Core} (hb : BehindProvider A r E c) (hA : HasKey A)
    {i : Id} (hid : Ids.fromHex r.nodeID = some i) {k : KeyPair} {v : KeyVersion} (ho : Owns A.P r k v) :
    (providerInitialise A r (some k) (some v)).2 = .ok () ∧
    (providerAfter E c (providerInitialise A r (some k) (some v)).1).1 = { c with id := some i, key := some (k, v) } := by
  obtain ⟨hpriv, hsig, pk, hpk, -⟩ := id ho
  obtain ⟨m, hd, h1, h2⟩ := ask_provider hb hA hpk (C30_providerAdminInitialiseKeyRequest A.pr hb.adminProtocol (some i) (some k) (some v) (idOk_of hid) ⟨k, rfl, hpriv⟩ ⟨v, rfl⟩)
    (kind := .initialise) rfl
  obtain ⟨h3, x, h4, h5⟩ := (Provider.C108_initialise E hb.protocol c m (some i) k v (by rw [hb.prims]; exact hsig)).1 hd
  have h6 := provider_owned hb (kind := .initialise) (m := m) (x := x) (by rw [h4]; simp) (by rw [h3]) ho hpk
  unfold providerInitialise
  rw [hid]
  simp only [h2, flag, h4, answer, h6, if_true, Res.bind_ok, h5, h1, h3, and_self]

example : (providerInitialise (exProviderAdmin Provider.exEnv newCore) exProviderRecord (some Offer.exKey) (some 1)).2 = .ok () :=
  (C124_initialise_partial (exBehindProvider newCore _) (exProviderKey _) exProviderRecord_id exProviderOwns).1

/-- The same with the wallet, if the payment manager can be made. -/
theorem C124_initialiseV2_partial {A : Env} {r : Record} {E : Provider.Env} {c : Core} (hb : BehindProvider A r E c) (hA : HasKey A)
    {i : Id} (hid : Ids.fromHex r.nodeID = some i) {k : KeyPair} {v : KeyVersion} (ho : Owns A.P r k v) (wallet api token : List Char) (hp : E.payments = true) :
    (providerInitialiseV2 A r (some k) (some v) wallet api token).2 = .ok () ∧
    (providerAfter E c (providerInitialiseV2 A r (some k) (some v) wallet api token).1).1 = { c with id := some i, key := some (k, v) } := by
  obtain ⟨hpriv, hsig, pk, hpk, -⟩ := id ho
  obtain ⟨m, hd, h1, h2⟩ := ask_provider hb hA hpk (C30_providerAdminInitialiseKeyRequestV2 A.pr hb.adminProtocol (some i) (some k) (some v) wallet api token (idOk_of hid) ⟨k, rfl, hpriv⟩ ⟨v, rfl⟩)
    (kind := .initialiseV2) rfl
  obtain ⟨h3, h4⟩ := (Provider.C108_initialise E hb.protocol c m (some i) k v (by rw [hb.prims]; exact hsig)).2 _ hd
  rw [hp] at h4
  obtain ⟨x, h4, h5⟩ := h4
  have h6 := provider_owned hb (kind := .initialiseV2) (m := m) (x := x) (by rw [h4]; simp) (by rw [h3]) ho hpk
  unfold providerInitialiseV2
  rw [hid]
  simp only [h2, flag, h4, answer, h6, if_true, Res.bind_ok, h5, h1, h3, and_self]

example : (providerInitialiseV2 (exProviderAdmin Provider.exEnv newCore) exProviderRecord (some Offer.exKey) (some 1) ['w'] [] []).2 = .ok () :=
  (C124_initialiseV2_partial (exBehindProvider newCore _) (exProviderKey _) exProviderRecord_id exProviderOwns ['w'] [] [] rfl).1

/-- With a key that does not belong to the record the call fails, and the provider has switched to the key all the same. -/
theorem C124_wrong_key_refuted {A : Env} {r : Record} {E : Provider.Env} {c : Core} (hb : BehindProvider A r E c) (hA : HasKey A)
    {i : Id} (hid : Ids.fromHex r.nodeID = some i) {k : KeyPair} {v : KeyVersion} (ho : Stranger A.P r k v) :
    (providerInitialise A r (some k) (some v)).2 = .err ∧
    (providerAfter E c (providerInitialise A r (some k) (some v)).1).1 = { c with id := some i, key := some (k, v) } := by
  obtain ⟨hpriv, hsig, pk, hpk, -⟩ := id ho
  obtain ⟨m, hd, h1, h2⟩ := ask_provider hb hA hpk (C30_providerAdminInitialiseKeyRequest A.pr hb.adminProtocol (some i) (some k) (some v) (idOk_of hid) ⟨k, rfl, hpriv⟩ ⟨v, rfl⟩)
    (kind := .initialise) rfl
  obtain ⟨h3, x, h4, h5⟩ := (Provider.C108_initialise E hb.protocol c m (some i) k v (by rw [hb.prims]; exact hsig)).1 hd
  have h6 := provider_stranger hb (kind := .initialise) (m := m) (x := x) (by rw [h4]; simp) (by rw [h3]) ho hpk
  unfold providerInitialise
  rw [hid]
  simp only [h2, flag, h4, answer, h6, h1, h3, and_true]
  rfl

example : (providerInitialise (exProviderAdmin exKeyedEnv newCore) exRecord (some exKey2) (some 1)).2 = .err :=
  (C124_wrong_key_refuted (exBehindKeyed newCore _) (exKeyedKey _) exRecord_id exStranger).1

/-- If the payment manager cannot be made the call fails, and the provider has switched to the identifier and the key all the same. -/
theorem C124_no_payments_refuted {A : Env} {r : Record} {E : Provider.Env} {c : Core} (hb : BehindProvider A r E c) (hA : HasKey A)
    {i : Id} (hid : Ids.fromHex r.nodeID = some i) {k : KeyPair} {v : KeyVersion} (ho : Owns A.P r k v) (wallet api token : List Char) (hp : E.payments = false) :
    (providerInitialiseV2 A r (some k) (some v) wallet api token).2 = .err ∧
    (providerAfter E c (providerInitialiseV2 A r (some k) (some v) wallet api token).1).1 = { c with id := some i, key := some (k, v) } := by
  obtain ⟨hpriv, hsig, pk, hpk, -⟩ := id ho
  obtain ⟨m, hd, h1, h2⟩ := ask_provider hb hA hpk (C30_providerAdminInitialiseKeyRequestV2 A.pr hb.adminProtocol (some i) (some k) (some v) wallet api token (idOk_of hid) ⟨k, rfl, hpriv⟩ ⟨v, rfl⟩)
    (kind := .initialiseV2) rfl
  obtain ⟨h3, h4⟩ := (Provider.C108_initialise E hb.protocol c m (some i) k v (by rw [hb.prims]; exact hsig)).2 _ hd
  rw [hp] at h4
  simp only [Bool.false_eq_true, if_false] at h4
  unfold providerInitialiseV2
  rw [hid]
  simp only [h2, flag, h4, answer, h1, h3, and_true]
  rfl

example : (providerInitialiseV2 (exProviderAdmin exKeyedEnv newCore) exRecord (some Offer.exKey) (some 1) ['w'] [] []).2 = .err :=
  (C124_no_payments_refuted (exBehindKeyed newCore _) (exKeyedKey _) exRecord_id exOwns ['w'] [] [] rfl).1

/-- Refreshing the register: the call succeeds, the provider refreshes its copy of the register, and nothing else changes. -/
theorem C124_refresh {A : Env} {r : Record} {E : Provider.Env} {c : Core} (hb : BehindProvider A r E c) (hA : HasKey A)
    {k : KeyPair} {v : KeyVersion} (hk : c.key = some (k, v)) (ho : Owns A.P r k v) (hsign : CanSign E c) :
    (providerRefresh A r).2 = .ok () ∧
    ∃ a, providerAfter E c (providerRefresh A r).1 = (c, [.refresh, .message a]) := by
  obtain ⟨-, -, pk, hpk, -⟩ := id ho
  obtain ⟨m, hd, h1, h2⟩ := ask_provider hb hA hpk (C30_providerAdminForceRefreshRequest A.pr hb.adminProtocol true) (kind := .forceRefresh) rfl
  obtain ⟨x, h3, h4⟩ := Provider.C108_refresh E hb.protocol c hsign m true hd
  simp only [if_true] at h3
  have h6 := provider_owned hb (kind := .forceRefresh) (m := m) (x := x) (by rw [h3]; simp) (by rw [h3]; exact hk) ho hpk
  unfold providerRefresh
  simp only [h2, flag, h3, answer, h6, if_true, Res.bind_ok, h4, h1, true_and]
  exact ⟨x, rfl⟩

theorem exReady_key : (serveAll newCore Provider.exReady).1.key = some (Offer.exKey, 1) := by decide +kernel

example : (providerRefresh (exProviderAdmin Provider.exEnv (serveAll newCore Provider.exReady).1) exProviderRecord).2 = .ok () :=
  (C124_refresh (exBehindProvider _ _) (exProviderKey _) exReady_key exProviderOwns Provider.exReady_use.1).1

/-! ## C125: what the success of a publication means -/

/-- From the success of a call to what the provider did. -/
theorem ok_served {A : Env} {r : Record} {E : Provider.Env} {c : Core} (hb : BehindProvider A r E c) {α : Type} {codec : Codec α} {a : α} {resp : Codec Bool}
    (hd : Delivers codec A.pr a) {kind : Provider.Kind} (hk : Provider.adminKindOf codec.code = some kind)
    (h : (flag resp (ask A r (encode codec A.pr a))).2 = .ok ()) :
    ∃ m x, decode codec m = .ok a ∧ (flag resp (ask A r (encode codec A.pr a))).1 = [(r.netAdmin, m)] ∧
      providerAfter E c [(r.netAdmin, m)] = serve E c kind m ∧ .message x ∈ (serve E c kind m).2 ∧ SignedBy A.P r x ∧ decode resp x = .ok true := by
  obtain ⟨x, h1, h2⟩ := flag_ok h
  obtain ⟨h3, m, sig, h4, h5, h6⟩ := ask_signed h1
  obtain ⟨m', he, ht, -, -, hsig⟩ := hd
  rw [he] at h4
  cases h4
  rw [hb.served, atProvider] at h6
  simp only [ht, hk, Option.bind_some] at h6
  have h7 : ({ m with signature := sig } : Msg) = { type := codec.code, version := m.version, supported := m.supported, body := m.body, signature := sig } := by rw [← ht]
  refine ⟨_, x, (hsig sig).2, h5, ?_, ?_, h3, h2⟩
  · simp only [providerAfter, ht, hk, List.append_nil]
  · exact answer_mem (by rw [h7]; exact h6)

theorem sane_of {H : Hash} {E : Provider.Env} (hs : SaneWorld H E) {kind : Provider.Kind} {m : Msg} (hm : m.type ≠ 504) : Sane H (E, kind, m) := by
  obtain ⟨h1, h2, h3, h4, h5⟩ := hs
  exact ⟨h1, h2, h3, h4, h5, fun _ _ _ _ hd => absurd (decode_type hd) hm⟩

/-- When the call that publishes a group offer succeeds, the provider has made the offer with the terms given and has sent it to every gateway in the
register, and to nobody else. -/
theorem C125_group_partial (H : Hash) (hist : List (Provider.Env × Provider.Kind × Msg)) (hist_sane : ∀ e ∈ hist, Sane H e) {A : Env} {r : Record} {E : Provider.Env}
    (hb : BehindProvider A r E (serveAll newCore hist).1) (hs : SaneWorld H E) (hsign : CanSign E (serveAll newCore hist).1)
    (cids : List Id) (price : Nat) (expiry : Int) (qos : Nat) (hcids : IdsOk cids) (h1 : price < 2 ^ 64) (h2 : inI64 expiry) (h3 : qos < 2 ^ 64)
    (h : (publishGroup A r cids price expiry qos).2 = .ok ()) :
    ∃ o, Made E (serveAll newCore hist).1 cids price expiry qos o ∧
      (∀ x ∈ E.gateways, ∃ gid req, Ids.fromHex x.nodeID = some gid ∧
        .asked gid req ∈ (providerAfter E (serveAll newCore hist).1 (publishGroup A r cids price expiry qos).1).2 ∧
        decode (providerPublishGroupOfferRequest H) req = .ok ((serveAll newCore hist).1.id, 1, some o)) ∧
      ∀ gid req, .asked gid req ∈ (providerAfter E (serveAll newCore hist).1 (publishGroup A r cids price expiry qos).1).2 →
        ∃ x ∈ E.gateways, Ids.fromHex x.nodeID = some gid := by
  obtain ⟨m, x, hd, h4, h5, h6, -, -⟩ := ok_served hb (C30_providerAdminPublishGroupOfferRequest A.pr hb.adminProtocol cids price expiry qos hcids h1 h2 h3) (kind := .publishGroup) rfl h
  obtain ⟨o, h7, -, h8, h9⟩ := Provider.C106_partial H hist hist_sane E m x (sane_of hs (by rw [decode_type hd]; decide)) hsign cids price expiry qos hd h6
  have h10 : (publishGroup A r cids price expiry qos).1 = [(r.netAdmin, m)] := h4
  rw [h10, h5]
  exact ⟨o, h7, h8, h9⟩

def succeeded {α : Type} : Res α → Bool
  | .ok _ => true
  | _ => false

theorem succeeded_ok {x : Res Unit} (h : succeeded x = true) : x = .ok () := by
  cases x <;> first | rfl | cases h

theorem exGroup_succeeds : (publishGroup (exProviderAdmin Provider.exEnv (serveAll newCore Provider.exReady).1) exProviderRecord [Merkle.exId 2, Merkle.exId 5] 5 2000 3).2 = .ok () :=
  succeeded_ok (by decide +kernel)

theorem exWorld : SaneWorld Merkle.toyHash Provider.exEnv := by
  obtain ⟨h1, h2, h3, h4, h5, -⟩ := Provider.exReady_sane _ (List.mem_cons_self ..)
  exact ⟨h1, h2, h3, h4, h5⟩

theorem exIds : IdsOk [Merkle.exId 2, Merkle.exId 5] := by
  intro x hx
  simp only [List.mem_cons, List.not_mem_nil, or_false] at hx
  rcases hx with rfl | rfl <;> exact Merkle.exId_proper _

example : ∃ o, Made Provider.exEnv (serveAll newCore Provider.exReady).1 [Merkle.exId 2, Merkle.exId 5] 5 2000 3 o := by
  obtain ⟨o, h, -⟩ := C125_group_partial Merkle.toyHash _ Provider.exReady_sane (exBehindProvider _ _) exWorld Provider.exReady_use.1 _ 5 2000 3 exIds (by decide)
    ⟨by decide, by decide⟩ (by decide) exGroup_succeeds
  exact ⟨o, h⟩

/-- When the call that publishes DHT offers succeeds, the provider has made one offer for each CID with its terms, and has sent them all to every gateway
near one of the CIDs, and to nobody else. -/
theorem C125_dht_partial (H : Hash) (hist : List (Provider.Env × Provider.Kind × Msg)) (hist_sane : ∀ e ∈ hist, Sane H e) {A : Env} {r : Record} {E : Provider.Env}
    (hb : BehindProvider A r E (serveAll newCore hist).1) (hs : SaneWorld H E) (hsign : CanSign E (serveAll newCore hist).1)
    (cids : List Id) (price : List Nat) (expiry : List Int) (qos : List Nat) (hcids : IdsOk cids) (hlen : inI64 cids.length)
    (h1 : ∀ x ∈ price, x < 2 ^ 64) (h2 : ∀ x ∈ expiry, inI64 x) (h3 : ∀ x ∈ qos, x < 2 ^ 64)
    (h : (publishDht A r cids price expiry qos).2 = .ok ()) :
    ∃ offers, MadeAll E (serveAll newCore hist).1 cids price expiry qos offers ∧
      (∀ cid ∈ cids, ∃ rs, E.near cid = some rs ∧ ∀ x ∈ rs, ∃ gid req, Ids.fromHex x.nodeID = some gid ∧
        .asked gid req ∈ (providerAfter E (serveAll newCore hist).1 (publishDht A r cids price expiry qos).1).2 ∧ Carries E req offers) ∧
      ∀ gid req, .asked gid req ∈ (providerAfter E (serveAll newCore hist).1 (publishDht A r cids price expiry qos).1).2 →
        Carries E req offers ∧ ∃ cid ∈ cids, ∃ rs, E.near cid = some rs ∧ ∃ x ∈ rs, Ids.fromHex x.nodeID = some gid := by
  obtain ⟨m, x, hd, h4, h5, h6, -, -⟩ := ok_served hb (C30_providerAdminPublishDHTOfferRequest A.pr hb.adminProtocol cids price expiry qos hcids h1 h2 h3) (kind := .publishDht) rfl h
  have hsane : Sane H (E, .publishDht, m) := by
    obtain ⟨a1, a2, a3, a4, a5⟩ := hs
    refine ⟨a1, a2, a3, a4, a5, fun c _ _ _ hd' => ?_⟩
    dsimp only at hd'
    rw [hd] at hd'
    cases hd'
    exact hlen
  obtain ⟨o, h7, h8, h9⟩ := Provider.C104_near H hist hist_sane E m x hsane hsign cids price expiry qos hd h6
  have h10 : (publishDht A r cids price expiry qos).1 = [(r.netAdmin, m)] := h4
  rw [h10, h5]
  exact ⟨o, h7, h8, h9⟩

theorem exDht_succeeds : (publishDht (exProviderAdmin Provider.exEnv (serveAll newCore Provider.exReady).1) exProviderRecord [Merkle.exId 2, Merkle.exId 5] [5, 6] [2000, 3000] [3, 4]).2 = .ok () :=
  succeeded_ok (by decide +kernel)

example : ∃ os, MadeAll Provider.exEnv (serveAll newCore Provider.exReady).1 [Merkle.exId 2, Merkle.exId 5] [5, 6] [2000, 3000] [3, 4] os := by
  obtain ⟨o, h, -⟩ := C125_dht_partial Merkle.toyHash _ Provider.exReady_sane (exBehindProvider _ _) exWorld Provider.exReady_use.1 _ [5, 6] [2000, 3000] [3, 4] exIds
    ⟨by decide, by decide⟩ (by decide) (by unfold inI64; decide) (by decide) exDht_succeeds
  exact ⟨o, h⟩

/-- The admin with the provider `c` behind every address. -/
def facing (A : Env) (E : Provider.Env) (c : Core) : Env := { A with exchange := fun _ m => atProvider E c m }

theorem ok_again {A : Env} {r : Record} {E E' : Provider.Env} {c : Core} {α : Type} {codec : Codec α} {a : α} {resp : Codec Bool}
    (hd : Delivers codec A.pr a) {kind : Provider.Kind} (hk : Provider.adminKindOf codec.code = some kind)
    (hE : ∀ m x, answer (serve E c kind m).2 = some x → answer (serve E' c kind m).2 = some x)
    (h : (flag resp (ask (facing A E c) r (encode codec A.pr a))).2 = .ok ()) :
    (flag resp (ask (facing A E' c) r (encode codec A.pr a))).2 = .ok () ∧
    ∃ m, (flag resp (ask (facing A E' c) r (encode codec A.pr a))).1 = [(r.netAdmin, m)] ∧ providerAfter E' c [(r.netAdmin, m)] = serve E' c kind m := by
  obtain ⟨m, he, ht, -, -, hsig⟩ := hd
  obtain ⟨x, h1, h2⟩ := flag_ok h
  have key : ∀ F, ask (facing A F c) r (encode codec A.pr a) = (match Crypto.decodePublicKey r.signingKey with
      | .ok pk => match A.key with
        | some (k, v) => match Message.sign A.P k v m with
          | (m', true) => ([(r.netAdmin, m')], match atProvider F c m' with
            | none => .err
            | some a => if (Message.verify A.P pk a).2 then .ok a else .err)
          | (_, false) => ([], .err)
        | none => ([], .panic)
      | .err => ([], .err)
      | .panic => ([], .panic)) := by
    intro F
    unfold ask
    rw [he]
    cases Crypto.decodePublicKey r.signingKey <;> try rfl
    cases hk' : A.key <;> (simp only [facing, hk'])
    rename_i kv
    rcases hs : Message.sign A.P kv.1 kv.2 m with ⟨m', _ | _⟩ <;> (simp only [hs])
    cases atProvider F c m' <;> rfl
  rw [key] at h h1 ⊢
  cases hpk : Crypto.decodePublicKey r.signingKey with
  | err => simp [hpk] at h1
  | panic => simp [hpk] at h1
  | ok pk =>
    simp only [hpk] at h1 ⊢
    cases hkey : A.key with
    | none => simp [hkey] at h1
    | some kv =>
      obtain ⟨k, v⟩ := kv
      simp only [hkey] at h1 ⊢
      rcases hs : Message.sign A.P k v m with ⟨m', _ | _⟩
      · simp [hs] at h1
      · simp only [hs] at h1 ⊢
        obtain ⟨sig, rfl⟩ := sign_eq hs
        have ht' : ({ m with signature := sig } : Msg).type = codec.code := ht
        have e1 : ∀ F, atProvider F c { m with signature := sig } = answer (serve F c kind { m with signature := sig }).2 := by
          intro F
          unfold atProvider
          rw [ht', hk]
          rfl
        rw [e1] at h1 ⊢
        cases hx : answer (serve E c kind { m with signature := sig }).2 with
        | none => simp [hx] at h1
        | some y =>
          rw [hE _ _ hx]
          simp only [hx] at h1 ⊢
          split at h1
          · rename_i hv
            cases h1
            refine ⟨?_, _, rfl, ?_⟩
            · simp only [flag, hv, if_true, Res.bind_ok, h2]
            · simp only [providerAfter]
              rw [ht', hk]
              simp
          · cases h1

/-- The success of a publication does not depend on any gateway: where the call succeeds, it also succeeds if none of the gateways can be reached, and
then none of them has confirmed anything. -/
theorem C125_group_refuted {A : Env} {r : Record} {E : Provider.Env} {c : Core} (hpr : ProtocolOk A.pr)
    (cids : List Id) (price : Nat) (expiry : Int) (qos : Nat) (hcids : IdsOk cids) (h1 : price < 2 ^ 64) (h2 : inI64 expiry) (h3 : qos < 2 ^ 64)
    (h : (publishGroup (facing A E c) r cids price expiry qos).2 = .ok ()) :
    (publishGroup (facing A (over E (fun _ _ _ => none)) c) r cids price expiry qos).2 = .ok () ∧
    ∀ g os, .confirmed g os ∉ (providerAfter (over E (fun _ _ _ => none)) c (publishGroup (facing A (over E (fun _ _ _ => none)) c) r cids price expiry qos).1).2 := by
  obtain ⟨h4, m, h5, h6⟩ := ok_again (E' := over E (fun _ _ _ => none)) (C30_providerAdminPublishGroupOfferRequest A.pr hpr cids price expiry qos hcids h1 h2 h3) (kind := .publishGroup) rfl
    (fun m x hx => publishGroup_answer (Provider.C106_unreachable E c m x _ (fun _ _ _ => Or.inl rfl) (answer_mem hx))) h
  have h10 : (publishGroup (facing A (over E (fun _ _ _ => none)) c) r cids price expiry qos).1 = [(r.netAdmin, m)] := h5
  refine ⟨h4, fun g os => ?_⟩
  rw [h10, h6]
  exact publishGroup_unconfirmed (fun _ _ _ => rfl) c m g os

example : (publishGroup (facing (exProviderAdmin Provider.exEnv newCore) (over Provider.exEnv (fun _ _ _ => none)) (serveAll newCore Provider.exReady).1) exProviderRecord
    [Merkle.exId 2, Merkle.exId 5] 5 2000 3).2 = .ok () :=
  (C125_group_refuted (A := exProviderAdmin Provider.exEnv newCore) defaultProtocolOk _ 5 2000 3 exIds (by decide) ⟨by decide, by decide⟩ (by decide) exGroup_succeeds).1

/-- The same for DHT offers. -/
theorem C125_dht_refuted {A : Env} {r : Record} {E : Provider.Env} {c : Core} (hpr : ProtocolOk A.pr) (hE : ProtocolOk E.pr)
    (cids : List Id) (price : List Nat) (expiry : List Int) (qos : List Nat) (hcids : IdsOk cids)
    (h1 : ∀ x ∈ price, x < 2 ^ 64) (h2 : ∀ x ∈ expiry, inI64 x) (h3 : ∀ x ∈ qos, x < 2 ^ 64)
    (h : (publishDht (facing A E c) r cids price expiry qos).2 = .ok ()) :
    (publishDht (facing A (over E (fun _ _ _ => none)) c) r cids price expiry qos).2 = .ok () ∧
    ∀ g os, .confirmed g os ∉ (providerAfter (over E (fun _ _ _ => none)) c (publishDht (facing A (over E (fun _ _ _ => none)) c) r cids price expiry qos).1).2 := by
  obtain ⟨h4, m, h5, h6⟩ := ok_again (E' := over E (fun _ _ _ => none)) (C30_providerAdminPublishDHTOfferRequest A.pr hpr cids price expiry qos hcids h1 h2 h3) (kind := .publishDht) rfl
    (fun m x hx => publishDht_answer (Provider.C104_unreachable E c m x hE _ (fun _ _ _ => Or.inl rfl) (answer_mem hx)) hE) h
  have h10 : (publishDht (facing A (over E (fun _ _ _ => none)) c) r cids price expiry qos).1 = [(r.netAdmin, m)] := h5
  refine ⟨h4, fun g os => ?_⟩
  rw [h10, h6]
  exact publishDht_unconfirmed (fun _ _ _ => rfl) c m g os

example : (publishDht (facing (exProviderAdmin Provider.exEnv newCore) (over Provider.exEnv (fun _ _ _ => none)) (serveAll newCore Provider.exReady).1) exProviderRecord
    [Merkle.exId 2, Merkle.exId 5] [5, 6] [2000, 3000] [3, 4]).2 = .ok () :=
  (C125_dht_refuted (A := exProviderAdmin Provider.exEnv newCore) defaultProtocolOk defaultProtocolOk _ [5, 6] [2000, 3000] [3, 4] exIds (by decide) (by unfold inI64; decide) (by decide) exDht_succeeds).1

/-! ## C126: the list of published offers -/

/-- The call returns, for the gateways asked for, in that order, the offers that each confirmed, in the order in which it confirmed them; for an empty
request those of all gateways, in some order; and it changes nothing. -/
theorem C126_listing (H : Hash) (hist : List (Provider.Env × Provider.Kind × Msg)) (hist_sane : ∀ e ∈ hist, Sane H e) {A : Env} {r : Record} {E : Provider.Env}
    (hb : BehindProvider A r E (serveAll newCore hist).1) (hA : HasKey A) (hs : SaneWorld H E) {k : KeyPair} {v : KeyVersion}
    (hk : (serveAll newCore hist).1.key = some (k, v)) (ho : Owns A.P r k v) (hsign : CanSign E (serveAll newCore hist).1) (gids : List Id) (hg : IdsOk gids) :
    ∃ found offers, (getPublished A r gids).2 = .ok (found, offers) ∧ (found = true ↔ offers ≠ []) ∧
      (gids ≠ [] → offers = gids.flatMap (fun g => confirmedBy g (serveAll newCore hist).2)) ∧
      (gids = [] → offers.Perm (allConfirmed (serveAll newCore hist).2)) ∧
      (providerAfter E (serveAll newCore hist).1 (getPublished A r gids).1).1 = (serveAll newCore hist).1 := by
  obtain ⟨-, -, pk, hpk, -⟩ := id ho
  obtain ⟨m, hd, h1, h2⟩ := ask_provider hb hA hpk (C30_providerAdminGetPublishedOfferRequest A.pr hb.adminProtocol gids hg) (kind := .getPublished) rfl
  obtain ⟨x, found, offers, h3, h4, h5, h6, h7⟩ := Provider.C57_answer H hist hist_sane E m (sane_of hs (by rw [decode_type hd]; decide)) hsign gids hd
  have h8 := provider_owned hb (kind := .getPublished) (m := m) (x := x) (by rw [h3]; simp) (by rw [h3]; exact hk) ho hpk
  have hH : A.H = H := by rw [← hb.hash, hs.1]
  refine ⟨found, offers, ?_, h5, h6, h7, ?_⟩
  · unfold getPublished
    simp only [h2, h3, answer, h8, if_true, Res.bind_ok, hH, h4]
  · unfold getPublished
    simp only [h2, h1, h3]

def exPublished : List (Provider.Env × Provider.Kind × Msg) := Provider.exReady ++ [(Provider.exEnv, .publishDht, Provider.exPublish)]

/-- After a publication that was confirmed: the call returns what was confirmed. -/
example : ∃ o os, (getPublished (exProviderAdmin Provider.exEnv (serveAll newCore exPublished).1) exProviderRecord [Merkle.exId 3]).2 = .ok (true, o :: os) := by
  have hkey : (serveAll newCore exPublished).1.key = some (Offer.exKey, 1) := by decide +kernel
  have hid : (serveAll newCore exPublished).1.id = some (Merkle.exId 1) := by decide +kernel
  have hconf : (confirmedBy (Merkle.exId 3) (serveAll newCore exPublished).2).length = 1 := by decide +kernel
  have hsane : ∀ e ∈ exPublished, Sane Merkle.toyHash e := by
    intro e he
    rcases List.mem_append.1 he with he | he
    · exact Provider.exReady_sane e he
    · simp only [List.mem_singleton] at he
      subst he
      exact Provider.exPublish_sane (Or.inr rfl)
  obtain ⟨f, o, h, h1, h2, -⟩ := C126_listing Merkle.toyHash _ hsane (exBehindProvider _ _) (exProviderKey _) exWorld hkey exProviderOwns (Provider.exCanSign rfl hid hkey)
    [Merkle.exId 3] (by intro x hx; simp only [List.mem_singleton] at hx; subst hx; exact Merkle.exId_proper 3)
  have h3 := h2 (by simp)
  simp only [List.flatMap_cons, List.flatMap_nil, List.append_nil] at h3
  rw [← h3] at hconf
  cases o with
  | nil => cases hconf
  | cons a l => exact ⟨a, l, by rw [h, h1.2 (by simp)]⟩

end FcRetrieval.Admin
