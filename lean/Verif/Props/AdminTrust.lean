import Verif.Props.AdminCalls
import Verif.Model.Provider
/-!
# Whom the admin and the nodes trust
-/
set_option linter.unusedSimpArgs false

namespace FcRetrieval.Admin
open FcRetrieval.Ids (Id)
open FcRetrieval.Crypto (Prims KeyPair KeyVersion)
open FcRetrieval.Message (Msg)
open FcRetrieval.Register (Record)
open FcRetrieval.Wire (Codec encode decode)
open FcRetrieval.Codecs
open FcRetrieval.GatewayAdmin (Node serve)
open FcRetrieval.Gateway (res_ok_of_bind)

variable {S : Type}

/-! ## C117: only the admin can change a node -/

/-- A gateway does the same for every signature, and for none. -/
theorem C117_gateway_refuted (G : GatewayAdmin.Env S) (n : Node S) (kind : GatewayAdmin.Kind) (m : Msg) (sig : List Char) :
    serve G n kind { m with signature := sig } = serve G n kind m := by
  cases kind <;> rfl

/-- Whatever the state of a gateway: an unsigned message gives it any identifier and key. -/
theorem C117_gateway_takeover_refuted (G : GatewayAdmin.Env S) (n : Node S) (i : Id) (hi : i.length = 32) (k : KeyPair) (hk : Crypto.PrivateKey k) (v : KeyVersion) :
    ∃ m, m.signature = [] ∧ GatewayAdmin.kindOf m.type = some .initialise ∧ (serve G n .initialise m).1 = { n with id := some i, key := some (k, v) } := by
  obtain ⟨m, -, ht, -, -, hsig⟩ := C30_gatewayAdminInitialiseKeyRequest Message.defaultProtocol defaultProtocolOk (some i) (some k) (some v) ⟨i, rfl, hi⟩ ⟨k, rfl, hk⟩ ⟨v, rfl⟩
  refine ⟨{ m with signature := [] }, rfl, ?_, ?_⟩
  · show GatewayAdmin.kindOf m.type = _
    rw [ht]
    rfl
  · simp only [serve, GatewayAdmin.initialise, (hsig []).2]
example : ∃ m, m.signature = [] ∧ GatewayAdmin.kindOf m.type = some .initialise ∧
    (serve exGatewayEnv exNode .initialise m).1 = { exNode with id := some (Merkle.exId 4), key := some (exKey2, 9) } :=
  C117_gateway_takeover_refuted _ _ _ (Merkle.exId_proper 4) _ exKey2_private 9

/-- The requests of the admin of a provider. -/
def providerAdminKinds : List Provider.Kind := [.initialise, .initialiseV2, .forceRefresh, .publishDht, .publishGroup, .getPublished]

/-- A provider does the same for every signature of a request of its admin, and for none. -/
theorem C117_provider_refuted (E : Provider.Env) (c : Provider.Core) (kind : Provider.Kind) (hk : kind ∈ providerAdminKinds) (m : Msg) (sig : List Char) :
    Provider.serve E c kind { m with signature := sig } = Provider.serve E c kind m := by
  simp only [providerAdminKinds, List.mem_cons, List.not_mem_nil, or_false] at hk
  rcases hk with rfl | rfl | rfl | rfl | rfl | rfl <;> rfl
example : Provider.Kind.publishGroup ∈ providerAdminKinds := by decide

/-- Whatever the state of a provider: an unsigned message gives it any identifier and key. -/
theorem C117_provider_takeover_refuted (E : Provider.Env) (c : Provider.Core) (i : Id) (hi : i.length = 32) (k : KeyPair) (hk : Crypto.PrivateKey k) (v : KeyVersion) :
    ∃ m, m.signature = [] ∧ m.type = 500 ∧ (Provider.serve E c .initialise m).1 = { c with id := some i, key := some (k, v) } := by
  obtain ⟨m, -, ht, -, -, hsig⟩ := C30_providerAdminInitialiseKeyRequest Message.defaultProtocol defaultProtocolOk (some i) (some k) (some v) ⟨i, rfl, hi⟩ ⟨k, rfl, hk⟩ ⟨v, rfl⟩
  refine ⟨{ m with signature := [] }, rfl, ht, ?_⟩
  simp only [Provider.serve, Provider.initialise, (hsig []).2]
example (E : Provider.Env) (c : Provider.Core) : ∃ m, m.signature = [] ∧ m.type = 500 ∧ (Provider.serve E c .initialise m).1 = { c with id := some (Merkle.exId 4), key := some (exKey2, 9) } :=
  C117_provider_takeover_refuted _ _ _ (Merkle.exId_proper 4) _ exKey2_private 9

/-- Only the two requests that set up a gateway change its identifier or key. -/
theorem C117_gateway_partial (G : GatewayAdmin.Env S) (n : Node S) (kind : GatewayAdmin.Kind) (h1 : kind ≠ .initialise) (h2 : kind ≠ .initialiseV2) (m : Msg) :
    (serve G n kind m).1.id = n.id ∧ (serve G n kind m).1.key = n.key := by
  cases kind with
  | initialise => exact absurd rfl h1
  | initialiseV2 => exact absurd rfl h2
  | getReputation =>
    show (GatewayAdmin.getReputation G n m).1.id = _ ∧ (GatewayAdmin.getReputation G n m).1.key = _
    unfold GatewayAdmin.getReputation
    split
    · exact ⟨rfl, rfl⟩
    · split <;> exact ⟨rfl, rfl⟩
  | setReputation =>
    show (GatewayAdmin.setReputation G n m).1.id = _ ∧ (GatewayAdmin.setReputation G n m).1.key = _
    unfold GatewayAdmin.setReputation
    split
    · exact ⟨rfl, rfl⟩
    · split <;> exact ⟨rfl, rfl⟩
  | forceRefresh =>
    show (GatewayAdmin.forceRefresh G n m).1.id = _ ∧ (GatewayAdmin.forceRefresh G n m).1.key = _
    unfold GatewayAdmin.forceRefresh
    split
    · exact ⟨rfl, rfl⟩
    · split <;> exact ⟨rfl, rfl⟩
  | listOffers =>
    show (GatewayAdmin.listOffers G n m).1.id = _ ∧ (GatewayAdmin.listOffers G n m).1.key = _
    unfold GatewayAdmin.listOffers
    split
    · exact ⟨rfl, rfl⟩
    · split
      · exact ⟨rfl, rfl⟩
      · exact ⟨rfl, rfl⟩
      · simp only
        split
        · unfold GatewayAdmin.listAll
          split
          · exact ⟨rfl, rfl⟩
          · split
            · exact ⟨rfl, rfl⟩
            · rw [requestAll_payment]
              exact ⟨rfl, rfl⟩
        · exact ⟨rfl, rfl⟩
  | updateGroup =>
    rcases hd : decode updateGatewayGroupCIDOfferSupportRequest m with ⟨i, ps⟩ | _ | _
    · rw [(updateGroup_serve hd).1]
      exact ⟨rfl, rfl⟩
    · simp [serve, GatewayAdmin.updateGroup, hd]
    · simp [serve, GatewayAdmin.updateGroup, hd]
example (m : Msg) : (serve exGatewayEnv exNode .listOffers m).1.key = some (Offer.exKey, 1) := (C117_gateway_partial _ _ _ (by decide) (by decide) m).2

/-! ## C120: the private key on its way to the node -/

theorem sent_private {A : Env} (hA : HasKey A) {r : Record} {pk : KeyPair} (hpk : Crypto.decodePublicKey r.signingKey = .ok pk) {α : Type} {codec : Codec α} {a : α} (hd : Delivers codec A.pr a) :
    ∃ m, (ask A r (encode codec A.pr a)).1 = [(r.netAdmin, m)] ∧ decode codec m = .ok a := by
  obtain ⟨m, he, -, -, -, hsig⟩ := hd
  obtain ⟨sig, hs⟩ := ask_sends hA hpk he
  exact ⟨_, by rw [hs], (hsig sig).2⟩

/-- Whoever sees the message that sets up a gateway reads from it, without any secret, the private key of the gateway, and that of its wallet. -/
theorem C120_gateway_refuted {A : Env} (hA : HasKey A) (hpr : ProtocolOk A.pr) {r : Record} {pk : KeyPair} (hpk : Crypto.decodePublicKey r.signingKey = .ok pk)
    {i : Id} (hid : Ids.fromHex r.nodeID = some i) {k : KeyPair} (hk : Crypto.PrivateKey k) (v : KeyVersion) (wallet api token : List Char) :
    (∃ m, (gatewayInitialise A r (some k) (some v)).1 = [(r.netAdmin, m)] ∧ decode gatewayAdminInitialiseKeyRequest m = .ok (some i, some k, some v)) ∧
    (∃ m, (gatewayInitialiseV2 A r (some k) (some v) wallet api token).1 = [(r.netAdmin, m)] ∧
      decode gatewayAdminInitialiseKeyRequestV2 m = .ok (some i, some k, some v, wallet, api, token)) := by
  unfold gatewayInitialise gatewayInitialiseV2
  rw [hid]
  exact ⟨sent_private hA hpk (C30_gatewayAdminInitialiseKeyRequest A.pr hpr (some i) (some k) (some v) (idOk_of hid) ⟨k, rfl, hk⟩ ⟨v, rfl⟩),
    sent_private hA hpk (C30_gatewayAdminInitialiseKeyRequestV2 A.pr hpr (some i) (some k) (some v) wallet api token (idOk_of hid) ⟨k, rfl, hk⟩ ⟨v, rfl⟩)⟩
example : ∃ m, (gatewayInitialise (exAdmin exNode) exRecord (some Offer.exKey) (some 1)).1 = [(['a'], m)] ∧
    decode gatewayAdminInitialiseKeyRequest m = .ok (some (Merkle.exId 1), some Offer.exKey, some 1) :=
  (C120_gateway_refuted (exHasKey exNode) defaultProtocolOk exRecord_key (by decide +kernel : Ids.fromHex exRecord.nodeID = some (Merkle.exId 1)) Offer.exKey_private 1 [] [] []).1

/-- The same for a provider. -/
theorem C120_provider_refuted {A : Env} (hA : HasKey A) (hpr : ProtocolOk A.pr) {r : Record} {pk : KeyPair} (hpk : Crypto.decodePublicKey r.signingKey = .ok pk)
    {i : Id} (hid : Ids.fromHex r.nodeID = some i) {k : KeyPair} (hk : Crypto.PrivateKey k) (v : KeyVersion) (wallet api token : List Char) :
    (∃ m, (providerInitialise A r (some k) (some v)).1 = [(r.netAdmin, m)] ∧ decode providerAdminInitialiseKeyRequest m = .ok (some i, some k, some v)) ∧
    (∃ m, (providerInitialiseV2 A r (some k) (some v) wallet api token).1 = [(r.netAdmin, m)] ∧
      decode providerAdminInitialiseKeyRequestV2 m = .ok (some i, some k, some v, wallet, api, token)) := by
  unfold providerInitialise providerInitialiseV2
  rw [hid]
  exact ⟨sent_private hA hpk (C30_providerAdminInitialiseKeyRequest A.pr hpr (some i) (some k) (some v) (idOk_of hid) ⟨k, rfl, hk⟩ ⟨v, rfl⟩),
    sent_private hA hpk (C30_providerAdminInitialiseKeyRequestV2 A.pr hpr (some i) (some k) (some v) wallet api token (idOk_of hid) ⟨k, rfl, hk⟩ ⟨v, rfl⟩)⟩
example : ∃ m, (providerInitialise (exAdmin exNode) exRecord (some Offer.exKey) (some 1)).1 = [(['a'], m)] ∧
    decode providerAdminInitialiseKeyRequest m = .ok (some (Merkle.exId 1), some Offer.exKey, some 1) :=
  (C120_provider_refuted (exHasKey exNode) defaultProtocolOk exRecord_key (by decide +kernel : Ids.fromHex exRecord.nodeID = some (Merkle.exId 1)) Offer.exKey_private 1 [] [] []).1

/-! ## C119: what success means -/

theorem flag_confirmed {E : Env} {r : Record} {codec : Codec Bool} {request : Res Msg} {code : Int} (hreq : ∀ m, request = .ok m → m.type = code)
    (h : (flag codec (ask E r request)).2 = .ok ()) : Confirmed E r (code, codec.code) (flag codec (ask E r request)).1 := by
  obtain ⟨a, ha, hd⟩ := flag_ok h
  obtain ⟨hs, m, sig, hm, hsent, hx⟩ := ask_signed ha
  exact ⟨_, a, hsent, hreq m hm, hx, decode_type hd, hs⟩

theorem adding_ok {active : Active} {r : Record} {x : Sent × Res Unit} (h : (adding active r x).2.2 = .ok ()) : x.2 = .ok () ∧ (adding active r x) = (mset active r.nodeID r, x.1, .ok ()) := by
  unfold adding at h ⊢
  rcases hx : x.2 with _ | _ | _
  · exact ⟨rfl, rfl⟩
  · rw [hx] at h; cases h
  · rw [hx] at h; cases h

theorem using_ok {α : Type} {active : Active} {id : Id} {call : Record → Sent × Res α} {a : α} (h : (using' active id call).2.2 = .ok a) :
    ∃ r, mget active (Ids.toStr id) = some r ∧ using' active id call = (active, call r) := by
  unfold using' at h ⊢
  cases hm : mget active (Ids.toStr id) with
  | none => rw [hm] at h; cases h
  | some r => exact ⟨r, rfl, rfl⟩

theorem optional_encode {α : Type} {s : List Char} {codec : Codec α} {pr : Message.Protocol} {f : Id → α} {m : Msg}
    (h : (match Ids.fromHex s with | none => Res.err | some i => encode codec pr (f i)) = .ok m) : m.type = codec.code := by
  split at h
  · cases h
  · exact encode_type h

/-- A call of the gateway admin succeeds only after the node of the record was sent a request of that kind, and an answer to
that kind of request was read which is signed with the key in the record. -/
theorem C119_gateway_partial (E : Env) (active : Active) (c : GatewayCall) (h : (gatewayCall E active c).2.2 = .ok ()) :
    ∃ r, c.target active = some r ∧ Confirmed E r c.codes (gatewayCall E active c).2.1 := by
  cases c with
  | initialise r k v =>
    obtain ⟨h1, h2⟩ := adding_ok h
    refine ⟨r, rfl, ?_⟩
    simp only [gatewayCall, h2]
    exact flag_confirmed (fun m hm => optional_encode hm) h1
  | initialiseV2 r k v w a t =>
    obtain ⟨h1, h2⟩ := adding_ok h
    refine ⟨r, rfl, ?_⟩
    simp only [gatewayCall, h2]
    exact flag_confirmed (fun m hm => optional_encode hm) h1
  | forceUpdate id =>
    obtain ⟨r, h1, h2⟩ := using_ok h
    refine ⟨r, h1, ?_⟩
    simp only [gatewayCall, h2] at h ⊢
    exact flag_confirmed (fun m hm => encode_type hm) h
  | listOffers id =>
    obtain ⟨r, h1, h2⟩ := using_ok h
    refine ⟨r, h1, ?_⟩
    simp only [gatewayCall, h2] at h ⊢
    exact flag_confirmed (fun m hm => encode_type hm) h
  | updateFeatures r ps =>
    obtain ⟨h1, h2⟩ := adding_ok h
    refine ⟨r, rfl, ?_⟩
    simp only [gatewayCall, h2]
    exact flag_confirmed (fun m hm => optional_encode hm) h1

/-- The same for the provider admin. -/
theorem C119_provider_partial (E : Env) (active : Active) (c : ProviderCall) (h : (providerCall E active c).2.2 = .ok ()) :
    ∃ r, c.target active = some r ∧ Confirmed E r c.codes (providerCall E active c).2.1 := by
  cases c with
  | initialise r k v =>
    obtain ⟨h1, h2⟩ := adding_ok h
    refine ⟨r, rfl, ?_⟩
    simp only [providerCall, h2]
    exact flag_confirmed (fun m hm => optional_encode hm) h1
  | initialiseV2 r k v w a t =>
    obtain ⟨h1, h2⟩ := adding_ok h
    refine ⟨r, rfl, ?_⟩
    simp only [providerCall, h2]
    exact flag_confirmed (fun m hm => optional_encode hm) h1
  | forceUpdate id =>
    obtain ⟨r, h1, h2⟩ := using_ok h
    refine ⟨r, h1, ?_⟩
    simp only [providerCall, h2] at h ⊢
    exact flag_confirmed (fun m hm => encode_type hm) h
  | publishGroup id cids price expiry qos =>
    obtain ⟨r, h1, h2⟩ := using_ok h
    refine ⟨r, h1, ?_⟩
    simp only [providerCall, h2] at h ⊢
    exact flag_confirmed (fun m hm => encode_type hm) h
  | publishDht id cids price expiry qos =>
    obtain ⟨r, h1, h2⟩ := using_ok h
    refine ⟨r, h1, ?_⟩
    simp only [providerCall, h2] at h ⊢
    exact flag_confirmed (fun m hm => encode_type hm) h

/-- The network answers everything with `a`; nothing reaches any node. -/
def replaying (E : Env) (a : Msg) : Env := { E with exchange := fun _ _ => some a }

theorem ask_replay {E : Env} (hE : HasKey E) {r : Record} {a : Msg} (hs : SignedBy E.P r a) {request : Res Msg} {m : Msg} (hm : request = .ok m) : (ask (replaying E a) r request).2 = .ok a := by
  obtain ⟨pk, hpk, hv⟩ := hs
  obtain ⟨sig, h⟩ := ask_sends (A := replaying E a) hE hpk hm
  rw [h]
  show (if (Message.verify E.P pk a).2 then Res.ok a else .err) = _
  rw [if_pos (Gateway.verify_snd.2 hv)]

theorem ask_again {E : Env} {r : Record} {request : Res Msg} {a : Msg} (h : (ask E r request).2 = .ok a) : (ask (replaying E a) r request).2 = .ok a := by
  unfold ask at h ⊢
  have e1 : (replaying E a).key = E.key := rfl
  have e2 : (replaying E a).P = E.P := rfl
  have e3 : ∀ x y, (replaying E a).exchange x y = some a := fun _ _ => rfl
  simp only [e1, e2, e3]
  cases hpk : Crypto.decodePublicKey r.signingKey with
  | panic => simp [hpk] at h
  | err => simp [hpk] at h
  | ok pk =>
    simp only [hpk] at h ⊢
    cases request with
    | panic => simp at h
    | err => simp at h
    | ok m =>
      cases hk : E.key with
      | none => simp [hk] at h
      | some kv =>
        obtain ⟨k, v⟩ := kv
        simp only [hk] at h ⊢
        rcases hs : Message.sign E.P k v m with ⟨m', _ | _⟩
        · simp [hs] at h
        · simp only [hs] at h ⊢
          cases he : E.exchange r.netAdmin m' with
          | none => simp [he] at h
          | some a' =>
            simp only [he] at h
            split at h
            · rename_i hv
              simp only [Res.ok.injEq] at h
              subst h
              rw [if_pos hv]
            · cases h

theorem flag_again {E : Env} {r : Record} {codec : Codec Bool} {request : Res Msg} (h : (flag codec (ask E r request)).2 = .ok ()) :
    ∃ m a, (flag codec (ask E r request)).1 = [(r.netAdmin, m)] ∧ E.exchange r.netAdmin m = some a ∧ (flag codec (ask (replaying E a) r request)).2 = .ok () := by
  obtain ⟨a, ha, hd⟩ := flag_ok h
  obtain ⟨-, m, sig, -, hsent, hx⟩ := ask_signed ha
  refine ⟨_, a, hsent, hx, ?_⟩
  unfold flag
  simp only [ask_again ha, Res.bind_ok, hd, if_true]

theorem adding_of {active : Active} {r : Record} {x : Sent × Res Unit} (h : x.2 = .ok ()) : adding active r x = (mset active r.nodeID r, x.1, .ok ()) := by
  unfold adding
  rw [h]

/-- Every call of the gateway admin that has succeeded once succeeds again, without reaching any node, if the network repeats the answer. -/
theorem C119_gateway_replay_refuted (E : Env) (active : Active) (c : GatewayCall) (h : (gatewayCall E active c).2.2 = .ok ()) :
    ∃ r m a, (gatewayCall E active c).2.1 = [(r, m)] ∧ E.exchange r m = some a ∧ (gatewayCall (replaying E a) active c).2.2 = .ok () := by
  cases c with
  | initialise r k v =>
    obtain ⟨h1, h2⟩ := adding_ok h
    obtain ⟨m, a, h3, h4, h5⟩ := flag_again h1
    exact ⟨_, m, a, by simp only [gatewayCall, h2]; exact h3, h4, congrArg (fun x => x.2.2) (adding_of (active := active) (r := r) h5)⟩
  | initialiseV2 r k v w a t =>
    obtain ⟨h1, h2⟩ := adding_ok h
    obtain ⟨m, a, h3, h4, h5⟩ := flag_again h1
    exact ⟨_, m, a, by simp only [gatewayCall, h2]; exact h3, h4, congrArg (fun x => x.2.2) (adding_of (active := active) (r := r) h5)⟩
  | forceUpdate id =>
    obtain ⟨r, h1, h2⟩ := using_ok h
    simp only [gatewayCall, h2] at h ⊢
    obtain ⟨m, a, h3, h4, h5⟩ := flag_again h
    exact ⟨_, m, a, h3, h4, by unfold using'; rw [h1]; exact h5⟩
  | listOffers id =>
    obtain ⟨r, h1, h2⟩ := using_ok h
    simp only [gatewayCall, h2] at h ⊢
    obtain ⟨m, a, h3, h4, h5⟩ := flag_again h
    exact ⟨_, m, a, h3, h4, by unfold using'; rw [h1]; exact h5⟩
  | updateFeatures r ps =>
    obtain ⟨h1, h2⟩ := adding_ok h
    obtain ⟨m, a, h3, h4, h5⟩ := flag_again h1
    exact ⟨_, m, a, by simp only [gatewayCall, h2]; exact h3, h4, congrArg (fun x => x.2.2) (adding_of (active := active) (r := r) h5)⟩

/-- Every call of the provider admin that has succeeded once succeeds again, without reaching any node, if the network repeats the answer. -/
theorem C119_provider_replay_refuted (E : Env) (active : Active) (c : ProviderCall) (h : (providerCall E active c).2.2 = .ok ()) :
    ∃ r m a, (providerCall E active c).2.1 = [(r, m)] ∧ E.exchange r m = some a ∧ (providerCall (replaying E a) active c).2.2 = .ok () := by
  cases c with
  | initialise r k v =>
    obtain ⟨h1, h2⟩ := adding_ok h
    obtain ⟨m, a, h3, h4, h5⟩ := flag_again h1
    exact ⟨_, m, a, by simp only [providerCall, h2]; exact h3, h4, congrArg (fun x => x.2.2) (adding_of (active := active) (r := r) h5)⟩
  | initialiseV2 r k v w a t =>
    obtain ⟨h1, h2⟩ := adding_ok h
    obtain ⟨m, a, h3, h4, h5⟩ := flag_again h1
    exact ⟨_, m, a, by simp only [providerCall, h2]; exact h3, h4, congrArg (fun x => x.2.2) (adding_of (active := active) (r := r) h5)⟩
  | forceUpdate id =>
    obtain ⟨r, h1, h2⟩ := using_ok h
    simp only [providerCall, h2] at h ⊢
    obtain ⟨m, a, h3, h4, h5⟩ := flag_again h
    exact ⟨_, m, a, h3, h4, by unfold using'; rw [h1]; exact h5⟩
  | publishGroup id cids price expiry qos =>
    obtain ⟨r, h1, h2⟩ := using_ok h
    simp only [providerCall, h2] at h ⊢
    obtain ⟨m, a, h3, h4, h5⟩ := flag_again h
    exact ⟨_, m, a, h3, h4, by unfold using'; rw [h1]; exact h5⟩
  | publishDht id cids price expiry qos =>
    obtain ⟨r, h1, h2⟩ := using_ok h
    simp only [providerCall, h2] at h ⊢
    obtain ⟨m, a, h3, h4, h5⟩ := flag_again h
    exact ⟨_, m, a, h3, h4, by unfold using'; rw [h1]; exact h5⟩

/-- After a gateway has once confirmed a key, the repeated answer confirms every other key, which the gateway has never seen. -/
theorem C119_other_key_refuted (E : Env) (hE : HasKey E) (hpr : ProtocolOk E.pr) (active : Active) (r : Record) (k : Option KeyPair) (v : Option KeyVersion)
    (h : (gatewayCall E active (.initialise r k v)).2.2 = .ok ()) (k' : KeyPair) (hk : Crypto.PrivateKey k') (v' : KeyVersion) :
    ∃ m a, E.exchange r.netAdmin m = some a ∧ (gatewayCall (replaying E a) active (.initialise r (some k') (some v'))).2.2 = .ok () := by
  obtain ⟨h1, -⟩ := adding_ok h
  unfold gatewayInitialise at h1
  obtain ⟨a, ha, hd⟩ := flag_ok h1
  obtain ⟨hs, m, sig, hm, -, hx⟩ := ask_signed ha
  refine ⟨_, a, hx, ?_⟩
  cases hid : Ids.fromHex r.nodeID with
  | none => rw [hid] at hm; cases hm
  | some i =>
    obtain ⟨m2, he, -⟩ := C30_gatewayAdminInitialiseKeyRequest E.pr hpr (some i) (some k') (some v') (idOk_of hid) ⟨k', rfl, hk⟩ ⟨v', rfl⟩
    have h2 : (gatewayInitialise (replaying E a) r (some k') (some v')).2 = .ok () := by
      unfold gatewayInitialise flag
      rw [hid]
      have := ask_replay hE hs (request := encode gatewayAdminInitialiseKeyRequest (replaying E a).pr (some i, some k', some v')) he
      simp only [this, Res.bind_ok, hd, if_true]
    simp only [gatewayCall]
    rw [adding_of h2]

theorem exInitialised : (gatewayCall (exAdmin exNode) [] (.initialise exRecord (some Offer.exKey) (some 1))).2.2 = .ok () := by
  simp only [gatewayCall]
  rw [adding_of (C116_initialise_partial (exBehind exNode) (exHasKey _) (by decide +kernel : Ids.fromHex exRecord.nodeID = some (Merkle.exId 1)) exOwns).1]
example : ∃ r, (GatewayCall.initialise exRecord (some Offer.exKey) (some 1)).target [] = some r ∧
    Confirmed (exAdmin exNode) r (400, 401) (gatewayCall (exAdmin exNode) [] (.initialise exRecord (some Offer.exKey) (some 1))).2.1 := C119_gateway_partial _ _ _ exInitialised
example : ∃ m a, (exAdmin exNode).exchange exRecord.netAdmin m = some a ∧
    (gatewayCall (replaying (exAdmin exNode) a) [] (.initialise exRecord (some exKey2) (some 3))).2.2 = .ok () :=
  C119_other_key_refuted _ (exHasKey _) defaultProtocolOk _ _ _ _ exInitialised _ exKey2_private 3

/-! ## C123: the nodes in use -/

/-- A node is in use only if a call to it has succeeded, with an answer signed with the key of the record in use. -/
theorem C123_gateway_confirmed_partial (h : List (Env × GatewayCall)) (key : List Char) (r : Record) (hr : mget (gatewayRun [] h) key = some r) :
    key = r.nodeID ∧ ∃ E c active, (E, c) ∈ h ∧ c.target active = some r ∧ Confirmed E r c.codes (gatewayCall E active c).2.1 := by
  suffices H : ∀ (h : List (Env × GatewayCall)) (active : Active), mget (gatewayRun active h) key = some r → mget active key = some r ∨
      (key = r.nodeID ∧ ∃ E c active, (E, c) ∈ h ∧ c.target active = some r ∧ Confirmed E r c.codes (gatewayCall E active c).2.1) by
    rcases H h [] hr with h | h
    · cases h
    · exact h
  intro h
  induction h with
  | nil => exact fun active hr => Or.inl hr
  | cons x h ih =>
    obtain ⟨E, c⟩ := x
    intro active hr
    rcases ih _ hr with h1 | ⟨h1, E', c', a', h2, h3⟩
    · by_cases hs : (gatewayCall E active c).2.2 = .ok ()
      · by_cases hold : mget active key = some r
        · exact Or.inl hold
        · obtain ⟨r', h2, h3⟩ := C119_gateway_partial E active c hs
          have key_of : ∀ {r0 : Record} {x : Sent × Res Unit}, mget (adding active r0 x).1 key = some r → (adding active r0 x).2.2 = .ok () → key = r0.nodeID ∧ r0 = r := by
            intro r0 x hx hok
            rw [(adding_ok hok).2, mget_mset] at hx
            split at hx
            · rename_i he
              cases hx
              exact ⟨he.symm, rfl⟩
            · exact absurd hx hold
          have use_of : ∀ {α : Type} {id : Id} {call : Record → Sent × Res α}, mget (using' active id call).1 key = some r → False := by
            intro α id call hx
            unfold using' at hx
            split at hx <;> exact hold hx
          refine Or.inr ?_
          cases c with
          | initialise r0 k v =>
            obtain ⟨h4, rfl⟩ := key_of h1 hs
            cases h2
            exact ⟨h4, E, _, active, by simp, rfl, h3⟩
          | initialiseV2 r0 k v w a t =>
            obtain ⟨h4, rfl⟩ := key_of h1 hs
            cases h2
            exact ⟨h4, E, _, active, by simp, rfl, h3⟩
          | updateFeatures r0 ps =>
            obtain ⟨h4, rfl⟩ := key_of h1 hs
            cases h2
            exact ⟨h4, E, _, active, by simp, rfl, h3⟩
          | forceUpdate id => exact (use_of h1).elim
          | listOffers id => exact (use_of h1).elim
      · refine Or.inl ?_
        have hsame : (gatewayCall E active c).1 = active := by
          cases c <;> simp only [gatewayCall, adding, using'] at hs ⊢ <;> split <;> simp_all
        rw [hsame] at h1
        exact h1
    · exact Or.inr ⟨h1, E', c', a', List.mem_cons_of_mem _ h2, h3⟩

example : mget (gatewayRun [] [(exAdmin exNode, .initialise exRecord (some Offer.exKey) (some 1))]) exRecord.nodeID = some exRecord := by
  have h := adding_of (active := []) (r := exRecord)
    (C116_initialise_partial (exBehind exNode) (exHasKey _) (by decide +kernel : Ids.fromHex exRecord.nodeID = some (Merkle.exId 1)) exOwns).1
  simp only [gatewayRun, gatewayCall]
  rw [h, mget_mset, if_pos rfl]

/-- The same for the provider admin: a node is in use only if a call to it has succeeded, with an answer signed with the key of the record in use. -/
theorem C123_provider_confirmed_partial (h : List (Env × ProviderCall)) (key : List Char) (r : Record) (hr : mget (providerRun [] h) key = some r) :
    key = r.nodeID ∧ ∃ E c active, (E, c) ∈ h ∧ c.target active = some r ∧ Confirmed E r c.codes (providerCall E active c).2.1 := by
  suffices H : ∀ (h : List (Env × ProviderCall)) (active : Active), mget (providerRun active h) key = some r → mget active key = some r ∨
      (key = r.nodeID ∧ ∃ E c active, (E, c) ∈ h ∧ c.target active = some r ∧ Confirmed E r c.codes (providerCall E active c).2.1) by
    rcases H h [] hr with h | h
    · cases h
    · exact h
  intro h
  induction h with
  | nil => exact fun active hr => Or.inl hr
  | cons x h ih =>
    obtain ⟨E, c⟩ := x
    intro active hr
    rcases ih _ hr with h1 | ⟨h1, E', c', a', h2, h3⟩
    · by_cases hs : (providerCall E active c).2.2 = .ok ()
      · by_cases hold : mget active key = some r
        · exact Or.inl hold
        · obtain ⟨r', h2, h3⟩ := C119_provider_partial E active c hs
          have key_of : ∀ {r0 : Record} {x : Sent × Res Unit}, mget (adding active r0 x).1 key = some r → (adding active r0 x).2.2 = .ok () → key = r0.nodeID ∧ r0 = r := by
            intro r0 x hx hok
            rw [(adding_ok hok).2, mget_mset] at hx
            split at hx
            · rename_i he
              cases hx
              exact ⟨he.symm, rfl⟩
            · exact absurd hx hold
          have use_of : ∀ {α : Type} {id : Id} {call : Record → Sent × Res α}, mget (using' active id call).1 key = some r → False := by
            intro α id call hx
            unfold using' at hx
            split at hx <;> exact hold hx
          refine Or.inr ?_
          cases c with
          | initialise r0 k v =>
            obtain ⟨h4, rfl⟩ := key_of h1 hs
            cases h2
            exact ⟨h4, E, _, active, by simp, rfl, h3⟩
          | initialiseV2 r0 k v w a t =>
            obtain ⟨h4, rfl⟩ := key_of h1 hs
            cases h2
            exact ⟨h4, E, _, active, by simp, rfl, h3⟩
          | forceUpdate id => exact (use_of h1).elim
          | publishGroup id => exact (use_of h1).elim
          | publishDht id => exact (use_of h1).elim
      · refine Or.inl ?_
        have hsame : (providerCall E active c).1 = active := by
          cases c <;> simp only [providerCall, adding, using'] at hs ⊢ <;> split <;> simp_all
        rw [hsame] at h1
        exact h1
    · exact Or.inr ⟨h1, E', c', a', List.mem_cons_of_mem _ h2, h3⟩

/-- A call to a node that is not in use sends nothing. -/
theorem C123_unused (E : Env) (active : Active) (i : Id) (h : mget active (Ids.toStr i) = none) :
    gatewayCall E active (.forceUpdate i) = (active, [], .err) ∧ gatewayCall E active (.listOffers i) = (active, [], .err) := by
  simp only [gatewayCall, using', h, and_self]
/-- The same for the provider admin. -/
theorem C123_unused_provider (E : Env) (active : Active) (i : Id) (h : mget active (Ids.toStr i) = none) :
    providerCall E active (.forceUpdate i) = (active, [], .err) ∧
    (∀ cids price expiry qos, providerCall E active (.publishGroup i cids price expiry qos) = (active, [], .err)) ∧
    (∀ cids price expiry qos, providerCall E active (.publishDht i cids price expiry qos) = (active, [], .err)) ∧
    ∀ gateways, getGroupOffers E active i gateways = (active, [], .err) := by
  simp only [providerCall, getGroupOffers, using', h, and_self, implies_true]
example : gatewayCall (exAdmin exNode) [] (.forceUpdate (Merkle.exId 1)) = ([], [], .err) := (C123_unused _ _ _ rfl).1

/-- A gateway whose record writes the identifier in another way than the library does can be set up, and is then unknown to the other calls. -/
theorem C123_lookup_refuted {A : Env} {r : Record} {G : GatewayAdmin.Env S} {n : Node S} (hb : Behind A r G n) (hA : HasKey A)
    {i : Id} (hid : Ids.fromHex r.nodeID = some i) (hne : r.nodeID ≠ Ids.toStr i) {k : KeyPair} {v : KeyVersion} (ho : Owns A.P r k v) :
    (gatewayCall A [] (.initialise r (some k) (some v))).2.2 = .ok () ∧
    (gatewayCall A (gatewayCall A [] (.initialise r (some k) (some v))).1 (.forceUpdate i)).2 = ([], .err) := by
  have h := (C116_initialise_partial hb hA hid ho).1
  have h1 : gatewayCall A [] (.initialise r (some k) (some v)) = (mset [] r.nodeID r, (gatewayInitialise A r (some k) (some v)).1, .ok ()) := by
    simp only [gatewayCall]
    exact adding_of h
  refine ⟨by rw [h1], ?_⟩
  rw [h1, (C123_unused A _ i ?_).1]
  rw [mget_mset, if_neg hne]
  rfl
/-- A record with an identifier in capital letters. -/
def exCapital : Record := { exRecord with nodeID := List.replicate 64 'F' }
def exCapitalId : Id := List.replicate 32 255
theorem exCapital_id : Ids.fromHex exCapital.nodeID = some exCapitalId := by decide +kernel
theorem exCapital_ne : exCapital.nodeID ≠ Ids.toStr exCapitalId := by decide +kernel
theorem exCapital_behind : Behind (exAdmin exNode) exCapital exGatewayEnv exNode where
  served := fun _ => rfl
  prims := rfl
  correct := keyed_correct
  protocol := defaultProtocolOk
  adminProtocol := defaultProtocolOk
theorem exCapital_owns : Owns (exAdmin exNode).P exCapital Offer.exKey 1 :=
  ⟨Offer.exKey_private, keyed_signs Offer.exKey_private 1, exPub, exRecord_key, rfl, by decide +kernel⟩
example : (gatewayCall (exAdmin exNode) (gatewayCall (exAdmin exNode) [] (.initialise exCapital (some Offer.exKey) (some 1))).1 (.forceUpdate exCapitalId)).2 = ([], .err) :=
  (C123_lookup_refuted exCapital_behind (exHasKey _) exCapital_id exCapital_ne exCapital_owns).2

end FcRetrieval.Admin
