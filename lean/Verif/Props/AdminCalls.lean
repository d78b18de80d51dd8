import Verif.Props.AdminGateway
import Verif.Props.Reputation
/-!
# What the calls of the gateway admin mean
-/
set_option linter.unusedSimpArgs false

namespace FcRetrieval.Admin
open FcRetrieval.Ids (Id)
open FcRetrieval.Crypto (Prims KeyPair KeyVersion)
open FcRetrieval.Message (Msg)
open FcRetrieval.Register (Record)
open FcRetrieval.Wire (Codec encode decode)
open FcRetrieval.Codecs
open FcRetrieval.GatewayAdmin (Node serve)
open FcRetrieval.Gateway (res_ok_of_bind)

variable {S : Type}

/-! ## C121: reputations -/

/-- The call returns the reputation that the gateway has for the client, and an error if it has none; it changes nothing. -/
theorem C121_get {A : Env} {r : Record} {G : GatewayAdmin.Env S} {n : Node S} (hb : Behind A r G n) (hA : HasKey A)
    {k : KeyPair} {v : KeyVersion} (hk : n.key = some (k, v)) (ho : Owns A.P r k v) (client : Id) (hc : client.length = 32)
    (hr : ∀ x, Reputation.getRep n.reputation (Ids.toStr client) = some x → inI64 x) :
    (getReputation A r client).2 = (match Reputation.getRep n.reputation (Ids.toStr client) with | some x => .ok x | none => .err) ∧
    received G n (getReputation A r client).1 = n := by
  obtain ⟨-, -, pk, hpk, -⟩ := id ho
  obtain ⟨m, hm, hrec, hs⟩ := ask_served hb hA hpk (C30_gatewayAdminGetReputationRequest A.pr hb.adminProtocol (some client) ⟨client, rfl, hc⟩)
    (kind := .getReputation) rfl
  have hv : inI64 (Reputation.adminGet n.reputation (Ids.toStr client)).1 := by
    unfold Reputation.adminGet
    cases h : Reputation.getRep n.reputation (Ids.toStr client) with
    | none => exact ⟨by decide, by decide⟩
    | some x => exact hr x h
  obtain ⟨m', h1, h2, h3⟩ := respond_owned (n := n) hb.prims hb.correct hk ho
    (C30_gatewayAdminGetReputationResponse G.pr hb.protocol (some client) _ (Reputation.adminGet n.reputation (Ids.toStr client)).2 ⟨client, rfl, hc⟩ hv)
  have he : serve G n .getReputation m = (n, [.message m']) := by
    simp [serve, GatewayAdmin.getReputation, hm, hk, h1]
  unfold getReputation
  simp only [hs, hrec, he, reply, h3 pk hpk, if_true, Res.bind_ok, h2, deref, ne_eq, not_true_eq_false, if_false, and_true]
  unfold Reputation.adminGet
  cases Reputation.getRep n.reputation (Ids.toStr client) <;> rfl
example : (getReputation (exAdmin exNode) exRecord (Merkle.exId 7)).2 = .ok 20 := by
  have hg : Reputation.getRep exNode.reputation (Ids.toStr (Merkle.exId 7)) = some 20 := by decide +kernel
  have h := (C121_get (exBehind exNode) (exHasKey _) (k := Offer.exKey) (v := 1) rfl exOwns (Merkle.exId 7) (Merkle.exId_proper 7)
    (fun x hx => by rw [hg] at hx; cases hx; exact ⟨by decide, by decide⟩)).1
  rw [h, hg]

/-- Setting the reputation of a client that the gateway knows succeeds, and from then on it is the value given. -/
theorem C121_set {A : Env} {r : Record} {G : GatewayAdmin.Env S} {n : Node S} (hb : Behind A r G n) (hA : HasKey A)
    {k : KeyPair} {v : KeyVersion} (hk : n.key = some (k, v)) (ho : Owns A.P r k v) (client : Id) (hc : client.length = 32) (value : Int) (hv : inI64 value)
    (hr : (Reputation.getRep n.reputation (Ids.toStr client)).isSome) :
    (setReputation A r client value).2 = .ok () ∧
    ∃ n', received G n (setReputation A r client value).1 = n' ∧ n' = { n with reputation := n'.reputation } ∧
      Reputation.getRep n'.reputation (Ids.toStr client) = some value ∧ ∀ c, c ≠ Ids.toStr client → Reputation.getRep n'.reputation c = Reputation.getRep n.reputation c := by
  obtain ⟨-, -, pk, hpk, -⟩ := id ho
  obtain ⟨m, hm, hrec, hs⟩ := ask_served hb hA hpk (C30_gatewayAdminSetReputationRequest A.pr hb.adminProtocol (some client) value ⟨client, rfl, hc⟩ hv)
    (kind := .setReputation) rfl
  have ha : Reputation.adminSet n.reputation (Ids.toStr client) value = (Reputation.setRep n.reputation (Ids.toStr client) value, value, true) := if_pos hr
  obtain ⟨m', h1, h2, h3⟩ := respond_owned (n := { n with reputation := Reputation.setRep n.reputation (Ids.toStr client) value }) hb.prims hb.correct hk ho
    (C30_gatewayAdminSetReputationResponse G.pr hb.protocol (some client) value true ⟨client, rfl, hc⟩ hv)
  have he : serve G n .setReputation m = ({ n with reputation := Reputation.setRep n.reputation (Ids.toStr client) value }, [.message m']) := by
    have hk' : ¬ n.key = none := by simp [hk]
    simp only [serve, GatewayAdmin.setReputation, hm, hk', ha, if_false]
    rw [h1]
  unfold setReputation
  simp only [hs, hrec, he, reply, h3 pk hpk, if_true, Res.bind_ok, h2, deref, ne_eq, not_true_eq_false, if_false, true_and, Bool.not_true, Bool.false_eq_true]
  refine ⟨_, rfl, rfl, ?_, fun c h => ?_⟩ <;> simp only [Reputation.setRep, Reputation.getRep, mget_mset]
  · simp
  · rw [if_neg (Ne.symm h)]
example : (setReputation (exAdmin exNode) exRecord (Merkle.exId 7) (-5)).2 = .ok () :=
  (C121_set (exBehind exNode) (exHasKey _) (k := Offer.exKey) (v := 1) rfl exOwns (Merkle.exId 7) (Merkle.exId_proper 7) (-5) ⟨by decide, by decide⟩ (by decide +kernel)).1

/-- Setting the reputation of a client that the gateway does not know is an error and changes nothing. -/
theorem C121_unknown {A : Env} {r : Record} {G : GatewayAdmin.Env S} {n : Node S} (hb : Behind A r G n) (hA : HasKey A)
    {k : KeyPair} {v : KeyVersion} (hk : n.key = some (k, v)) (ho : Owns A.P r k v) (client : Id) (hc : client.length = 32) (value : Int) (hv : inI64 value)
    (hr : Reputation.getRep n.reputation (Ids.toStr client) = none) :
    (setReputation A r client value).2 = .err ∧ received G n (setReputation A r client value).1 = n := by
  obtain ⟨-, -, pk, hpk, -⟩ := id ho
  obtain ⟨m, hm, hrec, hs⟩ := ask_served hb hA hpk (C30_gatewayAdminSetReputationRequest A.pr hb.adminProtocol (some client) value ⟨client, rfl, hc⟩ hv)
    (kind := .setReputation) rfl
  have ha : Reputation.adminSet n.reputation (Ids.toStr client) value = (n.reputation, 0, false) := by simp [Reputation.adminSet, hr]
  obtain ⟨m', h1, h2, h3⟩ := respond_owned (n := n) hb.prims hb.correct hk ho
    (C30_gatewayAdminSetReputationResponse G.pr hb.protocol (some client) 0 false ⟨client, rfl, hc⟩ ⟨by decide, by decide⟩)
  have he : serve G n .setReputation m = (n, [.message m']) := by
    have hk' : ¬ n.key = none := by simp [hk]
    simp only [serve, GatewayAdmin.setReputation, hm, hk', ha, if_false]
    rw [h1]
  unfold setReputation
  simp only [hs, hrec, he, reply, h3 pk hpk, if_true, Res.bind_ok, h2, deref, ne_eq, not_true_eq_false, if_false, true_and, Bool.not_false, and_true]
example : (setReputation (exAdmin exNode) exRecord (Merkle.exId 8) (-5)).2 = .err :=
  (C121_unknown (exBehind exNode) (exHasKey _) (k := Offer.exKey) (v := 1) rfl exOwns (Merkle.exId 8) (Merkle.exId_proper 8) (-5) ⟨by decide, by decide⟩ (by decide +kernel)).1

/-- Whatever the network answers: a value is returned only if an answer with a signature that the record's key accepts names this client and carries this value. -/
theorem C121_get_answer {A : Env} {r : Record} {client : Id} {x : Int} (h : (getReputation A r client).2 = .ok x) :
    ∃ q a c, (getReputation A r client).1 = [(r.netAdmin, q)] ∧ A.exchange r.netAdmin q = some a ∧ SignedBy A.P r a ∧
      decode gatewayAdminGetReputationResponse a = .ok (some c, x, true) ∧ Ids.toStr c = Ids.toStr client := by
  unfold getReputation at h ⊢
  obtain ⟨a, ha, h⟩ := res_ok_of_bind h
  obtain ⟨hs, m, sig, -, h1, h2⟩ := ask_signed ha
  obtain ⟨⟨c, v, found⟩, hd, h⟩ := res_ok_of_bind h
  cases c with
  | none => simp [deref, Bind.bind, Res.bind] at h
  | some c =>
    simp only [deref, Res.bind_ok, ne_eq, ite_not] at h
    split at h
    · rename_i hc
      cases found with
      | false => simp at h
      | true =>
        simp at h
        subst h
        exact ⟨_, a, c, h1, h2, hs, hd, hc⟩
    · cases h

/-- Whatever the network answers: a call to set a reputation succeeds only if an answer with a signature that the record's key accepts names this client and this value. -/
theorem C121_set_answer {A : Env} {r : Record} {client : Id} {x : Int} (h : (setReputation A r client x).2 = .ok ()) :
    ∃ q a c, (setReputation A r client x).1 = [(r.netAdmin, q)] ∧ A.exchange r.netAdmin q = some a ∧ SignedBy A.P r a ∧
      decode gatewayAdminSetReputationResponse a = .ok (some c, x, true) ∧ Ids.toStr c = Ids.toStr client := by
  unfold setReputation at h ⊢
  obtain ⟨a, ha, h⟩ := res_ok_of_bind h
  obtain ⟨hs, m, sig, -, h1, h2⟩ := ask_signed ha
  obtain ⟨⟨c, v, found⟩, hd, h⟩ := res_ok_of_bind h
  cases c with
  | none => simp [deref, Bind.bind, Res.bind] at h
  | some c =>
    simp only [deref, Res.bind_ok, ne_eq, ite_not] at h
    split at h
    · rename_i hc
      cases found with
      | false => simp at h
      | true =>
        simp only [Bool.not_true, Bool.false_eq_true, if_false] at h
        split at h
        · rename_i hv
          subst hv
          exact ⟨_, a, c, h1, h2, hs, hd, hc⟩
        · cases h
    · cases h
example : ∃ a c, SignedBy (exAdmin exNode).P exRecord a ∧ decode gatewayAdminSetReputationResponse a = .ok (some c, -5, true) ∧ Ids.toStr c = Ids.toStr (Merkle.exId 7) := by
  have h := (C121_set (exBehind exNode) (exHasKey _) (k := Offer.exKey) (v := 1) rfl exOwns (Merkle.exId 7) (Merkle.exId_proper 7) (-5) ⟨by decide, by decide⟩ (by decide +kernel)).1
  obtain ⟨-, a, c, -, -, h1, h2, h3⟩ := C121_set_answer h
  exact ⟨a, c, h1, h2, h3⟩

/-! ## C101: the setting for group offers -/

theorem requestAll_gaveUp (G : GatewayAdmin.Env S) {t : Int} (ht : GatewayAdmin.requester t = some .listOffers) (a b : GatewayAdmin.Arg) : ∀ (rs : List Record) (n : Node S),
    (GatewayAdmin.requestAll G t (fun _ => [a, b]) n rs).1 = n ∧ ∀ o ∈ (GatewayAdmin.requestAll G t (fun _ => [a, b]) n rs).2, ∃ i, o = .gaveUp i
  | [], n => ⟨rfl, fun o h => by cases h⟩
  | r :: rs, n => by
    unfold GatewayAdmin.requestAll
    split
    · exact requestAll_gaveUp G ht a b rs n
    · rename_i i _
      have h : GatewayAdmin.requestProvider G n i t [a, b] = (n, [.gaveUp i]) := by
        unfold GatewayAdmin.requestProvider
        rw [ht]
        split
        · rename_i h; simp at h
        · rename_i h; simp at h
        · rfl
      simp only [h]
      obtain ⟨h1, h2⟩ := requestAll_gaveUp G ht a b rs n
      refine ⟨h1, fun o ho => ?_⟩
      rcases List.mem_append.1 ho with ho | ho
      · exact ⟨i, by simpa using ho⟩
      · exact h2 o ho

/-- What the gateway does with a list of providers: it keeps the list, writes an answer of another kind, and sends nothing to any provider. -/
theorem updateGroup_serve {G : GatewayAdmin.Env S} {n : Node S} {m : Msg} {i : Option Id} {providers : List Id} (hm : decode updateGatewayGroupCIDOfferSupportRequest m = .ok (i, providers)) :
    (serve G n .updateGroup m).1 = { n with groupProviders := providers } ∧
    ∃ more, (serve G n .updateGroup m).2 = GatewayAdmin.respond G { n with groupProviders := providers } gatewayAdminInitialiseKeyResponse true ++ more ∧ ∀ o ∈ more, ∃ i, o = .gaveUp i := by
  simp only [serve, GatewayAdmin.updateGroup, hm]
  split
  · rename_i a ha
    obtain ⟨h1, h2⟩ := requestAll_gaveUp G (t := (gatewayListDHTOfferRequest).code) rfl (.node n.id) (.bool true) G.providers { n with groupProviders := providers }
    refine ⟨h1, _, ?_, h2⟩
    rw [ha]
    rfl
  · exact ⟨rfl, [], by simp, fun o h => by cases h⟩

/-- The call never succeeds with a gateway that runs this code, whatever the state of the gateway. -/
theorem C101_never_succeeds_refuted {A : Env} {r : Record} {G : GatewayAdmin.Env S} {n : Node S} (hb : Behind A r G n) (providers : List Id) :
    (gatewayGroup A r providers).2 ≠ .ok () := by
  intro h
  unfold gatewayGroup at h
  obtain ⟨a, ha, h⟩ := flag_ok h
  obtain ⟨-, m, sig, hm, -, hx⟩ := ask_signed ha
  have ht : m.type = (updateGatewayGroupCIDOfferSupportRequest).code := by
    split at hm
    · cases hm
    · exact encode_type hm
  have hkd : GatewayAdmin.kindOf ({ m with signature := sig } : Msg).type = some .updateGroup := by
    show GatewayAdmin.kindOf m.type = _
    rw [ht]
    rfl
  rw [hb.served, hkd, Option.bind_some] at hx
  rcases hd : decode updateGatewayGroupCIDOfferSupportRequest { m with signature := sig } with ⟨i, ps⟩ | _ | _
  · obtain ⟨-, more, h5, -⟩ := updateGroup_serve (G := G) (n := n) hd
    rw [h5] at hx
    have := decode_other (c' := updateGatewayGroupCIDOfferSupportResponse) (respond_reply hx) (by decide)
    rw [this] at h
    cases h
  · simp [serve, GatewayAdmin.updateGroup, hd, reply] at hx
  · simp [serve, GatewayAdmin.updateGroup, hd, reply] at hx
example : (gatewayGroup (exAdmin exNode) exRecord [Merkle.exId 9]).2 ≠ .ok () := C101_never_succeeds_refuted (exBehind exNode) _

/-- With a gateway that is set up the call fails, and the gateway has stored the setting all the same; nothing else changes. -/
theorem C101_stored_refuted {A : Env} {r : Record} {G : GatewayAdmin.Env S} {n : Node S} (hb : Behind A r G n) (hA : HasKey A)
    {k : KeyPair} {v : KeyVersion} (hk : n.key = some (k, v)) (ho : Owns A.P r k v) {i : Id} (hid : Ids.fromHex r.nodeID = some i) (providers : List Id) (hp : IdsOk providers) :
    (gatewayGroup A r providers).2 = .err ∧ received G n (gatewayGroup A r providers).1 = { n with groupProviders := providers } := by
  obtain ⟨-, -, pk, hpk, -⟩ := id ho
  obtain ⟨m, hm, hrec, hs⟩ := ask_served hb hA hpk (C30_updateGatewayGroupCIDOfferSupportRequest A.pr hb.adminProtocol (some i) providers (idOk_of hid) hp)
    (kind := .updateGroup) rfl
  obtain ⟨h4, more, h5, -⟩ := updateGroup_serve (G := G) (n := n) hm
  obtain ⟨m', h1, h2, h3⟩ := respond_owned (n := { n with groupProviders := providers }) hb.prims hb.correct hk ho (C30_gatewayAdminInitialiseKeyResponse G.pr hb.protocol true)
  have hr : reply (serve G n .updateGroup m).2 = some m' := by rw [h5, h1]; rfl
  unfold gatewayGroup
  rw [hid]
  refine ⟨?_, ?_⟩
  · simp only [hs, flag, hr, h3 pk hpk, if_true, Res.bind_ok, decode_other (decode_type h2) (by decide : (gatewayAdminInitialiseKeyResponse).code ≠ (updateGatewayGroupCIDOfferSupportResponse).code), Res.bind_err]
  · simp only [hs, flag, hrec, h4]

example : received exGatewayEnv exNode (gatewayGroup (exAdmin exNode) exRecord [Merkle.exId 9]).1 = { exNode with groupProviders := [Merkle.exId 9] } :=
  (C101_stored_refuted (exBehind exNode) (exHasKey _) (k := Offer.exKey) (v := 1) rfl exOwns (by decide +kernel : Ids.fromHex exRecord.nodeID = some (Merkle.exId 1)) [Merkle.exId 9]
    (by intro x hx; simp only [List.mem_singleton] at hx; subst hx; exact Merkle.exId_proper 9)).2

/-- No provider is ever told. -/
theorem C101_not_notified_refuted (G : GatewayAdmin.Env S) (n : Node S) (m : Msg) (p : Id) (q : Msg) : GatewayAdmin.Out.asked p q ∉ (serve G n .updateGroup m).2 := by
  intro h
  rcases hd : decode updateGatewayGroupCIDOfferSupportRequest m with ⟨i, ps⟩ | _ | _
  · obtain ⟨-, more, h5, h6⟩ := updateGroup_serve (G := G) (n := n) hd
    rw [h5] at h
    rcases List.mem_append.1 h with h | h
    · unfold GatewayAdmin.respond at h
      split at h
      · simp at h
      · simp at h
      · split at h <;> simp at h
    · obtain ⟨i, hi⟩ := h6 _ h
      cases hi
  · simp [serve, GatewayAdmin.updateGroup, hd] at h
  · simp [serve, GatewayAdmin.updateGroup, hd] at h
example (m : Msg) : GatewayAdmin.Out.asked (Merkle.exId 9) m ∉ (serve exGatewayEnv exNode .updateGroup m).2 := C101_not_notified_refuted _ _ _ _ _

end FcRetrieval.Admin
