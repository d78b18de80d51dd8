import Verif.Lemmas.ClientExamples
import Verif.Props.Codecs
/-!
# C61, C63, C109: the gateways of the client
-/
set_option linter.unusedSimpArgs false

namespace FcRetrieval.Client
open FcRetrieval.Ids (Id)
open FcRetrieval.Merkle (exId)
open FcRetrieval.Message (Msg)
open FcRetrieval.Register (Record)
open FcRetrieval.Wire (Codec encode decode)
open FcRetrieval.Codecs
open FcRetrieval.Gateway (res_ok_of_bind)

variable {Sig S : Type}

/-! ## C63: establishment -/

/-- **C63**: if establishment succeeds, exactly one message was sent, to the gateway of the record; it carries the challenge of 32 bytes;
and the answer is signed with the registered key and has this challenge and the registered identifier. -/
theorem C63_sound (E : Env Sig) (n : Nat) (r : Record) (challenge : Bytes) (client : Id) (ttl : Int)
    (h : (requestEstablishment E n r challenge client ttl).2 = .ok ()) :
    challenge.length = 32 ∧ ∃ m a gw, (requestEstablishment E n r challenge client ttl).1 = [.asked r.netClient m] ∧
      encode clientEstablishmentRequest E.pr (some client, b64Encode challenge, ttl) = .ok m ∧
      E.exchange n r.netClient m = some a ∧ SignedBy E r a ∧
      decode clientEstablishmentResponse a = .ok (some gw, b64Encode challenge) ∧ r.nodeID = Ids.toStr gw := by
  obtain ⟨h1, m, a, gw, h2, h3, h4, h5, h6⟩ := requestEstablishment_ok h
  exact ⟨h1, m, a, gw, h3, h2, h4.1, h4.2, h5, h6⟩

/-- **C63**, the converse: an answer that is signed, has the identifier of the record and the challenge is enough. -/
theorem C63_accepts (E : Env Sig) (n : Nat) (r : Record) (challenge : Bytes) (hc : challenge.length = 32) (client : Id) (ttl : Int) (m a : Msg) (gw : Id)
    (hm : encode clientEstablishmentRequest E.pr (some client, b64Encode challenge, ttl) = .ok m) (ha : E.exchange n r.netClient m = some a)
    (hs : SignedBy E r a) (hd : decode clientEstablishmentResponse a = .ok (some gw, b64Encode challenge)) (hid : r.nodeID = Ids.toStr gw) :
    requestEstablishment E n r challenge client ttl = ([.asked r.netClient m], .ok ()) := by
  unfold requestEstablishment
  rw [if_neg (fun h => h hc), hm, ask_answered ⟨ha, hs⟩]
  simp only [Res.bind_ok, hd, deref, hid, ne_eq, not_true_eq_false, if_false]

/-- **C63**: an answer with the echo of another challenge, such as a replay of an earlier one, or of another gateway, is refused. -/
theorem C63_replay (E : Env Sig) (n : Nat) (r : Record) (challenge other : Bytes) (client : Id) (ttl : Int) (m a : Msg) (gw : Option Id)
    (hm : encode clientEstablishmentRequest E.pr (some client, b64Encode challenge, ttl) = .ok m)
    (ha : E.exchange n r.netClient m = some a) (hd : decode clientEstablishmentResponse a = .ok (gw, b64Encode other))
    (hne : other ≠ challenge ∨ ∀ g, gw = some g → r.nodeID ≠ Ids.toStr g) : (requestEstablishment E n r challenge client ttl).2 ≠ .ok () := by
  intro h
  obtain ⟨-, m', a', gw', -, h2, h3, -, h5, h6⟩ := C63_sound E n r challenge client ttl h
  rw [hm] at h2
  cases h2
  rw [ha] at h3
  cases h3
  rw [hd] at h5
  simp only [Res.ok.injEq, Prod.mk.injEq] at h5
  obtain ⟨rfl, e⟩ := h5
  rcases hne with hne | hne
  · apply hne
    have := congrArg b64Decode e
    rw [b64Decode_encode, b64Decode_encode] at this
    exact Option.some.inj this
  · exact hne gw' rfl h6

/-- **C63**, with the gateway: establishment with a gateway that runs the code of `Model/Gateway` behind the record succeeds, unless the
time to live has run out at the gateway. -/
theorem C63_honest (E : Env Sig) (hpr : ProtocolOk E.pr) (n : Nat) (r : Record) (challenge : Bytes) (hc : challenge.length = 32) (client : Id)
    (hcl : client.length = 32) (ttl : Int) (ht : inI64 ttl) (G : Gateway.Env S) (g : Gateway.Core S) (hb : Behind E r n G g) (hnow : G.now ≤ ttl) :
    ∃ m, requestEstablishment E n r challenge client ttl = ([.asked r.netClient m], .ok ()) := by
  obtain ⟨m, hm, hty, -, -, hsig⟩ := C30_clientEstablishmentRequest E.pr hpr (some client) (b64Encode challenge) ttl ⟨client, rfl, hcl⟩ ht
  have hd := (hsig m.signature).2
  have hd : decode clientEstablishmentRequest m = .ok (some client, b64Encode challenge, ttl) := hd
  obtain ⟨a, h1, h2, h3⟩ := hb.respond (b1 := .status 400) (b2 := .status 500) (C30_clientEstablishmentResponse G.pr hb.protocol (some g.id) (b64Encode challenge) ⟨g.id, rfl, hb.proper⟩)
  have hserve : Gateway.serve G g .establishment m = (g, [.message a]) := by
    simp only [Gateway.serve]
    unfold Gateway.establishment
    rw [hd]
    dsimp only
    rw [if_neg (by omega), h1]
  refine ⟨m, C63_accepts E n r challenge hc client ttl m a g.id hm ?_ h3 h2 hb.ident⟩
  rw [hb.served]
  have : clientKind m.type = some .establishment := by
    rw [hty]
    rfl
  rw [this]
  simp only [Option.bind_some, hserve, reply]

example : ∃ m, requestEstablishment exEnv 0 exRecord (exId 5) (exId 6) 1100 = ([.asked exRecord.netClient m], .ok ()) :=
  C63_honest exEnv defaultProtocolOk 0 exRecord (exId 5) (Merkle.exId_proper 5) (exId 6) (Merkle.exId_proper 6) 1100 ⟨by decide, by decide⟩
    Gateway.exEnv exHolder (exBehind 0) (by decide)

/-- An answer with the echo of another challenge exists: `exEnv` answers with an old message. -/
example : ∃ (E : Env Unit) (m a : Msg), encode clientEstablishmentRequest E.pr (some (exId 6), b64Encode (exId 5), 1100) = .ok m ∧
    E.exchange 0 exRecord.netClient m = some a ∧ decode clientEstablishmentResponse a = .ok (some (exId 1), b64Encode (exId 4)) := by
  obtain ⟨m, hm, -⟩ := C30_clientEstablishmentRequest exEnv.pr defaultProtocolOk (some (exId 6)) (b64Encode (exId 5)) 1100 ⟨exId 6, rfl, Merkle.exId_proper 6⟩ ⟨by decide, by decide⟩
  obtain ⟨a, -, -, -, -, ha⟩ := C30_clientEstablishmentResponse exEnv.pr defaultProtocolOk (some (exId 1)) (b64Encode (exId 4)) ⟨exId 1, rfl, Merkle.exId_proper 1⟩
  exact ⟨{ exEnv with exchange := fun _ _ _ => some { a with signature := [] } }, m, _, hm, rfl, (ha []).2⟩

/-! ## C61: the lists of gateways -/

/-- **C61**: after any history of calls, every active gateway is among the gateways to use, was looked up with a complete record, and with
this record passed establishment; and the lists have no duplicates. -/
theorem C61_active (s : Settings) (hist : List (Env Sig × Op)) (hp : ∀ e ∈ hist, ProperOp e.2) :
    (∀ id ∈ (run (newClient s) hist).1.actives, id ∈ (run (newClient s) hist).1.uses ∧ ∃ r, WasValidated hist id r ∧ WasEstablished hist id r) ∧
    (∀ id ∈ (run (newClient s) hist).1.uses, ∃ r, WasValidated hist id r) ∧
    (run (newClient s) hist).1.actives.Nodup ∧ (run (newClient s) hist).1.uses.Nodup := by
  have h := run_inv s hp
  refine ⟨fun id hid => ?_, fun id hid => ?_, idsOf_nodup h.act, idsOf_nodup h.use⟩
  · obtain ⟨h1, r, h2⟩ := (mem_idsOf_mget h.act).1 hid
    exact ⟨(mem_idsOf_mget h.use).2 ⟨h1, r, h.sub _ _ h2⟩, r, h.valid id r h1 (h.sub _ _ h2), h.met id r h1 h2⟩
  · obtain ⟨h1, r, h2⟩ := (mem_idsOf_mget h.use).1 hid
    exact ⟨r, h.valid id r h1 h2⟩

/-- **C61**, `AddGatewaysToUse`: the count is the number of gateways added; added are exactly those named which were not there and have a
complete record in the register; the active gateways stay. -/
theorem C61_add (s : Settings) (hist : List (Env Sig × Op)) (hp : ∀ e ∈ hist, ProperOp e.2) (c : Client Sig) (hc : c = (run (newClient s) hist).1)
    (E : Env Sig) (ids : List (Option Id)) (hids : ProperIds ids) (n : Nat) (h : (addToUse E c ids).2 = some n) :
    ∃ new : List Id, (addToUse E c ids).1.uses = c.uses ++ new ∧ n = new.length ∧ new.Nodup ∧ (addToUse E c ids).1.actives = c.actives ∧
      ∀ id, id ∈ new ↔ some id ∈ ids ∧ id ∉ c.uses ∧ ∃ r, E.gateway id = some r ∧ CompleteGateway r := by
  subst hc
  have hi := run_inv s hp
  obtain ⟨new, h1, h2, h3⟩ := addToUse_spec E hids hi.use
  have h4 := addToUse_inv (V := fun _ _ => True) (A := fun _ _ => True) E hids (fun _ _ _ _ _ => trivial) (hi.mono (fun _ _ _ => trivial) (fun _ _ _ => trivial))
  have hn := idsOf_nodup h4.use
  rw [h1, List.nodup_append] at hn
  refine ⟨new, h1, (h3 n h).1, hn.2.1, ?_, fun id => ⟨h2 id, fun ⟨ha, hb, hd⟩ => (h3 n h).2 id ha hb hd⟩⟩
  unfold Client.actives
  rw [addToUse_active]

/-- **C61**, `RemoveGatewaysToUse`: afterwards none of the gateways named is in use or active, all others are as before, and the count is
the number of gateways removed. -/
theorem C61_remove (s : Settings) (hist : List (Env Sig × Op)) (hp : ∀ e ∈ hist, ProperOp e.2) (c : Client Sig) (hc : c = (run (newClient s) hist).1)
    (ids : List (Option Id)) (hids : ProperIds ids) (n : Nat) (h : (removeToUse c ids).2 = some n) :
    (removeToUse c ids).1.uses = others ids c.uses ∧ (removeToUse c ids).1.actives = others ids c.actives ∧
      (removeToUse c ids).1.uses.length + n = c.uses.length := by
  subst hc
  have hi := run_inv s hp
  exact removeToUse_spec hids hi.use hi.act hi.sub h

/-- **C61**, `RemoveAllGatewaysToUse`: nothing is in use or active, and the count is the number of gateways that were in use. -/
theorem C61_remove_all (s : Settings) (hist : List (Env Sig × Op)) (hp : ∀ e ∈ hist, ProperOp e.2) (c : Client Sig) (hc : c = (run (newClient s) hist).1) :
    (removeAllToUse c).1.uses = [] ∧ (removeAllToUse c).1.actives = [] ∧ (removeAllToUse c).2 = c.uses.length := by
  subst hc
  have hi := run_inv s hp
  refine ⟨rfl, rfl, ?_⟩
  exact (idsOf_length hi.use).symm

/-- **C61**, `AddActiveGateways`: the count is the number of gateways that became active; each was named, was in use, was not active, and
answered a message of this call as establishment requires; the gateways to use stay. -/
theorem C61_activate (s : Settings) (hist : List (Env Sig × Op)) (hp : ∀ e ∈ hist, ProperOp e.2) (c : Client Sig) (hc : c = (run (newClient s) hist).1)
    (E : Env Sig) (ids : List (Option Id)) (hids : ProperIds ids) (n : Nat) (h : (addActive E c 0 ids).2.2 = some n) :
    ∃ new : List Id, (addActive E c 0 ids).1.actives = c.actives ++ new ∧ n = new.length ∧ new.Nodup ∧ (addActive E c 0 ids).1.uses = c.uses ∧
      ∀ id ∈ new, some id ∈ ids ∧ id ∈ c.uses ∧ id ∉ c.actives ∧
        ∃ r i m, WasValidated hist id r ∧ Out.asked r.netClient m ∈ (addActive E c 0 ids).2.1 ∧ Established E i r (E.challenge id) m := by
  subst hc
  have hi := run_inv s hp
  obtain ⟨new, h1, h2, h3⟩ := addActive_spec E hids (n := 0) hi.use hi.act
  have h4 := addActive_inv (V := fun _ _ => True) (A := fun _ _ => True) E hids (fun _ _ _ _ _ _ => trivial) (n := 0)
    (hi.mono (fun _ _ _ => trivial) (fun _ _ _ => trivial))
  have hn := idsOf_nodup h4.act
  rw [h1, List.nodup_append] at hn
  refine ⟨new, h1, h3 n h, hn.2.1, ?_, fun id hid => ?_⟩
  · unfold Client.uses
    rw [addActive_toUse]
  · obtain ⟨a, b, r, i, m, d, e, f⟩ := h2 id hid
    exact ⟨a, (mem_idsOf_mget hi.use).2 ⟨hids id a, r, d⟩, b, r, i, m, hi.valid id r (hids id a) d, f, e⟩

/-- **C61**, `RemoveActiveGateways`: none of the gateways named is active, all others are as before, also those to use, and the count is the
number of gateways that were active. -/
theorem C61_deactivate (s : Settings) (hist : List (Env Sig × Op)) (hp : ∀ e ∈ hist, ProperOp e.2) (c : Client Sig) (hc : c = (run (newClient s) hist).1)
    (ids : List (Option Id)) (hids : ProperIds ids) (n : Nat) (h : (removeActive c ids).2 = some n) :
    (removeActive c ids).1.actives = others ids c.actives ∧ (removeActive c ids).1.uses = c.uses ∧
      (removeActive c ids).1.actives.length + n = c.actives.length := by
  subst hc
  have hi := run_inv s hp
  obtain ⟨h1, h2, h3⟩ := removeActive_spec hids hi.act h
  refine ⟨h2, ?_, h3⟩
  unfold Client.uses
  rw [h1]

/-- **C61**, `RemoveAllActiveGateways`. -/
theorem C61_deactivate_all (s : Settings) (hist : List (Env Sig × Op)) (hp : ∀ e ∈ hist, ProperOp e.2) (c : Client Sig) (hc : c = (run (newClient s) hist).1) :
    (removeAllActive c).1.actives = [] ∧ (removeAllActive c).1.uses = c.uses ∧ (removeAllActive c).2 = c.actives.length := by
  subst hc
  have hi := run_inv s hp
  exact ⟨rfl, rfl, (idsOf_length hi.act).symm⟩

/-- **C61**: the calls give a count, that is, they do not panic, if no identifier is nil and no record has an empty key. -/
theorem C61_counts (c : Client Sig) (ids : List (Option Id)) (hids : none ∉ ids) :
    (∃ n, (removeToUse c ids).2 = some n) ∧ (∃ n, (removeActive c ids).2 = some n) := by
  constructor
  · induction ids generalizing c with
    | nil => exact ⟨0, rfl⟩
    | cons o ids ih =>
      cases o with
      | none => exact absurd (List.mem_cons_self ..) hids
      | some id =>
        have hids' : none ∉ ids := fun h => hids (List.mem_cons_of_mem _ h)
        unfold removeToUse
        split
        · exact ih c hids'
        · obtain ⟨n, hn⟩ := ih { c with toUse := mdel c.toUse (Ids.toStr id), active := mdel c.active (Ids.toStr id) } hids'
          exact ⟨n + 1, by dsimp only; rw [hn]; rfl⟩
  · induction ids generalizing c with
    | nil => exact ⟨0, rfl⟩
    | cons o ids ih =>
      cases o with
      | none => exact absurd (List.mem_cons_self ..) hids
      | some id =>
        have hids' : none ∉ ids := fun h => hids (List.mem_cons_of_mem _ h)
        unfold removeActive
        split
        · exact ih c hids'
        · obtain ⟨n, hn⟩ := ih { c with active := mdel c.active (Ids.toStr id) } hids'
          exact ⟨n + 1, by dsimp only; rw [hn]; rfl⟩

/-- **C61**, with the gateway: a gateway in use whose record has the code of `Model/Gateway` behind it becomes active when asked to. -/
theorem C61_honest (s : Settings) (hist : List (Env Sig × Op)) (hp : ∀ e ∈ hist, ProperOp e.2) (c : Client Sig) (hc : c = (run (newClient s) hist).1)
    (E : Env Sig) (hpr : ProtocolOk E.pr) (id : Id) (hu : id ∈ c.uses) (hn : id ∉ c.actives) (hch : (E.challenge id).length = 32)
    (hcl : c.settings.clientID.length = 32) (ht : inI64 (E.now + c.settings.ttl)) (G : Gateway.Env S) (g : Gateway.Core S)
    (hb : ∀ r, WasValidated hist id r → Behind E r 0 G g) (hnow : G.now ≤ E.now + c.settings.ttl) :
    (addActive E c 0 [some id]).2.2 = some 1 ∧ (addActive E c 0 [some id]).1.actives = c.actives ++ [id] := by
  subst hc
  have hi := run_inv s hp
  obtain ⟨hid, r, hr⟩ := (mem_idsOf_mget hi.use).1 hu
  obtain ⟨m, hm⟩ := C63_honest E hpr 0 r (E.challenge id) hch _ hcl _ ht G g (hb r (hi.valid id r hid hr)) hnow
  have hna : mget (run (newClient s) hist).1.active (Ids.toStr id) = none := by
    cases hg : mget (run (newClient s) hist).1.active (Ids.toStr id) with
    | none => rfl
    | some r' => exact absurd ((mem_idsOf_mget hi.act).2 ⟨hid, r', hg⟩) hn
  have hex : addActive E (run (newClient s) hist).1 0 [some id] =
      ({ (run (newClient s) hist).1 with active := mset (run (newClient s) hist).1.active (Ids.toStr id) r }, [.asked r.netClient m], some 1) := by
    simp only [addActive, hna, hr, hm]
    rfl
  rw [hex]
  exact ⟨rfl, (keyed_mset hi.act hid r hna).2⟩

/-! The examples. -/

/-- The gateway is in use after the first call of `exHist`. -/
theorem exHist_uses : (run (newClient exSettings) (exHist.take 1)).1.uses = [exId 1] ∧ (run (newClient exSettings) (exHist.take 1)).1.actives = [] := by
  have hp : ∀ e ∈ ([] : List (Env Unit × Op)), ProperOp e.2 := by simp
  have hv := (validGateway_iff exRecord).2 exRecord_complete
  have h1 : exEnv.gateway (exId 1) = some exRecord := by decide +kernel
  have h3 : exEnv.gateway (exId 3) = none := by decide +kernel
  have h4 : Ids.toStr (exId 1) ≠ Ids.toStr (exId 3) := by decide +kernel
  have : (run (newClient exSettings) (exHist.take 1)).1 = { newClient exSettings with toUse := [(Ids.toStr (exId 1), exRecord)] } := by
    simp only [exHist, List.take, run, step, addToUse, newClient, mget, h1, hv, mset, h3, if_neg h4]
  rw [this]
  exact ⟨by simp only [Client.uses, idsOf, List.filterMap_cons, List.filterMap_nil, Ids.fromHex_toStr (Merkle.exId_proper 1)], rfl⟩

theorem exHist_validated {r : Record} (h : WasValidated (exHist.take 1) (exId 1) r) : r = exRecord := by
  obtain ⟨E, ids, hm, -, hr, -⟩ := h
  simp only [exHist, List.take, List.mem_cons, List.not_mem_nil, or_false, Prod.mk.injEq] at hm
  obtain ⟨rfl, -⟩ := hm
  have h1 : exEnv.gateway (exId 1) = some exRecord := by decide +kernel
  rw [h1] at hr
  exact (Option.some.inj hr).symm

theorem exRun_settings : (run (newClient exSettings) (exHist.take 1) : Client Unit × List (Out Unit)).1.settings = exSettings := by
  have : ∀ (E : Env Unit) (ids : List (Option Id)) (c : Client Unit), (addToUse E c ids).1.settings = c.settings := by
    intro E ids
    induction ids with
    | nil => intro c; rfl
    | cons o ids ih =>
      intro c
      cases o with
      | none => exact ih c
      | some id =>
        unfold addToUse
        split
        · exact ih c
        · split
          · exact ih c
          · split
            · exact ih _
            · rfl
            · exact ih c
  exact this _ _ _

/-- The gateway becomes active, so the hypotheses of `C61_honest` are met and `C61_active` is not about an empty list. -/
theorem exHist_active : (run (newClient exSettings) exHist).1.actives = [exId 1] := by
  have h := C61_honest exSettings (exHist.take 1) (fun e he => exHist_proper e (List.mem_of_mem_take he)) _ rfl exEnv defaultProtocolOk (exId 1)
    (by rw [exHist_uses.1]; simp) (by rw [exHist_uses.2]; simp) (Merkle.exId_proper 1) (by rw [exRun_settings]; exact Merkle.exId_proper 6)
    (by rw [exRun_settings]; exact ⟨by decide, by decide⟩) Gateway.exEnv exHolder (fun r hr => by rw [exHist_validated hr]; exact exBehind 0)
    (by rw [exRun_settings]; decide)
  rw [exHist_uses.2] at h
  have gen : ∀ (c : Client Unit) (E : Env Unit) (a b : List (Option Id)),
      (run c [(E, .addToUse a), (E, .addActive b)]).1 = (addActive E (run c ([(E, .addToUse a), (E, .addActive b)].take 1)).1 0 b).1 := fun _ _ _ _ => rfl
  have e : (run (newClient exSettings) exHist).1 = (addActive exEnv (run (newClient exSettings) (exHist.take 1)).1 0 [some (exId 1)]).1 := by
    unfold exHist
    exact gen _ _ _ _
  rw [e]
  exact h.2

example : exId 1 ∈ (run (newClient exSettings) exHist).1.actives := by rw [exHist_active]; simp

/-- Removing it removes one gateway. -/
example : (removeToUse (run (newClient exSettings) exHist).1 [some (exId 1), some (exId 1), some (exId 4)]).2 = some 1 ∧
    (removeToUse (run (newClient exSettings) exHist).1 [some (exId 1), some (exId 1), some (exId 4)]).1.actives = [] := by
  have hpi : ProperIds [some (exId 1), some (exId 1), some (exId 4)] := by
    intro id hid
    simp only [List.mem_cons, Option.some.injEq, List.not_mem_nil, or_false] at hid
    rcases hid with rfl | rfl | rfl <;> exact Merkle.exId_proper _
  obtain ⟨n, hn⟩ := (C61_counts (run (newClient exSettings) exHist).1 [some (exId 1), some (exId 1), some (exId 4)] (by simp)).1
  obtain ⟨h1, h2, h3⟩ := C61_remove exSettings exHist exHist_proper _ rfl _ hpi n hn
  have hu : (run (newClient exSettings) exHist).1.uses = [exId 1] := by
    have : (run (newClient exSettings) exHist).1.toUse = (run (newClient exSettings) (exHist.take 1)).1.toUse := by
      simp only [exHist, List.take, run, step, addActive_toUse]
    unfold Client.uses
    rw [this]
    exact exHist_uses.1
  rw [exHist_active] at h2
  rw [h1, hu] at h3
  rw [hu] at h1
  have ho : others [some (exId 1), some (exId 1), some (exId 4)] [exId 1] = [] := by simp [others]
  rw [ho] at h2 h3
  refine ⟨?_, h2⟩
  rw [hn]
  simp at h3
  rw [h3]

/-! ## C109: finding gateways -/

theorem findLoop_eq (location : List Char) (max : Int) : ∀ (rs : List Record) (count : Int), findLoop location max count rs =
    ((rs.filter (fun r => r.regionCode = location)).filterMap (fun r => Ids.fromHex r.nodeID)).take (Nat.max 1 (max - count).toNat) := by
  intro rs
  induction rs with
  | nil => intro count; simp [findLoop]
  | cons r rs ih =>
    intro count
    unfold findLoop
    split
    · rename_i hr
      rw [List.filter_cons_of_pos (by simpa using hr)]
      cases hf : Ids.fromHex r.nodeID with
      | none => simp only [List.filterMap_cons, hf]; exact ih count
      | some id =>
        simp only [List.filterMap_cons, hf]
        split
        · rename_i hc
          have : Nat.max 1 (max - count).toNat = 1 := by show Max.max 1 _ = 1; omega
          rw [this]
          simp
        · rename_i hc
          have : Nat.max 1 (max - count).toNat = Nat.max 1 (max - (count + 1)).toNat + 1 := by
            show Max.max 1 _ = Max.max 1 _ + 1
            omega
          rw [this, List.take_succ_cons, ih]
    · rename_i hr
      rw [List.filter_cons_of_neg (by simpa using hr)]
      exact ih count

/-- **C109**, partial: with a maximum of at least one, `FindGateways` gives the first registered gateways of the region, in the order of the
register, up to the maximum; those whose identifier is not one are left out. -/
theorem C109_partial (E : Env Sig) (rs : List Record) (hrs : E.gateways = some rs) (location : List Char) (max : Nat) (hmax : 1 ≤ max) :
    findGateways E location max = .ok (((rs.filter (fun r => r.regionCode = location)).filterMap (fun r => Ids.fromHex r.nodeID)).take max) := by
  unfold findGateways
  rw [hrs]
  dsimp only
  rw [findLoop_eq]
  have : Nat.max 1 ((max : Int) - 0).toNat = max := by show Max.max 1 _ = _; omega
  rw [this]

/-- **C109** is false for a maximum of zero or less: a gateway is given if there is any. -/
theorem C109_refuted (E : Env Sig) (rs : List Record) (hrs : E.gateways = some rs) (location : List Char) (max : Int) (hmax : max ≤ 0)
    (r : Record) (hr : r ∈ rs) (hl : r.regionCode = location) (id : Id) (hid : Ids.fromHex r.nodeID = some id) :
    ∃ found, findGateways E location max = .ok found ∧ found.length = 1 := by
  unfold findGateways
  rw [hrs]
  dsimp only
  refine ⟨_, rfl, ?_⟩
  rw [findLoop_eq]
  have : Nat.max 1 (max - 0).toNat = 1 := by show Max.max 1 _ = _; omega
  rw [this, List.length_take]
  have hm : id ∈ (rs.filter (fun r => r.regionCode = location)).filterMap (fun r => Ids.fromHex r.nodeID) :=
    List.mem_filterMap.2 ⟨r, List.mem_filter.2 ⟨hr, by simpa using hl⟩, hid⟩
  have := List.length_pos_of_mem hm
  omega

example : findGateways exEnv ['A', 'U'] 2 = .ok [exId 1, exId 3] := by decide +kernel
example : findGateways exEnv ['A', 'U'] (-4) = .ok [exId 1] := by decide +kernel
example : Ids.fromHex exRecord.nodeID = some (exId 1) := Ids.fromHex_toStr (Merkle.exId_proper 1)

end FcRetrieval.Client
