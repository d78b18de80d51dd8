import Verif.Props.Gateway
/-!
# C99: what a gateway relays from other gateways
-/
set_option linter.unusedSimpArgs false

namespace FcRetrieval.Gateway
open FcRetrieval.Ids (Id)
open FcRetrieval.Merkle (Hash exId exId_proper)
open FcRetrieval.Message (Msg Protocol)
open FcRetrieval.Wire
open FcRetrieval.Codecs
open FcRetrieval.Register (Record)
open FcRetrieval.Payment (RecvOut)

variable {Sig : Type}

/-- One exchange: either the answer is relayed, or there is none. -/
theorem request_ok {E : Env Sig} {c : Core Sig} {id : Id} {q : Res Msg} {out : List (Out Sig)} {r : Msg}
    (h : request E c id q = (out, .ok r)) : Relayed E out id r := by
  unfold request at h
  split at h
  · rename_i m
    split at h
    · rename_i m' hs
      obtain ⟨h1, h2⟩ := Prod.mk.inj h
      split at h2
      · rename_i r' g hx hg
        obtain ⟨k, hk, h3⟩ := res_ok_of_bind h2
        split at h3
        · rename_i hv
          cases h3
          subst h1
          exact ⟨m', g, k, by simp, hx, hg, hk, verify_snd.1 hv⟩
        · cases h3
      · cases h2
    · cases h
  · cases h
  · cases h

theorem Relayed.mono {E : Env Sig} {o o' : List (Out Sig)} {id : Id} {r : Msg} (h : Relayed E o id r) (hs : ∀ x ∈ o, x ∈ o') :
    Relayed E o' id r := by
  obtain ⟨req, g, k, h1, h2⟩ := h
  exact ⟨req, g, k, hs _ h1, h2⟩

theorem collected_nil (E : Env Sig) (o : List (Out Sig)) : Collected E o [] [] [] [] :=
  ⟨by simp, rfl, by simp⟩

/-- One more gateway. -/
theorem collected_cons {E : Env Sig} {c : Core Sig} {id : Id} {q : Res Msg} {out outs rest : List (Out Sig)} {resp : Res Msg} {k k' : Contacts}
    {ids : List Id} (h : request E c id q = (out, resp)) (hsub : ∀ x ∈ out, x ∈ outs) (hrest : ∀ x ∈ rest, x ∈ outs)
    (ih : ∃ con rs mis, k' = ⟨(k.add id resp).contacted ++ con, (k.add id resp).responses ++ rs, (k.add id resp).missed ++ mis⟩ ∧
      Collected E rest ids con rs mis) :
    ∃ con rs mis, k' = ⟨k.contacted ++ con, k.responses ++ rs, k.missed ++ mis⟩ ∧ Collected E outs (id :: ids) con rs mis := by
  obtain ⟨con, rs, mis, rfl, h1, h2, h3⟩ := ih
  have hmiss : ∀ x : Res Msg, (∀ r, x ≠ .ok r) → k.add id x = { k with missed := k.missed ++ [id] } := by
    intro x hx
    cases x with
    | ok r => exact absurd rfl (hx r)
    | err => rfl
    | panic => rfl
  by_cases hr : ∃ r, resp = .ok r
  · obtain ⟨r, rfl⟩ := hr
    refine ⟨id :: con, r :: rs, mis, by simp [Contacts.add], by simpa using h1, by simp [h2], ?_⟩
    intro p hp
    simp only [List.zip_cons_cons, List.mem_cons] at hp
    rcases hp with rfl | hp
    · exact (request_ok h).mono hsub
    · exact (h3 p hp).mono hrest
  · rw [hmiss resp (fun r hr' => hr ⟨r, hr'⟩)]
    refine ⟨con, rs, id :: mis, by simp, ?_, h2, fun p hp => (h3 p hp).mono hrest⟩
    exact List.perm_middle.trans (h1.cons id)

theorem dhtLoop_collected (E : Env Sig) (c : Core Sig) (cid : Id) : ∀ (ids : List Id) (k k' : Contacts) (outs : List (Out Sig)),
    dhtLoop E c cid ids k = (outs, some k') →
    ∃ con rs mis, k' = ⟨k.contacted ++ con, k.responses ++ rs, k.missed ++ mis⟩ ∧ Collected E outs ids con rs mis
  | [], k, k', outs, h => by
    cases h
    exact ⟨[], [], [], by simp, collected_nil _ _⟩
  | id :: ids, k, k', outs, h => by
    unfold dhtLoop at h
    split at h
    · cases h
    · rename_i out r _ hreq
      obtain ⟨h1, h2⟩ := Prod.mk.inj h
      subst h1
      exact collected_cons hreq (by simp +contextual) (by simp +contextual)
        (dhtLoop_collected E c cid ids _ _ _ (Prod.ext rfl h2))

theorem dhtV2Loop_collected (E : Env Sig) (cid : Id) : ∀ (rs : List Record) (c c' : Core Sig) (k k' : Contacts) (outs : List (Out Sig)),
    dhtV2Loop E cid c rs k = (c', outs, some k') →
    ∃ ids con rs' mis, nodeIds rs = some ids ∧ k' = ⟨k.contacted ++ con, k.responses ++ rs', k.missed ++ mis⟩ ∧ Collected E outs ids con rs' mis
  | [], c, c', k, k', outs, h => by
    cases h
    exact ⟨[], [], [], [], rfl, by simp, collected_nil _ _⟩
  | r :: rs, c, c', k, k', outs, h => by
    unfold dhtV2Loop at h
    split at h
    · cases h
    rename_i id hid
    split at h
    · cases h
    split at h
    · cases h
    · rename_i out resp _ hreq
      simp only [Prod.mk.injEq] at h
      obtain ⟨h0, h1, h2⟩ := h
      obtain ⟨ids, con, rs', mis, hn, hk, hc⟩ := dhtV2Loop_collected E cid rs _ _ _ _ _ (Prod.ext h0 (Prod.ext rfl h2))
      obtain ⟨con, rs', mis, hk, hc⟩ := collected_cons (outs := outs) hreq (fun x hx => by rw [← h1]; simp [hx])
        (fun x hx => by rw [← h1]; simp [hx]) ⟨con, rs', mis, hk, hc⟩
      refine ⟨id :: ids, con, rs', mis, ?_, hk, hc⟩
      simp [nodeIds, hid, hn]

theorem dhtOfferLoop_collected (E : Env Sig) (cid : Option Id) (nonce : Int) : ∀ (ids : List Id) (dss : List (List (List Char))) (c c' : Core Sig)
    (k k' : Contacts) (outs : List (Out Sig)), dhtOfferLoop E cid nonce c ids dss k = (c', outs, some k') →
    ∃ con rs' mis, k' = ⟨k.contacted ++ con, k.responses ++ rs', k.missed ++ mis⟩ ∧ Collected E outs ids con rs' mis
  | [], _, c, c', k, k', outs, h => by
    simp only [dhtOfferLoop, Prod.mk.injEq, Option.some.injEq] at h
    obtain ⟨-, -, rfl⟩ := h
    exact ⟨[], [], [], by simp, collected_nil _ _⟩
  | _ :: _, [], c, c', k, k', outs, h => by
    simp [dhtOfferLoop] at h
  | id :: ids, ds :: dss, c, c', k, k', outs, h => by
    unfold dhtOfferLoop at h
    split at h
    · cases h
    split at h
    · cases h
    dsimp only at h
    split at h
    · cases h
    · rename_i out resp _ hreq
      simp only [Prod.mk.injEq] at h
      obtain ⟨h0, h1, h2⟩ := h
      subst h1
      exact collected_cons hreq (by simp +contextual) (by simp +contextual)
        (dhtOfferLoop_collected E cid nonce ids dss _ _ _ _ _ (Prod.ext h0 (Prod.ext rfl h2)))

theorem nodeIds_ok : ∀ {rs : List Record} {ids : List Id}, nodeIds rs = some ids → IdsOk ids
  | [], ids, h => by cases h; simp [IdsOk]
  | r :: rs, ids, h => by
    unfold nodeIds at h
    split at h
    · rename_i id ids' h1 h2
      cases h
      intro p hp
      rcases List.mem_cons.1 hp with rfl | hp
      · exact fromHex_len h1
      · exact nodeIds_ok h2 p hp
    · cases h

/-- What is collected can be sent. -/
theorem collected_sendable {E : Env Sig} {outs : List (Out Sig)} {ids con mis : List Id} {rs : List Msg} (hids : IdsOk ids)
    (hx : ∀ id m r, E.exchange id m = some r → Message.InRange r) (h : Collected E outs ids con rs mis) :
    IdsOk con ∧ IdsOk mis ∧ ∀ r ∈ rs, Message.InRange r := by
  obtain ⟨h1, h2, h3⟩ := h
  refine ⟨fun p hp => hids p (h1.mem_iff.1 (by simp [hp])), fun p hp => hids p (h1.mem_iff.1 (by simp [hp])), ?_⟩
  intro r hr
  obtain ⟨i, hi, rfl⟩ := List.getElem_of_mem hr
  have hz : (con[i]'(by omega), rs[i]) ∈ con.zip rs := by
    have : (con.zip rs)[i]'(by simp; omega) = (con[i]'(by omega), rs[i]) := by simp
    rw [← this]
    exact List.getElem_mem _
  obtain ⟨req, g, k, -, h4, -⟩ := h3 _ hz
  exact hx _ _ _ h4

/-- Asking writes nothing to the requester and pays nothing. -/
theorem request_outs {E : Env Sig} {c : Core Sig} {id : Id} {q r : Res Msg} {out : List (Out Sig)} (h : request E c id q = (out, r)) :
    ∀ x ∈ out, ∃ m, x = .asked id m := by
  unfold request at h
  split at h
  · split at h <;> cases h <;> simp
  · cases h; simp
  · cases h; simp

theorem no_message {E : Env Sig} {c : Core Sig} {id : Id} {q r : Res Msg} {out : List (Out Sig)} (h : request E c id q = (out, r)) (m : Msg) :
    Out.message m ∉ out := by
  intro hm
  obtain ⟨m', hm'⟩ := request_outs h _ hm
  cases hm'

theorem no_message_dhtLoop (E : Env Sig) (c : Core Sig) (cid : Id) (m : Msg) : ∀ (ids : List Id) (k : Contacts),
    Out.message m ∉ (dhtLoop E c cid ids k).1
  | [], k => by simp [dhtLoop]
  | id :: ids, k => by
    unfold dhtLoop
    split
    · rename_i h; simpa using no_message h m
    · rename_i h
      simp only [List.mem_append, not_or]
      exact ⟨no_message h m, no_message_dhtLoop E c cid m ids _⟩

theorem no_message_dhtV2Loop (E : Env Sig) (cid : Id) (m : Msg) : ∀ (rs : List Record) (c : Core Sig) (k : Contacts),
    Out.message m ∉ (dhtV2Loop E cid c rs k).2.1
  | [], c, k => by simp [dhtV2Loop]
  | r :: rs, c, k => by
    unfold dhtV2Loop
    split
    · simp
    · split
      · simp
      · split
        · rename_i h; simpa using no_message h m
        · rename_i h
          simp only [List.cons_append, List.mem_cons, List.mem_append, not_or]
          exact ⟨by simp, no_message h m, no_message_dhtV2Loop E cid m rs _ _⟩

theorem no_message_dhtOfferLoop (E : Env Sig) (cid : Option Id) (nonce : Int) (m : Msg) : ∀ (ids : List Id) (dss : List (List (List Char))) (c : Core Sig)
    (k : Contacts), Out.message m ∉ (dhtOfferLoop E cid nonce c ids dss k).2.1
  | [], _, c, k => by simp [dhtOfferLoop]
  | _ :: _, [], c, k => by simp [dhtOfferLoop]
  | id :: ids, ds :: dss, c, k => by
    unfold dhtOfferLoop
    split
    · simp
    · split
      · simp
      · dsimp only
        split
        · rename_i h; simpa using no_message h m
        · rename_i h
          simp only [List.mem_append, not_or]
          exact ⟨⟨by simp, no_message h m⟩, no_message_dhtOfferLoop E cid nonce m ids dss _ _⟩

theorem nodeIds_map : ∀ {rs : List Record} {ids : List Id}, nodeIds rs = some ids → rs.map (fun r => Ids.fromHex r.nodeID) = ids.map some
  | [], ids, h => by cases h; rfl
  | r :: rs, ids, h => by
    unfold nodeIds at h
    split at h
    · rename_i id ids' h1 h2
      cases h
      simp [h1, nodeIds_map h2]
    · cases h

/-- The answer to the first version of the DHT discovery: every gateway near the content is either contacted or missed, and for
every contacted one the answer that it gave to this gateway, verified under its registered key, is passed on in its place. -/
theorem C99_dht (E : Env Sig) (hpr : ProtocolOk E.pr) (hx : ∀ id m r, E.exchange id m = some r → Message.InRange r) (c : Core Sig) (m m' : Msg)
    (hw : Out.message m' ∈ (dht E c m).2) :
    ∃ id nonce ttl num inc ch v rs ids con resp mis,
      decode clientDHTDiscoverRequest m = .ok (some id, nonce, ttl, num, inc, ch, v) ∧ E.now ≤ ttl ∧
      E.near id num = some rs ∧ rs.map (fun r => Ids.fromHex r.nodeID) = ids.map some ∧
      decode clientDHTDiscoverResponse m' = .ok (con, resp, mis, nonce, false, []) ∧ Collected E (dht E c m).2 ids con resp mis := by
  unfold dht at hw ⊢
  split at hw
  · simp at hw
  · simp at hw
  rename_i cid nonce ttl num inc ch v hreq
  split at hw
  · simp at hw
  rename_i httl
  split at hw
  · simp at hw
  rename_i id
  split at hw
  · simp at hw
  rename_i rs hrs
  split at hw
  · simp at hw
  rename_i ids hids
  split at hw
  · rename_i out hl
    have := no_message_dhtLoop E c id m' ids ⟨[], [], []⟩
    rw [hl] at this
    exact absurd hw this
  rename_i out k hl
  have hno := no_message_dhtLoop E c id m' ids ⟨[], [], []⟩
  rw [hl] at hno
  obtain ⟨con, resp, mis, hk, hcol⟩ := dhtLoop_collected E c id ids _ _ _ hl
  simp only [List.nil_append] at hk
  subst hk
  obtain ⟨h1, h2, h3⟩ := collected_sendable (nodeIds_ok hids) hx hcol
  obtain ⟨-, hn⟩ := dht_req hreq
  simp only [List.mem_append] at hw
  have hw' := hw.resolve_left hno
  obtain ⟨-, hdec⟩ := respond_decode (by simp) (by simp)
    (C30_clientDHTDiscoverResponse E.pr hpr con resp mis nonce false [] h1 h3 h2 hn) hw'
  refine ⟨id, nonce, ttl, num, inc, ch, v, rs, ids, con, resp, mis, hreq, by omega, hrs, nodeIds_map hids, hdec, hcol.1, hcol.2.1, ?_⟩
  intro p hp
  refine (hcol.2.2 p hp).mono (fun x hx => ?_)
  rw [if_neg httl]
  simp [hx]

/-- The same for the second version. -/
theorem C99_dhtV2 (E : Env Sig) (hpr : ProtocolOk E.pr) (hx : ∀ id m r, E.exchange id m = some r → Message.InRange r) (c : Core Sig) (m m' : Msg)
    (hw : Out.message m' ∈ (dhtV2 E c m).2) :
    ∃ id nonce ttl num inc ch v rs ids con resp mis,
      decode clientDHTDiscoverRequestV2 m = .ok (some id, nonce, ttl, num, inc, ch, v) ∧ E.now ≤ ttl ∧
      E.near id num = some rs ∧ rs.map (fun r => Ids.fromHex r.nodeID) = ids.map some ∧
      decode clientDHTDiscoverResponseV2 m' = .ok (con, resp, mis, nonce, false, []) ∧ Collected E (dhtV2 E c m).2 ids con resp mis := by
  unfold dhtV2 at hw ⊢
  split at hw
  · simp at hw
  · simp at hw
  rename_i cid nonce ttl num inc ch v hreq
  split at hw
  · simp at hw
  rename_i httl
  split at hw
  · simp at hw
  rename_i id
  split at hw
  · simp at hw
  rename_i rs hrs
  split at hw
  · simp at hw
  · simp at hw
  rename_i c1 amount hrec
  dsimp only at hw ⊢
  have hno := no_message_dhtV2Loop E id m' rs c1 ⟨[], [], []⟩
  split at hw
  · rename_i c2 out hl
    rw [hl] at hno
    simp only [List.mem_append] at hw
    rcases hw with hw | hw
    · split at hw <;> simp at hw
    · exact absurd hw hno
  rename_i c2 out k hl
  rw [hl] at hno
  obtain ⟨ids, con, resp, mis, hids, hk, hcol⟩ := dhtV2Loop_collected E id rs _ _ _ _ _ hl
  simp only [List.nil_append] at hk
  subst hk
  obtain ⟨h1, h2, h3⟩ := collected_sendable (nodeIds_ok hids) hx hcol
  obtain ⟨-, hn⟩ := dhtV2_req hreq
  simp only [List.mem_append] at hw
  have hw' : Out.message m' ∈ respond E c2 clientDHTDiscoverResponseV2 (Out.status 500) (Out.status 500) (con, resp, mis, nonce, false, []) := by
    rcases hw with (hw | hw) | hw
    · split at hw <;> simp at hw
    · exact absurd hw hno
    · exact hw
  obtain ⟨-, hdec⟩ := respond_decode (by simp) (by simp)
    (C30_clientDHTDiscoverResponseV2 E.pr hpr con resp mis nonce false [] h1 h3 h2 hn) hw'
  refine ⟨id, nonce, ttl, num, inc, ch, v, rs, ids, con, resp, mis, hreq, by omega, hrs, nodeIds_map hids, hdec, hcol.1, hcol.2.1, ?_⟩
  intro p hp
  refine (hcol.2.2 p hp).mono (fun x hx => ?_)
  rw [if_neg httl]
  simp [hx]

theorem mapFromString_ok {ss : List (List Char)} {l : List Id} (h : Ids.mapFromString ss = some l) : IdsOk l := by
  intro p hp
  have h1 := (Ids.mapFromString_some ss l).1 h
  have h2 : some p ∈ ss.map Ids.fromHex := by
    rw [h1]
    exact List.mem_map.2 ⟨p, hp, rfl⟩
  obtain ⟨s, -, hs⟩ := List.mem_map.1 h2
  exact fromHex_len hs

theorem ids_ok {ss : List (List Char)} {l : List Id} (h : Wire.ids ss = .ok l) : IdsOk l := by
  unfold Wire.ids at h
  split at h
  · cases h
  · rename_i l' hl
    cases h
    exact mapFromString_ok hl

theorem dhtOffer_req {m : Msg} {cid : Option Id} {nonce : Int} {dss : List (List (List Char))} {is : List Id} {ch v : List Char}
    (h : decode clientDHTDiscoverOfferRequest m = .ok (cid, nonce, dss, is, ch, v)) :
    (∀ id, cid = some id → id.length = 32) ∧ inI64 nonce ∧ IdsOk is := by
  obtain ⟨-, fs, ⟨w1, w2, w3, w4, w5, w6, ⟨⟩⟩, h1, h2⟩ := decode_inv h
  obtain ⟨l, h3, h4⟩ := res_ok_of_bind h2
  cases h4
  exact ⟨fun id hid => fromHex_len hid, i64_range (decFields_cons (decFields_cons h1).2).1, ids_ok h3⟩

/-- The same for the offers, where the client names the gateways; the missed ones are not told. -/
theorem C99_dhtOffer (E : Env Sig) (hpr : ProtocolOk E.pr) (hx : ∀ id m r, E.exchange id m = some r → Message.InRange r) (c : Core Sig) (m m' : Msg)
    (hw : Out.message m' ∈ (dhtOffer E c m).2) :
    ∃ id nonce dss ids ch v con resp mis,
      decode clientDHTDiscoverOfferRequest m = .ok (some id, nonce, dss, ids, ch, v) ∧
      decode clientDHTDiscoverOfferResponse m' = .ok (some id, nonce, con, resp, false, []) ∧ Collected E (dhtOffer E c m).2 ids con resp mis := by
  unfold dhtOffer at hw ⊢
  split at hw
  · simp at hw
  · simp at hw
  rename_i cid nonce dss ids ch v hreq
  split at hw
  · simp at hw
  · simp at hw
  rename_i c1 amount hrec
  dsimp only at hw ⊢
  have hno := no_message_dhtOfferLoop E cid nonce m' ids dss c1 ⟨[], [], []⟩
  split at hw
  · rename_i c2 out hl
    rw [hl] at hno
    simp only [List.mem_append] at hw
    rcases hw with hw | hw
    · split at hw <;> simp at hw
    · exact absurd hw hno
  rename_i c2 out k hl
  rw [hl] at hno
  obtain ⟨con, resp, mis, hk, hcol⟩ := dhtOfferLoop_collected E cid nonce ids dss _ _ _ _ _ hl
  simp only [List.nil_append] at hk
  subst hk
  obtain ⟨hid, hn, hids⟩ := dhtOffer_req hreq
  obtain ⟨h1, h2, h3⟩ := collected_sendable hids hx hcol
  simp only [List.mem_append] at hw
  have hw' : Out.message m' ∈ respond E c2 clientDHTDiscoverOfferResponse (Out.status 500) (Out.status 500) (cid, nonce, con, resp, false, []) := by
    rcases hw with (hw | hw) | hw
    · split at hw <;> simp at hw
    · exact absurd hw hno
    · exact hw
  cases cid with
  | none =>
    have he : encode clientDHTDiscoverOfferResponse E.pr (none, nonce, con, resp, false, []) = .panic := rfl
    simp [respond, he] at hw'
  | some id =>
    obtain ⟨-, hdec⟩ := respond_decode (by simp) (by simp)
      (C30_clientDHTDiscoverOfferResponse E.pr hpr (some id) nonce con resp false [] ⟨id, rfl, hid id rfl⟩ hn h1 h3) hw'
    refine ⟨id, nonce, dss, ids, ch, v, con, resp, mis, hreq, hdec, hcol.1, hcol.2.1, ?_⟩
    intro p hp
    exact (hcol.2.2 p hp).mono (fun x hx => by simp [hx])

/-- Against C99: an answer is only required to be signed by the gateway asked.  Whatever message that gateway ever signed, on
whatever subject and however old, is relayed as its answer to this search. -/
theorem C99_replay_refuted (E : Env Sig) (hpr : ProtocolOk E.pr) (c : Core Sig) (hk : CanSign E c) (hid : c.id.length = 32) (m : Msg) (id gid : Id)
    (nonce ttl num : Int) (inc : Bool) (ch v : List Char)
    (hreq : decode clientDHTDiscoverRequest m = .ok (some id, nonce, ttl, num, inc, ch, v)) (httl : E.now ≤ ttl)
    (g : Record) (hnear : E.near id num = some [g]) (hgid : Ids.fromHex g.nodeID = some gid) (hg : E.gateway gid = some g)
    (k : Crypto.KeyPair) (hkey : Crypto.decodePublicKey g.signingKey = .ok k) (old : Msg) (hr : Message.InRange old)
    (hold : Crypto.verifyMessage E.P k old.signature (Message.toSign old) = some true) (hx : ∀ q, E.exchange gid q = some old)
    (hnow : inI64 (E.now + 10)) :
    ∃ m', Out.message m' ∈ (dht E c m).2 ∧ decode clientDHTDiscoverResponse m' = .ok ([gid], [old], [], nonce, false, []) := by
  obtain ⟨hid', hn⟩ := dht_req hreq
  obtain ⟨q, hq, -⟩ := C30_gatewayDHTDiscoverRequest E.pr hpr (some c.id) (some id) 1 (E.now + 10) [] [] ⟨c.id, rfl, hid⟩ ⟨id, rfl, hid' id rfl⟩
    ⟨by decide, by decide⟩ hnow
  obtain ⟨sig, hs⟩ := Option.isSome_iff_exists.1 (hk (Message.toSign q))
  have hrq : request E c gid (.ok q) = ([.asked gid { q with signature := sig }], .ok old) := by
    unfold request
    simp only [Message.sign, hs, hx, hg, signingKey, hkey, Res.bind_ok, verify_snd.2 hold, if_true]
  have hloop : dhtLoop E c id [gid] ⟨[], [], []⟩ = ([.asked gid { q with signature := sig }], some ⟨[gid], [old], []⟩) := by
    unfold dhtLoop
    rw [hq, hrq]
    rfl
  obtain ⟨m', hm, -, hdec⟩ := respond_writes (b1 := Out.status 500) (b2 := Out.status 500) hk
    (C30_clientDHTDiscoverResponse E.pr hpr [gid] [old] [] nonce false [] (by simpa [IdsOk] using fromHex_len hgid)
      (by simpa using hr) (by simp [IdsOk]) hn)
  refine ⟨m', ?_, hdec⟩
  unfold dht
  rw [hreq]
  dsimp only
  rw [if_neg (by omega)]
  simp only [hnear, nodeIds, hgid, hloop, hm]
  simp

/-- A message that the example gateway signed. -/
theorem exOld : ∃ old, Message.InRange old ∧ old.type = 102 ∧ Crypto.verifyMessage Crypto.toy exPub old.signature (Message.toSign old) = some true := by
  obtain ⟨sig, hs⟩ := Option.isSome_iff_exists.1 (exCore_signs (Message.toSign Message.exMsg))
  have hsign : Message.sign Crypto.toy Offer.exKey 1 Message.exMsg = ({ Message.exMsg with signature := sig }, true) := by
    unfold Message.sign
    have hs' : Crypto.signMessage Crypto.toy Offer.exKey 1 (Message.toSign Message.exMsg) = some sig := hs
    rw [hs']
  exact ⟨{ Message.exMsg with signature := sig }, Message.exMsg_inRange, rfl,
    verify_snd.1 (Message.C27_signed_verifies Crypto.toy Crypto.toy_correct Offer.exKey exPub 1 Offer.exKey_private
    ⟨rfl, by decide +kernel⟩ _ _ hsign).1⟩

/-- The hypotheses can be met: a search that relays, as the answer of a gateway, a request that it signed once. -/
example : ∃ (E : Env Unit) (m m' old : Msg), Out.message m' ∈ (dht E exCore m).2 ∧
    decode clientDHTDiscoverResponse m' = .ok ([exId 3], [old], [], 7, false, []) ∧ old.type = 102 := by
  obtain ⟨old, h1, h2, h3⟩ := exOld
  obtain ⟨m, hd⟩ := exDecodes (C30_clientDHTDiscoverRequest exEnv.pr defaultProtocolOk (some (exId 2)) 7 2000 1 false [] []
    (exIdOk 2) ⟨by decide, by decide⟩ ⟨by decide, by decide⟩ ⟨by decide, by decide⟩)
  have hid : Ids.fromHex exRecord.nodeID = some (exId 3) := Ids.fromHex_toStr (exId_proper 3)
  obtain ⟨m', h4, h5⟩ := C99_replay_refuted { exEnv with exchange := fun _ _ => some old } defaultProtocolOk exCore exCore_signs
    (exId_proper 1) m (exId 2) (exId 3) 7 2000 1 false [] [] hd (show (1000 : Int) ≤ 2000 by decide) exRecord rfl hid (by simp [exEnv]) exPub exRecord_key old h1 h3
    (fun _ => rfl) (show inI64 1010 from ⟨by decide, by decide⟩)
  exact ⟨_, m, m', old, h4, h5, h2⟩

end FcRetrieval.Gateway
