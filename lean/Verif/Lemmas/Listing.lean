import Verif.Props.Provider
import Verif.Props.ProviderKey
import Verif.Props.GatewayStore
/-!
# Lemmas on listing the offers of a provider
-/
set_option linter.unusedSimpArgs false

namespace FcRetrieval.Provider
open FcRetrieval.Ids (Id Proper)
open FcRetrieval.Merkle (Hash)
open FcRetrieval.Crypto (KeyPair KeyVersion)
open FcRetrieval.Message (Msg)
open FcRetrieval.Offer (CidOffer Built)
open FcRetrieval.Wire
open FcRetrieval.Codecs
open FcRetrieval.OfferMgr (Mgr)

theorem recordListed_heap (gid : Id) (req ack : Msg) : ∀ (os : List CidOffer) (c : Core), (recordListed gid req ack c os).1.heap = c.heap
  | [], c => rfl
  | o :: os, c => by
    unfold recordListed
    split
    · rfl
    split
    · rfl
    · rw [recordListed_heap gid req ack os]

theorem takeAcks_heap (E : Env) (k : KeyPair) (gid : Id) : ∀ (l : List (Msg × Msg)) (c : Core), (takeAcks E k gid c l).1.heap = c.heap
  | [], c => rfl
  | (req, ack) :: l, c => by
    unfold takeAcks
    split
    · rfl
    · rfl
    split
    · split
      · rfl
      · rfl
      · rename_i offers _
        have := recordListed_heap gid req ack offers c
        split
        · rename_i h; rw [h] at this; exact this
        · rename_i h; rw [h] at this; rw [takeAcks_heap E k gid l]; exact this
    · rfl

theorem finishListing_heap (E : Env) (k : KeyPair) (gid : Id) (c : Core) (msgs : List Msg) (reply : Option Msg) :
    (finishListing E k gid c msgs reply).1.heap = c.heap := by
  unfold finishListing
  split
  · rfl
  split
  · split
    · rfl
    · split
      · rfl
      · exact takeAcks_heap ..
  · rfl

/-- Every offer that a provider keeps was made by it, with the key it had then. -/
theorem heap_step (E : Env) (c : Core) (k : Kind) (m : Msg) : ∀ o ∈ (serve E c k m).1.heap, o ∈ c.heap ∨ ∃ cids price expiry qos, Made E c cids price expiry qos o := by
  have same : (serve E c k m).1.heap = c.heap → ∀ o ∈ (serve E c k m).1.heap, o ∈ c.heap ∨ ∃ cids price expiry qos, Made E c cids price expiry qos o :=
    fun h o ho => Or.inl (h ▸ ho)
  cases k with
  | initialise => refine same ?_; simp only [serve]; unfold initialise; split <;> rfl
  | initialiseV2 => refine same ?_; simp only [serve]; unfold initialiseV2; split <;> rfl
  | forceRefresh => refine same ?_; simp only [serve]; unfold forceRefresh; split; rfl; split <;> rfl
  | getPublished => refine same ?_; simp only [serve]; unfold getPublished; split; rfl; split <;> rfl
  | offerAck =>
    refine same ?_
    simp only [serve]
    unfold offerAck
    split
    · rfl
    · rfl
    split
    · split <;> rfl
    · rfl
  | notifyGroup =>
    refine same ?_
    simp only [serve]
    unfold notifyGroup
    repeat' split
    all_goals rfl
  | listDht =>
    refine same ?_
    simp only [serve]
    unfold listDht
    split
    · rfl
    · rfl
    split
    · split
      · split
        · rfl
        · dsimp only
          split
          · rfl
          · split
            · exact finishListing_heap ..
            · rfl
      · rfl
    · rfl
    · rfl
  | publishDht =>
    simp only [serve]
    unfold publishDht
    split
    · exact fun o ho => Or.inl ho
    rename_i kp v hkey
    split
    · exact fun o ho => Or.inl ho
    · exact fun o ho => Or.inl ho
    rename_i cids price expiry qos hd
    split
    · exact fun o ho => Or.inl ho
    rename_i hne
    split
    · exact fun o ho => Or.inl ho
    · exact fun o ho => Or.inl ho
    rename_i offers hmk
    split
    · exact fun o ho => Or.inl ho
    rename_i mgr hst
    have hl : cids.length ≠ 0 ∧ cids.length = price.length ∧ cids.length = expiry.length ∧ cids.length = qos.length := by
      refine ⟨fun h => hne (Or.inl h), ?_, ?_, ?_⟩ <;> apply Classical.byContradiction <;> intro h
      · exact hne (Or.inr (Or.inl h))
      · exact hne (Or.inr (Or.inr (Or.inl h)))
      · exact hne (Or.inr (Or.inr (Or.inr h)))
    have hmade := makeOffers_made hkey hl.2.1 hl.2.2.1 hl.2.2.2 hmk
    have holen : offers.length = cids.length := by
      have := congrArg List.length (madeAll_cids hmade)
      simpa using this
    have hon : offers ≠ [] := fun h => hl.1 (by rw [← holen, h]; rfl)
    have hlast : offers.getLastD noOffer ∈ offers := by
      rw [List.getLastD_eq_getLast?, List.getLast?_eq_some_getLast hon]
      exact List.getLast_mem hon
    have hrun := (ranDht_near (E := E) (offers := offers) cids { c with heap := c.heap ++ [offers.getLastD noOffer], offers := mgr } 0).ran.heap
    have main : ∀ o ∈ (nearLoop E offers { c with heap := c.heap ++ [offers.getLastD noOffer], offers := mgr } 0 cids).1.heap,
        o ∈ c.heap ∨ ∃ cids price expiry qos, Made E c cids price expiry qos o := by
      intro o ho
      rw [hrun] at ho
      rcases List.mem_append.1 ho with ho | ho
      · exact Or.inl ho
      · rw [List.mem_singleton.1 ho]
        obtain ⟨cid, -, p, -, e, -, q, -, hm⟩ := madeAll_mem hmade _ hlast
        exact Or.inr ⟨_, _, _, _, hm⟩
    split <;> rename_i h <;> rw [h] at main <;> exact main
  | publishGroup =>
    simp only [serve]
    unfold publishGroup
    split
    · exact fun o ho => Or.inl ho
    rename_i kp v hkey
    split
    · exact fun o ho => Or.inl ho
    · exact fun o ho => Or.inl ho
    rename_i cids price expiry qos hd
    split
    · exact fun o ho => Or.inl ho
    rename_i o0 hnew
    split
    · exact fun o ho => Or.inl ho
    · exact fun o ho => Or.inl ho
    rename_i o hsg
    split
    · exact fun o ho => Or.inl ho
    rename_i mgr ok hst
    have hmade := made_sign hkey hnew hsg
    have hrun := (ranGroup_loop (E := E) (o := o) E.gateways { c with heap := c.heap ++ [o], offers := mgr } 0).ran.heap
    have main : ∀ x ∈ (gatewayLoop (fun c n gid => publishGroupTo E c n o gid) { c with heap := c.heap ++ [o], offers := mgr } 0 E.gateways).1.heap,
        x ∈ c.heap ∨ ∃ cids price expiry qos, Made E c cids price expiry qos x := by
      intro x ho
      rw [hrun] at ho
      rcases List.mem_append.1 ho with ho | ho
      · exact Or.inl ho
      · rw [List.mem_singleton.1 ho]
        exact Or.inr ⟨_, _, _, _, hmade⟩
    split <;> rename_i h <;> rw [h] at main <;> exact main

theorem listMessages_signed {E : Env} {c : Core} {k : KeyPair} {v : KeyVersion} (hk : c.key = some (k, v)) : ∀ {parts : List (List CidOffer)} {msgs : List Msg},
    listMessages E c parts = .ok msgs → ∀ m ∈ msgs, ∃ m0, Message.sign E.P k v m0 = (m, true)
  | [], msgs, h => by cases h; simp
  | p :: parts, msgs, h => by
    unfold listMessages at h
    split at h
    · cases h
    · cases h
    split at h
    · cases h
    · cases h
    rename_i m0 _ m' hs
    simp only [Bind.bind, Except.bind] at h
    split at h
    · cases h
    rename_i ms hms
    cases h
    intro x hx
    rcases List.mem_cons.1 hx with rfl | hx
    · unfold signMsg at hs
      rw [hk] at hs
      dsimp only at hs
      split at hs
      · rename_i hg
        cases hs
        exact ⟨_, hg⟩
      · cases hs
    · exact listMessages_signed hk hms x hx

theorem listMessages_reply (E : Env) (f : Msg → Option Msg) (c : Core) : ∀ parts, listMessages { E with reply := f } c parts = listMessages E c parts
  | [] => rfl
  | p :: parts => by
    unfold listMessages
    rw [listMessages_reply E f c parts]
    rfl

/-- The answer to a request for a list does not depend on what the gateway says to it. -/
theorem serve_reply (E : Env) (f : Msg → Option Msg) (c : Core) (m : Msg) :
    (serve { E with reply := f } c .listDht m).2.head? = (serve E c .listDht m).2.head? := by
  simp only [serve]
  unfold listDht
  have h0 : ∀ gw, senderKey { E with reply := f } gw m = senderKey E gw m := fun _ => rfl
  have h1 : ∀ c' msgs, respond { E with reply := f } c' gatewayListDHTOfferResponse [.invalid] [.invalid] msgs =
    respond E c' gatewayListDHTOfferResponse [.invalid] [.invalid] msgs := fun _ _ => rfl
  simp only [listMessages_reply, h0, h1]
  split
  · rfl
  · rfl
  split
  · split
    · split
      · rfl
      · split
        · rfl
        · split <;> rfl
    · rfl
  · rfl
  · rfl
end FcRetrieval.Provider

namespace FcRetrieval.Gateway
open FcRetrieval.Crypto (KeyPair)
open FcRetrieval.Message (Msg)
open FcRetrieval.Offer (CidOffer Built)
open FcRetrieval.Merkle (Hash)
open FcRetrieval.SqlOffer (DB)
open FcRetrieval.Wire
open FcRetrieval.Codecs

variable {Sig : Type}

theorem takeOffers_run {E : Env Sig} (hw : DbWorks E) {k : KeyPair} : ∀ {os : List CidOffer}, (∀ o ∈ os, Signed E k o ∧ Built E.H o) → ∀ (db : DB),
    ∃ db' oks, takeOffers E k db os = (db', true) ∧ SqlOffer.run E.H512 db (os.map (SqlOffer.Kind.dht, ·)) = .ok (db', oks)
  | [], _, db => ⟨db, [], rfl, rfl⟩
  | o :: os, h, db => by
    obtain ⟨hs, hb⟩ := h o (by simp)
    obtain ⟨db1, h1, -, h3⟩ := insert_works hw hs (fun _ => hb) db
    obtain ⟨db2, oks, h4, h5⟩ := takeOffers_run hw (os := os) (fun x hx => h x (List.mem_cons_of_mem _ hx)) db1
    refine ⟨db2, decide (Storable E k o) :: oks, ?_, ?_⟩
    · unfold takeOffers storeOne
      rw [verify_signed.2 hs]
      dsimp only
      rw [SqlOffer.addDht, h1]
      exact h4
    · simp only [List.map_cons, SqlOffer.run, SqlOffer.addDht, h3, Res.bind_ok, h5, Res.pure_ok]

/-- Messages that are all genuine: every offer is stored and every message acknowledged. -/
theorem takeMessages_run {E : Env Sig} (hw : DbWorks E) (hpr : ProtocolOk E.pr) {c : Core Sig} (hk : CanSign E c) {k : KeyPair} {pid : Option Ids.Id} :
    ∀ {ms : List Msg} {parts : List (List CidOffer)}, ms.map (decode (providerPublishDHTOfferRequest E.H)) = parts.map (fun p => .ok (pid, 1, p)) →
      (∀ m ∈ ms, Crypto.verifyMessage E.P k m.signature (Message.toSign m) = some true) → (∀ p ∈ parts, ∀ o ∈ p, Signed E k o ∧ Built E.H o) →
      ∀ (db : DB) (acks : List Msg), ∃ db' oks new, takeMessages E c k db ms acks = (db', .ok (acks ++ new)) ∧
        SqlOffer.run E.H512 db (parts.flatten.map (SqlOffer.Kind.dht, ·)) = .ok (db', oks) ∧ new.length = ms.length ∧ (∀ a ∈ new, Message.InRange a) ∧
        ∀ p ∈ ms.zip new, ∃ sig, decode providerPublishDHTOfferResponse p.2 = .ok (1, sig) ∧ Crypto.signMessage E.P c.key c.keyVersion (p.1.body.getD []) = some sig
  | [], [], _, _, _, db, acks => ⟨db, [], [], by simp [takeMessages], rfl, rfl, by simp, by simp⟩
  | [], _ :: _, h, _, _, _, _ => by simp at h
  | _ :: _, [], h, _, _, _, _ => by simp at h
  | m :: ms, p :: parts, h, hv, ho, db, acks => by
    simp only [List.map_cons, List.cons.injEq] at h
    obtain ⟨db1, oks1, h1, h2⟩ := takeOffers_run hw (ho p (by simp)) db
    obtain ⟨sig, hsig⟩ := Option.isSome_iff_exists.1 (hk (m.body.getD []))
    obtain ⟨a, he, ht, hver, hsup, hd⟩ := C30_providerPublishDHTOfferResponse E.pr hpr 1 sig ⟨by decide, by decide⟩
    have ha0 : { a with signature := [] } = a := by
      have := encode_unsigned he
      cases a
      dsimp only at this
      rw [this]
    have had : decode providerPublishDHTOfferResponse a = .ok (1, sig) := by rw [← ha0]; exact (hd []).2
    have hain : Message.InRange a := by
      refine ⟨by rw [ht]; exact ⟨by decide, by decide⟩, by rw [hver]; exact hpr.1, ?_⟩
      intro l hl
      rw [hsup] at hl
      exact hpr.2 l hl
    obtain ⟨db2, oks2, new, g1, g2, g3, g4, g5⟩ := takeMessages_run hw hpr hk h.2 (fun x hx => hv x (by simp [hx])) (fun q hq => ho q (by simp [hq])) db1 (acks ++ [a])
    refine ⟨db2, oks1 ++ oks2, a :: new, ?_, ?_, by simp [g3], ?_, ?_⟩
    · unfold takeMessages
      have : Message.verify E.P k m = (m, true) := by unfold Message.verify; rw [hv m (by simp)]
      rw [this]
      dsimp only
      rw [h.1]
      dsimp only
      rw [h1]
      dsimp only
      rw [hsig]
      dsimp only
      rw [he]
      dsimp only
      rw [g1, List.append_assoc]
      rfl
    · rw [List.flatten_cons, List.map_append]
      exact run_append _ _ _ _ _ _ _ h2 g2
    · intro x hx
      rcases List.mem_cons.1 hx with rfl | hx
      · exact hain
      · exact g4 x hx
    · intro q hq
      rw [List.zip_cons_cons] at hq
      rcases List.mem_cons.1 hq with rfl | hq
      · exact ⟨sig, had, hsig⟩
      · exact g5 q hq

end FcRetrieval.Gateway
