import Verif.Lemmas.GatewayPublish
import Verif.Props.Gateway
/-!
# C52, C73, C77, C98: what a gateway stores of the offers that providers publish
-/
set_option linter.unusedSimpArgs false

namespace FcRetrieval.Gateway
open FcRetrieval.Ids (Id)
open FcRetrieval.Message (Msg)
open FcRetrieval.Merkle (Hash exId exId_proper)
open FcRetrieval.Offer (CidOffer Built)
open FcRetrieval.Crypto (KeyPair)
open FcRetrieval.Wire
open FcRetrieval.Codecs
open FcRetrieval.SqlOffer (DB OfferRow ContentRow offerRow contentRows)

variable {Sig : Type}

theorem verify_signed {E : Env Sig} {k : KeyPair} {o : CidOffer} : Offer.verify E.P k o = .ok () ↔ Signed E k o := by
  rw [offer_verify_ok]
  unfold Signed Offer.toSign
  cases o.providerID with
  | none => simp
  | some p => simp

/-! ## rows, whatever the database does -/

/-- The rows of `db'` are those of `db` and rows of offers for which `P` holds. -/
def Grows (H512 : Hash) (db db' : DB) (P : CidOffer → Prop) : Prop :=
  (∀ r ∈ db'.offers, r ∈ db.offers ∨ ∃ o d p, P o ∧ Offer.digest H512 o = .ok d ∧ o.providerID = some p ∧ r = offerRow (hexEncode d) p o) ∧
  (∀ r ∈ db'.contents, r ∈ db.contents ∨ ∃ o d, P o ∧ Offer.digest H512 o = .ok d ∧ r ∈ contentRows (hexEncode d) o)

theorem Grows.same {H512 : Hash} {db : DB} {P : CidOffer → Prop} : Grows H512 db db P := ⟨fun _ h => .inl h, fun _ h => .inl h⟩

theorem Grows.trans {H512 : Hash} {a b c : DB} {P : CidOffer → Prop} (h1 : Grows H512 a b P) (h2 : Grows H512 b c P) : Grows H512 a c P := by
  refine ⟨fun r h => ?_, fun r h => ?_⟩
  · rcases h2.1 r h with h | h
    · exact h1.1 r h
    · exact .inr h
  · rcases h2.2 r h with h | h
    · exact h1.2 r h
    · exact .inr h

theorem Grows.mono {H512 : Hash} {a b : DB} {P Q : CidOffer → Prop} (h : Grows H512 a b P) (hPQ : ∀ o, P o → Q o) : Grows H512 a b Q := by
  refine ⟨fun r hr => ?_, fun r hr => ?_⟩
  · rcases h.1 r hr with h | ⟨o, d, p, h1, h2⟩
    · exact .inl h
    · exact .inr ⟨o, d, p, hPQ o h1, h2⟩
  · rcases h.2 r hr with h | ⟨o, d, h1, h2⟩
    · exact .inl h
    · exact .inr ⟨o, d, hPQ o h1, h2⟩

theorem insert_grows {H512 : Hash} {fails : Nat → Bool} {db db' : DB} {o : CidOffer} {ok : Bool}
    (h : SqlOffer.insertOffer H512 fails db o = .ok (db', ok)) : Grows H512 db db' (· = o) := by
  obtain ⟨d, p, hd, hp, h1, h2⟩ := insertOffer_rows h
  refine ⟨fun r hr => ?_, fun r hr => ?_⟩
  · rcases h1 r hr with h | h
    · exact .inl h
    · exact .inr ⟨o, d, p, rfl, hd, hp, h⟩
  · rcases h2 r hr with h | h
    · exact .inl h
    · exact .inr ⟨o, d, rfl, hd, h⟩

theorem storeOne_grows {E : Env Sig} {k : KeyPair} {db db' : DB} {o : CidOffer} {ok : Bool} (h : storeOne E k db o = .ok (db', ok)) :
    Signed E k o ∧ Grows E.H512 db db' (· = o) := by
  unfold storeOne at h
  split at h
  · cases h
  · cases h
  · rename_i hv
    exact ⟨verify_signed.1 hv, insert_grows h⟩

theorem storeAll_grows (E : Env Sig) (k : KeyPair) : ∀ (os : List CidOffer) (db : DB),
    Grows E.H512 db (storeAll E k db os).1 (fun o => o ∈ os ∧ Signed E k o)
  | [], db => .same
  | o :: os, db => by
    unfold storeAll
    split
    · exact .same
    · exact .same
    · rename_i h
      obtain ⟨h1, h2⟩ := storeOne_grows h
      exact h2.mono (by rintro _ rfl; exact ⟨by simp, h1⟩)
    · rename_i h
      obtain ⟨h1, h2⟩ := storeOne_grows h
      exact (h2.mono (by rintro _ rfl; exact ⟨by simp, h1⟩)).trans
        ((storeAll_grows E k os _).mono (by rintro x ⟨hx, hs⟩; exact ⟨by simp [hx], hs⟩))

theorem takeOffers_grows (E : Env Sig) (k : KeyPair) : ∀ (os : List CidOffer) (db : DB),
    Grows E.H512 db (takeOffers E k db os).1 (fun o => o ∈ os ∧ Signed E k o)
  | [], db => .same
  | o :: os, db => by
    unfold takeOffers
    split
    · exact .same
    · exact (takeOffers_grows E k os _).mono (by rintro x ⟨hx, hs⟩; exact ⟨by simp [hx], hs⟩)
    · rename_i h
      obtain ⟨h1, h2⟩ := storeOne_grows h
      exact (h2.mono (by rintro _ rfl; exact ⟨by simp, h1⟩)).trans
        ((takeOffers_grows E k os _).mono (by rintro x ⟨hx, hs⟩; exact ⟨by simp [hx], hs⟩))

/-- **C52** for one request of any kind and whatever statements the database refuses: every row that was not there before belongs
to an offer of this request, published by a registered provider and signed under its registered key. -/
theorem C52_rows (E : Env Sig) (c : Core Sig) (k : Kind) (m : Msg) :
    (∀ r ∈ (serve E c k m).1.db.offers, r ∉ c.db.offers →
      ∃ o d p, Vouched E m o ∧ Offer.digest E.H512 o = .ok d ∧ o.providerID = some p ∧ r = offerRow (hexEncode d) p o) ∧
    (∀ r ∈ (serve E c k m).1.db.contents, r ∉ c.db.contents →
      ∃ o d, Vouched E m o ∧ Offer.digest E.H512 o = .ok d ∧ r ∈ contentRows (hexEncode d) o) := by
  suffices h : Grows E.H512 c.db (serve E c k m).1.db (Vouched E m) by
    exact ⟨fun r hr hn => (h.1 r hr).resolve_left hn, fun r hr hn => (h.2 r hr).resolve_left hn⟩
  by_cases h1 : k = .publishDht
  · subst h1
    simp only [serve]
    unfold publishDht
    split
    · exact .same
    · exact .same
    rename_i pid nonce offers hreq
    split
    · exact .same
    · exact .same
    rename_i key hkey
    have hg : Grows E.H512 c.db (storeAll E key c.db offers).1 (Vouched E m) :=
      (storeAll_grows E key offers c.db).mono (by
        rintro o ⟨ho, hs⟩
        exact ⟨pid, key, ⟨nonce, .inl ⟨offers, hreq, ho⟩⟩, senderKey_ok.1 hkey, hs⟩)
    split <;> rename_i hst <;> rw [hst] at hg
    · exact hg
    · exact hg
    · split <;> exact hg
  · by_cases h2 : k = .publishGroup
    · subst h2
      simp only [serve]
      unfold publishGroup
      split
      · rename_i pid nonce o hreq
        split
        · exact .same
        · exact .same
        rename_i key hkey
        split
        · exact .same
        · exact .same
        rename_i hv
        have hvo : Vouched E m o := ⟨pid, key, ⟨nonce, .inr hreq⟩, senderKey_ok.1 hkey, verify_signed.1 hv⟩
        split
        · rename_i hi
          exact (insert_grows hi).mono (by rintro _ rfl; exact hvo)
        · rename_i hi
          have hg : Grows E.H512 c.db _ (Vouched E m) := (insert_grows hi).mono (by rintro _ rfl; exact hvo)
          split <;> exact hg
        · exact .same
      · exact .same
      · exact .same
    · rw [(serve_frame E c k m).2.2.2.2.2.2 h1 h2]
      exact .same

theorem takeMessages_grows (E : Env Sig) (c : Core Sig) (k : KeyPair) : ∀ (ms : List Msg) (db : DB) (acks : List Msg),
    Grows E.H512 db (takeMessages E c k db ms acks).1 (fun o => Signed E k o ∧ ∃ m ∈ ms, ∃ pid, Publishes E m pid o ∧
      Crypto.verifyMessage E.P k m.signature (Message.toSign m) = some true)
  | [], db, acks => .same
  | m :: ms, db, acks => by
    have hmore : ∀ {db db' : DB}, Grows E.H512 db db' (fun o => Signed E k o ∧ ∃ m ∈ ms, ∃ pid, Publishes E m pid o ∧
      Crypto.verifyMessage E.P k m.signature (Message.toSign m) = some true) →
      Grows E.H512 db db' (fun o => Signed E k o ∧ ∃ m' ∈ m :: ms, ∃ pid, Publishes E m' pid o ∧
      Crypto.verifyMessage E.P k m'.signature (Message.toSign m') = some true) :=
      fun h => h.mono (by rintro o ⟨h1, m', h2, h3⟩; exact ⟨h1, m', by simp [h2], h3⟩)
    unfold takeMessages
    split
    · exact hmore (takeMessages_grows E c k ms db acks)
    · rename_i m1 hv
      have hver : Crypto.verifyMessage E.P k m.signature (Message.toSign m) = some true := verify_snd.1 (by rw [hv])
      have hm1 : m1 = m := by
        unfold Message.verify at hv
        rw [hver] at hv
        cases hv
        rfl
      subst hm1
      split
      · exact .same
      · exact hmore (takeMessages_grows E c k ms db acks)
      · rename_i pid nonce offers hreq
        have hg := (takeOffers_grows E k offers db).mono (Q := fun o => Signed E k o ∧ ∃ m' ∈ m1 :: ms, ∃ pid, Publishes E m' pid o ∧
          Crypto.verifyMessage E.P k m'.signature (Message.toSign m') = some true) (by
            rintro o ⟨ho, hs⟩
            exact ⟨hs, m1, by simp, pid, ⟨nonce, .inl ⟨offers, hreq, ho⟩⟩, hver⟩)
        split <;> rename_i hto <;> rw [hto] at hg
        · exact hg
        · split
          · exact hg
          · split
            · exact hg.trans (hmore (takeMessages_grows E c k ms _ _))
            · exact hg
            · exact hg

/-- **C52** for the offers that a gateway asks a provider for: every new row belongs to an offer signed under the registered key
of the provider asked, in a publish request that verifies under the same key. -/
theorem C52_list (E : Env Sig) (c : Core Sig) (pid : Id) (req : Res Msg) :
    ∀ r ∈ (listOffers E c pid req).1.db.offers, r ∉ c.db.offers →
      ∃ o d p rec k m pid', E.provider pid = some rec ∧ Crypto.decodePublicKey rec.signingKey = .ok k ∧ Signed E k o ∧ Publishes E m pid' o ∧
        Crypto.verifyMessage E.P k m.signature (Message.toSign m) = some true ∧
        Offer.digest E.H512 o = .ok d ∧ o.providerID = some p ∧ r = offerRow (hexEncode d) p o := by
  suffices h : Grows E.H512 c.db (listOffers E c pid req).1.db (fun o => ∃ rec k m pid', E.provider pid = some rec ∧
      Crypto.decodePublicKey rec.signingKey = .ok k ∧ Signed E k o ∧ Publishes E m pid' o ∧
        Crypto.verifyMessage E.P k m.signature (Message.toSign m) = some true) by
    intro r hr hn
    obtain ⟨o, d, p, ⟨rec, k, m, pid', h1, h2, h3, h4, h5⟩, h6⟩ := (h.1 r hr).resolve_left hn
    exact ⟨o, d, p, rec, k, m, pid', h1, h2, h3, h4, h5, h6⟩
  unfold listOffers
  split
  · exact .same
  · exact .same
  split
  · exact .same
  split
  · rename_i rec hx hp
    split
    · rename_i k hk
      split
      · split
        · exact .same
        · exact .same
        · rename_i ms hms
          have hg := (takeMessages_grows E c k ms c.db []).mono (Q := fun o => ∃ rec k m pid', E.provider pid = some rec ∧
            Crypto.decodePublicKey rec.signingKey = .ok k ∧ Signed E k o ∧ Publishes E m pid' o ∧
              Crypto.verifyMessage E.P k m.signature (Message.toSign m) = some true) (by
            rintro o ⟨h1, m, -, pid', h2, h3⟩
            exact ⟨rec, k, m, pid', hp, hk, h1, h2, h3⟩)
          split <;> rename_i htm <;> rw [htm] at hg
          · exact hg
          · exact hg
          · split
            · split <;> exact hg
            · exact hg
      · exact .same
    · exact .same
    · exact .same
  · exact .same

/-! ## a database that works -/

theorem insert_works {E : Env Sig} (hw : DbWorks E) {k : KeyPair} {o : CidOffer} (hs : Signed E k o) (hb : o.providerID ≠ none → Built E.H o) (db : DB) :
    ∃ db', SqlOffer.insertOffer E.H512 (E.dbFails o) db o = .ok (db', decide (Storable E k o)) ∧
      (¬ Storable E k o → db' = db) ∧ SqlOffer.insertOffer E.H512 (fun _ => false) db o = .ok (db', decide (Storable E k o)) := by
  have hf : E.dbFails o = fun _ => false := funext (hw o)
  obtain ⟨p, hp, -⟩ := id hs
  have hr := (hb (by rw [hp]; simp)).1
  rw [hf, SqlOffer.insert_eq hr]
  by_cases hst : Storable E k o
  · have : SqlOffer.bindable o = true := by simp [SqlOffer.bindable]; exact hst.2
    rw [if_pos this]
    simp [hst]
  · have : ¬ SqlOffer.bindable o = true := by
      intro h
      simp [SqlOffer.bindable] at h
      exact hst ⟨hs, h⟩
    rw [if_neg this]
    simp [hst]

theorem storeAll_run (E : Env Sig) (hw : DbWorks E) (k : KeyPair) : ∀ (os : List CidOffer), (∀ o ∈ os, o.providerID ≠ none → Built E.H o) → ∀ (db : DB),
    (∃ oks, SqlOffer.run E.H512 db ((os.takeWhile (fun o => decide (Storable E k o))).map (SqlOffer.Kind.dht, ·)) = .ok ((storeAll E k db os).1, oks)) ∧
      ((storeAll E k db os).2 = .ok () ↔ ∀ o ∈ os, Storable E k o)
  | [], _, db => ⟨⟨[], rfl⟩, by simp [storeAll]⟩
  | o :: os, hb, db => by
    have hb1 : o.providerID ≠ none → Built E.H o := hb o (by simp)
    unfold storeAll
    by_cases hs : Signed E k o
    · obtain ⟨db', h1, h2, h3⟩ := insert_works hw hs hb1 db
      have hso : storeOne E k db o = .ok (db', decide (Storable E k o)) := by
        unfold storeOne
        rw [verify_signed.2 hs]
        exact h1
      rw [hso]
      by_cases hst : Storable E k o
      · obtain ⟨⟨oks, g1⟩, g2⟩ := storeAll_run E hw k os (fun x hx => hb x (by simp [hx])) db'
        simp only [hst, decide_true]
        refine ⟨⟨true :: oks, ?_⟩, by rw [g2]; simp [hst]⟩
        rw [List.takeWhile_cons_of_pos (by simpa using hst), List.map_cons]
        have h3' : SqlOffer.addDht E.H512 (fun _ => false) db o = .ok (db', true) := by
          rw [SqlOffer.addDht, h3]; simp [hst]
        simp only [SqlOffer.run, h3', Res.bind_ok, g1, Res.pure_ok]
      · simp only [hst, decide_false]
        refine ⟨⟨[], ?_⟩, by simp [hst]⟩
        rw [List.takeWhile_cons_of_neg (by simpa using hst), h2 hst]
        rfl
    · have hst : ¬ Storable E k o := fun h => hs h.1
      have hne : Offer.verify E.P k o ≠ .ok () := fun h => hs (verify_signed.1 h)
      have hso : storeOne E k db o = .err ∨ storeOne E k db o = .panic := by
        unfold storeOne
        cases hv : Offer.verify E.P k o with
        | ok u => cases u; exact absurd hv hne
        | err => exact .inl rfl
        | panic => exact .inr rfl
      refine ⟨⟨[], ?_⟩, ?_⟩
      · rw [List.takeWhile_cons_of_neg (by simpa using hst)]
        rcases hso with h | h <;> rw [h] <;> rfl
      · rcases hso with h | h <;> rw [h] <;> simp [hst]

/-- What a publish request for the DHT does, with a working database: the offers before the first that is not signed under the
registered key of the publisher (or too large for the database) are added, the others are not.  The gateway acknowledges with a
signature over the request if and only if it took all of them. -/
theorem C52_publishDht_served (E : Env Sig) (hw : DbWorks E) (hpr : ProtocolOk E.pr) (c : Core Sig) (hk : CanSign E c) (m : Msg) (pid : Option Id)
    (nonce : Int) (offers : List CidOffer) (key : KeyPair) (hreq : decode (providerPublishDHTOfferRequest E.H) m = .ok (pid, nonce, offers))
    (ha : Authentic E E.provider pid m key) :
    ∃ db, (∃ oks, SqlOffer.run E.H512 c.db ((offers.takeWhile (fun o => decide (Storable E key o))).map (SqlOffer.Kind.dht, ·)) = .ok (db, oks)) ∧
      (publishDht E c m).1 = { c with db := db } ∧
      (if ∀ o ∈ offers, Storable E key o then
        ∃ m' sig, (publishDht E c m).2 = [.message m'] ∧ decode providerPublishDHTOfferResponse m' = .ok (nonce, sig) ∧
          Crypto.signMessage E.P c.key c.keyVersion (m.body.getD []) = some sig
      else (publishDht E c m).2 = [.invalid] ∨ (publishDht E c m).2 = [.panic]) := by
  obtain ⟨hn, hb⟩ := publishDht_req hreq
  obtain ⟨hrun, hiff⟩ := storeAll_run E hw key offers (fun o ho hp => (hb o ho hp).1) c.db
  refine ⟨_, hrun, ?_⟩
  unfold publishDht
  rw [hreq]
  dsimp only
  rw [senderKey_ok.2 ha]
  dsimp only
  cases hst : storeAll E key c.db offers with
  | mk db res =>
    rw [hst] at hiff
    cases res with
    | panic =>
      rw [if_neg (by rw [← hiff]; simp)]
      exact ⟨rfl, .inr rfl⟩
    | err =>
      rw [if_neg (by rw [← hiff]; simp)]
      exact ⟨rfl, .inl rfl⟩
    | ok u =>
      cases u
      rw [if_pos (hiff.1 rfl)]
      obtain ⟨sig, hsig⟩ := Option.isSome_iff_exists.1 (hk (m.body.getD []))
      rw [hsig]
      obtain ⟨m', h1, h2, h3⟩ := respond_writes (b1 := Out.invalid) (b2 := Out.invalid) hk (C30_providerPublishDHTOfferResponse E.pr hpr nonce sig hn)
      exact ⟨rfl, m', sig, h1, h3, rfl⟩

/-- The same for a group offer; the acknowledgement is the digest of the offer. -/
theorem C52_publishGroup_served (E : Env Sig) (hw : DbWorks E) (hpr : ProtocolOk E.pr) (c : Core Sig) (hk : CanSign E c) (hid : c.id.length = 32) (m : Msg)
    (pid : Option Id) (nonce : Int) (o : CidOffer) (key : KeyPair) (hreq : decode (providerPublishGroupOfferRequest E.H) m = .ok (pid, nonce, some o))
    (ha : Authentic E E.provider pid m key) :
    if Storable E key o then
      ∃ db m' d, SqlOffer.run E.H512 c.db [(.group, o)] = .ok (db, [true]) ∧ (publishGroup E c m).1 = { c with db := db } ∧
        (publishGroup E c m).2 = [.message m'] ∧ decode providerPublishGroupOfferResponse m' = .ok (some c.id, Offer.encodeDigest d) ∧
        Offer.digest E.H512 o = .ok d
    else publishGroup E c m = (c, [.invalid]) ∨ publishGroup E c m = (c, [.panic]) := by
  obtain ⟨hn, o', ho', hb⟩ := publishGroup_req hreq
  cases ho'
  unfold publishGroup
  rw [hreq]
  dsimp only
  rw [senderKey_ok.2 ha]
  dsimp only
  by_cases hs : Signed E key o
  · rw [verify_signed.2 hs]
    dsimp only
    obtain ⟨db', h1, h2, h3⟩ := insert_works hw hs hb c.db
    rw [SqlOffer.addGroup, h1]
    obtain ⟨p, hp, -⟩ := id hs
    obtain ⟨d, hd, -⟩ := OfferMgr.digest_ok E.H512 (hb (by rw [hp]; simp)).1
    by_cases hst : Storable E key o
    · rw [if_pos hst]
      simp only [hst, decide_true] at h3 ⊢
      rw [hd]
      obtain ⟨m', g1, g2, g3⟩ := respond_writes (b1 := Out.invalid) (b2 := Out.invalid) hk
        (C30_providerPublishGroupOfferResponse E.pr hpr (some c.id) (Offer.encodeDigest d) ⟨c.id, rfl, hid⟩)
      refine ⟨db', m', d, ?_, rfl, g1, g3, rfl⟩
      have h3' : SqlOffer.addGroup E.H512 (fun _ => false) c.db o = .ok (db', true) := by rw [SqlOffer.addGroup, h3]
      simp only [SqlOffer.run, h3', Res.bind_ok, Res.pure_ok]
    · rw [if_neg hst]
      simp only [hst, decide_false]
      rw [h2 hst]
      exact .inl rfl
  · rw [if_neg (fun h => hs h.1)]
    cases hv : Offer.verify E.P key o with
    | ok u => cases u; exact absurd (verify_signed.1 hv) hs
    | err => exact .inl rfl
    | panic => exact .inr rfl

/-- An offer signed with `Offer.exKey`. -/
def exSignedOffer : CidOffer := { exSingle with signature := (Crypto.signMessage Crypto.toy Offer.exKey 1
  (utf8Bytes (render (Offer.signJson (exId 9) exSingle.merkleRoot exSingle.price exSingle.expiry exSingle.qos)))).getD [] }

theorem exSignedOffer_signed : Signed exEnv exPub exSignedOffer := by decide +kernel
theorem exSingle_unsigned : ¬ Signed exEnv exPub exSingle := by decide +kernel
theorem built_signature {H : Hash} {o : CidOffer} (h : Built H o) (s : List Char) : Built H { o with signature := s } := h
theorem exSignedOffer_built : Built exEnv.H exSignedOffer := built_signature (exSinglesOk exSingle (by simp)) _

end FcRetrieval.Gateway
