import Verif.Spec.GatewayStore
import Verif.Props.GatewayPublish
/-!
# C52, C73, C77, C98 in the life of a gateway
-/
set_option linter.unusedSimpArgs false
set_option linter.constructorNameAsVariable false

namespace FcRetrieval.Gateway
open FcRetrieval.Ids (Id)
open FcRetrieval.Message (Msg)
open FcRetrieval.Merkle (Hash exId exId_proper)
open FcRetrieval.Offer (CidOffer Built terms)
open FcRetrieval.Crypto (KeyPair)
open FcRetrieval.Wire
open FcRetrieval.Codecs
open FcRetrieval.SqlOffer (DB OfferRow ContentRow offerRow contentRows)

variable {Sig : Type}

theorem vouched_built {E : Env Sig} {m : Msg} {o : CidOffer} (h : Vouched E m o) : Built E.H o := by
  obtain ⟨pid, k, ⟨nonce, hp⟩, -, hs⟩ := h
  obtain ⟨p, hpid, -⟩ := hs
  rcases hp with ⟨offers, hd, ho⟩ | hd
  · exact ((publishDht_req hd).2 o ho (by rw [hpid]; simp)).1
  · obtain ⟨-, o', ho', hb⟩ := publishGroup_req hd
    cases ho'
    exact hb (by rw [hpid]; simp)

theorem takeWhile_holds {α : Type} {p : α → Bool} : ∀ {l : List α} {a : α}, a ∈ l.takeWhile p → p a = true
  | [], a, h => by cases h
  | b :: l, a, h => by
    by_cases hb : p b = true
    · rw [List.takeWhile_cons_of_pos hb] at h
      rcases List.mem_cons.1 h with rfl | h
      · exact hb
      · exact takeWhile_holds h
    · rw [List.takeWhile_cons_of_neg hb] at h
      cases h

theorem takeWhile_all {α : Type} {p : α → Bool} : ∀ {l : List α}, (∀ a ∈ l, p a = true) → l.takeWhile p = l
  | [], _ => rfl
  | a :: l, h => by
    rw [List.takeWhile_cons_of_pos (h a (by simp)), takeWhile_all (fun x hx => h x (by simp [hx]))]

theorem run_append {H512 : Hash} : ∀ (l1 l2 : List (SqlOffer.Kind × CidOffer)) (db db1 db2 : DB) (oks1 oks2 : List Bool),
    SqlOffer.run H512 db l1 = .ok (db1, oks1) → SqlOffer.run H512 db1 l2 = .ok (db2, oks2) → SqlOffer.run H512 db (l1 ++ l2) = .ok (db2, oks1 ++ oks2)
  | [], l2, db, db1, db2, oks1, oks2, h1, h2 => by
    cases h1
    exact h2
  | (k, o) :: l1, l2, db, db1, db2, oks1, oks2, h1, h2 => by
    rw [List.cons_append]
    unfold SqlOffer.run at h1 ⊢
    obtain ⟨⟨dba, ok⟩, ha, h1⟩ := res_ok_of_bind h1
    obtain ⟨⟨dbb, oks⟩, hb, h1⟩ := res_ok_of_bind h1
    cases h1
    have := run_append l1 l2 dba db1 db2 oks oks2 hb h2
    rw [ha]
    simp only [Res.bind_ok, this, Res.pure_ok, List.cons_append]

/-- What one request adds to the store, with a working database: vouched offers only, and all offers of an acknowledged publish
request. -/
theorem serve_run (E : Env Sig) (hw : DbWorks E) (c : Core Sig) (k : Kind) (m : Msg) :
    ∃ l oks, SqlOffer.run E.H512 c.db l = .ok ((serve E c k m).1.db, oks) ∧
      (∀ e ∈ l, Vouched E m e.2 ∧ e.2.price < 2 ^ 63 ∧ e.2.qos < 2 ^ 63) ∧
      (k = .publishDht ∨ k = .publishGroup → (∃ m', Out.message m' ∈ (serve E c k m).2) → ∀ pid o, Publishes E m pid o → o ∈ l.map (·.2)) := by
  have stay : ∀ {Q : Prop} (outs : List (Out Sig)), (∀ m', Out.message m' ∉ outs) → ∃ l oks, SqlOffer.run E.H512 c.db l = .ok (c.db, oks) ∧
      (∀ e ∈ l, Vouched E m e.2 ∧ e.2.price < 2 ^ 63 ∧ e.2.qos < 2 ^ 63) ∧
      (Q → (∃ m', Out.message m' ∈ outs) → ∀ pid o, Publishes E m pid o → o ∈ l.map (·.2)) :=
    fun outs h => ⟨[], [], rfl, by simp, fun _ ⟨m', hm⟩ => absurd hm (h m')⟩
  by_cases h1 : k = .publishDht
  · subst h1
    simp only [serve]
    unfold publishDht
    split
    · first | exact stay [.panic] (by simp) | exact stay [.invalid] (by simp)
    · first | exact stay [.panic] (by simp) | exact stay [.invalid] (by simp)
    rename_i pid nonce offers hreq
    split
    · first | exact stay [.panic] (by simp) | exact stay [.invalid] (by simp)
    · first | exact stay [.panic] (by simp) | exact stay [.invalid] (by simp)
    rename_i key hkey
    obtain ⟨⟨oks, hrun⟩, hiff⟩ := storeAll_run E hw key offers (fun o ho hp => ((publishDht_req hreq).2 o ho hp).1) c.db
    have hall : ∀ e ∈ (offers.takeWhile (fun o => decide (Storable E key o))).map (SqlOffer.Kind.dht, ·),
        Vouched E m e.2 ∧ e.2.price < 2 ^ 63 ∧ e.2.qos < 2 ^ 63 := by
      intro e he
      obtain ⟨o, ho, rfl⟩ := List.mem_map.1 he
      have hst : Storable E key o := by simpa using takeWhile_holds ho
      exact ⟨⟨pid, key, ⟨nonce, .inl ⟨offers, hreq, (List.takeWhile_subset _ ho)⟩⟩, senderKey_ok.1 hkey, hst.1⟩, hst.2⟩
    have hpub : ∀ pid' o, Publishes E m pid' o → o ∈ offers := by
      rintro pid' o ⟨nonce', ⟨offers', hd, ho⟩ | hd⟩
      · rw [hreq] at hd
        cases hd
        exact ho
      · have t1 := (decode_inv hreq).1
        have t2 := (decode_inv hd).1
        rw [t1] at t2
        cases t2
    split <;> rename_i hst <;> rw [hst] at hrun hiff
    · exact ⟨_, oks, hrun, hall, fun _ ⟨m', h⟩ => by simp at h⟩
    · exact ⟨_, oks, hrun, hall, fun _ ⟨m', h⟩ => by simp at h⟩
    · have hlast : ∀ pid o, Publishes E m pid o →
          o ∈ ((offers.takeWhile (fun o => decide (Storable E key o))).map (SqlOffer.Kind.dht, ·)).map (·.2) := by
        intro pid' o hp
        rw [List.map_map]
        have : ((fun x => x.2) ∘ fun x => (SqlOffer.Kind.dht, x) : CidOffer → CidOffer) = id := rfl
        rw [this, List.map_id]
        have hgood := hiff.1 rfl
        rw [takeWhile_all (by simpa using hgood)]
        exact hpub pid' o hp
      split
      · exact ⟨_, oks, hrun, hall, fun _ _ => hlast⟩
      · exact ⟨_, oks, hrun, hall, fun _ _ => hlast⟩
  · by_cases h2 : k = .publishGroup
    · subst h2
      simp only [serve]
      unfold publishGroup
      split
      · rename_i pid nonce o hreq
        split
        · first | exact stay [.panic] (by simp) | exact stay [.invalid] (by simp)
        · first | exact stay [.panic] (by simp) | exact stay [.invalid] (by simp)
        rename_i key hkey
        split
        · first | exact stay [.panic] (by simp) | exact stay [.invalid] (by simp)
        · first | exact stay [.panic] (by simp) | exact stay [.invalid] (by simp)
        rename_i hv
        have hs := verify_signed.1 hv
        have hvo : Vouched E m o := ⟨pid, key, ⟨nonce, .inr hreq⟩, senderKey_ok.1 hkey, hs⟩
        obtain ⟨db', g1, g2, g3⟩ := insert_works hw hs (fun _ => vouched_built hvo) c.db
        rw [SqlOffer.addGroup, g1]
        by_cases hst : Storable E key o
        · simp only [hst, decide_true] at g3 ⊢
          have hrun : SqlOffer.run E.H512 c.db [(.group, o)] = .ok (db', [true]) := by
            have h3' : SqlOffer.addGroup E.H512 (fun _ => false) c.db o = .ok (db', true) := by rw [SqlOffer.addGroup, g3]
            simp only [SqlOffer.run, h3', Res.bind_ok, Res.pure_ok]
          have hpub : ∀ pid' o', Publishes E m pid' o' → o' ∈ [(SqlOffer.Kind.group, o)].map (·.2) := by
            rintro pid' o' ⟨nonce', ⟨offers', hd, ho⟩ | hd⟩
            · have t1 := (decode_inv hreq).1
              have t2 := (decode_inv hd).1
              rw [t1] at t2
              cases t2
            · rw [hreq] at hd
              cases hd
              simp
          split
          · exact ⟨_, _, hrun, by simpa using ⟨hvo, hst.2⟩, fun _ _ => hpub⟩
          · exact ⟨_, _, hrun, by simpa using ⟨hvo, hst.2⟩, fun _ _ => hpub⟩
        · simp only [hst, decide_false]
          rw [g2 hst]
          first | exact stay [.panic] (by simp) | exact stay [.invalid] (by simp)
      · first | exact stay [.panic] (by simp) | exact stay [.invalid] (by simp)
      · first | exact stay [.panic] (by simp) | exact stay [.invalid] (by simp)
    · rw [(serve_frame E c k m).2.2.2.2.2.2 h1 h2]
      exact ⟨[], [], rfl, by simp, fun h => absurd h (by simp [h1, h2])⟩

theorem serveAll_run (H512 : Hash) : ∀ (hist : List (Env Sig × Kind × Msg)) (_ : ∀ e ∈ hist, e.1.H512 = H512 ∧ DbWorks e.1) (c : Core Sig),
    ∃ l oks, SqlOffer.run H512 c.db l = .ok ((serveAll c hist).db, oks) ∧
      (∀ x ∈ l, (∃ e ∈ hist, Vouched e.1 e.2.2 x.2) ∧ x.2.price < 2 ^ 63 ∧ x.2.qos < 2 ^ 63) ∧
      ∀ h1 E k m h2, hist = h1 ++ (E, k, m) :: h2 → k = .publishDht ∨ k = .publishGroup →
        (∃ m', Out.message m' ∈ (serve E (serveAll c h1) k m).2) → ∀ pid o, Publishes E m pid o → o ∈ l.map (·.2)
  | [], _, c => ⟨[], [], rfl, by simp, by intro h1 E k m h2 h; simp at h⟩
  | (E, k, m) :: hist, hE, c => by
    obtain ⟨hh, hw⟩ := hE (E, k, m) (by simp)
    obtain ⟨l1, oks1, r1, a1, b1⟩ := serve_run E hw c k m
    obtain ⟨l2, oks2, r2, a2, b2⟩ := serveAll_run H512 hist (fun e he => hE e (by simp [he])) (serve E c k m).1
    dsimp only at hh
    rw [hh] at r1
    refine ⟨l1 ++ l2, oks1 ++ oks2, run_append _ _ _ _ _ _ _ r1 r2, ?_, ?_⟩
    · intro x hx
      rcases List.mem_append.1 hx with hx | hx
      · exact ⟨⟨(E, k, m), by simp, (a1 x hx).1⟩, (a1 x hx).2⟩
      · obtain ⟨⟨e, he, hv⟩, hb⟩ := a2 x hx
        exact ⟨⟨e, by simp [he], hv⟩, hb⟩
    · intro h1 E' k' m' h2 heq hk hm pid o ho
      rw [List.map_append]
      cases h1 with
      | nil =>
        rw [List.nil_append] at heq
        cases heq
        exact List.mem_append.2 (.inl (b1 hk hm pid o ho))
      | cons e h1 =>
        rw [List.cons_append] at heq
        cases heq
        exact List.mem_append.2 (.inr (b2 h1 E' k' m' h2 rfl hk hm pid o ho))

theorem history_sane {H H512 : Hash} {hist : List (Env Sig × Kind × Msg)} (hs : Sound H H512 hist) (l : List (SqlOffer.Kind × CidOffer))
    (hl : ∀ x ∈ l, ∃ e ∈ hist, Vouched e.1 e.2.2 x.2) : SqlOffer.Sane H H512 (l.map (·.2)) := by
  have h' : ∀ o ∈ l.map (·.2), ∃ e ∈ hist, Vouched e.1 e.2.2 o := by
    intro o ho
    obtain ⟨x, hx, rfl⟩ := List.mem_map.1 ho
    exact hl x hx
  refine ⟨fun o ho => ?_, hs.2 _ h'⟩
  obtain ⟨e, he, hv⟩ := h' o ho
  have := vouched_built hv
  rw [(hs.1 e he).1] at this
  exact this

/-- **C52** for the life of a gateway that began with an empty store: whatever requests it served, in whatever circumstances, the
offers it finds for a content are for that content, unexpired, and each was published in one of these requests by a provider
registered at that moment, and signed under the registered key of that provider. -/
theorem C52_lookup (H H512 : Hash) (order : List OfferRow → List OfferRow) (hord : ∀ l, (order l).Perm l) (c : Core Sig) (hdb : c.db = SqlOffer.newDB)
    (hist : List (Env Sig × Kind × Msg)) (hs : Sound H H512 hist) (id : Id) (hid : id.length = 32) (off now : Int) (hnow : 0 ≤ now - off) :
    ∃ os, SqlOffer.getOffers H order off now (serveAll c hist).db id = .ok (os, !os.isEmpty) ∧
      ∀ o ∈ os, id ∈ o.cids ∧ now - off < o.expiry ∧ ∃ e ∈ hist, Vouched e.1 e.2.2 o := by
  obtain ⟨l, oks, hrun, hl, -⟩ := serveAll_run H512 hist (fun e he => (hs.1 e he).2) c
  rw [hdb] at hrun
  obtain ⟨db, oks', os, h1, h2, h3⟩ := SqlOffer.C26_by_cid H H512 order hord l (history_sane hs l (fun x hx => (hl x hx).1)) id hid off now hnow
  rw [hrun] at h1
  cases h1
  refine ⟨os, h2, fun o ho => ?_⟩
  obtain ⟨o', ho', hm⟩ := List.mem_flatMap.1 (h3.mem_iff.1 ho)
  split at hm
  · rename_i he
    obtain ⟨hc, rfl⟩ := List.mem_replicate.1 hm
    obtain ⟨x, hx, rfl⟩ := List.mem_map.1 ((SqlOffer.C26_stored (l.map (·.2))).1 o ho').1
    exact ⟨List.count_pos_iff.1 (by omega), he.1, (hl x hx).1⟩
  · simp at hm

/-- **C52**, lookups by digest. -/
theorem C52_lookup_digest (H H512 : Hash) (order : List OfferRow → List OfferRow) (hord : ∀ l, (order l).Perm l) (c : Core Sig)
    (hdb : c.db = SqlOffer.newDB) (hist : List (Env Sig × Kind × Msg)) (hs : Sound H H512 hist) (d : Bytes) (off now : Int) (hnow : 0 ≤ now - off) :
    ∃ r, SqlOffer.getByDigest H order off now (serveAll c hist).db d = .ok r ∧
      ∀ o, r = some o → Offer.digest H512 o = .ok d ∧ now - off < o.expiry ∧ ∃ e ∈ hist, Vouched e.1 e.2.2 o := by
  obtain ⟨l, oks, hrun, hl, -⟩ := serveAll_run H512 hist (fun e he => (hs.1 e he).2) c
  rw [hdb] at hrun
  obtain ⟨db, oks', r, h1, h2, h3⟩ := SqlOffer.C26_by_digest H H512 order hord l (history_sane hs l (fun x hx => (hl x hx).1)) d off now hnow
  rw [hrun] at h1
  cases h1
  refine ⟨r, h2, fun o ho => ?_⟩
  obtain ⟨g1, g2, g3, -⟩ := (h3 o).1 ho
  obtain ⟨x, hx, rfl⟩ := List.mem_map.1 ((SqlOffer.C26_stored (l.map (·.2))).1 o g1).1
  exact ⟨g2, g3, (hl x hx).1⟩

/-- **C98** for publish requests: what the gateway acknowledged it serves.  Once a publish request (of either kind) is answered,
then whatever follows, a lookup of a content of one of its offers finds an offer with the same terms until it expires. -/
theorem C98_publish (H H512 : Hash) (order : List OfferRow → List OfferRow) (hord : ∀ l, (order l).Perm l) (c : Core Sig)
    (hdb : c.db = SqlOffer.newDB) (h1 h2 : List (Env Sig × Kind × Msg)) (E : Env Sig) (k : Kind) (m m' : Msg)
    (hs : Sound H H512 (h1 ++ (E, k, m) :: h2)) (hk : k = .publishDht ∨ k = .publishGroup) (hm : Out.message m' ∈ (serve E (serveAll c h1) k m).2)
    (pid : Option Id) (o : CidOffer) (ho : Publishes E m pid o) (id : Id) (hid : id ∈ o.cids) (off now : Int) (hnow : 0 ≤ now - off)
    (hexp : now - off < o.expiry) (hyear : o.expiry ≤ 253402300799) :
    ∃ os, SqlOffer.getOffers H order off now (serveAll c (h1 ++ (E, k, m) :: h2)).db id = .ok (os, true) ∧ ∃ o' ∈ os, terms o' = terms o := by
  obtain ⟨l, oks, hrun, hl, hack⟩ := serveAll_run H512 _ (fun e he => (hs.1 e he).2) c
  rw [hdb] at hrun
  have hol := hack h1 E k m h2 rfl hk ⟨m', hm⟩ pid o ho
  obtain ⟨x, hx, rfl⟩ := List.mem_map.1 hol
  obtain ⟨⟨e, he, hv⟩, hp, hq⟩ := hl x hx
  obtain ⟨db, oks', os, g1, g2, g3⟩ := SqlOffer.C26_by_cid H H512 order hord l (history_sane hs l (fun x hx => (hl x hx).1)) id
    ((vouched_built hv).1.2.1 id hid) off now hnow
  rw [hrun] at g1
  cases g1
  obtain ⟨o', ho', ht⟩ := (SqlOffer.C26_stored (l.map (·.2))).2.1 _ hol hp hq
  have hcids : o'.cids = x.2.cids := by
    have := congrArg (fun t => t.2.1) ht
    exact this
  have hexp' : o'.expiry = x.2.expiry := by
    have := congrArg (fun t => t.2.2.2.1) ht
    exact this
  have hmem : o' ∈ os := by
    refine g3.mem_iff.2 (List.mem_flatMap.2 ⟨o', ho', ?_⟩)
    rw [if_pos (by rw [hexp']; exact ⟨hexp, hyear⟩)]
    exact List.mem_replicate.2 ⟨by rw [hcids]; have := List.count_pos_iff.2 hid; omega, rfl⟩
  refine ⟨os, ?_, o', hmem, ht⟩
  rw [g2]
  cases os with
  | nil => cases hmem
  | cons a as => rfl

/-- **C73 is false**: of a request whose second offer is not signed the first is stored and served, and the request is not
acknowledged. -/
theorem C73_refuted (E : Env Sig) (hw : DbWorks E) (hord : ∀ l, (E.order l).Perm l) (hnow : 0 ≤ E.now - E.off) (c : Core Sig)
    (hdb : c.db = SqlOffer.newDB) (m : Msg) (pid : Option Id) (nonce : Int) (o o2 : CidOffer) (os : List CidOffer) (key : KeyPair)
    (hreq : decode (providerPublishDHTOfferRequest E.H) m = .ok (pid, nonce, o :: o2 :: os)) (ha : Authentic E E.provider pid m key)
    (hgood : Storable E key o) (hbad : ¬ Signed E key o2) (hexp : E.now - E.off < o.expiry) (hyear : o.expiry ≤ 253402300799) :
    ∃ id, o.cids = [id] ∧ SqlOffer.getOffers E.H E.order E.off E.now (publishDht E c m).1.db id = .ok ([o], true) ∧
      ∀ m', Out.message m' ∉ (publishDht E c m).2 := by
  obtain ⟨-, hb⟩ := publishDht_req hreq
  obtain ⟨p, hp, -⟩ := id hgood.1
  obtain ⟨hbo, hone⟩ := hb o (by simp) (by rw [hp]; simp)
  obtain ⟨id, hcid⟩ := List.length_eq_one_iff.1 hone
  obtain ⟨⟨oks, hrun⟩, hiff⟩ := storeAll_run E hw key (o :: o2 :: os) (fun o ho hp => (hb o ho hp).1) c.db
  have hbad' : ¬ Storable E key o2 := fun h => hbad h.1
  rw [List.takeWhile_cons_of_pos (by simpa using hgood), List.takeWhile_cons_of_neg (by simpa using hbad'), hdb] at hrun
  obtain ⟨db, g1, l, g2, g3⟩ := SqlOffer.one_add E.H E.H512 E.order hord .dht o hbo hgood.2.1 hgood.2.2 id
    (hbo.1.2.1 id (by rw [hcid]; simp)) E.off E.now hnow
  have hl : l = [o] := by
    rw [g3, if_pos ⟨hexp, hyear⟩, hcid]
    simp
  subst hl
  have hdb' : (storeAll E key c.db (o :: o2 :: os)).1 = db := by
    rw [List.map_cons, List.map_nil, g1] at hrun
    cases hrun
    rw [hdb]
  have hno : (storeAll E key c.db (o :: o2 :: os)).2 ≠ .ok () := fun h => hbad' (hiff.1 h o2 (by simp))
  refine ⟨id, hcid, ?_⟩
  unfold publishDht
  rw [hreq]
  dsimp only
  rw [senderKey_ok.2 ha]
  dsimp only
  cases hst : storeAll E key c.db (o :: o2 :: os) with
  | mk db1 res =>
    rw [hst] at hdb' hno
    dsimp only at hdb' hno
    subst hdb'
    cases res with
    | panic => exact ⟨g2, by simp⟩
    | err => exact ⟨g2, by simp⟩
    | ok u => exact absurd rfl hno

/-- What holds of C73: if the first offer of a request does not verify then nothing is stored and nothing acknowledged (so it holds
of requests with one offer, in particular of group offers); and a request with any offer that does not verify is not acknowledged. -/
theorem C73_partial (E : Env Sig) (c : Core Sig) (m : Msg) (pid : Option Id) (nonce : Int) (key : KeyPair) (ha : Authentic E E.provider pid m key) :
    (∀ o os, decode (providerPublishDHTOfferRequest E.H) m = .ok (pid, nonce, o :: os) → ¬ Signed E key o →
      (publishDht E c m).1 = c ∧ ∀ m', Out.message m' ∉ (publishDht E c m).2) ∧
    (∀ o, decode (providerPublishGroupOfferRequest E.H) m = .ok (pid, nonce, some o) → ¬ Signed E key o →
      (publishGroup E c m).1 = c ∧ ∀ m', Out.message m' ∉ (publishGroup E c m).2) ∧
    (∀ os, decode (providerPublishDHTOfferRequest E.H) m = .ok (pid, nonce, os) → (∃ o ∈ os, ¬ Signed E key o) →
      ∀ m', Out.message m' ∉ (publishDht E c m).2) := by
  refine ⟨?_, ?_, ?_⟩
  · intro o os hreq hbad
    have hso : storeOne E key c.db o = .err ∨ storeOne E key c.db o = .panic := by
      unfold storeOne
      cases hv : Offer.verify E.P key o with
      | ok u => cases u; exact absurd (verify_signed.1 hv) hbad
      | err => exact .inl rfl
      | panic => exact .inr rfl
    unfold publishDht
    rw [hreq]
    dsimp only
    rw [senderKey_ok.2 ha]
    dsimp only
    unfold storeAll
    rcases hso with h | h <;> rw [h] <;> exact ⟨rfl, by simp⟩
  · intro o hreq hbad
    unfold publishGroup
    rw [hreq]
    dsimp only
    rw [senderKey_ok.2 ha]
    dsimp only
    cases hv : Offer.verify E.P key o with
    | ok u => cases u; exact absurd (verify_signed.1 hv) hbad
    | err => exact ⟨rfl, by simp⟩
    | panic => exact ⟨rfl, by simp⟩
  · intro os hreq hbad
    have hno : ∀ (os : List CidOffer) (db : DB), (∃ o ∈ os, ¬ Signed E key o) → (storeAll E key db os).2 ≠ .ok () := by
      intro os
      induction os with
      | nil => intro db h; simp at h
      | cons a os ih =>
        intro db h
        unfold storeAll
        split
        · simp
        · simp
        · simp
        · rename_i hso
          have hs := (storeOne_grows hso).1
          apply ih
          obtain ⟨o, ho, hb⟩ := h
          rcases List.mem_cons.1 ho with rfl | ho
          · exact absurd hs hb
          · exact ⟨o, ho, hb⟩
    unfold publishDht
    rw [hreq]
    dsimp only
    rw [senderKey_ok.2 ha]
    dsimp only
    have := hno os c.db hbad
    cases hst : storeAll E key c.db os with
    | mk db1 res =>
      rw [hst] at this
      cases res with
      | panic => simp
      | err => simp
      | ok u => exact absurd rfl this

/-- **C77 is false**: a registered provider publishes, under its own key, an offer that names another provider (registered or not).
The gateway acknowledges it and serves it from then on. -/
theorem C77_refuted (E : Env Sig) (hw : DbWorks E) (hord : ∀ l, (E.order l).Perm l) (hnow : 0 ≤ E.now - E.off) (hpr : ProtocolOk E.pr) (c : Core Sig)
    (hk : CanSign E c) (hdb : c.db = SqlOffer.newDB) (m : Msg) (p q : Id) (nonce : Int) (o : CidOffer) (key : KeyPair)
    (hreq : decode (providerPublishDHTOfferRequest E.H) m = .ok (some p, nonce, [o])) (ha : Authentic E E.provider (some p) m key)
    (hgood : Storable E key o) (_hq : o.providerID = some q) (_hne : q ≠ p) (hexp : E.now - E.off < o.expiry) (hyear : o.expiry ≤ 253402300799) :
    ∃ id m', o.cids = [id] ∧ (publishDht E c m).2 = [.message m'] ∧
      SqlOffer.getOffers E.H E.order E.off E.now (publishDht E c m).1.db id = .ok ([o], true) := by
  obtain ⟨-, hb⟩ := publishDht_req hreq
  obtain ⟨p', hp', -⟩ := id hgood.1
  obtain ⟨hbo, hone⟩ := hb o (by simp) (by rw [hp']; simp)
  obtain ⟨id, hcid⟩ := List.length_eq_one_iff.1 hone
  obtain ⟨db, ⟨oks, hrun⟩, h1, h2⟩ := C52_publishDht_served E hw hpr c hk m (some p) nonce [o] key hreq ha
  rw [if_pos (by simpa using hgood)] at h2
  obtain ⟨m', sig, h2, -⟩ := h2
  obtain ⟨db', g1, l, g2, g3⟩ := SqlOffer.one_add E.H E.H512 E.order hord .dht o hbo hgood.2.1 hgood.2.2 id
    (hbo.1.2.1 id (by rw [hcid]; simp)) E.off E.now hnow
  have hl : l = [o] := by
    rw [g3, if_pos ⟨hexp, hyear⟩, hcid]
    simp
  subst hl
  rw [List.takeWhile_cons_of_pos (by simpa using hgood), List.takeWhile_nil, hdb, List.map_cons, List.map_nil, g1] at hrun
  cases hrun
  exact ⟨id, m', hcid, h2, by rw [h1]; exact g2⟩

/-- What holds of C77: a stored offer names the publisher if the holder of the publisher's registered key signs no others. -/
theorem C77_partial (E : Env Sig) (c : Core Sig) (k : Kind) (m : Msg)
    (hhonest : ∀ pid key o, Authentic E E.provider pid m key → Signed E key o → o.providerID = pid) :
    ∀ r ∈ (serve E c k m).1.db.offers, r ∉ c.db.offers → ∃ p o, Publishes E m (some p) o ∧ r.provider = Ids.toStr p := by
  intro r hr hn
  obtain ⟨o, d, p, ⟨pid, key, h1, h2, h3⟩, -, hp, rfl⟩ := (C52_rows E c k m).1 r hr hn
  have := hhonest pid key o h2 h3
  rw [hp] at this
  subst this
  exact ⟨p, o, h1, rfl⟩

theorem encode_unsigned {α : Type} {codec : Codec α} {pr : Message.Protocol} {a : α} {m : Msg} (h : encode codec pr a = .ok m) : m.signature = [] := by
  unfold encode at h
  obtain ⟨v, -, h⟩ := res_ok_of_bind h
  obtain ⟨fs, -, h⟩ := res_ok_of_bind h
  cases h
  rfl

/-- **C98 is false** of the listing: of an offer that does not verify the gateway stores nothing, and it sends the provider an
acknowledgement that signs the request. -/
theorem C98_list_refuted (E : Env Sig) (hpr : ProtocolOk E.pr) (c : Core Sig) (hk : CanSign E c) (pid : Id) (req resp m : Msg) (rec : Register.Record)
    (k : KeyPair) (hrec : E.provider pid = some rec) (hkey : Crypto.decodePublicKey rec.signingKey = .ok k)
    (hx : ∀ q, E.exchange pid q = some resp) (hv : Crypto.verifyMessage E.P k resp.signature (Message.toSign resp) = some true)
    (hresp : decode gatewayListDHTOfferResponse resp = .ok [m]) (hvm : Crypto.verifyMessage E.P k m.signature (Message.toSign m) = some true)
    (p' : Option Id) (nonce : Int) (o : CidOffer) (hreq : decode (providerPublishDHTOfferRequest E.H) m = .ok (p', nonce, [o]))
    (hbad : ¬ Signed E k o) (hnamed : o.providerID ≠ none) :
    ∃ ack a sig, (listOffers E c pid (.ok req)).1.db = c.db ∧ Out.message ack ∈ (listOffers E c pid (.ok req)).2.1 ∧
      decode gatewayListDHTOfferAck ack = .ok [a] ∧ decode providerPublishDHTOfferResponse a = .ok (nonce, sig) ∧
      Crypto.signMessage E.P c.key c.keyVersion (m.body.getD []) = some sig := by
  have hso : storeOne E k c.db o = .err := by
    unfold storeOne
    cases hv : Offer.verify E.P k o with
    | ok u => cases u; exact absurd (verify_signed.1 hv) hbad
    | err => rfl
    | panic =>
      exfalso
      obtain ⟨p, hp⟩ := Option.ne_none_iff_exists'.1 hnamed
      unfold Offer.verify at hv
      rw [hp] at hv
      simp only [Offer.toSign, Res.bind_ok, Offer.checkSig] at hv
      split at hv <;> cases hv
  obtain ⟨sig, hsig⟩ := Option.isSome_iff_exists.1 (hk (m.body.getD []))
  obtain ⟨a, he, ht, hver, hsup, hd⟩ := C30_providerPublishDHTOfferResponse E.pr hpr nonce sig (publishDht_req hreq).1
  have ha0 : { a with signature := [] } = a := by
    have := encode_unsigned he
    cases a
    dsimp only at this
    rw [this]
  have had : decode providerPublishDHTOfferResponse a = .ok (nonce, sig) := by rw [← ha0]; exact (hd []).2
  have hain : Message.InRange a := by
    refine ⟨by rw [ht]; exact ⟨by decide, by decide⟩, by rw [hver]; exact hpr.1, ?_⟩
    intro l hl
    rw [hsup] at hl
    exact hpr.2 l hl
  have htm : takeMessages E c k c.db [m] [] = (c.db, .ok [a]) := by
    unfold takeMessages
    have : Message.verify E.P k m = (m, true) := by unfold Message.verify; rw [hvm]
    rw [this]
    dsimp only
    rw [hreq]
    dsimp only
    unfold takeOffers
    rw [hso]
    dsimp only [takeOffers]
    rw [hsig]
    dsimp only
    rw [he]
    dsimp only [takeMessages]
    rfl
  obtain ⟨ack, hae, -, -, -, had2⟩ := C30_gatewayListDHTOfferAck E.pr hpr [a] (by simpa using hain)
  obtain ⟨s1, hs1⟩ := Option.isSome_iff_exists.1 (hk (Message.toSign req))
  obtain ⟨s2, hs2⟩ := Option.isSome_iff_exists.1 (hk (Message.toSign ack))
  refine ⟨{ ack with signature := s2 }, a, sig, ?_⟩
  unfold listOffers
  simp only [Message.sign, hs1, hx, hrec]
  have hsk : signingKey rec = .ok k := hkey
  rw [hsk]
  dsimp only
  rw [if_pos (verify_snd.2 hv), hresp]
  dsimp only
  rw [htm]
  dsimp only
  rw [hae]
  dsimp only
  simp only [hs2]
  exact ⟨by trivial, by simp, (had2 s2).2, had, hsig⟩

/-! ## the hypotheses can be met -/

theorem exEnv_works : DbWorks exEnv := fun _ _ => rfl

/-- A gateway with an empty store. -/
def exFresh : Core Unit := { exCore with db := SqlOffer.newDB }

theorem exStorable : Storable exEnv exPub exSignedOffer := ⟨exSignedOffer_signed, by decide, by decide⟩

theorem exPublish (E : Env Unit) (he : E.H = exEnv.H) (p : Id) (hp : p.length = 32) (os : List CidOffer) (hb : ∀ o ∈ os, Built exEnv.H o)
    (h1 : ∀ o ∈ os, o.cids.length = 1) (hlen : inI64 os.length) (look : Id → Option Register.Record) (hl : look p = some exRecord) :
    ∃ m, decode (providerPublishDHTOfferRequest E.H) m = .ok (some p, 7, os) ∧ Authentic exEnv look (some p) m exPub := by
  rw [he]
  exact exSigned (C30_providerPublishDHTOfferRequest exEnv.H exEnv.pr defaultProtocolOk (some p) 7 os ⟨p, rfl, hp⟩ ⟨by decide, by decide⟩ hb h1 hlen)
    look p hl

/-- A request with a good and a bad offer. -/
example : ∃ m, SqlOffer.getOffers exEnv.H exEnv.order exEnv.off exEnv.now (publishDht exEnv exFresh m).1.db (exId 2) = .ok ([exSignedOffer], true) ∧
    ∀ m', Out.message m' ∉ (publishDht exEnv exFresh m).2 := by
  obtain ⟨m, h1, h2⟩ := exPublish exEnv rfl (exId 9) (exId_proper 9) [exSignedOffer, exSingle]
    (by
      intro o ho
      rcases List.mem_cons.1 ho with rfl | ho
      · exact exSignedOffer_built
      · exact exSinglesOk o ho)
    (by intro o ho; simp at ho; rcases ho with rfl | rfl <;> rfl) ⟨by decide, by decide⟩ exEnv.provider (by simp [exEnv])
  obtain ⟨id, g1, g2, g3⟩ := C73_refuted exEnv exEnv_works (fun _ => .refl _) (by decide) exFresh rfl m (some (exId 9)) 7 exSignedOffer exSingle [] exPub
    h1 h2 exStorable exSingle_unsigned (by decide) (by decide)
  cases g1
  exact ⟨m, g2, g3⟩

/-- A request with a good offer is served, and what it stored can be found. -/
example : ∃ m m', (publishDht exEnv exFresh m).2 = [.message m'] ∧ Vouched exEnv m exSignedOffer ∧
    ∃ os, SqlOffer.getOffers exEnv.H exEnv.order exEnv.off exEnv.now (serveAll exFresh [(exEnv, .publishDht, m)]).db (exId 2) = .ok (os, true) ∧
      ∃ o' ∈ os, terms o' = terms exSignedOffer := by
  obtain ⟨m, h1, h2⟩ := exPublish exEnv rfl (exId 9) (exId_proper 9) [exSignedOffer]
    (by intro o ho; simp at ho; subst ho; exact exSignedOffer_built)
    (by intro o ho; simp at ho; subst ho; rfl) ⟨by decide, by decide⟩ exEnv.provider (by simp [exEnv])
  obtain ⟨db, -, hc, hs⟩ := C52_publishDht_served exEnv exEnv_works defaultProtocolOk exFresh exCore_signs m (some (exId 9)) 7 [exSignedOffer] exPub h1 h2
  rw [if_pos (by simpa using exStorable)] at hs
  obtain ⟨m', sig, hs, -⟩ := hs
  have hp : Publishes exEnv m (some (exId 9)) exSignedOffer := ⟨7, .inl ⟨_, h1, by simp⟩⟩
  have honly : ∀ o, Vouched exEnv m o → o = exSignedOffer := by
    rintro o ⟨pid, k, ⟨nonce, ⟨offers, hd, ho⟩ | hd⟩, -, -⟩
    · rw [h1] at hd
      cases hd
      simpa using ho
    · have t1 := (decode_inv h1).1
      have t2 := (decode_inv hd).1
      rw [t1] at t2
      cases t2
  refine ⟨m, m', hs, ⟨_, _, hp, h2, exSignedOffer_signed⟩, ?_⟩
  refine C98_publish exEnv.H exEnv.H512 exEnv.order (fun _ => .refl _) exFresh rfl [] [] exEnv .publishDht m m' ⟨?_, ?_⟩ (.inl rfl) ?_ _ _ hp (exId 2)
    (by decide) exEnv.off exEnv.now (by decide) (by decide) (by decide)
  · intro e he
    simp at he
    subst he
    exact ⟨rfl, rfl, exEnv_works⟩
  · intro l hl x hx y hy b b' hbx hby _
    have : ∀ z ∈ l, z = exSignedOffer := by
      intro z hz
      obtain ⟨e, he, hv⟩ := hl z hz
      simp at he
      subst he
      exact honly z hv
    rw [this x hx] at hbx
    rw [this y hy] at hby
    rw [hbx] at hby
    cases hby
    rfl
  · show Out.message m' ∈ (publishDht exEnv exFresh m).2
    rw [hs]
    simp

/-- A provider that publishes an offer of provider 9. -/
example : ∃ m m', (publishDht { exEnv with provider := fun i => if i = exId 5 then some exRecord else none } exFresh m).2 = [.message m'] ∧
    exSignedOffer.providerID = some (exId 9) := by
  obtain ⟨m, h1, h2⟩ := exPublish { exEnv with provider := fun i => if i = exId 5 then some exRecord else none } rfl (exId 5) (exId_proper 5) [exSignedOffer]
    (by intro o ho; simp at ho; subst ho; exact exSignedOffer_built)
    (by intro o ho; simp at ho; subst ho; rfl) ⟨by decide, by decide⟩ (fun i => if i = exId 5 then some exRecord else none) (by simp)
  obtain ⟨id, m', -, g2, -⟩ := C77_refuted { exEnv with provider := fun i => if i = exId 5 then some exRecord else none } exEnv_works (fun _ => .refl _)
    (by decide) defaultProtocolOk exFresh exCore_signs rfl m (exId 5) (exId 9) 7 exSignedOffer exPub h1 h2 exStorable rfl (by decide) (by decide) (by decide)
  exact ⟨m, m', g2, rfl⟩

/-- A provider that lists an offer it did not sign. -/
example : ∃ resp, ∃ ack a sig, (listOffers { exEnv with exchange := fun _ _ => some resp } exCore (exId 9) (.ok Message.exMsg)).1.db = exDb ∧
    Out.message ack ∈ (listOffers { exEnv with exchange := fun _ _ => some resp } exCore (exId 9) (.ok Message.exMsg)).2.1 ∧
    decode gatewayListDHTOfferAck ack = .ok [a] ∧ decode providerPublishDHTOfferResponse a = .ok (7, sig) := by
  obtain ⟨m, h1, ⟨_, _, hi, hl, hkey, hvm⟩, hin⟩ := exSigned_inRange (C30_providerPublishDHTOfferRequest exEnv.H exEnv.pr defaultProtocolOk (some (exId 9)) 7 [exSingle]
    (exIdOk 9) ⟨by decide, by decide⟩ exSinglesOk (by intro o ho; simp at ho; subst ho; rfl) ⟨by decide, by decide⟩) ⟨by decide, by decide⟩ exEnv.provider (exId 9)
    (by simp [exEnv])
  obtain ⟨resp, g1, ⟨_, _, hi', hl', hkey', hvr⟩, -⟩ := exSigned_inRange (C30_gatewayListDHTOfferResponse exEnv.pr defaultProtocolOk [m] (by simpa using hin))
    ⟨by decide, by decide⟩ exEnv.provider (exId 9) (by simp [exEnv])
  obtain ⟨ack, a, sig, r1, r2, r3, r4, -⟩ := C98_list_refuted { exEnv with exchange := fun _ _ => some resp } defaultProtocolOk exCore exCore_signs (exId 9) Message.exMsg
    resp m exRecord exPub (by simp [exEnv]) exRecord_key (fun _ => rfl) hvr g1 hvm (some (exId 9)) 7 exSingle h1 exSingle_unsigned (by decide)
  exact ⟨resp, ack, a, sig, r1, r2, r3, r4⟩

end FcRetrieval.Gateway
