import Verif.Spec.GatewayLife
import Verif.Props.GatewayStore
import Verif.Props.GatewayFresh
import Verif.Lemmas.Listing
import Verif.Lemmas.GatewaySigned
/-!
# The whole life of a gateway: C142, C143, C144, and C50 again
-/

set_option linter.unusedSimpArgs false

namespace FcRetrieval.GatewayLife
open FcRetrieval.Ids (Id)
open FcRetrieval.Crypto (KeyPair KeyVersion)
open FcRetrieval.Merkle (Hash)
open FcRetrieval.Message (Msg)
open FcRetrieval.Offer (CidOffer Built terms)
open FcRetrieval.Wire (decode encode)
open FcRetrieval.SqlOffer (DB OfferRow)
open FcRetrieval.Codecs
open FcRetrieval.GatewayAdmin (Env Node)
open FcRetrieval.Gateway (Signed Storable DbWorks Publishes Vouched)

variable {Sig : Type}

/-- The store goes from one state to another by offers of this kind. -/
def Runs (H512 : Hash) (Q : CidOffer → Prop) (db db' : DB) : Prop :=
  ∃ l oks, SqlOffer.run H512 db l = .ok (db', oks) ∧ ∀ e ∈ l, Q e.2

theorem Runs.refl {H512 : Hash} {Q : CidOffer → Prop} {db : DB} : Runs H512 Q db db := ⟨[], [], rfl, by simp⟩

theorem Runs.trans {H512 : Hash} {Q : CidOffer → Prop} {a b c : DB} (h1 : Runs H512 Q a b) (h2 : Runs H512 Q b c) : Runs H512 Q a c := by
  obtain ⟨l1, o1, r1, q1⟩ := h1
  obtain ⟨l2, o2, r2, q2⟩ := h2
  refine ⟨l1 ++ l2, o1 ++ o2, Gateway.run_append _ _ _ _ _ _ _ r1 r2, fun e he => ?_⟩
  rcases List.mem_append.1 he with h | h
  · exact q1 e h
  · exact q2 e h

theorem Runs.mono {H512 : Hash} {Q Q' : CidOffer → Prop} {a b : DB} (h : Runs H512 Q a b) (hq : ∀ o, Q o → Q' o) : Runs H512 Q' a b := by
  obtain ⟨l, o, r, q⟩ := h
  exact ⟨l, o, r, fun e he => hq _ (q e he)⟩

theorem storeOne_runs {E : Gateway.Env Sig} (hw : DbWorks E) {k : KeyPair} {o : CidOffer} (hb : o.providerID ≠ none → Built E.H o) {db db' : DB} {ok : Bool}
    (h : Gateway.storeOne E k db o = .ok (db', ok)) : Runs E.H512 (fun x => x = o ∧ Storable E k x) db db' := by
  unfold Gateway.storeOne at h
  split at h
  · cases h
  · cases h
  · rename_i hv
    have hs := Gateway.verify_signed.1 hv
    obtain ⟨d, g1, g2, g3⟩ := Gateway.insert_works hw hs hb db
    rw [SqlOffer.addDht, g1] at h
    cases h
    by_cases hst : Storable E k o
    · refine ⟨[(.dht, o)], [true], ?_, by simpa using hst⟩
      simp only [hst, decide_true] at g3
      have h3' : SqlOffer.addDht E.H512 (fun _ => false) db o = .ok (db', true) := by rw [SqlOffer.addDht, g3]
      simp only [SqlOffer.run, h3', Res.bind_ok, Res.pure_ok]
    · rw [g2 hst]
      exact .refl

theorem takeOffers_runs {E : Gateway.Env Sig} (hw : DbWorks E) {k : KeyPair} : ∀ (os : List CidOffer), (∀ o ∈ os, o.providerID ≠ none → Built E.H o) →
    ∀ (db : DB), Runs E.H512 (fun o => o ∈ os ∧ Storable E k o) db (Gateway.takeOffers E k db os).1
  | [], _, db => .refl
  | o :: os, hb, db => by
    have more : ∀ db, Runs E.H512 (fun x => x ∈ o :: os ∧ Storable E k x) db (Gateway.takeOffers E k db os).1 := fun db =>
      (takeOffers_runs hw os (fun x hx => hb x (by simp [hx])) db).mono (by rintro x ⟨hx, hs⟩; exact ⟨by simp [hx], hs⟩)
    unfold Gateway.takeOffers
    split
    · exact .refl
    · exact more db
    · rename_i h
      exact ((storeOne_runs hw (hb o (by simp)) h).mono (by rintro x ⟨rfl, hs⟩; exact ⟨by simp, hs⟩)).trans (more _)

theorem takeMessages_runs {E : Gateway.Env Sig} (hw : DbWorks E) (c : Gateway.Core Sig) {k : KeyPair} : ∀ (ms : List Msg) (db : DB) (acks : List Msg),
    Runs E.H512 (fun o => Storable E k o ∧ ∃ m ∈ ms, ∃ pid, Publishes E m pid o ∧ Crypto.verifyMessage E.P k m.signature (Message.toSign m) = some true)
      db (Gateway.takeMessages E c k db ms acks).1
  | [], db, acks => .refl
  | m :: ms, db, acks => by
    have more : ∀ db acks, Runs E.H512 (fun o => Storable E k o ∧ ∃ m' ∈ m :: ms, ∃ pid, Publishes E m' pid o ∧
        Crypto.verifyMessage E.P k m'.signature (Message.toSign m') = some true) db (Gateway.takeMessages E c k db ms acks).1 := fun db acks =>
      (takeMessages_runs hw c ms db acks).mono (by rintro o ⟨h1, m', h2, h3⟩; exact ⟨h1, m', by simp [h2], h3⟩)
    unfold Gateway.takeMessages
    split
    · exact more _ _
    · rename_i m1 hv
      have hver : Crypto.verifyMessage E.P k m.signature (Message.toSign m) = some true := Gateway.verify_snd.1 (by rw [hv])
      have hm1 : m1 = m := by
        unfold Message.verify at hv
        rw [hver] at hv
        cases hv
        rfl
      subst hm1
      split
      · exact .refl
      · exact more _ _
      · rename_i pid nonce offers hreq
        have hg := (takeOffers_runs hw (k := k) offers (fun o ho hp => ((Gateway.publishDht_req hreq).2 o ho hp).1) db).mono
          (Q' := fun o => Storable E k o ∧ ∃ m' ∈ m1 :: ms, ∃ pid, Publishes E m' pid o ∧
            Crypto.verifyMessage E.P k m'.signature (Message.toSign m') = some true) (by
              rintro o ⟨ho, hs⟩
              exact ⟨hs, m1, by simp, pid, ⟨nonce, .inl ⟨offers, hreq, ho⟩⟩, hver⟩)
        split <;> rename_i hto <;> rw [hto] at hg
        · exact hg
        · split
          · exact hg
          · split
            · exact hg.trans (more _ _)
            · exact hg
            · exact hg

/-- An offer that a request brings and that the database can hold. -/
def Fits (Q : CidOffer → Prop) (o : CidOffer) : Prop := Q o ∧ o.price < 2 ^ 63 ∧ o.qos < 2 ^ 63

theorem listOffers_runs {E : Gateway.Env Sig} (hw : DbWorks E) (c : Gateway.Core Sig) (pid : Id) (req : Res Msg) :
    Runs E.H512 (Fits (Listed E)) c.db (Gateway.listOffers E c pid req).1.db := by
  unfold Gateway.listOffers
  split
  · exact .refl
  · exact .refl
  split
  · exact .refl
  split
  · rename_i rec hx hp
    split
    · rename_i k hk
      split
      · rename_i hv
        split
        · exact .refl
        · exact .refl
        · rename_i ms hms
          have hg := (takeMessages_runs hw c (k := k) ms c.db []).mono (Q' := Fits (Listed E)) (by
            rintro o ⟨h1, m, hm, pid', h2, h3⟩
            exact ⟨⟨pid, _, _, rec, k, ms, m, pid', hx, hp, hk, Gateway.verify_snd.1 hv, hms, hm, h3, h2, h1.1⟩, h1.2⟩)
          split <;> rename_i htm <;> rw [htm] at hg
          · exact hg
          · exact hg
          · split
            · split <;> exact hg
            · exact hg
      · exact .refl
    · exact .refl
    · exact .refl
  · exact .refl

theorem requestProvider_runs {E : Env Sig} (hw : DbWorks E.toEnv) (n : Node Sig) (pid : Id) (type : Int) (args : List GatewayAdmin.Arg) :
    Runs E.H512 (Fits (Listed E.toEnv)) n.db (GatewayAdmin.requestProvider E n pid type args).1.db := by
  unfold GatewayAdmin.requestProvider
  split
  · split
    · rename_i id k v _ _
      exact listOffers_runs hw ⟨id, k, v, n.searchPrice, n.offerPrice, n.topupAmount, n.db, n.payment.getD (Payment.newMgr "")⟩ _ _
    · exact .refl
  · split
    · split <;> exact .refl
    · exact .refl
    · exact .refl
  · exact .refl

theorem requestAll_runs {E : Env Sig} (hw : DbWorks E.toEnv) (type : Int) (args : Id → List GatewayAdmin.Arg) : ∀ (rs : List Register.Record) (n : Node Sig),
    Runs E.H512 (Fits (Listed E.toEnv)) n.db (GatewayAdmin.requestAll E type args n rs).1.db
  | [], n => .refl
  | r :: rs, n => by
    unfold GatewayAdmin.requestAll
    split
    · exact requestAll_runs hw type args rs n
    · rename_i id _
      exact (requestProvider_runs hw n id type (args id)).trans (requestAll_runs hw type args rs _)

theorem updateGroup_db (E : Env Sig) (n : Node Sig) (m : Msg) : (GatewayAdmin.updateGroup E n m).1.db = n.db := by
  have key : ∀ (rs : List Register.Record) (n : Node Sig) (i : Option Id),
      (GatewayAdmin.requestAll E (gatewayListDHTOfferRequest).code (fun _ => [.node i, .bool true]) n rs).1 = n := by
    intro rs
    induction rs with
    | nil => intro n i; rfl
    | cons r rs ih =>
      intro n i
      unfold GatewayAdmin.requestAll
      split
      · exact ih n i
      · rename_i id _
        have : GatewayAdmin.requestProvider E n id (gatewayListDHTOfferRequest).code [.node i, .bool true] = (n, [.gaveUp id]) := rfl
        rw [this]
        exact ih n i
  unfold GatewayAdmin.updateGroup
  split
  · dsimp only
    split
    · rw [key]
    · rfl
  · rfl
  · rfl

theorem admin_runs {E : Env Sig} (hw : DbWorks E.toEnv) (n : Node Sig) (k : GatewayAdmin.Kind) (m : Msg) :
    Runs E.H512 (Fits (Brings (E, .admin k, m))) n.db (GatewayAdmin.serve E n k m).1.db := by
  cases k
  · simp only [GatewayAdmin.serve]
    unfold GatewayAdmin.initialise
    split <;> exact .refl
  · simp only [GatewayAdmin.serve]
    unfold GatewayAdmin.initialiseV2
    split <;> exact .refl
  · simp only [GatewayAdmin.serve]
    unfold GatewayAdmin.getReputation
    split
    · exact .refl
    · split <;> exact .refl
  · simp only [GatewayAdmin.serve]
    unfold GatewayAdmin.setReputation
    split
    · exact .refl
    · split <;> exact .refl
  · simp only [GatewayAdmin.serve]
    unfold GatewayAdmin.forceRefresh
    split
    · exact .refl
    · split <;> exact .refl
  · simp only [GatewayAdmin.serve]
    unfold GatewayAdmin.listOffers
    split
    · exact .refl
    · split
      · exact .refl
      · exact .refl
      · split
        · unfold GatewayAdmin.listAll
          split
          · exact .refl
          · split
            · exact .refl
            · exact (requestAll_runs hw _ _ _ _).mono (fun o ho => ⟨⟨rfl, ho.1⟩, ho.2⟩)
        · exact .refl
  · simp only [GatewayAdmin.serve]
    rw [updateGroup_db]
    exact .refl

theorem other_runs {E : Env Sig} (hw : DbWorks E.toEnv) (n : Node Sig) (k : Gateway.Kind) (m : Msg) :
    ∃ l oks, SqlOffer.run E.H512 n.db l = .ok ((serveOther E n k m).1.db, oks) ∧ (∀ e ∈ l, Fits (Brings (E, .other k, m)) e.2) ∧
      (k = .publishDht ∨ k = .publishGroup → (∃ m', Event.other (.message m') ∈ (serveOther E n k m).2) → ∀ pid o, Publishes E.toEnv m pid o → o ∈ l.map (·.2)) := by
  unfold serveOther
  split
  · rename_i id key v _ _
    split
    · exact ⟨[], [], rfl, by simp, fun _ ⟨m', h⟩ => by simp at h⟩
    · obtain ⟨l, oks, h1, h2, h3⟩ := Gateway.serve_run E.toEnv hw
        ⟨id, key, v, n.searchPrice, n.offerPrice, n.topupAmount, n.db, n.payment.getD (Payment.newMgr "")⟩ k m
      refine ⟨l, oks, h1, h2, fun hk ⟨m', hm⟩ => h3 hk ⟨m', ?_⟩⟩
      simpa using hm
  · have stay : ∀ {Q : Prop} {e : List (Event Sig)}, (∀ m', Event.other (.message m') ∉ e) → ∃ l oks, SqlOffer.run E.H512 n.db l = .ok (n.db, oks) ∧
        (∀ e ∈ l, Fits (Brings (E, .other k, m)) e.2) ∧
        (Q → (∃ m', Event.other (.message m') ∈ e) → ∀ pid o, Publishes E.toEnv m pid o → o ∈ l.map (·.2)) :=
      fun h => ⟨[], [], rfl, by simp, fun _ ⟨m', hm⟩ => absurd hm (h m')⟩
    have grow : ∀ {Q : Prop} {e : List (Event Sig)} {db : DB}, Runs E.H512 (Fits (Brings (E, .other k, m))) n.db db → (∀ m', Event.other (.message m') ∉ e) →
        ∃ l oks, SqlOffer.run E.H512 n.db l = .ok (db, oks) ∧ (∀ e ∈ l, Fits (Brings (E, .other k, m)) e.2) ∧
          (Q → (∃ m', Event.other (.message m') ∈ e) → ∀ pid o, Publishes E.toEnv m pid o → o ∈ l.map (·.2)) :=
      fun ⟨l, oks, h1, h2⟩ h => ⟨l, oks, h1, h2, fun _ ⟨m', hm⟩ => absurd hm (h m')⟩
    split
    · dsimp only
      unfold GatewayAdmin.freshPeerDht
      split
      · exact stay (by simp)
      · exact stay (by simp)
      · split
        · exact stay (by simp)
        · exact stay (by simp)
        · split
          · exact stay (by simp)
          · split
            · exact stay (by simp)
            · split
              · split <;> exact stay (by simp)
              · exact stay (by simp)
    · dsimp only
      unfold GatewayAdmin.freshPublishDht
      split
      · exact stay (by simp)
      · exact stay (by simp)
      · rename_i pid nonce offers hreq
        split
        · exact stay (by simp)
        · exact stay (by simp)
        · rename_i key hkey
          obtain ⟨⟨oks, hrun⟩, -⟩ := Gateway.storeAll_run E.toEnv hw key offers (fun o ho hp => ((Gateway.publishDht_req hreq).2 o ho hp).1) n.db
          have hg : Runs E.H512 (Fits (Brings (E, .other .publishDht, m))) n.db (Gateway.storeAll E.toEnv key n.db offers).1 := by
            refine ⟨_, oks, hrun, fun e he => ?_⟩
            obtain ⟨o, ho, rfl⟩ := List.mem_map.1 he
            have hst : Storable E.toEnv key o := by simpa using Gateway.takeWhile_holds ho
            exact ⟨⟨pid, key, ⟨nonce, .inl ⟨offers, hreq, (List.takeWhile_subset _ ho)⟩⟩, Gateway.senderKey_ok.1 hkey, hst.1⟩, hst.2⟩
          split <;> rename_i hst <;> rw [hst] at hg <;> exact grow hg (by simp)
    · dsimp only
      unfold GatewayAdmin.freshPublishGroup
      split
      · rename_i pid nonce o hreq
        split
        · exact stay (by simp)
        · exact stay (by simp)
        · rename_i key hkey
          split
          · exact stay (by simp)
          · exact stay (by simp)
          · rename_i hv
            have hs := Gateway.verify_signed.1 hv
            have hvo : Vouched E.toEnv m o := ⟨pid, key, ⟨nonce, .inr hreq⟩, Gateway.senderKey_ok.1 hkey, hs⟩
            obtain ⟨db', g1, g2, g3⟩ := Gateway.insert_works hw hs (fun _ => Gateway.vouched_built hvo) n.db
            rw [SqlOffer.addGroup, g1]
            by_cases hst : Storable E.toEnv key o
            · simp only [hst, decide_true] at g3 ⊢
              have hrun : SqlOffer.run E.H512 n.db [(.group, o)] = .ok (db', [true]) := by
                have h3' : SqlOffer.addGroup E.H512 (fun _ => false) n.db o = .ok (db', true) := by rw [SqlOffer.addGroup, g3]
                simp only [SqlOffer.run, h3', Res.bind_ok, Res.pure_ok]
              exact grow ⟨_, _, hrun, by simpa using ⟨hvo, hst.2⟩⟩ (by simp)
            · simp only [hst, decide_false]
              rw [g2 hst]
              exact stay (by simp)
      · exact stay (by simp)
      · exact stay (by simp)
    · exact stay (by simp)

theorem step_runs {E : Env Sig} (hw : DbWorks E.toEnv) (n : Node Sig) (r : Request) (m : Msg) :
    ∃ l oks, SqlOffer.run E.H512 n.db l = .ok ((step E n r m).1.db, oks) ∧ (∀ e ∈ l, Fits (Brings (E, r, m)) e.2) ∧
      (r = .other .publishDht ∨ r = .other .publishGroup → (∃ m', Event.other (.message m') ∈ (step E n r m).2) →
        ∀ pid o, Publishes E.toEnv m pid o → o ∈ l.map (·.2)) := by
  cases r with
  | admin k =>
    obtain ⟨l, oks, h1, h2⟩ := admin_runs hw n k m
    exact ⟨l, oks, h1, h2, fun h => by simp at h⟩
  | other k =>
    obtain ⟨l, oks, h1, h2, h3⟩ := other_runs hw n k m
    exact ⟨l, oks, h1, h2, fun h => h3 (by simpa using h)⟩

theorem live_runs (H512 : Hash) : ∀ (hist : List (Env Sig × Request × Msg)) (_ : ∀ e ∈ hist, e.1.H512 = H512 ∧ DbWorks e.1.toEnv) (n : Node Sig),
    ∃ l oks, SqlOffer.run H512 n.db l = .ok ((live n hist).db, oks) ∧
      (∀ x ∈ l, (∃ e ∈ hist, Brings e x.2) ∧ x.2.price < 2 ^ 63 ∧ x.2.qos < 2 ^ 63) ∧
      ∀ h1 E r m h2, hist = h1 ++ (E, r, m) :: h2 → r = .other .publishDht ∨ r = .other .publishGroup →
        (∃ m', Event.other (.message m') ∈ (step E (live n h1) r m).2) → ∀ pid o, Publishes E.toEnv m pid o → o ∈ l.map (·.2)
  | [], _, n => ⟨[], [], rfl, by simp, by intro h1 E r m h2 h; simp at h⟩
  | (E, r, m) :: hist, hE, n => by
    obtain ⟨hh, hw⟩ := hE (E, r, m) (by simp)
    obtain ⟨l1, oks1, r1, a1, b1⟩ := step_runs hw n r m
    obtain ⟨l2, oks2, r2, a2, b2⟩ := live_runs H512 hist (fun e he => hE e (by simp [he])) (step E n r m).1
    dsimp only at hh
    rw [hh] at r1
    refine ⟨l1 ++ l2, oks1 ++ oks2, Gateway.run_append _ _ _ _ _ _ _ r1 r2, ?_, ?_⟩
    · intro x hx
      rcases List.mem_append.1 hx with hx | hx
      · exact ⟨⟨(E, r, m), by simp, (a1 x hx).1⟩, (a1 x hx).2⟩
      · obtain ⟨⟨e, he, hv⟩, hb⟩ := a2 x hx
        exact ⟨⟨e, by simp [he], hv⟩, hb⟩
    · intro h1 E' r' m' h2 heq hk hm pid o ho
      rw [List.map_append]
      cases h1 with
      | nil =>
        rw [List.nil_append] at heq
        cases heq
        exact List.mem_append.2 (.inl (b1 hk hm pid o ho))
      | cons e h1 =>
        rw [List.cons_append] at heq
        cases heq
        exact List.mem_append.2 (.inr (b2 h1 E' r' m' h2 rfl hk hm pid o ho))

theorem brings_built {e : Env Sig × Request × Msg} {o : CidOffer} (h : Brings e o) : Built e.1.H o := by
  obtain ⟨E, r, m⟩ := e
  cases r with
  | other k => exact Gateway.vouched_built h
  | admin k =>
    obtain ⟨-, pid, req, resp, rec, key, ms, m', pid', -, -, -, -, -, -, -, ⟨nonce, hp⟩, hs⟩ := h
    obtain ⟨p, hpid, -⟩ := hs
    rcases hp with ⟨offers, hd, ho⟩ | hd
    · exact ((Gateway.publishDht_req hd).2 o ho (by rw [hpid]; simp)).1
    · obtain ⟨-, o', ho', hb⟩ := Gateway.publishGroup_req hd
      cases ho'
      exact hb (by rw [hpid]; simp)

theorem sane {H H512 : Hash} {hist : List (Env Sig × Request × Msg)} (hs : Sound H H512 hist) (l : List (SqlOffer.Kind × CidOffer))
    (hl : ∀ x ∈ l, ∃ e ∈ hist, Brings e x.2) : SqlOffer.Sane H H512 (l.map (·.2)) := by
  have h' : ∀ o ∈ l.map (·.2), ∃ e ∈ hist, Brings e o := by
    intro o ho
    obtain ⟨x, hx, rfl⟩ := List.mem_map.1 ho
    exact hl x hx
  refine ⟨fun o ho => ?_, hs.2 _ h'⟩
  obtain ⟨e, he, hv⟩ := h' o ho
  have := brings_built hv
  rw [(hs.1 e he).1] at this
  exact this

/-! ## C142 -/

/-- **C142, nothing else gets in**: whatever requests a gateway served since it was started, those of its admin among them, the offers it finds for a
content are for that content, unexpired, and each was brought by one of these requests: in a publish request of a provider registered at that moment,
or on the list of such a provider when the admin let the gateway ask for it; always signed under the registered key of that provider. -/
theorem C142_lookup (H H512 : Hash) (order : List OfferRow → List OfferRow) (hord : ∀ l, (order l).Perm l) (sp op tp : Int)
    (hist : List (Env Sig × Request × Msg)) (hs : Sound H H512 hist) (id : Id) (hid : id.length = 32) (off now : Int) (hnow : 0 ≤ now - off) :
    ∃ os, SqlOffer.getOffers H order off now (live (GatewayAdmin.newNode sp op tp) hist).db id = .ok (os, !os.isEmpty) ∧
      ∀ o ∈ os, id ∈ o.cids ∧ now - off < o.expiry ∧ ∃ e ∈ hist, Brings e o := by
  obtain ⟨l, oks, hrun, hl, -⟩ := live_runs H512 hist (fun e he => (hs.1 e he).2) (GatewayAdmin.newNode sp op tp)
  obtain ⟨db, oks', os, h1, h2, h3⟩ := SqlOffer.C26_by_cid H H512 order hord l (sane hs l (fun x hx => (hl x hx).1)) id hid off now hnow
  have hrun : SqlOffer.run H512 SqlOffer.newDB l = .ok ((live (GatewayAdmin.newNode sp op tp) hist).db, oks) := hrun
  rw [hrun] at h1
  cases h1
  refine ⟨os, h2, fun o ho => ?_⟩
  obtain ⟨o', ho', hm⟩ := List.mem_flatMap.1 (h3.mem_iff.1 ho)
  split at hm
  · rename_i he
    obtain ⟨hc, rfl⟩ := List.mem_replicate.1 hm
    obtain ⟨x, hx, rfl⟩ := List.mem_map.1 ((SqlOffer.C26_stored (l.map (·.2))).1 o ho').1
    exact ⟨List.count_pos_iff.1 (by omega), he.1, (hl x hx).1⟩
  · simp at hm

/-- **C142**: what a gateway acknowledged to a provider it serves until it expires, whatever its admin does before or after: sets another key, another
identifier or another wallet, lists offers, sets reputations. -/
theorem C142_publish (H H512 : Hash) (order : List OfferRow → List OfferRow) (hord : ∀ l, (order l).Perm l) (sp op tp : Int)
    (h1 h2 : List (Env Sig × Request × Msg)) (E : Env Sig) (k : Gateway.Kind) (m m' : Msg) (hs : Sound H H512 (h1 ++ (E, .other k, m) :: h2))
    (hk : k = .publishDht ∨ k = .publishGroup)
    (hm : Event.other (.message m') ∈ (step E (live (GatewayAdmin.newNode sp op tp) h1) (.other k) m).2)
    (pid : Option Id) (o : CidOffer) (ho : Publishes E.toEnv m pid o) (id : Id) (hid : id ∈ o.cids) (off now : Int) (hnow : 0 ≤ now - off)
    (hexp : now - off < o.expiry) (hyear : o.expiry ≤ 253402300799) :
    ∃ os, SqlOffer.getOffers H order off now (live (GatewayAdmin.newNode sp op tp) (h1 ++ (E, .other k, m) :: h2)).db id = .ok (os, true) ∧
      ∃ o' ∈ os, terms o' = terms o := by
  obtain ⟨l, oks, hrun, hl, hack⟩ := live_runs H512 _ (fun e he => (hs.1 e he).2) (GatewayAdmin.newNode sp op tp)
  have hol := hack h1 E (.other k) m h2 rfl (by rcases hk with rfl | rfl <;> simp) ⟨m', hm⟩ pid o ho
  obtain ⟨x, hx, rfl⟩ := List.mem_map.1 hol
  obtain ⟨⟨e, he, hv⟩, hp, hq⟩ := hl x hx
  obtain ⟨db, oks', os, g1, g2, g3⟩ := SqlOffer.C26_by_cid H H512 order hord l (sane hs l (fun x hx => (hl x hx).1)) id
    ((brings_built hv).1.2.1 id hid) off now hnow
  have hrun : SqlOffer.run H512 SqlOffer.newDB l =
    .ok ((live (GatewayAdmin.newNode sp op tp) (h1 ++ (E, .other k, m) :: h2)).db, oks) := hrun
  rw [hrun] at g1
  cases g1
  obtain ⟨o', ho', ht⟩ := (SqlOffer.C26_stored (l.map (·.2))).2.1 _ hol hp hq
  have hcids : o'.cids = x.2.cids := by
    have := congrArg (fun t => t.2.1) ht
    exact this
  have hexp' : o'.expiry = x.2.expiry := by
    have := congrArg (fun t => t.2.2.2.1) ht
    exact this
  have hmem : o' ∈ os := by
    refine g3.mem_iff.2 (List.mem_flatMap.2 ⟨o', ho', ?_⟩)
    rw [if_pos (by rw [hexp']; exact ⟨hexp, hyear⟩)]
    exact List.mem_replicate.2 ⟨by rw [hcids]; have := List.count_pos_iff.2 hid; omega, rfl⟩
  refine ⟨os, ?_, o', hmem, ht⟩
  rw [g2]
  cases os with
  | nil => cases hmem
  | cons a as => rfl

/-! ## C143 -/

/-- Everything that the admin's handlers send is signed with the key. -/
def AdminSigned (E : Env Sig) (key : Option (KeyPair × KeyVersion)) (outs : List GatewayAdmin.Out) : Prop :=
  ∀ x, (.message x ∈ outs ∨ ∃ i, .asked i x ∈ outs) → ∃ k v m0, key = some (k, v) ∧ Message.sign E.P k v m0 = (x, true)

theorem AdminSigned.silent {E : Env Sig} {key : Option (KeyPair × KeyVersion)} {a : List GatewayAdmin.Out}
    (h : ∀ x, .message x ∉ a ∧ ∀ i, .asked i x ∉ a) : AdminSigned E key a := by
  rintro x (hx | ⟨i, hx⟩)
  · exact absurd hx (h x).1
  · exact absurd hx ((h x).2 i)

theorem AdminSigned.append {E : Env Sig} {key : Option (KeyPair × KeyVersion)} {a b : List GatewayAdmin.Out} (ha : AdminSigned E key a)
    (hb : AdminSigned E key b) : AdminSigned E key (a ++ b) := by
  rintro x (h | ⟨i, h⟩)
  · rcases List.mem_append.1 h with h | h
    · exact ha x (.inl h)
    · exact hb x (.inl h)
  · rcases List.mem_append.1 h with h | h
    · exact ha x (.inr ⟨i, h⟩)
    · exact hb x (.inr ⟨i, h⟩)

theorem signMsg_by {E : Env Sig} {n : Node Sig} {m x : Msg} (h : GatewayAdmin.signMsg E n m = .ok x) :
    ∃ k v m0, n.key = some (k, v) ∧ Message.sign E.P k v m0 = (x, true) := by
  unfold GatewayAdmin.signMsg at h
  split at h
  · cases h
  · rename_i k v hk
    split at h
    · rename_i hs
      cases h
      exact ⟨k, v, m, hk, hs⟩
    · cases h

theorem respond_by {α : Type} {E : Env Sig} {n : Node Sig} {codec : Wire.Codec α} {a : α} : AdminSigned E n.key (GatewayAdmin.respond E n codec a) := by
  unfold GatewayAdmin.respond
  split
  · exact .silent (by simp)
  · exact .silent (by simp)
  · split
    · exact .silent (by simp)
    · exact .silent (by simp)
    · rename_i hs
      rintro x (h | ⟨i, h⟩)
      · simp at h
        subst h
        exact signMsg_by hs
      · simp at h

theorem lift_by {E : Env Sig} {k : KeyPair} {v : KeyVersion} : ∀ {o : List (Gateway.Out Sig)}, Gateway.AllSigned E.toEnv k v o →
    AdminSigned E (some (k, v)) (GatewayAdmin.lift o)
  | [], _ => .silent (by simp [GatewayAdmin.lift])
  | a :: o, h => by
    have h' : Gateway.AllSigned E.toEnv k v o := by
      rintro x (hx | ⟨i, hx⟩)
      · exact h x (.inl (by simp [hx]))
      · exact h x (.inr ⟨i, by simp [hx]⟩)
    have ih := lift_by h'
    cases a with
    | message m =>
      refine AdminSigned.append (a := [.message m]) ?_ ih
      rintro x (hx | ⟨i, hx⟩)
      · simp at hx
        subst hx
        obtain ⟨m0, h0⟩ := h x (.inl (by simp))
        exact ⟨k, v, m0, rfl, h0⟩
      · simp at hx
    | asked i m =>
      refine AdminSigned.append (a := [.asked i m]) ?_ ih
      rintro x (hx | ⟨i', hx⟩)
      · simp at hx
      · simp at hx
        obtain ⟨-, rfl⟩ := hx
        obtain ⟨m0, h0⟩ := h x (.inr ⟨i, by simp⟩)
        exact ⟨k, v, m0, rfl, h0⟩
    | panic => exact AdminSigned.append (a := [.crash]) (.silent (by simp)) ih
    | status c => exact ih
    | invalid => exact ih
    | failed => exact ih
    | paid r w => exact ih

theorem requestProvider_by {E : Env Sig} {n : Node Sig} {pid : Id} {type : Int} {args : List GatewayAdmin.Arg} :
    AdminSigned E n.key (GatewayAdmin.requestProvider E n pid type args).2 ∧ (GatewayAdmin.requestProvider E n pid type args).1.id = n.id ∧
      (GatewayAdmin.requestProvider E n pid type args).1.key = n.key := by
  unfold GatewayAdmin.requestProvider
  split
  · split
    · rename_i id k v hid hk
      refine ⟨?_, rfl, rfl⟩
      rw [hk]
      exact lift_by (Gateway.listOffers_signed E.toEnv ⟨id, k, v, n.searchPrice, n.offerPrice, n.topupAmount, n.db, n.payment.getD (Payment.newMgr "")⟩ _ _)
    · exact ⟨.silent (by simp), rfl, rfl⟩
  · split
    · split
      · rename_i hs
        refine ⟨?_, rfl, rfl⟩
        rintro x (h | ⟨i, h⟩)
        · simp at h
        · simp at h
          obtain ⟨-, rfl⟩ := h
          exact signMsg_by hs
      · exact ⟨.silent (by simp), rfl, rfl⟩
      · exact ⟨.silent (by simp), rfl, rfl⟩
    · exact ⟨.silent (by simp), rfl, rfl⟩
    · exact ⟨.silent (by simp), rfl, rfl⟩
  · exact ⟨.silent (by simp), rfl, rfl⟩

theorem requestAll_by {E : Env Sig} {type : Int} {args : Id → List GatewayAdmin.Arg} : ∀ (rs : List Register.Record) (n : Node Sig),
    AdminSigned E n.key (GatewayAdmin.requestAll E type args n rs).2 ∧ (GatewayAdmin.requestAll E type args n rs).1.id = n.id ∧
      (GatewayAdmin.requestAll E type args n rs).1.key = n.key
  | [], n => ⟨.silent (by simp [GatewayAdmin.requestAll]), rfl, rfl⟩
  | r :: rs, n => by
    unfold GatewayAdmin.requestAll
    split
    · exact requestAll_by rs n
    · rename_i id _
      obtain ⟨h1, h2, h3⟩ := requestProvider_by (E := E) (n := n) (pid := id) (type := type) (args := args id)
      obtain ⟨g1, g2, g3⟩ := requestAll_by (E := E) (type := type) (args := args) rs (GatewayAdmin.requestProvider E n id type (args id)).1
      rw [h3] at g1 g3
      exact ⟨h1.append g1, g2.trans h2, g3⟩

theorem admin_by (E : Env Sig) (n : Node Sig) (k : GatewayAdmin.Kind) (m : Msg) :
    AdminSigned E (GatewayAdmin.serve E n k m).1.key (GatewayAdmin.serve E n k m).2 ∧
    (k ≠ .initialise → k ≠ .initialiseV2 → (GatewayAdmin.serve E n k m).1.id = n.id ∧ (GatewayAdmin.serve E n k m).1.key = n.key) := by
  cases k with
  | initialise =>
    refine ⟨?_, fun h => absurd rfl h⟩
    simp only [GatewayAdmin.serve]
    unfold GatewayAdmin.initialise
    split
    · rename_i id k v _
      dsimp only
      exact respond_by (n := { n with id := id, key := some (k, v) })
    · exact .silent (by simp)
    · exact .silent (by simp)
  | initialiseV2 =>
    refine ⟨?_, fun _ h => absurd rfl h⟩
    simp only [GatewayAdmin.serve]
    unfold GatewayAdmin.initialiseV2
    split
    · dsimp only
      split
      · exact respond_by (n := { n with id := _, key := _, payment := _ })
      · exact .silent (by simp)
    · exact .silent (by simp)
    · exact .silent (by simp)
  | getReputation =>
    simp only [GatewayAdmin.serve]
    unfold GatewayAdmin.getReputation
    split
    · exact ⟨.silent (by simp), fun _ _ => ⟨rfl, rfl⟩⟩
    · split
      · split
        dsimp only
        exact ⟨respond_by, fun _ _ => ⟨rfl, rfl⟩⟩
      · exact ⟨.silent (by simp), fun _ _ => ⟨rfl, rfl⟩⟩
      · exact ⟨.silent (by simp), fun _ _ => ⟨rfl, rfl⟩⟩
  | setReputation =>
    simp only [GatewayAdmin.serve]
    unfold GatewayAdmin.setReputation
    split
    · exact ⟨.silent (by simp), fun _ _ => ⟨rfl, rfl⟩⟩
    · split
      · split
        rename_i store current found _
        dsimp only
        exact ⟨respond_by (n := { n with reputation := store }), fun _ _ => ⟨rfl, rfl⟩⟩
      · exact ⟨.silent (by simp), fun _ _ => ⟨rfl, rfl⟩⟩
      · exact ⟨.silent (by simp), fun _ _ => ⟨rfl, rfl⟩⟩
  | forceRefresh =>
    simp only [GatewayAdmin.serve]
    unfold GatewayAdmin.forceRefresh
    split
    · exact ⟨.silent (by simp), fun _ _ => ⟨rfl, rfl⟩⟩
    · split
      · exact ⟨.silent (by simp), fun _ _ => ⟨rfl, rfl⟩⟩
      · exact ⟨.silent (by simp), fun _ _ => ⟨rfl, rfl⟩⟩
      · refine ⟨AdminSigned.append ?_ respond_by, fun _ _ => ⟨rfl, rfl⟩⟩
        split <;> exact .silent (by simp)
  | listOffers =>
    simp only [GatewayAdmin.serve]
    unfold GatewayAdmin.listOffers
    split
    · exact ⟨.silent (by simp), fun _ _ => ⟨rfl, rfl⟩⟩
    · split
      · exact ⟨.silent (by simp), fun _ _ => ⟨rfl, rfl⟩⟩
      · exact ⟨.silent (by simp), fun _ _ => ⟨rfl, rfl⟩⟩
      · dsimp only
        split
        · unfold GatewayAdmin.listAll
          split
          · exact ⟨respond_by.append (.silent (by simp)), fun _ _ => ⟨rfl, rfl⟩⟩
          · split
            · exact ⟨respond_by.append (.silent (by simp)), fun _ _ => ⟨rfl, rfl⟩⟩
            · rename_i lo hi _
              obtain ⟨h1, h2, h3⟩ := requestAll_by (E := E) (type := (gatewayListDHTOfferRequest).code)
                (args := fun pid => [.cid lo, .cid hi, .node (some pid)]) E.providers n
              rw [h3]
              exact ⟨respond_by.append h1, fun _ _ => ⟨h2, rfl⟩⟩
        · dsimp only
          exact ⟨respond_by, fun _ _ => ⟨rfl, rfl⟩⟩
  | updateGroup =>
    simp only [GatewayAdmin.serve]
    unfold GatewayAdmin.updateGroup
    split
    · rename_i providers _
      dsimp only
      have hr := respond_by (E := E) (n := { n with groupProviders := providers }) (codec := gatewayAdminInitialiseKeyResponse) (a := true)
      split
      · rename_i a ha
        rw [ha] at hr
        obtain ⟨h1, h2, h3⟩ := requestAll_by (E := E) (type := (gatewayListDHTOfferRequest).code)
          (args := fun _ => [.node n.id, .bool true]) E.providers { n with groupProviders := providers }
        rw [h3]
        exact ⟨hr.append h1, fun _ _ => ⟨h2, rfl⟩⟩
      · exact ⟨hr, fun _ _ => ⟨rfl, rfl⟩⟩
    · exact ⟨.silent (by simp), fun _ _ => ⟨rfl, rfl⟩⟩
    · exact ⟨.silent (by simp), fun _ _ => ⟨rfl, rfl⟩⟩

theorem fresh_silent (E : Env Sig) (n : Node Sig) (m x : Msg) :
    (¬ Gateway.Sends x (GatewayAdmin.freshPeerDht E n m).2 ∧ (GatewayAdmin.freshPeerDht E n m).1 = n) ∧
    (¬ Gateway.Sends x (GatewayAdmin.freshPublishDht E n m).2 ∧ ∃ db, (GatewayAdmin.freshPublishDht E n m).1 = { n with db := db }) ∧
    (¬ Gateway.Sends x (GatewayAdmin.freshPublishGroup E n m).2 ∧ ∃ db, (GatewayAdmin.freshPublishGroup E n m).1 = { n with db := db }) := by
  have hs : ¬ Gateway.Sends x ([.panic] : List (Gateway.Out Sig)) ∧ ¬ Gateway.Sends x ([.invalid] : List (Gateway.Out Sig)) := by simp [Gateway.Sends]
  refine ⟨?_, ?_, ?_⟩
  · unfold GatewayAdmin.freshPeerDht
    repeat' split
    all_goals first | exact ⟨hs.1, rfl⟩ | exact ⟨hs.2, rfl⟩
  · unfold GatewayAdmin.freshPublishDht
    repeat' split
    all_goals first | exact ⟨hs.1, _, rfl⟩ | exact ⟨hs.2, _, rfl⟩
  · unfold GatewayAdmin.freshPublishGroup
    repeat' split
    all_goals first | exact ⟨hs.1, _, rfl⟩ | exact ⟨hs.2, _, rfl⟩

theorem other_by (E : Env Sig) (n : Node Sig) (k : Gateway.Kind) (m : Msg) :
    (serveOther E n k m).1.id = n.id ∧ (serveOther E n k m).1.key = n.key ∧
    ∀ x, Sends x (serveOther E n k m).2 → ∃ kp v m0, n.key = some (kp, v) ∧ Message.sign E.P kp v m0 = (x, true) := by
  have none' : ∀ x, ¬ Sends x ([.unready] : List (Event Sig)) := by simp [Sends]
  have sub : ∀ {x : Msg} {o : List (Gateway.Out Sig)}, Sends x (o.map Event.other) → Gateway.Sends x o := by
    rintro x o (h | ⟨i, h⟩ | h | ⟨i, h⟩)
    · simp at h
    · simp at h
    · exact .inl (by simpa using h)
    · exact .inr ⟨i, by simpa using h⟩
  unfold serveOther
  split
  · rename_i id key v hid hk
    split
    · exact ⟨rfl, rfl, fun x hx => absurd hx (none' x)⟩
    · refine ⟨rfl, rfl, fun x hx => ?_⟩
      obtain ⟨m0, h0⟩ := Gateway.serve_signed E.toEnv ⟨id, key, v, n.searchPrice, n.offerPrice, n.topupAmount, n.db, n.payment.getD (Payment.newMgr "")⟩ k m x (sub hx)
      exact ⟨key, v, m0, hk, h0⟩
  · split
    · obtain ⟨⟨-, h2⟩, -, -⟩ := fresh_silent E n m m
      refine ⟨by rw [h2], by rw [h2], fun x hx => absurd (sub hx) (fresh_silent E n m x).1.1⟩
    · obtain ⟨-, ⟨-, db, h2⟩, -⟩ := fresh_silent E n m m
      refine ⟨by rw [h2], by rw [h2], fun x hx => absurd (sub hx) (fresh_silent E n m x).2.1.1⟩
    · obtain ⟨-, -, -, db, h2⟩ := fresh_silent E n m m
      refine ⟨by rw [h2], by rw [h2], fun x hx => absurd (sub hx) (fresh_silent E n m x).2.2.1⟩
    · exact ⟨rfl, rfl, fun x hx => absurd hx (none' x)⟩

theorem step_by (E : Env Sig) (n : Node Sig) (r : Request) (m x : Msg) (hx : Sends x (step E n r m).2) :
    ∃ k v m0, (step E n r m).1.key = some (k, v) ∧ Message.sign E.P k v m0 = (x, true) := by
  cases r with
  | admin k =>
    refine (admin_by E n k m).1 x ?_
    rcases hx with h | ⟨i, h⟩ | h | ⟨i, h⟩
    · exact .inl (by simpa [step] using h)
    · exact .inr ⟨i, by simpa [step] using h⟩
    · simp [step] at h
    · simp [step] at h
  | other k =>
    obtain ⟨-, h2, h3⟩ := other_by E n k m
    obtain ⟨kp, v, m0, h4, h5⟩ := h3 x hx
    exact ⟨kp, v, m0, h2.trans h4, h5⟩

theorem step_key (E : Env Sig) (n : Node Sig) (r : Request) (m : Msg) :
    (keySet r m = none ∧ (step E n r m).1.id = n.id ∧ (step E n r m).1.key = n.key) ∨
    ∃ id kp v, keySet r m = some (id, kp, v) ∧ (step E n r m).1.id = id ∧ (step E n r m).1.key = some (kp, v) := by
  cases r with
  | other k => exact .inl ⟨rfl, (other_by E n k m).1, (other_by E n k m).2.1⟩
  | admin k =>
    by_cases h1 : k = .initialise
    · subst h1
      simp only [step, GatewayAdmin.serve, keySet]
      unfold GatewayAdmin.initialise
      generalize decode gatewayAdminInitialiseKeyRequest m = d
      rcases d with ⟨id, _ | kp, _ | v⟩ | _ | _
      · exact Or.inl ⟨rfl, rfl, rfl⟩
      · exact Or.inl ⟨rfl, rfl, rfl⟩
      · exact Or.inl ⟨rfl, rfl, rfl⟩
      · exact Or.inr ⟨id, kp, v, rfl, rfl, rfl⟩
      · exact Or.inl ⟨rfl, rfl, rfl⟩
      · exact Or.inl ⟨rfl, rfl, rfl⟩
    by_cases h2 : k = .initialiseV2
    · subst h2
      simp only [step, GatewayAdmin.serve, keySet]
      unfold GatewayAdmin.initialiseV2
      generalize decode gatewayAdminInitialiseKeyRequestV2 m = d
      rcases d with ⟨id, _ | kp, _ | v, w⟩ | _ | _
      · exact Or.inl ⟨rfl, rfl, rfl⟩
      · exact Or.inl ⟨rfl, rfl, rfl⟩
      · exact Or.inl ⟨rfl, rfl, rfl⟩
      · exact Or.inr ⟨id, kp, v, rfl, rfl, rfl⟩
      · exact Or.inl ⟨rfl, rfl, rfl⟩
      · exact Or.inl ⟨rfl, rfl, rfl⟩
    · refine Or.inl ⟨?_, (admin_by E n k m).2 h1 h2⟩
      cases k <;> first | rfl | exact absurd rfl h1 | exact absurd rfl h2

/-- **C143, which key and identifier a gateway has**: after any history, those which its admin set last. -/
theorem C143_key : ∀ (hist : List (Env Sig × Request × Msg)) (n : Node Sig),
    (lastKey hist = none ∧ (live n hist).id = n.id ∧ (live n hist).key = n.key) ∨
    ∃ id kp v, lastKey hist = some (id, kp, v) ∧ (live n hist).id = id ∧ (live n hist).key = some (kp, v)
  | [], n => Or.inl ⟨rfl, rfl, rfl⟩
  | (E, r, m) :: h, n => by
    unfold live lastKey
    dsimp only
    rcases C143_key h (step E n r m).1 with ⟨h1, h2, h3⟩ | ⟨id, kp, v, h1, h2, h3⟩
    · rw [h1, h2, h3]
      exact step_key E n r m
    · rw [h1]
      exact Or.inr ⟨id, kp, v, rfl, h2, h3⟩

theorem live_append (n : Node Sig) : ∀ (a b : List (Env Sig × Request × Msg)), live n (a ++ b) = live (live n a) b := by
  intro a
  induction a generalizing n with
  | nil => intro b; rfl
  | cons e a ih =>
    intro b
    obtain ⟨E, r, m⟩ := e
    exact ih (step E n r m).1 b

/-- **C143**: in every history, whatever a gateway writes as an answer, or sends to a gateway or a provider, verifies under the public part of the key
that its admin set last, and its signature names the version of that key.  Before the admin has set a key it sends nothing. -/
theorem C143_signed (P : Crypto.Prims) (hP : Crypto.Correct P) (sp op tp : Int) (hist : List (Env Sig × Request × Msg)) (E : Env Sig) (hE : E.P = P)
    (r : Request) (m x : Msg) (hx : Sends x (step E (live (GatewayAdmin.newNode sp op tp) hist) r m).2) :
    ∃ id kp v, lastKey (hist ++ [(E, r, m)]) = some (id, kp, v) ∧
      ∀ pub, Crypto.PrivateKey kp → pub.alg = Crypto.sigAlg → Crypto.publicPart P pub = Crypto.publicPart P kp →
        Crypto.verifyMessage P pub x.signature (Message.toSign x) = some true ∧ Crypto.extractKeyVersion x.signature = .ok v := by
  obtain ⟨kp, v, m0, h1, h2⟩ := step_by E _ r m x hx
  have hk : (live (GatewayAdmin.newNode sp op tp) (hist ++ [(E, r, m)])).key = some (kp, v) := by
    rw [live_append]
    exact h1
  rcases C143_key (hist ++ [(E, r, m)]) (GatewayAdmin.newNode sp op tp) with ⟨-, -, h3⟩ | ⟨id, kp', v', h3, -, h4⟩
  · rw [h3] at hk; cases hk
  · rw [h4] at hk
    cases hk
    refine ⟨id, kp, v, h3, ?_⟩
    intro pub hpriv halg hpub
    have := Message.C27_signed_verifies P hP kp pub v hpriv ⟨halg, hpub⟩ m0 x (hE ▸ h2)
    exact ⟨Gateway.verify_snd.1 this.1, this.2.2⟩

/-! ## C50, over the whole life -/

theorem requestAll_frame {E : Env Sig} {type : Int} {args : Id → List GatewayAdmin.Arg} : ∀ (rs : List Register.Record) (n : Node Sig),
    ∃ db, (GatewayAdmin.requestAll E type args n rs).1 = { n with db := db }
  | [], n => ⟨n.db, rfl⟩
  | r :: rs, n => by
    unfold GatewayAdmin.requestAll
    split
    · exact requestAll_frame rs n
    · rename_i id _
      have h : ∃ db, (GatewayAdmin.requestProvider E n id type (args id)).1 = { n with db := db } := by
        unfold GatewayAdmin.requestProvider
        repeat' split
        all_goals exact ⟨_, rfl⟩
      obtain ⟨db, h⟩ := h
      obtain ⟨db', h'⟩ := requestAll_frame (E := E) (type := type) (args := args) rs (GatewayAdmin.requestProvider E n id type (args id)).1
      refine ⟨db', ?_⟩
      dsimp only
      rw [h', h]

theorem admin_frame (E : Env Sig) (n : Node Sig) (k : GatewayAdmin.Kind) (m : Msg) :
    (GatewayAdmin.serve E n k m).1.searchPrice = n.searchPrice ∧ (GatewayAdmin.serve E n k m).1.offerPrice = n.offerPrice ∧
    (GatewayAdmin.serve E n k m).1.topupAmount = n.topupAmount ∧ (k ≠ .initialiseV2 → (GatewayAdmin.serve E n k m).1.payment = n.payment) := by
  cases k with
  | initialise => simp only [GatewayAdmin.serve]; unfold GatewayAdmin.initialise; split <;> exact ⟨rfl, rfl, rfl, fun _ => rfl⟩
  | initialiseV2 => simp only [GatewayAdmin.serve]; unfold GatewayAdmin.initialiseV2; split <;> exact ⟨rfl, rfl, rfl, fun h => absurd rfl h⟩
  | getReputation =>
    simp only [GatewayAdmin.serve]; unfold GatewayAdmin.getReputation
    split
    · exact ⟨rfl, rfl, rfl, fun _ => rfl⟩
    · split <;> exact ⟨rfl, rfl, rfl, fun _ => rfl⟩
  | setReputation =>
    simp only [GatewayAdmin.serve]; unfold GatewayAdmin.setReputation
    split
    · exact ⟨rfl, rfl, rfl, fun _ => rfl⟩
    · split <;> exact ⟨rfl, rfl, rfl, fun _ => rfl⟩
  | forceRefresh =>
    simp only [GatewayAdmin.serve]; unfold GatewayAdmin.forceRefresh
    split
    · exact ⟨rfl, rfl, rfl, fun _ => rfl⟩
    · split <;> exact ⟨rfl, rfl, rfl, fun _ => rfl⟩
  | listOffers =>
    simp only [GatewayAdmin.serve]; unfold GatewayAdmin.listOffers
    split
    · exact ⟨rfl, rfl, rfl, fun _ => rfl⟩
    · split
      · exact ⟨rfl, rfl, rfl, fun _ => rfl⟩
      · exact ⟨rfl, rfl, rfl, fun _ => rfl⟩
      · dsimp only
        split
        · unfold GatewayAdmin.listAll
          split
          · exact ⟨rfl, rfl, rfl, fun _ => rfl⟩
          · split
            · exact ⟨rfl, rfl, rfl, fun _ => rfl⟩
            · rename_i lo hi _
              obtain ⟨db, h⟩ := requestAll_frame (E := E) (type := (gatewayListDHTOfferRequest).code)
                (args := fun pid => [.cid lo, .cid hi, .node (some pid)]) E.providers n
              rw [h]
              exact ⟨rfl, rfl, rfl, fun _ => rfl⟩
        · exact ⟨rfl, rfl, rfl, fun _ => rfl⟩
  | updateGroup =>
    simp only [GatewayAdmin.serve]; unfold GatewayAdmin.updateGroup
    split
    · rename_i providers _
      dsimp only
      split
      · obtain ⟨db, h⟩ := requestAll_frame (E := E) (type := (gatewayListDHTOfferRequest).code) (args := fun _ => [.node n.id, .bool true]) E.providers
          { n with groupProviders := providers }
        rw [h]
        exact ⟨rfl, rfl, rfl, fun _ => rfl⟩
      · exact ⟨rfl, rfl, rfl, fun _ => rfl⟩
    · exact ⟨rfl, rfl, rfl, fun _ => rfl⟩
    · exact ⟨rfl, rfl, rfl, fun _ => rfl⟩

theorem other_frame (E : Env Sig) (n : Node Sig) (k : Gateway.Kind) (m : Msg) :
    (serveOther E n k m).1.searchPrice = n.searchPrice ∧ (k ≠ .peerDhtOffer → (serveOther E n k m).1.offerPrice = n.offerPrice) ∧
    (serveOther E n k m).1.topupAmount = n.topupAmount ∧ (serveOther E n k m).1.payment.isSome = n.payment.isSome := by
  unfold serveOther
  split
  · rename_i id key v _ _
    split
    · exact ⟨rfl, fun _ => rfl, rfl, rfl⟩
    · obtain ⟨-, -, -, h4, h5, h6, -⟩ := Gateway.serve_frame E.toEnv
        ⟨id, key, v, n.searchPrice, n.offerPrice, n.topupAmount, n.db, n.payment.getD (Payment.newMgr "")⟩ k m
      exact ⟨rfl, h6, rfl, by cases n.payment <;> rfl⟩
  · split
    · obtain ⟨⟨-, h2⟩, -, -⟩ := fresh_silent E n m m
      rw [h2]
      exact ⟨rfl, fun _ => rfl, rfl, rfl⟩
    · obtain ⟨-, ⟨-, db, h2⟩, -⟩ := fresh_silent E n m m
      rw [h2]
      exact ⟨rfl, fun _ => rfl, rfl, rfl⟩
    · obtain ⟨-, -, -, db, h2⟩ := fresh_silent E n m m
      rw [h2]
      exact ⟨rfl, fun _ => rfl, rfl, rfl⟩
    · exact ⟨rfl, fun _ => rfl, rfl, rfl⟩

/-- **C50** over the whole life of a gateway, with whatever its admin does: the price of a search is the configured one, and so is the price of an
offer as long as no gateway asks for offers (`C50_refuted` shows what happens then). -/
theorem C50_life_partial (sp op tp : Int) (hist : List (Env Sig × Request × Msg)) :
    (live (GatewayAdmin.newNode sp op tp) hist).searchPrice = sp ∧
    ((∀ e ∈ hist, e.2.1 ≠ .other .peerDhtOffer) → (live (GatewayAdmin.newNode sp op tp) hist).offerPrice = op) := by
  have key : ∀ (hist : List (Env Sig × Request × Msg)) (n : Node Sig), (live n hist).searchPrice = n.searchPrice ∧
      ((∀ e ∈ hist, e.2.1 ≠ .other .peerDhtOffer) → (live n hist).offerPrice = n.offerPrice) := by
    intro hist
    induction hist with
    | nil => intro n; exact ⟨rfl, fun _ => rfl⟩
    | cons e hist ih =>
      intro n
      obtain ⟨E, r, m⟩ := e
      have h := ih (step E n r m).1
      have hs : (step E n r m).1.searchPrice = n.searchPrice ∧ (r ≠ .other .peerDhtOffer → (step E n r m).1.offerPrice = n.offerPrice) := by
        cases r with
        | admin k => exact ⟨(admin_frame E n k m).1, fun _ => (admin_frame E n k m).2.1⟩
        | other k => exact ⟨(other_frame E n k m).1, fun hk => (other_frame E n k m).2.1 (by simpa using hk)⟩
      refine ⟨h.1.trans hs.1, fun hn => (h.2 (fun e he => hn e (by simp [he]))).trans (hs.2 (hn (E, r, m) (by simp)))⟩
  exact key hist _

/-! ## C144 -/

theorem live_wallet : ∀ (hist : List (Env Sig × Request × Msg)) (n : Node Sig), (live n hist).payment.isSome = (hasWallet hist).getD n.payment.isSome
  | [], n => rfl
  | (E, r, m) :: h, n => by
    have ih := live_wallet h (step E n r m).1
    have hs : (step E n r m).1.payment.isSome = (walletSet E r m).getD n.payment.isSome := by
      cases r with
      | other k => exact (other_frame E n k m).2.2.2
      | admin k =>
        by_cases h2 : k = .initialiseV2
        · subst h2
          simp only [step, GatewayAdmin.serve, walletSet]
          unfold GatewayAdmin.initialiseV2
          generalize decode gatewayAdminInitialiseKeyRequestV2 m = d
          rcases d with ⟨id, _ | kp, _ | v, w⟩ | _ | _ <;> rfl
        · have : walletSet E (.admin k) m = none := by cases k <;> first | rfl | exact absurd rfl h2
          rw [this]
          show (GatewayAdmin.serve E n k m).1.payment.isSome = n.payment.isSome
          rw [(admin_frame E n k m).2.2.2 h2]
    show (live (step E n r m).1 h).payment.isSome = _
    rw [ih, hs]
    have : hasWallet ((E, r, m) :: h) = match hasWallet h with | some x => some x | none => walletSet E r m := rfl
    rw [this]
    cases hasWallet h <;> rfl

theorem live_topup : ∀ (hist : List (Env Sig × Request × Msg)) (n : Node Sig), (live n hist).topupAmount = n.topupAmount
  | [], n => rfl
  | (E, r, m) :: h, n => by
    refine (live_topup h (step E n r m).1).trans ?_
    cases r with
    | other k => exact (other_frame E n k m).2.2.1
    | admin k => exact (admin_frame E n k m).2.2.1

/-- **C144, once it is set up**: whatever happened since a gateway was started, if its admin has given it an identifier and a key, and a wallet if the
request has to be paid, then it serves a request as `Gateway.serve` does, with the identifier and the key set last, the configured prices, and the
store it has. -/
theorem C144_ready (sp op tp : Int) (hist : List (Env Sig × Request × Msg)) (id : Id) (kp : KeyPair) (v : KeyVersion) (hk : lastKey hist = some (some id, kp, v))
    (kind : Gateway.Kind) (hw : pays kind = true → hasWallet hist = some true) (E : Env Sig) (m : Msg) :
    ∃ c : Gateway.Core Sig, c.id = id ∧ c.key = kp ∧ c.keyVersion = v ∧ c.searchPrice = sp ∧ c.topupAmount = tp ∧
      c.db = (live (GatewayAdmin.newNode sp op tp) hist).db ∧
      (step E (live (GatewayAdmin.newNode sp op tp) hist) (.other kind) m).2 = (Gateway.serve E.toEnv c kind m).2.map .other ∧
      (live (GatewayAdmin.newNode sp op tp) (hist ++ [(E, .other kind, m)])).db = (Gateway.serve E.toEnv c kind m).1.db := by
  have h1 := live_wallet hist (GatewayAdmin.newNode sp op tp)
  have h2 := (C50_life_partial sp op tp hist).1
  have h3 := live_topup hist (GatewayAdmin.newNode sp op tp)
  rw [live_append]
  have h4 : (live (GatewayAdmin.newNode sp op tp) hist).id = some id ∧ (live (GatewayAdmin.newNode sp op tp) hist).key = some (kp, v) := by
    rcases C143_key hist (GatewayAdmin.newNode sp op tp) with ⟨g, -⟩ | ⟨id', kp', v', g, g1, g2⟩
    · rw [hk] at g; cases g
    · rw [hk] at g; cases g; exact ⟨g1, g2⟩
  generalize live (GatewayAdmin.newNode sp op tp) hist = n at *
  have hno : ¬ (pays kind && n.payment.isNone) = true := by
    intro h
    simp at h
    rw [hw h.1, h.2] at h1
    cases h1
  refine ⟨⟨id, kp, v, n.searchPrice, n.offerPrice, n.topupAmount, n.db, n.payment.getD (Payment.newMgr "")⟩, rfl, rfl, rfl, h2, h3, rfl, ?_, ?_⟩
  · simp only [step, serveOther, h4.1, h4.2]
    rw [if_neg hno]
  · simp only [live, step, serveOther, h4.1, h4.2]
    rw [if_neg hno]

/-- **C144, before**: as long as its admin has given it no key, and for requests that have to be paid no wallet, a gateway sends nothing to anybody. -/
theorem C144_unready (sp op tp : Int) (hist : List (Env Sig × Request × Msg)) (kind : Gateway.Kind)
    (hn : lastKey hist = none ∨ pays kind = true ∧ hasWallet hist ≠ some true) (E : Env Sig) (m x : Msg) :
    ¬ Sends x (step E (live (GatewayAdmin.newNode sp op tp) hist) (.other kind) m).2 := by
  intro hx
  rcases hn with hn | ⟨hp, hw⟩
  · obtain ⟨kp, v, m0, h, -⟩ := (other_by E _ kind m).2.2 x hx
    rcases C143_key hist (GatewayAdmin.newNode sp op tp) with ⟨-, -, g⟩ | ⟨id', kp', v', g, -⟩
    · rw [g] at h; cases h
    · rw [hn] at g; cases g
  · have h1 := live_wallet hist (GatewayAdmin.newNode sp op tp)
    have hnone : (live (GatewayAdmin.newNode sp op tp) hist).payment.isNone = true := by
      cases hh : hasWallet hist with
      | none =>
        rw [hh] at h1
        have h1 : (live (GatewayAdmin.newNode sp op tp) hist).payment.isSome = false := h1
        simpa using h1
      | some b =>
        cases b
        · rw [hh] at h1
          have h1 : (live (GatewayAdmin.newNode sp op tp) hist).payment.isSome = false := h1
          simpa using h1
        · exact absurd hh hw
    generalize live (GatewayAdmin.newNode sp op tp) hist = n at *
    simp only [step, serveOther] at hx
    split at hx
    · simp [hp, hnone, Sends] at hx
    · cases kind <;> simp [pays] at hp <;> simp [Sends] at hx

/-- **C144, which requests wait for a wallet**: without one a gateway that has its key is silent to the two requests of standard discovery, the two of DHT discovery and the two that gateways
make of one another in the DHT, and serves every other request as `Gateway.serve` does. -/
theorem C144_wallet (sp op tp : Int) (hist : List (Env Sig × Request × Msg)) (id : Id) (kp : KeyPair) (v : KeyVersion) (hk : lastKey hist = some (some id, kp, v))
    (hw : hasWallet hist ≠ some true) (kind : Gateway.Kind) (E : Env Sig) (m : Msg) :
    (kind ∈ [.standardV2, .standardOffer, .dhtV2, .dhtOffer, .peerDhtV2, .peerDhtOffer] →
      ∀ x, ¬ Sends x (step E (live (GatewayAdmin.newNode sp op tp) hist) (.other kind) m).2) ∧
    (kind ∉ [.standardV2, .standardOffer, .dhtV2, .dhtOffer, .peerDhtV2, .peerDhtOffer] →
      ∃ c : Gateway.Core Sig, c.id = id ∧ c.key = kp ∧ c.keyVersion = v ∧ c.db = (live (GatewayAdmin.newNode sp op tp) hist).db ∧
        (step E (live (GatewayAdmin.newNode sp op tp) hist) (.other kind) m).2 = (Gateway.serve E.toEnv c kind m).2.map .other) := by
  constructor
  · intro h x
    exact C144_unready sp op tp hist kind (.inr ⟨by cases kind <;> first | rfl | simp at h, hw⟩) E m x
  · intro h
    obtain ⟨c, h1, h2, h3, -, -, h6, h7, -⟩ := C144_ready sp op tp hist id kp v hk kind (by cases kind <;> simp at h <;> simp [pays]) E m
    exact ⟨c, h1, h2, h3, h6, h7⟩

/-- **C144, the first thing a client does**: a gateway that has been set up answers the challenge of a client, if its key works and the request is not
late. -/
theorem C144_establishment (sp op tp : Int) (hist : List (Env Sig × Request × Msg)) (id : Id) (hid : id.length = 32) (kp : KeyPair) (v : KeyVersion)
    (hk : lastKey hist = some (some id, kp, v)) (E : Env Sig) (hpr : ProtocolOk E.pr) (hs : ∀ b, (Crypto.signMessage E.P kp v b).isSome) (m : Msg)
    (client : Id) (challenge : List Char) (ttl : Int) (hreq : decode clientEstablishmentRequest m = .ok (some client, challenge, ttl)) (ht : E.now ≤ ttl) :
    ∃ x, (step E (live (GatewayAdmin.newNode sp op tp) hist) (.other .establishment) m).2 = [.other (.message x)] ∧
      decode clientEstablishmentResponse x = .ok (some id, challenge) := by
  obtain ⟨c, h1, h2, h3, -, -, -, h7, -⟩ := C144_ready sp op tp hist id kp v hk .establishment (by simp [pays]) E m
  have hc : Gateway.CanSign E.toEnv c := by
    intro b
    rw [h2, h3]
    exact hs b
  obtain ⟨x, g1, -, g3⟩ := Gateway.respond_writes (b1 := .status 400) (b2 := .status 500) hc
    (C30_clientEstablishmentResponse E.pr hpr (some id) challenge ⟨id, rfl, hid⟩)
  refine ⟨x, ?_, g3⟩
  rw [h7]
  have : (Gateway.serve E.toEnv c .establishment m).2 = [.message x] := by
    simp only [Gateway.serve, Gateway.establishment, hreq, h1]
    rw [if_neg (by omega)]
    exact g1
  rw [this]
  rfl

/-! ## Examples: a gateway that is set up, takes an offer, and is set up again with another key -/

def exEnv : Env Unit := { GatewayAdmin.exFreshEnv with newPayments := fun _ _ _ => some (Payment.newMgr "me") }

theorem exSet (k : KeyPair) (hk : Crypto.PrivateKey k) (v : KeyVersion) :
    ∃ m, decode gatewayAdminInitialiseKeyRequestV2 m = .ok (some (Merkle.exId 1), some k, some v, ['w'], ['a'], ['t']) := by
  obtain ⟨m, -, -, -, -, h⟩ := C30_gatewayAdminInitialiseKeyRequestV2 Message.defaultProtocol defaultProtocolOk (some (Merkle.exId 1)) (some k) (some v)
    ['w'] ['a'] ['t'] ⟨_, rfl, Merkle.exId_proper 1⟩ ⟨_, rfl, hk⟩ ⟨_, rfl⟩
  exact ⟨_, (h []).2⟩

theorem exSet_key {m : Msg} {k : KeyPair} {v : KeyVersion} (h : decode gatewayAdminInitialiseKeyRequestV2 m = .ok (some (Merkle.exId 1), some k, some v, ['w'], ['a'], ['t'])) :
    keySet (.admin .initialiseV2) m = some (some (Merkle.exId 1), k, v) := by
  simp [keySet, h]

theorem exSet_wallet {m : Msg} {k : KeyPair} {v : KeyVersion} (h : decode gatewayAdminInitialiseKeyRequestV2 m = .ok (some (Merkle.exId 1), some k, some v, ['w'], ['a'], ['t'])) :
    walletSet exEnv (.admin .initialiseV2) m = some true := by
  simp [walletSet, h, exEnv]

theorem exSound (hist : List (Env Unit × Request × Msg)) (h : ∀ e ∈ hist, e.1 = exEnv) : Sound Merkle.toyHash exEnv.H512 hist :=
  ⟨fun e he => by rw [h e he]; exact ⟨rfl, rfl, Gateway.exEnv_works⟩, fun l _ x _ y _ b b' _ _ h => h⟩

/-- An offer taken under the first key is still found after the admin has set a second one, and what the gateway then answers to a client is
signed with the second one. -/
example : ∃ set1 publish set2 ask answer,
    let hist := [(exEnv, .admin .initialiseV2, set1), (exEnv, .other .publishGroup, publish), (exEnv, .admin .initialiseV2, set2)]
    (∃ os, SqlOffer.getOffers Merkle.toyHash exEnv.order 0 1000 (live (GatewayAdmin.newNode 1 2 3) hist).db (Merkle.exId 2) = .ok (os, true) ∧
      ∃ o' ∈ os, terms o' = terms (Journey.exOfferBy Offer.exKey)) ∧
    Sends answer (step exEnv (live (GatewayAdmin.newNode 1 2 3) hist) (.other .establishment) ask).2 ∧
    Crypto.extractKeyVersion answer.signature = .ok 2 := by
  have hpub : Admin.exPub.alg = Crypto.sigAlg ∧ Crypto.publicPart Admin.keyed Admin.exPub = Crypto.publicPart Admin.keyed Offer.exKey := ⟨rfl, by decide +kernel⟩
  obtain ⟨set1, h1⟩ := exSet Offer.exKey Offer.exKey_private 1
  obtain ⟨set2, h2⟩ := exSet Offer.exKey Offer.exKey_private 2
  obtain ⟨m, hd, ha⟩ := Journey.exRequest (k := Offer.exKey) (pub := Admin.exPub) (i := Merkle.exId 9) (rec := Admin.exRecord) (Merkle.exId_proper 9) (by simp [Journey.exG2])
    GatewayAdmin.exRecord_key Offer.exKey_private hpub
  obtain ⟨ask, -, -, -, -, hask⟩ := C30_clientEstablishmentRequest Message.defaultProtocol defaultProtocolOk (some (Merkle.exId 3)) ['c'] 2000 ⟨_, rfl, Merkle.exId_proper 3⟩
    ⟨by decide, by decide⟩
  obtain ⟨c, c1, c2, c3, -, -, -, c7, -⟩ := C144_ready 1 2 3 [(exEnv, .admin .initialiseV2, set1)] (Merkle.exId 1) Offer.exKey 1 (by simp [lastKey, exSet_key h1])
    .publishGroup (by simp [pays]) exEnv m
  have hs : ∀ v b, (Crypto.signMessage exEnv.P Offer.exKey v b).isSome := fun v b => Admin.keyed_signs Offer.exKey_private v b
  have hE : exEnv.toEnv = Journey.exG2 := rfl
  rw [hE] at c7
  have hstore := Journey.exOfferBy_storable Offer.exKey_private hpub
  have hd' : decode (providerPublishGroupOfferRequest Journey.exG2.H) m = .ok (some (Merkle.exId 9), 1, some (Journey.exOfferBy Offer.exKey)) := by
    rw [Journey.exG2_hash]; exact hd
  have hsign : Gateway.CanSign Journey.exG2 c := by
    intro b
    rw [c2]
    exact hs c.keyVersion b
  generalize ho : Journey.exOfferBy Offer.exKey = o at *
  have hserved := Gateway.C52_publishGroup_served Journey.exG2 Journey.exG2_works defaultProtocolOk c hsign (by rw [c1]; exact Merkle.exId_proper 1) m (some (Merkle.exId 9)) 1 o
    Admin.exPub hd' ha
  subst ho
  rw [if_pos hstore] at hserved
  obtain ⟨db, m', d, -, -, hout, -⟩ := hserved
  have hlast : lastKey [(exEnv, .admin .initialiseV2, set1), (exEnv, .other .publishGroup, m), (exEnv, .admin .initialiseV2, set2)] = some (some (Merkle.exId 1), Offer.exKey, 2) := by
    simp [lastKey, exSet_key h2]
  obtain ⟨x, hx, -⟩ := C144_establishment 1 2 3 _ (Merkle.exId 1) (Merkle.exId_proper 1) Offer.exKey 2 hlast exEnv defaultProtocolOk (hs 2) _ (Merkle.exId 3) ['c'] 2000
    (hask []).2 (by decide)
  have hsend : Sends x (step exEnv (live (GatewayAdmin.newNode 1 2 3) [(exEnv, .admin .initialiseV2, set1), (exEnv, .other .publishGroup, m), (exEnv, .admin .initialiseV2, set2)])
      (.other .establishment) { ask with signature := [] }).2 := by
    rw [hx]
    exact .inr (.inr (.inl (by simp)))
  refine ⟨set1, m, set2, _, x, ?_, hsend, ?_⟩
  · refine C142_publish Merkle.toyHash exEnv.H512 exEnv.order (fun _ => .refl _) 1 2 3 [(exEnv, .admin .initialiseV2, set1)] [(exEnv, .admin .initialiseV2, set2)]
      exEnv .publishGroup m m' (exSound _ (by intro e he; simp at he; rcases he with rfl | rfl | rfl <;> rfl)) (.inr rfl) ?_ (some (Merkle.exId 9)) _ ⟨1, .inr hd⟩
      (Merkle.exId 2) (by decide) 0 1000 (by decide) (by decide) (by decide)
    rw [c7]
    show Event.other _ ∈ (Gateway.publishGroup Journey.exG2 c m).2.map Event.other
    rw [hout]
    simp
  · obtain ⟨id, kp, v, g1, g2⟩ := C143_signed Admin.keyed Admin.keyed_correct 1 2 3 _ exEnv rfl _ _ x hsend
    have : lastKey ([(exEnv, Request.admin .initialiseV2, set1), (exEnv, .other .publishGroup, m), (exEnv, .admin .initialiseV2, set2)] ++
        [(exEnv, .other .establishment, { ask with signature := [] })]) = some (some (Merkle.exId 1), Offer.exKey, 2) := by
      have hn : ∀ x, keySet (.other .establishment) x = none := fun _ => rfl
      simp [lastKey, exSet_key h2, hn]
    rw [this] at g1
    cases g1
    exact (g2 Admin.exPub Offer.exKey_private hpub.1 hpub.2).2

/-- Before the admin has set a key nothing is answered; with a key but no wallet nothing that has to be paid for. -/
example (m x : Msg) : ¬ Sends x (step exEnv (live (GatewayAdmin.newNode 1 2 3) []) (.other .establishment) m).2 :=
  C144_unready 1 2 3 [] .establishment (.inl rfl) exEnv m x
example (m x : Msg) : ∃ set1, ¬ Sends x (step exEnv (live (GatewayAdmin.newNode 1 2 3) [(exEnv, .admin .initialise, set1)]) (.other .standardV2) m).2 ∧
    lastKey [(exEnv, .admin .initialise, set1)] = some (some (Merkle.exId 1), Offer.exKey, 1) := by
  obtain ⟨m1, -, -, -, -, h⟩ := C30_gatewayAdminInitialiseKeyRequest Message.defaultProtocol defaultProtocolOk (some (Merkle.exId 1)) (some Offer.exKey) (some 1)
    ⟨_, rfl, Merkle.exId_proper 1⟩ ⟨_, rfl, Offer.exKey_private⟩ ⟨_, rfl⟩
  refine ⟨{ m1 with signature := [] }, C144_unready 1 2 3 _ .standardV2 (.inr ⟨rfl, by simp [hasWallet, walletSet]⟩) exEnv m x, ?_⟩
  simp [lastKey, keySet, (h []).2]
/-- With a wallet, a request that has to be paid for reaches its handler. -/
example : ∃ set1, lastKey [(exEnv, .admin .initialiseV2, set1)] = some (some (Merkle.exId 1), Offer.exKey, 1) ∧ hasWallet [(exEnv, .admin .initialiseV2, set1)] = some true := by
  obtain ⟨m1, h⟩ := exSet Offer.exKey Offer.exKey_private 1
  exact ⟨m1, by simp [lastKey, exSet_key h], by simp [hasWallet, exSet_wallet h]⟩

end FcRetrieval.GatewayLife
