import Verif.Spec.Restart
import Verif.Lemmas.SqlCut
import Verif.Props.GatewayLife
import Verif.Props.AdminGateway
/-!
# A gateway that is stopped and started again: C180
-/

set_option linter.unusedSimpArgs false

namespace FcRetrieval.Restart
open FcRetrieval.Ids (Id)
open FcRetrieval.Crypto (KeyPair KeyVersion)
open FcRetrieval.Merkle (Hash)
open FcRetrieval.Message (Msg)
open FcRetrieval.Offer (CidOffer Built InRange terms)
open FcRetrieval.Wire (decode)
open FcRetrieval.Codecs
open FcRetrieval.SqlOffer (DB OfferRow Known Whole Complete Grows)
open FcRetrieval.GatewayAdmin (Env Node)
open FcRetrieval.GatewayLife (Request Event live step Brings Sound Sends lastKey hasWallet pays)
open FcRetrieval.Gateway (Publishes)

variable {Sig : Type}

theorem file_name {b c : Boot} : dbFile b = dbFile c ↔ b.name = c.name := by
  have h : ∀ b : Boot, dbFile b = "logs" ++ "/" ++ (b.name ++ ".sqlite") := by
    intro b
    unfold dbFile Boot.name
    by_cases hd : b.dockerName = ""
    · simp [hd]
    · simp [hd]
  rw [h, h]
  constructor
  · intro e
    have e := congrArg String.toList e
    simp only [String.toList_append] at e
    exact String.toList_inj.1 (List.append_cancel_right (List.append_cancel_left e))
  · intro e
    rw [e]

/-- What the requests of the lives bring. -/
def Brought (Ls : List (Life Sig)) (o : CidOffer) : Prop := ∃ e ∈ requests Ls, Brings e o

theorem set_of {H H512 : Hash} {Ls : List (Life Sig)} (hs : Sound H H512 (requests Ls)) : SqlOffer.Set H H512 (Brought Ls) := by
  have hb : ∀ o, Brought Ls o → Built H o := by
    rintro o ⟨e, he, hv⟩
    have := GatewayLife.brings_built hv
    rw [(hs.1 e he).1] at this
    exact this
  refine ⟨hb, fun o o' ho ho' hd => ?_⟩
  have hno := hs.2 [o, o'] (by
    intro x hx
    simp at hx
    rcases hx with rfl | rfl
    · exact ho
    · exact ho')
  exact (SqlOffer.dhex_iff (hb o ho).1 (hb o' ho').1 (hno o (by simp) o' (by simp))).1 hd

/-- What one life does to its database. -/
theorem life_known {H H512 : Hash} {S : CidOffer → Prop} (hS : SqlOffer.Set H H512 S) (disk : Disk) (L : Life Sig) (hk : Known H512 S (disk (dbFile L.boot)))
    (he : ∀ e ∈ L.served ++ (L.cut.map (·.1)).toList, (e.1.H512 = H512 ∧ Gateway.DbWorks e.1.toEnv) ∧ ∀ o, Brings e o → S o) (hf : L.Fits disk) :
    Known H512 S (L.left disk) ∧ Grows (disk (dbFile L.boot)) (L.left disk) ∧
    (∀ h1 E r m h2, L.served = h1 ++ (E, r, m) :: h2 → r = .other .publishDht ∨ r = .other .publishGroup →
      (∃ m', Event.other (.message m') ∈ (step E (live (up disk L.boot) h1) r m).2) → ∀ pid o, Publishes E.toEnv m pid o → S o ∧ Whole H512 o (L.left disk)) ∧
    (L.cut = none → Complete H512 S (disk (dbFile L.boot)) → Complete H512 S (L.left disk)) := by
  obtain ⟨l, oks, hrun, hl, hack⟩ := GatewayLife.live_runs H512 L.served (fun e h => (he e (by simp [h])).1) (up disk L.boot)
  have hlS : ∀ x ∈ l, S x.2 := by
    intro x hx
    obtain ⟨⟨e, h1, h2⟩, -⟩ := hl x hx
    exact (he e (by simp [h1])).2 _ h2
  obtain ⟨k1, g1, w1, c1⟩ := SqlOffer.run_known hS l _ _ oks hk hlS hrun
  have key : Known H512 S (L.left disk) ∧ Grows (L.node disk).db (L.left disk) := by
    unfold Life.left
    cases hc : L.cut with
    | none => exact ⟨k1, .refl _⟩
    | some x =>
      obtain ⟨e, db⟩ := x
      have hfe := hf e db hc
      obtain ⟨⟨e1, e2⟩, e3⟩ := he e (by simp [hc])
      obtain ⟨E, r, m⟩ := e
      obtain ⟨l', oks', hrun', hl', -⟩ := GatewayLife.step_runs e2 (L.node disk) r m
      dsimp only at e1
      rw [e1] at hrun'
      obtain ⟨k2, -⟩ := SqlOffer.run_known hS l' _ _ oks' k1 (fun x hx => e3 _ (hl' x hx).1) hrun'
      exact ⟨k2.cut ⟨hfe.1.2, hfe.2.2⟩, ⟨hfe.1.1, hfe.2.1⟩⟩
  refine ⟨key.1, g1.trans key.2, ?_, ?_⟩
  · intro h1 E r m h2 heq hr hm pid o ho
    obtain ⟨x, hx, rfl⟩ := List.mem_map.1 (hack h1 E r m h2 heq hr hm pid o ho)
    exact ⟨hlS x hx, (w1 x hx (hl x hx).2.1 (hl x hx).2.2).grows key.2⟩
  · intro hc hco
    unfold Life.left
    rw [hc]
    exact c1 hco

/-- What lives one after the other do to the disk. -/
theorem after_known {H H512 : Hash} {S : CidOffer → Prop} (hS : SqlOffer.Set H H512 S) : ∀ (Ls : List (Life Sig)) (disk : Disk), (∀ f, Known H512 S (disk f)) →
    (∀ e ∈ requests Ls, (e.1.H512 = H512 ∧ Gateway.DbWorks e.1.toEnv) ∧ ∀ o, Brings e o → S o) → Fit disk Ls →
    (∀ f, Known H512 S (after disk Ls f)) ∧ (∀ f, Grows (disk f) (after disk Ls f)) ∧
    ((∀ L ∈ Ls, L.cut = none) → (∀ f, Complete H512 S (disk f)) → ∀ f, Complete H512 S (after disk Ls f))
  | [], disk, hk, _, _ => ⟨hk, fun _ => .refl _, fun _ h => h⟩
  | L :: Ls, disk, hk, he, hf => by
    obtain ⟨k1, g1, -, c1⟩ := life_known hS disk L (hk _) (fun e h => he e (List.mem_flatMap.2 ⟨L, by simp, h⟩)) hf.1
    have hk' : ∀ f, Known H512 S (down disk L.boot (L.left disk) f) := by
      intro f
      unfold down
      split
      · exact k1
      · exact hk f
    have hg' : ∀ f, Grows (disk f) (down disk L.boot (L.left disk) f) := by
      intro f
      unfold down
      split
      · rename_i h; rw [h]; exact g1
      · exact .refl _
    obtain ⟨k2, g2, c2⟩ := after_known hS Ls _ hk' (fun e h => he e (by
      obtain ⟨L', h1, h2⟩ := List.mem_flatMap.1 h
      exact List.mem_flatMap.2 ⟨L', by simp [h1], h2⟩)) hf.2
    refine ⟨k2, fun f => (hg' f).trans (g2 f), fun hc hco => c2 (fun L' h => hc L' (by simp [h])) ?_⟩
    intro f
    unfold down
    split
    · exact c1 (hc L (by simp)) (hco _)
    · exact hco f

theorem after_append (disk : Disk) : ∀ (As Bs : List (Life Sig)), after disk (As ++ Bs) = after (after disk As) Bs
  | [], _ => rfl
  | L :: As, Bs => after_append (down disk L.boot (L.left disk)) As Bs

theorem fit_append : ∀ (disk : Disk) (As Bs : List (Life Sig)), Fit disk (As ++ Bs) → Fit disk As ∧ Fit (after disk As) Bs
  | _, [], _, h => ⟨trivial, h⟩
  | disk, L :: As, Bs, h => by
    obtain ⟨h1, h2⟩ := fit_append (down disk L.boot (L.left disk)) As Bs h.2
    exact ⟨⟨h.1, h1⟩, h2⟩

theorem requests_append (As Bs : List (Life Sig)) : requests (As ++ Bs) = requests As ++ requests Bs := by simp [requests]

/-! ## C180 -/

/-- **C180, what is kept**: gateways were started and stopped on a machine any number of times, each time at any moment, in the middle of storing offers as
well; in one of these lives a gateway acknowledged an offer to its provider.  Started again under the same name, whatever its prices are now and
whichever key and identifier it will be given, the gateway finds the offer until it expires, as one of the lives was brought it. -/
theorem C180_kept (H H512 : Hash) (order : List OfferRow → List OfferRow) (hord : ∀ l, (order l).Perm l) (As Bs : List (Life Sig)) (L : Life Sig)
    (hs : Sound H H512 (requests (As ++ L :: Bs))) (hf : Fit freshDisk (As ++ L :: Bs))
    (h1 h2 : List (Env Sig × Request × Msg)) (E : Env Sig) (k : Gateway.Kind) (m m' : Msg) (hL : L.served = h1 ++ (E, .other k, m) :: h2)
    (hk : k = .publishDht ∨ k = .publishGroup) (hm : Event.other (.message m') ∈ (step E (live (up (after freshDisk As) L.boot) h1) (.other k) m).2)
    (pid : Option Id) (o : CidOffer) (ho : Publishes E.toEnv m pid o) (b : Boot) (hb : b.name = L.boot.name)
    (id : Id) (hid : id ∈ o.cids) (off now : Int) (hnow : 0 ≤ now - off) (hexp : now - off < o.expiry) (hyear : o.expiry ≤ 253402300799) :
    ∃ os, SqlOffer.getOffers H order off now (up (Sig := Sig) (after freshDisk (As ++ L :: Bs)) b).db id = .ok (os, true) ∧
      ∃ o' ∈ os, terms o' = terms o ∧ ∃ e ∈ requests (As ++ L :: Bs), Brings e o' := by
  have hb := file_name.2 hb
  have hS := set_of hs
  have hall : ∀ e ∈ requests (As ++ L :: Bs), (e.1.H512 = H512 ∧ Gateway.DbWorks e.1.toEnv) ∧ ∀ o, Brings e o → Brought (As ++ L :: Bs) o :=
    fun e he => ⟨(hs.1 e he).2, fun o h => ⟨e, he, h⟩⟩
  obtain ⟨f1, f2⟩ := fit_append freshDisk As (L :: Bs) hf
  rw [requests_append] at hall
  obtain ⟨k1, -, -⟩ := after_known hS As freshDisk (fun _ => Known.empty _ _) (fun e he => hall e (by simp [he])) f1
  have hLr : ∀ e ∈ L.served ++ (L.cut.map (·.1)).toList, e ∈ requests (L :: Bs) := fun e he => List.mem_flatMap.2 ⟨L, by simp, he⟩
  obtain ⟨-, -, w1, -⟩ := life_known hS (after freshDisk As) L (k1 _) (fun e he => hall e (List.mem_append.2 (.inr (hLr e he)))) f2.1
  obtain ⟨k2, g2, -⟩ := after_known hS (L :: Bs) (after freshDisk As) k1 (fun e he => hall e (by simp [he])) f2
  obtain ⟨ho1, hw⟩ := w1 h1 E (.other k) m h2 hL (by rcases hk with rfl | rfl <;> simp) ⟨m', hm⟩ pid o ho
  have hk' : ∀ f, Known H512 (Brought (As ++ L :: Bs)) (down (after freshDisk As) L.boot (L.left (after freshDisk As)) f) := by
    intro f
    unfold down
    split
    · exact (life_known hS (after freshDisk As) L (k1 _) (fun e he => hall e (List.mem_append.2 (.inr (hLr e he)))) f2.1).1
    · exact k1 f
  obtain ⟨-, g3, -⟩ := after_known hS Bs _ hk' (fun e he => hall e (List.mem_append.2 (.inr (by
    obtain ⟨L', x1, x2⟩ := List.mem_flatMap.1 he
    exact List.mem_flatMap.2 ⟨L', by simp [x1], x2⟩)))) f2.2
  have hw' : Whole H512 o (after freshDisk (As ++ L :: Bs) (dbFile b)) := by
    rw [after_append, hb]
    refine Whole.grows ?_ (g3 _)
    unfold down
    rw [if_pos rfl]
    exact hw
  have kk : Known H512 (Brought (As ++ L :: Bs)) (after freshDisk (As ++ L :: Bs) (dbFile b)) := by
    rw [after_append]
    exact k2 _
  obtain ⟨os, r1, r2, -⟩ := SqlOffer.lookup_known kk hS order hord off now hnow id ((hS.built o ho1).1.2.1 id hid)
  obtain ⟨o', ho', hS', ht⟩ := r2 o ho1 hw' hid hexp hyear
  refine ⟨os, ?_, o', ho', ht, hS'⟩
  show SqlOffer.getOffers H order off now (after freshDisk (As ++ L :: Bs) (dbFile b)) id = _
  rw [r1]
  cases os with
  | nil => cases ho'
  | cons a as => rfl

/-- **C180, nothing else**: a lookup after any number of lives, ended at any moment, is answered, and every offer that it finds is for the content and
unexpired, and a request of one of the lives brought an offer of this provider, price, expiry, quality and signature with at least these contents.  If no
life ended in the middle of a request, a request brought exactly this offer. -/
theorem C180_only (H H512 : Hash) (order : List OfferRow → List OfferRow) (hord : ∀ l, (order l).Perm l) (Ls : List (Life Sig))
    (hs : Sound H H512 (requests Ls)) (hf : Fit freshDisk Ls) (b : Boot) (id : Id) (hid : id.length = 32) (off now : Int) (hnow : 0 ≤ now - off) :
    ∃ os, SqlOffer.getOffers H order off now (up (Sig := Sig) (after freshDisk Ls) b).db id = .ok (os, !os.isEmpty) ∧
      (∀ o' ∈ os, id ∈ o'.cids ∧ now - off < o'.expiry ∧ ∃ e ∈ requests Ls, ∃ o, Brings e o ∧ o'.providerID = o.providerID ∧ o'.price = o.price ∧
        o'.expiry = o.expiry ∧ o'.qos = o.qos ∧ o'.signature = o.signature ∧ (∀ c ∈ o'.cids, c ∈ o.cids) ∧ o'.cids.length ≤ o.cids.length) ∧
      ((∀ L ∈ Ls, L.cut = none) → ∀ o' ∈ os, ∃ e ∈ requests Ls, Brings e o') := by
  have hS := set_of hs
  obtain ⟨k1, -, c1⟩ := after_known hS Ls freshDisk (fun _ => Known.empty _ _) (fun e he => ⟨(hs.1 e he).2, fun o h => ⟨e, he, h⟩⟩) hf
  obtain ⟨os, r1, -, r3, r4⟩ := SqlOffer.lookup_known (k1 (dbFile b)) hS order hord off now hnow id hid
  refine ⟨os, r1, fun o' ho' => ?_, fun hc o' ho' => ?_⟩
  · obtain ⟨a1, a2, o, ⟨e, he, hv⟩, a3⟩ := r3 o' ho'
    exact ⟨a1, a2, e, he, o, hv, a3⟩
  · exact r4 (c1 hc (fun f r hr => by simp [freshDisk, SqlOffer.newDB] at hr) _) o' ho'

/-- The moments that matter: whatever offers a gateway was storing when it ended, after however many statements of the insertion of one of them, what it
left is between what it had and what it would have had. -/
theorem C180_moments (H512 : Hash) (l1 l2 : List (SqlOffer.Kind × CidOffer)) (k : SqlOffer.Kind) (o : CidOffer) (hl : ∀ e ∈ l1 ++ (k, o) :: l2, InRange e.2)
    (hp : o.price < 2 ^ 63) (hq : o.qos < 2 ^ 63) (db db1 x db' : DB) (oks1 oks : List Bool) (h1 : SqlOffer.run H512 db l1 = .ok (db1, oks1)) (n : Nat)
    (hx : SqlOffer.interrupted H512 n db1 o = .ok x) (h : SqlOffer.run H512 db (l1 ++ (k, o) :: l2) = .ok (db', oks)) : Between db x db' := by
  have ho : InRange o := hl (k, o) (by simp)
  obtain ⟨oks2, h2⟩ := SqlOffer.run_split l1 _ db db1 db' oks1 oks h1 h
  obtain ⟨db2, ok, oks3, hi, h3, -⟩ := SqlOffer.run_cons_ok h2
  have g1 := SqlOffer.run_grows l1 db db1 oks1 (fun e he => hl e (by simp [he])) h1
  have g3 := SqlOffer.run_grows l2 db2 db' oks3 (fun e he => hl e (by simp [he])) h3
  rw [SqlOffer.interrupted_eq ho] at hx
  cases hx
  rw [SqlOffer.insert_eq ho, if_pos (by simp [SqlOffer.bindable, hp, hq])] at hi
  cases hi
  have gx := SqlOffer.foldl_grows ((SqlOffer.Stmt.offer (SqlOffer.rowOf H512 o) :: (SqlOffer.contentRows (SqlOffer.dhex H512 o) o).map .content).take n) db1
  have gy := SqlOffer.foldl_grows ((SqlOffer.Stmt.offer (SqlOffer.rowOf H512 o) :: (SqlOffer.contentRows (SqlOffer.dhex H512 o) o).map .content).drop n)
    (((SqlOffer.Stmt.offer (SqlOffer.rowOf H512 o) :: (SqlOffer.contentRows (SqlOffer.dhex H512 o) o).map .content).take n).foldl SqlOffer.runStmt db1)
  rw [← List.foldl_append, List.take_append_drop] at gy
  have gx := g1.trans gx
  have gy := gy.trans g3
  exact ⟨⟨gx.1, gy.1⟩, ⟨gx.2, gy.2⟩⟩

/-- **C180, ready again**: started again and given a key, and for what has to be paid a wallet, the gateway serves every request as one that was never
stopped: with that key, and with the offers that are on the disk and those that came since. -/
theorem C180_ready (disk : Disk) (b : Boot) (hist : List (Env Sig × Request × Msg)) (id : Id) (kp : KeyPair) (v : KeyVersion) (hk : lastKey hist = some (some id, kp, v))
    (kind : Gateway.Kind) (hw : pays kind = true → hasWallet hist = some true) (E : Env Sig) (m : Msg) :
    ∃ c : Gateway.Core Sig, c.id = id ∧ c.key = kp ∧ c.keyVersion = v ∧ c.topupAmount = b.topupAmount ∧ c.db = (live (up disk b) hist).db ∧
      (step E (live (up disk b) hist) (.other kind) m).2 = (Gateway.serve E.toEnv c kind m).2.map .other ∧
      (step E (live (up disk b) hist) (.other kind) m).1.db = (Gateway.serve E.toEnv c kind m).1.db := by
  have h1 := GatewayLife.live_wallet hist (up disk b)
  have h3 := GatewayLife.live_topup hist (up disk b)
  have h4 : (live (up disk b) hist).id = some id ∧ (live (up disk b) hist).key = some (kp, v) := by
    rcases GatewayLife.C143_key hist (up disk b) with ⟨g, -⟩ | ⟨id', kp', v', g, g1, g2⟩
    · rw [hk] at g; cases g
    · rw [hk] at g; cases g; exact ⟨g1, g2⟩
  generalize live (up disk b) hist = n at *
  have hno : ¬ (pays kind && n.payment.isNone) = true := by
    intro h
    simp at h
    rw [hw h.1, h.2] at h1
    cases h1
  refine ⟨⟨id, kp, v, n.searchPrice, n.offerPrice, n.topupAmount, n.db, n.payment.getD (Payment.newMgr "")⟩, rfl, rfl, rfl, h3, rfl, ?_, ?_⟩
  · simp only [step, GatewayLife.serveOther, h4.1, h4.2]
    rw [if_neg hno]
  · simp only [step, GatewayLife.serveOther, h4.1, h4.2]
    rw [if_neg hno]

/-- **C180 is false: silence**: whatever keys and wallets the gateway had before, as long as its admin has not set it up again it sends nothing to anybody. -/
theorem C180_silent_refuted (disk : Disk) (b : Boot) (hist : List (Env Sig × Request × Msg)) (kind : Gateway.Kind)
    (hn : lastKey hist = none ∨ pays kind = true ∧ hasWallet hist ≠ some true) (E : Env Sig) (m x : Msg) :
    ¬ Sends x (step E (live (up disk b) hist) (.other kind) m).2 := by
  intro hx
  rcases hn with hn | ⟨hp, hw⟩
  · obtain ⟨kp, v, m0, h, -⟩ := (GatewayLife.other_by E _ kind m).2.2 x hx
    rcases GatewayLife.C143_key hist (up disk b) with ⟨-, -, g⟩ | ⟨id', kp', v', g, -⟩
    · rw [g] at h; cases h
    · rw [hn] at g; cases g
  · have h1 := GatewayLife.live_wallet hist (up disk b)
    have hnone : (live (up disk b) hist).payment.isNone = true := by
      cases hh : hasWallet hist with
      | none =>
        rw [hh] at h1
        have h1 : (live (up disk b) hist).payment.isSome = false := h1
        simpa using h1
      | some c =>
        cases c
        · rw [hh] at h1
          have h1 : (live (up disk b) hist).payment.isSome = false := h1
          simpa using h1
        · exact absurd hh hw
    generalize live (up disk b) hist = n at *
    simp only [step, GatewayLife.serveOther] at hx
    split at hx
    · simp [hp, hnone, Sends] at hx
    · cases kind <;> simp [pays] at hp <;> simp [Sends] at hx

/-- **C180 is false: another name**: started on a machine of another name, or in a container of another name, with the same disk, a gateway has none of the
offers that it acknowledged. -/
theorem C180_renamed_refuted (H : Hash) (order : List OfferRow → List OfferRow) (hord : ∀ l, (order l).Perm l) (Ls : List (Life Sig)) (b : Boot)
    (hb : ∀ L ∈ Ls, L.boot.name ≠ b.name) (id : Id) (off now : Int) :
    SqlOffer.getOffers H order off now (up (Sig := Sig) (after freshDisk Ls) b).db id = .ok ([], false) := by
  have hb : ∀ L ∈ Ls, dbFile L.boot ≠ dbFile b := fun L h e => hb L h (file_name.1 e)
  have : ∀ (Ls : List (Life Sig)) (disk : Disk), (∀ L ∈ Ls, dbFile L.boot ≠ dbFile b) → after disk Ls (dbFile b) = disk (dbFile b) := by
    intro Ls
    induction Ls with
    | nil => intro disk _; rfl
    | cons L Ls ih =>
      intro disk h
      show after (down disk L.boot (L.left disk)) Ls (dbFile b) = _
      rw [ih _ (fun L' h' => h L' (by simp [h']))]
      unfold down
      rw [if_neg (fun e => h L (by simp) e.symm)]
  show SqlOffer.getOffers H order off now (after freshDisk Ls (dbFile b)) id = _
  rw [this Ls freshDisk hb]
  have h0 : order [] = [] := (hord []).eq_nil
  show SqlOffer.selectGo H SqlOffer.newDB (-1) (order []) [] false = _
  rw [h0]
  rfl

/-- **C180 is false: payments**: a gateway has credited a voucher.  It would not credit it again.  Stopped, started again and set up with the same wallet, it
credits the same voucher once more, and with all of its amount. -/
theorem C180_voucher_refuted (E : Env Sig) (disk : Disk) (b : Boot) (set : Msg) (id : Option Id) (k : KeyPair) (v : KeyVersion) (wallet api token : List Char)
    (hset : decode gatewayAdminInitialiseKeyRequestV2 set = .ok (id, some k, some v, wallet, api, token)) {me : Payment.Addr}
    (hp : E.newPayments wallet api token = some (Payment.newMgr me)) (n : Node Sig) (ops : List (Payment.RecvOp Sig))
    (hn : n.payment = some (Payment.recvRun E.verifyVoucher (Payment.newMgr me) ops).1) {j : Nat} {op : Payment.RecvOp Sig} {w : Payment.Voucher Sig} {a : Int}
    (hop : ops[j]? = some op) (hw : op.voucher = some w) (hacc : (Payment.recvRun E.verifyVoucher (Payment.newMgr me) ops).2[j]? = some (.credited a)) :
    (∀ p c, n.payment = some p → (Payment.receive E.verifyVoucher p op.channel op.voucher op.chain).2 ≠ .credited c) ∧
    ∃ p, (live (up (down disk b n.db) b) [(E, .admin .initialiseV2, set)]).payment = some p ∧ a ≤ w.body.amount ∧
      (Payment.receive E.verifyVoucher p op.channel op.voucher op.chain).2 = .credited w.body.amount := by
  refine ⟨fun p c h => ?_, Payment.newMgr me, ?_, ?_⟩
  · rw [hn] at h
    cases h
    rw [hw]
    exact (Payment.C37_replay_rejected E.verifyVoucher me ops hop hw hacc w rfl (Int.le_refl _) op.chain).1 c
  · simp [live, step, GatewayAdmin.serve, GatewayAdmin.initialiseV2, hset, hp]
  · exact Payment.fresh_credits E.verifyVoucher me (ops.take j) hw (Payment.recvRun_nth E.verifyVoucher hop hacc)

/-! ## Examples: a gateway that is stopped after the first statement of a publication, started again, takes the publication, and is started again -/

def exBoot : Boot := ⟨"host", "", 1, 2, 3⟩
def exOther : Boot := ⟨"host", "gateway-0", 1, 2, 3⟩

example : dbFile exBoot = "logs/host.sqlite" ∧ dbFile exOther = "logs/gateway-0.sqlite" := by decide +kernel

theorem exFiles : exBoot.name ≠ exOther.name := by decide +kernel

open GatewayLife (exEnv exSet exSet_key exSet_wallet exSound) in
/-- The publication, and what a gateway does with it that has been set up: it acknowledges it, and the database is as the insertion leaves it. -/
theorem exPublish : ∃ set publish, decode gatewayAdminInitialiseKeyRequestV2 set = .ok (some (Merkle.exId 1), some Offer.exKey, some 1, ['w'], ['a'], ['t']) ∧
    (Publishes exEnv.toEnv publish (some (Merkle.exId 9)) (Journey.exOfferBy Offer.exKey) ∧
      ∀ q o, Publishes exEnv.toEnv publish q o → o = Journey.exOfferBy Offer.exKey) ∧ InRange (Journey.exOfferBy Offer.exKey) ∧
    ∀ disk b, ∃ db m', (live (up disk b) [(exEnv, .admin .initialiseV2, set)]).db = disk (dbFile b) ∧
      (step exEnv (live (up disk b) [(exEnv, .admin .initialiseV2, set)]) (.other .publishGroup) publish).1.db = db ∧
      Event.other (.message m') ∈ (step exEnv (live (up disk b) [(exEnv, .admin .initialiseV2, set)]) (.other .publishGroup) publish).2 ∧
      SqlOffer.run exEnv.H512 (disk (dbFile b)) [(.group, Journey.exOfferBy Offer.exKey)] = .ok (db, [true]) := by
  have hpub : Admin.exPub.alg = Crypto.sigAlg ∧ Crypto.publicPart Admin.keyed Admin.exPub = Crypto.publicPart Admin.keyed Offer.exKey := ⟨rfl, by decide +kernel⟩
  obtain ⟨set, hset⟩ := exSet Offer.exKey Offer.exKey_private 1
  obtain ⟨m, hd, ha⟩ := Journey.exRequest (k := Offer.exKey) (pub := Admin.exPub) (i := Merkle.exId 9) (rec := Admin.exRecord) (Merkle.exId_proper 9) (by simp [Journey.exG2])
    GatewayAdmin.exRecord_key Offer.exKey_private hpub
  have hd' : decode (providerPublishGroupOfferRequest Journey.exG2.H) m = .ok (some (Merkle.exId 9), 1, some (Journey.exOfferBy Offer.exKey)) := by
    rw [Journey.exG2_hash]; exact hd
  have hstore := Journey.exOfferBy_storable Offer.exKey_private hpub
  have hin : InRange (Journey.exOfferBy Offer.exKey) := (Journey.exOfferBy_built Offer.exKey).1
  refine ⟨set, m, hset, ⟨⟨1, .inr hd⟩, fun q o h => (Journey.exGroup_publishes hd (show Publishes Journey.exG m q o from h)).2⟩, hin, fun disk b => ?_⟩
  obtain ⟨c, c1, c2, c3, -, c5, c6, c7⟩ := C180_ready disk b [(exEnv, .admin .initialiseV2, set)] (Merkle.exId 1) Offer.exKey 1 (by simp [lastKey, exSet_key hset])
    .publishGroup (by simp [pays]) exEnv m
  have hE : exEnv.toEnv = Journey.exG2 := rfl
  rw [hE] at c6 c7
  have hsign : Gateway.CanSign Journey.exG2 c := by
    intro x
    rw [c2]
    exact Admin.keyed_signs Offer.exKey_private c.keyVersion x
  have hdb : (live (up disk b) [(exEnv, .admin .initialiseV2, set)]).db = disk (dbFile b) := by
    have hp : exEnv.newPayments ['w'] ['a'] ['t'] = some (Payment.newMgr "me") := rfl
    simp [live, step, GatewayAdmin.serve, GatewayAdmin.initialiseV2, hset, hp, up]
  generalize Journey.exOfferBy Offer.exKey = o at *
  have hserved := Gateway.C52_publishGroup_served Journey.exG2 Journey.exG2_works defaultProtocolOk c hsign (by rw [c1]; exact Merkle.exId_proper 1) m (some (Merkle.exId 9)) 1 o
    Admin.exPub hd' ha
  rw [if_pos hstore] at hserved
  obtain ⟨db, m', d, g1, g2, g3, -⟩ := hserved
  refine ⟨db, m', hdb, ?_, ?_, ?_⟩
  · rw [c7]
    show (Gateway.publishGroup Journey.exG2 c m).1.db = db
    rw [g2]
  · rw [c6]
    show Event.other _ ∈ (Gateway.publishGroup Journey.exG2 c m).2.map Event.other
    rw [g3]
    simp
  · rw [← hdb, ← c5]
    exact g1

open GatewayLife (exEnv exSound) in
/-- The first life ends after the first statement of the insertion, the second one takes the publication, the third one ends at once; what the fourth one
finds, and what it finds under another name. -/
example : ∃ set publish db, db.offers.length = 1 ∧ db.contents = [] ∧
    let Ls : List (Life Unit) := [⟨exBoot, [(exEnv, .admin .initialiseV2, set)], some ((exEnv, .other .publishGroup, publish), db)⟩,
      ⟨exBoot, [(exEnv, .admin .initialiseV2, set), (exEnv, .other .publishGroup, publish)], none⟩, ⟨exBoot, [], none⟩]
    (∃ os, SqlOffer.getOffers Merkle.toyHash exEnv.order 0 1000 (up (Sig := Unit) (after freshDisk Ls) exBoot).db (Merkle.exId 2) = .ok (os, true) ∧
      ∃ o' ∈ os, terms o' = terms (Journey.exOfferBy Offer.exKey) ∧ ∃ e ∈ requests Ls, Brings e o') ∧
    (∃ os, SqlOffer.getOffers Merkle.toyHash exEnv.order 0 1000 (up (Sig := Unit) (after freshDisk Ls) exBoot).db (Merkle.exId 2) = .ok (os, !os.isEmpty) ∧
      ∀ o' ∈ os, Merkle.exId 2 ∈ o'.cids) ∧
    SqlOffer.getOffers Merkle.toyHash exEnv.order 0 1000 (up (Sig := Unit) (after freshDisk Ls) exOther).db (Merkle.exId 2) = .ok ([], false) := by
  obtain ⟨set, publish, hset, ⟨hpub, -⟩, hin, hstep⟩ := exPublish
  let o := Journey.exOfferBy Offer.exKey
  let db : DB := ⟨[SqlOffer.rowOf exEnv.H512 o], []⟩
  have hx : SqlOffer.interrupted exEnv.H512 1 SqlOffer.newDB o = .ok db := by
    rw [SqlOffer.interrupted_eq hin]
    rfl
  let L1 : Life Unit := ⟨exBoot, [(exEnv, .admin .initialiseV2, set)], some ((exEnv, .other .publishGroup, publish), db)⟩
  let L2 : Life Unit := ⟨exBoot, [(exEnv, .admin .initialiseV2, set), (exEnv, .other .publishGroup, publish)], none⟩
  let L3 : Life Unit := ⟨exBoot, [], none⟩
  have hf : Fit freshDisk ([L1] ++ L2 :: [L3]) := by
    refine ⟨?_, ?_, ?_, trivial⟩
    · intro e x h
      cases h
      obtain ⟨db', m', h1, h2, h3, h4⟩ := hstep freshDisk exBoot
      have := C180_moments exEnv.H512 [] [] .group o (by simpa using hin) (show 5 < 2 ^ 63 by decide) (show 3 < 2 ^ 63 by decide) SqlOffer.newDB SqlOffer.newDB db db' [] [true]
        rfl 1 hx h4
      rw [← h2] at this
      exact (show (Life.node freshDisk L1).db = SqlOffer.newDB from h1) ▸ this
    · intro e x h; cases h
    · intro e x h; cases h
  have hs : Sound Merkle.toyHash exEnv.H512 (requests ([L1] ++ L2 :: [L3])) := exSound _ (by
    intro e he
    simp [requests, L1, L2, L3] at he
    rcases he with rfl | rfl | rfl | rfl <;> rfl)
  refine ⟨set, publish, db, rfl, rfl, ?_, ?_, ?_⟩
  · obtain ⟨db', m', h1, h2, h3, h4⟩ := hstep (after freshDisk [L1]) exBoot
    exact C180_kept Merkle.toyHash exEnv.H512 exEnv.order (fun _ => .refl _) [L1] [L3] L2 hs hf [(exEnv, .admin .initialiseV2, set)] [] exEnv .publishGroup publish m' rfl
      (.inr rfl) h3 (some (Merkle.exId 9)) o hpub exBoot rfl (Merkle.exId 2) (by decide) 0 1000 (by decide) (by decide) (by decide)
  · obtain ⟨os, g1, g2, -⟩ := C180_only Merkle.toyHash exEnv.H512 exEnv.order (fun _ => .refl _) _ hs hf exBoot (Merkle.exId 2) (Merkle.exId_proper 2) 0 1000 (by decide)
    exact ⟨os, g1, fun o' ho' => (g2 o' ho').1⟩
  · refine C180_renamed_refuted Merkle.toyHash exEnv.order (fun _ => .refl _) _ exOther ?_ (Merkle.exId 2) 0 1000
    intro L hL
    have : L.boot = exBoot := by
      simp at hL
      rcases hL with rfl | rfl | rfl <;> rfl
    rw [this]
    exact exFiles

/-- A gateway that has credited ten, before and after. -/
def exPaidNode : Node Unit :=
  { GatewayAdmin.newNode (Sig := Unit) 1 2 3 with payment := some (Payment.recvRun GatewayLife.exEnv.verifyVoucher (Payment.newMgr "me") Admin.exPaid).1 }
example : ∃ set p, (live (up (down freshDisk exBoot SqlOffer.newDB) exBoot) [(GatewayLife.exEnv, .admin .initialiseV2, set)]).payment = some p ∧ (10 : Int) ≤ 10 ∧
    (Payment.receive GatewayLife.exEnv.verifyVoucher p "ch" (some ⟨⟨"ch", 0, 0, 10⟩, ()⟩) (some ⟨100, .key "me", .key "payer"⟩)).2 = .credited 10 := by
  obtain ⟨set, hset⟩ := GatewayLife.exSet Offer.exKey Offer.exKey_private 1
  obtain ⟨-, p, h1, h2, h3⟩ := C180_voucher_refuted GatewayLife.exEnv freshDisk exBoot set _ _ _ _ _ _ hset (me := "me") rfl exPaidNode
    Admin.exPaid rfl (j := 0) (a := 10) rfl rfl (by decide +kernel)
  exact ⟨set, p, h1, h2, h3⟩

example (m x : Msg) : ¬ Sends x (step GatewayLife.exEnv (live (up (down freshDisk exBoot SqlOffer.newDB) exBoot) []) (.other .establishment) m).2 :=
  C180_silent_refuted _ exBoot [] .establishment (.inl rfl) GatewayLife.exEnv m x

end FcRetrieval.Restart
