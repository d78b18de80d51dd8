import Verif.Spec.VoucherTerms
import Verif.Props.Payment
import Verif.Props.Gateway
/-!
# C179: what is credited can be collected
-/

set_option linter.unusedSimpArgs false

namespace FcRetrieval.Payment.Terms
open FcRetrieval.Payment

variable {Sig : Type}

/-- What `recvCheck` does depends on the signature only by whether it is good for the payer of the channel. -/
theorem recvCheck_sig {S : Type} (verify : S → Addr → VBody → Bool) (me : Addr) (c : Chan S) (b : VBody) (s s' : S) (cv : ChainView)
    (hs : ∀ k, cv.frm = .key k → verify s k b = verify s' k b) : (recvCheck verify me c ⟨b, s⟩ cv).2 = (recvCheck verify me c ⟨b, s'⟩ cv).2 := by
  unfold recvCheck
  cases cv.to with
  | absent => rfl
  | unresolved => rfl
  | key to =>
    simp only
    split
    · rfl
    · cases hf : cv.frm with
      | absent => rfl
      | unresolved => rfl
      | key k =>
        simp only [hs k hf]
        split
        · rfl
        · split
          · rfl
          · split
            · rfl
            · split <;> rfl

theorem receive_sig {S : Type} (verify : S → Addr → VBody → Bool) (m : Mgr S) (ch : Addr) (b : VBody) (s s' : S) (cv : ChainView)
    (hs : ∀ k, cv.frm = .key k → verify s k b = verify s' k b) : (receive verify m ch (some ⟨b, s⟩) (some cv)).2 = (receive verify m ch (some ⟨b, s'⟩) (some cv)).2 := by
  simp only [receive]
  cases m.inbound ch with
  | none => simp only [recvCreate]; exact recvCheck_sig verify _ _ b s s' cv hs
  | some c =>
    simp only [recvFound]
    split
    · rfl
    · exact recvCheck_sig verify _ _ b s s' cv hs

/-- A credited voucher is signed by the payer of the channel. -/
theorem credited_signed {S : Type} {verify : S → Addr → VBody → Bool} {m : Mgr S} {ch : Addr} {v : Voucher S} {cv : ChainView} {a : Int}
    (h : (receive verify m ch (some v) (some cv)).2 = .credited a) : ∃ k, cv.frm = .key k ∧ verify v.sig k v.body = true := by
  have hrc : ∀ me c, (recvCheck verify me c v cv).2 = .credited a → ∃ k, cv.frm = .key k ∧ verify v.sig k v.body = true := by
    intro me c h
    unfold recvCheck at h
    cases ht : cv.to with
    | absent => simp [ht] at h
    | unresolved => simp [ht] at h
    | key to =>
      simp only [ht] at h
      split at h
      · simp at h
      · cases hf : cv.frm with
        | absent => simp [hf] at h
        | unresolved => simp [hf] at h
        | key k =>
          simp only [hf] at h
          split at h
          · simp at h
          · rename_i hv
            exact ⟨k, rfl, by simpa using hv⟩
  simp only [receive] at h
  cases hc : m.inbound ch with
  | none => rw [hc] at h; simp only [recvCreate] at h; exact hrc _ _ h
  | some c =>
    rw [hc] at h
    simp only [recvFound] at h
    split at h
    · simp at h
    · exact hrc _ _ h

/-- **C179 (refuted).** Wherever a voucher is credited, the payer of the channel can sign the same voucher under terms of their choice, and it is credited the same: a voucher that
cannot be collected before whatever epoch they name, after whatever epoch, without a secret that they keep, or without a call that they choose. -/
theorem C179_terms_refuted (verify : Sig → Addr → VBody × Terms → Bool) (m : Mgr (Signed Sig)) (channel : Addr) (v : Voucher (Signed Sig)) (cv : ChainView) (amount : Int)
    (h : (receive (checker verify) m channel (some v) (some cv)).2 = .credited amount) :
    ∃ payer, cv.frm = .key payer ∧
      ∀ sign : VBody × Terms → Sig, (∀ b, verify (sign b) payer b = true) → ∀ t : Terms,
        (receive (checker verify) m channel (some (under sign t v)) (some cv)).2 = .credited amount ∧
        (∀ settlingAt epoch, epoch < t.timeLockMin → ¬ Collectable channel settlingAt epoch (under sign t v)) ∧
        (∀ settlingAt epoch, t.timeLockMax ≠ 0 → t.timeLockMax < epoch → ¬ Collectable channel settlingAt epoch (under sign t v)) ∧
        (t.secretHash ≠ [] ∨ t.extra = true → ∀ settlingAt epoch, ¬ Collectable channel settlingAt epoch (under sign t v)) := by
  obtain ⟨k, hk, hv⟩ := credited_signed h
  refine ⟨k, hk, fun sign hs t => ⟨?_, ?_, ?_, ?_⟩⟩
  · rw [← h]
    refine receive_sig (checker verify) m channel v.body _ v.sig cv ?_
    intro k' hk'
    have : k' = k := by rw [hk] at hk'; exact (Field.key.inj hk').symm
    subst this
    rw [hv]
    exact hs _
  · intro _ e he hc
    have := hc.started
    simp only [under] at this
    omega
  · intro _ e h0 he hc
    have := hc.lasting
    simp only [under] at this
    rcases this with h | h
    · exact h0 h
    · omega
  · intro ht _ e hc
    rcases ht with ht | ht
    · exact ht hc.open_
    · have := hc.alone
      simp only [under] at this
      rw [ht] at this
      cases this

/-- **C179 (refuted)**, of channels: what is credited does not depend on when the channel is settled, so a channel that has been settled, and redeems nothing any more, is
credited like before. -/
theorem C179_settled_refuted (verify : Sig → Addr → VBody × Terms → Bool) (m : Mgr (Signed Sig)) (channel : Addr) (v : Voucher (Signed Sig)) (a : Actor) (amount : Int)
    (h : (receive (checker verify) m channel (some v) (some a.view)).2 = .credited amount) (since : Int) (hs : since ≠ 0) :
    (receive (checker verify) m channel (some v) (some { a with settlingAt := since }.view)).2 = .credited amount ∧
      ∀ epoch, since ≤ epoch → ¬ Collectable channel since epoch v := by
  refine ⟨h, fun e he hc => ?_⟩
  rcases hc.unsettled with h | h
  · exact hs h
  · omega

/-- **C179 (refuted)**, of answers: a gateway answers a search that is paid with a voucher nobody can ever collect (it is locked by a secret that the payer keeps) as it does one
paid in earnest. -/
theorem C179_answered_refuted (E : Gateway.Env (Signed Sig)) (verify : Sig → Addr → VBody × Terms → Bool) (hE : E.verifyVoucher = checker verify) (hpr : Codecs.ProtocolOk E.pr)
    (c : Gateway.Core (Signed Sig)) (hk : Gateway.CanSign E c) (m : Message.Msg) (id : Ids.Id) (nonce ttl : Int) (channel good bad : List Char) (v : Voucher (Signed Sig))
    (cv : ChainView) (payer : Addr) (sign : VBody × Terms → Sig) (hsign : ∀ b, verify (sign b) payer b = true) (secret : List UInt8) (hsecret : secret ≠ [])
    (hchain : E.chain (String.ofList channel) = some cv) (hpayer : cv.frm = .key payer) (hgood : E.readVoucher good = some v)
    (hbad : E.readVoucher bad = some (under sign { empty with secretHash := secret } v)) (hpay : Gateway.Pays E c channel good c.searchPrice)
    (hreq : Wire.decode Codecs.clientStandardDiscoverRequestV2 m = .ok (some id, nonce, ttl, channel, bad)) (httl : E.now ≤ ttl)
    (offers : List Offer.CidOffer) (found : Bool) (hoff : SqlOffer.getOffers E.H E.order E.off E.now c.db id = .ok (offers, found)) (hprov : ∀ o ∈ offers, o.providerID ≠ none) :
    (∃ m', (Gateway.standardV2 E c m).2 = [.message m'] ∧
      Wire.decode Codecs.clientStandardDiscoverResponseV2 m' = .ok (some id, nonce, found, Gateway.digestTexts E offers, offers.map (fun _ => false), false, [])) ∧
    ∀ settlingAt epoch, ¬ Collectable (String.ofList channel) settlingAt epoch (under sign { empty with secretHash := secret } v) := by
  obtain ⟨amount, hcred, hge⟩ := hpay
  unfold Gateway.Credits at hcred
  rw [hE, hgood, hchain] at hcred
  obtain ⟨k, hk', hall⟩ := C179_terms_refuted verify c.payment _ v cv amount hcred
  have : k = payer := by rw [hpayer] at hk'; exact (Field.key.inj hk').symm
  subst this
  obtain ⟨h1, -, -, h2⟩ := hall sign hsign { empty with secretHash := secret }
  refine ⟨Gateway.C49_standardV2_served E hpr c hk m id nonce ttl channel bad hreq httl ⟨amount, ?_, hge⟩ offers found hoff hprov, h2 (.inl hsecret)⟩
  unfold Gateway.Credits
  rw [hE, hbad, hchain]
  exact h1

/-- **C179 (partial)**: vouchers that `Pay` made.  In every history of a payer running this code, every voucher issued is collectable, at every epoch, on the channel that `Pay`
names with it while that is not settled.  What is missing: vouchers of payers that do not run this code (`C179_terms_refuted`) and channels that have been settled (`C179_settled_refuted`). -/
theorem C179_own_partial (sign : VBody × Terms → Option Sig) (me : Addr) (ops : List PayOp) {r : Addr} {lane : Nat} {a : Int} {ch : Addr} {v : Voucher (Signed Sig)}
    (h : .paid r lane a ch v ∈ (payRun (signer sign) (newMgr me) ops).2) (settlingAt epoch : Int) (he : 0 ≤ epoch) (hs : settlingAt = 0 ∨ epoch < settlingAt) :
    Collectable ch settlingAt epoch v := by
  obtain ⟨h1, h2, h3⟩ := C36_voucher_fields (signer sign) me ops h
  have ht : v.sig.2 = empty := by
    unfold signer at h3
    cases hb : sign (v.body, empty) with
    | none => rw [hb] at h3; cases h3
    | some s => rw [hb] at h3; simp only [Option.some.injEq] at h3; rw [← h3]
  exact ⟨h2, by rw [ht]; exact he, by rw [ht]; exact .inl rfl, by rw [ht]; rfl, by rw [ht]; rfl, hs⟩

/-- **C179**: with a payer that runs this code, what `Pay` issues and `Receive` credits on the channel named is signed over empty terms: the two sides agree on what is signed. -/
theorem C179_signed (sign : VBody × Terms → Option Sig) (verify : Sig → Addr → VBody × Terms → Bool) (key : Addr) (hsv : ∀ b s, sign b = some s → verify s key b = true)
    (me : Addr) (ops : List PayOp) {r : Addr} {lane : Nat} {a : Int} {ch : Addr} {v : Voucher (Signed Sig)}
    (h : .paid r lane a ch v ∈ (payRun (signer sign) (newMgr me) ops).2) : checker verify v.sig key v.body = true ∧ v.sig.2 = empty := by
  obtain ⟨h1, h2, h3⟩ := C36_voucher_fields (signer sign) me ops h
  unfold signer at h3
  cases hb : sign (v.body, empty) with
  | none => rw [hb] at h3; cases h3
  | some s =>
    rw [hb] at h3
    simp only [Option.some.injEq] at h3
    rw [← h3]
    exact ⟨hsv _ _ hb, rfl⟩

/-! ### the hypotheses can be met -/

/-- A signature that names its key and what it is for. -/
def exSign (key : Addr) (b : VBody × Terms) : Addr × VBody × Terms := (key, b)

def exVerify (s : Addr × VBody × Terms) (key : Addr) (b : VBody × Terms) : Bool := s == (key, b)

theorem exVerify_sign (key : Addr) (b : VBody × Terms) : exVerify (exSign key b) key b = true := by simp [exVerify, exSign]

def exVoucher : Voucher (Signed (Addr × VBody × Terms)) := ⟨⟨"c", 0, 0, 5⟩, (exSign "client" (⟨"c", 0, 0, 5⟩, empty), empty)⟩

theorem exCredited : (receive (checker exVerify) (newMgr "gw") "c" (some exVoucher) (some ⟨100, .key "gw", .key "client"⟩)).2 = .credited 5 := by decide +kernel

/-- Locked until epoch 10000000, it is credited too. -/
example : (receive (checker exVerify) (newMgr "gw") "c" (some (under (exSign "client") { empty with timeLockMin := 10000000 } exVoucher)) (some ⟨100, .key "gw", .key "client"⟩)).2 =
    .credited 5 := by
  obtain ⟨k, hk, h⟩ := C179_terms_refuted exVerify (newMgr "gw") "c" exVoucher ⟨100, .key "gw", .key "client"⟩ 5 exCredited
  cases hk
  exact (h (exSign "client") (exVerify_sign _) { empty with timeLockMin := 10000000 }).1

example := C179_settled_refuted exVerify (newMgr "gw") "c" exVoucher ⟨⟨100, .key "gw", .key "client"⟩, 0⟩ 5 exCredited 77 (by decide)

/-- The example gateway with vouchers that have terms. -/
def exEnv : Gateway.Env (Signed (Addr × VBody × Terms)) where
  H := Merkle.toyHash
  H512 := Crypto.toy.hash
  P := Crypto.toy
  pr := Message.defaultProtocol
  now := 1000
  off := 0
  order := fun l => l
  dbFails := fun _ _ => false
  badDigest := fun _ => []
  readVoucher := fun t => if t = ['g'] then some exVoucher else some (under (exSign "client") { empty with secretHash := [1] } exVoucher)
  showVoucher := fun _ => ['g']
  verifyVoucher := checker exVerify
  signVoucher := signer (fun b => some (exSign "gw" b))
  chain := fun _ => some ⟨100, .key "gw", .key "client"⟩
  topups := fun _ _ => .failed
  gateway := fun _ => none
  provider := fun _ => none
  near := fun _ _ => none
  exchange := fun _ _ => none

def exCore : Gateway.Core (Signed (Addr × VBody × Terms)) where
  id := Merkle.exId 1
  key := Offer.exKey
  keyVersion := 1
  searchPrice := 3
  offerPrice := 2
  topupAmount := 10
  db := Gateway.exDb
  payment := newMgr "gw"

example : ∃ m m', (Gateway.standardV2 exEnv exCore m).2 = [.message m'] := by
  obtain ⟨m, hd⟩ := Gateway.exDecodes (Codecs.C30_clientStandardDiscoverRequestV2 exEnv.pr Codecs.defaultProtocolOk (some (Merkle.exId 2)) 7 2000 ['c'] ['b']
    (Codecs.exIdOk 2) ⟨by decide, by decide⟩ ⟨by decide, by decide⟩)
  obtain ⟨⟨m', h, _⟩, _⟩ := C179_answered_refuted exEnv exVerify rfl Codecs.defaultProtocolOk exCore Gateway.exCore_signs m (Merkle.exId 2) 7 2000 ['c'] ['g'] ['b'] exVoucher
    ⟨100, .key "gw", .key "client"⟩ "client" (exSign "client") (exVerify_sign _) [1] (by decide) rfl rfl rfl rfl ⟨5, by exact exCredited, by decide⟩ hd (by decide)
    [Codecs.exSingle] true Gateway.exCore_offers Gateway.exSingle_named
  exact ⟨m, m', h⟩

example : ∃ v, .paid "bob" 0 30 "ch1" v ∈ (payRun (signer (fun b => some (exSign "me" b))) (newMgr "me") [.topup "bob" 100 (.executed "ch1"), .pay "bob" 0 30]).2 ∧
    Collectable "ch1" 0 5 v := by
  refine ⟨⟨⟨"ch1", 0, 0, 30⟩, (exSign "me" (⟨"ch1", 0, 0, 30⟩, empty), empty)⟩, ?_, ?_⟩
  · simp [payRun, payStep, topup, topupCreate, pay, newMgr, put, signer, Chan.lane, newLane]
  · exact ⟨rfl, by decide, .inl rfl, rfl, rfl, .inl rfl⟩

example := C179_signed (fun b => some (exSign "me" b)) exVerify "me" (fun b s h => by cases h; exact exVerify_sign "me" b) "me"
  [.topup "bob" 100 (.executed "ch1"), .pay "bob" 0 30] (r := "bob") (lane := 0) (a := 30) (ch := "ch1")
  (v := ⟨⟨"ch1", 0, 0, 30⟩, (exSign "me" (⟨"ch1", 0, 0, 30⟩, empty), empty)⟩)
  (by simp [payRun, payStep, topup, topupCreate, pay, newMgr, put, signer, Chan.lane, newLane])

end FcRetrieval.Payment.Terms
