import Verif.Lemmas.AdminExamples
import Verif.Props.Payment
import Verif.Lemmas.PaymentFresh
/-!
# The admin of a gateway and the gateway together
-/
set_option linter.unusedSimpArgs false

namespace FcRetrieval.Admin
open FcRetrieval.Ids (Id)
open FcRetrieval.Crypto (Prims KeyPair KeyVersion)
open FcRetrieval.Message (Msg)
open FcRetrieval.Register (Record)
open FcRetrieval.Wire (Codec encode decode)
open FcRetrieval.Codecs
open FcRetrieval.GatewayAdmin (Node serve)
open FcRetrieval.Payment (Voucher ChainView)

variable {S : Type}

theorem idOk_of {r : Record} {id : Id} (h : Ids.fromHex r.nodeID = some id) : IdOk (some id) := ⟨id, rfl, Gateway.fromHex_len h⟩

/-! ## C116: setting up a gateway -/

/-- With a key that belongs to the record, the call succeeds, and the gateway has the identifier of the record and the key. -/
theorem C116_initialise_partial {A : Env} {r : Record} {G : GatewayAdmin.Env S} {n : Node S} (hb : Behind A r G n) (hA : HasKey A)
    {i : Id} (hid : Ids.fromHex r.nodeID = some i) {k : KeyPair} {v : KeyVersion} (ho : Owns A.P r k v) :
    (gatewayInitialise A r (some k) (some v)).2 = .ok () ∧
    received G n (gatewayInitialise A r (some k) (some v)).1 = { n with id := some i, key := some (k, v) } := by
  obtain ⟨hpriv, -, pk, hpk, -⟩ := id ho
  obtain ⟨m, hm, hr, hs⟩ := ask_served hb hA hpk (C30_gatewayAdminInitialiseKeyRequest A.pr hb.adminProtocol (some i) (some k) (some v) (idOk_of hid) ⟨k, rfl, hpriv⟩ ⟨v, rfl⟩)
    (kind := .initialise) rfl
  obtain ⟨m', h1, h2, h3⟩ := respond_owned (n := { n with id := some i, key := some (k, v) }) hb.prims hb.correct rfl ho (C30_gatewayAdminInitialiseKeyResponse G.pr hb.protocol true)
  have he : serve G n .initialise m = ({ n with id := some i, key := some (k, v) }, [.message m']) := by
    simp only [serve, GatewayAdmin.initialise, hm, h1]
  unfold gatewayInitialise
  rw [hid]
  simp only [hs, flag, hr, he, reply, h3 pk hpk, if_true, Res.bind_ok, h2, and_self]

example : (gatewayInitialise (exAdmin exNode) exRecord (some Offer.exKey) (some 1)).2 = .ok () :=
  (C116_initialise_partial (exBehind exNode) (exHasKey _) (by decide +kernel : Ids.fromHex exRecord.nodeID = some (Merkle.exId 1)) exOwns).1

/-- The same with the wallet, if the payment manager can be made. -/
theorem C116_initialiseV2_partial {A : Env} {r : Record} {G : GatewayAdmin.Env S} {n : Node S} (hb : Behind A r G n) (hA : HasKey A)
    {i : Id} (hid : Ids.fromHex r.nodeID = some i) {k : KeyPair} {v : KeyVersion} (ho : Owns A.P r k v) (wallet api token : List Char) {p : Payment.Mgr S}
    (hp : G.newPayments wallet api token = some p) :
    (gatewayInitialiseV2 A r (some k) (some v) wallet api token).2 = .ok () ∧
    received G n (gatewayInitialiseV2 A r (some k) (some v) wallet api token).1 = { n with id := some i, key := some (k, v), payment := some p } := by
  obtain ⟨hpriv, -, pk, hpk, -⟩ := id ho
  obtain ⟨m, hm, hr, hs⟩ := ask_served hb hA hpk (C30_gatewayAdminInitialiseKeyRequestV2 A.pr hb.adminProtocol (some i) (some k) (some v) wallet api token (idOk_of hid) ⟨k, rfl, hpriv⟩ ⟨v, rfl⟩)
    (kind := .initialiseV2) rfl
  obtain ⟨m', h1, h2, h3⟩ := respond_owned (n := { n with id := some i, key := some (k, v), payment := some p }) hb.prims hb.correct rfl ho (C30_gatewayAdminInitialiseKeyResponse G.pr hb.protocol true)
  have he : serve G n .initialiseV2 m = ({ n with id := some i, key := some (k, v), payment := some p }, [.message m']) := by
    simp only [serve, GatewayAdmin.initialiseV2, hm, hp, Option.isSome_some, if_true, h1]
  unfold gatewayInitialiseV2
  rw [hid]
  simp only [hs, flag, hr, he, reply, h3 pk hpk, if_true, Res.bind_ok, h2, and_self]
example : (gatewayInitialiseV2 (exAdmin exNode) exRecord (some Offer.exKey) (some 1) ['w'] [] []).2 = .ok () :=
  (C116_initialiseV2_partial (exBehind exNode) (exHasKey _) (by decide +kernel : Ids.fromHex exRecord.nodeID = some (Merkle.exId 1)) exOwns ['w'] [] [] rfl).1

/-- With a key that does not belong to the record the call fails, and the gateway has switched to the key all the same. -/
theorem C116_wrong_key_refuted {A : Env} {r : Record} {G : GatewayAdmin.Env S} {n : Node S} (hb : Behind A r G n) (hA : HasKey A)
    {i : Id} (hid : Ids.fromHex r.nodeID = some i) {k : KeyPair} {v : KeyVersion} (ho : Stranger A.P r k v) :
    (gatewayInitialise A r (some k) (some v)).2 = .err ∧
    received G n (gatewayInitialise A r (some k) (some v)).1 = { n with id := some i, key := some (k, v) } := by
  obtain ⟨hpriv, -, pk, hpk, -⟩ := id ho
  obtain ⟨m, hm, hr, hs⟩ := ask_served hb hA hpk (C30_gatewayAdminInitialiseKeyRequest A.pr hb.adminProtocol (some i) (some k) (some v) (idOk_of hid) ⟨k, rfl, hpriv⟩ ⟨v, rfl⟩)
    (kind := .initialise) rfl
  obtain ⟨m', h1, h3⟩ := respond_stranger (n := { n with id := some i, key := some (k, v) }) hb.prims rfl ho (C30_gatewayAdminInitialiseKeyResponse G.pr hb.protocol true)
  have he : serve G n .initialise m = ({ n with id := some i, key := some (k, v) }, [.message m']) := by
    simp only [serve, GatewayAdmin.initialise, hm, h1]
  unfold gatewayInitialise
  rw [hid]
  simp [hs, flag, hr, he, reply, h3 pk hpk]
example : (gatewayInitialise (exAdmin exNode) exRecord (some exKey2) (some 1)).2 = .err ∧
    received exGatewayEnv exNode (gatewayInitialise (exAdmin exNode) exRecord (some exKey2) (some 1)).1 ≠ exNode :=
  have h := C116_wrong_key_refuted (exBehind exNode) (exHasKey _) (by decide +kernel : Ids.fromHex exRecord.nodeID = some (Merkle.exId 1)) exStranger
  ⟨h.1, fun e => by
    rw [h.2] at e
    have := congrArg Node.key e
    simp only [exNode, Option.some.injEq, Prod.mk.injEq] at this
    exact absurd this.1 (by decide)⟩

/-- If the payment manager cannot be made the call fails, and the gateway has lost the one it had, and has switched to the key. -/
theorem C116_lost_payments_refuted {A : Env} {r : Record} {G : GatewayAdmin.Env S} {n : Node S} (hb : Behind A r G n) (hA : HasKey A)
    {i : Id} (hid : Ids.fromHex r.nodeID = some i) {pk : KeyPair} (hpk : Crypto.decodePublicKey r.signingKey = .ok pk) {k : KeyPair} (hpriv : Crypto.PrivateKey k) (v : KeyVersion)
    (wallet api token : List Char) (hp : G.newPayments wallet api token = none) :
    (gatewayInitialiseV2 A r (some k) (some v) wallet api token).2 = .err ∧
    received G n (gatewayInitialiseV2 A r (some k) (some v) wallet api token).1 = { n with id := some i, key := some (k, v), payment := none } := by
  obtain ⟨m, hm, hr, hs⟩ := ask_served hb hA hpk (C30_gatewayAdminInitialiseKeyRequestV2 A.pr hb.adminProtocol (some i) (some k) (some v) wallet api token (idOk_of hid) ⟨k, rfl, hpriv⟩ ⟨v, rfl⟩)
    (kind := .initialiseV2) rfl
  have he : serve G n .initialiseV2 m = ({ n with id := some i, key := some (k, v), payment := none }, [.status 400]) := by
    simp [serve, GatewayAdmin.initialiseV2, hm, hp]
  unfold gatewayInitialiseV2
  rw [hid]
  simp [hs, flag, hr, he, reply]
example : (received exGatewayEnv { exNode with payment := some (Payment.newMgr "me") }
    (gatewayInitialiseV2 (exAdmin { exNode with payment := some (Payment.newMgr "me") }) exRecord (some exKey2) (some 1) [] [] []).1).payment.isNone := by
  rw [(C116_lost_payments_refuted (exBehind _) (exHasKey _) (by decide +kernel : Ids.fromHex exRecord.nodeID = some (Merkle.exId 1)) exRecord_key exKey2_private 1 [] [] [] rfl).2]
  rfl

/-! ## C118: a voucher is credited once -/

/-- Whatever payments a gateway has taken: after it is initialised again with the same wallet it credits every voucher that it has credited
before once more, and with all of its amount. -/
theorem C118_refuted {A : Env} {r : Record} {G : GatewayAdmin.Env S} {n : Node S} (hb : Behind A r G n) (hA : HasKey A)
    {i : Id} (hid : Ids.fromHex r.nodeID = some i) {k : KeyPair} {v : KeyVersion} (ho : Owns A.P r k v) (wallet api token : List Char) {me : Payment.Addr}
    (hp : G.newPayments wallet api token = some (Payment.newMgr me)) (ops : List (Payment.RecvOp S)) (hn : n.payment = some (Payment.recvRun G.verifyVoucher (Payment.newMgr me) ops).1)
    {j : Nat} {op : Payment.RecvOp S} {w : Voucher S} {a : Int} (hop : ops[j]? = some op) (hw : op.voucher = some w)
    (hacc : (Payment.recvRun G.verifyVoucher (Payment.newMgr me) ops).2[j]? = some (.credited a)) :
    (∀ p b, n.payment = some p → (Payment.receive G.verifyVoucher p op.channel op.voucher op.chain).2 ≠ .credited b) ∧
    ∃ p, (received G n (gatewayInitialiseV2 A r (some k) (some v) wallet api token).1).payment = some p ∧ a ≤ w.body.amount ∧
      (Payment.receive G.verifyVoucher p op.channel op.voucher op.chain).2 = .credited w.body.amount := by
  refine ⟨fun p b h => ?_, Payment.newMgr me, ?_, ?_⟩
  · rw [hn] at h
    cases h
    rw [hw]
    exact (Payment.C37_replay_rejected G.verifyVoucher me ops hop hw hacc w rfl (Int.le_refl _) op.chain).1 b
  · rw [(C116_initialiseV2_partial hb hA hid ho wallet api token hp).2]
  · exact Payment.fresh_credits G.verifyVoucher me (ops.take j) hw (Payment.recvRun_nth G.verifyVoucher hop hacc)

def exPaid : List (Payment.RecvOp Unit) := [⟨"ch", some ⟨⟨"ch", 0, 0, 10⟩, ()⟩, some ⟨100, .key "me", .key "payer"⟩⟩]

example : ∃ p, (received exGatewayEnv { exNode with payment := some (Payment.recvRun exGatewayEnv.verifyVoucher (Payment.newMgr "me") exPaid).1 }
      (gatewayInitialiseV2 (exAdmin { exNode with payment := some (Payment.recvRun exGatewayEnv.verifyVoucher (Payment.newMgr "me") exPaid).1 }) exRecord (some Offer.exKey) (some 1) ['w'] [] []).1).payment = some p ∧
    (10 : Int) ≤ 10 ∧ (Payment.receive exGatewayEnv.verifyVoucher p "ch" (some ⟨⟨"ch", 0, 0, 10⟩, ()⟩) (some ⟨100, .key "me", .key "payer"⟩)).2 = .credited 10 :=
  (C118_refuted (exBehind _) (exHasKey _) (by decide +kernel : Ids.fromHex exRecord.nodeID = some (Merkle.exId 1)) exOwns ['w'] [] [] rfl exPaid rfl
    (j := 0) (a := 10) rfl rfl (by decide +kernel)).2

theorem requestProvider_payment (G : GatewayAdmin.Env S) (n : Node S) (pid : Id) (t : Int) (args : List GatewayAdmin.Arg) :
    (GatewayAdmin.requestProvider G n pid t args).1 = { n with db := (GatewayAdmin.requestProvider G n pid t args).1.db } := by
  unfold GatewayAdmin.requestProvider
  split
  · split <;> rfl
  · split
    · split <;> rfl
    · rfl
    · rfl
  · rfl

theorem requestAll_payment (G : GatewayAdmin.Env S) (t : Int) (args : Id → List GatewayAdmin.Arg) : ∀ (rs : List Record) (n : Node S),
    (GatewayAdmin.requestAll G t args n rs).1 = { n with db := (GatewayAdmin.requestAll G t args n rs).1.db }
  | [], _ => rfl
  | r :: rs, n => by
    unfold GatewayAdmin.requestAll
    split
    · exact requestAll_payment G t args rs n
    · rename_i i _
      simp only
      rw [requestAll_payment G t args rs, requestProvider_payment G n i t (args i)]

/-- No other request of the admin touches the payments. -/
theorem C118_partial (G : GatewayAdmin.Env S) (n : Node S) (kind : GatewayAdmin.Kind) (hk : kind ≠ .initialiseV2) (m : Msg) : (serve G n kind m).1.payment = n.payment := by
  cases kind with
  | initialiseV2 => exact absurd rfl hk
  | initialise => show (GatewayAdmin.initialise G n m).1.payment = _; unfold GatewayAdmin.initialise; split <;> rfl
  | getReputation =>
    show (GatewayAdmin.getReputation G n m).1.payment = _; unfold GatewayAdmin.getReputation; split
    · rfl
    · split <;> rfl
  | setReputation =>
    show (GatewayAdmin.setReputation G n m).1.payment = _; unfold GatewayAdmin.setReputation; split
    · rfl
    · split <;> rfl
  | forceRefresh =>
    show (GatewayAdmin.forceRefresh G n m).1.payment = _; unfold GatewayAdmin.forceRefresh; split
    · rfl
    · split <;> rfl
  | listOffers =>
    show (GatewayAdmin.listOffers G n m).1.payment = _; unfold GatewayAdmin.listOffers
    split; rfl
    split
    · rfl
    · rfl
    · simp only
      split
      · unfold GatewayAdmin.listAll
        split
        · rfl
        · split
          · rfl
          · rw [requestAll_payment]
      · rfl
  | updateGroup =>
    show (GatewayAdmin.updateGroup G n m).1.payment = _; unfold GatewayAdmin.updateGroup
    split
    · simp only
      split
      · rw [requestAll_payment]
      · rfl
    · rfl
    · rfl
example (m : Msg) : (serve exGatewayEnv { exNode with payment := some (Payment.recvRun exGatewayEnv.verifyVoucher (Payment.newMgr "me") exPaid).1 } .initialise m).1.payment =
    some (Payment.recvRun exGatewayEnv.verifyVoucher (Payment.newMgr "me") exPaid).1 := C118_partial _ _ _ (by decide) m

end FcRetrieval.Admin
