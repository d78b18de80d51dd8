import Verif.Spec.AdminProvider
import Verif.Lemmas.Admin
import Verif.Props.ProviderKey
import Verif.Props.ProviderReach
/-! Lemmas about the provider admin library and a provider together. -/
set_option linter.unusedSimpArgs false

namespace FcRetrieval.Admin
open FcRetrieval.Ids (Id)
open FcRetrieval.Crypto (Prims KeyPair KeyVersion)
open FcRetrieval.Message (Msg)
open FcRetrieval.Register (Record)
open FcRetrieval.Wire (Codec encode decode)
open FcRetrieval.Codecs
open FcRetrieval.Offer (CidOffer)
open FcRetrieval.Provider (Core)
open FcRetrieval.Gateway (res_ok_of_bind verify_snd)

theorem answer_mem : ∀ {outs : List Provider.Out} {a : Msg}, answer outs = some a → .message a ∈ outs
  | [], _, h => by cases h
  | o :: outs, a, h => by
    cases o
    case message => unfold answer at h; cases h; simp
    case asked => exact List.mem_cons_of_mem _ (answer_mem (by unfold answer at h; exact h))
    case confirmed => exact List.mem_cons_of_mem _ (answer_mem (by unfold answer at h; exact h))
    case refresh => exact List.mem_cons_of_mem _ (answer_mem (by unfold answer at h; exact h))
    all_goals (unfold answer at h; cases h)

/-- Nothing but messages to gateways and their confirmations. -/
def Quiet (outs : List Provider.Out) : Prop := ∀ o ∈ outs, (∃ g m, o = .asked g m) ∨ ∃ g os, o = .confirmed g os

theorem answer_quiet : ∀ {outs more : List Provider.Out}, Quiet outs → answer (outs ++ more) = answer more
  | [], _, _ => rfl
  | o :: outs, more, h => by
    have ih := answer_quiet (outs := outs) (more := more) (fun x hx => h x (List.mem_cons_of_mem _ hx))
    rcases h o (List.mem_cons_self ..) with ⟨g, m, rfl⟩ | ⟨g, os, rfl⟩ <;> (simp only [List.cons_append, answer]; exact ih)

theorem quiet_append {a b : List Provider.Out} (ha : Quiet a) (hb : Quiet b) : Quiet (a ++ b) := fun o ho =>
  (List.mem_append.1 ho).elim (ha o) (hb o)

theorem gatewayLoop_quiet {send : Core → Nat → Id → Core × List Provider.Out × Bool} (hs : ∀ c n g, (send c n g).2.2 = true → Quiet (send c n g).2.1) :
    ∀ (rs : List Record) (c : Core) (n : Nat), (Provider.gatewayLoop send c n rs).2.2.2 = true → Quiet (Provider.gatewayLoop send c n rs).2.1
  | [], _, _, _ => fun _ h => by cases h
  | r :: rs, c, n, h => by
    unfold Provider.gatewayLoop at h ⊢
    split at h
    · cases h
    · rename_i gid _
      have h1 := hs c n gid
      rcases hq : send c n gid with ⟨c', out, _ | _⟩
      · rw [hq] at h; cases h
      · rw [hq] at h h1
        exact quiet_append (h1 rfl) (gatewayLoop_quiet hs rs c' (n + 1) h)

theorem publishGroupTo_quiet {E : Provider.Env} {c : Core} {o : CidOffer} {n : Nat} {gid : Id} (h : (Provider.publishGroupTo E c n o gid).2.2 = true) :
    Quiet (Provider.publishGroupTo E c n o gid).2.1 := by
  unfold Provider.publishGroupTo at h ⊢
  repeat' split
  all_goals simp_all [Quiet]

theorem publishDhtTo_quiet {E : Provider.Env} {c : Core} {os : List CidOffer} {n : Nat} {gid : Id} (h : (Provider.publishDhtTo E c n os gid).2.2 = true) :
    Quiet (Provider.publishDhtTo E c n os gid).2.1 := by
  unfold Provider.publishDhtTo at h ⊢
  repeat' split
  all_goals simp_all [Quiet]

theorem nearLoop_quiet {E : Provider.Env} {os : List CidOffer} : ∀ (cids : List Id) (c : Core) (n : Nat), (Provider.nearLoop E os c n cids).2.2 = true →
    Quiet (Provider.nearLoop E os c n cids).2.1
  | [], _, _, _ => fun _ h => by cases h
  | cid :: cids, c, n, h => by
    unfold Provider.nearLoop at h ⊢
    split at h
    · cases h
    · rename_i rs _
      have h1 := gatewayLoop_quiet (send := fun c n gid => Provider.publishDhtTo E c n os gid) (fun c n g => publishDhtTo_quiet) rs c n
      rcases hq : Provider.gatewayLoop (fun c n gid => Provider.publishDhtTo E c n os gid) c n rs with ⟨c', out, n', _ | _⟩
      · simp only [hq] at h; cases h
      · simp only [hq] at h h1 ⊢
        exact quiet_append (h1 (by trivial)) (nearLoop_quiet cids c' n' h)

theorem respond_answer {α : Type} {E : Provider.Env} {c : Core} {codec : Codec α} {a : α} {m : Msg} (h : .message m ∈ Provider.respond E c codec [] [] a) :
    answer (Provider.respond E c codec [] [] a) = some m := by
  unfold Provider.respond at h ⊢
  repeat' split
  all_goals simp_all [answer]

theorem publishGroup_answer {E : Provider.Env} {c : Core} {m a : Msg} (h : .message a ∈ (Provider.serve E c .publishGroup m).2) :
    answer (Provider.serve E c .publishGroup m).2 = some a := by
  simp only [Provider.serve] at h ⊢
  unfold Provider.publishGroup at h ⊢
  split at h
  · simp at h
  split at h
  · simp at h
  · simp at h
  rename_i cids price expiry qos hd
  split at h
  · simp at h
  rename_i o ho
  split at h
  · simp at h
  · simp at h
  rename_i o' ho'
  split at h
  · simp at h
  rename_i mgr b hst
  have h1 := gatewayLoop_quiet (send := fun c n gid => Provider.publishGroupTo E c n o' gid) (fun c n g => publishGroupTo_quiet) E.gateways
    { c with heap := c.heap ++ [o'], offers := mgr } 0
  have hq := Provider.loop_silent (send := fun c n gid => Provider.publishGroupTo E c n o' gid) (fun c n g m => Provider.publishGroupTo_silent m) E.gateways
    { c with heap := c.heap ++ [o'], offers := mgr } 0 a
  rcases h2 : Provider.gatewayLoop (fun c n gid => Provider.publishGroupTo E c n o' gid) { c with heap := c.heap ++ [o'], offers := mgr } 0 E.gateways with ⟨c1, o1, n1, _ | _⟩
  · rw [h2] at h hq
    exact absurd h hq
  · rw [h2] at h hq h1
    dsimp only at h hq h1 ⊢
    rw [answer_quiet (h1 rfl)]
    exact respond_answer ((List.mem_append.1 h).resolve_left hq)

theorem publishDht_answer {E : Provider.Env} {c : Core} {m a : Msg} (h : .message a ∈ (Provider.serve E c .publishDht m).2) (hpr : ProtocolOk E.pr) :
    answer (Provider.serve E c .publishDht m).2 = some a := by
  have hr' : .message a ∈ (Provider.publishDht E c m).2 := h
  obtain ⟨cids, price, expiry, qos, offers, mgr, -, -, -, -, -, hok, hout, -⟩ := Provider.publishDht_answered hpr hr'
  show answer (Provider.publishDht E c m).2 = some a
  rw [hout, answer_quiet (nearLoop_quiet _ _ _ hok)]
  rfl

/-- No confirmation. -/
def Unconfirmed (outs : List Provider.Out) : Prop := ∀ g os, Provider.Out.confirmed g os ∉ outs

theorem unconfirmed_append {a b : List Provider.Out} (ha : Unconfirmed a) (hb : Unconfirmed b) : Unconfirmed (a ++ b) := fun g os h =>
  (List.mem_append.1 h).elim (ha g os) (hb g os)

theorem gatewayLoop_unconfirmed {send : Core → Nat → Id → Core × List Provider.Out × Bool} (hs : ∀ c n g, Unconfirmed (send c n g).2.1) :
    ∀ (rs : List Record) (c : Core) (n : Nat), Unconfirmed (Provider.gatewayLoop send c n rs).2.1
  | [], _, _ => fun _ _ h => by cases h
  | r :: rs, c, n => by
    unfold Provider.gatewayLoop
    split
    · simp [Unconfirmed]
    · rename_i gid _
      have h1 := hs c n gid
      rcases hq : send c n gid with ⟨c', out, _ | _⟩
      · rw [hq] at h1; exact h1
      · rw [hq] at h1
        exact unconfirmed_append h1 (gatewayLoop_unconfirmed hs rs c' (n + 1))

theorem respond_unconfirmed {α : Type} {E : Provider.Env} {c : Core} {codec : Codec α} {a : α} : Unconfirmed (Provider.respond E c codec [] [] a) := by
  unfold Provider.respond
  repeat' split
  all_goals simp [Unconfirmed]

theorem publishGroup_unconfirmed {E : Provider.Env} (hE : ∀ n g q, E.exchange n g q = none) (c : Core) (m : Msg) :
    Unconfirmed (Provider.serve E c .publishGroup m).2 := by
  show Unconfirmed (Provider.publishGroup E c m).2
  have h0 : ∀ o c n g, Unconfirmed (Provider.publishGroupTo E c n o g).2.1 := by
    intro o c n g
    unfold Provider.publishGroupTo
    simp only [hE]
    repeat' split
    all_goals simp [Unconfirmed]
  unfold Provider.publishGroup
  split
  · simp [Unconfirmed]
  split
  · simp [Unconfirmed]
  · simp [Unconfirmed]
  split
  · simp [Unconfirmed]
  split
  · simp [Unconfirmed]
  · simp [Unconfirmed]
  rename_i o _
  split
  · simp [Unconfirmed]
  rename_i mgr _ _
  have h1 := gatewayLoop_unconfirmed (send := fun c n gid => Provider.publishGroupTo E c n o gid) (fun c n g => h0 o c n g) E.gateways
    { c with heap := c.heap ++ [o], offers := mgr } 0
  split
  · rename_i he
    rw [he] at h1
    exact h1
  · rename_i he
    rw [he] at h1
    exact unconfirmed_append h1 respond_unconfirmed

theorem publishDht_unconfirmed {E : Provider.Env} (hE : ∀ n g q, E.exchange n g q = none) (c : Core) (m : Msg) :
    Unconfirmed (Provider.serve E c .publishDht m).2 := by
  show Unconfirmed (Provider.publishDht E c m).2
  have h0 : ∀ os c n g, Unconfirmed (Provider.publishDhtTo E c n os g).2.1 := by
    intro o c n g
    unfold Provider.publishDhtTo
    simp only [hE]
    repeat' split
    all_goals simp [Unconfirmed]
  have hnear : ∀ os cids c n, Unconfirmed (Provider.nearLoop E os c n cids).2.1 := by
    intro os cids
    induction cids with
    | nil => intro c n; simp [Provider.nearLoop, Unconfirmed]
    | cons cid cids ih =>
      intro c n
      unfold Provider.nearLoop
      split
      · simp [Unconfirmed]
      · rename_i rs _
        have h1 := gatewayLoop_unconfirmed (send := fun c n gid => Provider.publishDhtTo E c n os gid) (fun c n g => h0 os c n g) rs c n
        split
        · rename_i he
          rw [he] at h1
          exact h1
        · rename_i he
          rw [he] at h1
          exact unconfirmed_append h1 (ih _ _)
  unfold Provider.publishDht
  split
  · simp [Unconfirmed]
  split
  · simp [Unconfirmed]
  · simp [Unconfirmed]
  split
  · simp [Unconfirmed]
  split
  · simp [Unconfirmed]
  · simp [Unconfirmed]
  rename_i os _
  split
  · simp [Unconfirmed]
  rename_i cids _ _ _ _ _ _ _ _ mgr _
  have h1 := hnear os cids { c with heap := c.heap ++ [os.getLastD Provider.noOffer], offers := mgr } 0
  split
  · rename_i he
    rw [he] at h1
    exact h1
  · rename_i he
    rw [he] at h1
    exact unconfirmed_append h1 respond_unconfirmed

/-- What a call to a provider running this code does. -/
theorem ask_provider {A : Env} {r : Record} {E : Provider.Env} {c : Core} (hb : BehindProvider A r E c) (hA : HasKey A) {pk : KeyPair} (hpk : Crypto.decodePublicKey r.signingKey = .ok pk)
    {α : Type} {codec : Codec α} {a : α} (hd : Delivers codec A.pr a) {kind : Provider.Kind} (hk : Provider.adminKindOf codec.code = some kind) :
    ∃ m, decode codec m = .ok a ∧ providerAfter E c [(r.netAdmin, m)] = Provider.serve E c kind m ∧
      ask A r (encode codec A.pr a) = ([(r.netAdmin, m)],
        match answer (Provider.serve E c kind m).2 with
        | none => .err
        | some ans => if (Message.verify A.P pk ans).2 then .ok ans else .err) := by
  obtain ⟨m, he, ht, -, -, hsig⟩ := hd
  obtain ⟨sig, hs⟩ := ask_sends hA hpk he
  refine ⟨{ m with signature := sig }, (hsig sig).2, ?_, ?_⟩
  · simp only [providerAfter, ht, hk, List.append_nil]
  · rw [hs, hb.served]
    simp only [atProvider, ht, hk, Option.bind_some]
    generalize answer _ = z
    cases z <;> rfl

/-- What a provider writes verifies under the key in the record, if that belongs to the key the provider has by then. -/
theorem provider_owned {A : Env} {r : Record} {E : Provider.Env} {c : Core} (hb : BehindProvider A r E c) {kind : Provider.Kind} {m x : Msg}
    (hx : .message x ∈ (Provider.serve E c kind m).2) {k : KeyPair} {v : KeyVersion} (hk : (Provider.serve E c kind m).1.key = some (k, v)) (ho : Owns A.P r k v)
    {pk : KeyPair} (hpk : Crypto.decodePublicKey r.signingKey = .ok pk) : (Message.verify A.P pk x).2 = true := by
  obtain ⟨kp, v', m0, h1, h2⟩ := Provider.serve_under.2 x (Or.inl hx)
  rw [hk] at h1
  cases h1
  obtain ⟨h3, -, pk', h4, h5, h6⟩ := ho
  rw [h4] at hpk
  cases hpk
  rw [hb.prims] at h2
  exact (Message.C27_signed_verifies A.P hb.correct k pk v h3 ⟨h5, h6⟩ m0 x h2).1

theorem provider_stranger {A : Env} {r : Record} {E : Provider.Env} {c : Core} (hb : BehindProvider A r E c) {kind : Provider.Kind} {m x : Msg}
    (hx : .message x ∈ (Provider.serve E c kind m).2) {k : KeyPair} {v : KeyVersion} (hk : (Provider.serve E c kind m).1.key = some (k, v)) (ho : Stranger A.P r k v)
    {pk : KeyPair} (hpk : Crypto.decodePublicKey r.signingKey = .ok pk) : (Message.verify A.P pk x).2 = false := by
  obtain ⟨kp, v', m0, h1, h2⟩ := Provider.serve_under.2 x (Or.inl hx)
  rw [hk] at h1
  cases h1
  obtain ⟨-, -, pk', h4, h5⟩ := ho
  rw [h4] at hpk
  cases hpk
  rw [hb.prims] at h2
  cases hv : (Message.verify A.P pk x).2 with
  | false => rfl
  | true =>
    obtain ⟨sig, hs⟩ := sign_eq h2
    subst hs
    refine absurd (verify_snd.1 hv) (h5 _ _ ?_)
    unfold Message.sign at h2
    split at h2
    · simp at h2
    · rename_i s hs
      simp only [Prod.mk.injEq, and_true] at h2
      have : s = sig := congrArg Message.Msg.signature h2
      rw [← this]
      exact hs

end FcRetrieval.Admin
