import Verif.Spec.ProviderAnswer
import Verif.Lemmas.ProviderReach
import Verif.Lemmas.ProviderExamples
/-!
# Every request to a provider is answered, and once

C164.
-/
set_option linter.unusedSimpArgs false

namespace FcRetrieval.Provider
open FcRetrieval.Ids (Id)
open FcRetrieval.Message (Msg)
open FcRetrieval.Wire
open FcRetrieval.Codecs
open FcRetrieval.Register (Record)
open FcRetrieval.Offer (CidOffer)

/-- One answer, or one breakdown. -/
def Once (o : List Out) : Prop := answers o + breaks o = 1

/-- One answer after which the handler may break down, or no answer and one breakdown. -/
def Fine (o : List Out) : Prop := answers o = 1 ∨ (answers o = 0 ∧ breaks o = 1)

theorem Once.fine {o : List Out} (h : Once o) : Fine o := by unfold Once at h; unfold Fine; omega

theorem answers_append (a b : List Out) : answers (a ++ b) = answers a + answers b := by simp [answers]
theorem breaks_append (a b : List Out) : breaks (a ++ b) = breaks a + breaks b := by simp [breaks]

/-! ### encoding gives no error -/

theorem encode_total {α : Type} {c : Codec α} {pr : Message.Protocol} {a : α} (h1 : c.toWire a ≠ .err) (h2 : ∀ v, encFields c.schema v ≠ .err) : encode c pr a ≠ .err := by
  unfold encode
  cases hv : c.toWire a with
  | err => exact absurd hv h1
  | panic => exact (fun c => nomatch c)
  | ok v =>
    simp only [Res.bind_ok]
    cases hf : encFields c.schema v with
    | err => exact absurd hf (h2 v)
    | panic => exact (fun c => nomatch c)
    | ok fs => exact (fun c => nomatch c)

theorem encAll_total {α : Type} {f : α → Res Json} (h : ∀ a, f a ≠ .err) : ∀ l, encAll f l ≠ .err
  | [] => (fun c => nomatch c)
  | a :: l => by
    unfold encAll
    cases ha : f a with
    | err => exact absurd ha (h a)
    | panic => exact (fun c => nomatch c)
    | ok j =>
      simp only [Res.bind_ok]
      cases hl : encAll f l with
      | err => exact absurd hl (encAll_total h l)
      | panic => exact (fun c => nomatch c)
      | ok js => exact (fun c => nomatch c)

theorem slice_total {f : FieldT} (h : ∀ a, f.enc a ≠ .err) (l : List f.T) : (slice f).enc l ≠ .err := by
  show (do let js ← encAll f.enc l; return Json.arr js : Res Json) ≠ .err
  cases hl : encAll f.enc l with
  | err => exact absurd hl (encAll_total h l)
  | panic => exact (fun c => nomatch c)
  | ok js => exact (fun c => nomatch c)

theorem offer_total (H : Merkle.Hash) (o : CidOffer) : (offer H).enc o ≠ .err := by
  show Offer.marshal o ≠ .err
  unfold Offer.marshal
  split <;> exact (fun c => nomatch c)

theorem encFields_nil {v : Vals []} : encFields [] v ≠ .err := (fun c => nomatch c)

theorem encFields_cons {name : String} {f : FieldT} {s : Schema} (h : ∀ a, f.enc a ≠ .err) (hs : ∀ v, encFields s v ≠ .err) (v : Vals ((name, f) :: s)) :
    encFields ((name, f) :: s) v ≠ .err := by
  obtain ⟨a, v⟩ := v
  rw [encFields]
  cases ha : f.enc a with
  | err => exact absurd ha (h a)
  | panic => exact (fun c => nomatch c)
  | ok j =>
    simp only [Res.bind_ok]
    cases hl : encFields s v with
    | err => exact absurd hl (hs v)
    | panic => exact (fun c => nomatch c)
    | ok js => exact (fun c => nomatch c)

theorem publish_total (H : Merkle.Hash) (pr : Message.Protocol) (id : Option Id) (n : Int) (os : List CidOffer) :
    encode (providerPublishDHTOfferRequest H) pr (id, n, os) ≠ .err := by
  apply encode_total
  · cases id <;> exact (fun c => nomatch c)
  · exact encFields_cons (fun _ c => nomatch c) (encFields_cons (fun _ c => nomatch c) (encFields_cons (fun _ c => nomatch c)
      (encFields_cons (slice_total (offer_total H)) (fun _ => encFields_nil))))

/-! ### the parts -/

theorem respond_once {α : Type} {E : Env} {c : Core} {codec : Codec α} {b1 b2 : List Out} {a : α} (h1 : encode codec E.pr a ≠ .err ∨ Once b1)
    (h2 : KeySigns E c ∨ Once b2) : Once (respond E c codec b1 b2 a) := by
  unfold respond
  split
  · rfl
  · rename_i he
    exact h1.resolve_left (fun h => h he)
  · rename_i m _
    split
    · rfl
    · rename_i hs
      rcases h2 with h2 | h2
      · unfold signMsg at hs
        split at hs
        · cases hs
        · rename_i k v hk
          obtain ⟨sig, hsig⟩ := Option.isSome_iff_exists.1 (h2 k v hk (Message.toSign m))
          simp only [Message.sign, hsig] at hs
          cases hs
      · exact h2
    · rfl

/-- Part of a handler: no answer if it is to go on, and one otherwise. -/
def Ends (out : List Out) (go : Bool) : Prop := answers out + breaks out = if go then 0 else 1

theorem Ends.once {out : List Out} (h : Ends out false) : Once out := h

theorem Ends.append {out o : List Out} (h : Ends out true) (ho : Once o) : Once (out ++ o) := by
  simp only [Ends, Once, answers_append, breaks_append, if_true] at *
  omega

theorem publishDhtTo_ends (E : Env) (c : Core) (n : Nat) (offers : List CidOffer) (gid : Id) :
    Ends (publishDhtTo E c n offers gid).2.1 (publishDhtTo E c n offers gid).2.2 := by
  unfold publishDhtTo
  repeat' split
  all_goals rfl

theorem publishGroupTo_ends (E : Env) (c : Core) (n : Nat) (o : CidOffer) (gid : Id) :
    Ends (publishGroupTo E c n o gid).2.1 (publishGroupTo E c n o gid).2.2 := by
  unfold publishGroupTo
  repeat' split
  all_goals rfl

theorem gatewayLoop_ends {send : Core → Nat → Id → Core × List Out × Bool} (hs : ∀ c n gid, Ends (send c n gid).2.1 (send c n gid).2.2) :
    ∀ (rs : List Record) (c : Core) (n : Nat), Ends (gatewayLoop send c n rs).2.1 (gatewayLoop send c n rs).2.2.2
  | [], c, n => rfl
  | r :: rs, c, n => by
    unfold gatewayLoop
    split
    · rfl
    · rename_i gid _
      have := hs c n gid
      split <;> rename_i h
      · rw [h] at this
        exact this
      · rename_i c' out
        rw [h] at this
        have h2 := gatewayLoop_ends hs rs c' (n + 1)
        simp only [Ends, answers_append, breaks_append, if_true] at this h2 ⊢
        omega

theorem nearLoop_ends (E : Env) (offers : List CidOffer) : ∀ (cids : List Id) (c : Core) (n : Nat),
    Ends (nearLoop E offers c n cids).2.1 (nearLoop E offers c n cids).2.2
  | [], c, n => rfl
  | cid :: cids, c, n => by
    unfold nearLoop
    split
    · rfl
    · rename_i rs _
      have := gatewayLoop_ends (send := fun c n gid => publishDhtTo E c n offers gid) (fun c n gid => publishDhtTo_ends E c n offers gid) rs c n
      split <;> rename_i h
      · rw [h] at this
        exact this
      · rename_i c' out n'
        rw [h] at this
        have h2 := nearLoop_ends E offers cids c' n'
        simp only [Ends, answers_append, breaks_append, if_true] at this h2 ⊢
        omega

theorem gatewayLoop_key {send : Core → Nat → Id → Core × List Out × Bool} (hs : ∀ c n gid, (send c n gid).1.key = c.key) :
    ∀ (rs : List Record) (c : Core) (n : Nat), (gatewayLoop send c n rs).1.key = c.key
  | [], c, n => rfl
  | r :: rs, c, n => by
    unfold gatewayLoop
    split
    · rfl
    · rename_i gid _
      have := hs c n gid
      split <;> rename_i h
      · rw [h] at this
        exact this
      · rw [h] at this
        exact (gatewayLoop_key hs rs _ (n + 1)).trans this

theorem nearLoop_key (E : Env) (offers : List CidOffer) : ∀ (cids : List Id) (c : Core) (n : Nat), (nearLoop E offers c n cids).1.key = c.key
  | [], c, n => rfl
  | cid :: cids, c, n => by
    unfold nearLoop
    split
    · rfl
    · rename_i rs _
      have := gatewayLoop_key (send := fun c n gid => publishDhtTo E c n offers gid) (fun c n gid => publishDhtTo_frame.2) rs c n
      split <;> rename_i h
      · rw [h] at this
        exact this
      · rw [h] at this
        exact (nearLoop_key E offers cids _ _).trans this

theorem bool_total {c : Codec Bool} {pr : Message.Protocol} (b : Bool) (h1 : c.toWire b ≠ .err) (h2 : ∀ v, encFields c.schema v ≠ .err) : encode c pr b ≠ .err :=
  encode_total h1 h2

theorem listMessages_once (E : Env) (c : Core) : ∀ (l : List (List CidOffer)) (out : List Out), listMessages E c l = .error out → Once out
  | [], out, h => by simp [listMessages] at h
  | os :: rest, out, h => by
    unfold listMessages at h
    split at h
    · cases h; rfl
    · rename_i he
      exact absurd he (publish_total _ _ _ _ _)
    · split at h
      · cases h; rfl
      · cases h; rfl
      · cases hr : listMessages E c rest with
        | error o => rw [hr] at h; cases h; exact listMessages_once E c rest _ hr
        | ok ms => rw [hr] at h; cases h

theorem takeAcks_quiet (E : Env) (k : Crypto.KeyPair) (gid : Id) : ∀ (l : List (Msg × Msg)) (c : Core), answers (takeAcks E k gid c l).2 = 0
  | [], c => rfl
  | (req, ack) :: l, c => by
    unfold takeAcks
    repeat' split
    all_goals first | rfl | exact takeAcks_quiet E k gid l _

theorem finishListing_quiet (E : Env) (k : Crypto.KeyPair) (gid : Id) (c : Core) (msgs : List Msg) (reply : Option Msg) :
    answers (finishListing E k gid c msgs reply).2 = 0 := by
  unfold finishListing
  repeat' split
  all_goals first | rfl | exact takeAcks_quiet E k gid _ _

theorem once_status (n : Nat) : Once [.status n] := rfl
theorem once_invalid : Once [.invalid] := rfl

/-- C164: every request to a provider whose key signs is answered once, whatever the request and whatever happens to the requests that the provider makes
for it; or the handler breaks down before it answers (C103 tells when it can). -/
theorem C164_once (E : Env) (c : Core) (k : Kind) (m : Msg) (hs : KeySigns E c) :
    answers (serve E c k m).2 = 1 ∨ (answers (serve E c k m).2 = 0 ∧ breaks (serve E c k m).2 = 1) := by
  show Fine _
  cases k with
  | initialise =>
    apply Once.fine
    simp only [serve]; unfold initialise
    split
    · (dsimp only; refine respond_once (.inr ?_) (.inr ?_) <;> rfl)
    · rfl
    · rfl
  | initialiseV2 =>
    apply Once.fine
    simp only [serve]; unfold initialiseV2
    split
    · dsimp only
      split
      · (refine respond_once (.inr ?_) (.inr ?_) <;> rfl)
      · rfl
    · rfl
    · rfl
  | forceRefresh =>
    apply Once.fine
    simp only [serve]; unfold forceRefresh
    split
    · rfl
    · split
      · rfl
      · rfl
      · refine Ends.append ?_ (respond_once (.inr rfl) (.inr rfl))
        split <;> rfl
  | publishDht =>
    apply Once.fine
    simp only [serve]; unfold publishDht
    split
    · rfl
    · split
      · rfl
      · rfl
      · split
        · rfl
        · split
          · rfl
          · rfl
          · rename_i offers _
            split
            · rfl
            · rename_i cids _ _ _ _ _ _ _ _ mgr _
              have he := nearLoop_ends E offers cids { c with heap := c.heap ++ [offers.getLastD noOffer], offers := mgr } 0
              have hk := nearLoop_key E offers cids { c with heap := c.heap ++ [offers.getLastD noOffer], offers := mgr } 0
              split <;> rename_i h
              · rw [h] at he
                exact he.once
              · rw [h] at he hk
                refine Ends.append he (respond_once (.inl ?_) (.inl fun k v hkv => hs k v (hk ▸ hkv)))
                exact encode_total (fun c => nomatch c) (encFields_cons (fun _ c => nomatch c) (fun _ => encFields_nil))
  | publishGroup =>
    apply Once.fine
    simp only [serve]; unfold publishGroup
    split
    · rfl
    · split
      · rfl
      · rfl
      · split
        · rfl
        · split
          · rfl
          · rfl
          · rename_i o _
            split
            · rfl
            · rename_i mgr _ _
              have he := gatewayLoop_ends (send := fun c n gid => publishGroupTo E c n o gid) (fun c n gid => publishGroupTo_ends E c n o gid) E.gateways
                { c with heap := c.heap ++ [o], offers := mgr } 0
              have hk := gatewayLoop_key (send := fun c n gid => publishGroupTo E c n o gid) (fun c n gid => publishGroupTo_frame.2) E.gateways
                { c with heap := c.heap ++ [o], offers := mgr } 0
              split <;> rename_i h
              · rw [h] at he
                exact he.once
              · rw [h] at he hk
                refine Ends.append he (respond_once (.inl ?_) (.inl fun k v hkv => hs k v (hk ▸ hkv)))
                exact encode_total (fun c => nomatch c) (encFields_cons (fun _ c => nomatch c) (fun _ => encFields_nil))
  | getPublished =>
    apply Once.fine
    simp only [serve]; unfold getPublished
    split
    · rfl
    · split
      · rfl
      · rfl
      · (dsimp only; refine respond_once (.inr ?_) (.inr ?_) <;> rfl)
  | offerAck =>
    apply Once.fine
    simp only [serve]; unfold offerAck
    split
    · rfl
    · rfl
    · split
      · split
        · (dsimp only; refine respond_once (.inr ?_) (.inr ?_) <;> rfl)
        · (dsimp only; refine respond_once (.inr ?_) (.inr ?_) <;> rfl)
      · rfl
  | listDht =>
    simp only [serve]; unfold listDht
    split
    · exact Once.fine rfl
    · exact Once.fine rfl
    · split
      · split
        · split
          · exact Once.fine rfl
          · dsimp only
            split
            · rename_i h
              exact (listMessages_once E _ _ _ h).fine
            · split
              · rename_i k gid _ _ _ _ _ _ _ _ _ _ _ _ msgs _ _ r _
                have := finishListing_quiet E k gid
                left
                rw [show ∀ (a : Out) (l : List Out), a :: l = [a] ++ l from fun _ _ => rfl, answers_append, this]
                rfl
              · (dsimp only; refine (respond_once (.inr ?_) (.inr ?_)).fine <;> rfl)
        · exact Once.fine rfl
      · exact Once.fine rfl
      · exact Once.fine rfl
  | notifyGroup =>
    apply Once.fine
    simp only [serve]; unfold notifyGroup
    split
    · rfl
    · rfl
    · split
      · (dsimp only; refine respond_once (.inr ?_) (.inr ?_) <;> rfl)
      · rfl
      · rfl

/-- The hypothesis holds of a provider that has just been started, and of one that has been given a key. -/
example : KeySigns exEnv newCore := fun _ _ h => nomatch h

example : KeySigns exEnv { newCore with id := some (Merkle.exId 1), key := some (Offer.exKey, 1) } := by
  intro k v h b
  cases h
  exact exKey_signs b

end FcRetrieval.Provider
