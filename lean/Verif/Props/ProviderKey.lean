import Verif.Props.ProviderPublish
/-!
# The key of a provider: C107, C108
-/
set_option linter.unusedSimpArgs false

namespace FcRetrieval.Provider
open FcRetrieval.Ids (Id Proper)
open FcRetrieval.Crypto (KeyPair KeyVersion)
open FcRetrieval.Merkle (Hash exId exId_proper)
open FcRetrieval.Message (Msg)
open FcRetrieval.Offer (CidOffer)
open FcRetrieval.Register (Record)
open FcRetrieval.Wire
open FcRetrieval.Codecs
open FcRetrieval.Gateway (exRecord exPub)

/-- Either out: what was written and what was sent to a gateway. -/
def Sends (x : Msg) (outs : List Out) : Prop := .message x ∈ outs ∨ ∃ g, .asked g x ∈ outs

/-- The message was signed with the key. -/
def SignedUnder (E : Env) (key : Option (KeyPair × KeyVersion)) (x : Msg) : Prop :=
  ∃ k v m0, key = some (k, v) ∧ Message.sign E.P k v m0 = (x, true)

theorem signMsg_under {E : Env} {c : Core} {m x : Msg} (h : signMsg E c m = .ok x) : SignedUnder E c.key x := by
  unfold signMsg at h
  split at h
  · cases h
  · rename_i k v hk
    split at h
    · rename_i m' hs
      cases h
      exact ⟨k, v, m, hk, hs⟩
    · cases h

theorem respond_under {α : Type} {E : Env} {c : Core} {codec : Codec α} {b1 b2 : List Out} {a : α} {x : Msg} (h : Sends x (respond E c codec b1 b2 a))
    (h1 : ¬ Sends x b1) (h2 : ¬ Sends x b2) : SignedUnder E c.key x := by
  unfold respond at h
  split at h
  · simp [Sends] at h
  · exact absurd h h1
  · split at h
    · simp [Sends] at h
    · exact absurd h h2
    · rename_i m' hs
      simp [Sends] at h
      subst h
      exact signMsg_under hs

theorem sends_append {x : Msg} {a b : List Out} : Sends x (a ++ b) ↔ Sends x a ∨ Sends x b := by
  constructor
  · rintro (h | ⟨g, h⟩)
    · rcases List.mem_append.1 h with h | h
      · exact Or.inl (Or.inl h)
      · exact Or.inr (Or.inl h)
    · rcases List.mem_append.1 h with h | h
      · exact Or.inl (Or.inr ⟨g, h⟩)
      · exact Or.inr (Or.inr ⟨g, h⟩)
  · rintro ((h | ⟨g, h⟩) | (h | ⟨g, h⟩))
    · exact Or.inl (List.mem_append.2 (Or.inl h))
    · exact Or.inr ⟨g, List.mem_append.2 (Or.inl h)⟩
    · exact Or.inl (List.mem_append.2 (Or.inr h))
    · exact Or.inr ⟨g, List.mem_append.2 (Or.inr h)⟩

theorem publishDhtTo_under {E : Env} {c : Core} {n : Nat} {offers : List CidOffer} {gid : Id} {x : Msg}
    (h : Sends x (publishDhtTo E c n offers gid).2.1) : SignedUnder E c.key x := by
  unfold publishDhtTo at h
  split at h
  · simp [Sends] at h
  · simp [Sends] at h
  split at h
  · simp [Sends] at h
  · simp [Sends] at h
  rename_i req hreq
  have key : x = req → SignedUnder E c.key x := fun e => e ▸ signMsg_under hreq
  split at h
  · simp [Sends] at h; exact key h
  · split at h
    · simp [Sends] at h; exact key h
    · simp [Sends] at h; exact key h
    · split at h <;> (simp [Sends] at h; exact key h)

theorem publishGroupTo_under {E : Env} {c : Core} {n : Nat} {o : CidOffer} {gid : Id} {x : Msg}
    (h : Sends x (publishGroupTo E c n o gid).2.1) : SignedUnder E c.key x := by
  unfold publishGroupTo at h
  split at h
  · simp [Sends] at h
  · simp [Sends] at h
  split at h
  · simp [Sends] at h
  · simp [Sends] at h
  rename_i req hreq
  have key : x = req → SignedUnder E c.key x := fun e => e ▸ signMsg_under hreq
  split at h
  · simp [Sends] at h; exact key h
  · split at h <;> (simp [Sends] at h; exact key h)

/-- What a run of requests keeps: the key and that everything sent is signed with it. -/
def Under (E : Env) (c : Core) (outs : List Out) (c' : Core) : Prop :=
  c'.id = c.id ∧ c'.key = c.key ∧ ∀ x, Sends x outs → SignedUnder E c.key x

theorem under_quiet {E : Env} {c : Core} {outs : List Out} (h : ∀ x, ¬ Sends x outs) : Under E c outs c := ⟨rfl, rfl, fun x hx => absurd hx (h x)⟩

theorem under_trans {E : Env} {c c1 c2 : Core} {o o1 : List Out} (h : Under E c o c1) (h1 : Under E c1 o1 c2) : Under E c (o ++ o1) c2 := by
  refine ⟨h1.1.trans h.1, h1.2.1.trans h.2.1, ?_⟩
  intro x hx
  rcases sends_append.1 hx with hx | hx
  · exact h.2.2 x hx
  · rw [← h.2.1]
    exact h1.2.2 x hx

theorem under_near {E : Env} {offers : List CidOffer} (cids : List Id) (c : Core) (n : Nat) :
    Under E c (nearLoop E offers c n cids).2.1 (nearLoop E offers c n cids).1 := by
  refine nearLoop_comp (R := fun c o c' => Under E c o c') ?_ ?_ ?_ under_trans ?_ cids c n
  · intro c; exact under_quiet (by simp [Sends])
  · intro c; exact under_quiet (by simp [Sends])
  · intro c; exact under_quiet (by simp [Sends])
  · intro c n gid _
    obtain ⟨h1, h2⟩ := publishDhtTo_frame (E := E) (c := c) (offers := offers) (n := n) (gid := gid)
    exact ⟨h1, h2, fun x hx => publishDhtTo_under hx⟩

theorem under_group {E : Env} {o : CidOffer} (rs : List Record) (c : Core) (n : Nat) :
    Under E c (gatewayLoop (fun c n gid => publishGroupTo E c n o gid) c n rs).2.1 (gatewayLoop (fun c n gid => publishGroupTo E c n o gid) c n rs).1 := by
  refine gatewayLoop_comp (R := fun c o c' => Under E c o c') ?_ ?_ under_trans ?_ rs c n
  · intro c; exact under_quiet (by simp [Sends])
  · intro c; exact under_quiet (by simp [Sends])
  · intro c n gid _
    obtain ⟨h1, h2⟩ := publishGroupTo_frame (E := E) (c := c) (o := o) (n := n) (gid := gid)
    exact ⟨h1, h2, fun x hx => publishGroupTo_under hx⟩

theorem listMessages_silent {E : Env} {c : Core} {x : Msg} : ∀ {parts : List (List CidOffer)} {out : List Out}, listMessages E c parts = .error out → ¬ Sends x out
  | [], out, h => by cases h
  | p :: parts, out, h => by
    unfold listMessages at h
    split at h
    · cases h; simp [Sends]
    · cases h; simp [Sends]
    split at h
    · cases h; simp [Sends]
    · cases h; simp [Sends]
    simp only [Bind.bind, Except.bind] at h
    split at h
    · rename_i e he
      cases h
      exact listMessages_silent he
    · cases h

theorem recordListed_frame {gid : Id} {req ack : Msg} : ∀ (os : List CidOffer) (c : Core),
    (recordListed gid req ack c os).1.id = c.id ∧ (recordListed gid req ack c os).1.key = c.key
  | [], c => ⟨rfl, rfl⟩
  | o :: os, c => by
    unfold recordListed
    split
    · exact ⟨rfl, rfl⟩
    · split
      · exact ⟨rfl, rfl⟩
      · exact recordListed_frame os _

theorem takeAcks_frame {E : Env} {k : KeyPair} {gid : Id} : ∀ (pairs : List (Msg × Msg)) (c : Core),
    ((takeAcks E k gid c pairs).1.id = c.id ∧ (takeAcks E k gid c pairs).1.key = c.key) ∧ ∀ x, ¬ Sends x (takeAcks E k gid c pairs).2
  | [], c => by simp [takeAcks, Sends]
  | (req, ack) :: rest, c => by
    unfold takeAcks
    split
    · simp [Sends]
    · simp [Sends]
    split
    · split
      · simp [Sends]
      · simp [Sends]
      rename_i offers _
      have hf := recordListed_frame (gid := gid) (req := req) (ack := ack) offers c
      split
      · rename_i c' he
        rw [he] at hf
        exact ⟨hf, by simp [Sends]⟩
      · rename_i c' he
        rw [he] at hf
        have ih := takeAcks_frame (E := E) (k := k) (gid := gid) rest c'
        exact ⟨⟨ih.1.1.trans hf.1, ih.1.2.trans hf.2⟩, ih.2⟩
    · simp [Sends]

theorem finishListing_frame {E : Env} {k : KeyPair} {gid : Id} (c : Core) (msgs : List Msg) (reply : Option Msg) :
    ((finishListing E k gid c msgs reply).1.id = c.id ∧ (finishListing E k gid c msgs reply).1.key = c.key) ∧
      ∀ x, ¬ Sends x (finishListing E k gid c msgs reply).2 := by
  unfold finishListing
  split
  · simp [Sends]
  split
  · split
    · simp [Sends]
    · split
      · simp [Sends]
      · exact takeAcks_frame _ c
  · simp [Sends]

theorem under_listDht {E : Env} {c : Core} {m : Msg} : Under E c (listDht E c m).2 (listDht E c m).1 := by
  unfold listDht
  split
  · exact under_quiet (by simp [Sends])
  · exact under_quiet (by simp [Sends])
  split
  · rename_i kk gid _ _
    split
    · split
      · exact under_quiet (by simp [Sends])
      · rename_i mgr offers found _
        dsimp only
        generalize (if found = true then chunks offers else []) = parts
        split
        · rename_i out hl
          exact ⟨rfl, rfl, fun x hx => absurd hx (listMessages_silent hl)⟩
        · rename_i msgs hl
          have hresp : ∀ x, Sends x (respond E { c with offers := mgr } gatewayListDHTOfferResponse [.invalid] [.invalid] msgs) →
              SignedUnder E c.key x := fun x hx => respond_under (c := { c with offers := mgr }) hx (by simp [Sends]) (by simp [Sends])
          split
          · rename_i r hr
            rw [hr] at hresp
            obtain ⟨hf, hq⟩ := finishListing_frame (E := E) (k := kk) (gid := gid) { c with offers := mgr } msgs (E.reply r)
            refine ⟨hf.1, hf.2, ?_⟩
            intro x hx
            have hx' : Sends x ([.message r] ++ (finishListing E kk gid { c with offers := mgr } msgs (E.reply r)).2) := hx
            rcases sends_append.1 hx' with hx | hx
            · exact hresp x hx
            · exact absurd hx (hq x)
          · exact ⟨rfl, rfl, hresp⟩
    · exact under_quiet (by simp [Sends])
  · exact under_quiet (by simp [Sends])
  · exact under_quiet (by simp [Sends])

theorem serve_under {E : Env} {c : Core} {k : Kind} {m : Msg} :
    (k ≠ .initialise → k ≠ .initialiseV2 → (serve E c k m).1.id = c.id ∧ (serve E c k m).1.key = c.key) ∧
    ∀ x, Sends x (serve E c k m).2 → SignedUnder E (serve E c k m).1.key x := by
  have of : Under E c (serve E c k m).2 (serve E c k m).1 → (k ≠ .initialise → k ≠ .initialiseV2 → (serve E c k m).1.id = c.id ∧ (serve E c k m).1.key = c.key) ∧
      ∀ x, Sends x (serve E c k m).2 → SignedUnder E (serve E c k m).1.key x :=
    fun h => ⟨fun _ _ => ⟨h.1, h.2.1⟩, fun x hx => by rw [h.2.1]; exact h.2.2 x hx⟩
  cases k with
  | initialise =>
    refine ⟨fun h => absurd rfl h, ?_⟩
    simp only [serve]
    unfold initialise
    split
    · dsimp only
      exact fun x hx => by (try dsimp only at hx ⊢); exact respond_under hx (by simp [Sends]) (by simp [Sends])
    · simp [Sends]
    · simp [Sends]
  | initialiseV2 =>
    refine ⟨fun _ h => absurd rfl h, ?_⟩
    simp only [serve]
    unfold initialiseV2
    split
    · dsimp only
      split
      · exact fun x hx => by (try dsimp only at hx ⊢); exact respond_under hx (by simp [Sends]) (by simp [Sends])
      · simp [Sends]
    · simp [Sends]
    · simp [Sends]
  | forceRefresh =>
    apply of
    simp only [serve]
    unfold forceRefresh
    split
    · exact under_quiet (by simp [Sends])
    split
    · exact under_quiet (by simp [Sends])
    · exact under_quiet (by simp [Sends])
    · refine ⟨rfl, rfl, ?_⟩
      intro x hx
      rcases sends_append.1 hx with hx | hx
      · split at hx <;> simp [Sends] at hx
      · exact respond_under hx (by simp [Sends]) (by simp [Sends])
  | publishDht =>
    apply of
    simp only [serve]
    unfold publishDht
    split
    · exact under_quiet (by simp [Sends])
    split
    · exact under_quiet (by simp [Sends])
    · exact under_quiet (by simp [Sends])
    rename_i cids price expiry qos _
    split
    · exact under_quiet (by simp [Sends])
    split
    · exact under_quiet (by simp [Sends])
    · exact under_quiet (by simp [Sends])
    rename_i offers _
    split
    · exact under_quiet (by simp [Sends])
    rename_i mgr _
    have hn := under_near (E := E) (offers := offers) cids { c with heap := c.heap ++ [offers.getLastD noOffer], offers := mgr } 0
    have hn : Under E c _ _ := hn
    split
    · rename_i c' out he
      rw [he] at hn
      exact hn
    · rename_i c' out he
      rw [he] at hn
      exact under_trans hn ⟨rfl, rfl, fun x hx => by (try dsimp only at hx ⊢); exact respond_under hx (by simp [Sends]) (by simp [Sends])⟩
  | publishGroup =>
    apply of
    simp only [serve]
    unfold publishGroup
    split
    · exact under_quiet (by simp [Sends])
    split
    · exact under_quiet (by simp [Sends])
    · exact under_quiet (by simp [Sends])
    split
    · exact under_quiet (by simp [Sends])
    split
    · exact under_quiet (by simp [Sends])
    · exact under_quiet (by simp [Sends])
    rename_i o _
    split
    · exact under_quiet (by simp [Sends])
    rename_i mgr _ _
    have hn := under_group (E := E) (o := o) E.gateways { c with heap := c.heap ++ [o], offers := mgr } 0
    have hn : Under E c _ _ := hn
    split
    · rename_i c' out n' he
      rw [he] at hn
      exact hn
    · rename_i c' out n' he
      rw [he] at hn
      exact under_trans hn ⟨rfl, rfl, fun x hx => by (try dsimp only at hx ⊢); exact respond_under hx (by simp [Sends]) (by simp [Sends])⟩
  | getPublished =>
    apply of
    simp only [serve]
    unfold getPublished
    split
    · exact under_quiet (by simp [Sends])
    split
    · exact under_quiet (by simp [Sends])
    · exact under_quiet (by simp [Sends])
    · exact ⟨rfl, rfl, fun x hx => by (try dsimp only at hx ⊢); exact respond_under hx (by simp [Sends]) (by simp [Sends])⟩
  | offerAck =>
    apply of
    simp only [serve]
    unfold offerAck
    split
    · exact under_quiet (by simp [Sends])
    · exact under_quiet (by simp [Sends])
    split
    · split
      · exact ⟨rfl, rfl, fun x hx => by (try dsimp only at hx ⊢); exact respond_under hx (by simp [Sends]) (by simp [Sends])⟩
      · exact ⟨rfl, rfl, fun x hx => by (try dsimp only at hx ⊢); exact respond_under hx (by simp [Sends]) (by simp [Sends])⟩
    · exact under_quiet (by simp [Sends])
  | listDht => exact of under_listDht
  | notifyGroup =>
    apply of
    simp only [serve]
    unfold notifyGroup
    split
    · exact under_quiet (by simp [Sends])
    · exact under_quiet (by simp [Sends])
    split
    · rename_i gid _ _
      refine ⟨rfl, rfl, fun x hx => ?_⟩
      dsimp only at hx
      exact respond_under (c := { c with groupGateways := (updateGroup _ c.groupGateways gid).1 }) hx (by simp [Sends]) (by simp [Sends])
    · exact under_quiet (by simp [Sends])
    · exact under_quiet (by simp [Sends])

/-! ## C107 -/

/-- The identifier and the key which a request sets, if any. -/
def keySet : Kind → Msg → Option (Option Id × KeyPair × KeyVersion)
  | .initialise, m =>
    match decode providerAdminInitialiseKeyRequest m with
    | .ok (id, some k, some v) => some (id, k, v)
    | _ => none
  | .initialiseV2, m =>
    match decode providerAdminInitialiseKeyRequestV2 m with
    | .ok (id, some k, some v, _) => some (id, k, v)
    | _ => none
  | _, _ => none

/-- What the admin set last. -/
def lastKey : List (Env × Kind × Msg) → Option (Option Id × KeyPair × KeyVersion)
  | [] => none
  | e :: h =>
    match lastKey h with
    | some x => some x
    | none => keySet e.2.1 e.2.2

theorem serve_key (E : Env) (c : Core) (k : Kind) (m : Msg) :
    (keySet k m = none ∧ (serve E c k m).1.id = c.id ∧ (serve E c k m).1.key = c.key) ∨
    ∃ id kp v, keySet k m = some (id, kp, v) ∧ (serve E c k m).1.id = id ∧ (serve E c k m).1.key = some (kp, v) := by
  by_cases h1 : k = .initialise
  · subst h1
    simp only [serve, keySet]
    unfold initialise
    generalize decode providerAdminInitialiseKeyRequest m = d
    rcases d with ⟨id, _ | kp, _ | v⟩ | _ | _
    · exact Or.inl ⟨rfl, rfl, rfl⟩
    · exact Or.inl ⟨rfl, rfl, rfl⟩
    · exact Or.inl ⟨rfl, rfl, rfl⟩
    · exact Or.inr ⟨id, kp, v, rfl, rfl, rfl⟩
    · exact Or.inl ⟨rfl, rfl, rfl⟩
    · exact Or.inl ⟨rfl, rfl, rfl⟩
  by_cases h2 : k = .initialiseV2
  · subst h2
    simp only [serve, keySet]
    unfold initialiseV2
    generalize decode providerAdminInitialiseKeyRequestV2 m = d
    rcases d with ⟨id, _ | kp, _ | v, x⟩ | _ | _
    · exact Or.inl ⟨rfl, rfl, rfl⟩
    · exact Or.inl ⟨rfl, rfl, rfl⟩
    · exact Or.inl ⟨rfl, rfl, rfl⟩
    · exact Or.inr ⟨id, kp, v, rfl, rfl, rfl⟩
    · exact Or.inl ⟨rfl, rfl, rfl⟩
    · exact Or.inl ⟨rfl, rfl, rfl⟩
  · refine Or.inl ⟨?_, serve_under.1 h1 h2⟩
    cases k <;> first | rfl | exact absurd rfl h1 | exact absurd rfl h2

/-- **C107, which key and identifier a provider has**: after any history, those which its admin set last. -/
theorem C107_key : ∀ (hist : List (Env × Kind × Msg)) (c : Core),
    (lastKey hist = none ∧ (serveAll c hist).1.id = c.id ∧ (serveAll c hist).1.key = c.key) ∨
    ∃ id kp v, lastKey hist = some (id, kp, v) ∧ (serveAll c hist).1.id = id ∧ (serveAll c hist).1.key = some (kp, v)
  | [], c => Or.inl ⟨rfl, rfl, rfl⟩
  | (E, k, m) :: h, c => by
    unfold serveAll lastKey
    dsimp only
    rcases C107_key h (serve E c k m).1 with ⟨h1, h2, h3⟩ | ⟨id, kp, v, h1, h2, h3⟩
    · rw [h1, h2, h3]
      exact serve_key E c k m
    · rw [h1]
      exact Or.inr ⟨id, kp, v, rfl, h2, h3⟩

/-- **C107**: in every history, whatever a provider writes as an answer, or sends to a gateway, verifies under the public part of the key
that its admin set last, and its signature names the version of that key. -/
theorem C107_signed (P : Crypto.Prims) (hP : Crypto.Correct P) (hist : List (Env × Kind × Msg)) (E : Env) (hE : E.P = P) (k : Kind) (m x : Msg)
    (hx : .message x ∈ (serve E (serveAll newCore hist).1 k m).2 ∨ ∃ g, .asked g x ∈ (serve E (serveAll newCore hist).1 k m).2) :
    ∃ id kp v, lastKey (hist ++ [(E, k, m)]) = some (id, kp, v) ∧
      ∀ pub, Crypto.PrivateKey kp → pub.alg = Crypto.sigAlg → Crypto.publicPart P pub = Crypto.publicPart P kp →
        Crypto.verifyMessage P pub x.signature (Message.toSign x) = some true ∧ Crypto.extractKeyVersion x.signature = .ok v := by
  obtain ⟨kp, v, m0, h1, h2⟩ := serve_under.2 x hx
  have hk : (serveAll newCore (hist ++ [(E, k, m)])).1.key = some (kp, v) := by
    rw [serveAll_append]
    exact h1
  rcases C107_key (hist ++ [(E, k, m)]) newCore with ⟨-, -, h3⟩ | ⟨id, kp', v', h3, -, h4⟩
  · rw [h3] at hk; cases hk
  · rw [h4] at hk
    cases hk
    refine ⟨id, kp, v, h3, ?_⟩
    intro pub hpriv halg hpub
    have := Message.C27_signed_verifies P hP kp pub v hpriv ⟨halg, hpub⟩ m0 x (hE ▸ h2)
    exact ⟨Gateway.verify_snd.1 this.1, this.2.2⟩

/-- The hypotheses of `C107_signed` can be met: an answer to a publish request. -/
example : ∃ x, .message x ∈ (serve exEnv (serveAll newCore exReady).1 .publishDht exPublish).2 ∧
    Crypto.verifyMessage Crypto.toy exPub x.signature (Message.toSign x) = some true := by
  obtain ⟨-, -, -, -, ⟨r, hr⟩, -⟩ := exReady_use
  obtain ⟨id, kp, v, h1, h2⟩ := C107_signed Crypto.toy Crypto.toy_correct exReady exEnv rfl .publishDht exPublish r (Or.inl hr)
  have h3 : keySet .initialise exInit = some (some (exId 1), Offer.exKey, 1) := by
    unfold keySet
    dsimp only
    rw [exInit_decode]
  have h4 : ∀ E E' m, lastKey ([(E, .initialise, exInit)] ++ [(E', .publishDht, m)]) = keySet .initialise exInit := by
    intro E E' m
    generalize exInit = i
    rfl
  unfold exReady at h1
  rw [h4, h3] at h1
  cases h1
  exact ⟨r, hr, (h2 exPub Offer.exKey_private rfl (by decide +kernel)).1⟩

/-! ## C108 -/

/-- **C108**: until its admin sets the key a provider does nothing for an admin but set it: every other request is answered with the status
400 and changes nothing. -/
theorem C108_uninitialised (E : Env) (hist : List (Env × Kind × Msg)) (hk : lastKey hist = none) (k : Kind)
    (hadm : k = .forceRefresh ∨ k = .publishDht ∨ k = .publishGroup ∨ k = .getPublished) (m : Msg) :
    serve E (serveAll newCore hist).1 k m = ((serveAll newCore hist).1, [.status 400]) := by
  have hkey : (serveAll newCore hist).1.key = none := by
    rcases C107_key hist newCore with ⟨-, -, h⟩ | ⟨id, kp, v, h, -⟩
    · rw [h]; rfl
    · rw [hk] at h; cases h
  rcases hadm with rfl | rfl | rfl | rfl
  · simp only [serve, forceRefresh, hkey, if_true]
  · simp only [serve, publishDht, hkey]
  · simp only [serve, publishGroup, hkey]
  · simp only [serve, getPublished, hkey, if_true]

example : serve exEnv (serveAll newCore []).1 .publishDht exPublish = ((serveAll newCore []).1, [.status 400]) :=
  C108_uninitialised exEnv [] rfl .publishDht (by simp) exPublish

/-- **C108, setting the key**: it takes effect at once and nothing else changes; the admin is told so in a message signed with the new key,
with the second kind of request only if the payment manager could be set up. -/
theorem C108_initialise (E : Env) (hpr : ProtocolOk E.pr) (c : Core) (m : Msg) (id : Option Id) (k : KeyPair) (v : KeyVersion)
    (hs : ∀ b, (Crypto.signMessage E.P k v b).isSome) :
    (decode providerAdminInitialiseKeyRequest m = .ok (id, some k, some v) →
      (serve E c .initialise m).1 = { c with id := id, key := some (k, v) } ∧
      ∃ r, (serve E c .initialise m).2 = [.message r] ∧ decode providerAdminInitialiseKeyResponse r = .ok true) ∧
    (∀ x, decode providerAdminInitialiseKeyRequestV2 m = .ok (id, some k, some v, x) →
      (serve E c .initialiseV2 m).1 = { c with id := id, key := some (k, v) } ∧
      if E.payments then ∃ r, (serve E c .initialiseV2 m).2 = [.message r] ∧ decode providerAdminInitialiseKeyResponse r = .ok true
      else (serve E c .initialiseV2 m).2 = [.status 400]) := by
  have hw : ∃ r, respond E { c with id := id, key := some (k, v) } providerAdminInitialiseKeyResponse [.status 500] [.status 500] true = [.message r] ∧
      decode providerAdminInitialiseKeyResponse r = .ok true := by
    obtain ⟨m0, he, -, -, -, hsig⟩ := C30_providerAdminInitialiseKeyResponse E.pr hpr true
    unfold respond
    rw [he]
    obtain ⟨sig, hsg⟩ := Option.isSome_iff_exists.1 (hs (Message.toSign m0))
    simp only [signMsg, Message.sign, hsg]
    exact ⟨_, rfl, (hsig sig).2⟩
  refine ⟨?_, ?_⟩
  · intro hd
    simp only [serve]
    unfold initialise
    rw [hd]
    exact ⟨rfl, hw⟩
  · intro x hd
    simp only [serve]
    unfold initialiseV2
    rw [hd]
    refine ⟨rfl, ?_⟩
    dsimp only
    split
    · exact hw
    · rfl

example : (serve exEnv newCore .initialise exInit).1 = { newCore with id := some (exId 1), key := some (Offer.exKey, 1) } :=
  ((C108_initialise exEnv defaultProtocolOk newCore exInit (some (exId 1)) Offer.exKey 1 exKey_signs).1 exInit_decode).1

/-- **C108, refreshing**: the register is refreshed exactly when the admin says so, and the answer repeats what they said. -/
theorem C108_refresh (E : Env) (hpr : ProtocolOk E.pr) (c : Core) (hsign : CanSign E c) (m : Msg) (b : Bool)
    (hd : decode providerAdminForceRefreshRequest m = .ok b) :
    ∃ r, serve E c .forceRefresh m = (c, if b then [.refresh, .message r] else [.message r]) ∧ decode providerAdminForceRefreshResponse r = .ok b := by
  obtain ⟨r, h1, -, h2⟩ := respond_writes (b1 := [.status 500]) (b2 := [.status 500]) hsign (C30_providerAdminForceRefreshResponse E.pr hpr b)
  have hkey : c.key ≠ none := by
    obtain ⟨-, k, v, -, -, h, -⟩ := hsign
    rw [h]
    exact nofun
  refine ⟨r, ?_, h2⟩
  simp only [serve, forceRefresh, if_neg hkey, hd, h1]
  cases b <;> rfl

example : ∃ r, serve exEnv (serveAll newCore exReady).1 .forceRefresh (exMsg providerAdminForceRefreshRequest true) =
    ((serveAll newCore exReady).1, [.refresh, .message r]) := by
  obtain ⟨r, h, -⟩ := C108_refresh exEnv defaultProtocolOk _ exReady_use.1 _ true (exMsg_decode (C30_providerAdminForceRefreshRequest _ defaultProtocolOk true))
  exact ⟨r, h⟩

end FcRetrieval.Provider
