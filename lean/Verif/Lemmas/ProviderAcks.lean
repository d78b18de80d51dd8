import Verif.Props.ProviderKey
/-! The acknowledgements which a provider records when it publishes are signed messages. -/
set_option linter.unusedSimpArgs false

namespace FcRetrieval.Provider
open FcRetrieval.Ids (Id Proper)
open FcRetrieval.Crypto (KeyPair KeyVersion)
open FcRetrieval.Merkle (Hash)
open FcRetrieval.Message (Msg)
open FcRetrieval.Offer (CidOffer)
open FcRetrieval.Wire
open FcRetrieval.Codecs

/-- What is recorded is old, or a request signed by the provider with an answer signed by the gateway. -/
def Signs (E : Env) (c c' : Core) : Prop :=
  c'.key = c.key ∧ ∀ s g v, entry c' s g = some v → entry c s g = some v ∨
    (SignedUnder E c.key v.1 ∧ ∃ gid, Proper gid ∧ g = Ids.toStr gid ∧ SignedBy E gid v.2)

theorem signs_same {E : Env} (c : Core) : Signs E c c := ⟨rfl, fun _ _ _ h => Or.inl h⟩

theorem signs_frame {E : Env} {c c' : Core} (h1 : c'.key = c.key) (h2 : c'.acks = c.acks) : Signs E c c' :=
  ⟨h1, fun s g v h => Or.inl (by unfold entry at *; rw [h2] at h; exact h)⟩

theorem signs_trans {E : Env} {c c1 c2 : Core} (h : Signs E c c1) (h1 : Signs E c1 c2) : Signs E c c2 := by
  refine ⟨h1.1.trans h.1, fun s g v hv => ?_⟩
  rcases h1.2 s g v hv with hv | hv
  · exact h.2 s g v hv
  · rw [h.1] at hv
    exact Or.inr hv

theorem publishDhtTo_signs {E : Env} {c : Core} {n : Nat} {offers : List CidOffer} {gid : Id} (hp : Proper gid) :
    Signs E c (publishDhtTo E c n offers gid).1 := by
  unfold publishDhtTo
  split
  · exact signs_same c
  · exact signs_same c
  split
  · exact signs_same c
  · exact signs_same c
  rename_i req hreq
  split
  · exact signs_same c
  split
  · exact signs_same c
  · exact signs_same c
  rename_i resp _ _ hck
  split
  · rename_i c' hrec
    obtain ⟨h1, h2, -⟩ := recordAll_ok hp hrec
    refine ⟨h1.key, fun s g v hv => ?_⟩
    rw [h2] at hv
    split at hv
    · rename_i hx
      cases hv
      exact Or.inr ⟨signMsg_under hreq, gid, hp, hx.1, (checkAck_ok.1 hck).1⟩
    · exact Or.inl hv
  · exact signs_same c

theorem near_signs {E : Env} {offers : List CidOffer} (cids : List Id) (c : Core) (n : Nat) : Signs E c (nearLoop E offers c n cids).1 :=
  nearLoop_comp (R := fun c _ c' => Signs E c c') signs_same signs_same signs_same signs_trans (fun _ _ _ hp => publishDhtTo_signs hp) cids c n

/-- Every request but that of a gateway which lists the offers. -/
theorem serve_signs {E : Env} {c : Core} {k : Kind} {m : Msg} (hk : k ≠ .listDht) :
    (∀ s g v, entry (serve E c k m).1 s g = some v → entry c s g = some v ∨
      (SignedUnder E (serve E c k m).1.key v.1 ∧ ∃ gid, Proper gid ∧ g = Ids.toStr gid ∧ SignedBy E gid v.2)) := by
  have of : (serve E c k m).1.acks = c.acks → (∀ s g v, entry (serve E c k m).1 s g = some v → entry c s g = some v ∨
      (SignedUnder E (serve E c k m).1.key v.1 ∧ ∃ gid, Proper gid ∧ g = Ids.toStr gid ∧ SignedBy E gid v.2)) := by
    intro h s g v hv
    unfold entry at *
    rw [h] at hv
    exact Or.inl hv
  cases k with
  | publishDht =>
    have : Signs E c (publishDht E c m).1 := by
      unfold publishDht
      split
      · exact signs_same c
      split
      · exact signs_same c
      · exact signs_same c
      rename_i cids _ _ _ _
      split
      · exact signs_same c
      split
      · exact signs_same c
      · exact signs_same c
      split
      · exact signs_same c
      rename_i offers _ _ mgr _
      have h := near_signs (E := E) (offers := offers) cids { c with heap := c.heap ++ [offers.getLastD noOffer], offers := mgr } 0
      split
      · rename_i hn
        rw [hn] at h
        exact h
      · rename_i hn
        rw [hn] at h
        exact h
    intro s g v hv
    rcases this.2 s g v hv with h | h
    · exact Or.inl h
    · right
      show SignedUnder E (publishDht E c m).1.key v.1 ∧ _
      rw [this.1]
      exact h
  | publishGroup =>
    apply of
    show (publishGroup E c m).1.acks = c.acks
    unfold publishGroup
    split
    · rfl
    split
    · rfl
    · rfl
    split
    · rfl
    split
    · rfl
    · rfl
    split
    · rfl
    rename_i o _ x mgr _ _
    have h := gatewayLoop_comp (R := fun c _ c' => c'.acks = c.acks) (fun _ => rfl) (fun _ => rfl) (fun h h1 => h1.trans h)
      (send := fun c n gid => publishGroupTo E c n o gid) (fun c n gid _ => by
        unfold publishGroupTo
        repeat' split
        all_goals rfl) E.gateways { c with heap := c.heap ++ [o], offers := mgr } 0
    split
    · rename_i hn
      rw [hn] at h
      exact h
    · rename_i hn
      rw [hn] at h
      exact h
  | listDht => exact absurd rfl hk
  | initialise => apply of; show (initialise E c m).1.acks = _; unfold initialise; repeat' split
                  all_goals rfl
  | initialiseV2 => apply of; show (initialiseV2 E c m).1.acks = _; unfold initialiseV2; repeat' split
                    all_goals rfl
  | forceRefresh => apply of; show (forceRefresh E c m).1.acks = _; unfold forceRefresh; repeat' split
                    all_goals rfl
  | getPublished => apply of; show (getPublished E c m).1.acks = _; unfold getPublished; repeat' split
                    all_goals rfl
  | offerAck => apply of; show (offerAck E c m).1.acks = _; unfold offerAck; repeat' split
                all_goals rfl
  | notifyGroup => apply of; show (notifyGroup E c m).1.acks = _; unfold notifyGroup; repeat' split
                   all_goals rfl

/-- After a history in which no gateway listed the offers, what is recorded is signed by both. -/
theorem serveAll_signs : ∀ (h : List (Env × Kind × Msg)) (c : Core), (∀ e ∈ h, e.2.1 ≠ .listDht) → ∀ s g v, entry (serveAll c h).1 s g = some v →
    entry c s g = some v ∨ ∃ h1 e h2, h = h1 ++ e :: h2 ∧ SignedUnder e.1 (serveAll c (h1 ++ [e])).1.key v.1 ∧
      ∃ gid, Proper gid ∧ g = Ids.toStr gid ∧ SignedBy e.1 gid v.2
  | [], c, _, s, g, v, hv => Or.inl hv
  | (E, k, m) :: h, c, hk, s, g, v, hv => by
    unfold serveAll at hv
    rcases serveAll_signs h (serve E c k m).1 (fun e he => hk e (by simp [he])) s g v hv with hv | ⟨h1, e, h2, rfl, h3, h4⟩
    · rcases serve_signs (hk (E, k, m) (by simp)) s g v hv with hv | ⟨h1, h2⟩
      · exact Or.inl hv
      · exact Or.inr ⟨[], (E, k, m), h, rfl, h1, h2⟩
    · exact Or.inr ⟨(E, k, m) :: h1, e, h2, rfl, h3, h4⟩

end FcRetrieval.Provider
