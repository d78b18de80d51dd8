import Verif.Lemmas.ProviderStore
/-!
# Whom the provider asks
-/
set_option linter.unusedSimpArgs false

namespace FcRetrieval.Provider
open FcRetrieval.Ids (Id Proper)
open FcRetrieval.Merkle (Hash)
open FcRetrieval.Message (Msg)
open FcRetrieval.Offer (CidOffer Built)
open FcRetrieval.Register (Record)
open FcRetrieval.Wire
open FcRetrieval.Codecs
open FcRetrieval.OfferMgr
open FcRetrieval.Gateway (fromHex_len res_ok_of_bind)

theorem gatewayLoop_mem {send : Core → Nat → Id → Core × List Out × Bool} {Q : Core → Prop} (hQ : ∀ c n gid, Q c → Q (send c n gid).1) :
    ∀ (rs : List Record) (c : Core) (n : Nat), Q c →
      Q (gatewayLoop send c n rs).1 ∧
      (∀ x ∈ (gatewayLoop send c n rs).2.1, x = .status 400 ∨
        ∃ r ∈ rs, ∃ gid c' n', Ids.fromHex r.nodeID = some gid ∧ Q c' ∧ x ∈ (send c' n' gid).2.1) ∧
      ((gatewayLoop send c n rs).2.2.2 = true → ∀ r ∈ rs, ∃ gid c' n', Ids.fromHex r.nodeID = some gid ∧ Q c' ∧
        ∀ x ∈ (send c' n' gid).2.1, x ∈ (gatewayLoop send c n rs).2.1)
  | [], c, n, h => ⟨h, by simp [gatewayLoop], by simp⟩
  | r :: rs, c, n, h => by
    unfold gatewayLoop
    split
    · exact ⟨h, by simp, by simp⟩
    · rename_i gid hg
      have h1 := hQ c n gid h
      split
      · rename_i c' out he
        rw [he] at h1
        refine ⟨h1, ?_, by simp⟩
        intro x hx
        exact Or.inr ⟨r, by simp, gid, c, n, hg, h, by rw [he]; exact hx⟩
      · rename_i c' out he
        rw [he] at h1
        obtain ⟨i1, i2, i3⟩ := gatewayLoop_mem hQ rs c' (n + 1) h1
        refine ⟨i1, ?_, ?_⟩
        · intro x hx
          rcases List.mem_append.1 hx with hx | hx
          · exact Or.inr ⟨r, by simp, gid, c, n, hg, h, by rw [he]; exact hx⟩
          · rcases i2 x hx with rfl | ⟨r', hr', rest⟩
            · exact Or.inl rfl
            · exact Or.inr ⟨r', by simp [hr'], rest⟩
        · intro hok r' hr'
          rcases List.mem_cons.1 hr' with rfl | hr'
          · exact ⟨gid, c, n, hg, h, fun x hx => List.mem_append.2 (Or.inl (by rw [he] at hx; exact hx))⟩
          · obtain ⟨g, c2, n2, a1, a2, a3⟩ := i3 hok r' hr'
            exact ⟨g, c2, n2, a1, a2, fun x hx => List.mem_append.2 (Or.inr (a3 x hx))⟩

theorem nearLoop_mem {E : Env} {offers : List CidOffer} {Q : Core → Prop} (hQ : ∀ c n gid, Q c → Q (publishDhtTo E c n offers gid).1) :
    ∀ (cids : List Id) (c : Core) (n : Nat), Q c →
      (∀ x ∈ (nearLoop E offers c n cids).2.1, x = .status 400 ∨ x = .status 500 ∨
        ∃ cid ∈ cids, ∃ rs, E.near cid = some rs ∧ ∃ r ∈ rs, ∃ gid c' n', Ids.fromHex r.nodeID = some gid ∧ Q c' ∧ x ∈ (publishDhtTo E c' n' offers gid).2.1) ∧
      ((nearLoop E offers c n cids).2.2 = true → ∀ cid ∈ cids, ∃ rs, E.near cid = some rs ∧ ∀ r ∈ rs, ∃ gid c' n', Ids.fromHex r.nodeID = some gid ∧ Q c' ∧
        ∀ x ∈ (publishDhtTo E c' n' offers gid).2.1, x ∈ (nearLoop E offers c n cids).2.1)
  | [], c, n, h => ⟨by simp [nearLoop], by simp⟩
  | cid :: cids, c, n, h => by
    unfold nearLoop
    split
    · exact ⟨by simp, by simp⟩
    · rename_i rs hr
      obtain ⟨g1, g2, g3⟩ := gatewayLoop_mem (send := fun c n gid => publishDhtTo E c n offers gid) hQ rs c n h
      split
      · rename_i c' out n' he
        rw [he] at g1 g2
        refine ⟨?_, by simp⟩
        intro x hx
        rcases g2 x hx with rfl | rest
        · exact Or.inl rfl
        · exact Or.inr (Or.inr ⟨cid, by simp, rs, hr, rest⟩)
      · rename_i c' out n' he
        rw [he] at g1 g2 g3
        obtain ⟨i1, i2⟩ := nearLoop_mem hQ cids c' n' g1
        refine ⟨?_, ?_⟩
        · intro x hx
          rcases List.mem_append.1 hx with hx | hx
          · rcases g2 x hx with rfl | rest
            · exact Or.inl rfl
            · exact Or.inr (Or.inr ⟨cid, by simp, rs, hr, rest⟩)
          · rcases i1 x hx with rfl | rfl | ⟨cid', hc', rest⟩
            · exact Or.inl rfl
            · exact Or.inr (Or.inl rfl)
            · exact Or.inr (Or.inr ⟨cid', by simp [hc'], rest⟩)
        · intro hok cid' hc'
          rcases List.mem_cons.1 hc' with rfl | hc'
          · refine ⟨rs, hr, fun r hrm => ?_⟩
            obtain ⟨g, c2, n2, a1, a2, a3⟩ := g3 rfl r hrm
            exact ⟨g, c2, n2, a1, a2, fun x hx => List.mem_append.2 (Or.inl (a3 x hx))⟩
          · obtain ⟨rs', hr', rest⟩ := i2 hok cid' hc'
            refine ⟨rs', hr', fun r hrm => ?_⟩
            obtain ⟨g, c2, n2, a1, a2, a3⟩ := rest r hrm
            exact ⟨g, c2, n2, a1, a2, fun x hx => List.mem_append.2 (Or.inr (a3 x hx))⟩

theorem publishDhtTo_asks {E : Env} (hpr : ProtocolOk E.pr) {c : Core} (hk : CanSign E c) {offers : List CidOffer}
    (hb : ∀ o ∈ offers, Built E.H o ∧ o.cids.length = 1) (hl : inI64 offers.length) (n : Nat) (gid : Id) :
    ∃ req, .asked gid req ∈ (publishDhtTo E c n offers gid).2.1 ∧ Carries E req offers := by
  have hk' := hk
  obtain ⟨id, k, v, hid, hp, -, -⟩ := hk'
  obtain ⟨m, hm, -, -, -, hsig⟩ := C30_providerPublishDHTOfferRequest E.H E.pr hpr c.id 1 offers ⟨id, hid, hp⟩ ⟨by decide, by decide⟩
    (fun o ho => (hb o ho).1) (fun o ho => (hb o ho).2) hl
  obtain ⟨sig, hs⟩ := signMsg_can hk m
  refine ⟨{ m with signature := sig }, ?_, c.id, 1, (hsig sig).2⟩
  unfold publishDhtTo
  rw [hm]
  dsimp only
  rw [hs]
  dsimp only
  split
  · simp
  · split
    · simp
    · simp
    · split <;> simp

theorem publishDhtTo_asked {E : Env} {c : Core} {offers : List CidOffer} {n : Nat} {gid g : Id} {req : Msg}
    (h : .asked g req ∈ (publishDhtTo E c n offers gid).2.1) : g = gid ∧ ∃ m sig, encode (providerPublishDHTOfferRequest E.H) E.pr (c.id, 1, offers) = .ok m ∧
      req = { m with signature := sig } := by
  unfold publishDhtTo at h
  split at h
  · simp at h
  · simp at h
  rename_i m hm
  split at h
  · simp at h
  · simp at h
  rename_i req' hreq
  obtain ⟨sig, rfl⟩ := signMsg_ok hreq
  have key : g = gid ∧ req = { m with signature := sig } → g = gid ∧ ∃ m sig, encode (providerPublishDHTOfferRequest E.H) E.pr (c.id, 1, offers) = .ok m ∧
      req = { m with signature := sig } := fun ⟨h1, h2⟩ => ⟨h1, m, sig, hm, h2⟩
  split at h
  · simp at h; exact key h
  · split at h
    · simp at h; exact key h
    · simp at h; exact key h
    · split at h <;> (simp at h; exact key h)

theorem publishDhtTo_frame {E : Env} {c : Core} {offers : List CidOffer} {n : Nat} {gid : Id} :
    (publishDhtTo E c n offers gid).1.id = c.id ∧ (publishDhtTo E c n offers gid).1.key = c.key := by
  have rec1 : ∀ (os : List CidOffer) (req resp : Msg) (c c' : Core), recordAll gid req resp c os = .ok c' → c'.id = c.id ∧ c'.key = c.key := by
    intro os req resp
    induction os with
    | nil => intro c c' h; cases h; exact ⟨rfl, rfl⟩
    | cons o os ih =>
      intro c c' h
      unfold recordAll at h
      obtain ⟨c1, h1, h2⟩ := res_ok_of_bind h
      unfold recordSent at h1
      dsimp only at h1
      split at h1
      · cases h1
      · cases h1
        have := ih _ _ h2
        exact this
  unfold publishDhtTo
  split
  · exact ⟨rfl, rfl⟩
  · exact ⟨rfl, rfl⟩
  split
  · exact ⟨rfl, rfl⟩
  · exact ⟨rfl, rfl⟩
  split
  · exact ⟨rfl, rfl⟩
  split
  · exact ⟨rfl, rfl⟩
  · exact ⟨rfl, rfl⟩
  split
  · rename_i h; exact rec1 _ _ _ _ _ h
  · exact ⟨rfl, rfl⟩

theorem canSign_frame {E : Env} {c c' : Core} (h : CanSign E c) (h1 : c'.id = c.id) (h2 : c'.key = c.key) : CanSign E c' := by
  obtain ⟨id, k, v, a1, a2, a3, a4⟩ := h
  exact ⟨id, k, v, h1.trans a1, a2, h2.trans a3, a4⟩

/-! ## group offers -/

theorem publishGroupTo_asks {E : Env} (hpr : ProtocolOk E.pr) {c : Core} (hk : CanSign E c) {o : CidOffer} (hb : Built E.H o) (n : Nat) (gid : Id) :
    ∃ req, .asked gid req ∈ (publishGroupTo E c n o gid).2.1 ∧ decode (providerPublishGroupOfferRequest E.H) req = .ok (c.id, 1, some o) := by
  have hk' := hk
  obtain ⟨id, k, v, hid, hp, -, -⟩ := hk'
  obtain ⟨m, hm, -, -, -, hsig⟩ := C30_providerPublishGroupOfferRequest E.H E.pr hpr c.id 1 (some o) ⟨id, hid, hp⟩ ⟨by decide, by decide⟩ ⟨o, rfl, hb⟩
  obtain ⟨sig, hs⟩ := signMsg_can hk m
  refine ⟨{ m with signature := sig }, ?_, (hsig sig).2⟩
  unfold publishGroupTo
  rw [hm]
  dsimp only
  rw [hs]
  dsimp only
  split
  · simp
  · split <;> simp

theorem publishGroupTo_asked {E : Env} {c : Core} {o : CidOffer} {n : Nat} {gid g : Id} {req : Msg}
    (h : .asked g req ∈ (publishGroupTo E c n o gid).2.1) : g = gid := by
  unfold publishGroupTo at h
  split at h
  · simp at h
  · simp at h
  split at h
  · simp at h
  · simp at h
  split at h
  · simp at h; exact h.1
  · split at h <;> (simp at h; exact h.1)

theorem publishGroupTo_frame {E : Env} {c : Core} {o : CidOffer} {n : Nat} {gid : Id} :
    (publishGroupTo E c n o gid).1.id = c.id ∧ (publishGroupTo E c n o gid).1.key = c.key := by
  unfold publishGroupTo
  split
  · exact ⟨rfl, rfl⟩
  · exact ⟨rfl, rfl⟩
  split
  · exact ⟨rfl, rfl⟩
  · exact ⟨rfl, rfl⟩
  split
  · exact ⟨rfl, rfl⟩
  split <;> exact ⟨rfl, rfl⟩

theorem publishGroupTo_silent {E : Env} {c : Core} {o : CidOffer} {n : Nat} {gid : Id} (m : Msg) : .message m ∉ (publishGroupTo E c n o gid).2.1 := by
  unfold publishGroupTo
  split <;> try simp
  split <;> try simp
  split <;> try simp
  split <;> simp

theorem publishGroup_answered {E : Env} {c : Core} {m r : Msg} (hpr : ProtocolOk E.pr) (h : .message r ∈ (publishGroup E c m).2) :
    ∃ cids price expiry qos o c0, decode providerAdminPublishGroupOfferRequest m = .ok (cids, price, expiry, qos) ∧
      Made E c cids price expiry qos o ∧ c0.id = c.id ∧ c0.key = c.key ∧
      (gatewayLoop (fun c n gid => publishGroupTo E c n o gid) c0 0 E.gateways).2.2.2 = true ∧
      (publishGroup E c m).2 = (gatewayLoop (fun c n gid => publishGroupTo E c n o gid) c0 0 E.gateways).2.1 ++ [.message r] ∧
      decode providerAdminPublishGroupOfferResponse r = .ok true := by
  unfold publishGroup at h
  split at h
  · simp at h
  rename_i k v hkey
  split at h
  · simp at h
  · simp at h
  rename_i cids price expiry qos hd
  split at h
  · simp at h
  rename_i o hn
  split at h
  · simp at h
  · simp at h
  rename_i o' hsig
  split at h
  · simp at h
  rename_i mgr b hadd
  refine ⟨cids, price, expiry, qos, o', { c with heap := c.heap ++ [o'], offers := mgr }, hd, made_sign hkey hn hsig, rfl, rfl, ?_⟩
  have heq : publishGroup E c m =
      match gatewayLoop (fun c n gid => publishGroupTo E c n o' gid) { c with heap := c.heap ++ [o'], offers := mgr } 0 E.gateways with
      | (c', out, _, false) => (c', out)
      | (c', out, _, true) => (c', out ++ respond E c' providerAdminPublishGroupOfferResponse [] [] true) := by
    unfold publishGroup
    split
    · rename_i h0; rw [hkey] at h0; cases h0
    · rename_i k' v' h0
      rw [hkey] at h0
      cases h0
      simp only [hd, hn, hsig, hadd]
      rfl
  rw [heq]
  have hs : ∀ x, .message x ∉ (gatewayLoop (fun c n gid => publishGroupTo E c n o' gid) { c with heap := c.heap ++ [o'], offers := mgr } 0 E.gateways).2.1 := by
    intro x hx
    rcases (gatewayLoop_mem (Q := fun _ => True) (fun _ _ _ _ => trivial) E.gateways _ 0 trivial).2.1 _ hx with h | ⟨_, _, _, _, _, _, _, h⟩
    · cases h
    · exact publishGroupTo_silent _ h
  generalize gatewayLoop (fun c n gid => publishGroupTo E c n o' gid) { c with heap := c.heap ++ [o'], offers := mgr } 0 E.gateways = l at h hs ⊢
  obtain ⟨c', out, n, ok⟩ := l
  cases ok with
  | false => exact absurd h (hs r)
  | true =>
    dsimp only at h hs ⊢
    rcases List.mem_append.1 h with h | h
    · exact absurd h (hs r)
    · have hr := (respond_mem (by simp) (by simp) h).1
      rw [hr]
      exact ⟨rfl, rfl, (respond_decode (by simp) (by simp) (C30_providerAdminPublishGroupOfferResponse E.pr hpr true) h).2⟩

/-! ## what is acknowledged is confirmed -/

theorem recordAll_can (gid : Id) (req resp : Msg) : ∀ (os : List CidOffer) (c : Core), (∀ o ∈ os, o.cids ≠ []) → ∃ c', recordAll gid req resp c os = .ok c'
  | [], c, _ => ⟨c, rfl⟩
  | o :: os, c, h => by
    have ho := h o (by simp)
    unfold recordAll recordSent
    cases hc : o.cids with
    | nil => exact absurd hc ho
    | cons cid rest =>
      simp only [Res.bind_ok]
      exact recordAll_can gid req resp os _ (fun x hx => h x (by simp [hx]))

theorem publishDhtTo_confirms {E : Env} {offers : List CidOffer} (ho : ∀ o ∈ offers, o.cids ≠ []) {g : Id} {req : Msg}
    (hack : ∀ n, ∃ ack, E.exchange n g req = some ack ∧ SignedBy E g ack ∧ Acknowledges E g req ack) (c : Core) (n : Nat) (gid : Id)
    (h : .asked g req ∈ (publishDhtTo E c n offers gid).2.1) : .confirmed g offers ∈ (publishDhtTo E c n offers gid).2.1 := by
  unfold publishDhtTo at h ⊢
  split at h
  · simp at h
  · simp at h
  split at h
  · simp at h
  · simp at h
  rename_i req' hreq
  have hg : g = gid ∧ req = req' := by
    split at h
    · simpa using h
    · split at h
      · simpa using h
      · simpa using h
      · split at h <;> simpa using h
  obtain ⟨rfl, rfl⟩ := hg
  obtain ⟨ack, h1, h2, h3⟩ := hack n
  rw [h1]
  dsimp only
  rw [checkAck_ok.2 ⟨h2, h3⟩]
  dsimp only
  obtain ⟨c', hc'⟩ := recordAll_can g req ack offers c ho
  rw [hc']
  simp

theorem nearLoop_confirms {E : Env} {offers : List CidOffer} (ho : ∀ o ∈ offers, o.cids ≠ []) {g : Id} {req : Msg}
    (hack : ∀ n, ∃ ack, E.exchange n g req = some ack ∧ SignedBy E g ack ∧ Acknowledges E g req ack) (cids : List Id) (c : Core) (n : Nat) :
    .asked g req ∈ (nearLoop E offers c n cids).2.1 → .confirmed g offers ∈ (nearLoop E offers c n cids).2.1 := by
  refine nearLoop_comp (R := fun _ outs _ => .asked g req ∈ outs → .confirmed g offers ∈ outs) (by simp) (by simp) (by simp) ?_ ?_ cids c n
  · intro c o c1 o1 c2 h1 h2 h
    rcases List.mem_append.1 h with h | h
    · exact List.mem_append.2 (Or.inl (h1 h))
    · exact List.mem_append.2 (Or.inr (h2 h))
  · intro c n gid _ h
    exact publishDhtTo_confirms ho hack c n gid h

/-- A publish request of the admin asks nobody, or makes offers and asks for them. -/
theorem publishDht_asked {E : Env} {c : Core} {m : Msg} {g : Id} {req : Msg} (h : .asked g req ∈ (publishDht E c m).2) :
    ∃ cids price expiry qos offers mgr tail, decode providerAdminPublishDHTOfferRequest m = .ok (cids, price, expiry, qos) ∧
      MadeAll E c cids price expiry qos offers ∧ storeLoop E c.heap c.heap.length c.offers offers = .ok mgr ∧
      (publishDht E c m).1 = (nearLoop E offers { c with heap := c.heap ++ [offers.getLastD noOffer], offers := mgr } 0 cids).1 ∧
      (publishDht E c m).2 = (nearLoop E offers { c with heap := c.heap ++ [offers.getLastD noOffer], offers := mgr } 0 cids).2.1 ++ tail ∧
      .asked g req ∈ (nearLoop E offers { c with heap := c.heap ++ [offers.getLastD noOffer], offers := mgr } 0 cids).2.1 := by
  unfold publishDht at h ⊢
  split at h
  · simp at h
  rename_i k v hkey
  split at h
  · simp at h
  · simp at h
  rename_i cids price expiry qos hd
  split at h
  · simp at h
  rename_i hne
  split at h
  · simp at h
  · simp at h
  rename_i offers hmk
  split at h
  · simp at h
  rename_i mgr hst
  have hl : cids.length ≠ 0 ∧ cids.length = price.length ∧ cids.length = expiry.length ∧ cids.length = qos.length := by
    refine ⟨fun h => hne (Or.inl h), ?_, ?_, ?_⟩ <;> apply Classical.byContradiction <;> intro h
    · exact hne (Or.inr (Or.inl h))
    · exact hne (Or.inr (Or.inr (Or.inl h)))
    · exact hne (Or.inr (Or.inr (Or.inr h)))
  have hmade := makeOffers_made hkey hl.2.1 hl.2.2.1 hl.2.2.2 hmk
  have hquiet : ∀ c', .asked g req ∉ respond E c' providerAdminPublishDHTOfferResponse [] [] true := by
    intro c' hx
    unfold respond at hx
    split at hx
    · simp at hx
    · simp at hx
    · split at hx <;> simp at hx
  refine ⟨cids, price, expiry, qos, offers, mgr, ?_⟩
  generalize hnl : nearLoop E offers { c with heap := c.heap ++ [offers.getLastD noOffer], offers := mgr } 0 cids = nl at h ⊢
  obtain ⟨c', out, b⟩ := nl
  have goal : ∀ tail, .asked g req ∉ tail → (.asked g req ∈ out ++ tail) → ∃ t, decode providerAdminPublishDHTOfferRequest m = .ok (cids, price, expiry, qos) ∧
      MadeAll E c cids price expiry qos offers ∧ storeLoop E c.heap c.heap.length c.offers offers = .ok mgr ∧ c' = c' ∧ out ++ tail = out ++ t ∧ .asked g req ∈ out := by
    intro tail ht hm
    refine ⟨tail, hd, hmade, hst, rfl, rfl, ?_⟩
    rcases List.mem_append.1 hm with hm | hm
    · exact hm
    · exact absurd hm ht
  cases b with
  | false =>
    dsimp only at h
    obtain ⟨t, e1, e2, e3, -, e5, e6⟩ := goal [] (by simp) (by simpa using h)
    have e5 : out = out ++ t := by simpa using e5
    refine ⟨t, e1, e2, e3, ?_, ?_, e6⟩
    · simp only [hkey, hd, if_neg hne, hmk, hst, hnl]
    · simp only [hkey, hd, if_neg hne, hmk, hst, hnl]
      exact e5
  | true =>
    dsimp only at h
    obtain ⟨t, e1, e2, e3, -, e5, e6⟩ := goal _ (hquiet c') h
    refine ⟨t, e1, e2, e3, ?_, ?_, e6⟩
    · simp only [hkey, hd, if_neg hne, hmk, hst, hnl]
    · simp only [hkey, hd, if_neg hne, hmk, hst, hnl]
      exact e5

end FcRetrieval.Provider
