import Verif.Props.ProviderPublish
/-!
# Gateways that do not answer: C104, C106
-/
set_option linter.unusedSimpArgs false

namespace FcRetrieval.Provider
open FcRetrieval.Ids (Id Proper)
open FcRetrieval.Merkle (Hash exId exId_proper)
open FcRetrieval.Message (Msg)
open FcRetrieval.Offer (CidOffer)
open FcRetrieval.Register (Record)
open FcRetrieval.Wire
open FcRetrieval.Codecs
open FcRetrieval.Gateway (res_ok_of_bind)

attribute [local irreducible] exMsg

/-- The same world, where the network delivers `x`. -/
def over (E : Env) (x : Nat → Id → Msg → Option Msg) : Env := { E with exchange := x }

theorem recordAll_any {gid : Id} {req resp : Msg} : ∀ {os : List CidOffer} {c c1 : Core} (c' : Core), recordAll gid req resp c os = .ok c1 →
    ∃ c1', recordAll gid req resp c' os = .ok c1'
  | [], _, _, c', _ => ⟨c', rfl⟩
  | o :: os, c, c1, c', h => by
    unfold recordAll at h ⊢
    obtain ⟨c2, h1, h2⟩ := res_ok_of_bind h
    unfold recordSent at h1 ⊢
    dsimp only at h1 ⊢
    split at h1
    · cases h1
    · obtain ⟨c3, h3⟩ := recordAll_any (os := os) _ h2
      exact ⟨c3, h3⟩

theorem publishDhtTo_lossy {E : Env} {x : Nat → Id → Msg → Option Msg} (hx : ∀ n g q, x n g q = none ∨ x n g q = E.exchange n g q) {c c' : Core}
    {offers : List CidOffer} {n : Nat} {gid : Id} (hi : c'.id = c.id) (hk : c'.key = c.key) (h : (publishDhtTo E c n offers gid).2.2 = true) :
    (publishDhtTo (over E x) c' n offers gid).2.2 = true := by
  unfold publishDhtTo at h ⊢
  have hsm : ∀ m, signMsg (over E x) c' m = signMsg E c m := by intro m; unfold signMsg; rw [hk]; rfl
  rw [hi]
  split at h
  · cases h
  · rename_i he
    rw [show encode (providerPublishDHTOfferRequest (over E x).H) (over E x).pr (c.id, 1, offers) = _ from he]
  · rename_i req he
    rw [show encode (providerPublishDHTOfferRequest (over E x).H) (over E x).pr (c.id, 1, offers) = _ from he]
    try dsimp only
    rw [hsm]
    split at h
    · cases h
    · rename_i hs
      first | rfl | (rw [hs])
    · rename_i req' hs
      try rw [hs]
      try dsimp only
      rcases hx n gid req' with h0 | h0
      · rw [show (over E x).exchange n gid req' = _ from h0]
      · rw [show (over E x).exchange n gid req' = _ from h0]
        split at h
        · rename_i h1; first | rfl | rw [h1]
        · rename_i resp h1
          try rw [h1]
          try dsimp only
          rw [show checkAck (over E x) gid req' resp = checkAck E gid req' resp from rfl]
          split at h
          · cases h
          · rename_i h2; first | rfl | rw [h2]
          · rename_i h2
            try rw [h2]
            try dsimp only
            split at h
            · rename_i c1 h3
              obtain ⟨c2, h4⟩ := recordAll_any c' h3
              try rw [h4]
            · cases h

theorem publishGroupTo_lossy {E : Env} {x : Nat → Id → Msg → Option Msg} (hx : ∀ n g q, x n g q = none ∨ x n g q = E.exchange n g q) {c c' : Core}
    {o : CidOffer} {n : Nat} {gid : Id} (hi : c'.id = c.id) (hk : c'.key = c.key) (h : (publishGroupTo E c n o gid).2.2 = true) :
    (publishGroupTo (over E x) c' n o gid).2.2 = true := by
  unfold publishGroupTo at h ⊢
  have hsm : ∀ m, signMsg (over E x) c' m = signMsg E c m := by intro m; unfold signMsg; rw [hk]; rfl
  rw [hi]
  split at h
  · cases h
  · rename_i he
    rw [show encode (providerPublishGroupOfferRequest (over E x).H) (over E x).pr (c.id, 1, some o) = _ from he]
  · rename_i req he
    rw [show encode (providerPublishGroupOfferRequest (over E x).H) (over E x).pr (c.id, 1, some o) = _ from he]
    try dsimp only
    rw [hsm]
    split at h
    · cases h
    · rename_i hs
      first | rfl | (rw [hs])
    · rename_i req' hs
      try rw [hs]
      try dsimp only
      rcases hx n gid req' with h0 | h0
      · rw [show (over E x).exchange n gid req' = _ from h0]
      · rw [show (over E x).exchange n gid req' = _ from h0]
        split at h
        · rename_i h1; first | rfl | rw [h1]
        · rename_i resp h1
          try rw [h1]
          try dsimp only
          rw [show checkGroupAck (over E x) gid o resp = checkGroupAck E gid o resp from rfl]
          split at h
          · cases h
          · rename_i h2; first | rfl | rw [h2]
          · rename_i h2
            first | rfl | rw [h2]

/-- Two ways to send, where the second goes on whenever the first does. -/
theorem gatewayLoop_lossy {s s' : Core → Nat → Id → Core × List Out × Bool}
    (hf : ∀ c n g, (s c n g).1.id = c.id ∧ (s c n g).1.key = c.key) (hf' : ∀ c n g, (s' c n g).1.id = c.id ∧ (s' c n g).1.key = c.key)
    (hs : ∀ c c' n g, c'.id = c.id → c'.key = c.key → (s c n g).2.2 = true → (s' c' n g).2.2 = true) :
    ∀ (rs : List Record) (c c' : Core) (n : Nat), c'.id = c.id → c'.key = c.key → (gatewayLoop s c n rs).2.2.2 = true →
      (gatewayLoop s' c' n rs).2.2.2 = true ∧ (gatewayLoop s' c' n rs).2.2.1 = (gatewayLoop s c n rs).2.2.1 ∧
      (gatewayLoop s c n rs).1.id = c.id ∧ (gatewayLoop s c n rs).1.key = c.key ∧
      (gatewayLoop s' c' n rs).1.id = c.id ∧ (gatewayLoop s' c' n rs).1.key = c.key
  | [], c, c', n, hi, hk, _ => ⟨rfl, rfl, rfl, rfl, hi, hk⟩
  | r :: rs, c, c', n, hi, hk, h => by
    unfold gatewayLoop at h ⊢
    cases hg : Ids.fromHex r.nodeID with
    | none => rw [hg] at h; cases h
    | some gid =>
      rw [hg] at h
      dsimp only at h ⊢
      obtain ⟨f1, f2⟩ := hf c n gid
      obtain ⟨f1', f2'⟩ := hf' c' n gid
      have hs1 := hs c c' n gid hi hk
      rcases h1 : s c n gid with ⟨c1, o1, b1⟩
      rcases h2 : s' c' n gid with ⟨c2, o2, b2⟩
      rw [h1] at h f1 f2 hs1
      rw [h2] at f1' f2' hs1
      cases b1 with
      | false => cases h
      | true =>
        have hb2 : b2 = true := hs1 rfl
        subst hb2
        dsimp only at h f1 f2 f1' f2' ⊢
        obtain ⟨a1, a2, a3, a4, a5, a6⟩ := gatewayLoop_lossy hf hf' hs rs c1 c2 (n + 1) (f1'.trans (hi.trans f1.symm)) (f2'.trans (hk.trans f2.symm)) h
        exact ⟨a1, a2, a3.trans f1, a4.trans f2, a5.trans f1, a6.trans f2⟩

theorem nearLoop_lossy {E : Env} {x : Nat → Id → Msg → Option Msg} (hx : ∀ n g q, x n g q = none ∨ x n g q = E.exchange n g q)
    {offers : List CidOffer} : ∀ (cids : List Id) (c c' : Core) (n : Nat), c'.id = c.id → c'.key = c.key → (nearLoop E offers c n cids).2.2 = true →
      (nearLoop (over E x) offers c' n cids).2.2 = true ∧ (nearLoop E offers c n cids).1.key = c.key ∧
      (nearLoop (over E x) offers c' n cids).1.key = c.key
  | [], c, c', n, _, hk, _ => ⟨rfl, rfl, hk⟩
  | cid :: cids, c, c', n, hi, hk, h => by
    unfold nearLoop at h ⊢
    show _ ∧ _
    cases hr : E.near cid with
    | none => rw [hr] at h; cases h
    | some rs =>
      rw [hr] at h
      rw [show (over E x).near cid = some rs from hr]
      dsimp only at h ⊢
      have hl := gatewayLoop_lossy (s := fun c n gid => publishDhtTo E c n offers gid) (s' := fun c n gid => publishDhtTo (over E x) c n offers gid)
        (fun c n g => publishDhtTo_frame) (fun c n g => publishDhtTo_frame) (fun c c' n g h1 h2 h3 => publishDhtTo_lossy hx h1 h2 h3) rs c c' n hi hk
      rcases h1 : gatewayLoop (fun c n gid => publishDhtTo E c n offers gid) c n rs with ⟨c1, o1, n1, b1⟩
      rcases h2 : gatewayLoop (fun c n gid => publishDhtTo (over E x) c n offers gid) c' n rs with ⟨c2, o2, n2, b2⟩
      rw [h1] at h hl
      rw [h2] at hl
      cases b1 with
      | false => cases h
      | true =>
        obtain ⟨a1, a2, a3, a4, a5, a6⟩ := hl rfl
        dsimp only at a1 a2 a3 a4 a5 a6 h ⊢
        subst a1
        subst a2
        try dsimp only
        obtain ⟨b1, b2, b3⟩ := nearLoop_lossy hx cids c1 c2 n2 (a5.trans a3.symm) (a6.trans a4.symm) h
        exact ⟨b1, b2.trans a4, b3.trans a4⟩

theorem makeOffers_over {E : Env} {x : Nat → Id → Msg → Option Msg} {id : Option Id} {k : Crypto.KeyPair} {v : Crypto.KeyVersion} :
    ∀ l, makeOffers (over E x) id k v l = makeOffers E id k v l
  | [] => rfl
  | _ :: l => by
    unfold makeOffers
    rw [makeOffers_over l]
    rfl

theorem storeLoop_over {E : Env} {x : Nat → Id → Msg → Option Msg} {heap : List CidOffer} {cell : Nat} :
    ∀ (l : List CidOffer) (mgr : OfferMgr.Mgr Nat), storeLoop (over E x) heap cell mgr l = storeLoop E heap cell mgr l
  | [], _ => rfl
  | o :: l, mgr => by
    unfold storeLoop
    simp only [storeLoop_over l]
    rfl

/-- **C104, gateways that do not answer**: whether a batch of DHT offers is published with success does not depend on the gateways that
can be reached: where it succeeds, it succeeds with the same answer when any of the answers of the gateways are lost.  By `C104_near`
every gateway near a CID is then still sent the offers. -/
theorem C104_unreachable (E : Env) (c : Core) (m r : Msg) (hpr : ProtocolOk E.pr) (x : Nat → Id → Msg → Option Msg)
    (hx : ∀ n g q, x n g q = none ∨ x n g q = E.exchange n g q) (hr : .message r ∈ (serve E c .publishDht m).2) :
    .message r ∈ (serve (over E x) c .publishDht m).2 := by
  have hsm : ∀ a b, a.key = b.key → respond (over E x) a providerAdminPublishDHTOfferResponse [] [] true = respond E b providerAdminPublishDHTOfferResponse [] [] true := by
    intro a b h
    unfold respond
    have : ∀ m, signMsg (over E x) a m = signMsg E b m := by intro m; unfold signMsg; rw [h]; rfl
    simp only [this]
    rfl
  have hr' : .message r ∈ (publishDht E c m).2 := hr
  show .message r ∈ (publishDht (over E x) c m).2
  obtain ⟨cids, price, expiry, qos, offers, mgr, -, -, -, -, -, hok, hout, -⟩ := publishDht_answered hpr hr'
  unfold publishDht at hr' ⊢
  split at hr'
  · simp at hr'
  split at hr'
  · simp at hr'
  · simp at hr'
  split at hr'
  · simp at hr'
  rename_i cids price expiry qos hd hl
  rw [if_neg hl]
  rw [makeOffers_over]
  split at hr'
  · simp at hr'
  · simp at hr'
  rename_i offers ho
  rw [storeLoop_over]
  split at hr'
  · simp at hr'
  rename_i mgr hst
  have hl := nearLoop_lossy hx (offers := offers) cids { c with heap := c.heap ++ [offers.getLastD noOffer], offers := mgr } _ 0 rfl rfl
  rcases h1 : nearLoop E offers { c with heap := c.heap ++ [offers.getLastD noOffer], offers := mgr } 0 cids with ⟨c1, o1, b1⟩
  rcases h2 : nearLoop (over E x) offers { c with heap := c.heap ++ [offers.getLastD noOffer], offers := mgr } 0 cids with ⟨c2, o2, b2⟩
  rw [h1] at hr' hl
  rw [h2] at hl
  cases b1 with
  | false =>
    dsimp only at hr'
    have := near_silent (E := E) (offers := offers) cids { c with heap := c.heap ++ [offers.getLastD noOffer], offers := mgr } 0 r
    rw [h1] at this
    exact absurd hr' this
  | true =>
    obtain ⟨a1, a2, a3⟩ := hl rfl
    dsimp only at a1 a2 a3 hr' ⊢
    subst a1
    dsimp only
    rw [hsm c2 c1 (a3.trans a2.symm)]
    refine List.mem_append.2 (Or.inr ?_)
    rcases List.mem_append.1 hr' with h | h
    · have := near_silent (E := E) (offers := offers) cids { c with heap := c.heap ++ [offers.getLastD noOffer], offers := mgr } 0 r
      rw [h1] at this
      exact absurd h this
    · exact h

theorem loop_silent {send : Core → Nat → Id → Core × List Out × Bool} (hs : ∀ c n g m, .message m ∉ (send c n g).2.1) :
    ∀ (rs : List Record) (c : Core) (n : Nat) (m : Msg), .message m ∉ (gatewayLoop send c n rs).2.1
  | [], _, _, _ => by simp [gatewayLoop]
  | r :: rs, c, n, m => by
    unfold gatewayLoop
    split
    · simp
    · rename_i gid _
      have h0 := hs c n gid m
      rcases h1 : send c n gid with ⟨c1, o1, b1⟩
      rw [h1] at h0
      cases b1 with
      | false => exact h0
      | true =>
        have := loop_silent hs rs c1 (n + 1) m
        simp only [List.mem_append, not_or]
        exact ⟨h0, this⟩

/-- **C106, gateways that do not answer**: the same for group offers. -/
theorem C106_unreachable (E : Env) (c : Core) (m r : Msg) (x : Nat → Id → Msg → Option Msg)
    (hx : ∀ n g q, x n g q = none ∨ x n g q = E.exchange n g q) (hr : .message r ∈ (serve E c .publishGroup m).2) :
    .message r ∈ (serve (over E x) c .publishGroup m).2 := by
  have hsm : ∀ a b, a.key = b.key → respond (over E x) a providerAdminPublishGroupOfferResponse [] [] true = respond E b providerAdminPublishGroupOfferResponse [] [] true := by
    intro a b h
    unfold respond
    have : ∀ m, signMsg (over E x) a m = signMsg E b m := by intro m; unfold signMsg; rw [h]; rfl
    simp only [this]
    rfl
  have hr' : .message r ∈ (publishGroup E c m).2 := hr
  show .message r ∈ (publishGroup (over E x) c m).2
  unfold publishGroup at hr' ⊢
  split at hr'
  · simp at hr'
  split at hr'
  · simp at hr'
  · simp at hr'
  rename_i cids price expiry qos hd
  try rw [show Offer.newOffer (over E x).H c.id cids price expiry qos = Offer.newOffer E.H c.id cids price expiry qos from rfl]
  split at hr'
  · simp at hr'
  rename_i o ho
  try dsimp only
  rw [show (over E x).P = E.P from rfl]
  split at hr'
  · simp at hr'
  · simp at hr'
  rename_i o' ho'
  try dsimp only
  rw [show (over E x).H512 = E.H512 from rfl, show (over E x).now = E.now from rfl, show (over E x).gateways = E.gateways from rfl]
  split at hr'
  · simp at hr'
  rename_i mgr b hst
  try dsimp only
  have hl := gatewayLoop_lossy (s := fun c n gid => publishGroupTo E c n o' gid) (s' := fun c n gid => publishGroupTo (over E x) c n o' gid)
    (fun c n g => publishGroupTo_frame) (fun c n g => publishGroupTo_frame) (fun c c' n g h1 h2 h3 => publishGroupTo_lossy hx h1 h2 h3) E.gateways
    { c with heap := c.heap ++ [o'], offers := mgr } _ 0 rfl rfl
  have hq := loop_silent (send := fun c n gid => publishGroupTo E c n o' gid) (fun c n g m => publishGroupTo_silent m) E.gateways
    { c with heap := c.heap ++ [o'], offers := mgr } 0 r
  rcases h1 : gatewayLoop (fun c n gid => publishGroupTo E c n o' gid) { c with heap := c.heap ++ [o'], offers := mgr } 0 E.gateways with ⟨c1, o1, n1, b1⟩
  rcases h2 : gatewayLoop (fun c n gid => publishGroupTo (over E x) c n o' gid) { c with heap := c.heap ++ [o'], offers := mgr } 0 E.gateways with ⟨c2, o2, n2, b2⟩
  rw [h1] at hr' hl hq
  rw [h2] at hl
  cases b1 with
  | false => exact absurd hr' hq
  | true =>
    obtain ⟨a1, -, -, a4, -, a6⟩ := hl rfl
    dsimp only at a1 a4 a6 hr' ⊢
    subst a1
    dsimp only
    rw [hsm c2 c1 (a6.trans a4.symm)]
    refine List.mem_append.2 (Or.inr ?_)
    rcases List.mem_append.1 hr' with h | h
    · exact absurd h hq
    · exact h

/-- The provider of the examples publishes although nobody can be reached. -/
example : ∃ r, .message r ∈ (serve (over exEnv (fun _ _ _ => none)) (serveAll newCore exReady).1 .publishDht exPublish).2 := by
  have h : (answered (serve exEnv (serveAll newCore exReady).1 .publishDht exPublish).2).isSome = true := by decide +kernel
  obtain ⟨r, hr⟩ := Option.isSome_iff_exists.1 h
  exact ⟨r, C104_unreachable exEnv _ _ _ defaultProtocolOk _ (fun _ _ _ => Or.inl rfl) (answered_mem hr)⟩

example : ∃ r, .message r ∈ (serve (over exEnv (fun _ _ _ => none)) (serveAll newCore exReady).1 .publishGroup exGroup).2 := by
  have h : (answered (serve exEnv (serveAll newCore exReady).1 .publishGroup exGroup).2).isSome = true := by decide +kernel
  obtain ⟨r, hr⟩ := Option.isSome_iff_exists.1 h
  exact ⟨r, C106_unreachable exEnv _ _ _ _ (fun _ _ _ => Or.inl rfl) (answered_mem hr)⟩

end FcRetrieval.Provider
