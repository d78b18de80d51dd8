import Verif.Lemmas.ProviderRefs
/-!
# What the publishing loops of the provider do
-/
set_option linter.unusedSimpArgs false

namespace FcRetrieval.Provider
open FcRetrieval.Ids (Id Proper)
open FcRetrieval.Message (Msg)
open FcRetrieval.Merkle (Hash)
open FcRetrieval.Offer (CidOffer Built)
open FcRetrieval.Register (Record)
open FcRetrieval.Wire
open FcRetrieval.Codecs
open FcRetrieval.Gateway (fromHex_len res_ok_of_bind verify_snd)
open FcRetrieval.OfferMgr (toStr_inj)

theorem gatewayLoop_comp {R : Core → List Out → Core → Prop} (h0 : ∀ c, R c [] c) (h400 : ∀ c, R c [.status 400] c)
    (ht : ∀ {c o c1 o1 c2}, R c o c1 → R c1 o1 c2 → R c (o ++ o1) c2) {send : Core → Nat → Id → Core × List Out × Bool}
    (hs : ∀ c n gid, Proper gid → R c (send c n gid).2.1 (send c n gid).1) :
    ∀ (rs : List Record) (c : Core) (n : Nat), R c (gatewayLoop send c n rs).2.1 (gatewayLoop send c n rs).1
  | [], c, n => h0 c
  | r :: rs, c, n => by
    unfold gatewayLoop
    split
    · exact h400 c
    · rename_i gid hg
      have h1 := hs c n gid (fromHex_len hg)
      split
      · rename_i c' out he
        rw [he] at h1
        exact h1
      · rename_i c' out he
        rw [he] at h1
        exact ht h1 (gatewayLoop_comp h0 h400 ht hs rs c' (n + 1))

theorem nearLoop_comp {R : Core → List Out → Core → Prop} (h0 : ∀ c, R c [] c) (h400 : ∀ c, R c [.status 400] c)
    (h500 : ∀ c, R c [.status 500] c) (ht : ∀ {c o c1 o1 c2}, R c o c1 → R c1 o1 c2 → R c (o ++ o1) c2) {E : Env} {offers : List CidOffer}
    (hs : ∀ c n gid, Proper gid → R c (publishDhtTo E c n offers gid).2.1 (publishDhtTo E c n offers gid).1) :
    ∀ (cids : List Id) (c : Core) (n : Nat), R c (nearLoop E offers c n cids).2.1 (nearLoop E offers c n cids).1
  | [], c, n => h0 c
  | cid :: cids, c, n => by
    unfold nearLoop
    split
    · exact h500 c
    · rename_i rs hr
      have h1 := gatewayLoop_comp h0 h400 ht hs rs c n
      split
      · rename_i c' out n' he
        rw [he] at h1
        exact h1
      · rename_i c' out n' he
        rw [he] at h1
        exact ht h1 (nearLoop_comp h0 h400 h500 ht hs cids c' n')

/-! ## the offers sent -/

theorem confirmedBy_append (gid : Id) : ∀ (a b : List Out), confirmedBy gid (a ++ b) = confirmedBy gid a ++ confirmedBy gid b
  | [], b => rfl
  | x :: a, b => by
    cases x <;> simp [confirmedBy, confirmedBy_append gid a b]

theorem allConfirmed_append : ∀ (a b : List Out), allConfirmed (a ++ b) = allConfirmed a ++ allConfirmed b
  | [], b => rfl
  | x :: a, b => by
    cases x <;> simp [allConfirmed, allConfirmed_append a b]

/-- Nothing was confirmed. -/
def Quiet (outs : List Out) : Prop := ∀ g os, .confirmed g os ∉ outs

theorem quiet_by {outs : List Out} (h : Quiet outs) (gid : Id) : confirmedBy gid outs = [] := by
  induction outs with
  | nil => rfl
  | cons x outs ih =>
    have := ih (fun g os hm => h g os (by simp [hm]))
    cases x <;> first | exact this | exact absurd (List.mem_cons_self) (h _ _)

theorem quiet_all {outs : List Out} (h : Quiet outs) : allConfirmed outs = [] := by
  induction outs with
  | nil => rfl
  | cons x outs ih =>
    have := ih (fun g os hm => h g os (by simp [hm]))
    cases x <;> first | exact this | exact absurd (List.mem_cons_self) (h _ _)

theorem flatMap_mset (k : List Char) (os : List CidOffer) : ∀ (m : List (List Char × List CidOffer)),
    ((mset m k ((mget m k).getD [] ++ os)).flatMap (·.2)).Perm (m.flatMap (·.2) ++ os)
  | [] => by simp [mset, mget]
  | (k', v) :: m => by
    unfold mset mget
    by_cases h : k' = k
    · simp only [if_pos h, List.flatMap_cons, Option.getD_some]
      rw [List.append_assoc, List.append_assoc]
      exact (List.perm_append_comm).append_left v
    · simp only [if_neg h, List.flatMap_cons, List.append_assoc]
      exact (flatMap_mset k os m).append_left v

/-- What requests to gateways leave alone, and what they do to the list of offers sent. -/
structure Ran (c : Core) (outs : List Out) (c' : Core) : Prop where
  id : c'.id = c.id
  key : c'.key = c.key
  heap : c'.heap = c.heap
  offers : c'.offers = c.offers
  group : c'.groupGateways = c.groupGateways
  sent : ∀ gid, Proper gid → (mget c'.sent (Ids.toStr gid)).getD [] = (mget c.sent (Ids.toStr gid)).getD [] ++ confirmedBy gid outs
  total : (c'.sent.flatMap (·.2)).Perm (c.sent.flatMap (·.2) ++ allConfirmed outs)

theorem ran_quiet {c : Core} {outs : List Out} (h : Quiet outs) : Ran c outs c :=
  ⟨rfl, rfl, rfl, rfl, rfl, fun gid _ => by simp [quiet_by h], by simp [quiet_all h]⟩

theorem ran_trans {c c1 c2 : Core} {o o1 : List Out} (h : Ran c o c1) (h1 : Ran c1 o1 c2) : Ran c (o ++ o1) c2 := by
  refine ⟨h1.id.trans h.id, h1.key.trans h.key, h1.heap.trans h.heap, h1.offers.trans h.offers, h1.group.trans h.group, ?_, ?_⟩
  · intro gid hg
    rw [h1.sent gid hg, h.sent gid hg, confirmedBy_append, List.append_assoc]
  · rw [allConfirmed_append, ← List.append_assoc]
    exact h1.total.trans (h.total.append_right _)

theorem sent_mset {s : List (List Char × List CidOffer)} {gid : Id} (hp : Proper gid) (os : List CidOffer) (g : Id) (hg : Proper g) :
    (mget (mset s (Ids.toStr gid) ((mget s (Ids.toStr gid)).getD [] ++ os)) (Ids.toStr g)).getD [] =
      (mget s (Ids.toStr g)).getD [] ++ (if gid = g then os else []) := by
  rw [mget_mset]
  by_cases h : gid = g
  · subst h; simp
  · rw [if_neg (fun e => h ((toStr_inj hp hg).1 e)), if_neg h]; simp

/-- The acknowledgement recorded for a CID and a gateway. -/
def entry (c : Core) (s g : List Char) : Option (Msg × Msg) := (mget c.acks s).bind (fun gs => mget gs g)

open Classical in
/-- Recording one exchange for a list of offers. -/
theorem recordAll_ok {gid : Id} (hp : Proper gid) {req resp : Msg} : ∀ {os : List CidOffer} {c c' : Core}, recordAll gid req resp c os = .ok c' →
    Ran c [.confirmed gid os] c' ∧
    (∀ s g, entry c' s g = if g = Ids.toStr gid ∧ ∃ o ∈ os, ∃ cid rest, o.cids = cid :: rest ∧ s = Ids.toStr cid then some (req, resp) else entry c s g) ∧
    (∀ s, (mget c.acks s).isSome → (mget c'.acks s).isSome)
  | [], c, c', h => by
    cases h
    refine ⟨⟨rfl, rfl, rfl, rfl, rfl, fun g _ => by simp [confirmedBy], by simp [allConfirmed]⟩, by simp, fun _ h => h⟩
  | o :: os, c, c', h => by
    unfold recordAll at h
    obtain ⟨c1, h1, h⟩ := res_ok_of_bind h
    obtain ⟨hr, he, hk⟩ := recordAll_ok hp h
    unfold recordSent at h1
    dsimp only at h1
    split at h1
    · cases h1
    · rename_i cid rest hc
      cases h1
      refine ⟨?_, ?_, ?_⟩
      · refine ⟨hr.id, hr.key, hr.heap, hr.offers, hr.group, ?_, ?_⟩
        · intro g hg
          rw [hr.sent g hg]
          dsimp only
          rw [sent_mset hp [o] g hg]
          simp only [confirmedBy, List.append_assoc, List.append_nil]
          by_cases h : gid = g <;> simp [h]
        · refine hr.total.trans ?_
          dsimp only
          exact ((flatMap_mset _ [o] c.sent).append_right _).trans (by simp [allConfirmed, List.append_assoc])
      · intro s g
        rw [he]
        by_cases hg : g = Ids.toStr gid
        · by_cases hx : ∃ o ∈ os, ∃ cid rest, o.cids = cid :: rest ∧ s = Ids.toStr cid
          · rw [if_pos ⟨hg, hx⟩]
            obtain ⟨o', ho', hx⟩ := hx
            rw [if_pos ⟨hg, o', by simp [ho'], hx⟩]
          · rw [if_neg (fun h => hx h.2)]
            unfold entry
            dsimp only
            rw [mget_mset]
            by_cases hs : Ids.toStr cid = s
            · rw [if_pos hs, if_pos ⟨hg, o, by simp, cid, rest, hc, hs.symm⟩]
              simp [hg, mget_mset_same]
            · rw [if_neg hs, if_neg]
              rintro ⟨-, o', ho', cid', rest', hc', hs'⟩
              rcases List.mem_cons.1 ho' with rfl | ho'
              · rw [hc] at hc'
                cases hc'
                exact hs hs'.symm
              · exact hx ⟨o', ho', cid', rest', hc', hs'⟩
        · rw [if_neg (fun h => hg h.1), if_neg (fun h => hg h.1)]
          unfold entry
          dsimp only
          rw [mget_mset]
          by_cases hs : Ids.toStr cid = s
          · rw [if_pos hs]
            subst hs
            simp only [Option.bind_some]
            rw [mget_mset_other _ _ (fun e => hg e.symm)]
            cases mget c.acks (Ids.toStr cid) <;> simp [mget]
          · rw [if_neg hs]
      · intro s hs
        apply hk
        dsimp only
        rw [mget_mset]
        split
        · rfl
        · exact hs

/-! ## one request -/

/-- `req` is the publish request for `offers`, the gateway answered it with `ack`, and `ack` is an acknowledgement signed by the
gateway. -/
def Genuine (E : Env) (id : Option Id) (offers : List CidOffer) (gid : Id) (req ack : Msg) : Prop :=
  ∃ m sig n, encode (providerPublishDHTOfferRequest E.H) E.pr (id, 1, offers) = .ok m ∧ req = { m with signature := sig } ∧
    E.exchange n gid req = some ack ∧ SignedBy E gid ack ∧ Acknowledges E gid req ack

/-- What requests to publish DHT offers do to the acknowledgements. -/
structure RanDht (E : Env) (offers : List CidOffer) (c : Core) (outs : List Out) (c' : Core) : Prop where
  ran : Ran c outs c'
  grow : ∀ s g, (entry c s g).isSome → (entry c' s g).isSome
  outer : ∀ s, (mget c.acks s).isSome → (mget c'.acks s).isSome
  conf : ∀ g os, .confirmed g os ∈ outs → os = offers ∧ Proper g ∧ ∃ req ack, .asked g req ∈ outs ∧ Genuine E c.id offers g req ack
  new : ∀ g os, .confirmed g os ∈ outs → ∀ o ∈ os, ∀ cid rest, o.cids = cid :: rest → (entry c' (Ids.toStr cid) (Ids.toStr g)).isSome
  sound : ∀ s g v, entry c' s g = some v → entry c s g = some v ∨
    ∃ gid, Proper gid ∧ g = Ids.toStr gid ∧ (∃ o ∈ offers, ∃ cid rest, o.cids = cid :: rest ∧ s = Ids.toStr cid) ∧
      Genuine E c.id offers gid v.1 v.2
  asked : ∀ g req, .asked g req ∈ outs → ∃ m sig, encode (providerPublishDHTOfferRequest E.H) E.pr (c.id, 1, offers) = .ok m ∧
    req = { m with signature := sig }

theorem ranDht_quiet {E : Env} {offers : List CidOffer} {c : Core} {outs : List Out} (h : Quiet outs) (ha : ∀ g req, .asked g req ∉ outs) :
    RanDht E offers c outs c :=
  ⟨ran_quiet h, fun _ _ h => h, fun _ h => h, fun g os hm => absurd hm (h g os), fun g os hm => absurd hm (h g os), fun _ _ _ h => Or.inl h,
    fun g req hm => absurd hm (ha g req)⟩

theorem ranDht_trans {E : Env} {offers : List CidOffer} {c c1 c2 : Core} {o o1 : List Out} (h : RanDht E offers c o c1)
    (h1 : RanDht E offers c1 o1 c2) : RanDht E offers c (o ++ o1) c2 := by
  refine ⟨ran_trans h.ran h1.ran, fun s g hs => h1.grow s g (h.grow s g hs), fun s hs => h1.outer s (h.outer s hs), ?_, ?_, ?_, ?_⟩
  · intro g os hm
    rcases List.mem_append.1 hm with hm | hm
    · obtain ⟨e, hp, req, ack, ha, hg⟩ := h.conf g os hm
      exact ⟨e, hp, req, ack, by simp [ha], hg⟩
    · obtain ⟨e, hp, req, ack, ha, hg⟩ := h1.conf g os hm
      rw [h.ran.id] at hg
      exact ⟨e, hp, req, ack, by simp [ha], hg⟩
  · intro g os hm x hx cid rest hc
    rcases List.mem_append.1 hm with hm | hm
    · exact h1.grow _ _ (h.new g os hm x hx cid rest hc)
    · exact h1.new g os hm x hx cid rest hc
  · intro s g v hv
    rcases h1.sound s g v hv with hv | ⟨gid, hp, e, hx, hg⟩
    · exact h.sound s g v hv
    · rw [h.ran.id] at hg
      exact Or.inr ⟨gid, hp, e, hx, hg⟩
  · intro g req hm
    rcases List.mem_append.1 hm with hm | hm
    · exact h.asked g req hm
    · rw [← h.ran.id]
      exact h1.asked g req hm

theorem ranDht_publish {E : Env} {offers : List CidOffer} (c : Core) (n : Nat) (gid : Id) (hp : Proper gid) :
    RanDht E offers c (publishDhtTo E c n offers gid).2.1 (publishDhtTo E c n offers gid).1 := by
  unfold publishDhtTo
  split
  · exact ranDht_quiet (by intro g os; simp) (by simp)
  · exact ranDht_quiet (by intro g os; simp) (by simp)
  · rename_i m hm
    split
    · exact ranDht_quiet (by intro g os; simp) (by simp)
    · exact ranDht_quiet (by intro g os; simp) (by simp)
    · rename_i req hs
      obtain ⟨sig, rfl⟩ := signMsg_ok hs
      have hask : ∀ outs : List Out, Quiet outs → (∀ g req', .asked g req' ∈ outs → req' = { m with signature := sig }) →
          RanDht E offers c outs c := fun outs hq ha =>
        ⟨ran_quiet hq, fun _ _ h => h, fun _ h => h, fun g os hm => absurd hm (hq g os), fun g os hm => absurd hm (hq g os),
          fun _ _ _ h => Or.inl h, fun g req' h => ⟨m, sig, hm, ha g req' h⟩⟩
      split
      · exact hask _ (by intro g os; simp) (by simp)
      · rename_i resp hx
        split
        · exact hask _ (by intro g os; simp) (by simp)
        · exact hask _ (by intro g os; simp) (by simp)
        · rename_i hck
          split
          · rename_i c' hr
            obtain ⟨h1, h2, h3⟩ := recordAll_ok hp hr
            have hck' := checkAck_ok.1 hck
            have hgen : Genuine E c.id offers gid { m with signature := sig } resp := ⟨m, sig, n, hm, rfl, hx, hck'.1, hck'.2⟩
            refine ⟨⟨h1.id, h1.key, h1.heap, h1.offers, h1.group, h1.sent, h1.total⟩, ?_, h3, ?_, ?_, ?_, ?_⟩
            · intro s g hs
              dsimp only
              rw [h2]
              split
              · rfl
              · exact hs
            · intro g os hm'
              simp at hm'
              obtain ⟨rfl, rfl⟩ := hm'
              exact ⟨rfl, hp, _, resp, by simp, hgen⟩
            · intro g os hm' o ho cid rest hc
              simp at hm'
              obtain ⟨rfl, rfl⟩ := hm'
              dsimp only
              rw [h2, if_pos ⟨rfl, o, ho, cid, rest, hc, rfl⟩]
              rfl
            · intro s g v hv
              dsimp only at hv
              rw [h2] at hv
              split at hv
              · rename_i hg
                cases hv
                exact Or.inr ⟨gid, hp, hg.1, hg.2, hgen⟩
              · exact Or.inl hv
            · intro g req' hm'
              simp at hm'
              exact ⟨m, sig, hm, hm'.2⟩
          · exact hask _ (by intro g os; simp) (by simp)

theorem ranDht_near {E : Env} {offers : List CidOffer} (cids : List Id) (c : Core) (n : Nat) :
    RanDht E offers c (nearLoop E offers c n cids).2.1 (nearLoop E offers c n cids).1 :=
  nearLoop_comp (R := RanDht E offers) (fun c => ranDht_quiet (by intro g os; simp) (by simp))
    (fun c => ranDht_quiet (by intro g os; simp) (by simp)) (fun c => ranDht_quiet (by intro g os; simp) (by simp))
    ranDht_trans (fun c n gid hp => ranDht_publish c n gid hp) cids c n

/-! ## group offers -/

/-- The gateway answered the publish request for the offer with its digest, signed. -/
def GenuineGroup (E : Env) (id : Option Id) (o : CidOffer) (gid : Id) (req ack : Msg) : Prop :=
  ∃ m sig n, encode (providerPublishGroupOfferRequest E.H) E.pr (id, 1, some o) = .ok m ∧ req = { m with signature := sig } ∧
    E.exchange n gid req = some ack ∧ SignedBy E gid ack ∧
    ∃ g d dig, decode providerPublishGroupOfferResponse ack = .ok (g, d) ∧ Offer.digest E.H512 o = .ok dig ∧ readDigest E d = dig

structure RanGroup (E : Env) (o : CidOffer) (c : Core) (outs : List Out) (c' : Core) : Prop where
  ran : Ran c outs c'
  acks : c'.acks = c.acks
  conf : ∀ g os, .confirmed g os ∈ outs → os = [o] ∧ Proper g ∧ ∃ req ack, .asked g req ∈ outs ∧ GenuineGroup E c.id o g req ack

theorem ranGroup_quiet {E : Env} {o : CidOffer} {c : Core} {outs : List Out} (h : Quiet outs) : RanGroup E o c outs c :=
  ⟨ran_quiet h, rfl, fun g os hm => absurd hm (h g os)⟩

theorem ranGroup_trans {E : Env} {x : CidOffer} {c c1 c2 : Core} {o o1 : List Out} (h : RanGroup E x c o c1)
    (h1 : RanGroup E x c1 o1 c2) : RanGroup E x c (o ++ o1) c2 := by
  refine ⟨ran_trans h.ran h1.ran, h1.acks.trans h.acks, ?_⟩
  intro g os hm
  rcases List.mem_append.1 hm with hm | hm
  · obtain ⟨e, hp, req, ack, ha, hg⟩ := h.conf g os hm
    exact ⟨e, hp, req, ack, by simp [ha], hg⟩
  · obtain ⟨e, hp, req, ack, ha, hg⟩ := h1.conf g os hm
    rw [h.ran.id] at hg
    exact ⟨e, hp, req, ack, by simp [ha], hg⟩

theorem ranGroup_publish {E : Env} {o : CidOffer} (c : Core) (n : Nat) (gid : Id) (hp : Proper gid) :
    RanGroup E o c (publishGroupTo E c n o gid).2.1 (publishGroupTo E c n o gid).1 := by
  unfold publishGroupTo
  split
  · exact ranGroup_quiet (by intro g os; simp)
  · exact ranGroup_quiet (by intro g os; simp)
  · rename_i m hm
    split
    · exact ranGroup_quiet (by intro g os; simp)
    · exact ranGroup_quiet (by intro g os; simp)
    · rename_i req hs
      obtain ⟨sig, rfl⟩ := signMsg_ok hs
      split
      · exact ranGroup_quiet (by intro g os; simp)
      · rename_i resp hx
        split
        · exact ranGroup_quiet (by intro g os; simp)
        · exact ranGroup_quiet (by intro g os; simp)
        · rename_i hck
          refine ⟨⟨rfl, rfl, rfl, rfl, rfl, ?_, ?_⟩, rfl, ?_⟩
          · intro g hg
            dsimp only
            rw [sent_mset hp [o] g hg]
            simp [confirmedBy]
          · dsimp only
            exact (flatMap_mset _ [o] c.sent).trans (by simp [allConfirmed])
          · intro g os hm'
            simp at hm'
            obtain ⟨rfl, rfl⟩ := hm'
            refine ⟨rfl, hp, _, resp, by simp, m, sig, n, hm, rfl, hx, ?_⟩
            unfold checkGroupAck at hck
            obtain ⟨k, hk, h⟩ := res_ok_of_bind hck
            split at h
            · rename_i hv
              obtain ⟨⟨g', d⟩, hd, h⟩ := res_ok_of_bind h
              obtain ⟨dig, hdig, h⟩ := res_ok_of_bind h
              split at h
              · rename_i he
                exact ⟨⟨k, gatewayKey_ok.1 hk, verify_snd.1 hv⟩, g', d, dig, hd, hdig, he⟩
              · cases h
            · cases h

theorem ranGroup_loop {E : Env} {o : CidOffer} (rs : List Record) (c : Core) (n : Nat) :
    RanGroup E o c (gatewayLoop (fun c n gid => publishGroupTo E c n o gid) c n rs).2.1
      (gatewayLoop (fun c n gid => publishGroupTo E c n o gid) c n rs).1 :=
  gatewayLoop_comp (R := RanGroup E o) (fun c => ranGroup_quiet (by intro g os; simp)) (fun c => ranGroup_quiet (by intro g os; simp))
    ranGroup_trans (fun c n gid hp => ranGroup_publish c n gid hp) rs c n

end FcRetrieval.Provider
