import Verif.Spec.SqlOffer
import Verif.Lemmas.OfferMgr
/-! Helper lemmas: the tables of the database-backed offer manager. -/

set_option linter.unusedSimpArgs false

namespace FcRetrieval.SqlOffer
open FcRetrieval.Ids (Id Proper position)
open FcRetrieval.Merkle (Hash)
open FcRetrieval.Offer (CidOffer terms InRange Built)

/-- The text of the digest. -/
def dhex (H512 : Hash) (o : CidOffer) : List Char :=
  match Offer.digest H512 o with
  | .ok d => hexEncode d
  | _ => []

def rowOf (H512 : Hash) (o : CidOffer) : OfferRow := offerRow (dhex H512 o) (o.providerID.getD []) o

/-- The tables holding a list of offers. -/
def encode (H512 : Hash) (acc : List CidOffer) : DB :=
  ⟨acc.map (rowOf H512), acc.flatMap (fun o => contentRows (dhex H512 o) o)⟩

theorem dhex_eq {H512 : Hash} {o : CidOffer} {d : Bytes} (h : Offer.digest H512 o = .ok d) : dhex H512 o = hexEncode d := by
  unfold dhex; rw [h]

theorem dhex_iff {H512 : Hash} {o o' : CidOffer} (h : InRange o) (h' : InRange o')
    (hno : ∀ b b', Offer.digestInput o = .ok b → Offer.digestInput o' = .ok b' → H512 b = H512 b' → b = b') :
    dhex H512 o = dhex H512 o' ↔ terms o = terms o' := by
  obtain ⟨d, hd, _⟩ := OfferMgr.digest_ok H512 h
  obtain ⟨d', hd', _⟩ := OfferMgr.digest_ok H512 h'
  rw [← Offer.C16_digest_identifies H512 o o' h h' hno, hd, hd', dhex_eq hd, dhex_eq hd']
  constructor
  · intro e; rw [hexEncode_inj e]
  · intro e; injection e with e; rw [e]

theorem contentRows_digest {d : List Char} {o : CidOffer} {r : ContentRow} (h : r ∈ contentRows d o) : r.digest = d := by
  obtain ⟨e, _, rfl⟩ := List.mem_map.1 h
  rfl

theorem zipIdx_sorted {α : Type} : ∀ (l : List α) (n : Nat), ((l.zipIdx n).map (·.2)).Pairwise (· < ·)
  | [], n => by simp
  | a :: l, n => by
    rw [List.zipIdx_cons, List.map_cons, List.pairwise_cons]
    refine ⟨?_, zipIdx_sorted l (n + 1)⟩
    intro i hi
    obtain ⟨e, he, rfl⟩ := List.mem_map.1 hi
    have := List.le_snd_of_mem_zipIdx he
    simp only; omega

theorem contentRows_sorted (d : List Char) (o : CidOffer) : (contentRows d o).Pairwise (fun a b => a.no < b.no) := by
  unfold contentRows
  rw [List.pairwise_map]
  have := zipIdx_sorted o.cids 0
  rw [List.pairwise_map] at this
  exact this

theorem contentRows_cids (d : List Char) (o : CidOffer) : (contentRows d o).map (·.cid) = Ids.mapToString o.cids := by
  unfold contentRows Ids.mapToString
  rw [List.map_map]
  have : ∀ (l : List Id) (n : Nat), (l.zipIdx n).map ((fun r : ContentRow => r.cid) ∘ fun e => (⟨Ids.toStr e.1, e.2, d⟩ : ContentRow)) = l.map Ids.toStr := by
    intro l
    induction l with
    | nil => intro n; rfl
    | cons a l ih => intro n; simp [List.zipIdx_cons, ih]
  exact this _ 0

theorem runContents_ok : ∀ (i : Nat) (rs : List ContentRow) (db : DB),
    runContents (fun _ => false) i rs db true = ((rs.map Stmt.content).foldl runStmt db, true)
  | _, [], _ => rfl
  | i, r :: rs, db => by
    simp only [runContents, Bool.false_eq_true, if_false, List.map_cons, List.foldl_cons]
    exact runContents_ok (i + 1) rs _

theorem foldl_present : ∀ (rs : List ContentRow) (db : DB),
    (∀ r ∈ rs, r ∈ db.contents) → (rs.map Stmt.content).foldl runStmt db = db
  | [], _, _ => rfl
  | r :: rs, db, h => by
    have : runStmt db (.content r) = db := by
      simp only [runStmt]
      rw [if_pos]
      rw [List.any_eq_true]
      exact ⟨r, h r (by simp), by simp⟩
    rw [List.map_cons, List.foldl_cons, this]
    exact foldl_present rs db (fun x hx => h x (by simp [hx]))

theorem foldl_absent : ∀ (rs : List ContentRow) (db : DB), rs.Pairwise (fun a b => a.no < b.no) →
    (∀ r ∈ rs, ∀ x ∈ db.contents, ¬ (x.no = r.no ∧ x.digest = r.digest)) →
    (rs.map Stmt.content).foldl runStmt db = { db with contents := db.contents ++ rs }
  | [], db, _, _ => by simp
  | r :: rs, db, hs, h => by
    rw [List.pairwise_cons] at hs
    have : runStmt db (.content r) = { db with contents := db.contents ++ [r] } := by
      simp only [runStmt]
      rw [if_neg]
      rw [List.any_eq_true]
      rintro ⟨x, hx, hd⟩
      simp at hd
      exact h r (by simp) x hx hd
    rw [List.map_cons, List.foldl_cons, this, foldl_absent rs _ hs.2]
    · simp
    · intro r' hr' x hx
      simp only [List.mem_append, List.mem_singleton] at hx
      rcases hx with hx | rfl
      · exact h r' (by simp [hr']) x hx
      · have := hs.1 r' hr'
        omega

/-- The offers can be told apart and are well formed. -/
structure Good (H H512 : Hash) (acc : List CidOffer) : Prop where
  built : ∀ o ∈ acc, Built H o
  distinct : acc.Pairwise (fun o o' => dhex H512 o ≠ dhex H512 o')

theorem foldl_statements {H512 : Hash} {acc : List CidOffer} {o : CidOffer} (hnew : ∀ o' ∈ acc, dhex H512 o' ≠ dhex H512 o)
    (n : Nat) :
    ((Stmt.offer (rowOf H512 o) :: (contentRows (dhex H512 o) o).map .content).take (n + 1)).foldl runStmt (encode H512 acc) =
      ⟨(acc ++ [o]).map (rowOf H512), (encode H512 acc).contents ++ (contentRows (dhex H512 o) o).take n⟩ := by
  rw [List.take_succ_cons, List.foldl_cons, ← List.map_take]
  have h1 : runStmt (encode H512 acc) (.offer (rowOf H512 o)) = { encode H512 acc with offers := (acc ++ [o]).map (rowOf H512) } := by
    simp only [runStmt]
    rw [if_neg]
    · simp [encode]
    · rw [List.any_eq_true]
      rintro ⟨x, hx, hd⟩
      simp only [encode, List.mem_map] at hx
      obtain ⟨o', ho', rfl⟩ := hx
      exact hnew o' ho' (of_decide_eq_true hd)
  rw [h1, foldl_absent]
  · exact (contentRows_sorted _ _).sublist (List.take_sublist _ _)
  · intro r hr x hx
    simp only [encode, List.mem_flatMap] at hx
    obtain ⟨o', ho', hx⟩ := hx
    rw [contentRows_digest hx, contentRows_digest (List.mem_of_mem_take hr)]
    exact fun e => hnew o' ho' e.2

theorem encode_snoc (H512 : Hash) (acc : List CidOffer) (o : CidOffer) :
    encode H512 (acc ++ [o]) = ⟨(acc ++ [o]).map (rowOf H512), (encode H512 acc).contents ++ contentRows (dhex H512 o) o⟩ := by
  simp [encode]

theorem insert_same {H512 : Hash} {db : DB} {o : CidOffer}
    (h1 : ∃ r ∈ db.offers, r.digest = dhex H512 o) (h2 : ∀ r ∈ contentRows (dhex H512 o) o, r ∈ db.contents) :
    ((contentRows (dhex H512 o) o).map Stmt.content).foldl runStmt (runStmt db (.offer (rowOf H512 o))) = db := by
  have : runStmt db (.offer (rowOf H512 o)) = db := by
    simp only [runStmt]
    rw [if_pos]
    obtain ⟨r, hr, hd⟩ := h1
    rw [List.any_eq_true]
    exact ⟨r, hr, by simp [rowOf, offerRow, hd]⟩
  rw [this, foldl_present _ _ h2]

theorem insert_eq {H512 : Hash} {db : DB} {o : CidOffer} (ho : InRange o) :
    insertOffer H512 (fun _ => false) db o =
      if bindable o then .ok (((contentRows (dhex H512 o) o).map Stmt.content).foldl runStmt (runStmt db (.offer (rowOf H512 o))), true)
      else .ok (db, false) := by
  obtain ⟨d, hd, _⟩ := OfferMgr.digest_ok H512 ho
  obtain ⟨⟨p, hp, _⟩, _⟩ := ho
  unfold insertOffer
  simp only [hd, Res.bind_ok, hp, Bool.false_or, Res.pure_ok]
  by_cases hb : bindable o = true
  · simp only [hb, Bool.not_true, Bool.false_eq_true, if_false, if_true, runContents_ok]
    unfold rowOf
    rw [dhex_eq hd, hp]; rfl
  · have hb : bindable o = false := by simpa using hb
    simp [hb]

theorem keep_good {H H512 : Hash} {acc : List CidOffer} {o : CidOffer} (hg : Good H H512 acc) (ho : Built H o)
    (hno : OfferMgr.NoCollision H512 (o :: acc)) : Good H H512 (keep acc o) := by
  unfold keep
  split
  · exact hg
  · split
    · exact hg
    · rename_i h
      refine ⟨?_, ?_⟩
      · intro x hx
        rcases List.mem_append.1 hx with hx | hx
        · exact hg.built x hx
        · simp at hx; subst hx; exact ho
      · rw [List.pairwise_append]
        refine ⟨hg.distinct, by simp, ?_⟩
        intro a ha b hb e
        simp at hb
        subst hb
        rw [dhex_iff (hg.built a ha).1 ho.1 (hno a (by simp [ha]) b (by simp))] at e
        exact h ((OfferMgr.any_terms_iff _ _).2 ⟨a, ha, e⟩)

theorem contentRows_terms {H512 : Hash} {o o' : CidOffer} (h : terms o = terms o') :
    contentRows (dhex H512 o) o = contentRows (dhex H512 o') o' := by
  have hc : o.cids = o'.cids := by unfold terms at h; simp only [Prod.mk.injEq] at h; exact h.2.1
  have hd : dhex H512 o = dhex H512 o' := by
    unfold terms at h
    simp only [Prod.mk.injEq] at h
    obtain ⟨h1, h2, h3, h4, h5⟩ := h
    unfold dhex Offer.digest Offer.digestInput
    rw [h1, h2, h3, h4, h5]
  unfold contentRows
  rw [hc, hd]

theorem insert_rep {H H512 : Hash} {acc : List CidOffer} {o : CidOffer} (hg : Good H H512 acc) (ho : Built H o)
    (hno : OfferMgr.NoCollision H512 (o :: acc)) :
    insertOffer H512 (fun _ => false) (encode H512 acc) o =
      .ok (encode H512 (keep acc o), decide (o.price < 2 ^ 63) && decide (o.qos < 2 ^ 63)) := by
  rw [insert_eq ho.1]
  unfold keep
  by_cases hb : bindable o = true
  · have hb' : ¬ (2 ^ 63 ≤ o.price ∨ 2 ^ 63 ≤ o.qos) := by
      unfold bindable at hb
      rw [Bool.and_eq_true, decide_eq_true_eq, decide_eq_true_eq] at hb
      omega
    have hb2 : (decide (o.price < 2 ^ 63) && decide (o.qos < 2 ^ 63)) = true := hb
    rw [if_pos hb, if_neg hb', hb2]
    by_cases ha : acc.any (fun o' => decide (terms o' = terms o)) = true
    · rw [if_pos ha]
      obtain ⟨o', ho', ht⟩ := (OfferMgr.any_terms_iff _ _).1 ha
      rw [insert_same]
      · refine ⟨rowOf H512 o', by simp only [encode]; exact List.mem_map.2 ⟨o', ho', rfl⟩, ?_⟩
        exact (dhex_iff (hg.built o' ho').1 ho.1 (hno o' (by simp [ho']) o (by simp))).2 ht
      · intro r hr
        rw [← contentRows_terms ht] at hr
        exact List.mem_flatMap.2 ⟨o', ho', hr⟩
    · rw [if_neg ha]
      have hnew : ∀ o' ∈ acc, dhex H512 o' ≠ dhex H512 o := by
        intro o' ho' e
        rw [dhex_iff (hg.built o' ho').1 ho.1 (hno o' (by simp [ho']) o (by simp))] at e
        exact ha ((OfferMgr.any_terms_iff _ _).2 ⟨o', ho', e⟩)
      have := foldl_statements hnew (contentRows (dhex H512 o) o).length
      rw [List.take_of_length_le (by simp), List.foldl_cons, List.take_of_length_le (by simp)] at this
      rw [this, encode_snoc]
  · have hb' : (2 ^ 63 ≤ o.price ∨ 2 ^ 63 ≤ o.qos) := by
      unfold bindable at hb
      rw [Bool.and_eq_true, decide_eq_true_eq, decide_eq_true_eq] at hb
      omega
    have hb2 : (decide (o.price < 2 ^ 63) && decide (o.qos < 2 ^ 63)) = false := by simpa [bindable] using hb
    rw [if_neg hb, if_pos hb', hb2]

theorem keep_subset {acc : List CidOffer} {o x : CidOffer} (h : x ∈ keep acc o) : x = o ∨ x ∈ acc := by
  unfold keep at h
  split at h
  · exact Or.inr h
  · split at h
    · exact Or.inr h
    · rcases List.mem_append.1 h with h | h
      · exact Or.inr h
      · simp at h; exact Or.inl h

theorem run_rep {H H512 : Hash} : ∀ (h : List (Kind × CidOffer)) (acc : List CidOffer), Good H H512 acc →
    (∀ o ∈ h.map (·.2), Built H o) → OfferMgr.NoCollision H512 (h.map (·.2) ++ acc) →
    run H512 (encode H512 acc) h = .ok (encode H512 ((h.map (·.2)).foldl keep acc),
      h.map (fun e => decide (e.2.price < 2 ^ 63) && decide (e.2.qos < 2 ^ 63))) ∧ Good H H512 ((h.map (·.2)).foldl keep acc)
  | [], acc, hg, _, _ => ⟨rfl, hg⟩
  | (k, o) :: h, acc, hg, hb, hno => by
    have ho : Built H o := hb o (by simp)
    have hno1 : OfferMgr.NoCollision H512 (o :: acc) := by
      intro x hx y hy
      exact hno x (by simp at hx ⊢; rcases hx with rfl | hx <;> simp [*]) y (by simp at hy ⊢; rcases hy with rfl | hy <;> simp [*])
    have hins := insert_rep hg ho hno1
    obtain ⟨h1, h2⟩ := run_rep h (keep acc o) (keep_good hg ho hno1) (fun x hx => hb x (by simp at hx ⊢; right; exact hx)) (by
      intro x hx y hy
      refine hno x ?_ y ?_
      · rcases List.mem_append.1 hx with hx | hx
        · exact List.mem_append.2 (Or.inl (by rw [List.map_cons]; exact List.mem_cons_of_mem _ hx))
        · rcases keep_subset hx with rfl | hx <;> simp [*]
      · rcases List.mem_append.1 hy with hy | hy
        · exact List.mem_append.2 (Or.inl (by rw [List.map_cons]; exact List.mem_cons_of_mem _ hy))
        · rcases keep_subset hy with rfl | hy <;> simp [*])
    refine ⟨?_, h2⟩
    cases k <;>
      simp only [run, addGroup, addDht, hins, Res.bind_ok, h1, Res.pure_ok, List.map_cons, List.foldl_cons]

/-! ## reading back -/

theorem filter_digest {H512 : Hash} {o : CidOffer} : ∀ {acc : List CidOffer}, acc.Pairwise (fun o o' => dhex H512 o ≠ dhex H512 o') → o ∈ acc →
    (encode H512 acc).contents.filter (fun r => r.digest = dhex H512 o) = contentRows (dhex H512 o) o
  | [], _, h => by simp at h
  | a :: acc, hp, h => by
    rw [List.pairwise_cons] at hp
    simp only [encode, List.flatMap_cons, List.filter_append]
    have hself : ∀ x : CidOffer, (contentRows (dhex H512 x) x).filter (fun r => decide (r.digest = dhex H512 x)) = contentRows (dhex H512 x) x := by
      intro x
      rw [List.filter_eq_self]
      intro r hr
      simp [contentRows_digest hr]
    have hother : ∀ x : CidOffer, dhex H512 x ≠ dhex H512 o → (contentRows (dhex H512 x) x).filter (fun r => decide (r.digest = dhex H512 o)) = [] := by
      intro x hx
      rw [List.filter_eq_nil_iff]
      intro r hr
      simp [contentRows_digest hr, hx]
    rcases List.mem_cons.1 h with rfl | h
    · rw [hself]
      have : (acc.flatMap (fun x => contentRows (dhex H512 x) x)).filter (fun r => decide (r.digest = dhex H512 o)) = [] := by
        rw [List.filter_eq_nil_iff]
        intro r hr
        obtain ⟨x, hx, hr⟩ := List.mem_flatMap.1 hr
        rw [contentRows_digest hr]
        simp only [decide_eq_true_eq]
        exact fun e => hp.1 x hx e.symm
      rw [this, List.append_nil]
    · rw [hother a (hp.1 o h), List.nil_append]
      exact filter_digest hp.2 h

theorem contentOf_encode {H512 : Hash} {acc : List CidOffer} {o : CidOffer} (hp : acc.Pairwise (fun o o' => dhex H512 o ≠ dhex H512 o')) (h : o ∈ acc) :
    contentOf (encode H512 acc) (dhex H512 o) = Ids.mapToString o.cids := by
  unfold contentOf
  rw [filter_digest hp h, List.mergeSort_of_pairwise, contentRows_cids]
  exact (contentRows_sorted _ _).imp (fun h => by simp; omega)

theorem rebuild_encode {H H512 : Hash} {acc : List CidOffer} {o : CidOffer} (hg : Good H H512 acc) (h : o ∈ acc) :
    rebuild H (encode H512 acc) (rowOf H512 o) = .ok (o, true) := by
  have hb := hg.built o h
  obtain ⟨⟨⟨p, hp, hpp⟩, hcs, _⟩, hne, hroot⟩ := hb
  unfold rebuild
  have e1 : (rowOf H512 o).digest = dhex H512 o := rfl
  have e2 : (rowOf H512 o).provider = Ids.toStr p := by simp [rowOf, offerRow, hp]
  rw [e1, contentOf_encode hg.distinct h, Offer.mapFromString_mapToString _ hcs]
  simp only [e2, Ids.fromHex_toStr hpp]
  have hlen : ¬ o.cids.length < 1 := by
    cases hc : o.cids with
    | nil => exact absurd hc hne
    | cons => simp
  have hemp : o.cids.isEmpty = false := by simpa using hne
  unfold Offer.newOffer
  rw [if_neg hlen, hroot]
  simp only [rowOf, offerRow, hemp, Bool.not_false, ← hp]

theorem selectGo_encode {H H512 : Hash} {acc : List CidOffer} (hg : Good H H512 acc) (max : Int) :
    ∀ (L : List CidOffer), (∀ o ∈ L, o ∈ acc) → ∀ (res : List CidOffer) (find : Bool), (0 < max → (res.length : Int) < max) →
      selectGo H (encode H512 acc) max (L.map (rowOf H512)) res find =
        .ok (res ++ (if max ≤ 0 then L else L.take (max.toNat - res.length)), find || !L.isEmpty)
  | [], _, res, find, _ => by simp [selectGo]
  | o :: L, hL, res, find, hm => by
    simp only [List.map_cons, selectGo, rebuild_encode hg (hL o (by simp)), Res.bind_ok, Bool.or_true, List.isEmpty_cons, Bool.not_false]
    by_cases h : max ≤ 0
    · rw [if_neg (by omega), if_pos h, selectGo_encode hg max L (fun x hx => hL x (by simp [hx])) _ _ (by omega), if_pos h]
      simp
    · have hm' := hm (by omega)
      rw [if_neg h]
      have hsub : max.toNat - res.length = (max.toNat - (res.length + 1)) + 1 := by omega
      by_cases h2 : ((res ++ [o]).length : Int) ≥ max
      · rw [if_pos ⟨h2, by omega⟩]
        simp only [List.length_append, List.length_singleton] at h2
        have : max.toNat - (res.length + 1) = 0 := by omega
        rw [hsub, this, List.take_succ_cons, List.take_zero]
        rfl
      · rw [if_neg (by omega)]
        simp only [List.length_append, List.length_singleton] at h2
        rw [selectGo_encode hg max L (fun x hx => hL x (by simp [hx])) _ _ (by intro _; simp; omega), if_neg h]
        rw [hsub, List.take_succ_cons]
        simp

theorem perm_map_exists {α β : Type} [DecidableEq β] (f : α → β) : ∀ (L0 : List α) (l' : List β), l'.Perm (L0.map f) → ∃ L : List α, L.Perm L0 ∧ l' = L.map f
  | [], l', h => ⟨[], .refl _, by simpa using h⟩
  | a :: L0, l', h => by
    have hmem : f a ∈ l' := h.mem_iff.2 (by simp)
    obtain ⟨s, t, rfl⟩ := List.append_of_mem hmem
    have h2 : (s ++ t).Perm (L0.map f) := by
      have := (List.perm_middle.symm.trans h)
      rw [List.map_cons] at this
      exact this.cons_inv
    obtain ⟨L, hL, e⟩ := perm_map_exists f L0 (s ++ t) h2
    obtain ⟨L1, L2, rfl, rfl, rfl⟩ := List.append_eq_map_iff.1 e
    exact ⟨L1 ++ a :: L2, List.perm_middle.trans (hL.cons a), by simp⟩

/-! ## order of texts -/

theorem hexChar_lt : ∀ m : Fin 16, ∀ n : Fin 16, ((hexChar m).toNat < (hexChar n).toNat ↔ m.val < n.val) ∧ ((hexChar m).toNat = (hexChar n).toNat ↔ m.val = n.val) := by
  decide +kernel

theorem strLe_hex : ∀ (a b : Bytes), strLe (hexEncode a) (hexEncode b) = Ids.bytesLe a b
  | [], b => by cases b <;> simp [hexEncode, strLe, Ids.bytesLe]
  | x :: a, [] => by simp [hexEncode, strLe, Ids.bytesLe]
  | x :: a, y :: b => by
    have hx : x.toNat < 256 := x.toNat_lt
    have hy : y.toNat < 256 := y.toNat_lt
    have k1 := hexChar_lt ⟨x.toNat / 16, by omega⟩ ⟨y.toNat / 16, by omega⟩
    have k2 := hexChar_lt ⟨x.toNat % 16, by omega⟩ ⟨y.toNat % 16, by omega⟩
    simp only at k1 k2
    simp only [hexEncode, strLe, Ids.bytesLe, k1.1, k1.2, k2.1, k2.2, strLe_hex a b]
    by_cases c1 : x.toNat / 16 < y.toNat / 16
    · rw [if_pos c1, if_pos (by omega)]
    · rw [if_neg c1]
      by_cases c2 : x.toNat / 16 = y.toNat / 16
      · rw [if_pos c2]
        by_cases c3 : x.toNat % 16 < y.toNat % 16
        · rw [if_pos c3, if_pos (by omega)]
        · rw [if_neg c3]
          by_cases c4 : x.toNat % 16 = y.toNat % 16
          · rw [if_pos c4, if_neg (by omega), if_pos (by omega)]
          · rw [if_neg c4, if_neg (by omega), if_neg (by omega)]
      · rw [if_neg c2, if_neg (by omega), if_neg (by omega)]

theorem strLe_toStr {a b : Id} (ha : Proper a) (hb : Proper b) : strLe (Ids.toStr a) (Ids.toStr b) = true ↔ position a ≤ position b := by
  rw [Ids.toStr_eq ha, Ids.toStr_eq hb, strLe_hex, Ids.bytesLe_num (by rw [ha, hb]), Ids.position_eq, Ids.position_eq]

end FcRetrieval.SqlOffer
