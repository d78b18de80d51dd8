import Verif.Model.SqlConc
import Verif.Lemmas.SqlOffer
import Verif.Props.Merkle
/-! Helper lemmas: the tables while several calls are in progress. -/

set_option linter.unusedSimpArgs false

namespace FcRetrieval.SqlOffer.Conc
open FcRetrieval.Ids (Id Proper)
open FcRetrieval.Merkle (Hash)
open FcRetrieval.Offer (CidOffer terms InRange Built)

variable {H H512 : Hash}

/-- A strictly sorted list whose elements belong to another one is a sublist of it. -/
theorem sublist_of_sorted {α : Type} (f : α → Nat) : ∀ {B A : List α}, B.Pairwise (fun a b => f a < f b) → A.Pairwise (fun a b => f a < f b) →
    (∀ a ∈ A, a ∈ B) → A.Sublist B
  | [], A, _, _, h => by
    cases A with
    | nil => exact .slnil
    | cons a A => exact absurd (h a (by simp)) (by simp)
  | b :: B, [], _, _, _ => List.nil_sublist _
  | b :: B, a :: A, hB, hA, h => by
    rw [List.pairwise_cons] at hB hA
    rcases List.mem_cons.1 (h a (by simp)) with rfl | hab
    · refine .cons_cons _ (sublist_of_sorted f hB.2 hA.2 ?_)
      intro x hx
      rcases List.mem_cons.1 (h x (by simp [hx])) with rfl | h'
      · have := hA.1 x hx; omega
      · exact h'
    · refine .cons _ (sublist_of_sorted f hB.2 (List.pairwise_cons.2 hA) ?_)
      intro x hx
      have hlt : f b < f x := by
        rcases List.mem_cons.1 hx with rfl | hx
        · exact hB.1 x hab
        · have := hA.1 x hx; have := hB.1 a hab; omega
      rcases List.mem_cons.1 (h x hx) with rfl | h'
      · omega
      · exact h'

/-- The statements of an addition. -/
def stmtsOf (H512 : Hash) (o : CidOffer) : List Stmt := .offer (rowOf H512 o) :: (contentRows (dhex H512 o) o).map .content

theorem statements_eq {o : CidOffer} (ho : InRange o) : ∃ d p, Offer.digest H512 o = .ok d ∧ o.providerID = some p ∧
    statements d p o = stmtsOf H512 o := by
  obtain ⟨d, hd, _⟩ := OfferMgr.digest_ok H512 ho
  obtain ⟨⟨p, hp, _⟩, _⟩ := ho
  refine ⟨d, p, hd, hp, ?_⟩
  unfold statements stmtsOf rowOf
  rw [dhex_eq hd, hp]
  rfl

/-- Offers of equal digests have equal content rows. -/
theorem rows_of_dhex {all : List CidOffer} (hs : Sane H H512 all) {o o' : CidOffer} (ho : o ∈ all) (ho' : o' ∈ all)
    (h : dhex H512 o = dhex H512 o') : terms o = terms o' ∧ contentRows (dhex H512 o) o = contentRows (dhex H512 o') o' := by
  have ht := (dhex_iff (hs.1 o ho).1 (hs.1 o' ho').1 (hs.2 o ho o' ho')).1 h
  exact ⟨ht, contentRows_terms ht⟩

/-- A row of a content is determined by its number and the digest. -/
theorem row_key {all : List CidOffer} (hs : Sane H H512 all) {o o' : CidOffer} (ho : o ∈ all) (ho' : o' ∈ all) {r r' : ContentRow}
    (hr : r ∈ contentRows (dhex H512 o) o) (hr' : r' ∈ contentRows (dhex H512 o') o') (hn : r.no = r'.no) (hd : r.digest = r'.digest) : r = r' := by
  have h1 := contentRows_digest hr
  have h2 := contentRows_digest hr'
  have h3 := (rows_of_dhex hs ho ho' (by rw [← h1, ← h2, hd])).2
  rw [← h3] at hr'
  have hp := contentRows_sorted (dhex H512 o) o
  obtain ⟨i, hi, rfl⟩ := List.getElem_of_mem hr
  obtain ⟨j, hj, rfl⟩ := List.getElem_of_mem hr'
  have hp := List.pairwise_iff_getElem.1 hp
  rcases Nat.lt_trichotomy i j with hij | rfl | hij
  · have := hp i j hi hj hij; omega
  · rfl
  · have := hp j i hj hi hij; omega

/-- The tables hold the offers `acc`, some of them perhaps without all of their contents. -/
structure Inv (H512 : Hash) (all acc : List CidOffer) (db : DB) : Prop where
  known : ∀ o ∈ acc, o ∈ all
  distinct : acc.Pairwise (fun o o' => dhex H512 o ≠ dhex H512 o')
  offers : db.offers = acc.map (rowOf H512)
  rows : ∀ r ∈ db.contents, ∃ o ∈ all, r ∈ contentRows (dhex H512 o) o
  keys : db.contents.Pairwise (fun a b => ¬ (a.no = b.no ∧ a.digest = b.digest))

/-- A statement has been executed. -/
def Done (db : DB) : Stmt → Prop
  | .offer r => ∃ r' ∈ db.offers, r'.digest = r.digest
  | .content r => r ∈ db.contents

/-- Nothing is ever removed from the tables. -/
def Grows (db db' : DB) : Prop := (∀ r ∈ db.offers, r ∈ db'.offers) ∧ (∀ r ∈ db.contents, r ∈ db'.contents)

theorem Grows.refl (db : DB) : Grows db db := ⟨fun _ h => h, fun _ h => h⟩

theorem Grows.trans {a b c : DB} (h : Grows a b) (h' : Grows b c) : Grows a c :=
  ⟨fun r hr => h'.1 r (h.1 r hr), fun r hr => h'.2 r (h.2 r hr)⟩

theorem Done.mono {db db' : DB} {s : Stmt} (hg : Grows db db') (h : Done db s) : Done db' s := by
  cases s with
  | offer r => obtain ⟨r', h1, h2⟩ := h; exact ⟨r', hg.1 r' h1, h2⟩
  | content r => exact hg.2 r h

theorem runStmt_grows (db : DB) (s : Stmt) : Grows db (runStmt db s) := by
  cases s with
  | offer r =>
    simp only [runStmt]
    split
    · exact Grows.refl db
    · exact ⟨fun x hx => List.mem_append.2 (.inl hx), fun _ h => h⟩
  | content r =>
    simp only [runStmt]
    split
    · exact Grows.refl db
    · exact ⟨fun _ h => h, fun x hx => List.mem_append.2 (.inl hx)⟩

/-- The statement that stores the row of an offer. -/
theorem offer_inv {all acc : List CidOffer} {db : DB} (hs : Sane H H512 all) (hi : Inv H512 all acc db) {o : CidOffer} (ho : o ∈ all)
    (hb : bindable o = true) :
    Inv H512 all (keep acc o) (runStmt db (.offer (rowOf H512 o))) ∧ Done (runStmt db (.offer (rowOf H512 o))) (.offer (rowOf H512 o)) := by
  have hbig : ¬ (2 ^ 63 ≤ o.price ∨ 2 ^ 63 ≤ o.qos) := by
    unfold bindable at hb
    simp only [Bool.and_eq_true, decide_eq_true_eq] at hb
    omega
  have hiff : (db.offers.any (fun x => x.digest = (rowOf H512 o).digest) = true) ↔ acc.any (fun o' => decide (terms o' = terms o)) = true := by
    rw [hi.offers]
    simp only [List.any_eq_true, List.mem_map, decide_eq_true_eq]
    constructor
    · rintro ⟨r, ⟨o', ho', rfl⟩, h⟩
      exact ⟨o', ho', (rows_of_dhex hs (hi.known o' ho') ho h).1⟩
    · rintro ⟨o', ho', h⟩
      exact ⟨_, ⟨o', ho', rfl⟩, (dhex_iff (hs.1 o' (hi.known o' ho')).1 (hs.1 o ho).1 (hs.2 o' (hi.known o' ho') o ho)).2 h⟩
  unfold keep
  rw [if_neg hbig]
  simp only [runStmt]
  by_cases h : db.offers.any (fun x => x.digest = (rowOf H512 o).digest) = true
  · rw [if_pos h, if_pos (hiff.1 h)]
    refine ⟨hi, ?_⟩
    simp only [List.any_eq_true, decide_eq_true_eq] at h
    exact h
  · rw [if_neg h, if_neg (fun h' => h (hiff.2 h'))]
    refine ⟨⟨?_, ?_, ?_, hi.rows, hi.keys⟩, ⟨rowOf H512 o, by simp, rfl⟩⟩
    · intro x hx
      rcases List.mem_append.1 hx with hx | hx
      · exact hi.known x hx
      · simp at hx; subst hx; exact ho
    · rw [List.pairwise_append]
      refine ⟨hi.distinct, by simp, ?_⟩
      intro a ha b hb' e
      simp at hb'
      subst hb'
      apply h
      rw [hi.offers]
      simp only [List.any_eq_true, List.mem_map, decide_eq_true_eq]
      exact ⟨_, ⟨a, ha, rfl⟩, e⟩
    · simp [hi.offers]

/-- A statement that stores the row of a content. -/
theorem content_inv {all acc : List CidOffer} {db : DB} (hs : Sane H H512 all) (hi : Inv H512 all acc db) {o : CidOffer} (ho : o ∈ all)
    {r : ContentRow} (hr : r ∈ contentRows (dhex H512 o) o) :
    Inv H512 all acc (runStmt db (.content r)) ∧ Done (runStmt db (.content r)) (.content r) := by
  simp only [runStmt]
  by_cases h : db.contents.any (fun x => x.no = r.no ∧ x.digest = r.digest) = true
  · rw [if_pos h]
    refine ⟨hi, ?_⟩
    simp only [List.any_eq_true, decide_eq_true_eq] at h
    obtain ⟨x, hx, h1, h2⟩ := h
    obtain ⟨o', ho', hx'⟩ := hi.rows x hx
    have := row_key hs ho' ho hx' hr h1 h2
    subst this
    exact hx
  · rw [if_neg h]
    refine ⟨⟨hi.known, hi.distinct, hi.offers, ?_, ?_⟩, by simp [Done]⟩
    · intro x hx
      rcases List.mem_append.1 hx with hx | hx
      · exact hi.rows x hx
      · simp at hx; subst hx; exact ⟨o, ho, hr⟩
    · rw [List.pairwise_append]
      refine ⟨hi.keys, by simp, ?_⟩
      intro a ha b hb e
      simp at hb
      subst hb
      apply h
      simp only [List.any_eq_true, decide_eq_true_eq]
      exact ⟨a, ha, e⟩

/-- The tables after a history of additions. -/
theorem encode_inv {all acc : List CidOffer} (hg : Good H H512 acc) (hk : ∀ o ∈ acc, o ∈ all) : Inv H512 all acc (encode H512 acc) := by
  refine ⟨hk, hg.distinct, rfl, ?_, ?_⟩
  · intro r hr
    simp only [encode, List.mem_flatMap] at hr
    obtain ⟨o, ho, hr⟩ := hr
    exact ⟨o, hk o ho, hr⟩
  · simp only [encode]
    have hd := hg.distinct
    clear hg hk
    induction acc with
    | nil => simp
    | cons a acc ih =>
      rw [List.pairwise_cons] at hd
      rw [List.flatMap_cons, List.pairwise_append]
      refine ⟨?_, ih hd.2, ?_⟩
      · exact (contentRows_sorted _ _).imp (fun h => by omega)
      · rintro x hx y hy ⟨_, e⟩
        obtain ⟨o, ho, hy⟩ := List.mem_flatMap.1 hy
        rw [contentRows_digest hx, contentRows_digest hy] at e
        exact hd.1 o ho e

/-- All contents of an offer are stored. -/
def Whole (H512 : Hash) (db : DB) (o : CidOffer) : Prop := ∀ r ∈ contentRows (dhex H512 o) o, r ∈ db.contents

theorem Whole.mono {db db' : DB} {o : CidOffer} (hg : Grows db db') (h : Whole H512 db o) : Whole H512 db' o :=
  fun r hr => hg.2 r (h r hr)

/-- What is read of the contents of an offer. -/
theorem contentOf_inv {all acc : List CidOffer} {db : DB} (hs : Sane H H512 all) (hi : Inv H512 all acc db) {o : CidOffer} (ho : o ∈ all) :
    ∃ ids, contentOf db (dhex H512 o) = Ids.mapToString ids ∧ ids.Sublist o.cids ∧
      (∀ r ∈ db.contents, r.digest = dhex H512 o → ∃ i ∈ ids, r.cid = Ids.toStr i) ∧ (Whole H512 db o → ids = o.cids) := by
  have hmem : ∀ r ∈ db.contents.filter (fun r => r.digest = dhex H512 o), r ∈ contentRows (dhex H512 o) o := by
    intro r hr
    simp only [List.mem_filter, decide_eq_true_eq] at hr
    obtain ⟨o', ho', h⟩ := hi.rows r hr.1
    have hd := contentRows_digest h
    rw [(rows_of_dhex hs ho ho' (by rw [← hr.2, ← hd])).2]
    exact h
  generalize hK : db.contents.filter (fun r => r.digest = dhex H512 o) = K at hmem
  have hperm : (K.mergeSort (fun a b => decide (a.no ≤ b.no))).Perm K := List.mergeSort_perm _ _
  have hle : (K.mergeSort (fun a b => decide (a.no ≤ b.no))).Pairwise (fun a b => decide (a.no ≤ b.no) = true) :=
    List.pairwise_mergeSort (fun a b c h1 h2 => by simp only [decide_eq_true_eq] at *; omega)
      (fun a b => by simp only [Bool.or_eq_true, decide_eq_true_eq]; omega) K
  have hkeyK : K.Pairwise (fun a b => a.no ≠ b.no) := by
    have h1 : K.Pairwise (fun a b => ¬ (a.no = b.no ∧ a.digest = b.digest)) := by
      rw [← hK]; exact hi.keys.filter _
    refine h1.imp_of_mem ?_
    intro a b ha hb h e
    rw [← hK] at ha hb
    simp only [List.mem_filter, decide_eq_true_eq] at ha hb
    exact h ⟨e, by rw [ha.2, hb.2]⟩
  have hne : (K.mergeSort (fun a b => decide (a.no ≤ b.no))).Pairwise (fun a b => a.no ≠ b.no) :=
    (hperm.pairwise_iff (fun {a b} h e => h e.symm)).2 hkeyK
  have hlt : (K.mergeSort (fun a b => decide (a.no ≤ b.no))).Pairwise (fun a b => a.no < b.no) := by
    refine (hle.and hne).imp ?_
    intro a b h
    simp only [decide_eq_true_eq] at h
    omega
  have hsub := sublist_of_sorted (fun r : ContentRow => r.no) (contentRows_sorted (dhex H512 o) o) hlt
    (fun a ha => hmem a (hperm.mem_iff.1 ha))
  have hsub2 := hsub.map (fun r : ContentRow => r.cid)
  rw [contentRows_cids] at hsub2
  unfold Ids.mapToString at hsub2
  obtain ⟨ids, h1, h2⟩ := List.sublist_map_iff.1 hsub2
  refine ⟨ids, ?_, h1, ?_, ?_⟩
  · unfold contentOf Ids.mapToString
    rw [hK, h2]
  · intro r hr hd
    have : r ∈ K := by rw [← hK]; simp [hr, hd]
    have : r.cid ∈ (K.mergeSort (fun a b => decide (a.no ≤ b.no))).map (·.cid) := List.mem_map.2 ⟨r, hperm.mem_iff.2 this, rfl⟩
    rw [h2] at this
    obtain ⟨i, hi', h⟩ := List.mem_map.1 this
    exact ⟨i, hi', h.symm⟩
  · intro hw
    have hsub3 := sublist_of_sorted (fun r : ContentRow => r.no) hlt (contentRows_sorted (dhex H512 o) o) (fun a ha => by
      rw [hperm.mem_iff, ← hK]
      simp [hw a ha, contentRows_digest ha])
    have hlen : (contentRows (dhex H512 o) o).length = o.cids.length := by
      rw [← List.length_map (as := contentRows (dhex H512 o) o) (·.cid), contentRows_cids]; simp [Ids.mapToString]
    have h3 := hsub3.length_le
    have h4 := congrArg List.length h2
    simp only [List.length_map] at h4
    exact h1.eq_of_length_le (by omega)

/-- What a search makes of the row of an offer. -/
theorem rebuild_inv {all acc : List CidOffer} {db : DB} (hs : Sane H H512 all) (hi : Inv H512 all acc db) {o : CidOffer} (ho : o ∈ all)
    (hr : ∃ r ∈ db.contents, r.digest = dhex H512 o) :
    ∃ x, rebuild H db (rowOf H512 o) = .ok (x, true) ∧ x.cids.Sublist o.cids ∧ x.cids ≠ [] ∧ x.providerID = o.providerID ∧ x.price = o.price ∧
      x.expiry = o.expiry ∧ x.qos = o.qos ∧ x.signature = o.signature ∧ Merkle.rootHex H x.cids = some x.merkleRoot ∧
      (∀ r ∈ db.contents, r.digest = dhex H512 o → ∃ i ∈ x.cids, r.cid = Ids.toStr i) ∧ (Whole H512 db o → x = o) := by
  obtain ⟨⟨⟨p, hp, hpp⟩, hcs, _⟩, hne, hroot⟩ := hs.1 o ho
  obtain ⟨ids, h1, h2, h3, h4⟩ := contentOf_inv hs hi ho
  have hids : ids ≠ [] := by
    obtain ⟨r, hr, hd⟩ := hr
    obtain ⟨i, hi', _⟩ := h3 r hr hd
    exact List.ne_nil_of_mem hi'
  obtain ⟨root, hrt⟩ : ∃ r, Merkle.rootHex H ids = some r := by
    cases h : Merkle.rootHex H ids with
    | none => exact absurd ((Merkle.C12_root_exists H ids).1.1 h) hids
    | some r => exact ⟨r, rfl⟩
  have e1 : (rowOf H512 o).digest = dhex H512 o := rfl
  have e2 : (rowOf H512 o).provider = Ids.toStr p := by simp [rowOf, offerRow, hp]
  have hlen : ¬ ids.length < 1 := by
    cases ids with
    | nil => exact absurd rfl hids
    | cons => simp
  refine ⟨{ providerID := some p, cids := ids, price := o.price, expiry := o.expiry, qos := o.qos, merkleRoot := root, signature := o.signature },
    ?_, h2, hids, hp.symm, rfl, rfl, rfl, rfl, hrt, h3, ?_⟩
  · unfold rebuild
    rw [e1, h1, Offer.mapFromString_mapToString _ (fun c hc => hcs c (h2.subset hc))]
    simp only [e2, Ids.fromHex_toStr hpp]
    unfold Offer.newOffer
    rw [if_neg hlen, hrt]
    have hemp : ids.isEmpty = false := by simpa using hids
    simp only [rowOf, offerRow, hemp, Bool.not_false]
  · intro hw
    have := h4 hw
    subst this
    rw [hroot] at hrt
    injection hrt with hrt
    cases o
    simp_all

end FcRetrieval.SqlOffer.Conc
