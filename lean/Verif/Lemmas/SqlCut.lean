import Verif.Lemmas.SqlOffer
import Verif.Props.Merkle
/-! Helper lemmas: tables that were cut anywhere. -/

set_option linter.unusedSimpArgs false

namespace FcRetrieval.SqlOffer
open FcRetrieval.Ids (Id Proper)
open FcRetrieval.Merkle (Hash)
open FcRetrieval.Offer (CidOffer terms InRange Built)

/-- The offers that are put into the tables: well formed, and their digests do not collide. -/
structure Set (H H512 : Hash) (S : CidOffer → Prop) : Prop where
  built : ∀ o, S o → Built H o
  apart : ∀ o o', S o → S o' → dhex H512 o = dhex H512 o' → terms o = terms o'

/-- Every row belongs to such an offer, and the keys of the contents are keys. -/
structure Known (H512 : Hash) (S : CidOffer → Prop) (db : DB) : Prop where
  offers : ∀ r ∈ db.offers, ∃ o, S o ∧ r = rowOf H512 o
  contents : ∀ k ∈ db.contents, ∃ o, S o ∧ k ∈ contentRows (dhex H512 o) o
  keys : db.contents.Pairwise (fun a b => ¬ (a.no = b.no ∧ a.digest = b.digest))

/-- All rows of the offer are there. -/
def Whole (H512 : Hash) (o : CidOffer) (db : DB) : Prop :=
  (∃ r ∈ db.offers, r.digest = dhex H512 o) ∧ ∀ k ∈ contentRows (dhex H512 o) o, k ∈ db.contents

/-- Every offer that is there is there with all its rows. -/
def Complete (H512 : Hash) (S : CidOffer → Prop) (db : DB) : Prop := ∀ r ∈ db.offers, ∃ o, S o ∧ r = rowOf H512 o ∧ Whole H512 o db

/-- Rows are only added, at the end. -/
def Grows (a b : DB) : Prop := a.offers <+: b.offers ∧ a.contents <+: b.contents

theorem Grows.refl (a : DB) : Grows a a := ⟨List.prefix_refl _, List.prefix_refl _⟩
theorem Grows.trans {a b c : DB} (h : Grows a b) (g : Grows b c) : Grows a c := ⟨h.1.trans g.1, h.2.trans g.2⟩

theorem runStmt_grows (db : DB) (s : Stmt) : Grows db (runStmt db s) := by
  cases s <;> simp only [runStmt] <;> split
  · exact .refl _
  · exact ⟨List.prefix_append _ _, List.prefix_refl _⟩
  · exact .refl _
  · exact ⟨List.prefix_refl _, List.prefix_append _ _⟩

theorem foldl_grows : ∀ (l : List Stmt) (db : DB), Grows db (l.foldl runStmt db)
  | [], db => .refl db
  | s :: l, db => (runStmt_grows db s).trans (foldl_grows l _)

theorem Whole.grows {H512 : Hash} {o : CidOffer} {a b : DB} (h : Whole H512 o a) (g : Grows a b) : Whole H512 o b := by
  obtain ⟨⟨r, hr, hd⟩, hk⟩ := h
  exact ⟨⟨r, g.1.subset hr, hd⟩, fun k hk' => g.2.subset (hk k hk')⟩

theorem Known.cut {H512 : Hash} {S : CidOffer → Prop} {a b : DB} (h : Known H512 S b) (g : Grows a b) : Known H512 S a :=
  ⟨fun r hr => h.offers r (g.1.subset hr), fun k hk => h.contents k (g.2.subset hk), h.keys.sublist g.2.sublist⟩

theorem Known.mono {H512 : Hash} {S S' : CidOffer → Prop} {db : DB} (h : Known H512 S db) (hs : ∀ o, S o → S' o) : Known H512 S' db :=
  ⟨fun r hr => by obtain ⟨o, ho, e⟩ := h.offers r hr; exact ⟨o, hs o ho, e⟩,
   fun k hk => by obtain ⟨o, ho, e⟩ := h.contents k hk; exact ⟨o, hs o ho, e⟩, h.keys⟩

theorem Known.empty (H512 : Hash) (S : CidOffer → Prop) : Known H512 S newDB := by
  constructor <;> simp [newDB]

theorem Known.offer {H512 : Hash} {S : CidOffer → Prop} {db : DB} (h : Known H512 S db) {o : CidOffer} (ho : S o) :
    Known H512 S (runStmt db (.offer (rowOf H512 o))) := by
  simp only [runStmt]
  split
  · exact h
  · refine ⟨fun r hr => ?_, h.contents, h.keys⟩
    rcases List.mem_append.1 hr with hr | hr
    · exact h.offers r hr
    · simp at hr; exact ⟨o, ho, hr⟩

theorem Known.content {H512 : Hash} {S : CidOffer → Prop} {db : DB} (h : Known H512 S db) {o : CidOffer} (ho : S o) {k : ContentRow}
    (hk : k ∈ contentRows (dhex H512 o) o) : Known H512 S (runStmt db (.content k)) := by
  simp only [runStmt]
  split
  · exact h
  · rename_i hno
    refine ⟨h.offers, fun r hr => ?_, ?_⟩
    · rcases List.mem_append.1 hr with hr | hr
      · exact h.contents r hr
      · simp at hr; subst hr; exact ⟨o, ho, hk⟩
    · rw [List.pairwise_append]
      refine ⟨h.keys, by simp, fun a ha b hb e => hno ?_⟩
      simp at hb
      subst hb
      rw [List.any_eq_true]
      exact ⟨a, ha, by simpa using e⟩

theorem Known.contentsOf {H512 : Hash} {S : CidOffer → Prop} {o : CidOffer} (ho : S o) : ∀ (ks : List ContentRow) {db : DB}, Known H512 S db →
    (∀ k ∈ ks, k ∈ contentRows (dhex H512 o) o) → Known H512 S ((ks.map Stmt.content).foldl runStmt db)
  | [], _, h, _ => h
  | k :: ks, _, h, hk => Known.contentsOf ho ks (h.content ho (hk k (by simp))) (fun x hx => hk x (by simp [hx]))

theorem no_inj {d : List Char} {o : CidOffer} {a b : ContentRow} (ha : a ∈ contentRows d o) (hb : b ∈ contentRows d o) (h : a.no = b.no) : a = b := by
  obtain ⟨⟨x, i⟩, hx, rfl⟩ := List.mem_map.1 ha
  obtain ⟨⟨y, j⟩, hy, rfl⟩ := List.mem_map.1 hb
  rw [List.mem_zipIdx_iff_getElem?] at hx hy
  dsimp only at h hx hy
  subst h
  rw [hx] at hy
  cases hy
  rfl

/-- A row of the contents with the digest of an offer is one of its rows. -/
theorem Known.row {H H512 : Hash} {S : CidOffer → Prop} {db : DB} (h : Known H512 S db) (hS : Set H H512 S) {o : CidOffer} (ho : S o) {k : ContentRow}
    (hk : k ∈ db.contents) (hd : k.digest = dhex H512 o) : k ∈ contentRows (dhex H512 o) o := by
  obtain ⟨o', ho', hk'⟩ := h.contents k hk
  have : dhex H512 o' = dhex H512 o := by rw [← hd, contentRows_digest hk']
  rw [← contentRows_terms (hS.apart o' o ho' ho this)]
  exact hk'

theorem stmt_there {H H512 : Hash} {S : CidOffer → Prop} {db : DB} (h : Known H512 S db) (hS : Set H H512 S) {o : CidOffer} (ho : S o) {k : ContentRow}
    (hk : k ∈ contentRows (dhex H512 o) o) : k ∈ (runStmt db (.content k)).contents := by
  simp only [runStmt]
  split
  · rename_i hy
    rw [List.any_eq_true] at hy
    obtain ⟨x, hx, e⟩ := hy
    simp at e
    have := no_inj (h.row hS ho hx (by rw [e.2, contentRows_digest hk])) hk e.1
    rw [← this]
    exact hx
  · simp

theorem contents_there {H H512 : Hash} {S : CidOffer → Prop} (hS : Set H H512 S) {o : CidOffer} (ho : S o) : ∀ (ks : List ContentRow) {db : DB}, Known H512 S db →
    (∀ k ∈ ks, k ∈ contentRows (dhex H512 o) o) → ∀ k ∈ ks, k ∈ ((ks.map Stmt.content).foldl runStmt db).contents
  | [], _, _, _, k, hk => by simp at hk
  | a :: ks, db, h, hks, k, hk => by
    rw [List.map_cons, List.foldl_cons]
    rcases List.mem_cons.1 hk with rfl | hk
    · exact (foldl_grows (ks.map Stmt.content) _).2.subset (stmt_there h hS ho (hks k (by simp)))
    · exact contents_there hS ho ks (h.content ho (hks a (by simp))) (fun x hx => hks x (by simp [hx])) k hk

/-- Adding one offer. -/
theorem insert_known {H H512 : Hash} {S : CidOffer → Prop} {db db' : DB} {ok : Bool} (h : Known H512 S db) (hS : Set H H512 S) {o : CidOffer} (ho : S o)
    (hi : insertOffer H512 (fun _ => false) db o = .ok (db', ok)) :
    Known H512 S db' ∧ Grows db db' ∧ (o.price < 2 ^ 63 → o.qos < 2 ^ 63 → Whole H512 o db') ∧ (Complete H512 S db → Complete H512 S db') := by
  rw [insert_eq (hS.built o ho).1] at hi
  by_cases hb : bindable o = true
  · rw [if_pos hb] at hi
    cases hi
    have hk := h.offer ho
    have hg1 := runStmt_grows db (.offer (rowOf H512 o))
    have hg2 := foldl_grows ((contentRows (dhex H512 o) o).map Stmt.content) (runStmt db (.offer (rowOf H512 o)))
    have hrow : ∃ r ∈ (runStmt db (.offer (rowOf H512 o))).offers, r.digest = dhex H512 o := by
      simp only [runStmt]
      split
      · rename_i hy
        rw [List.any_eq_true] at hy
        obtain ⟨x, hx, e⟩ := hy
        exact ⟨x, hx, of_decide_eq_true e⟩
      · exact ⟨rowOf H512 o, by simp, rfl⟩
    have hw : Whole H512 o (((contentRows (dhex H512 o) o).map Stmt.content).foldl runStmt (runStmt db (.offer (rowOf H512 o)))) := by
      obtain ⟨r, hr, hd⟩ := hrow
      exact ⟨⟨r, hg2.1.subset hr, hd⟩, contents_there hS ho _ hk (fun _ h => h)⟩
    refine ⟨Known.contentsOf ho _ hk (fun _ h => h), hg1.trans hg2, fun _ _ => hw, fun hc r hr => ?_⟩
    have hof : ∀ (ks : List ContentRow) (x : DB), ((ks.map Stmt.content).foldl runStmt x).offers = x.offers := by
      intro ks
      induction ks with
      | nil => intro x; rfl
      | cons a ks ih =>
        intro x
        rw [List.map_cons, List.foldl_cons, ih]
        simp only [runStmt]
        split <;> rfl
    rw [hof] at hr
    have hr' : r ∈ db.offers ∨ r = rowOf H512 o := by
      simp only [runStmt] at hr
      split at hr
      · exact .inl hr
      · rcases List.mem_append.1 hr with hr | hr
        · exact .inl hr
        · simp at hr; exact .inr hr
    rcases hr' with hr' | rfl
    · obtain ⟨o1, ho1, e, hw1⟩ := hc r hr'
      exact ⟨o1, ho1, e, hw1.grows (hg1.trans hg2)⟩
    · exact ⟨o, ho, rfl, hw⟩
  · rw [if_neg hb] at hi
    cases hi
    refine ⟨h, .refl _, fun hp hq => absurd ?_ hb, fun hc => hc⟩
    simp [bindable, hp, hq]

theorem run_cons_ok {H512 : Hash} {db db' : DB} {k : Kind} {o : CidOffer} {l : List (Kind × CidOffer)} {oks : List Bool}
    (h : run H512 db ((k, o) :: l) = .ok (db', oks)) :
    ∃ db1 ok oks', insertOffer H512 (fun _ => false) db o = .ok (db1, ok) ∧ run H512 db1 l = .ok (db', oks') ∧ oks = ok :: oks' := by
  cases hi : insertOffer H512 (fun _ => false) db o with
  | err => cases k <;> (simp only [run, addGroup, addDht, hi] at h; cases h)
  | panic => cases k <;> (simp only [run, addGroup, addDht, hi] at h; cases h)
  | ok x =>
    obtain ⟨db1, ok⟩ := x
    have h : (run H512 db1 l).bind (fun x => Res.ok (x.1, ok :: x.2)) = .ok (db', oks) := by
      cases k <;> (simp only [run, addGroup, addDht, hi, Res.bind_ok] at h; exact h)
    cases hx : run H512 db1 l with
    | ok x =>
      rw [hx] at h
      cases h
      exact ⟨db1, ok, x.2, rfl, hx, rfl⟩
    | err => rw [hx] at h; cases h
    | panic => rw [hx] at h; cases h

/-- Adding offers one after the other. -/
theorem run_known {H H512 : Hash} {S : CidOffer → Prop} (hS : Set H H512 S) : ∀ (l : List (Kind × CidOffer)) (db db' : DB) (oks : List Bool), Known H512 S db →
    (∀ e ∈ l, S e.2) → run H512 db l = .ok (db', oks) →
    Known H512 S db' ∧ Grows db db' ∧ (∀ e ∈ l, e.2.price < 2 ^ 63 → e.2.qos < 2 ^ 63 → Whole H512 e.2 db') ∧ (Complete H512 S db → Complete H512 S db')
  | [], db, db', oks, h, _, hr => by
    cases hr
    exact ⟨h, .refl _, by simp, fun h => h⟩
  | (k, o) :: l, db, db', oks, h, hl, hr => by
    have ho : S o := hl (k, o) (by simp)
    obtain ⟨db1, ok, oks', hi, hr', -⟩ := run_cons_ok hr
    obtain ⟨k1, g1, w1, c1⟩ := insert_known h hS ho hi
    obtain ⟨k2, g2, w2, c2⟩ := run_known hS l db1 db' oks' k1 (fun e he => hl e (by simp [he])) hr'
    refine ⟨k2, g1.trans g2, ?_, fun hc => c2 (c1 hc)⟩
    intro e he hp hq
    rcases List.mem_cons.1 he with rfl | he
    · exact (w1 hp hq).grows g2
    · exact w2 e he hp hq

/-! ## the moments -/

theorem run_split {H512 : Hash} : ∀ (l1 l2 : List (Kind × CidOffer)) (db db1 db' : DB) (oks1 oks : List Bool), run H512 db l1 = .ok (db1, oks1) →
    run H512 db (l1 ++ l2) = .ok (db', oks) → ∃ oks2, run H512 db1 l2 = .ok (db', oks2)
  | [], l2, db, db1, db', oks1, oks, h1, h => by cases h1; exact ⟨oks, h⟩
  | (k, o) :: l1, l2, db, db1, db', oks1, oks, h1, h => by
    obtain ⟨a, ok, oks', i1, i2, -⟩ := run_cons_ok h1
    obtain ⟨a', ok', oks'', j1, j2, -⟩ := run_cons_ok (l := l1 ++ l2) h
    rw [i1] at j1
    cases j1
    exact run_split l1 l2 a db1 db' oks' oks'' i2 j2

theorem insert_grows {H512 : Hash} {db db' : DB} {ok : Bool} {o : CidOffer} (ho : InRange o) (h : insertOffer H512 (fun _ => false) db o = .ok (db', ok)) : Grows db db' := by
  rw [insert_eq ho] at h
  split at h
  · cases h; exact (runStmt_grows _ _).trans (foldl_grows _ _)
  · cases h; exact .refl _

theorem run_grows {H512 : Hash} : ∀ (l : List (Kind × CidOffer)) (db db' : DB) (oks : List Bool), (∀ e ∈ l, InRange e.2) → run H512 db l = .ok (db', oks) → Grows db db'
  | [], _, _, _, _, h => by cases h; exact .refl _
  | (k, o) :: l, db, db', oks, hl, h => by
    obtain ⟨a, ok, oks', i1, i2, -⟩ := run_cons_ok h
    exact (insert_grows (hl (k, o) (by simp)) i1).trans (run_grows l a db' oks' (fun e he => hl e (by simp [he])) i2)

/-! ## reading -/

theorem content_perm {H H512 : Hash} {S : CidOffer → Prop} {db : DB} (h : Known H512 S db) (hS : Set H H512 S) {o : CidOffer} (ho : S o) (hw : Whole H512 o db) :
    (db.contents.filter (fun r => decide (r.digest = dhex H512 o))).Perm (contentRows (dhex H512 o) o) := by
  rw [List.perm_ext_iff_of_nodup]
  · intro a
    rw [List.mem_filter]
    constructor
    · rintro ⟨h1, h2⟩
      exact h.row hS ho h1 (of_decide_eq_true h2)
    · intro h1
      exact ⟨hw.2 a h1, decide_eq_true (contentRows_digest h1)⟩
  · refine (h.keys.sublist List.filter_sublist).imp ?_
    rintro a b hab rfl
    exact hab ⟨rfl, rfl⟩
  · refine (contentRows_sorted _ _).imp ?_
    rintro a b hab rfl
    omega

theorem contentOf_whole {H H512 : Hash} {S : CidOffer → Prop} {db : DB} (h : Known H512 S db) (hS : Set H H512 S) {o : CidOffer} (ho : S o) (hw : Whole H512 o db) :
    contentOf db (dhex H512 o) = Ids.mapToString o.cids := by
  unfold contentOf
  rw [← contentRows_cids (dhex H512 o) o]
  congr 1
  have hp := content_perm h hS ho hw
  have hm := (List.mergeSort_perm (db.contents.filter (fun r => decide (r.digest = dhex H512 o))) (fun a b => decide (a.no ≤ b.no))).trans hp
  refine hm.eq_of_pairwise (le := fun a b => a.no ≤ b.no) ?_ ?_ ?_
  · intro a b ha hb h1 h2
    exact no_inj (hm.mem_iff.1 ha) hb (Nat.le_antisymm h1 h2)
  · refine (List.pairwise_mergeSort (le := fun (a b : ContentRow) => decide (a.no ≤ b.no)) ?_ ?_ _).imp (fun h => of_decide_eq_true h)
    · intro a b c h1 h2; simp at *; omega
    · intro a b; simp; omega
  · exact (contentRows_sorted _ _).imp (fun h => Nat.le_of_lt h)

theorem rebuild_whole {H H512 : Hash} {S : CidOffer → Prop} {db : DB} (h : Known H512 S db) (hS : Set H H512 S) {o : CidOffer} (ho : S o) (hw : Whole H512 o db) :
    rebuild H db (rowOf H512 o) = .ok (o, true) := by
  obtain ⟨⟨⟨p, hp, hpp⟩, hcs, _⟩, hne, hroot⟩ := hS.built o ho
  unfold rebuild
  have e1 : (rowOf H512 o).digest = dhex H512 o := rfl
  have e2 : (rowOf H512 o).provider = Ids.toStr p := by simp [rowOf, offerRow, hp]
  rw [e1, contentOf_whole h hS ho hw, Offer.mapFromString_mapToString _ hcs]
  simp only [e2, Ids.fromHex_toStr hpp]
  have hlen : ¬ o.cids.length < 1 := by
    cases hc : o.cids with
    | nil => exact absurd hc hne
    | cons => simp
  have hemp : o.cids.isEmpty = false := by simpa using hne
  unfold Offer.newOffer
  rw [if_neg hlen, hroot]
  simp only [rowOf, offerRow, hemp, Bool.not_false, ← hp]

/-- What is read of an offer of which at least one content is there. -/
theorem rebuild_some {H H512 : Hash} {S : CidOffer → Prop} {db : DB} (h : Known H512 S db) (hS : Set H H512 S) {o : CidOffer} (ho : S o)
    (hk : ∃ k ∈ db.contents, k.digest = dhex H512 o) :
    ∃ o', rebuild H db (rowOf H512 o) = .ok (o', true) ∧ o'.providerID = o.providerID ∧ o'.price = o.price ∧ o'.expiry = o.expiry ∧ o'.qos = o.qos ∧
      o'.signature = o.signature ∧ ((∀ c ∈ o'.cids, c ∈ o.cids) ∧ o'.cids.length ≤ o.cids.length) ∧
      ∀ c, c.length = 32 → (∃ k ∈ db.contents, k.digest = dhex H512 o ∧ k.cid = Ids.toStr c) → c ∈ o'.cids := by
  obtain ⟨⟨⟨p, hp, hpp⟩, hcs, _⟩, hne, hroot⟩ := hS.built o ho
  have hmem : ∀ s, s ∈ contentOf db (dhex H512 o) ↔ ∃ k ∈ db.contents, k.digest = dhex H512 o ∧ k.cid = s := by
    intro s
    unfold contentOf
    simp only [List.mem_map, (List.mergeSort_perm _ _).mem_iff, List.mem_filter, decide_eq_true_eq, and_assoc]
  have hsub : ∀ s ∈ contentOf db (dhex H512 o), ∃ c ∈ o.cids, s = Ids.toStr c := by
    intro s hs
    obtain ⟨k, h1, h2, rfl⟩ := (hmem s).1 hs
    have := h.row hS ho h1 h2
    obtain ⟨⟨c, i⟩, hx, rfl⟩ := List.mem_map.1 this
    exact ⟨c, List.fst_mem_of_mem_zipIdx hx, rfl⟩
  have hids : ∀ (l : List (List Char)), (∀ s ∈ l, ∃ c ∈ o.cids, s = Ids.toStr c) → ∃ ids : List Id, l = Ids.mapToString ids ∧ ∀ c ∈ ids, c ∈ o.cids := by
    intro l
    induction l with
    | nil => intro _; exact ⟨[], rfl, by simp⟩
    | cons s l ih =>
      intro hl
      obtain ⟨ids, e, hi⟩ := ih (fun x hx => hl x (by simp [hx]))
      obtain ⟨c, hc, rfl⟩ := hl s (by simp)
      refine ⟨c :: ids, by rw [e]; rfl, ?_⟩
      intro x hx
      rcases List.mem_cons.1 hx with rfl | hx
      · exact hc
      · exact hi x hx
  obtain ⟨ids, e, hi⟩ := hids _ hsub
  have hidp : ∀ c ∈ ids, Proper c := fun c hc => hcs c (hi c hc)
  have hnil : ids ≠ [] := by
    rintro rfl
    obtain ⟨k, h1, h2⟩ := hk
    have := (hmem k.cid).2 ⟨k, h1, h2, rfl⟩
    rw [e] at this
    simp [Ids.mapToString] at this
  obtain ⟨root, hr⟩ : ∃ r, Merkle.rootHex H ids = some r := by
    cases hh : Merkle.rootHex H ids with
    | none => exact absurd ((Merkle.C12_root_exists H ids).1.1 hh) hnil
    | some r => exact ⟨r, rfl⟩
  have hle : ids.length ≤ o.cids.length := by
    have e0 : ids.length = (contentOf db (dhex H512 o)).length := by rw [e, Ids.mapToString, List.length_map]
    have e1 : (contentOf db (dhex H512 o)).length = (db.contents.filter (fun k => k.digest = dhex H512 o)).length := by
      simp [contentOf]
    have e2 : (contentRows (dhex H512 o) o).length = o.cids.length := by simp [contentRows]
    rw [e0, e1, ← e2]
    refine List.Nodup.length_le_of_subset ?_ ?_
    · refine List.Pairwise.filter _ (h.keys.imp ?_)
      rintro a b hab rfl
      exact hab ⟨rfl, rfl⟩
    · intro k hk'
      rw [List.mem_filter] at hk'
      exact h.row hS ho hk'.1 (of_decide_eq_true hk'.2)
  have e1 : (rowOf H512 o).digest = dhex H512 o := rfl
  have e2 : (rowOf H512 o).provider = Ids.toStr p := by simp [rowOf, offerRow, hp]
  have hlen : ¬ ids.length < 1 := by
    cases hc : ids with
    | nil => exact absurd hc hnil
    | cons => simp
  have hemp : ids.isEmpty = false := by simpa using hnil
  refine ⟨{ providerID := some p, cids := ids, price := o.price, expiry := o.expiry, qos := o.qos, merkleRoot := root, signature := o.signature },
    ?_, hp.symm, rfl, rfl, rfl, rfl, ⟨hi, hle⟩, ?_⟩
  · unfold rebuild
    rw [e1, e, Offer.mapFromString_mapToString _ hidp]
    simp only [e2, Ids.fromHex_toStr hpp]
    unfold Offer.newOffer
    rw [if_neg hlen, hr]
    simp only [rowOf, offerRow, hemp, Bool.not_false]
  · rintro c hc ⟨k, h1, h2, h3⟩
    have := (hmem (Ids.toStr c)).2 ⟨k, h1, h2, h3⟩
    rw [e] at this
    obtain ⟨c', hc', e'⟩ := List.mem_map.1 this
    have e3 := Ids.fromHex_toStr hc
    rw [← e', Ids.fromHex_toStr (hidp c' hc')] at e3
    cases e3
    exact hc'

/-- Reading all rows of a result. -/
theorem selectGo_all {H : Hash} {db : DB} : ∀ (rows : List OfferRow) (_ : ∀ r ∈ rows, ∃ o, rebuild H db r = .ok (o, true)) (res : List CidOffer) (find : Bool),
    ∃ os, selectGo H db (-1) rows res find = .ok (res ++ os, find || !os.isEmpty) ∧ (∀ r ∈ rows, ∀ o, rebuild H db r = .ok (o, true) → o ∈ os) ∧
      ∀ o ∈ os, ∃ r ∈ rows, rebuild H db r = .ok (o, true)
  | [], _, res, find => ⟨[], by simp [selectGo], by simp, by simp⟩
  | r :: rows, h, res, find => by
    obtain ⟨o, ho⟩ := h r (by simp)
    obtain ⟨os, h1, h2, h3⟩ := selectGo_all rows (fun r hr => h r (by simp [hr])) (res ++ [o]) true
    refine ⟨o :: os, ?_, ?_, ?_⟩
    · simp only [selectGo, ho, Res.bind_ok, Bool.or_true]
      rw [if_neg (by omega), h1]
      simp
    · intro r' hr' o' ho'
      rcases List.mem_cons.1 hr' with rfl | hr'
      · rw [ho] at ho'; cases ho'; simp
      · exact List.mem_cons_of_mem _ (h2 r' hr' o' ho')
    · intro o' ho'
      rcases List.mem_cons.1 ho' with rfl | ho'
      · exact ⟨r, by simp, ho⟩
      · obtain ⟨r', hr', e⟩ := h3 o' ho'
        exact ⟨r', by simp [hr'], e⟩

/-- What a lookup finds in tables cut anywhere. -/
theorem lookup_known {H H512 : Hash} {S : CidOffer → Prop} {db : DB} (h : Known H512 S db) (hS : Set H H512 S) (order : List OfferRow → List OfferRow)
    (hord : ∀ l, (order l).Perm l) (off now : Int) (hnow : 0 ≤ now - off) (id : Id) (hid : id.length = 32) :
    ∃ os, getOffers H order off now db id = .ok (os, !os.isEmpty) ∧
      (∀ o, S o → Whole H512 o db → id ∈ o.cids → now - off < o.expiry → o.expiry ≤ 253402300799 → ∃ o' ∈ os, S o' ∧ terms o' = terms o) ∧
      (∀ o' ∈ os, id ∈ o'.cids ∧ now - off < o'.expiry ∧ ∃ o, S o ∧ o'.providerID = o.providerID ∧ o'.price = o.price ∧ o'.expiry = o.expiry ∧
        o'.qos = o.qos ∧ o'.signature = o.signature ∧ (∀ c ∈ o'.cids, c ∈ o.cids) ∧ o'.cids.length ≤ o.cids.length) ∧
      (Complete H512 S db → ∀ o' ∈ os, S o') := by
  let rows := db.offers.flatMap (fun o =>
    if unexpired off now o.expiry then (db.contents.filter (fun k => k.digest = o.digest ∧ k.cid = Ids.toStr id)).map (fun _ => o) else [])
  have hrows : ∀ r, r ∈ order rows ↔ r ∈ db.offers ∧ unexpired off now r.expiry = true ∧ ∃ k ∈ db.contents, k.digest = r.digest ∧ k.cid = Ids.toStr id := by
    intro r
    rw [(hord rows).mem_iff]
    show r ∈ db.offers.flatMap _ ↔ _
    rw [List.mem_flatMap]
    constructor
    · rintro ⟨r', h1, h2⟩
      split at h2
      · rename_i hu
        obtain ⟨k, hk, rfl⟩ := List.mem_map.1 h2
        rw [List.mem_filter] at hk
        exact ⟨h1, hu, k, hk.1, of_decide_eq_true hk.2⟩
      · simp at h2
    · rintro ⟨h1, hu, k, hk, hk2⟩
      refine ⟨r, h1, ?_⟩
      rw [if_pos hu]
      exact List.mem_map.2 ⟨k, List.mem_filter.2 ⟨hk, decide_eq_true hk2⟩, rfl⟩
  have hok : ∀ r ∈ order rows, ∃ o, rebuild H db r = .ok (o, true) := by
    intro r hr
    obtain ⟨h1, -, k, hk, hd, -⟩ := (hrows r).1 hr
    obtain ⟨o, ho, rfl⟩ := h.offers r h1
    obtain ⟨o', e, -⟩ := rebuild_some h hS ho ⟨k, hk, hd⟩
    exact ⟨o', e⟩
  obtain ⟨os, h1, h2, h3⟩ := selectGo_all (order rows) hok [] false
  refine ⟨os, by simpa using (show getOffers H order off now db id = _ from h1), ?_, ?_, ?_⟩
  · intro o ho hw hc he hy
    obtain ⟨⟨r, hr, hd⟩, hk⟩ := hw
    obtain ⟨o1, ho1, rfl⟩ := h.offers r hr
    have ht := hS.apart o1 o ho1 ho hd
    have hcids : o1.cids = o.cids := congrArg (fun t => t.2.1) ht
    have hexp : o1.expiry = o.expiry := congrArg (fun t => t.2.2.2.1) ht
    have hw1 : Whole H512 o1 db := by
      refine ⟨⟨_, hr, rfl⟩, ?_⟩
      rw [contentRows_terms ht]
      exact hk
    refine ⟨o1, h2 (rowOf H512 o1) ?_ o1 (rebuild_whole h hS ho1 hw1), ho1, ht⟩
    rw [hrows]
    refine ⟨hr, ?_, ?_⟩
    · show unexpired off now o1.expiry = true
      rw [hexp]
      simp [unexpired, hy, he]
      omega
    · have : Ids.toStr id ∈ (contentRows (dhex H512 o) o).map (·.cid) := by
        rw [contentRows_cids]
        exact List.mem_map.2 ⟨id, hc, rfl⟩
      obtain ⟨k, hk1, hk2⟩ := List.mem_map.1 this
      exact ⟨k, hk k hk1, by rw [contentRows_digest hk1]; exact hd.symm, hk2⟩
  · intro o' ho'
    obtain ⟨r, hr, e⟩ := h3 o' ho'
    obtain ⟨g1, gu, k, hk, hd, hkc⟩ := (hrows r).1 hr
    obtain ⟨o, ho, rfl⟩ := h.offers r g1
    obtain ⟨o'', e', a1, a2, a3, a4, a5, a6, a7⟩ := rebuild_some h hS ho ⟨k, hk, hd⟩
    rw [e] at e'
    cases e'
    refine ⟨a7 id hid ⟨k, hk, hd, hkc⟩, ?_, o, ho, a1, a2, a3, a4, a5, a6⟩
    rw [a3]
    have gu : unexpired off now o.expiry = true := gu
    simp [unexpired] at gu
    omega
  · intro hc o' ho'
    obtain ⟨r, hr, e⟩ := h3 o' ho'
    obtain ⟨g1, -⟩ := (hrows r).1 hr
    obtain ⟨o, ho, rfl, hw⟩ := hc r g1
    rw [rebuild_whole h hS ho hw] at e
    cases e
    exact ho

end FcRetrieval.SqlOffer
