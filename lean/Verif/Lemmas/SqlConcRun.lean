import Verif.Spec.SqlConc
import Verif.Lemmas.SqlConc
import Verif.Props.SqlOffer
/-! Helper lemmas: runs of several calls of the store. -/

set_option linter.unusedSimpArgs false

namespace FcRetrieval.SqlOffer.Conc
open FcRetrieval.Ids (Id Proper position)
open FcRetrieval.Merkle (Hash)
open FcRetrieval.Offer (CidOffer terms InRange Built)

variable {H H512 : Hash} {order : List OfferRow → List OfferRow}

/-- The text of a CID is one that the search looks for. -/
def hits : Query → List Char → Bool
  | .byCid c _ _, k => decide (k = Ids.toStr c)
  | .range a b _ _ _, k => strLe (Ids.toStr a) k && strLe k (Ids.toStr b)
  | .byDigest _ _ _, _ => false

/-- The search takes an offer of this expiry for unexpired. -/
def livesql : Query → Int → Bool
  | .byCid _ off now, e => unexpired off now e
  | .range _ _ _ off now, e => unexpired off now e
  | .byDigest _ off now, e => unexpired off now e

theorem hits_iff {q : Query} (hq : q.proper) (hc : q.byContent = true) {x : Id} (hx : Proper x) : hits q (Ids.toStr x) = true ↔ q.wants x := by
  cases q with
  | byCid c off now =>
    simp only [hits, Query.wants, decide_eq_true_eq]
    exact OfferMgr.toStr_inj hx hq
  | range a b max off now =>
    simp only [hits, Query.wants, Bool.and_eq_true]
    rw [strLe_toStr hq.1 hx, strLe_toStr hx hq.2]
  | byDigest d off now => cases hc

theorem live_iff {q : Query} (hc : q.clock) (e : Int) : livesql q e = true ↔ q.live e := by
  cases q <;> exact unexpired_iff _ _ _ hc

theorem mem_rowsFor {db : DB} {q : Query} (hc : q.byContent = true) {r : OfferRow} :
    r ∈ rowsFor db q ↔ r ∈ db.offers ∧ livesql q r.expiry = true ∧ ∃ k ∈ db.contents, k.digest = r.digest ∧ hits q k.cid = true := by
  cases q with
  | byCid c off now =>
    simp only [rowsFor, List.mem_flatMap, livesql, hits]
    constructor
    · rintro ⟨o, ho, h⟩
      split at h
      · obtain ⟨k, hk, rfl⟩ := List.mem_map.1 h
        simp only [List.mem_filter, decide_eq_true_eq] at hk
        exact ⟨ho, ‹_›, k, hk.1, hk.2.1, by simpa using hk.2.2⟩
      · simp at h
    · rintro ⟨ho, hl, k, hk, h1, h2⟩
      refine ⟨r, ho, ?_⟩
      rw [if_pos hl]
      exact List.mem_map.2 ⟨k, by simp [hk, h1]; simpa using h2, rfl⟩
  | range a b max off now =>
    simp only [rowsFor, List.mem_filter, Bool.and_eq_true, List.any_eq_true, decide_eq_true_eq, livesql, hits]
    constructor
    · rintro ⟨ho, ⟨k, hk, h1, h2, h3⟩, hl⟩; exact ⟨ho, hl, k, hk, h1, h2, h3⟩
    · rintro ⟨ho, hl, k, hk, h1, h2, h3⟩; exact ⟨ho, ⟨k, hk, h1, h2, h3⟩, hl⟩
  | byDigest d off now => cases hc

/-- What is known of a search by content while it runs. -/
def QInv (H H512 : Hash) (all : List CidOffer) (db0 db : DB) (q : Query) : Th → Prop
  | .reading rows res find =>
    (∀ r ∈ rows, ∃ o ∈ all, r = rowOf H512 o ∧ livesql q o.expiry = true ∧ ∃ k ∈ db.contents, k.digest = dhex H512 o ∧ hits q k.cid = true) ∧
    (∀ x ∈ res, ∃ o ∈ all, PartOf H x o ∧ livesql q o.expiry = true ∧ ∃ c ∈ x.cids, hits q (Ids.toStr c) = true) ∧
    find = !res.isEmpty ∧
    (limit q ≤ 0 → ∀ o ∈ all, rowOf H512 o ∈ db0.offers → Whole H512 db0 o → livesql q o.expiry = true →
      (∃ c ∈ o.cids, hits q (Ids.toStr c) = true) → rowOf H512 o ∈ rows ∨ o ∈ res)
  | .answered r => ∃ l, r = .ok (l, !l.isEmpty) ∧
    (∀ x ∈ l, ∃ o ∈ all, PartOf H x o ∧ livesql q o.expiry = true ∧ ∃ c ∈ x.cids, hits q (Ids.toStr c) = true) ∧
    (limit q ≤ 0 → ∀ o ∈ all, rowOf H512 o ∈ db0.offers → Whole H512 db0 o → livesql q o.expiry = true →
      (∃ c ∈ o.cids, hits q (Ids.toStr c) = true) → o ∈ l)
  | .panicked => False
  | _ => True

/-- What is known of a search by digest while it runs, for an offer that was stored as a whole. -/
def DInv (H512 : Hash) (o : CidOffer) : Th → Prop
  | .reading rows res find => rows = [rowOf H512 o] ∧ res = [] ∧ find = false
  | .answered r => r = .ok ([o], true)
  | _ => True

/-- What is known of a call while it runs. -/
def ThInv (H H512 : Hash) (all acc0 : List CidOffer) (db0 db : DB) : Call × Th → Prop
  | (.insert o, th) => o ∈ all ∧ ∀ todo ok, th = .inserting todo ok → (∀ s ∈ todo, s ∈ stmtsOf H512 o) ∧ (todo ≠ [] → bindable o = true)
  | (.ask q, th) => (q.byContent = true → QInv H H512 all db0 db q th) ∧
      (∀ d off now, q = .byDigest d off now → ∀ o ∈ acc0, hexEncode d = dhex H512 o → Whole H512 db0 o → unexpired off now o.expiry = true →
        DInv H512 o th)

theorem ThInv.mono {all acc0 : List CidOffer} {db0 db db' : DB} (hg : Grows db db') {t : Call × Th}
    (h : ThInv H H512 all acc0 db0 db t) : ThInv H H512 all acc0 db0 db' t := by
  obtain ⟨c, th⟩ := t
  cases c with
  | insert o => exact h
  | ask q =>
    refine ⟨fun hc => ?_, h.2⟩
    have := h.1 hc
    cases th with
    | reading rows res find =>
      obtain ⟨h1, h2⟩ := this
      refine ⟨fun r hr => ?_, h2⟩
      obtain ⟨o, ho, e, hl, k, hk, h3⟩ := h1 r hr
      exact ⟨o, ho, e, hl, k, hg.2 k hk, h3⟩
    | idle => exact this
    | inserting _ _ => exact this
    | answered r => exact this
    | panicked => exact this

/-- One step. -/
theorem step_inv {all acc0 acc : List CidOffer} {db0 db : DB} (hs : Sane H H512 all) (hord : ∀ l, (order l).Perm l)
    (hi0 : Inv H512 all acc0 db0) (hg : Grows db0 db) (hi : Inv H512 all acc db) (refused : Bool) {c : Call} {th : Th}
    (ht : ThInv H H512 all acc0 db0 db (c, th)) :
    ∃ acc', Inv H512 all acc' (step H H512 order refused db c th).1 ∧ Grows db (step H H512 order refused db c th).1 ∧
      ThInv H H512 all acc0 db0 (step H H512 order refused db c th).1 (c, (step H H512 order refused db c th).2) := by
  cases c with
  | insert o =>
    obtain ⟨ho, ht⟩ := ht
    cases th with
    | idle =>
      obtain ⟨d, p, hd, hp, he⟩ := statements_eq (H512 := H512) (hs.1 o ho).1
      simp only [step, hd, hp]
      refine ⟨acc, hi, Grows.refl db, ho, ?_⟩
      intro todo ok h
      split at h
      · cases h
        exact ⟨fun s hs => by rw [← he]; exact hs, fun _ => ‹_›⟩
      · cases h
        exact ⟨by simp, by simp⟩
    | inserting todo ok =>
      obtain ⟨h1, h2⟩ := ht todo ok rfl
      cases todo with
      | nil => exact ⟨acc, hi, Grows.refl db, ho, ht⟩
      | cons s todo =>
        have hb := h2 (by simp)
        have hrest : ∀ ok', ThInv H H512 all acc0 db0 (runStmt db s) (.insert o, .inserting todo ok') := by
          refine fun ok' => ⟨ho, fun todo' ok'' h => ?_⟩
          cases h
          exact ⟨fun s hs => h1 s (by simp [hs]), fun _ => hb⟩
        cases s with
        | offer r =>
          simp only [step]
          split
          · refine ⟨acc, hi, Grows.refl db, ho, ?_⟩
            intro todo' ok' h
            cases h
            exact ⟨by simp, by simp⟩
          · have hr : r = rowOf H512 o := by
              have := h1 (.offer r) (by simp)
              simp [stmtsOf] at this
              exact this
            subst hr
            exact ⟨_, (offer_inv hs hi ho hb).1, runStmt_grows db _, hrest true⟩
        | content r =>
          have hr : r ∈ contentRows (dhex H512 o) o := by
            have := h1 (.content r) (by simp)
            simp [stmtsOf] at this
            exact this
          simp only [step]
          split
          · refine ⟨acc, hi, Grows.refl db, ho, ?_⟩
            intro todo' ok' h
            cases h
            exact ⟨fun s hs => h1 s (by simp [hs]), fun _ => hb⟩
          · exact ⟨acc, (content_inv hs hi ho hr).1, runStmt_grows db _, hrest true⟩
    | reading _ _ _ => exact ⟨acc, hi, Grows.refl db, ho, ht⟩
    | answered _ => exact ⟨acc, hi, Grows.refl db, ho, ht⟩
    | panicked => exact ⟨acc, hi, Grows.refl db, ho, ht⟩
  | ask q =>
    have hrowOf : ∀ r ∈ db.offers, ∃ o ∈ all, r = rowOf H512 o := by
      intro r hr
      rw [hi.offers] at hr
      obtain ⟨o, ho, rfl⟩ := List.mem_map.1 hr
      exact ⟨o, hi.known o ho, rfl⟩
    cases th with
    | idle =>
      simp only [step]
      refine ⟨acc, hi, Grows.refl db, fun hc => ⟨?_, by simp, rfl, ?_⟩, ?_⟩
      · intro r hr
        obtain ⟨h1, h2, k, hk, h3, h4⟩ := (mem_rowsFor hc).1 ((hord _).mem_iff.1 hr)
        obtain ⟨o, ho, rfl⟩ := hrowOf r h1
        exact ⟨o, ho, rfl, h2, k, hk, h3, h4⟩
      · intro _ o ho h1 h2 h3 ⟨c, hc', h4⟩
        refine .inl ((hord _).mem_iff.2 ((mem_rowsFor hc).2 ⟨hg.1 _ h1, h3, ?_⟩))
        have : Ids.toStr c ∈ (contentRows (dhex H512 o) o).map (·.cid) := by
          rw [contentRows_cids]; exact List.mem_map.2 ⟨c, hc', rfl⟩
        obtain ⟨k, hk, hkc⟩ := List.mem_map.1 this
        exact ⟨k, hg.2 k (h2 k hk), contentRows_digest hk, by rw [hkc]; exact h4⟩
      · intro d off now hq o ho hd hw hu
        subst hq
        refine ⟨?_, rfl, rfl⟩
        have : rowsFor db (.byDigest d off now) = [rowOf H512 o] := by
          have hmem : rowOf H512 o ∈ db.offers := hg.1 _ (by rw [hi0.offers]; exact List.mem_map.2 ⟨o, ho, rfl⟩)
          have hdist : db.offers.Pairwise (fun a b => a.digest ≠ b.digest) := by
            rw [hi.offers, List.pairwise_map]; exact hi.distinct
          simp only [rowsFor]
          rw [hd]
          clear hi hi0 hrowOf
          generalize db.offers = L at hmem hdist
          induction L with
          | nil => simp at hmem
          | cons a L ih =>
            rw [List.pairwise_cons] at hdist
            rcases List.mem_cons.1 hmem with rfl | hm
            · rw [List.filter_cons_of_pos (by simp only [Bool.and_eq_true, decide_eq_true_eq]; exact ⟨rfl, hu⟩)]
              rw [List.filter_eq_nil_iff.2]
              intro x hx
              have := hdist.1 x hx
              simp only [Bool.and_eq_true, decide_eq_true_eq, not_and]
              intro e
              exact absurd e.symm this
            · rw [List.filter_cons_of_neg]
              · exact ih hm hdist.2
              · have := hdist.1 _ hm
                simp only [Bool.and_eq_true, decide_eq_true_eq, not_and]
                intro e
                exact absurd e this
        rw [this]
        exact List.perm_singleton.1 (hord _)
    | reading rows res find =>
      cases rows with
      | nil =>
        refine ⟨acc, hi, Grows.refl db, fun hc => ?_, ?_⟩
        · obtain ⟨_, h2, h3, h4⟩ := ht.1 hc
          subst h3
          refine ⟨res, rfl, h2, fun hl o ho a b c d => ?_⟩
          rcases h4 hl o ho a b c d with h | h
          · simp at h
          · exact h
        · intro d off now hq o ho hd hw hu
          have := ht.2 d off now hq o ho hd hw hu
          simp [DInv] at this
      | cons r rows =>
        by_cases hc : q.byContent = true
        · obtain ⟨h1, h2, h3, h4⟩ := ht.1 hc
          obtain ⟨o, ho, rfl, hl, k, hk, hk1, hk2⟩ := h1 r (by simp)
          obtain ⟨x, hx, hx1, hx2, hx3, hx4, hx5, hx6, hx7, hx8, hx9, hx10⟩ := rebuild_inv hs hi ho ⟨k, hk, hk1⟩
          have hpart : ∀ y ∈ res ++ [x], ∃ o ∈ all, PartOf H y o ∧ livesql q o.expiry = true ∧ ∃ c ∈ y.cids, hits q (Ids.toStr c) = true := by
            intro y hy
            rcases List.mem_append.1 hy with hy | hy
            · exact h2 y hy
            · simp at hy
              subst hy
              obtain ⟨i, hi', he⟩ := hx9 k hk hk1
              exact ⟨o, ho, ⟨hx1, hx2, hx8, hx3, hx4, hx5, hx6, hx7⟩, hl, i, hi', by rw [← he]; exact hk2⟩
          have hwhole : ∀ o' ∈ all, rowOf H512 o' ∈ db0.offers → Whole H512 db0 o' → rowOf H512 o' = rowOf H512 o → o' = x := by
            intro o' ho' _ hw he
            have hne' : ∃ k ∈ db.contents, k.digest = dhex H512 o' := by
              have : dhex H512 o' = dhex H512 o := congrArg OfferRow.digest he
              exact ⟨k, hk, by rw [this]; exact hk1⟩
            obtain ⟨x', hx', _, _, _, _, _, _, _, _, _, hx''⟩ := rebuild_inv hs hi ho' hne'
            rw [he, hx] at hx'
            cases hx'
            exact (hx'' (hw.mono hg)).symm
          have hfind : (find || true) = !(res ++ [x]).isEmpty := by simp
          simp only [step, hx]
          split
          · refine ⟨acc, hi, Grows.refl db, fun _ => ⟨res ++ [x], by rw [hfind], hpart, ?_⟩, ?_⟩
            · rename_i hlim
              intro hl'
              omega
            · intro d off now hq
              subst hq
              cases hc
          · refine ⟨acc, hi, Grows.refl db, fun _ => ⟨fun r hr => h1 r (by simp [hr]), hpart, hfind, ?_⟩, ?_⟩
            · intro hl' o' ho' a b c d
              rcases h4 hl' o' ho' a b c d with h | h
              · rcases List.mem_cons.1 h with h | h
                · exact .inr (by rw [hwhole o' ho' a b h]; simp)
                · exact .inl h
              · exact .inr (by simp [h])
            · intro d off now hq
              subst hq
              cases hc
        · obtain ⟨d, off, now, rfl⟩ : ∃ d off now, q = .byDigest d off now := by
            cases q with
            | byDigest d off now => exact ⟨d, off, now, rfl⟩
            | byCid _ _ _ => exact absurd rfl hc
            | range _ _ _ _ _ => exact absurd rfl hc
          have hsame : (step H H512 order refused db (.ask (.byDigest d off now)) (.reading (r :: rows) res find)).1 = db := by
            simp only [step]
            split
            · split <;> rfl
            · rfl
          rw [hsame]
          refine ⟨acc, hi, Grows.refl db, fun hc' => absurd hc' hc, ?_⟩
          intro d' off' now' hq o ho hd hw hu
          cases hq
          obtain ⟨e1, rfl, rfl⟩ := ht.2 d off now rfl o ho hd hw hu
          cases e1
          have hoall := hi0.known o ho
          have hne' : ∃ k ∈ db.contents, k.digest = dhex H512 o := by
            have hb := hs.1 o hoall
            cases hcs : contentRows (dhex H512 o) o with
            | nil =>
              have := congrArg (List.map (·.cid)) hcs
              rw [contentRows_cids] at this
              simp [Ids.mapToString] at this
              exact absurd this hb.2.1
            | cons k ks =>
              have hk : k ∈ contentRows (dhex H512 o) o := by rw [hcs]; simp
              exact ⟨k, hg.2 k (hw k hk), contentRows_digest hk⟩
          obtain ⟨x, hx, _, _, _, _, _, _, _, _, _, hx'⟩ := rebuild_inv hs hi hoall hne'
          have := hx' (hw.mono hg)
          subst this
          simp only [step, hx, limit]
          rfl
    | inserting _ _ => exact ⟨acc, hi, Grows.refl db, ht⟩
    | answered _ => exact ⟨acc, hi, Grows.refl db, ht⟩
    | panicked => exact ⟨acc, hi, Grows.refl db, ht⟩


/-! ## runs -/

theorem set_split {α : Type} {l : List α} {i : Nat} {a : α} (h : l[i]? = some a) (b : α) :
    ∃ pre post, l = pre ++ a :: post ∧ l.set i b = pre ++ b :: post := by
  induction l generalizing i with
  | nil => simp at h
  | cons x l ih =>
    cases i with
    | zero => simp at h; subst h; exact ⟨[], l, rfl, rfl⟩
    | succ i =>
      obtain ⟨pre, post, h1, h2⟩ := ih (by simpa using h)
      exact ⟨x :: pre, post, by simp [h1], by simp [h2]⟩

structure RInv (H H512 : Hash) (all acc0 : List CidOffer) (db0 : DB) (calls : List Call) (s : Sys) : Prop where
  inv : ∃ acc, Inv H512 all acc s.db
  grows : Grows db0 s.db
  threads : ∀ t ∈ s.threads, ThInv H H512 all acc0 db0 s.db t
  calls : s.threads.map (·.1) = calls

theorem begin_inv {all acc0 : List CidOffer} {db0 : DB} {calls : List Call} (hi0 : Inv H512 all acc0 db0)
    (hc : ∀ o ∈ inserted calls, o ∈ all) : RInv H H512 all acc0 db0 calls (begin db0 calls) := by
  refine ⟨⟨acc0, hi0⟩, Grows.refl db0, ?_, by simp [begin, Function.comp_def]⟩
  intro t ht
  simp only [begin, List.mem_map] at ht
  obtain ⟨c, hc', rfl⟩ := ht
  cases c with
  | insert o =>
    refine ⟨hc o ?_, fun _ _ h => by cases h⟩
    clear hc
    induction calls with
    | nil => simp at hc'
    | cons c calls ih =>
      rcases List.mem_cons.1 hc' with rfl | h
      · simp [inserted]
      · cases c <;> simp [inserted, ih h]
  | ask q => exact ⟨fun _ => trivial, fun _ _ _ _ _ _ _ _ _ => trivial⟩

theorem sysStep_inv {all acc0 : List CidOffer} {db0 : DB} {calls : List Call} (hs : Sane H H512 all) (hord : ∀ l, (order l).Perm l)
    (hi0 : Inv H512 all acc0 db0) {s : Sys} (h : RInv H H512 all acc0 db0 calls s) (m : Nat × Bool) :
    RInv H H512 all acc0 db0 calls (sysStep H H512 order s m) := by
  unfold sysStep
  cases ht : s.threads[m.1]? with
  | none => exact h
  | some t =>
    obtain ⟨c, th⟩ := t
    obtain ⟨⟨acc, hi⟩, hg, hth, hcalls⟩ := h
    obtain ⟨acc', h1, h2, h3⟩ := step_inv hs hord hi0 hg hi m.2 (hth _ (List.mem_of_getElem? ht))
    obtain ⟨pre, post, e1, e2⟩ := set_split ht (c, (step H H512 order m.2 s.db c th).2)
    refine ⟨⟨acc', h1⟩, hg.trans h2, ?_, ?_⟩
    · intro t' ht'
      simp only [e2] at ht'
      rcases List.mem_append.1 ht' with ht' | ht'
      · exact (hth t' (by rw [e1]; simp [ht'])).mono h2
      · rcases List.mem_cons.1 ht' with rfl | ht'
        · exact h3
        · exact (hth t' (by rw [e1]; simp [ht'])).mono h2
    · simp only [e2]
      rw [← hcalls, e1]
      simp

theorem sysRun_inv {all acc0 : List CidOffer} {db0 : DB} {calls : List Call} (hs : Sane H H512 all) (hord : ∀ l, (order l).Perm l)
    (hi0 : Inv H512 all acc0 db0) : ∀ (sched : List (Nat × Bool)) {s : Sys}, RInv H H512 all acc0 db0 calls s →
    RInv H H512 all acc0 db0 calls (sysRun H H512 order s sched)
  | [], _, h => h
  | m :: sched, _, h => sysRun_inv hs hord hi0 sched (sysStep_inv hs hord hi0 h m)

/-! ## runs in which the database refuses nothing -/

/-- The offer of an addition whose row is not stored yet. -/
def pendOf : Call × Th → List CidOffer
  | (.insert o, .idle) => [o]
  | (.insert o, .inserting (.offer _ :: _) _) => [o]
  | _ => []

/-- The offers whose row is not stored yet. -/
def pend (l : List (Call × Th)) : List CidOffer := l.flatMap pendOf

theorem pend_append (l l' : List (Call × Th)) : pend (l ++ l') = pend l ++ pend l' := List.flatMap_append

theorem pend_cons (t : Call × Th) (l : List (Call × Th)) : pend (t :: l) = pend [t] ++ pend l := pend_append [t] l

/-- How far an addition is. -/
def PInv (H512 : Hash) (db : DB) : Call × Th → Prop
  | (.insert _, .idle) => True
  | (.insert o, .inserting todo ok) => ok = bindable o ∧ (bindable o = false → todo = []) ∧
      (bindable o = true → ∃ n, todo = (stmtsOf H512 o).drop n ∧ ∀ s ∈ (stmtsOf H512 o).take n, Done db s)
  | (.insert _, _) => False
  | (.ask _, _) => True

theorem PInv.mono {db db' : DB} (hg : Grows db db') {t : Call × Th} (h : PInv H512 db t) : PInv H512 db' t := by
  obtain ⟨c, th⟩ := t
  cases c with
  | ask q => trivial
  | insert o =>
    cases th with
    | inserting todo ok =>
      obtain ⟨h1, h2, h3⟩ := h
      refine ⟨h1, h2, fun hb => ?_⟩
      obtain ⟨n, h4, h5⟩ := h3 hb
      exact ⟨n, h4, fun s hs => (h5 s hs).mono hg⟩
    | idle => trivial
    | reading _ _ _ => exact h
    | answered _ => exact h
    | panicked => exact h

/-- Every content belongs to a stored offer. -/
def Owned (db : DB) : Prop := ∀ r ∈ db.contents, ∃ x ∈ db.offers, x.digest = r.digest

theorem step_progress {all acc : List CidOffer} {db : DB} (hs : Sane H H512 all) (hi : Inv H512 all acc db) (hown : Owned db) {c : Call} {th : Th}
    (hc : ∀ o, c = .insert o → o ∈ all) (hp : PInv H512 db (c, th)) :
    ∃ done, Inv H512 all (done.foldl keep acc) (step H H512 order false db c th).1 ∧ Owned (step H H512 order false db c th).1 ∧
      Grows db (step H H512 order false db c th).1 ∧ PInv H512 (step H H512 order false db c th).1 (c, (step H H512 order false db c th).2) ∧
      pend [(c, th)] = done ++ pend [(c, (step H H512 order false db c th).2)] := by
  cases c with
  | ask q =>
    have h1 : (step H H512 order false db (.ask q) th).1 = db := by
      cases th with
      | reading rows res find =>
        cases rows with
        | nil => rfl
        | cons r rows =>
          simp only [step]
          split
          · split <;> rfl
          · rfl
      | idle => rfl
      | inserting _ _ => rfl
      | answered _ => rfl
      | panicked => rfl
    rw [h1]
    exact ⟨[], hi, hown, Grows.refl db, trivial, by simp [pend, pendOf]⟩
  | insert o =>
    have ho := hc o rfl
    cases th with
    | idle =>
      obtain ⟨d, p, hd, hp', he⟩ := statements_eq (H512 := H512) (hs.1 o ho).1
      simp only [step, hd, hp']
      by_cases hb : bindable o = true
      · rw [if_pos hb, he]
        refine ⟨[], hi, hown, Grows.refl db, ⟨hb.symm, fun h => by simp [hb] at h, fun _ => ⟨0, by simp, by simp⟩⟩, ?_⟩
        simp [pend, pendOf, stmtsOf]
      · rw [if_neg hb]
        have hb' : bindable o = false := by simpa using hb
        refine ⟨[o], ?_, hown, Grows.refl db, ⟨hb'.symm, fun _ => rfl, fun h => absurd h hb⟩, by simp [pend, pendOf]⟩
        have : keep acc o = acc := by
          unfold keep
          rw [if_pos]
          unfold bindable at hb
          rw [Bool.and_eq_true, decide_eq_true_eq, decide_eq_true_eq] at hb
          omega
        simp only [List.foldl_cons, List.foldl_nil, this]
        exact hi
    | inserting todo ok =>
      obtain ⟨h1, h2, h3⟩ := hp
      cases todo with
      | nil => exact ⟨[], hi, hown, Grows.refl db, ⟨h1, h2, h3⟩, by simp [pend, pendOf, step]⟩
      | cons s todo =>
        have hb : bindable o = true := by
          cases hb : bindable o with
          | true => rfl
          | false => have := h2 hb; simp at this
        obtain ⟨n, hn, hdone⟩ := h3 hb
        have hlt : n < (stmtsOf H512 o).length := by
          have := congrArg List.length hn
          simp only [List.length_cons, List.length_drop] at this
          omega
        rw [List.drop_eq_getElem_cons hlt] at hn
        injection hn with hs' htodo
        have hmem : s ∈ stmtsOf H512 o := by rw [hs']; exact List.getElem_mem hlt
        have hnext : ∀ db', Grows db db' → Done db' s → PInv H512 db' (.insert o, .inserting todo true) := by
          intro db' hg hd
          refine ⟨hb.symm, fun h => by simp [hb] at h, fun _ => ⟨n + 1, htodo, ?_⟩⟩
          intro x hx
          rw [List.take_succ_eq_append_getElem hlt] at hx
          rcases List.mem_append.1 hx with hx | hx
          · exact (hdone x hx).mono hg
          · simp at hx; subst hx; rw [← hs']; exact hd
        cases s with
        | offer r =>
          have hr : r = rowOf H512 o := by simpa [stmtsOf] using hmem
          subst hr
          obtain ⟨h4, h5⟩ := offer_inv hs hi ho hb
          have hg := runStmt_grows db (.offer (rowOf H512 o))
          simp only [step, Bool.false_eq_true, if_false]
          refine ⟨[o], h4, ?_, hg, hnext _ hg h5, ?_⟩
          · intro r hr
            have : r ∈ db.contents := by
              simp only [runStmt] at hr
              split at hr <;> exact hr
            obtain ⟨x, hx, e⟩ := hown r this
            exact ⟨x, hg.1 x hx, e⟩
          · have htail : ∀ x ∈ todo, ∃ k, x = .content k := by
              have hn0 : n = 0 := by
                cases n with
                | zero => rfl
                | succ n =>
                  simp only [stmtsOf, List.getElem_cons_succ, List.getElem_map] at hs'
                  cases hs'
              subst hn0
              intro x hx
              rw [htodo] at hx
              simp only [stmtsOf, Nat.zero_add, List.drop_succ_cons, List.drop_zero, List.mem_map] at hx
              obtain ⟨k, _, rfl⟩ := hx
              exact ⟨k, rfl⟩
            cases todo with
            | nil => simp [pend, pendOf]
            | cons y todo =>
              obtain ⟨k, rfl⟩ := htail y (by simp)
              simp [pend, pendOf]
        | content r =>
          have hr : r ∈ contentRows (dhex H512 o) o := by simpa [stmtsOf] using hmem
          obtain ⟨h4, h5⟩ := content_inv hs hi ho hr
          have hg := runStmt_grows db (.content r)
          simp only [step, Bool.false_eq_true, if_false]
          have hoff : Done db (.offer (rowOf H512 o)) := by
            refine hdone _ ?_
            cases n with
            | zero => simp only [stmtsOf, List.getElem_cons_zero] at hs'; cases hs'
            | succ n => simp [stmtsOf]
          refine ⟨[], h4, ?_, hg, hnext _ hg h5, ?_⟩
          · intro x hx
            simp only [runStmt] at hx ⊢
            split at hx
            · rw [if_pos ‹_›]; exact hown x hx
            · rw [if_neg ‹_›]
              rcases List.mem_append.1 hx with hx | hx
              · exact hown x hx
              · simp at hx; subst hx
                obtain ⟨y, hy, e⟩ := hoff
                exact ⟨y, hy, by rw [e, contentRows_digest hr]; rfl⟩
          · cases todo with
            | nil => simp [pend, pendOf]
            | cons y todo =>
              have : ∃ k, y = .content k := by
                have hy : y ∈ (stmtsOf H512 o).drop (n + 1) := by rw [← htodo]; simp
                simp only [stmtsOf, List.drop_succ_cons] at hy
                obtain ⟨k, _, rfl⟩ := List.mem_map.1 (List.mem_of_mem_drop hy)
                exact ⟨k, rfl⟩
              obtain ⟨k, rfl⟩ := this
              simp [pend, pendOf]
    | reading _ _ _ => exact absurd hp (by simp [PInv])
    | answered _ => exact absurd hp (by simp [PInv])
    | panicked => exact absurd hp (by simp [PInv])

structure FInv (H512 : Hash) (all acc0 : List CidOffer) (calls : List Call) (s : Sys) : Prop where
  inv : ∃ ex, Inv H512 all (ex.foldl keep acc0) s.db ∧ (ex ++ pend s.threads).Perm (inserted calls)
  owned : Owned s.db
  threads : ∀ t ∈ s.threads, PInv H512 s.db t
  calls : s.threads.map (·.1) = calls

theorem mem_inserted {calls : List Call} {o : CidOffer} (h : Call.insert o ∈ calls) : o ∈ inserted calls := by
  induction calls with
  | nil => simp at h
  | cons c calls ih =>
    rcases List.mem_cons.1 h with rfl | h'
    · simp [inserted]
    · cases c <;> simp [inserted, ih h']

theorem begin_finv {all acc0 : List CidOffer} {db0 : DB} {calls : List Call} (hi0 : Inv H512 all acc0 db0) (hown : Owned db0) :
    FInv H512 all acc0 calls (begin db0 calls) := by
  refine ⟨⟨[], hi0, ?_⟩, hown, ?_, by simp [begin, Function.comp_def]⟩
  · have : pend (begin db0 calls).threads = inserted calls := by
      simp only [begin]
      induction calls with
      | nil => rfl
      | cons c calls ih => rw [List.map_cons, pend_cons, ih]; cases c <;> rfl
    rw [this]
    exact List.Perm.refl _
  · intro t ht
    simp only [begin, List.mem_map] at ht
    obtain ⟨c, _, rfl⟩ := ht
    cases c <;> trivial

theorem sysStep_finv {all acc0 : List CidOffer} {calls : List Call} (hs : Sane H H512 all) (hc : ∀ o ∈ inserted calls, o ∈ all)
    {s : Sys} (h : FInv H512 all acc0 calls s) (i : Nat) : FInv H512 all acc0 calls (sysStep H H512 order s (i, false)) := by
  unfold sysStep
  cases ht : s.threads[(i, false).1]? with
  | none => exact h
  | some t =>
    obtain ⟨c, th⟩ := t
    obtain ⟨⟨ex, hi, hperm⟩, hown, hth, hcalls⟩ := h
    have hmem := List.mem_of_getElem? ht
    obtain ⟨done, h1, h2, h3, h4, h5⟩ := step_progress (order := order) hs hi hown (c := c) (th := th) (fun o e => by
      subst e
      refine hc o (mem_inserted ?_)
      rw [← hcalls]
      exact List.mem_map.2 ⟨_, hmem, rfl⟩) (hth _ hmem)
    obtain ⟨pre, post, e1, e2⟩ := set_split ht (c, (step H H512 order false s.db c th).2)
    refine ⟨⟨ex ++ done, by rw [List.foldl_append]; exact h1, ?_⟩, h2, ?_, ?_⟩
    · refine List.Perm.trans ?_ hperm
      dsimp only
      rw [e2, e1, pend_append, pend_append, pend_cons, pend_cons (c, th), h5]
      rw [List.append_assoc]
      refine List.Perm.append_left ex ?_
      rw [← List.append_assoc, List.append_assoc done, ← List.append_assoc (pend pre), ← List.append_assoc (pend pre), ← List.append_assoc done,
        ← List.append_assoc done, ← List.append_assoc (pend pre) done]
      exact ((List.perm_append_comm (l₁ := done) (l₂ := pend pre)).append_right _).append_right _
    · intro t' ht'
      simp only [e2] at ht'
      rcases List.mem_append.1 ht' with ht' | ht'
      · exact (hth t' (by rw [e1]; simp [ht'])).mono h3
      · rcases List.mem_cons.1 ht' with rfl | ht'
        · exact h4
        · exact (hth t' (by rw [e1]; simp [ht'])).mono h3
    · simp only [e2]
      rw [← hcalls, e1]
      simp

theorem sysRun_finv {all acc0 : List CidOffer} {calls : List Call} (hs : Sane H H512 all) (hc : ∀ o ∈ inserted calls, o ∈ all) :
    ∀ (sched : List (Nat × Bool)) {s : Sys}, (∀ m ∈ sched, m.2 = false) → FInv H512 all acc0 calls s →
    FInv H512 all acc0 calls (sysRun H H512 order s sched)
  | [], _, _, h => h
  | (i, b) :: sched, s, hr, h => by
    have : b = false := hr (i, b) (by simp)
    subst this
    exact sysRun_finv hs hc sched (fun m hm => hr m (by simp [hm])) (sysStep_finv hs hc h i)

theorem pend_finished : ∀ {l : List (Call × Th)}, (∀ o th, (Call.insert o, th) ∈ l → th.finished = true) → pend l = []
  | [], _ => rfl
  | (c, th) :: l, h => by
    have ih := pend_finished (fun o th ht => h o th (by simp [ht]) : ∀ o th, (Call.insert o, th) ∈ l → th.finished = true)
    rw [pend_cons, ih, List.append_nil]
    cases c with
    | ask q => rfl
    | insert o =>
      have h1 := h o th (by simp)
      cases th with
      | idle => simp [Th.finished] at h1
      | inserting todo ok =>
        cases todo with
        | nil => rfl
        | cons s todo => simp [Th.finished] at h1
      | reading _ _ _ => rfl
      | answered _ => rfl
      | panicked => rfl

/-! ## reading does not depend on the order of the contents -/

theorem contentOf_perm {db db' : DB} (hp : db.contents.Perm db'.contents)
    (hk : db.contents.Pairwise (fun a b => ¬ (a.no = b.no ∧ a.digest = b.digest))) (d : List Char) : contentOf db d = contentOf db' d := by
  have hsort : ∀ (K : List ContentRow), K.Pairwise (fun a b => a.no ≠ b.no) →
      (K.mergeSort (fun a b => decide (a.no ≤ b.no))).Pairwise (fun a b => a.no < b.no) := by
    intro K hK
    have hperm : (K.mergeSort (fun a b => decide (a.no ≤ b.no))).Perm K := List.mergeSort_perm _ _
    have hle : (K.mergeSort (fun a b => decide (a.no ≤ b.no))).Pairwise (fun a b => decide (a.no ≤ b.no) = true) :=
      List.pairwise_mergeSort (fun a b c h1 h2 => by simp only [decide_eq_true_eq] at *; omega)
        (fun a b => by simp only [Bool.or_eq_true, decide_eq_true_eq]; omega) K
    have hne := (hperm.pairwise_iff (R := fun a b : ContentRow => a.no ≠ b.no) (fun {a b} h e => h e.symm)).2 hK
    refine (hle.and hne).imp ?_
    intro a b h
    simp only [decide_eq_true_eq] at h
    omega
  have hK : (db.contents.filter (fun r => r.digest = d)).Pairwise (fun a b => a.no ≠ b.no) := by
    refine (hk.filter _).imp_of_mem ?_
    intro a b ha hb h e
    simp only [List.mem_filter, decide_eq_true_eq] at ha hb
    exact h ⟨e, by rw [ha.2, hb.2]⟩
  have hp' := hp.filter (fun r => decide (r.digest = d))
  have hK' : (db'.contents.filter (fun r => r.digest = d)).Pairwise (fun a b => a.no ≠ b.no) :=
    (hp'.pairwise_iff (R := fun a b : ContentRow => a.no ≠ b.no) (fun {a b} h e => h e.symm)).1 hK
  unfold contentOf
  congr 1
  have h1 := hsort _ hK
  have h2 := hsort _ hK'
  have hpp := (List.mergeSort_perm (db.contents.filter (fun r => decide (r.digest = d))) (fun a b => decide (a.no ≤ b.no))).trans
    (hp'.trans (List.mergeSort_perm (db'.contents.filter (fun r => decide (r.digest = d))) (fun a b => decide (a.no ≤ b.no))).symm)
  refine List.Sublist.eq_of_length_le (sublist_of_sorted (fun r : ContentRow => r.no) h2 h1 (fun a ha => hpp.mem_iff.1 ha)) ?_
  exact Nat.le_of_eq hpp.length_eq.symm

theorem rowsFor_perm {db db' : DB} (ho : db.offers = db'.offers) (hp : db.contents.Perm db'.contents) (q : Query) : rowsFor db q = rowsFor db' q := by
  cases q with
  | byCid c off now =>
    simp only [rowsFor, ho]
    congr 1
    funext o
    split
    · rw [List.map_const', List.map_const']
      congr 1
      exact (hp.filter _).length_eq
    · rfl
  | range a b max off now =>
    simp only [rowsFor, ho]
    congr 1
    funext o
    congr 1
    exact hp.any_eq
  | byDigest d off now => simp only [rowsFor, ho]

theorem selectGo_perm {db db' : DB} (h : ∀ d, contentOf db d = contentOf db' d) (max : Int) : ∀ (rows : List OfferRow) (res : List CidOffer) (find : Bool),
    selectGo H db max rows res find = selectGo H db' max rows res find
  | [], _, _ => rfl
  | r :: rows, res, find => by
    have : rebuild H db r = rebuild H db' r := by unfold rebuild; rw [h]
    unfold selectGo
    rw [this]
    congr 1
    funext x
    simp only [selectGo_perm h max rows]

/-- What a search that runs alone returns. -/
def alone (H : Hash) (order : List OfferRow → List OfferRow) (db : DB) (q : Query) : Res (List CidOffer × Bool) :=
  selectGo H db (limit q) (order (rowsFor db q)) [] false

theorem alone_perm {db db' : DB} (ho : db.offers = db'.offers) (hp : db.contents.Perm db'.contents)
    (hk : db.contents.Pairwise (fun a b => ¬ (a.no = b.no ∧ a.digest = b.digest))) (q : Query) : alone H order db q = alone H order db' q := by
  unfold alone
  rw [rowsFor_perm ho hp, selectGo_perm (contentOf_perm hp hk)]

/-- The tables when all additions are through. -/
theorem final_perm {all acc : List CidOffer} {db : DB} (hs : Sane H H512 all) (hi : Inv H512 all acc db) (hown : Owned db)
    (hw : ∀ o ∈ acc, Whole H512 db o) : db.contents.Perm (encode H512 acc).contents := by
  have hg : Good H H512 acc := ⟨fun o ho => hs.1 o (hi.known o ho), hi.distinct⟩
  have he := encode_inv hg hi.known
  have nd : ∀ {l : List ContentRow}, l.Pairwise (fun a b => ¬ (a.no = b.no ∧ a.digest = b.digest)) → l.Nodup := by
    intro l h
    exact h.imp (fun h e => h ⟨by rw [e], by rw [e]⟩)
  refine (List.perm_ext_iff_of_nodup (nd hi.keys) (nd he.keys)).2 ?_
  intro r
  constructor
  · intro hr
    obtain ⟨x, hx, e⟩ := hown r hr
    rw [hi.offers] at hx
    obtain ⟨o, ho, rfl⟩ := List.mem_map.1 hx
    obtain ⟨o', ho', hr'⟩ := hi.rows r hr
    refine List.mem_flatMap.2 ⟨o, ho, ?_⟩
    have : dhex H512 o = dhex H512 o' := by
      rw [← contentRows_digest hr', ← e]; rfl
    rw [(rows_of_dhex hs (hi.known o ho) ho' this).2]
    exact hr'
  · intro hr
    obtain ⟨o, ho, hr⟩ := List.mem_flatMap.1 hr
    exact hw o ho r hr

end FcRetrieval.SqlOffer.Conc
