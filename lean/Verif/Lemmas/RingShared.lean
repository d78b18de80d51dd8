import Verif.Model.RingShared
import Verif.Lemmas.OfferMgrSim
import Verif.Lemmas.OfferMgrHist
/-! Helper lemmas: parts of `Insert` and `GetWithinRange` that alternate. -/
set_option linter.unusedSimpArgs false
namespace FcRetrieval.RingShared
open FcRetrieval.Ring

/-- What stands at an address outside the ring does not matter. -/
theorem isRingAt_upd {r : Ring} {as : List Nat} {l : List Hex} (hr : IsRingAt r as l) {n : Nat} (hn : n ∉ as) (f : Node → Node) :
    IsRingAt { r with heap := r.heap.upd n f } as l := by
  have hne : ∀ a ∈ as, a ≠ n := fun a ha e => hn (e ▸ ha)
  constructor
  · exact hr.head
  · exact hr.size
  · exact hr.nodup
  · exact hr.alloc
  · rw [← hr.vals]
    apply List.map_congr_left
    intro a ha
    simp [Heap.upd, hne a ha]
  · intro a ha
    simpa [Heap.upd, hne a ha] using hr.keys a ha
  · exact hr.valid
  · exact hr.sorted
  · refine consecutive_mono ?_ hr.links
    intro a ha b hb
    exact linked_alloc (hne a (List.dropLast_subset _ ha)) (hne b (List.mem_of_mem_tail hb))
  · intro a ha
    have := hr.single a ha
    simpa [Heap.upd, hne a (by simp [ha])] using this
  · intro h2 a b ha hb
    exact linked_alloc (hne a (List.mem_of_getLast? ha)) (hne b (List.mem_of_head? hb)) (hr.closed h2 a b ha hb)

/-- The first part of `Insert` finds the gap. -/
theorem look_mid {r : Ring} {los his : List Nat} {l : List Hex} {x : Hex} {p c : Nat} (hr : IsRingAt r (los ++ his) l) (hx : validateInput x = true)
    (hp : los.getLast? = some p) (hc : his.head? = some c) (hlo : ∀ a ∈ los, (r.heap a).key < keyOf x) (hhi : ∀ a ∈ his, keyOf x < (r.heap a).key) :
    insertLook r x = .ok (allocNode r x, some ⟨r.cap, p, c, c, false⟩) := by
  have hr1 : IsRingAt (allocNode r x) (los ++ his) l := hr.alloc_upd fun _ => ⟨none, none, keyOf x, x, none, none⟩
  have hold : ∀ a ∈ los ++ his, (allocNode r x).heap a = r.heap a := by
    intro a ha
    simp [allocNode, Heap.upd, Nat.ne_of_lt (hr.alloc a ha)]
  have hnew : ((allocNode r x).heap r.cap).key = keyOf x := by simp [allocNode, Heap.upd]
  cases los with
  | nil => simp at hp
  | cons hd lo =>
    cases his with
    | nil => simp at hc
    | cons c' hi =>
      simp only [List.head?_cons, Option.some.injEq] at hc
      subst hc
      have hh := hr1.head
      simp only [List.cons_append, List.head?_cons] at hh
      have hsz := hr1.size
      have hsz0 : (allocNode r x).size ≠ 0 := by simp at hsz; omega
      have hhd : ((allocNode r x).heap hd).key < keyOf x := by rw [hold hd (by simp)]; exact hlo hd (by simp)
      have hck : keyOf x < ((allocNode r x).heap c').key := by rw [hold c' (by simp)]; exact hhi c' (by simp)
      have hpath := hr1.path
      have hp2 := hpath.2
      change Path _ (lo ++ c' :: hi) _ at hp2
      obtain ⟨hph, hpl⟩ := path_append hp2
      have hneh := hr1.rest_ne_head
      have hlen := hr1.length_le_cap
      have hloop := insertLoop_eq (h := (allocNode r x).heap) (hv := ((allocNode r x).heap hd).val) (k := keyOf x) (e := endOf hd (lo ++ c' :: hi)) stops_endOf hph
        (fun a ha => by rw [hold a (List.mem_append_right _ ha)]; exact Nat.le_of_lt (hhi a ha))
        (fun a ha => hneh a (List.mem_append_right _ ha)) (lo := lo) (prv := hd) (fuel := (allocNode r x).cap + 1) hpl
        (fun a ha => by rw [hold a (by simp [ha])]; exact hlo a (by simp [ha]))
        (fun a ha => hneh a (List.mem_append_left _ ha)) (by simp at hlen; omega)
      have hstart : ((allocNode r x).heap hd).next = lo.head?.or ((c' :: hi).head?.or (endOf hd (lo ++ c' :: hi))) := by
        rw [hpath.1]
        change (lo ++ c' :: hi).head?.or _ = _
        rw [List.head?_append, Option.or_assoc]
        rfl
      rw [← hstart] at hloop
      have hpe : (hd :: lo).getLast (by simp) = p := by
        rw [List.getLast?_eq_some_getLast (by simp)] at hp; simpa using hp
      simp only [hpe, if_neg (Nat.ne_of_gt hck)] at hloop
      unfold insertLook
      rw [if_neg (by simp [hx])]
      simp only [if_neg hsz0, hh, deref, bind, Except.bind, pure, Except.pure, hnew]
      rw [if_neg (Nat.ne_of_lt hhd), if_neg (by omega), hloop]

theorem map_vals_split {r : Ring} {los his : List Nat} {l : List Hex} (hr : IsRingAt r (los ++ his) l) :
    l = los.map (fun a => (r.heap a).val) ++ his.map (fun a => (r.heap a).val) := by
  rw [← hr.vals, List.map_append]

/-- The second writer undoes the pointers of the first. -/
theorem splice_twice (h : Heap) {p n n' c : Nat} (hp : p ≠ n) (hc : c ≠ n) :
    ∃ f, spliced (spliced h p n c) p n' c = (spliced h p n' c).upd n f := by
  refine ⟨fun _ => spliced (spliced h p n c) p n' c n, ?_⟩
  funext i
  unfold Heap.upd
  by_cases h1 : i = n
  · rw [if_pos h1, h1]
  · rw [if_neg h1]
    by_cases h2 : i = n' <;> by_cases h3 : i = c <;> by_cases h4 : i = p <;> simp [spliced, Heap.dist, h1, h2, h3, h4] <;> grind

/-- Two insertions into the same gap, search, search, write, write: the second alone is in the ring, which counts one too many. -/
theorem lost_ring {r : Ring} {los his : List Nat} {l : List Hex} {a b : Hex} (hr : IsRingAt r (los ++ his) l) (hlo0 : los ≠ []) (hhi0 : his ≠ [])
    (ha : validateInput a = true) (hb : validateInput b = true)
    (hlo : ∀ n ∈ los, (r.heap n).key < keyOf a ∧ (r.heap n).key < keyOf b) (hhi : ∀ n ∈ his, keyOf a < (r.heap n).key ∧ keyOf b < (r.heap n).key) :
    ∃ r1 p r2 q, insertLook r a = .ok (r1, p) ∧ insertLook r1 b = .ok (r2, q) ∧
      IsRing { insertLink (insertLink r2 p) q with size := l.length + 1 } (los.map (fun n => (r.heap n).val) ++ b :: his.map (fun n => (r.heap n).val)) ∧
      (insertLink (insertLink r2 p) q).size = l.length + 2 := by
  obtain ⟨p, hp⟩ : ∃ p, los.getLast? = some p := ⟨_, List.getLast?_eq_some_getLast hlo0⟩
  obtain ⟨c, hc⟩ : ∃ c, his.head? = some c := ⟨_, List.head?_eq_some_head hhi0⟩
  have hpm : p ∈ los ++ his := List.mem_append_left _ (List.mem_of_getLast? hp)
  have hcm : c ∈ los ++ his := List.mem_append_right _ (List.mem_of_head? hc)
  have hpc := hr.alloc p hpm
  have hcc := hr.alloc c hcm
  have e1 := look_mid hr ha hp hc (fun n hn => (hlo n hn).1) (fun n hn => (hhi n hn).1)
  have hr1 : IsRingAt (allocNode r a) (los ++ his) l := hr.alloc_upd fun _ => ⟨none, none, keyOf a, a, none, none⟩
  have hold1 : ∀ n ∈ los ++ his, (allocNode r a).heap n = r.heap n := by
    intro n hn
    simp [allocNode, Heap.upd, Nat.ne_of_lt (hr.alloc n hn)]
  have e2 := look_mid hr1 hb hp hc (fun n hn => by rw [hold1 n (List.mem_append_left _ hn)]; exact (hlo n hn).2)
    (fun n hn => by rw [hold1 n (List.mem_append_right _ hn)]; exact (hhi n hn).2)
  have hr2 : IsRingAt (allocNode (allocNode r a) b) (los ++ his) l := hr1.alloc_upd fun _ => ⟨none, none, keyOf b, b, none, none⟩
  have hold2 : ∀ n ∈ los ++ his, (allocNode (allocNode r a) b).heap n = r.heap n := by
    intro n hn
    rw [← hold1 n hn]
    conv => lhs; simp [allocNode, Heap.upd]
    have := hr.alloc n hn
    simp [allocNode, Heap.upd]
    omega
  have hcap : (allocNode r a).cap = r.cap + 1 := rfl
  have hout : ∀ k, r.cap ≤ k → k ∉ los ++ his := fun k hk hm => by have := hr.alloc k hm; omega
  have hs := splice_isRing (n := r.cap + 1) (p := p) (c := c) (x := b) hr2 (by simp [hlo0]) (hout _ (by omega)) (by simp [allocNode])
    (by simp [allocNode, Heap.upd]) (by simp [allocNode, Heap.upd]) hb
    (fun n hn => by rw [hold2 n (List.mem_append_left _ hn)]; exact (hlo n hn).2)
    (fun n hn => by rw [hold2 n (List.mem_append_right _ hn)]; exact (hhi n hn).2)
    (by rw [List.getLast?_append, hp]; rfl) (by rw [List.head?_append, hc]; rfl)
  rw [if_neg hlo0] at hs
  obtain ⟨f, hf⟩ := splice_twice (allocNode (allocNode r a) b).heap (p := p) (n := r.cap) (n' := r.cap + 1) (c := c) (by omega) (by omega)
  have hfin := isRingAt_upd hs (n := r.cap) (by
    have := hout r.cap (Nat.le_refl _)
    simp only [List.mem_append, List.mem_cons, not_or] at this ⊢
    exact ⟨this.1, by omega, this.2⟩) f
  refine ⟨_, _, _, _, e1, e2, ⟨los ++ (r.cap + 1) :: his, ?_⟩, ?_⟩
  · have hv : ∀ ns : List Nat, (∀ n ∈ ns, n ∈ los ++ his) → ns.map (fun n => ((allocNode (allocNode r a) b).heap n).val) = ns.map (fun n => (r.heap n).val) := by
      intro ns h
      apply List.map_congr_left
      intro n hn
      rw [hold2 n (h n hn)]
    rw [hv los (fun n h => List.mem_append_left _ h), hv his (fun n h => List.mem_append_right _ h)] at hfin
    have hsz : r.size = l.length := by rw [hr.size, hr.length]
    have hh : { insertLink (insertLink (allocNode (allocNode r a) b) (some ⟨r.cap, p, c, c, false⟩)) (some ⟨(allocNode r a).cap, p, c, c, false⟩) with size := l.length + 1 } =
        ({ allocNode (allocNode r a) b with
            heap := (spliced (allocNode (allocNode r a) b).heap p (r.cap + 1) c).upd r.cap f, size := (allocNode (allocNode r a) b).size + 1 } : Ring) := by
      simp only [insertLink, hcap]
      rw [splice_writes _ (p := p) (n := r.cap) (c := c) (by omega) (by omega) rfl, splice_writes _ (p := p) (n := r.cap + 1) (c := c) (by omega) (by omega) rfl, hf]
      simp [allocNode, hsz]
    rw [hh]
    exact hfin
  · simp only [insertLink, allocNode]
    rw [hr.size, hr.length]

/-- A ring that counts one too many. -/
def bump (r : Ring) : Ring := { r with size := r.size + 1 }

theorem insert_bump {r : Ring} (h : r.size ≠ 0) (x : Hex) : insert (bump r) x = (insert r x).map bump := by
  unfold Ring.insert
  by_cases hv : validateInput x = false
  · rw [if_pos hv, if_pos hv]; rfl
  · rw [if_neg hv, if_neg hv]
    unfold insertNode
    have h1 : (allocNode r x).size ≠ 0 := h
    have h2 : (allocNode (bump r) x).size ≠ 0 := by simp [allocNode, bump]
    have h3 : (allocNode (bump r) x).heap = (allocNode r x).heap := rfl
    have h4 : (allocNode (bump r) x).head = (allocNode r x).head := rfl
    have h5 : (allocNode (bump r) x).cap = (allocNode r x).cap := rfl
    have h6 : (allocNode (bump r) x).size = (allocNode r x).size + 1 := rfl
    simp only [if_neg h1, if_neg h2, bind, Except.bind, pure, Except.pure]
    simp only [h3, h4, h5, h6, show (bump r).cap = r.cap from rfl]
    cases deref (allocNode r x).head with
    | error f => rfl
    | ok hd =>
      simp only
      split
      · rfl
      · split
        · rfl
        · cases insertLoop (allocNode r x).heap ((allocNode r x).heap hd).val ((allocNode r x).heap r.cap).key ((allocNode r x).cap + 1) hd ((allocNode r x).heap hd).next with
          | error f => rfl
          | ok pl => cases pl <;> rfl

theorem get_bump {r : Ring} (h : r.size ≠ 0) (x : Hex) : get (bump r) x = get r x := by
  unfold Ring.get
  have h2 : (bump r).size ≠ 0 := by simp [bump]
  simp only [if_neg h, if_neg h2]
  rfl

theorem insert_size {r r' : Ring} {x : Hex} (h : insert r x = .ok r') : r.size ≤ r'.size := by
  unfold Ring.insert at h
  split at h
  · cases h; exact Nat.le_refl _
  · unfold insertNode at h
    have hs : ∀ q : Ring, q = (if (allocNode r x).size = 0 then { allocNode r x with head := some r.cap, size := (allocNode r x).size + 1 } else allocNode r x) → r.size ≤ q.size := by
      intro q hq
      subst hq
      split
      · simp [allocNode]
      · simp [allocNode]
    generalize hq : (if (allocNode r x).size = 0 then { allocNode r x with head := some r.cap, size := (allocNode r x).size + 1 } else allocNode r x) = q at h
    have hq' := hs q hq.symm
    simp only [bind, Except.bind, pure, Except.pure] at h
    cases hd : deref q.head with
    | error f => rw [hd] at h; cases h
    | ok hd' =>
      rw [hd] at h
      simp only at h
      split at h
      · cases h; exact hq'
      · split at h
        · cases h; exact Nat.le_succ_of_le hq'
        · cases hl : insertLoop q.heap (q.heap hd').val (q.heap r.cap).key (q.cap + 1) hd' (q.heap hd').next with
          | error f => rw [hl] at h; cases h
          | ok pl =>
            rw [hl] at h
            cases pl <;> (cases h; first | exact hq' | exact Nat.le_succ_of_le hq')

theorem ensure_bump {r : Ring} (h : r.size ≠ 0) (x : Hex) : ensure (bump r) x = (ensure r x).map (fun e => (bump e.1, e.2)) := by
  unfold ensure
  simp only [get_bump h, insert_bump h, bind, Except.bind, pure, Except.pure]
  cases get r x with
  | error f => rfl
  | ok n =>
    cases n with
    | some n => rfl
    | none =>
      simp only
      cases hi : insert r x with
      | error f => rfl
      | ok r1 =>
        have := insert_size hi
        simp only [Except.map, get_bump (r := r1) (by omega)]
        cases get r1 x <;> rfl

theorem remove_bump {r : Ring} (h : 3 ≤ r.size) (x : Hex) : remove (bump r) x = (remove r x).map bump := by
  unfold remove
  have e0 : (bump r).size ≠ 0 := by simp [bump]
  have e1 : (bump r).size ≠ 1 := by simp [bump]; omega
  have e2 : (bump r).size ≠ 2 := by simp [bump]; omega
  have f0 : r.size ≠ 0 := by omega
  have f1 : r.size ≠ 1 := by omega
  have f2 : r.size ≠ 2 := by omega
  have h3 : (bump r).heap = r.heap := rfl
  have h4 : (bump r).head = r.head := rfl
  have h5 : (bump r).cap = r.cap := rfl
  have h6 : (bump r).size = r.size + 1 := rfl
  simp only [if_neg e0, if_neg e1, if_neg e2, if_neg f0, if_neg f1, if_neg f2, h3, h4, h5, bind, Except.bind, pure, Except.pure]
  by_cases hv : validateInput x = false
  · rw [if_pos hv, if_pos hv]; rfl
  · rw [if_neg hv, if_neg hv]
    cases deref r.head with
    | error f => rfl
    | ok hd =>
      simp only
      split
      · cases deref (r.heap hd).next with
        | error f => rfl
        | ok nh =>
          simp only
          cases deref (r.heap.setPrv hd (some nh) nh).prv with
          | error f => rfl
          | ok bf =>
            simp only [Except.map, bump]
            congr 2
            omega
      · cases removeLoop r.heap (r.heap hd).val x (keyOf x) (r.cap + 1) (r.heap hd).next with
        | error f => rfl
        | ok o =>
          cases o with
          | none => rfl
          | some n =>
            simp only [Except.map, bump]
            congr 2
            omega

theorem remove_size {r r' : Ring} {x : Hex} (h3 : 3 ≤ r.size) (h : remove r x = .ok r') : r.size ≤ r'.size + 1 := by
  unfold remove at h
  have f0 : r.size ≠ 0 := by omega
  have f1 : r.size ≠ 1 := by omega
  have f2 : r.size ≠ 2 := by omega
  simp only [if_neg f0, if_neg f1, if_neg f2, bind, Except.bind, pure, Except.pure] at h
  split at h
  · cases h; omega
  · cases hd : deref r.head with
    | error f => rw [hd] at h; cases h
    | ok hd' =>
      rw [hd] at h
      simp only at h
      split at h
      · split at h
        · cases h
        · split at h
          · cases h
          · cases h; simp only; omega
      · split at h
        · cases h
        · split at h <;> (cases h; first | omega | (simp only; omega))

theorem dropTemp_bump {r : Ring} {f : Bool} (h : f = false → 3 ≤ r.size) (x : Hex) : dropTemp (bump r) x f = (dropTemp r x f).map bump := by
  unfold dropTemp
  cases f with
  | true => rfl
  | false => exact remove_bump (h rfl) x

theorem dropTemp_size {r r' : Ring} {x : Hex} {f : Bool} (h3 : 3 ≤ r.size) (h : dropTemp r x f = .ok r') : r.size ≤ r'.size + 1 := by
  unfold dropTemp at h
  split at h
  · cases h; omega
  · exact remove_size h3 h

theorem ensure_size {r r' : Ring} {x : Hex} {e : Bool × Option Nat} (h : ensure r x = .ok (r', e)) : r.size ≤ r'.size := by
  unfold ensure at h
  simp only [bind, Except.bind, pure, Except.pure] at h
  split at h
  · cases h
  · split at h
    · cases h; exact Nat.le_refl _
    · split at h
      · cases h
      · rename_i hi
        split at h
        · cases h
        · cases h; exact insert_size hi

/-- One too many is counted, and a listing answers all the same. -/
theorem range_bump {r : Ring} (h : 3 ≤ r.size) {a : Hex} (hg : ∀ r1 s, ensure r a = .ok (r1, false, s) → r.size < r1.size) (b : Hex) : getWithinRange (bump r) a b = (getWithinRange r a b).map (fun e => (bump e.1, e.2)) := by
  unfold getWithinRange
  simp only [bind, Except.bind, pure, Except.pure]
  split
  · rfl
  · rw [ensure_bump (by omega)]
    cases h1 : ensure r a with
    | error f => rfl
    | ok e1 =>
      obtain ⟨r1, f1, s⟩ := e1
      have g1 := ensure_size h1
      cases s with
      | none => rfl
      | some s =>
        simp only [Except.map]
        rw [ensure_bump (by omega)]
        cases h2 : ensure r1 b with
        | error f => rfl
        | ok e2 =>
          obtain ⟨r2, f2, t⟩ := e2
          have g2 := ensure_size h2
          cases t with
          | none =>
            simp only [Except.map]
            rw [dropTemp_bump (fun _ => by omega)]
            cases dropTemp r2 a f1 <;> rfl
          | some t =>
            simp only [Except.map]
            rw [show (bump r2).heap = r2.heap from rfl, show (bump r2).cap = r2.cap from rfl]
            cases rangeLoop r2.heap (r2.heap t).val (r2.cap + 1) (r2.heap s).next with
            | error f => rfl
            | ok mid =>
              simp only
              rw [dropTemp_bump (fun _ => by omega)]
              cases h3 : dropTemp r2 b f2 with
              | error f => rfl
              | ok r3 =>
                have g3 := dropTemp_size (by omega) h3
                simp only [Except.map]
                rw [dropTemp_bump (fun hf => by
                  subst hf
                  have := hg r1 _ h1
                  omega)]
                cases dropTemp r3 a f1 <;> rfl

/-- `Remove` of a stored identifier other than the smallest, three or more stored, with the memory it leaves. -/
theorem remove_at {r : Ring} {hd n : Nat} {mid hi : List Nat} {l : List Hex} {x : Hex} (hr : IsRingAt r (hd :: mid ++ n :: hi) l) (hx : validateInput x = true)
    (hlen3 : 3 ≤ (hd :: mid ++ n :: hi).length) (hn : (r.heap n).val = x) :
    ∃ p c, p ∈ hd :: mid ∧ (hi ++ (hd :: mid)).head? = some c ∧ (r.heap n).next = some c ∧
      remove r x = .ok { r with heap := joined r.heap p c, size := r.size - 1 } ∧
      IsRingAt { r with heap := joined r.heap p c, size := r.size - 1 } (hd :: mid ++ hi) (l.erase x) := by
  have hh := hr.head
  simp only [List.cons_append, List.head?_cons] at hh
  have hsz := hr.size
  have hnd := hr.nodup
  have hvn : (r.heap hd).val ≠ x := by
    intro e
    have := hr.val_inj (a := hd) (b := n) (by simp) (by simp) (e.trans hn.symm)
    subst this
    simp at hnd
  have hr0 : IsRingAt r (hd :: (mid ++ n :: hi)) l := hr
  have hpath := hr0.path
  have hloop := removeLoop_eq (h := r.heap) (hv := (r.heap hd).val) (hex := x) (fuel := r.cap + 1) stops_endOf hpath.2 hr0.rest_ne_head
    (fun a ha => hr0.keys a (List.mem_cons_of_mem _ ha)) (List.pairwise_cons.mp hr0.sorted_nodes).2
    (by have := hr0.length_le_cap; simp at this ⊢; omega)
  rw [← hpath.1] at hloop
  have hf : (mid ++ n :: hi).find? (fun a => (r.heap a).val = x) = some n := by
    rw [List.find?_append, List.find?_eq_none.mpr]
    · simp [hn]
    · intro a ha e
      simp only [decide_eq_true_eq] at e
      have := hr.val_inj (a := a) (b := n) (by simp [ha]) (by simp) (e.trans hn.symm)
      subst this
      rw [List.nodup_append] at hnd
      exact hnd.2.2 a (by simp [ha]) a (by simp) rfl
  rw [hf] at hloop
  obtain ⟨p, c, hp, hc, hpn, hnc⟩ := hr.neighbours (by omega)
  have hp' : (hd :: mid).getLast? = some p := by
    rw [List.getLast?_append] at hp
    have : ∃ z, (hd :: mid).getLast? = some z := ⟨_, List.getLast?_eq_some_getLast (by simp)⟩
    obtain ⟨z, hz⟩ := this
    rw [hz] at hp ⊢
    simpa using hp
  have hj := join_isRing hr (by simp) hlen3 hp' hc
  have hpm : p ∈ (hd :: mid) ++ n :: hi := List.mem_append_left _ (List.mem_of_getLast? hp')
  have hcm : c ∈ (hd :: mid) ++ n :: hi := by
    have := List.mem_of_head? hc
    simp only [List.mem_append, List.mem_cons] at this ⊢
    grind
  have hvne : ¬ (r.heap p).val = (r.heap c).val := by
    intro h
    have hpc := hr.val_inj hpm hcm h
    subst hpc
    cases hi with
    | nil =>
      simp at hc
      subst hc
      cases mid with
      | nil => simp at hlen3
      | cons d mid =>
        have := getLast_not_mem_dropLast (List.nodup_append.mp hnd).1 hp'
        apply this
        simp [List.dropLast_cons_cons]
    | cons d hi =>
      simp at hc
      subst hc
      have := (List.nodup_append.mp hnd).2.2 d (List.mem_of_getLast? hp') d (by simp)
      exact this rfl
  have hunl : unlink r.heap n = joined r.heap p c := by
    simp only [unlink, hpn.2.1, hnc.1, if_neg hvne]
    exact join_writes r.heap p c
  refine ⟨p, c, List.mem_of_getLast? hp', hc, hnc.1, ?_, ?_⟩
  · have hsz0 : r.size ≠ 0 := by omega
    have hsz1 : r.size ≠ 1 := by omega
    have hsz2 : r.size ≠ 2 := by omega
    unfold remove
    rw [if_neg (by simp [hx])]
    simp only [if_neg hsz0, if_neg hsz1, if_neg hsz2, hh, deref, bind, Except.bind, pure, Except.pure, if_neg hvn]
    rw [hloop]
    simp only [hunl]
  · have e : l.erase x = ((hd :: mid).map fun a => (r.heap a).val) ++ (hi.map fun a => (r.heap a).val) := by
      rw [← hr.vals, List.map_append, show (n :: hi).map (fun a => (r.heap a).val) = x :: hi.map (fun a => (r.heap a).val) by rw [List.map_cons, hn], List.erase_append_right]
      · simp
      · intro hm
        obtain ⟨a, ha, hax⟩ := List.mem_map.mp hm
        have := hr.val_inj (a := a) (b := n) (List.mem_append_left _ ha) (by simp) (hax.trans hn.symm)
        subst this
        rw [List.nodup_append] at hnd
        exact hnd.2.2 a ha a (by simp) rfl
    rw [e]
    exact hj

/-- From every node of a ring of two or more the next one is a node of the ring. -/
theorem next_mem {r : Ring} {as : List Nat} {l : List Hex} (hr : IsRingAt r as l) (h2 : 2 ≤ as.length) {a : Nat} (ha : a ∈ as) :
    ∃ b ∈ as, (r.heap a).next = some b := by
  obtain ⟨lo, hi, rfl⟩ := List.append_of_mem ha
  obtain ⟨_, c, _, hc, _, hl⟩ := hr.neighbours h2
  refine ⟨c, ?_, hl.1⟩
  have := List.mem_of_head? hc
  simp only [List.mem_append, List.mem_cons] at this ⊢
  rcases this with h | h
  · exact Or.inr (Or.inr h)
  · exact Or.inl h

/-- Walking round a ring in search of something that is not there never ends. -/
theorem walk_forever {r : Ring} {as : List Nat} {l : List Hex} (hr : IsRingAt r as l) (h2 : 2 ≤ as.length) {y : Hex} (hy : y ∉ l) :
    ∀ (fuel : Nat) {a : Nat}, a ∈ as → rangeLoop r.heap y fuel (some a) = .error .diverge
  | 0, _, _ => rfl
  | fuel + 1, a, ha => by
    obtain ⟨b, hb, hn⟩ := next_mem hr h2 ha
    have hv : (r.heap a).val ≠ y := by
      intro e
      apply hy
      rw [← hr.vals, ← e]
      exact List.mem_map.mpr ⟨a, ha, rfl⟩
    simp only [rangeLoop, deref, bind, Except.bind, if_neg hv, hn, walk_forever hr h2 hy fuel hb]

theorem ensure_stored {r : Ring} {as : List Nat} {l : List Hex} {x : Hex} (hr : IsRingAt r as l) (hx : validateInput x = true) {n : Nat} (hn : n ∈ as)
    (hv : (r.heap n).val = x) : ensure r x = .ok (r, true, some n) := by
  obtain ⟨k, hk, hkv, hf⟩ := find_node hr (x := x) (by rw [← hr.vals, ← hv]; exact List.mem_map.mpr ⟨n, hn, rfl⟩)
  have : k = n := hr.val_inj hk hn (hkv.trans hv.symm)
  subst this
  simp [ensure, get_eq hr hx, hf, bind, Except.bind, pure, Except.pure]

/-- The node of something larger than a stored identifier is not the first. -/
theorem not_first {r : Ring} {as : List Nat} {l : List Hex} {x z : Hex} (hr : IsRingAt r as l) (hz : z ∈ l) (hzx : keyOf z < keyOf x) {n : Nat} (hn : n ∈ as)
    (hv : (r.heap n).val = x) : ∃ hd mid hi, as = hd :: mid ++ n :: hi := by
  obtain ⟨lo, hi, rfl⟩ := List.append_of_mem hn
  cases lo with
  | cons hd mid => exact ⟨hd, mid, hi, rfl⟩
  | nil =>
    exfalso
    have hs := hr.sorted
    rw [← hr.vals, List.nil_append, List.map_cons, hv] at hs
    rw [← hr.vals, List.nil_append, List.map_cons, hv] at hz
    rcases List.mem_cons.mp hz with rfl | hz
    · omega
    · have := (List.pairwise_cons.mp hs).1 z hz; omega

/-- Two listings of the same range: one begins, the other begins, the first walks and ends, and the second never ends. -/
theorem endless_ring {r : Ring} {l : List Hex} {x y z : Hex} (hr : IsRing r l) (h2 : 2 ≤ l.length) (hx : validateInput x = true) (hy : validateInput y = true)
    (hxl : ∀ w ∈ l, keyOf w ≠ keyOf x) (hyl : ∀ w ∈ l, keyOf w ≠ keyOf y) (hxy : keyOf x ≠ keyOf y) (hz : z ∈ l) (hzx : keyOf z < keyOf x)
    (hzy : keyOf z < keyOf y) :
    ∃ r' res l2, listTwo r x y = .ok (r', res, l2) ∧ (∃ r0, getWithinRange r x y = .ok (r0, .val res)) ∧
      ∀ fuel, listWalk r' x y l2 fuel = .error .diverge := by
  have hr0 := hr
  obtain ⟨as, hr⟩ := hr
  have hspx : SameSpelling l x := fun w hw e => absurd e (hxl w hw)
  have hspy : SameSpelling l y := fun w hw e => absurd e (hyl w hw)
  have hnx : x ∉ l := fun h => hxl x h rfl
  have hny : y ∉ l := fun h => hyl y h rfl
  obtain ⟨r1, as1, s, e1, hr1, hs1, hv1, _⟩ := ensure_eq hr hx hspx
  have hspy1 := sameSpelling_add hspy hxy
  obtain ⟨r2, as2, t, e2, hr2, ht2, hv2, hkeep⟩ := ensure_eq hr1 hy hspy1
  obtain ⟨hs2, hsv⟩ := hkeep s hs1
  rw [hv1] at hsv
  have hny1 : y ∉ addSorted x l := fun h => by
    rcases mem_addSorted h with h | h
    · exact hxy (by rw [h])
    · exact hny h
  rw [decide_eq_false hnx] at e1
  rw [decide_eq_false hny1] at e2
  -- both begin
  have hb1 : listBegin r x y = .ok (r2, some ⟨s, false, t, false⟩) := by
    unfold listBegin
    rw [if_neg (by simp [hx, hy])]
    simp only [e1, e2, bind, Except.bind, pure, Except.pure]
  have hb2 : listBegin r2 x y = .ok (r2, some ⟨s, true, t, true⟩) := by
    unfold listBegin
    rw [if_neg (by simp [hx, hy])]
    simp only [ensure_stored hr2 hx hs2 hsv, ensure_stored hr2 hy ht2 hv2, bind, Except.bind, pure, Except.pure]
  -- the first walks
  obtain ⟨r0, hw, _⟩ := getWithinRange_eq hr0 hx hy hspx hspy hxy
  generalize harc : arc (keyOf x) (keyOf y) l = res at hw
  have hwalk : listWalk r2 x y ⟨s, false, t, false⟩ (r2.cap + 1) = .ok res := by
    unfold getWithinRange at hw
    rw [if_neg (by simp [hx, hy])] at hw
    simp only [e1, e2, bind, Except.bind, pure, Except.pure] at hw
    unfold listWalk
    simp only [bind, Except.bind, pure, Except.pure]
    cases hl : rangeLoop r2.heap (r2.heap t).val (r2.cap + 1) (r2.heap s).next with
    | error f => rw [hl] at hw; cases hw
    | ok mid =>
      rw [hl] at hw
      simp only at hw
      cases h3 : dropTemp r2 y false with
      | error f => rw [h3] at hw; cases hw
      | ok r3 =>
        rw [h3] at hw
        simp only at hw
        cases h4 : dropTemp r3 x false with
        | error f => rw [h4] at hw; cases hw
        | ok r4 =>
          rw [h4] at hw
          simp only [Except.ok.injEq, Prod.mk.injEq, Ret.val.injEq] at hw
          simp only [hw.2]
  -- the first ends: `y` goes
  have hz2 : z ∈ addSorted y (addSorted x l) := addSorted_mem (addSorted_mem hz)
  have hst : s ≠ t := fun h => by
    rw [h, hv2] at hsv
    exact hxy (by rw [hsv])
  have hlen2 : 4 ≤ as2.length := by
    rw [← hr2.length]
    obtain ⟨lo, hi, hl, h3, _⟩ := addSorted_new hr.sorted hxl
    obtain ⟨lo', hi', hl', h3', _⟩ := addSorted_new hr1.sorted (x := y) (fun w hw e => hny1 (by rw [← hspy1 w hw e]; exact hw))
    have g1 := congrArg List.length hl
    have g2 := congrArg List.length hl'
    rw [h3'] 
    rw [h3] at g2
    simp at g1 g2 ⊢
    omega
  obtain ⟨hd, mid, hi, has2⟩ := not_first hr2 hz2 hzy ht2 hv2
  rw [has2] at hr2 hlen2
  obtain ⟨p, c, hpm, hcm, _, hrem1, hr3⟩ := remove_at hr2 hy (by omega) hv2
  generalize hR3 : ({ r2 with heap := joined r2.heap p c, size := r2.size - 1 } : Ring) = r3 at hrem1 hr3
  have hs3 : s ∈ hd :: mid ++ hi := by
    rw [has2] at hs2
    simp only [List.mem_append, List.mem_cons] at hs2 ⊢
    grind
  have hval3 : ∀ k, (r3.heap k).val = (r2.heap k).val := fun k => by rw [← hR3]; rfl
  -- `x` goes
  have hz3 : z ∈ (addSorted y (addSorted x l)).erase y := by
    refine (List.mem_erase_of_ne ?_).mpr hz2
    intro e
    rw [e] at hzy
    omega
  obtain ⟨hd', mid', hi', has3⟩ := not_first hr3 hz3 hzx hs3 (by rw [hval3, hsv])
  have hlen3 : (hd :: mid ++ hi).length = (hd :: mid ++ t :: hi).length - 1 := by simp; omega
  have hnd3 := hr3.nodup
  rw [has3] at hr3 hlen3 hnd3
  obtain ⟨p', c', hpm', hcm', hnext, hrem2, hr4⟩ := remove_at hr3 hx (by omega) (by rw [hval3, hsv])
  generalize hR4 : ({ r3 with heap := joined r3.heap p' c', size := r3.size - 1 } : Ring) = r4 at hrem2 hr4
  have hend : listEnd r2 x y ⟨s, false, t, false⟩ = .ok r4 := by
    unfold listEnd dropTemp
    simp only [bind, Except.bind, hrem1]
    simpa using hrem2
  have hps : s ≠ p' := by
    rintro rfl
    rw [List.nodup_append] at hnd3
    exact hnd3.2.2 s hpm' s (by simp) rfl
  have hsn : (r4.heap s).next = some c' := by
    rw [← hR4]
    simp only [joined, if_neg hps]
    exact hnext
  have hty : (r4.heap t).val = y := by
    rw [← hR4]
    simp only [joined]
    rw [hval3, hv2]
  refine ⟨r4, res, ⟨s, true, t, true⟩, ?_, ⟨r0, hw⟩, ?_⟩
  · unfold listTwo
    simp only [hb1, hb2, hwalk, hend, bind, Except.bind, pure, Except.pure]
  · intro fuel
    have hc4 : c' ∈ hd' :: mid' ++ hi' := by
      have := List.mem_of_head? hcm'
      simp only [List.mem_append, List.mem_cons] at this ⊢
      grind
    have hny4 : y ∉ ((addSorted y (addSorted x l)).erase y).erase x := by
      intro h
      have h := List.mem_of_mem_erase h
      have hn := isRing_nodup ⟨_, hr2⟩
      exact (List.Nodup.not_mem_erase hn) h
    have := walk_forever hr4 (by simp at hlen3 hlen2 ⊢; omega) hny4 fuel hc4
    unfold listWalk
    simp only [hty, hsn, this, bind, Except.bind]

theorem addSorted_grows {l : List Hex} {x : Hex} (hs : l.Pairwise (fun a b => keyOf a < keyOf b)) (hsp : SameSpelling l x) (hx : x ∉ l) :
    (addSorted x l).length = l.length + 1 := by
  obtain ⟨lo, hi, h1, h2, _⟩ := addSorted_new hs (x := x) (fun w hw e => hx (by rw [← hsp w hw e]; exact hw))
  rw [h2, h1]
  simp
  omega

/-- A ring that counts one too many lists the same. -/
theorem range_counted {r : Ring} {l : List Hex} (hr : IsRing r l) (h3 : 3 ≤ l.length) {a : Hex} (ha : validateInput a = true) (hsp : SameSpelling l a) (b : Hex) :
    getWithinRange (bump r) a b = (getWithinRange r a b).map (fun e => (bump e.1, e.2)) := by
  have hsz := isRing_size hr
  refine range_bump (by omega) ?_ b
  intro r1 s he
  obtain ⟨as, hr⟩ := hr
  obtain ⟨r1', as1, n, e1, hr1, _⟩ := ensure_eq hr ha hsp
  rw [e1] at he
  simp only [Except.ok.injEq, Prod.mk.injEq, decide_eq_false_iff_not] at he
  obtain ⟨rfl, hm, _⟩ := he
  rw [hr1.size, ← hr1.length, addSorted_grows hr.sorted hsp hm, hsz]
  omega

/-- The two writes, once both places have been found. -/
theorem apart_links {r : Ring} {los mids his : List Nat} {l : List Hex} {a b : Hex} {na nb p c p' c' : Nat} (hr : IsRingAt r (los ++ mids ++ his) l)
    (ha : validateInput a = true) (hb : validateInput b = true) (hna : na ∉ los ++ mids ++ his) (hnb : nb ∉ los ++ mids ++ his) (hab : na ≠ nb)
    (hca : na < r.cap) (hcb : nb < r.cap) (hka : (r.heap na).key = keyOf a) (hva : (r.heap na).val = a) (hkb : (r.heap nb).key = keyOf b) (hvb : (r.heap nb).val = b)
    (hp : los.getLast? = some p) (hc : mids.head? = some c) (hp' : mids.getLast? = some p') (hc' : his.head? = some c')
    (hlo : ∀ n ∈ los, (r.heap n).key < keyOf a) (hmid : ∀ n ∈ mids, keyOf a < (r.heap n).key ∧ (r.heap n).key < keyOf b)
    (hhi : ∀ n ∈ his, keyOf b < (r.heap n).key) (hlt : keyOf a < keyOf b) :
    IsRing (insertLink (insertLink r (some ⟨na, p, c, c, false⟩)) (some ⟨nb, p', c', c', false⟩))
      (los.map (fun n => (r.heap n).val) ++ a :: mids.map (fun n => (r.heap n).val) ++ b :: his.map (fun n => (r.heap n).val)) ∧
    IsRing (insertLink (insertLink r (some ⟨nb, p', c', c', false⟩)) (some ⟨na, p, c, c, false⟩))
      (los.map (fun n => (r.heap n).val) ++ a :: mids.map (fun n => (r.heap n).val) ++ b :: his.map (fun n => (r.heap n).val)) := by
  have hlo0 : los ≠ [] := by rintro rfl; simp at hp
  have hmid0 : mids ≠ [] := by rintro rfl; simp at hc
  have hpm := List.mem_of_getLast? hp
  have hcm := List.mem_of_head? hc
  have hpm' := List.mem_of_getLast? hp'
  have hcm' := List.mem_of_head? hc'
  simp only [List.mem_append, not_or] at hna hnb
  have d1 : p ≠ na := fun e => hna.1.1 (e ▸ hpm)
  have d2 : c ≠ na := fun e => hna.1.2 (e ▸ hcm)
  have d3 : p' ≠ nb := fun e => hnb.1.2 (e ▸ hpm')
  have d4 : c' ≠ nb := fun e => hnb.2 (e ▸ hcm')
  constructor
  · have s1 := splice_isRing (r := r) (lo := los) (hi := mids ++ his) (n := na) (p := p) (c := c) (x := a) (by rw [← List.append_assoc]; exact hr) (by simp [hlo0])
      (by simp [hna]) hca hka hva ha hlo (by
        intro n hn
        rcases List.mem_append.mp hn with h | h
        · exact (hmid n h).1
        · have := hhi n h; omega)
      (by rw [List.getLast?_append, hp]; rfl) (by rw [List.append_assoc, List.head?_append, hc]; rfl)
    rw [if_neg hlo0, show los ++ na :: (mids ++ his) = (los ++ na :: mids) ++ his by simp] at s1
    have s2 := splice_isRing (n := nb) (p := p') (c := c') (x := b) s1 (by simp)
      (by simp [hnb, hab.symm]) hcb (by simp [spliced, hkb]) (by simp [spliced, hvb]) hb (by
        intro n hn
        simp only [spliced]
        simp only [List.mem_append, List.mem_cons] at hn
        rcases hn with h | rfl | h
        · have := hlo n h; omega
        · rw [hka]; exact hlt
        · exact (hmid n h).2) (by
        intro n hn
        exact hhi n hn)
      (by rw [List.getLast?_append, List.getLast?_append, List.getLast?_cons, hp']; rfl) (by rw [List.head?_append, hc']; rfl)
    rw [if_neg (by simp)] at s2
    refine ⟨los ++ na :: mids ++ nb :: his, ?_⟩
    · simp only [insertLink]
      rw [splice_writes _ d1 d2 rfl, splice_writes _ d3 d4 rfl]
      simpa [spliced, hva] using s2
  · have s1 := splice_isRing (r := r) (lo := los ++ mids) (hi := his) (n := nb) (p := p') (c := c') (x := b) hr (by simp [hlo0])
      (by simp [hnb]) hcb hkb hvb hb (by
        intro n hn
        rcases List.mem_append.mp hn with h | h
        · have := hlo n h; omega
        · exact (hmid n h).2) hhi
      (by rw [List.getLast?_append, List.getLast?_append, hp']; rfl) (by rw [List.head?_append, hc']; rfl)
    rw [if_neg (by simp [hlo0]), show los ++ mids ++ nb :: his = los ++ (mids ++ nb :: his) by simp] at s1
    have s2 := splice_isRing (n := na) (p := p) (c := c) (x := a) s1 (by simp)
      (by simp [hna, hab]) hca (by simp [spliced, hka]) (by simp [spliced, hva]) ha (by
        intro n hn
        exact hlo n hn) (by
        intro n hn
        simp only [spliced]
        simp only [List.mem_append, List.mem_cons] at hn
        rcases hn with h | rfl | h
        · exact (hmid n h).1
        · rw [hkb]; exact hlt
        · have := hhi n h; omega)
      (by rw [List.getLast?_append, hp]; rfl) (by rw [List.append_assoc, List.head?_append, hc]; rfl)
    rw [if_neg hlo0] at s2
    refine ⟨los ++ na :: mids ++ nb :: his, ?_⟩
    · simp only [insertLink]
      rw [splice_writes _ d3 d4 rfl, splice_writes _ d1 d2 rfl]
      simpa [spliced, hvb] using s2

/-- The two searches one after the other. -/
theorem look_two {r : Ring} {los his los' his' : List Nat} {l : List Hex} {a b : Hex} {p c p' c' : Nat} (hr : IsRingAt r (los ++ his) l)
    (ha : validateInput a = true) (hb : validateInput b = true) (hsame : los' ++ his' = los ++ his)
    (hp : los.getLast? = some p) (hc : his.head? = some c) (hp' : los'.getLast? = some p') (hc' : his'.head? = some c')
    (hlo : ∀ n ∈ los, (r.heap n).key < keyOf a) (hhi : ∀ n ∈ his, keyOf a < (r.heap n).key)
    (hlo' : ∀ n ∈ los', (r.heap n).key < keyOf b) (hhi' : ∀ n ∈ his', keyOf b < (r.heap n).key) :
    ∃ r1 r2, insertLook r a = .ok (r1, some ⟨r.cap, p, c, c, false⟩) ∧ insertLook r1 b = .ok (r2, some ⟨r.cap + 1, p', c', c', false⟩) ∧
      IsRingAt r2 (los ++ his) l ∧ r2.cap = r.cap + 2 ∧ (∀ n ∈ los ++ his, r2.heap n = r.heap n) ∧
      (r2.heap r.cap).key = keyOf a ∧ (r2.heap r.cap).val = a ∧ (r2.heap (r.cap + 1)).key = keyOf b ∧ (r2.heap (r.cap + 1)).val = b := by
  have hr1 : IsRingAt (allocNode r a) (los ++ his) l := hr.alloc_upd fun _ => ⟨none, none, keyOf a, a, none, none⟩
  have hold1 : ∀ n ∈ los ++ his, (allocNode r a).heap n = r.heap n := by
    intro n hn
    simp [allocNode, Heap.upd, Nat.ne_of_lt (hr.alloc n hn)]
  have e1 := look_mid hr ha hp hc hlo hhi
  have e2 := look_mid (by rw [hsame]; exact hr1) hb hp' hc' (fun n hn => by rw [hold1 n (by rw [← hsame]; exact List.mem_append_left _ hn)]; exact hlo' n hn)
    (fun n hn => by rw [hold1 n (by rw [← hsame]; exact List.mem_append_right _ hn)]; exact hhi' n hn)
  refine ⟨_, _, e1, e2, hr1.alloc_upd fun _ => ⟨none, none, keyOf b, b, none, none⟩, rfl, ?_, ?_, ?_, ?_, ?_⟩
  · intro n hn
    have := hr.alloc n hn
    simp [allocNode, Heap.upd]
    split
    · omega
    · rw [if_neg (by omega)]
  · simp [allocNode, Heap.upd]
  · simp [allocNode, Heap.upd]
  · simp [allocNode, Heap.upd]
  · simp [allocNode, Heap.upd]

/-- Two insertions into different gaps, search, search, write, write in either order: both are in the ring. -/
theorem apart_ring {r : Ring} {los mids his : List Nat} {l : List Hex} {a b : Hex} (hr : IsRingAt r (los ++ mids ++ his) l) (hlo0 : los ≠ []) (hmid0 : mids ≠ [])
    (hhi0 : his ≠ []) (ha : validateInput a = true) (hb : validateInput b = true) (hlo : ∀ n ∈ los, (r.heap n).key < keyOf a)
    (hmid : ∀ n ∈ mids, keyOf a < (r.heap n).key ∧ (r.heap n).key < keyOf b) (hhi : ∀ n ∈ his, keyOf b < (r.heap n).key) :
    (∃ r1 p r2 q, insertLook r a = .ok (r1, p) ∧ insertLook r1 b = .ok (r2, q) ∧
      ∀ r', r' = insertLink (insertLink r2 p) q ∨ r' = insertLink (insertLink r2 q) p →
        IsRing r' (los.map (fun n => (r.heap n).val) ++ a :: mids.map (fun n => (r.heap n).val) ++ b :: his.map (fun n => (r.heap n).val))) ∧
    (∃ r1 p r2 q, insertLook r b = .ok (r1, p) ∧ insertLook r1 a = .ok (r2, q) ∧
      ∀ r', r' = insertLink (insertLink r2 p) q ∨ r' = insertLink (insertLink r2 q) p →
        IsRing r' (los.map (fun n => (r.heap n).val) ++ a :: mids.map (fun n => (r.heap n).val) ++ b :: his.map (fun n => (r.heap n).val))) := by
  obtain ⟨p, hp⟩ : ∃ p, los.getLast? = some p := ⟨_, List.getLast?_eq_some_getLast hlo0⟩
  obtain ⟨c, hc⟩ : ∃ c, mids.head? = some c := ⟨_, List.head?_eq_some_head hmid0⟩
  obtain ⟨p', hp'⟩ : ∃ p, mids.getLast? = some p := ⟨_, List.getLast?_eq_some_getLast hmid0⟩
  obtain ⟨c', hc'⟩ : ∃ c, his.head? = some c := ⟨_, List.head?_eq_some_head hhi0⟩
  have hlt : keyOf a < keyOf b := by have := hmid c (List.mem_of_head? hc); omega
  have h1 : ∀ n ∈ mids ++ his, keyOf a < (r.heap n).key := by
    intro n hn
    rcases List.mem_append.mp hn with h | h
    · exact (hmid n h).1
    · have := hhi n h; omega
  have h2 : ∀ n ∈ los ++ mids, (r.heap n).key < keyOf b := by
    intro n hn
    rcases List.mem_append.mp hn with h | h
    · have := hlo n h; omega
    · exact (hmid n h).2
  have hout : ∀ k, r.cap ≤ k → k ∉ los ++ mids ++ his := fun k hk hm => by have := hr.alloc k hm; omega
  have hmap : ∀ (r2 : Ring), (∀ n ∈ los ++ mids ++ his, r2.heap n = r.heap n) → ∀ ns : List Nat, (∀ n ∈ ns, n ∈ los ++ mids ++ his) →
      ns.map (fun n => (r2.heap n).val) = ns.map (fun n => (r.heap n).val) := by
    intro r2 h ns hns
    apply List.map_congr_left
    intro n hn
    rw [h n (hns n hn)]
  have m1 : ∀ n ∈ los, n ∈ los ++ mids ++ his := fun n h => by simp [h]
  have m2 : ∀ n ∈ mids, n ∈ los ++ mids ++ his := fun n h => by simp [h]
  have m3 : ∀ n ∈ his, n ∈ los ++ mids ++ his := fun n h => by simp [h]
  constructor
  · obtain ⟨r1, r2, e1, e2, g1, g2, g3, k1, k2, k3, k4⟩ := look_two (los := los) (his := mids ++ his) (los' := los ++ mids) (his' := his) (by rw [← List.append_assoc]; exact hr)
      ha hb (by simp) hp (by rw [List.head?_append, hc]; rfl) (by rw [List.getLast?_append, hp']; rfl) hc' hlo h1 h2 hhi
    rw [← List.append_assoc] at g1 g3
    have := apart_links g1 ha hb (hout r.cap (by omega)) (hout (r.cap + 1) (by omega)) (by omega) (by omega) (by omega) k1 k2 k3 k4 hp hc hp' hc'
      (fun n h => by rw [g3 n (m1 n h)]; exact hlo n h) (fun n h => by rw [g3 n (m2 n h)]; exact hmid n h) (fun n h => by rw [g3 n (m3 n h)]; exact hhi n h) hlt
    rw [hmap r2 g3 los m1, hmap r2 g3 mids m2, hmap r2 g3 his m3] at this
    refine ⟨_, _, _, _, e1, e2, ?_⟩
    rintro r' (rfl | rfl)
    · exact this.1
    · exact this.2
  · obtain ⟨r1, r2, e1, e2, g1, g2, g3, k1, k2, k3, k4⟩ := look_two (los := los ++ mids) (his := his) (los' := los) (his' := mids ++ his) hr
      hb ha (by simp) (by rw [List.getLast?_append, hp']; rfl) hc' hp (by rw [List.head?_append, hc]; rfl) h2 hhi hlo h1
    have := apart_links g1 ha hb (hout (r.cap + 1) (by omega)) (hout r.cap (by omega)) (by omega) (by omega) (by omega) k3 k4 k1 k2 hp hc hp' hc'
      (fun n h => by rw [g3 n (m1 n h)]; exact hlo n h) (fun n h => by rw [g3 n (m2 n h)]; exact hmid n h) (fun n h => by rw [g3 n (m3 n h)]; exact hhi n h) hlt
    rw [hmap r2 g3 los m1, hmap r2 g3 mids m2, hmap r2 g3 his m3] at this
    refine ⟨_, _, _, _, e1, e2, ?_⟩
    rintro r' (rfl | rfl)
    · exact this.2
    · exact this.1

end FcRetrieval.RingShared
