import Verif.Lemmas.RingInsert
/-! Helper lemmas: the pointer-chasing loops on well-formed rings, and the effect of `Insert`. -/

namespace FcRetrieval.Ring

/-- Following `next` from the first of `xs` visits `xs` and then arrives at the pointer `e`. -/
def Path (h : Heap) : List Nat → Option Nat → Prop
  | [], _ => True
  | a :: xs, e => (h a).next = xs.head?.or e ∧ Path h xs e

/-- The pointer is nil or back at the head. -/
def Stops (h : Heap) (headVal : Hex) (e : Option Nat) : Prop :=
  ∀ z, e = some z → (h z).val = headVal

theorem path_append {h : Heap} {e : Option Nat} : ∀ {xs ys : List Nat}, Path h (xs ++ ys) e →
    Path h ys e ∧ Path h xs (ys.head?.or e)
  | [], ys, hp => ⟨hp, trivial⟩
  | a :: xs, ys, hp => by
    obtain ⟨h1, h2⟩ := hp
    obtain ⟨h3, h4⟩ := path_append h2
    refine ⟨h3, ?_, h4⟩
    rw [h1]
    show (xs ++ ys).head?.or e = _
    rw [List.head?_append, Option.or_assoc]

theorem path_of_links {h : Heap} {e : Option Nat} : ∀ {xs : List Nat}, Consecutive (Linked h) xs →
    (∀ a, xs.getLast? = some a → (h a).next = e) → Path h xs e
  | [], _, _ => trivial
  | [a], _, he => ⟨by simpa using he a rfl, trivial⟩
  | a :: b :: xs, hc, he => by
    refine ⟨by simpa using hc.1.1, path_of_links hc.2 ?_⟩
    intro z hz
    exact he z (by rw [List.getLast?_cons_cons]; exact hz)

/-- Where the walk through a ring `hd :: rest` ends: nil when there is one node, else back at the head. -/
def endOf (hd : Nat) (rest : List Nat) : Option Nat := if rest = [] then none else some hd

theorem IsRingAt.path {r : Ring} {hd : Nat} {rest : List Nat} {l : List Hex} (hr : IsRingAt r (hd :: rest) l) :
    Path r.heap (hd :: rest) (endOf hd rest) := by
  apply path_of_links hr.links
  intro a ha
  cases rest with
  | nil =>
    simp at ha; subst ha
    simpa [endOf] using (hr.single hd rfl).1
  | cons b rest =>
    simpa [endOf] using (hr.closed (by simp) a hd ha (by simp)).1

theorem stops_endOf {h : Heap} {hd : Nat} {rest : List Nat} : Stops h (h hd).val (endOf hd rest) := by
  intro z hz
  unfold endOf at hz
  split at hz
  · simp at hz
  · simp at hz; rw [hz]

/-- Distinct nodes hold distinct strings. -/
theorem IsRingAt.val_inj {r : Ring} {as : List Nat} {l : List Hex} (hr : IsRingAt r as l) {a b : Nat}
    (ha : a ∈ as) (hb : b ∈ as) (h : (r.heap a).val = (r.heap b).val) : a = b := by
  have hk : (r.heap a).key = (r.heap b).key := by rw [hr.keys a ha, hr.keys b hb, h]
  obtain ⟨i, hi, rfl⟩ := List.getElem_of_mem ha
  obtain ⟨j, hj, rfl⟩ := List.getElem_of_mem hb
  have hs := List.pairwise_iff_getElem.mp hr.sorted_nodes
  rcases Nat.lt_trichotomy i j with hij | hij | hij
  · have := hs i j hi hj hij; omega
  · subst hij; rfl
  · have := hs j i hj hi hij; omega

theorem IsRingAt.rest_ne_head {r : Ring} {hd : Nat} {rest : List Nat} {l : List Hex}
    (hr : IsRingAt r (hd :: rest) l) : ∀ a ∈ rest, (r.heap a).val ≠ (r.heap hd).val := by
  intro a ha h
  have := hr.val_inj (List.mem_cons_of_mem _ ha) (List.mem_cons_self) h
  subst this
  exact (List.nodup_cons.mp hr.nodup).1 ha

theorem walk_eq {h : Heap} {hv : Hex} {e : Option Nat} (hs : Stops h hv e) : ∀ {xs : List Nat} {fuel : Nat},
    Path h xs e → (∀ a ∈ xs, (h a).val ≠ hv) → xs.length < fuel →
    walk h hv fuel (xs.head?.or e) = .ok (xs.map fun a => (h a).val)
  | [], fuel + 1, _, _, _ => by
    simp only [List.head?_nil, Option.none_or, List.map_nil]
    cases e with
    | none => rfl
    | some z => simp [walk, hs z rfl]
  | a :: xs, fuel + 1, hp, hne, hf => by
    have ih := walk_eq hs (xs := xs) (fuel := fuel) hp.2 (fun b hb => hne b (List.mem_cons_of_mem _ hb))
      (by simpa using hf)
    simp only [List.head?_cons, Option.some_or, walk]
    rw [if_neg (hne a (by simp)), hp.1, ih]
    rfl

theorem getLoop_eq {h : Heap} {hv hex : Hex} {e : Option Nat} (hs : Stops h hv e) : ∀ {xs : List Nat} {fuel : Nat},
    Path h xs e → (∀ a ∈ xs, (h a).val ≠ hv) → xs.length < fuel →
    getLoop h hv hex fuel (xs.head?.or e) = .ok (xs.find? fun a => (h a).val = hex)
  | [], fuel + 1, _, _, _ => by
    simp only [List.head?_nil, Option.none_or, List.find?_nil]
    cases e with
    | none => rfl
    | some z => simp [getLoop, hs z rfl]
  | a :: xs, fuel + 1, hp, hne, hf => by
    have ih := getLoop_eq hs (hex := hex) (xs := xs) (fuel := fuel) hp.2 (fun b hb => hne b (List.mem_cons_of_mem _ hb))
      (by simpa using hf)
    simp only [List.head?_cons, Option.some_or, getLoop]
    rw [if_neg (hne a (by simp)), hp.1, ih]
    by_cases hh : (h a).val = hex <;> simp [hh]

theorem dump_eq {r : Ring} {l : List Hex} (hr : IsRing r l) : dump r = .ok l := by
  obtain ⟨as, hr⟩ := hr
  cases as with
  | nil =>
    have h1 := hr.head
    have h2 := hr.vals
    simp at h1 h2
    simp [dump, h1, ← h2]
  | cons hd rest =>
    have h1 := hr.head
    simp at h1
    have hw := walk_eq (fuel := r.cap + 1) stops_endOf hr.path.2 hr.rest_ne_head
      (by have := hr.length_le_cap; simp at this; omega)
    simp only [dump, h1]
    rw [hr.path.1, hw, ← hr.vals]
    rfl

/-- The loop of `Insert` finds the gap between smaller and larger keys. -/
theorem insertLoop_eq {h : Heap} {hv : Hex} {k : Nat} {e : Option Nat} (hs : Stops h hv e) {hi : List Nat}
    (hph : Path h hi e) (hhi : ∀ a ∈ hi, k ≤ (h a).key) (hneh : ∀ a ∈ hi, (h a).val ≠ hv) :
    ∀ {lo : List Nat} {prv fuel : Nat},
    Path h lo (hi.head?.or e) → (∀ a ∈ lo, (h a).key < k) → (∀ a ∈ lo, (h a).val ≠ hv) →
    lo.length < fuel →
    insertLoop h hv k fuel prv (lo.head?.or (hi.head?.or e)) =
      .ok (match hi with
        | [] => .atEnd ((prv :: lo).getLast (by simp)) e
        | c :: _ => if (h c).key = k then .exists else .between ((prv :: lo).getLast (by simp)) c)
  | [], prv, fuel + 1, _, _, _, _ => by
    cases hi with
    | nil =>
      cases e with
      | none => simp [insertLoop]
      | some z => simp [insertLoop, hs z rfl]
    | cons c hi =>
      have h1 := hhi c (by simp)
      have h2 := hneh c (by simp)
      by_cases hk : (h c).key = k
      · simp [insertLoop, h2, hk]
      · have : (h c).key > k := by omega
        simp [insertLoop, h2, hk, this]
  | a :: lo, prv, fuel + 1, hp, hlo, hne, hf => by
    have ih := insertLoop_eq hs hph hhi hneh (lo := lo) (prv := a) (fuel := fuel) hp.2
      (fun b hb => hlo b (List.mem_cons_of_mem _ hb)) (fun b hb => hne b (List.mem_cons_of_mem _ hb)) (by simpa using hf)
    have h1 := hlo a (by simp)
    have h2 := hne a (by simp)
    simp only [List.head?_cons, Option.some_or, insertLoop]
    rw [if_neg h2, if_neg (by omega), if_neg (by omega), hp.1, ih]
    cases hi <;> simp

/-- A sorted list splits at any value. -/
theorem split_sorted (l : List Nat) (f : Nat → Nat) (k : Nat) (hs : l.Pairwise (fun a b => f a < f b)) :
    ∃ lo hi, l = lo ++ hi ∧ (∀ a ∈ lo, f a < k) ∧ (∀ a ∈ hi, k ≤ f a) := by
  induction l with
  | nil => exact ⟨[], [], rfl, by simp, by simp⟩
  | cons a l ih =>
    rw [List.pairwise_cons] at hs
    by_cases ha : f a < k
    · obtain ⟨lo, hi, rfl, h1, h2⟩ := ih hs.2
      exact ⟨a :: lo, hi, rfl, by simpa [ha] using h1, h2⟩
    · refine ⟨[], a :: l, rfl, by simp, ?_⟩
      intro b hb
      rcases List.mem_cons.mp hb with rfl | hb
      · omega
      · have := hs.1 b hb; omega

theorem addSorted_split {x : Hex} : ∀ {lo hi : List Hex}, (∀ y ∈ lo, keyOf y < keyOf x) →
    (∀ y ∈ hi, keyOf x < keyOf y) → addSorted x (lo ++ hi) = lo ++ x :: hi
  | [], [], _, _ => rfl
  | [], y :: hi, _, h => by simp [addSorted, h y (by simp)]
  | y :: lo, hi, hl, h => by
    have h1 := hl y (by simp)
    have ih := addSorted_split (lo := lo) (hi := hi) (fun z hz => hl z (by simp [hz])) h
    have h2 : ¬ keyOf x < keyOf y := by omega
    have h3 : ¬ keyOf x = keyOf y := by omega
    simp [addSorted, h2, h3, ih]

theorem addSorted_of_mem {x : Hex} : ∀ {l : List Hex}, l.Pairwise (fun a b => keyOf a < keyOf b) →
    (∃ y ∈ l, keyOf y = keyOf x) → addSorted x l = l
  | [], _, h => by simp at h
  | y :: l, hs, h => by
    rw [List.pairwise_cons] at hs
    by_cases h1 : keyOf x = keyOf y
    · simp [addSorted, h1]
    · obtain ⟨z, hz, hzx⟩ := h
      have hzl : z ∈ l := by
        rcases List.mem_cons.mp hz with rfl | h
        · exact absurd hzx.symm h1
        · exact h
      have := hs.1 z hzl
      have h2 : ¬ keyOf x < keyOf y := by omega
      simp [addSorted, h1, h2, addSorted_of_mem hs.2 ⟨z, hzl, hzx⟩]

theorem insert_invalid {r : Ring} {x : Hex} (hx : validateInput x = false) : insert r x = .ok r := by
  simp [insert, hx]

theorem isRing_nil {r : Ring} (hr : IsRing r []) : r.head = none ∧ r.size = 0 := by
  obtain ⟨as, hr⟩ := hr
  have := hr.vals
  simp at this
  subst this
  exact ⟨by simpa using hr.head, by simpa using hr.size⟩

theorem spliced_val {h : Heap} {p n c a : Nat} : (spliced h p n c a).val = (h a).val := by
  unfold spliced; grind

/-- `Insert` with the new node allocated. -/
theorem insertNode_eq {r : Ring} {as : List Nat} {l : List Hex} {x : Hex} {n : Nat} (hr : IsRingAt r as l)
    (hx : validateInput x = true) (hkn : (r.heap n).key = keyOf x) (hvn : (r.heap n).val = x)
    (hnn : (r.heap n).next = none ∧ (r.heap n).prv = none) (hcap : n < r.cap) (hnotin : n ∉ as) :
    ∃ r' as', insertNode r n = .ok r' ∧ IsRingAt r' as' (addSorted x l) ∧
      ∀ a ∈ as, a ∈ as' ∧ (r'.heap a).val = (r.heap a).val := by
  cases as with
  | nil =>
    have h0 := hr.head
    have h1 := hr.vals
    have h2 := hr.size
    simp at h0 h1 h2
    subst h1
    refine ⟨{ r with head := some n, size := 1 }, [n], ?_, ?_, by simp⟩
    · simp [insertNode, h2, deref, bind, Except.bind, pure, Except.pure]
    · constructor <;> try (simp [addSorted, hvn, hkn, hx, hcap, Consecutive]; done)
      · intro a ha
        simp at ha; subst ha
        exact hnn
  | cons hd rest =>
    have hh := hr.head
    simp at hh
    have hsz := hr.size
    have hsz0 : r.size ≠ 0 := by simp at hsz; omega
    have hhdk : (r.heap hd).key = keyOf (r.heap hd).val := hr.keys hd (by simp)
    have hvals := hr.vals
    have hdcap : hd ≠ n := fun e => hnotin (e ▸ (by simp))
    by_cases hke : (r.heap hd).key = keyOf x
    · refine ⟨r, hd :: rest, ?_, ?_, fun a ha => ⟨ha, rfl⟩⟩
      · simp [insertNode, hsz0, hh, deref, bind, Except.bind, pure, Except.pure, hkn, hke]
      · rw [addSorted_of_mem hr.sorted]
        · exact hr
        · refine ⟨(r.heap hd).val, ?_, ?_⟩
          · rw [← hvals]; simp
          · rw [← hhdk, hke]
    · by_cases hkg : (r.heap hd).key > keyOf x
      · -- new smallest key
        have hall : ∀ a ∈ hd :: rest, keyOf x < (r.heap a).key := by
          intro a ha
          have hs := hr.sorted_nodes
          rw [List.pairwise_cons] at hs
          rcases List.mem_cons.mp ha with rfl | ha
          · exact hkg
          · have := hs.1 a ha; omega
        obtain ⟨tl, htl⟩ : ∃ t, (hd :: rest).getLast? = some t := ⟨_, List.getLast?_eq_some_getLast (by simp)⟩
        have htail : (r.heap hd).prv.getD hd = tl := by
          cases rest with
          | nil =>
            rw [(hr.single hd rfl).2]
            simpa using htl
          | cons b rest =>
            have := (hr.closed (by simp) tl hd htl (by simp)).2.1
            rw [this]; rfl
        have htlm : tl ∈ hd :: rest := List.mem_of_getLast? htl
        have hs := splice_isRing (r := r) (lo := []) (hi := hd :: rest) (n := n) (p := tl) (c := hd) (x := x)
          (by simpa using hr) (by simp) (by simpa using hnotin) hcap hkn hvn hx (by simp) hall (by simpa using htl) (by simp)
        have hsp := splice_writes r.heap (p := tl) (n := n) (c := hd) (c' := hd)
            (fun e => hnotin (e ▸ htlm)) hdcap rfl
        have e : addSorted x l = x :: l := by
          have := addSorted_split (x := x) (lo := []) (hi := l) (by simp) (by
            intro y hy
            rw [← hvals] at hy
            obtain ⟨a, ha, rfl⟩ := List.mem_map.mp hy
            rw [← hr.keys a ha]; exact hall a ha)
          simpa using this
        refine ⟨{ r with heap := spliced r.heap tl n hd, head := some n, size := r.size + 1 }, n :: hd :: rest, ?_, ?_,
          fun a ha => ⟨List.mem_cons_of_mem _ ha, spliced_val⟩⟩
        · simp only [insertNode, if_neg hsz0, hh, deref, bind, Except.bind, pure, Except.pure]
          rw [if_neg (by rw [hkn]; exact hke), if_pos (by rw [hkn]; exact hkg), htail, hsp]
        · rw [e, ← hvals]
          simpa using hs
      · -- larger than the head: search
        have hlt : (r.heap hd).key < keyOf x := by omega
        obtain ⟨lo, hi, hsplit, hlo, hhi⟩ := split_sorted rest (fun a => (r.heap a).key) (keyOf x)
          (List.pairwise_cons.mp hr.sorted_nodes).2
        have hpath := hr.path
        have hp2 := hpath.2
        rw [hsplit] at hp2
        obtain ⟨hph, hpl⟩ := path_append hp2
        have hneh := hr.rest_ne_head
        have hlen := hr.length_le_cap
        have hloop := insertLoop_eq (h := r.heap) (hv := (r.heap hd).val) (k := keyOf x) (e := endOf hd (lo ++ hi)) stops_endOf hph hhi
          (fun a ha => hneh a (by rw [hsplit]; simp [ha])) (lo := lo) (prv := hd) (fuel := r.cap + 1) hpl hlo
          (fun a ha => hneh a (by rw [hsplit]; simp [ha])) (by simp [hsplit] at hlen; omega)
        have hstart : (r.heap hd).next = lo.head?.or (hi.head?.or (endOf hd (lo ++ hi))) := by
          rw [hpath.1, hsplit, List.head?_append, Option.or_assoc]
        rw [← hstart] at hloop
        have hlo' : ∀ a ∈ hd :: lo, (r.heap a).key < keyOf x := by
          intro a ha
          rcases List.mem_cons.mp ha with rfl | ha
          · exact hlt
          · exact hlo a ha
        obtain ⟨p, hp⟩ : ∃ p, (hd :: lo).getLast? = some p := ⟨_, List.getLast?_eq_some_getLast (by simp)⟩
        have hpe : (hd :: lo).getLast (by simp) = p := by
          rw [List.getLast?_eq_some_getLast (by simp)] at hp; simpa using hp
        rw [hpe] at hloop
        have hpm : p ∈ hd :: rest := by
          have := List.mem_of_getLast? hp
          rw [hsplit]
          simp only [List.mem_cons, List.mem_append] at this ⊢
          grind
        have hpn : p ≠ n := fun e => hnotin (e ▸ hpm)
        by_cases hex : ∃ c hi', hi = c :: hi' ∧ (r.heap c).key = keyOf x
        · obtain ⟨c, hi', rfl, hc⟩ := hex
          refine ⟨r, hd :: rest, ?_, ?_, fun a ha => ⟨ha, rfl⟩⟩
          · simp only [hc, if_true] at hloop
            simp only [insertNode, if_neg hsz0, hh, deref, bind, Except.bind, pure, Except.pure]
            rw [if_neg (by rw [hkn]; exact hke), if_neg (by rw [hkn]; exact hkg), hkn, hloop]
          · rw [addSorted_of_mem hr.sorted]
            · exact hr
            · refine ⟨(r.heap c).val, ?_, ?_⟩
              · rw [← hvals, hsplit]; simp
              · rw [← hr.keys c (by rw [hsplit]; simp), hc]
        · have hhi' : ∀ a ∈ hi, keyOf x < (r.heap a).key := by
            cases hi with
            | nil => simp
            | cons c hi' =>
              have hc : (r.heap c).key ≠ keyOf x := fun h => hex ⟨c, hi', rfl, h⟩
              have hc2 := hhi c (by simp)
              have hs := hr.sorted_nodes
              rw [hsplit, List.pairwise_cons, List.pairwise_append] at hs
              have hs2 := (List.pairwise_cons.mp hs.2.2.1).1
              intro a ha
              rcases List.mem_cons.mp ha with rfl | ha
              · omega
              · have := hs2 a ha; omega
          have happ : hd :: rest = (hd :: lo) ++ hi := by rw [hsplit]; rfl
          have eAdd : addSorted x l = ((hd :: lo).map fun a => (r.heap a).val) ++ x :: (hi.map fun a => (r.heap a).val) := by
            rw [← hvals, happ, List.map_append]
            apply addSorted_split
            · intro y hy
              obtain ⟨a, ha, rfl⟩ := List.mem_map.mp hy
              rw [← hr.keys a (by rw [happ]; exact List.mem_append_left _ ha)]; exact hlo' a ha
            · intro y hy
              obtain ⟨a, ha, rfl⟩ := List.mem_map.mp hy
              rw [← hr.keys a (by rw [happ]; exact List.mem_append_right _ ha)]; exact hhi' a ha
          obtain ⟨c, hc⟩ : ∃ c, (hi ++ (hd :: lo)).head? = some c := by
            cases hi with
            | nil => exact ⟨hd, rfl⟩
            | cons c _ => exact ⟨c, rfl⟩
          have hcm : c ∈ hd :: rest := by
            have := List.mem_of_head? hc
            rw [hsplit]
            simp only [List.mem_cons, List.mem_append] at this ⊢
            grind
          have hcn : c ≠ n := fun e => hnotin (e ▸ hcm)
          have hpl : (hi ++ (hd :: lo)).getLast? = some p := by
            rw [List.getLast?_append, hp]; rfl
          have hs := splice_isRing (r := r) (lo := hd :: lo) (hi := hi) (n := n) (p := p) (c := c) (x := x)
            (by rw [← happ]; exact hr) (by simp) (by rw [← happ]; exact hnotin) hcap hkn hvn hx hlo' hhi' hpl hc
          rw [if_neg (by simp)] at hs
          refine ⟨{ r with heap := spliced r.heap p n c, size := r.size + 1 }, hd :: lo ++ n :: hi, ?_, eAdd ▸ hs,
            fun a ha => ⟨by rw [happ] at ha; simp only [List.mem_append, List.mem_cons] at ha ⊢; grind, spliced_val⟩⟩
          simp only [insertNode, if_neg hsz0, hh, deref, bind, Except.bind, pure, Except.pure]
          rw [if_neg (by rw [hkn]; exact hke), if_neg (by rw [hkn]; exact hkg), hkn, hloop]
          cases hi with
          | nil =>
            simp at hc
            subst hc
            have hmatch : (endOf hd (lo ++ [])).getD p = hd := by
              cases lo with
              | nil => simp [endOf] at hp ⊢; exact hp.symm
              | cons _ _ => simp [endOf]
            simp only [hmatch, splice_writes r.heap hpn hcn rfl]
          | cons c' hi' =>
            simp at hc
            subst hc
            have hck : ¬ (r.heap c').key = keyOf x := fun h => hex ⟨c', hi', rfl, h⟩
            simp only [if_neg hck, splice_writes r.heap hpn hcn rfl]

/-- `Insert` adds the identifier at its place in the order; nodes keep their place in memory. -/
theorem insert_at {r : Ring} {as : List Nat} {l : List Hex} {x : Hex} (hr : IsRingAt r as l) (hx : validateInput x = true) :
    ∃ r' as', insert r x = .ok r' ∧ IsRingAt r' as' (addSorted x l) ∧
      ∀ a ∈ as, a ∈ as' ∧ (r'.heap a).val = (r.heap a).val := by
  have hr1 := hr.alloc_upd fun _ => ⟨none, none, keyOf x, x, none, none⟩
  obtain ⟨r', as', h1, h2, h3⟩ := insertNode_eq (r := allocNode r x) (n := r.cap) hr1 hx (by simp [allocNode, Heap.upd])
    (by simp [allocNode, Heap.upd]) (by simp [allocNode, Heap.upd]) (by simp [allocNode])
    (fun h => Nat.lt_irrefl _ (hr.alloc _ h))
  refine ⟨r', as', by simp [insert, hx, h1], h2, ?_⟩
  intro a ha
  refine ⟨(h3 a ha).1, ?_⟩
  rw [(h3 a ha).2]
  simp [allocNode, Heap.upd, Nat.ne_of_lt (hr.alloc a ha)]

/-- `Insert` adds the identifier at its place in the order. -/
theorem insert_eq {r : Ring} {l : List Hex} {x : Hex} (hr : IsRing r l) (hx : validateInput x = true) :
    ∃ r', insert r x = .ok r' ∧ IsRing r' (addSorted x l) := by
  obtain ⟨as, hr⟩ := hr
  obtain ⟨r', as', h1, h2, _⟩ := insert_at hr hx
  exact ⟨r', h1, as', h2⟩

end FcRetrieval.Ring
