import Verif.Spec.BigInt
/-!
# Lemmas about shared numbers
-/
set_option linter.unusedSimpArgs false

namespace FcRetrieval.BigInt

open Payment

theorem W_pos (n : Nat) : 0 < W ^ n := Nat.pow_pos (by decide)

theorem norm_le (n v : Nat) : norm n v ≤ n := by
  induction n with
  | zero => simp [norm]
  | succ n ih => simp only [norm]; split <;> omega

theorem lt_norm {n v : Nat} (h : v < W ^ n) : v < W ^ norm n v := by
  induction n with
  | zero => simpa [norm] using h
  | succ n ih => simp only [norm]; split <;> rename_i hv
                 · exact ih hv
                 · exact h

theorem read_lt (h : Heap) (n : Num) : read h n < W ^ n.len := Nat.mod_lt _ (W_pos _)

theorem pow_split {a b : Nat} (h : a ≤ b) : W ^ b = W ^ a * W ^ (b - a) := by
  rw [← Nat.pow_add]; congr 1; omega

/-- Reading fewer words than were written. -/
theorem mod_low {l n v q : Nat} (hl : l ≤ n) : (v + W ^ n * q) % W ^ l = v % W ^ l := by
  rw [pow_split hl, Nat.mul_assoc, Nat.add_mul_mod_self_left]

theorem at_set_same {h : Heap} {i : Nat} {a : Arr} (hi : i < h.length) : Heap.at (h.set i a) i = a := by
  simp [Heap.at, hi]

theorem at_set_other {h : Heap} {i j : Nat} {a : Arr} (hij : i ≠ j) : Heap.at (h.set i a) j = h.at j := by
  simp [Heap.at, List.getElem?_set_ne hij]

theorem at_append_old {h : Heap} {j : Nat} {a : Arr} (hj : j < h.length) : Heap.at (h ++ [a]) j = h.at j := by
  simp [Heap.at, List.getElem?_append_left hj]

theorem at_append_new {h : Heap} {a : Arr} : Heap.at (h ++ [a]) h.length = a := by
  simp [Heap.at]

theorem cap_lt {h : Heap} {i n : Nat} (hn : 0 < n) (hc : n ≤ (h.at i).cap) : i < h.length := by
  apply Classical.byContradiction
  intro hh
  have : h[i]? = none := by simp; omega
  simp only [Heap.at, this, Option.getD_none] at hc
  omega

/-- What a store does: the new number has the value, and either its array is a new one and nothing else changed, or only the
array of the receiver changed. -/
theorem store_spec {h : Heap} {z : Num} {n v : Nat} (hn : 0 < n) :
    (n ≤ (h.at z.arr).cap ∧ z.arr < h.length ∧ (store h z n v).2 = ⟨z.arr, n⟩ ∧ (store h z n v).1.length = h.length ∧
      (∀ j, j ≠ z.arr → (store h z n v).1.at j = h.at j) ∧ ((store h z n v).1.at z.arr).cap = (h.at z.arr).cap ∧
      (∀ l, l ≤ n → ((store h z n v).1.at z.arr).val % W ^ l = v % W ^ l)) ∨
    ((h.at z.arr).cap < n ∧ (store h z n v).2 = ⟨h.length, n⟩ ∧ (store h z n v).1.length = h.length + 1 ∧
      (∀ j, j < h.length → (store h z n v).1.at j = h.at j) ∧
      (∀ l, ((store h z n v).1.at h.length).val % W ^ l = v % W ^ l)) := by
  unfold store
  by_cases hc : n ≤ (h.at z.arr).cap
  · have hz := cap_lt hn hc
    left
    rw [if_pos hc]
    refine ⟨hc, hz, rfl, by simp, fun j hj => at_set_other (fun e => hj e.symm), ?_, fun l hl => ?_⟩
    · rw [at_set_same hz]
    · rw [at_set_same hz]; exact mod_low hl
  · right
    rw [if_neg hc]
    refine ⟨by omega, rfl, by simp, fun j hj => at_append_old hj, fun l => ?_⟩
    rw [at_append_new]

/-- What an addition does. -/
theorem add_spec (h : Heap) (z y : Num) (hz : z.arr < h.length) :
    read (add h z y).1 (add h z y).2 = read h z + read h y ∧
    ((add h z y).2.arr = z.arr ∧ (add h z y).1.length = h.length ∧ (∀ j, j ≠ z.arr → (add h z y).1.at j = h.at j) ∧
        ((add h z y).1.at z.arr).cap = (h.at z.arr).cap ∧
        ((add h z y).2.len = z.len ∧ (add h z y).1.at z.arr = h.at z.arr ∨ z.len < (h.at z.arr).cap) ∨
      (add h z y).2.arr = h.length ∧ (add h z y).1.length = h.length + 1 ∧ (∀ j, j < h.length → (add h z y).1.at j = h.at j)) := by
  have e0 : ∀ n : Num, n.len = 0 → read h n = 0 := by intro n hn; simp [read, hn, Nat.mod_one]
  unfold add
  by_cases hy : y.len = 0
  · rw [if_pos hy, e0 y hy, Nat.add_zero]
    by_cases hz0 : z.len = 0
    · rw [if_pos hz0]
      exact ⟨rfl, Or.inl ⟨rfl, rfl, fun _ _ => rfl, rfl, Or.inl ⟨rfl, rfl⟩⟩⟩
    · rw [if_neg hz0]
      rcases store_spec (h := h) (z := z) (n := z.len) (v := read h z) (by omega) with
        ⟨h1, h2, h3, h4, h5, h6, h7⟩ | ⟨h1, h3, h4, h5, h6⟩
      · refine ⟨?_, Or.inl ⟨by rw [h3], h4, h5, h6, Or.inl ⟨by rw [h3], ?_⟩⟩⟩
        · rw [h3]; rw [read]; dsimp only; rw [h7 _ (Nat.le_refl _)]; simp [read]
        · simp only [store, h1, if_true, at_set_same hz, read]
          rw [Nat.mod_add_div]
      · refine ⟨?_, Or.inr ⟨by rw [h3], h4, h5⟩⟩
        rw [h3]; rw [read]; dsimp only; rw [h6]; simp [read]
  · rw [if_neg hy]
    by_cases hz0 : z.len = 0
    · rw [if_pos hz0, e0 z hz0, Nat.zero_add]
      rcases store_spec (h := h) (z := z) (n := y.len) (v := read h y) (by omega) with
        ⟨h1, h2, h3, h4, h5, h6, h7⟩ | ⟨h1, h3, h4, h5, h6⟩
      · refine ⟨?_, Or.inl ⟨by rw [h3], h4, h5, h6, Or.inr (by omega)⟩⟩
        rw [h3]; rw [read]; dsimp only; rw [h7 _ (Nat.le_refl _)]; simp [read]
      · refine ⟨?_, Or.inr ⟨by rw [h3], h4, h5⟩⟩
        rw [h3]; rw [read]; dsimp only; rw [h6]; simp [read]
    · rw [if_neg hz0]
      have hsum : read h z + read h y < W ^ (max z.len y.len + 1) := by
        have a1 := read_lt h z
        have a2 := read_lt h y
        have b1 : W ^ z.len ≤ W ^ max z.len y.len := Nat.pow_le_pow_right (by decide) (by omega)
        have b2 : W ^ y.len ≤ W ^ max z.len y.len := Nat.pow_le_pow_right (by decide) (by omega)
        have : W ^ (max z.len y.len + 1) = W ^ max z.len y.len * W := Nat.pow_succ ..
        have hW : W ^ max z.len y.len * 2 ≤ W ^ max z.len y.len * W := Nat.mul_le_mul_left _ (by decide)
        omega
      have hn := lt_norm hsum
      have hle := norm_le (max z.len y.len + 1) (read h z + read h y)
      rcases store_spec (h := h) (z := z) (n := max z.len y.len + 1) (v := read h z + read h y) (by omega) with
        ⟨h1, h2, h3, h4, h5, h6, h7⟩ | ⟨h1, h3, h4, h5, h6⟩
      · refine ⟨?_, Or.inl ⟨by dsimp only; rw [h3], h4, h5, h6, Or.inr (by omega)⟩⟩
        dsimp only
        rw [h3]; simp only
        rw [read]; simp only
        rw [h7 _ hle, Nat.mod_eq_of_lt hn]
      · refine ⟨?_, Or.inr ⟨by dsimp only; rw [h3], h4, h5⟩⟩
        dsimp only
        rw [h3]; simp only
        rw [read]; simp only
        rw [h6, Nat.mod_eq_of_lt hn]

/-! ## Tight numbers -/

variable {Sig : Type}

/-- The arrays the program began with are as they were, and each balance has words of its own or those of a tight number. -/
structure Inv (h0 : Heap) (s : SMgr Sig) : Prop where
  len : h0.length ≤ s.heap.length
  old : ∀ i, i < h0.length → s.heap.at i = h0.at i
  bal : ∀ r, s.mgr.outbound r ≠ none → (s.balances r).arr < s.heap.length ∧
    ((s.heap.at (s.balances r).arr).cap = (s.balances r).len ∨
      h0.length ≤ (s.balances r).arr ∧ ∀ r', r' ≠ r → s.mgr.outbound r' ≠ none → (s.balances r').arr ≠ (s.balances r).arr)

theorem inv_start (me : Addr) (h0 : Heap) : Inv h0 (start me h0 : SMgr Sig) :=
  ⟨Nat.le_refl _, fun _ _ => rfl, fun _ hr => absurd rfl hr⟩

theorem read_tight {h0 : Heap} {s : SMgr Sig} (hi : Inv h0 s) {n : Num} (ht : n.arr < h0.length) : read s.heap n = read h0 n := by
  simp [read, hi.old _ ht]

theorem topup_tight {h0 : Heap} {s : SMgr Sig} (hi : Inv h0 s) {n : Num} (ht : Tight h0 n) (r : Addr) (ch : TopupChain) :
    Inv h0 (topup s r n ch).1 ∧
    (view (topup s r n ch).1, (topup s r n ch).2) = Payment.topup (view s) r (read h0 n : Nat) ch := by
  have hrd := read_tight hi ht.1
  cases ch with
  | failed => exact ⟨hi, rfl⟩
  | executed addr =>
    simp only [topup]
    cases ho : s.mgr.outbound r with
    | none =>
      simp only
      refine ⟨⟨hi.len, hi.old, ?_⟩, ?_⟩
      · intro r' hr'
        simp only [topupCreate, put] at hr' ⊢
        by_cases e : r' = r
        · subst e
          simp only [if_true]
          refine ⟨Nat.lt_of_lt_of_le ht.1 hi.len, Or.inl ?_⟩
          rw [hi.old _ ht.1]; exact ht.2
        · simp only [e, if_false] at hr' ⊢
          obtain ⟨h1, h2⟩ := hi.bal r' hr'
          refine ⟨h1, h2.imp_right fun ⟨h3, h4⟩ => ⟨h3, ?_⟩⟩
          intro r'' hne hr''
          by_cases e' : r'' = r
          · simp only [e', if_true]
            have := ht.1
            omega
          · simp only [e', if_false] at hr'' ⊢
            exact h4 r'' hne hr''
      · simp only [Payment.topup, view, ho, Option.map_none, topupCreate]
        congr 1
        congr 1
        funext r'
        simp only [put]
        by_cases e : r' = r
        · simp [e, hrd]
        · simp [e]
    | some c =>
      simp only
      have hz := (hi.bal r (by simp [ho])).1
      obtain ⟨hv, hshape⟩ := add_spec s.heap (s.balances r) n hz
      have hold : ∀ i, i < h0.length → (add s.heap (s.balances r) n).1.at i = h0.at i := by
        intro i hi'
        rw [← hi.old i hi']
        rcases hshape with ⟨h1, h2, h3, h4, h5⟩ | ⟨h1, h2, h3⟩
        · by_cases e : i = (s.balances r).arr
          · rcases h5 with h5 | h5
            · rw [e]; exact h5.2
            · rcases (hi.bal r (by simp [ho])).2 with hb | ⟨hb, _⟩ <;> omega
          · exact h3 i e
        · exact h3 i (Nat.lt_of_lt_of_le hi' hi.len)
      have hoth : ∀ r', r' ≠ r → s.mgr.outbound r' ≠ none →
          (add s.heap (s.balances r) n).1.at (s.balances r').arr = s.heap.at (s.balances r').arr := by
        intro r' hne hr'
        rcases hshape with ⟨h1, h2, h3, h4, h5⟩ | ⟨h1, h2, h3⟩
        · by_cases e : (s.balances r').arr = (s.balances r).arr
          · rcases h5 with h5 | h5
            · rw [e]; exact h5.2
            · rcases (hi.bal r (by simp [ho])).2 with hb | ⟨_, hb⟩
              · omega
              · exact absurd e (hb r' hne hr')
          · exact h3 _ e
        · exact h3 _ (hi.bal r' hr').1
      have hlen : s.heap.length ≤ (add s.heap (s.balances r) n).1.length := by
        rcases hshape with ⟨_, h2, _⟩ | ⟨_, h2, _⟩ <;> omega
      refine ⟨⟨Nat.le_trans hi.len hlen, hold, ?_⟩, ?_⟩
      · intro r' hr'
        simp only at hr' ⊢
        by_cases e : r' = r
        · subst e
          simp only [if_true]
          rcases hshape with ⟨h1, h2, h3, h4, h5⟩ | ⟨h1, h2, h3⟩
          · refine ⟨by omega, ?_⟩
            rcases (hi.bal r' hr').2 with hb | ⟨hb, hb'⟩
            · rcases h5 with h5 | h5
              · left; rw [h1, h4, h5.1]; exact hb
              · omega
            · right
              refine ⟨by omega, fun r'' hne hr'' => ?_⟩
              simp only [hne, if_false, h1]
              exact hb' r'' hne hr''
          · refine ⟨by omega, Or.inr ⟨by have := hi.len; omega, fun r'' hne hr'' => ?_⟩⟩
            simp only [hne, if_false, h1]
            have := (hi.bal r'' hr'').1
            omega
        · simp only [e, if_false]
          obtain ⟨h1, h2⟩ := hi.bal r' hr'
          refine ⟨by omega, ?_⟩
          rw [hoth r' e hr']
          refine h2.imp_right fun ⟨h3, h4⟩ => ⟨h3, fun r'' hne hr'' => ?_⟩
          by_cases e' : r'' = r
          · simp only [e', if_true]
            rcases hshape with ⟨h5, _⟩ | ⟨h5, _⟩
            · rw [h5]; exact h4 r (fun hh => e hh.symm) (by simp [ho])
            · omega
          · simp only [e', if_false]
            exact h4 r'' hne hr''
      · simp only [Payment.topup, view, ho, Option.map_some, topupAdd]
        congr 1
        congr 1
        funext r'
        simp only [put]
        by_cases e : r' = r
        · subst e
          simp only [if_true, ho, Option.map_some]
          rw [hv, hrd]
          simp
        · simp only [e, if_false]
          cases ho' : s.mgr.outbound r' with
          | none => rfl
          | some c' =>
            simp only [Option.map_some, read]
            rw [hoth r' e (by simp [ho'])]

theorem pay_mgr_cases (sign : VBody → Option Sig) (m : Mgr Sig) (r : Addr) (lane : Nat) (a : Int) :
    (pay sign m r lane a).1 = m ∨ ∃ c c', m.outbound r = some c ∧ c'.balance = c.balance ∧
      (pay sign m r lane a).1 = { m with outbound := put m.outbound r c' } := by
  unfold pay
  cases hc : m.outbound r with
  | none => exact Or.inl rfl
  | some c =>
    simp only
    split
    · exact Or.inl rfl
    · split
      · refine Or.inr ⟨c, _, rfl, ?_, rfl⟩; rfl
      · refine Or.inr ⟨c, _, rfl, ?_, rfl⟩; rfl

theorem pay_view {h0 : Heap} {s : SMgr Sig} (sign : VBody → Option Sig) (hi : Inv h0 s) (r : Addr) (lane : Nat) (a : Int) :
    Inv h0 { s with mgr := (pay sign (view s) r lane a).1 } ∧
    view { s with mgr := (pay sign (view s) r lane a).1 } = (pay sign (view s) r lane a).1 := by
  rcases pay_mgr_cases sign (view s) r lane a with h | ⟨c, c', hc, hb, h⟩
  · rw [h]
    refine ⟨⟨hi.len, hi.old, ?_⟩, ?_⟩
    · intro r' hr'
      have e : ∀ r', (view s).outbound r' ≠ none ↔ s.mgr.outbound r' ≠ none := by intro r'; simp [view]
      obtain ⟨h1, h2⟩ := hi.bal r' ((e r').1 hr')
      exact ⟨h1, h2.imp_right fun ⟨h3, h4⟩ => ⟨h3, fun r'' hne hr'' => h4 r'' hne ((e r'').1 hr'')⟩⟩
    · simp only [view]
      congr 1
      funext r'
      simp [Option.map_map, Function.comp_def]
  · rw [h]
    have hr : s.mgr.outbound r ≠ none := by
      intro hn; simp [view, hn] at hc
    have e : ∀ r', put (view s).outbound r c' r' ≠ none ↔ s.mgr.outbound r' ≠ none := by
      intro r'
      simp only [put]
      by_cases e : r' = r
      · subst e; simp [hr]
      · simp [e, view]
    refine ⟨⟨hi.len, hi.old, ?_⟩, ?_⟩
    · intro r' hr'
      obtain ⟨h1, h2⟩ := hi.bal r' ((e r').1 hr')
      exact ⟨h1, h2.imp_right fun ⟨h3, h4⟩ => ⟨h3, fun r'' hne hr'' => h4 r'' hne ((e r'').1 hr'')⟩⟩
    · have hcb : c.balance = (read s.heap (s.balances r) : Nat) := by
        simp only [view, Option.map_eq_some_iff] at hc
        obtain ⟨c0, _, rfl⟩ := hc
        rfl
      show Mgr.mk _ _ _ = Mgr.mk _ _ _
      congr 1
      funext r'
      simp only [put, view]
      by_cases e' : r' = r
      · simp only [e', if_true, Option.map_some, ← hcb, ← hb]
      · simp only [e', if_false, Option.map_map, Function.comp_def]

theorem step_tight {h0 : Heap} {s : SMgr Sig} (sign : VBody → Option Sig) (hi : Inv h0 s) (op : Op)
    (ht : ∀ r n ch, op = .topup r n ch → Tight h0 n) :
    Inv h0 (step sign s op).1 ∧ (view (step sign s op).1, (step sign s op).2) = payStep sign (view s) (meant h0 op) := by
  cases op with
  | topup r n ch =>
    have htn := ht r n ch rfl
    obtain ⟨h1, h2⟩ := topup_tight hi htn r ch
    have hrd := read_tight hi htn.1
    simp only [step, meant, payStep, ← h2]
    cases hb : topup s r n ch with
    | mk s' b =>
      rw [hb] at h1
      cases b
      · exact ⟨h1, rfl⟩
      · exact ⟨h1, by simp only [hrd]⟩
  | pay r lane a =>
    obtain ⟨h1, h2⟩ := pay_view sign hi r lane a
    simp only [step, meant, payStep]
    cases hp : pay sign (view s) r lane a with
    | mk m' o =>
      rw [hp] at h1 h2
      cases o with
      | paid ch v => exact ⟨h1, by rw [Prod.mk.injEq]; exact ⟨h2, rfl⟩⟩
      | needTopup => exact ⟨h1, by rw [Prod.mk.injEq]; exact ⟨h2, rfl⟩⟩
      | error => exact ⟨h1, by rw [Prod.mk.injEq]; exact ⟨h2, rfl⟩⟩

theorem run_tight {h0 : Heap} (sign : VBody → Option Sig) (ops : List Op) : ∀ {s : SMgr Sig}, Inv h0 s →
    AmountsAre (Tight h0) ops →
    Inv h0 (run sign s ops).1 ∧ (view (run sign s ops).1, (run sign s ops).2) = payRun sign (view s) (ops.map (meant h0)) := by
  induction ops with
  | nil => intro s hi _; exact ⟨hi, rfl⟩
  | cons op ops ih =>
    intro s hi ht
    obtain ⟨h1, h2⟩ := step_tight sign hi op (fun r n ch e => ht r n ch (by simp [e]))
    obtain ⟨h3, h4⟩ := ih h1 (fun r n ch hm => ht r n ch (List.mem_cons_of_mem _ hm))
    simp only [run, List.map_cons, payRun]
    rw [← h2]
    simp only
    rw [← h4]
    exact ⟨h3, rfl⟩

/-! ## Roomy numbers -/

/-- Adding a roomy number to a copy of itself writes the sum into the words both share. -/
theorem add_self {h : Heap} {n : Num} (hr : Roomy h n) :
    (add h n n).2.arr = n.arr ∧ (∀ l, l ≤ n.len + 1 → ((add h n n).1.at n.arr).val % W ^ l = (read h n + read h n) % W ^ l) := by
  obtain ⟨h1, h2, h3⟩ := hr
  have hc : n.len + 1 ≤ (h.at n.arr).cap := h3
  have hne : n.len ≠ 0 := by omega
  simp only [add, hne, if_false, Nat.max_self, store, hc, if_true, true_and]
  intro l hl
  rw [at_set_same h1]
  exact mod_low hl

theorem read_add_self {h : Heap} {n : Num} (hr : Roomy h n) : read (add h n n).1 n = 2 * read h n % W ^ n.len := by
  rw [read, (add_self hr).2 _ (by omega), Nat.two_mul]

/-- Twice a number, in the words of the number, is not the number. -/
theorem twice_ne {a m : Nat} (h0 : 0 < a) (ha : a < m) : 2 * a % m ≠ a := by
  by_cases h : 2 * a < m
  · rw [Nat.mod_eq_of_lt h]; omega
  · rw [Nat.mod_eq_sub_mod (by omega), Nat.mod_eq_of_lt (by omega)]; omega

/-! ## Reading a number -/

theorem scan_short (ds : List Nat) : ∀ (z : Acc) (di i : Nat), i + ds.length < 19 →
    scanGo z di i ds = if 0 < i + ds.length then mulAddWW z (10 ^ (i + ds.length)) (ds.foldl (fun v d => v * 10 + d) di) else z := by
  induction ds with
  | nil => intro z di i _; simp [scanGo]
  | cons d ds ih =>
    intro z di i h
    simp only [List.length_cons] at h
    rw [scanGo, if_neg (by omega), ih _ _ _ (by omega)]
    have e : i + 1 + ds.length = i + (d :: ds).length := by simp only [List.length_cons]; omega
    rw [e]
    rfl

theorem scan_full (ds rest : List Nat) : ∀ (z : Acc) (di i : Nat), i + ds.length = 19 → ds ≠ [] →
    scanGo z di i (ds ++ rest) = scanGo (mulAddWW z (10 ^ 19) (ds.foldl (fun v d => v * 10 + d) di)) 0 0 rest := by
  induction ds with
  | nil => intro z di i _ h; exact absurd rfl h
  | cons d ds ih =>
    intro z di i h _
    simp only [List.length_cons] at h
    rw [List.cons_append, scanGo]
    by_cases hd : ds = []
    · subst hd
      simp only [List.length_nil] at h
      rw [if_pos (by omega)]
      rfl
    · have : 0 < ds.length := List.length_pos_iff.2 hd
      rw [if_neg (by omega), ih _ _ _ (by omega) hd]
      rfl

theorem fold_split (ds : List Nat) : ∀ a : Nat, ds.foldl (fun v d => v * 10 + d) a = a * 10 ^ ds.length + decimal ds := by
  induction ds with
  | nil => intro a; simp [decimal]
  | cons d ds ih =>
    intro a
    simp only [List.foldl_cons, decimal, List.length_cons]
    rw [ih, ih]
    simp only [Nat.zero_mul, Nat.zero_add, Nat.pow_succ]
    rw [Nat.add_mul, Nat.mul_assoc, Nat.mul_comm 10, Nat.add_assoc]

theorem decimal_append (xs ys : List Nat) : decimal (xs ++ ys) = decimal xs * 10 ^ ys.length + decimal ys := by
  rw [decimal, List.foldl_append, fold_split]; rfl

theorem decimal_lt (ds : List Nat) (h : ∀ d ∈ ds, d < 10) : decimal ds < 10 ^ ds.length := by
  induction ds with
  | nil => simp [decimal]
  | cons d ds ih =>
    have h1 := ih (fun x hx => h x (List.mem_cons_of_mem _ hx))
    have h2 := h d (by simp)
    have e : decimal (d :: ds) = d * 10 ^ ds.length + decimal ds := by
      simp only [decimal, List.foldl_cons, Nat.zero_mul, Nat.zero_add]; rw [fold_split]; rfl
    rw [e, List.length_cons, Nat.pow_succ]
    have : d * 10 ^ ds.length ≤ 9 * 10 ^ ds.length := Nat.mul_le_mul_right _ (by omega)
    omega

theorem decimal_pos {ds : List Nat} (h : Written ds) : 0 < decimal ds := by
  obtain ⟨_, d, rest, rfl, hd⟩ := h
  have e : decimal (d :: rest) = d * 10 ^ rest.length + decimal rest := by
    simp only [decimal, List.foldl_cons, Nat.zero_mul, Nat.zero_add]; rw [fold_split]; rfl
  have : 0 < d * 10 ^ rest.length := Nat.mul_pos (by omega) (Nat.pow_pos (by decide))
  omega

theorem first_group (y r : Nat) (h : 0 < r) : mulAddWW ⟨0, 0, 0⟩ y r = ⟨1, 1, r⟩ := by
  have : r ≠ 0 := by omega
  simp [mulAddWW, this]

/-- Up to 19 digits are one word in an array of one word. -/
theorem scan_small {ds : List Nat} (hw : Written ds) (h : ds.length ≤ 19) : scanDec ds = ⟨1, 1, decimal ds⟩ := by
  have hp := decimal_pos hw
  have h0 : 0 < ds.length := by obtain ⟨_, d, rest, rfl, _⟩ := hw; simp
  unfold scanDec
  by_cases hl : ds.length < 19
  · rw [scan_short ds _ _ _ (by omega), if_pos (by omega)]
    exact first_group _ _ hp
  · have hne : ds ≠ [] := by intro e; simp [e] at h0
    have := scan_full ds [] ⟨0, 0, 0⟩ 0 0 (by omega) hne
    rw [List.append_nil] at this
    rw [this, scanGo, if_neg (by omega)]
    exact first_group _ _ hp

/-- 20 to 38 digits are one or two words in an array of six. -/
theorem scan_large {ds : List Nat} (hw : Written ds) (h : 20 ≤ ds.length) (h' : ds.length ≤ 38) :
    scanDec ds = ⟨6, norm 2 (decimal ds), decimal ds⟩ := by
  obtain ⟨hall, d, rest, hd, hd0⟩ := hw
  have hsplit : ds = ds.take 19 ++ ds.drop 19 := (List.take_append_drop 19 ds).symm
  have hlen : (ds.take 19).length = 19 := by simp; omega
  have hlen2 : (ds.drop 19).length = ds.length - 19 := by simp
  have hwt : Written (ds.take 19) := by
    refine ⟨fun x hx => hall x (List.mem_of_mem_take hx), d, rest.take 18, ?_, hd0⟩
    rw [hd]; rfl
  have hp := decimal_pos hwt
  have hdec : decimal ds = decimal (ds.take 19) * 10 ^ (ds.length - 19) + decimal (ds.drop 19) := by
    conv => lhs; rw [hsplit]
    rw [decimal_append, hlen2]
  have hne : ds.take 19 ≠ [] := by intro e; simp [e] at hlen
  unfold scanDec
  rw [hdec]
  conv => lhs; rw [hsplit]
  rw [scan_full _ _ _ _ _ (by omega) hne, show List.foldl (fun v d => v * 10 + d) 0 (ds.take 19) = decimal (ds.take 19) from rfl,
    first_group _ _ hp]
  have hx : ∀ k v, k ≠ 0 → mulAddWW ⟨1, 1, decimal (ds.take 19)⟩ (10 ^ k) v =
      ⟨6, norm 2 (decimal (ds.take 19) * 10 ^ k + v), decimal (ds.take 19) * 10 ^ k + v⟩ := by
    intro k v _
    simp [mulAddWW, newCap]
  by_cases hl : ds.length = 38
  · have hne2 : ds.drop 19 ≠ [] := by intro e; simp [e] at hlen2; omega
    have := scan_full (ds.drop 19) [] ⟨1, 1, decimal (ds.take 19)⟩ 0 0 (by omega) hne2
    rw [List.append_nil] at this
    show scanGo ⟨1, 1, decimal (ds.take 19)⟩ 0 0 (ds.drop 19) = _
    rw [this, scanGo, if_neg (by omega), hx _ _ (by omega)]
    have e : ds.length - 19 = 19 := by omega
    rw [e]; rfl
  · show scanGo ⟨1, 1, decimal (ds.take 19)⟩ 0 0 (ds.drop 19) = _
    rw [scan_short _ _ _ _ (by omega), if_pos (by omega), hx _ _ (by omega), Nat.zero_add, hlen2]
    rfl

theorem norm_two_pos {v : Nat} (h : 0 < v) : 0 < norm 2 v := by
  simp only [norm]
  split
  · split
    · rename_i h1; simp at h1; omega
    · omega
  · omega

theorem view_start (me : Addr) (h0 : Heap) : view (start me h0 : SMgr Sig) = newMgr me := rfl

end FcRetrieval.BigInt
