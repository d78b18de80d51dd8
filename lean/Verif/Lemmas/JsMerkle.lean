import Verif.Spec.JsMerkle
import Verif.Lemmas.Merkle
/-!
# Lemmas about the Merkle trees of the JavaScript client
-/

set_option linter.unusedSimpArgs false

namespace FcRetrieval.JsMerkle
open FcRetrieval.Merkle (Hash Digest32 pairUp pairs buildRoot treeInputs append_inj32)

variable (H : Hash)

theorem joinUp_length : ∀ nl, (joinUp H nl).length = (nl.length + 1) / 2
  | [] => rfl
  | [_] => by simp [joinUp]
  | _ :: _ :: l => by simp [joinUp, joinUp_length l]; omega

theorem joinUp_pair : ∀ (nl : List Bytes) (i : Nat) (a b : Bytes), nl[2 * i]? = some a → nl[2 * i + 1]? = some b → (joinUp H nl)[i]? = some (H (a ++ b))
  | [], i, a, b, h, _ => by simp at h
  | [_], i, a, b, _, h => by simp at h
  | x :: y :: l, 0, a, b, ha, hb => by
    simp at ha hb
    simp [joinUp, ha, hb]
  | x :: y :: l, i + 1, a, b, ha, hb => by
    have e1 : 2 * (i + 1) = 2 * i + 1 + 1 := by omega
    rw [e1] at ha hb
    simp only [List.getElem?_cons_succ] at ha hb
    simp only [joinUp, List.getElem?_cons_succ]
    exact joinUp_pair l i a b ha hb

theorem joinUp_last : ∀ (nl : List Bytes) (i : Nat) (a : Bytes), nl[2 * i]? = some a → nl[2 * i + 1]? = none → (joinUp H nl)[i]? = some a
  | [], i, a, h, _ => by simp at h
  | [x], 0, a, h, _ => by simpa [joinUp] using h
  | [x], i + 1, a, h, _ => by
    rw [List.getElem?_eq_none (by simp; omega)] at h
    cases h
  | x :: y :: l, 0, a, ha, hb => by simp at hb
  | x :: y :: l, i + 1, a, ha, hb => by
    have e1 : 2 * (i + 1) = 2 * i + 1 + 1 := by omega
    rw [e1] at ha hb
    simp only [List.getElem?_cons_succ] at ha hb
    simp only [joinUp, List.getElem?_cons_succ]
    exact joinUp_last l i a ha hb

theorem layers_ne (fuel : Nat) (nl : List Bytes) : layers H fuel nl ≠ [] := by
  cases fuel with
  | zero => simp [layers]
  | succ f => unfold layers; split <;> simp

/-- The node at the top above a layer. -/
def top (fuel : Nat) (nl : List Bytes) : Bytes := ((layers H fuel nl).getLastD []).headD []

theorem top_one (fuel : Nat) (a : Bytes) : top H fuel [a] = a := by
  unfold top
  cases fuel with
  | zero => rfl
  | succ f => simp [layers]

theorem top_step (fuel : Nat) (nl : List Bytes) (h : 1 < nl.length) : top H (fuel + 1) nl = top H fuel (joinUp H nl) := by
  unfold top
  rw [layers, if_pos h]
  congr 1
  have := layers_ne H fuel (joinUp H nl)
  cases hl : layers H fuel (joinUp H nl) with
  | nil => exact absurd hl this
  | cons x xs => simp [List.getLastD]

theorem climb_append (p q : List Step) (cur : Bytes) : climb H (p ++ q) cur = climb H q (climb H p cur) := by
  induction p generalizing cur with
  | nil => rfl
  | cons s p ih => simp only [List.cons_append, climb]; exact ih _

/-- Following the steps of a generated proof leads to the top. -/
theorem climb_proof : ∀ (fuel : Nat) (nl : List Bytes) (i : Nat) (a : Bytes), nl.length ≤ fuel + 1 → nl[i]? = some a →
    climb H (proofAux (layers H fuel nl) i) a = top H fuel nl
  | 0, nl, i, a, hl, ha => by
    have hi := (List.getElem?_eq_some_iff.1 ha).1
    match nl, hl, hi with
    | [x], _, hi =>
      have : i = 0 := by simpa using hi
      subst this
      simp at ha
      subst ha
      simp [layers, proofAux, climb, top]
  | fuel + 1, nl, i, a, hl, ha => by
    have hi := (List.getElem?_eq_some_iff.1 ha).1
    by_cases h : 1 < nl.length
    · rw [top_step H fuel nl h]
      have hj := joinUp_length H nl
      have key : ∀ b, (joinUp H nl)[i / 2]? = some b → climb H (proofAux (layers H fuel (joinUp H nl)) (i / 2)) b = top H fuel (joinUp H nl) :=
        fun b hb => climb_proof fuel (joinUp H nl) (i / 2) b (by omega) hb
      rw [layers, if_pos h, proofAux, climb_append]
      by_cases ho : i % 2 = 1
      · simp only [if_pos ho]
        have hp : i - 1 < nl.length := by omega
        rw [List.getElem?_eq_getElem hp]
        simp only [climb]
        refine key _ (joinUp_pair H nl (i / 2) _ _ ?_ ?_)
        · rw [show 2 * (i / 2) = i - 1 by omega]
          exact List.getElem?_eq_getElem hp
        · rw [show 2 * (i / 2) + 1 = i by omega]
          exact ha
      · simp only [if_neg ho]
        have e : 2 * (i / 2) = i := by omega
        cases hn : nl[i + 1]? with
        | some d =>
          simp only [climb]
          exact key _ (joinUp_pair H nl (i / 2) _ _ (by rw [e]; exact ha) (by rw [e]; exact hn))
        | none =>
          simp only [climb]
          exact key _ (joinUp_last H nl (i / 2) _ (by rw [e]; exact ha) (by rw [e]; exact hn))
    · match nl, h, hi with
      | [x], _, hi =>
        have : i = 0 := by simpa using hi
        subst this
        simp at ha
        subst ha
        rw [top_one]
        simp [layers, proofAux, climb]
      | _ :: _ :: _, h, _ => exact absurd (by simp) h

theorem indexOf_some (leaf : Bytes) : ∀ (ls : List Bytes) (i : Nat) (found : Option Nat) (j : Nat), indexOf leaf ls i found = some j →
    found = some j ∨ (i ≤ j ∧ ls[j - i]? = some leaf)
  | [], i, found, j, h => .inl h
  | l :: ls, i, found, j, h => by
    rw [indexOf] at h
    rcases indexOf_some leaf ls (i + 1) _ j h with h' | ⟨h1, h2⟩
    · split at h'
      · next e =>
        cases h'
        exact .inr ⟨Nat.le_refl _, by simp [e]⟩
      · exact .inl h'
    · exact .inr ⟨by omega, by rw [show j - i = (j - (i + 1)) + 1 by omega, List.getElem?_cons_succ]; exact h2⟩

theorem indexOf_isSome (leaf : Bytes) : ∀ (ls : List Bytes) (i : Nat) (found : Option Nat),
    (indexOf leaf ls i found).isSome = (found.isSome || decide (leaf ∈ ls))
  | [], i, found => by simp [indexOf]
  | l :: ls, i, found => by
    rw [indexOf, indexOf_isSome leaf ls]
    by_cases h : leaf = l
    · simp [h]
    · simp [h]

/-! ## beside the tree of Go -/

theorem joinUp_even : ∀ nl : List Bytes, nl.length % 2 = 0 → joinUp H nl = pairUp H nl
  | [], _ => rfl
  | [_], h => by simp at h
  | a :: b :: l, h => by
    simp only [List.length_cons] at h
    simp only [joinUp, pairUp]
    rw [joinUp_even l (by omega)]

/-- With a power of two of leaves no node is without a neighbour, and the roots are the same. -/
theorem top_pow : ∀ (k f f' : Nat) (nl : List Bytes), nl.length = 2 ^ (k + 1) → nl.length ≤ f + 1 → nl.length ≤ f' + 1 →
    top H f nl = buildRoot H (f' + 1) nl
  | 0, f, f', nl, h, hf, hf' => by
    match nl, h with
    | [a, b], _ =>
      cases f with
      | zero => simp at hf
      | succ f => rw [top_step H f _ (by simp)]; simp [joinUp, top_one, buildRoot, pairUp]
  | k + 1, f, f', nl, h, hf, hf' => by
    have hp : 2 ^ (k + 1 + 1) = 2 * 2 ^ (k + 1) := by rw [Nat.pow_succ]; omega
    have hp' : 2 ≤ 2 ^ (k + 1) := by
      have := Nat.one_le_two_pow (n := k)
      rw [Nat.pow_succ]; omega
    cases f with
    | zero => omega
    | succ f =>
      cases f' with
      | zero => omega
      | succ f' =>
        rw [top_step H f nl (by omega), buildRoot, if_neg (by omega), joinUp_even H nl (by omega)]
        have hl := Merkle.pairUp_length H nl
        exact top_pow k f f' (pairUp H nl) (by omega) (by omega) (by omega)

theorem layers_more : ∀ (f : Nat) (nl : List Bytes), nl.length ≤ f + 1 → layers H (f + 1) nl = layers H f nl
  | 0, nl, h => by
    have : ¬ 1 < nl.length := by omega
    simp [layers, this]
  | f + 1, nl, h => by
    rw [layers]
    conv => rhs; rw [layers]
    by_cases hl : 1 < nl.length
    · rw [if_pos hl, if_pos hl, layers_more f _ (by rw [joinUp_length]; omega)]
    · rw [if_neg hl, if_neg hl]

/-- The strings hashed above a layer. -/
def above (fuel : Nat) (nl : List Bytes) : List Bytes := (layers H fuel nl).flatMap joined

theorem above_here (fuel : Nat) (nl : List Bytes) : ∀ m ∈ joined nl, m ∈ above H fuel nl := by
  intro m hm
  unfold above
  cases fuel with
  | zero => simpa [layers] using hm
  | succ f =>
    unfold layers
    split
    · simp only [List.flatMap_cons]
      exact List.mem_append_left _ hm
    · simpa using hm

theorem above_next (fuel : Nat) (nl : List Bytes) (h : 1 < nl.length) : ∀ m ∈ above H fuel (joinUp H nl), m ∈ above H (fuel + 1) nl := by
  intro m hm
  unfold above at hm ⊢
  rw [layers, if_pos h, List.flatMap_cons]
  exact List.mem_append_right _ hm

theorem joinUp_digest (hH : Digest32 H) : ∀ nl : List Bytes, (∀ a ∈ nl, a.length = 32) → ∀ a ∈ joinUp H nl, a.length = 32
  | [], h => h
  | [a], h => h
  | a :: b :: l, h => by
    intro x hx
    simp only [joinUp, List.mem_cons] at hx
    rcases hx with rfl | hx
    · exact hH _
    · exact joinUp_digest hH l (fun y hy => h y (by simp [hy])) x hx

theorem pairUp_digest (hH : Digest32 H) (nl : List Bytes) : ∀ a ∈ pairUp H nl, a.length = 32 := by
  rw [Merkle.pairUp_eq_map]
  intro a ha
  obtain ⟨m, -, rfl⟩ := List.mem_map.1 ha
  exact hH m

/-- Roots that agree lead down to first leaves that agree. -/
theorem first_leaf (hH : Digest32 H) : ∀ (f f' : Nat) (gs js : List Bytes), gs.length = js.length → 2 ≤ gs.length → gs.length ≤ f' → js.length ≤ f + 1 →
    (∀ a ∈ gs, a.length = 32) → (∀ a ∈ js, a.length = 32) → Apart H (treeInputs H f' gs) (above H f js) → buildRoot H f' gs = top H f js →
    gs.head? = js.head?
  | 0, f', gs, js, hl, h2, hf', hf, hg, hj, hap, he => by omega
  | f + 1, 0, gs, js, hl, h2, hf', hf, hg, hj, hap, he => by omega
  | f + 1, f' + 1, gs, js, hl, h2, hf', hf, hg, hj, hap, he => by
    match gs, js, hl, h2 with
    | g0 :: g1 :: gs, j0 :: j1 :: js, hl, h2 =>
      have hin : (g0 ++ g1) ∈ treeInputs H (f' + 1) (g0 :: g1 :: gs) := by simp [treeInputs, pairs]
      have hin' : (j0 ++ j1) ∈ above H (f + 1) (j0 :: j1 :: js) := above_here H _ _ _ (by simp [joined])
      have hheads : H (g0 ++ g1) = H (j0 ++ j1) → (g0 :: g1 :: gs).head? = (j0 :: j1 :: js).head? := by
        intro h
        have := hap _ hin _ hin' h
        simp only [List.head?_cons, Option.some.injEq]
        exact (append_inj32 this (by rw [hg g0 (by simp), hj j0 (by simp)])).1
      have hlen : gs.length = js.length := by simpa using hl
      rw [top_step H f _ (by simp)] at he
      by_cases h : (g0 :: g1 :: gs).length = 2
      · have hgs : gs = [] := List.length_eq_zero_iff.1 (by simpa using h)
        have hjs : js = [] := List.length_eq_zero_iff.1 (by rw [← hlen, hgs]; rfl)
        subst hgs hjs
        simp only [buildRoot, List.length_cons, List.length_nil, if_pos, pairUp, List.headD_cons, joinUp, top_one] at he
        exact hheads he
      · rw [buildRoot, if_neg h] at he
        have e := first_leaf hH f f' (pairUp H (g0 :: g1 :: gs)) (joinUp H (j0 :: j1 :: js))
          (by rw [Merkle.pairUp_length, joinUp_length, hl]) (by rw [Merkle.pairUp_length]; simp only [List.length_cons] at h ⊢; omega)
          (by rw [Merkle.pairUp_length]; omega) (by rw [joinUp_length]; omega) (pairUp_digest H hH _)
          (joinUp_digest H hH _ hj) (fun m hm m' hm' => hap m (by
            simp only [treeInputs]
            rw [if_neg h]
            exact List.mem_append_right _ hm) m' (above_next H f _ (by simp) m' hm')) he
        simp only [pairUp, joinUp, List.head?_cons, Option.some.injEq] at e
        exact hheads e

/-! ## a root binds its leaves -/

theorem joinUp_inj (hH : Digest32 H) : ∀ (ls ls' : List Bytes), ls.length = ls'.length → (∀ a ∈ ls, a.length = 32) → (∀ a ∈ ls', a.length = 32) →
    Apart H (joined ls) (joined ls') → joinUp H ls = joinUp H ls' → ls = ls'
  | [], [], _, _, _, _, _ => rfl
  | [a], [b], _, _, _, _, h => h
  | a :: b :: l, a' :: b' :: l', hl, h1, h2, hap, h => by
    simp only [joinUp, List.cons.injEq] at h
    have e := hap (a ++ b) (by simp [joined]) (a' ++ b') (by simp [joined]) h.1
    obtain ⟨rfl, rfl⟩ := append_inj32 e (by rw [h1 a (by simp), h2 a' (by simp)])
    rw [joinUp_inj hH l l' (by simpa using hl) (fun x hx => h1 x (by simp [hx])) (fun x hx => h2 x (by simp [hx]))
      (fun m hm m' hm' => hap m (by simp [joined, hm]) m' (by simp [joined, hm'])) h.2]
  | [], _ :: _, hl, _, _, _, _ => by simp at hl
  | _ :: _, [], hl, _, _, _, _ => by simp at hl
  | [_], _ :: _ :: _, hl, _, _, _, _ => by simp at hl
  | _ :: _ :: _, [_], hl, _, _, _, _ => by simp at hl

theorem top_inj (hH : Digest32 H) : ∀ (f : Nat) (ls ls' : List Bytes), ls.length = ls'.length → ls ≠ [] → ls.length ≤ f + 1 → (∀ a ∈ ls, a.length = 32) →
    (∀ a ∈ ls', a.length = 32) → Apart H (above H f ls) (above H f ls') → top H f ls = top H f ls' → ls = ls'
  | f, ls, ls', hl, hne, hf, h1, h2, hap, he => by
    by_cases h : 1 < ls.length
    · cases f with
      | zero => omega
      | succ f =>
        rw [top_step H f _ h, top_step H f _ (by omega)] at he
        have hj := joinUp_length H ls
        have hj' := joinUp_length H ls'
        have := top_inj hH f (joinUp H ls) (joinUp H ls') (by omega) (by intro e; rw [e] at hj; simp at hj; omega) (by omega) (joinUp_digest H hH _ h1)
          (joinUp_digest H hH _ h2) (fun m hm m' hm' => hap m (above_next H f _ h m hm) m' (above_next H f _ (by omega) m' hm')) he
        exact joinUp_inj H hH ls ls' hl h1 h2 (fun m hm m' hm' => hap m (above_here H _ _ _ hm) m' (above_here H _ _ _ hm')) this
    · match ls, ls', hl, hne, h with
      | [a], [b], _, _, _ =>
        rw [top_one, top_one] at he
        rw [he]
      | _ :: _ :: _, _, _, _, h => exact absurd (by simp) h

/-! ## the same for Go -/

theorem pairUp_inj (hH : Digest32 H) : ∀ (ls ls' : List Bytes), ls.length = ls'.length → (∀ a ∈ ls, a.length = 32) → (∀ a ∈ ls', a.length = 32) →
    Apart H (pairs ls) (pairs ls') → pairUp H ls = pairUp H ls' → ls = ls'
  | [], [], _, _, _, _, _ => rfl
  | [a], [b], _, h1, h2, hap, h => by
    simp only [pairUp, List.cons.injEq] at h
    have e := hap (a ++ a) (by simp [pairs]) (b ++ b) (by simp [pairs]) h.1
    obtain ⟨rfl, -⟩ := append_inj32 e (by rw [h1 a (by simp), h2 b (by simp)])
    rfl
  | a :: b :: l, a' :: b' :: l', hl, h1, h2, hap, h => by
    simp only [pairUp, List.cons.injEq] at h
    have e := hap (a ++ b) (by simp [pairs]) (a' ++ b') (by simp [pairs]) h.1
    obtain ⟨rfl, rfl⟩ := append_inj32 e (by rw [h1 a (by simp), h2 a' (by simp)])
    rw [pairUp_inj hH l l' (by simpa using hl) (fun x hx => h1 x (by simp [hx])) (fun x hx => h2 x (by simp [hx]))
      (fun m hm m' hm' => hap m (by simp [pairs, hm]) m' (by simp [pairs, hm'])) h.2]
  | [], _ :: _, hl, _, _, _, _ => by simp at hl
  | _ :: _, [], hl, _, _, _, _ => by simp at hl
  | [_], _ :: _ :: _, hl, _, _, _, _ => by simp at hl
  | _ :: _ :: _, [_], hl, _, _, _, _ => by simp at hl

theorem buildRoot_inj (hH : Digest32 H) : ∀ (f : Nat) (ls ls' : List Bytes), ls.length = ls'.length → 2 ≤ ls.length → ls.length ≤ f → (∀ a ∈ ls, a.length = 32) →
    (∀ a ∈ ls', a.length = 32) → Apart H (treeInputs H f ls) (treeInputs H f ls') → buildRoot H f ls = buildRoot H f ls' → ls = ls'
  | 0, ls, ls', hl, h2, hf, _, _, _, _ => by omega
  | f + 1, ls, ls', hl, h2, hf, ha, ha', hap, he => by
    have hj := Merkle.pairUp_length H ls
    have hj' := Merkle.pairUp_length H ls'
    have hp : Apart H (pairs ls) (pairs ls') := fun m hm m' hm' => hap m (by simp [treeInputs, hm]) m' (by simp [treeInputs, hm'])
    refine pairUp_inj H hH ls ls' hl ha ha' hp ?_
    rw [buildRoot, buildRoot] at he
    by_cases h : ls.length = 2
    · rw [if_pos h, if_pos (by omega)] at he
      match hx : pairUp H ls, hy : pairUp H ls' with
      | [x], [y] => rw [hx, hy] at he; simpa using he
      | [], _ => rw [hx] at hj; simp at hj; omega
      | _ :: _ :: _, _ => rw [hx] at hj; simp at hj; omega
      | [_], [] => rw [hy] at hj'; simp at hj'; omega
      | [_], _ :: _ :: _ => rw [hy] at hj'; simp at hj'; omega
    · rw [if_neg h, if_neg (by omega)] at he
      exact buildRoot_inj hH f (pairUp H ls) (pairUp H ls') (by omega) (by omega) (by omega) (pairUp_digest H hH _) (pairUp_digest H hH _)
        (fun m hm m' hm' => hap m (by simp only [treeInputs]; rw [if_neg h]; exact List.mem_append_right _ hm) m' (by
          simp only [treeInputs]; rw [if_neg (by omega)]; exact List.mem_append_right _ hm')) he

end FcRetrieval.JsMerkle
