import Verif.Lemmas.Ids
import Verif.Lemmas.JsonText
import Verif.Spec.Merkle
/-! Helper lemmas about Merkle trees. -/

set_option linter.unusedSimpArgs false

namespace FcRetrieval.Merkle
open FcRetrieval.Ids (Id Proper)

variable (H : Hash)

theorem pairUp_eq_map : ∀ nl, pairUp H nl = (pairs nl).map H
  | [] => rfl
  | [a] => rfl
  | a :: b :: l => by simp [pairUp, pairs, pairUp_eq_map l]

theorem pairUp_length : ∀ nl, (pairUp H nl).length = (nl.length + 1) / 2
  | [] => rfl
  | [a] => by simp [pairUp]
  | a :: b :: l => by simp [pairUp, pairUp_length l]; omega

theorem pairs_mem : ∀ (nl : List Bytes) (m : Bytes), m ∈ pairs nl → ∃ l ∈ nl, ∃ r ∈ nl, m = l ++ r
  | [], m, h => by simp [pairs] at h
  | [a], m, h => by simp [pairs] at h; exact ⟨a, by simp, a, by simp, h⟩
  | a :: b :: l, m, h => by
    simp only [pairs, List.mem_cons] at h
    rcases h with rfl | h
    · exact ⟨a, by simp, b, by simp, rfl⟩
    · obtain ⟨x, hx, y, hy, e⟩ := pairs_mem l m h
      exact ⟨x, by simp [hx], y, by simp [hy], e⟩

theorem pairUp_getElem : ∀ (nl : List Bytes) (i : Nat), i < nl.length →
    (pairUp H nl).getD (i / 2) [] =
      H (nl.getD (2 * (i / 2)) [] ++ nl.getD (2 * (i / 2) + 1) (nl.getD (2 * (i / 2)) []))
  | [], i, h => by simp at h
  | [a], i, h => by
    have : i = 0 := by simpa using h
    subst this; rfl
  | a :: b :: l, 0, h => rfl
  | a :: b :: l, 1, h => rfl
  | a :: b :: l, i + 2, h => by
    have ih := pairUp_getElem l i (by simp at h; omega)
    have e1 : (i + 2) / 2 = i / 2 + 1 := by omega
    rw [e1, pairUp, List.getD_cons_succ, ih]
    have e2 : 2 * (i / 2 + 1) = 2 * (i / 2) + 1 + 1 := by omega
    rw [e2]
    simp only [List.getD_cons_succ]

/-! ## completeness -/

theorem verifyLoop_path : ∀ (fuel : Nat) (nl : List Bytes) (i : Nat), 2 ≤ nl.length → nl.length ≤ fuel → i < nl.length →
    verifyLoop H ((pathAux H fuel nl i).map fun s => some s.1) ((pathAux H fuel nl i).map fun s => s.2) (nl.getD i []) =
      .ok (buildRoot H fuel nl)
  | 0, nl, i, h1, h2, h3 => by omega
  | fuel + 1, nl, i, h1, h2, h3 => by
    have hp := pairUp_getElem H nl i h3
    have hlen := pairUp_length H nl
    have step : ∀ (s : Bytes × Int),
        s = (if nl.getD (2 * (i / 2)) [] = nl.getD i [] then (nl.getD (2 * (i / 2) + 1) (nl.getD (2 * (i / 2)) []), 1)
          else (nl.getD (2 * (i / 2)) [], 0)) →
        (if s.2 = 1 then H (nl.getD i [] ++ s.1) else H (s.1 ++ nl.getD i [])) = (pairUp H nl).getD (i / 2) [] := by
      intro s hs
      rw [hp]
      split at hs
      · rename_i he
        subst hs
        simp only [if_true, he]
      · rename_i he
        subst hs
        have hodd : i = 2 * (i / 2) + 1 := by
          rcases Nat.mod_two_eq_zero_or_one i with h | h
          · exfalso; apply he; congr 1; omega
          · omega
        have e3 : nl.getD (2 * (i / 2) + 1) (nl.getD (2 * (i / 2)) []) = nl.getD i [] := by
          rw [← hodd]
          simp [List.getD_eq_getElem?_getD, List.getElem?_eq_getElem h3]
        rw [e3]
        simp
    simp only [pathAux, buildRoot]
    by_cases h : nl.length = 2
    · rw [if_pos h, if_pos h]
      simp only [List.map_cons, List.map_nil, verifyLoop, Option.getD_some]
      rw [step _ rfl]
      have e0 : i / 2 = 0 := by omega
      rw [e0]
      generalize pairUp H nl = q at *
      cases q <;> simp
    · rw [if_neg h, if_neg h]
      simp only [List.map_cons, verifyLoop, Option.getD_some]
      rw [step _ rfl]
      exact verifyLoop_path fuel (pairUp H nl) (i / 2) (by omega) (by omega) (by omega)

theorem leaves_length (cs : List Id) (h : cs ≠ []) : 2 ≤ (leaves cs).length := by
  have : 0 < cs.length := List.length_pos_iff.2 h
  unfold leaves
  split <;> simp <;> omega

theorem mem_leaves (cs : List Id) (h : cs ≠ []) (x : Id) : x ∈ leaves cs ↔ x ∈ cs := by
  unfold leaves
  split
  · have e : cs.getLastD [] = cs.getLast h := by
      rw [List.getLastD_eq_getLast?, List.getLast?_eq_some_getLast h]; rfl
    rw [e]
    simp only [List.mem_append, List.mem_singleton]
    constructor
    · rintro (h1 | rfl)
      · exact h1
      · exact List.getLast_mem h
    · exact Or.inl
  · rfl

/-! ## levels -/

/-- The levels of the tree, from the leaves up. -/
def lvl (nl : List Bytes) : Nat → List Bytes
  | 0 => nl
  | k + 1 => pairUp H (lvl nl k)

theorem lvl_shift (nl : List Bytes) (k : Nat) : lvl H nl (k + 1) = lvl H (pairUp H nl) k := by
  induction k with
  | zero => rfl
  | succ k ih => rw [lvl, ih]; rfl

theorem tree_shape : ∀ (fuel : Nat) (nl : List Bytes), 2 ≤ nl.length → nl.length ≤ fuel →
    ∃ d, lvl H nl (d + 1) = [buildRoot H fuel nl] ∧
      (∀ k, k ≤ d → ∀ m ∈ pairs (lvl H nl k), m ∈ treeInputs H fuel nl) ∧
      (∀ i, (pathAux H fuel nl i).length = d + 1)
  | 0, nl, h1, h2 => by omega
  | fuel + 1, nl, h1, h2 => by
    have hlen := pairUp_length H nl
    by_cases h : nl.length = 2
    · refine ⟨0, ?_, ?_, ?_⟩
      · match nl, h with
        | [a, b], _ => rfl
      · intro k hk m hm
        have : k = 0 := by omega
        subst this
        simp only [treeInputs]
        exact List.mem_append_left _ hm
      · intro i
        simp [pathAux, h]
    · obtain ⟨d, e1, e2, e3⟩ := tree_shape fuel (pairUp H nl) (by omega) (by omega)
      refine ⟨d + 1, ?_, ?_, ?_⟩
      · rw [lvl_shift, e1]
        simp [buildRoot, h]
      · intro k hk m hm
        simp only [treeInputs]
        rw [if_neg h]
        cases k with
        | zero => exact List.mem_append_left _ hm
        | succ k =>
          rw [lvl_shift] at hm
          exact List.mem_append_right _ (e2 k (by omega) m hm)
      · intro i
        simp [pathAux, h, e3]

theorem lvl_digest (hH : Digest32 H) (nl : List Bytes) (hn : ∀ a ∈ nl, a.length = 32) (k : Nat) :
    ∀ a ∈ lvl H nl k, a.length = 32 := by
  cases k with
  | zero => exact hn
  | succ k =>
    intro a ha
    rw [lvl, pairUp_eq_map, List.mem_map] at ha
    obtain ⟨m, _, rfl⟩ := ha
    exact hH m

/-! ## verification as a chain of hashes -/

/-- One step: 1 means that the current value is on the left. -/
def joinStep (cur : Bytes) (s : Bytes × Int) : Bytes := if s.2 = 1 then cur ++ s.1 else s.1 ++ cur

/-- All steps. -/
def climb (steps : List (Bytes × Int)) (x : Bytes) : Bytes := steps.foldl (fun cur s => H (joinStep cur s)) x

/-- What is hashed on the way. -/
def climbInputs : List (Bytes × Int) → Bytes → List Bytes
  | [], _ => []
  | s :: ss, cur => joinStep cur s :: climbInputs ss (H (joinStep cur s))

theorem verifyLoop_climb : ∀ (ps : List (Option Bytes)) (is : List Int) (x cur : Bytes), verifyLoop H ps is x = .ok cur →
    ∃ steps, steps.length = ps.length ∧ climb H steps x = cur ∧ climbInputs H steps x = proofInputs H ps is x
  | [], is, x, cur, h => by
    simp only [verifyLoop, Res.ok.injEq] at h
    exact ⟨[], rfl, h, by cases is <;> rfl⟩
  | p :: ps, [], x, cur, h => by simp [verifyLoop] at h
  | p :: ps, i :: is, x, cur, h => by
    simp only [verifyLoop] at h
    have e : (if i = 1 then H (x ++ p.getD []) else H (p.getD [] ++ x)) = H (joinStep x (p.getD [], i)) := by
      unfold joinStep; split <;> rfl
    rw [e] at h
    obtain ⟨ss, h1, h2, h3⟩ := verifyLoop_climb ps is _ cur h
    refine ⟨(p.getD [], i) :: ss, by simp [h1], h2, ?_⟩
    simp only [climbInputs, proofInputs, h3]
    rfl

theorem climbInputs_snoc : ∀ (ss : List (Bytes × Int)) (s : Bytes × Int) (x : Bytes),
    climbInputs H (ss ++ [s]) x = climbInputs H ss x ++ [joinStep (climb H ss x) s]
  | [], s, x => rfl
  | t :: ss, s, x => by
    simp only [List.cons_append, climbInputs, climbInputs_snoc ss s]
    rfl

theorem climb_snoc (ss : List (Bytes × Int)) (s : Bytes × Int) (x : Bytes) :
    climb H (ss ++ [s]) x = H (joinStep (climb H ss x) s) := by
  simp [climb]

theorem climb_length (hH : Digest32 H) (ss : List (Bytes × Int)) (x : Bytes) (hx : x.length = 32) :
    (climb H ss x).length = 32 := by
  induction ss generalizing x with
  | nil => exact hx
  | cons s ss ih => exact ih _ (hH _)

theorem append_inj32 {a b c d : Bytes} (h : a ++ b = c ++ d) (hl : a.length = c.length) : a = c ∧ b = d :=
  List.append_inj h hl

/-- going down from a tree node, one level per step of the proof -/
theorem descend (hH : Digest32 H) (nl : List Bytes) (hn : ∀ a ∈ nl, a.length = 32) (fuel d : Nat)
    (hin : ∀ k, k ≤ d → ∀ m ∈ pairs (lvl H nl k), m ∈ treeInputs H fuel nl) (x : Bytes) (hx : x.length = 32) :
    ∀ (n : Nat) (ss : List (Bytes × Int)) (j : Nat), ss.length = n → j ≤ d + 1 → climb H ss x ∈ lvl H nl j →
      (∀ m ∈ climbInputs H ss x, ∀ m' ∈ treeInputs H fuel nl, H m = H m' → m = m') →
      (∃ i, i ≤ j ∧ i + n = j ∧ x ∈ lvl H nl i) ∨ ∃ m ∈ climbInputs H ss x, H m ∈ nl
  | 0, ss, j, hl, hj, hc, hno => by
    have : ss = [] := List.length_eq_zero_iff.1 hl
    subst this
    exact Or.inl ⟨j, Nat.le_refl _, rfl, hc⟩
  | n + 1, ss, j, hl, hj, hc, hno => by
    have hne : ss ≠ [] := by rintro rfl; simp at hl
    obtain ⟨t, s, rfl⟩ : ∃ t s, ss = t ++ [s] := ⟨ss.dropLast, ss.getLast hne, (List.dropLast_concat_getLast hne).symm⟩
    rw [climb_snoc] at hc
    rw [climbInputs_snoc] at hno ⊢
    have hm : joinStep (climb H t x) s ∈ climbInputs H t x ++ [joinStep (climb H t x) s] := by simp
    cases j with
    | zero => exact Or.inr ⟨_, hm, hc⟩
    | succ j =>
      rw [lvl, pairUp_eq_map, List.mem_map] at hc
      obtain ⟨m', hm', he⟩ := hc
      have e := hno _ hm _ (hin j (by omega) m' hm') he.symm
      obtain ⟨l, hl', r, hr', rfl⟩ := pairs_mem _ _ hm'
      have ll := lvl_digest H hH nl hn j l hl'
      have lr := lvl_digest H hH nl hn j r hr'
      have lc := climb_length H hH t x hx
      have hin' : climb H t x ∈ lvl H nl j := by
        unfold joinStep at e
        split at e
        · obtain ⟨e1, _⟩ := append_inj32 e (lc.trans ll.symm)
          rw [e1]; exact hl'
        · have hlen := congrArg List.length e
          simp only [List.length_append] at hlen
          obtain ⟨_, e2⟩ := append_inj32 e (by omega)
          rw [e2]; exact hr'
      rcases descend hH nl hn fuel d hin x hx n t j (by simpa using hl) (by omega) hin'
        (fun m hm => hno m (List.mem_append_left _ hm)) with ⟨i, h1, h2, h3⟩ | ⟨m, h1, h2⟩
      · exact Or.inl ⟨i, by omega, by omega, h3⟩
      · exact Or.inr ⟨m, List.mem_append_left _ h1, h2⟩

/-! ## serialisation -/

theorem asciiText_bytes (s : List Char) (h : ∀ c ∈ s, c.toNat < 128) : asciiText (asciiBytes s) = s := by
  unfold asciiText asciiBytes
  rw [List.map_map]
  conv => rhs; rw [← List.map_id s]
  apply List.map_congr_left
  intro c hc
  have := h c hc
  simp only [Function.comp, id]
  rw [UInt8.toNat_ofNat']
  have e : c.toNat % 2 ^ 8 = c.toNat := by omega
  rw [e]
  simp

/-- All characters are ASCII. -/
def Ascii (s : List Char) : Prop := ∀ c ∈ s, c.toNat < 128

theorem ascii_append {a b : List Char} (ha : Ascii a) (hb : Ascii b) : Ascii (a ++ b) := by
  intro c hc
  rcases List.mem_append.1 hc with h | h
  · exact ha c h
  · exact hb c h
theorem ascii_cons {c : Char} {b : List Char} (hc : c.toNat < 128) (hb : Ascii b) : Ascii (c :: b) := by
  intro d hd
  rcases List.mem_cons.1 hd with rfl | h
  · exact hc
  · exact hb d h
theorem ascii_nil : Ascii [] := by intro c hc; cases hc

theorem b64Char_ascii : ∀ n, n < 64 → (b64Char n).toNat < 128 := by decide

theorem b64Encode_ascii : ∀ b : Bytes, Ascii (b64Encode b)
  | [] => ascii_nil
  | [a] => by
    have ha := u8_lt a
    exact ascii_cons (b64Char_ascii _ (by omega)) (ascii_cons (b64Char_ascii _ (by omega)) (ascii_cons (by decide)
      (ascii_cons (by decide) ascii_nil)))
  | [a, b] => by
    have ha := u8_lt a
    have hb := u8_lt b
    exact ascii_cons (b64Char_ascii _ (by omega)) (ascii_cons (b64Char_ascii _ (by omega))
      (ascii_cons (b64Char_ascii _ (by omega)) (ascii_cons (by decide) ascii_nil)))
  | a :: b :: c :: l => by
    have ha := u8_lt a
    have hb := u8_lt b
    have hc := u8_lt c
    exact ascii_cons (b64Char_ascii _ (by omega)) (ascii_cons (b64Char_ascii _ (by omega))
      (ascii_cons (b64Char_ascii _ (by omega)) (ascii_cons (b64Char_ascii _ (by omega)) (b64Encode_ascii l))))

theorem hexChar_ascii : ∀ n, n < 16 → (hexChar n).toNat < 128 := by decide

theorem escChar_ascii (c : Char) (h : c.toNat < 128) : Ascii (escChar c) := by
  unfold escChar
  repeat' split
  all_goals first
    | exact ascii_cons (by decide) (ascii_cons (by decide) ascii_nil)
    | exact ascii_cons h ascii_nil
    | exact ascii_cons (by decide) (ascii_cons (by decide) (ascii_cons (hexChar_ascii _ (by omega))
        (ascii_cons (hexChar_ascii _ (by omega)) (ascii_cons (hexChar_ascii _ (by omega))
          (ascii_cons (hexChar_ascii _ (by omega)) ascii_nil)))))

theorem escStr_ascii : ∀ s : List Char, Ascii s → Ascii (escStr s)
  | [], _ => ascii_nil
  | c :: s, h => ascii_append (escChar_ascii c (h c (by simp))) (escStr_ascii s (fun d hd => h d (by simp [hd])))

theorem natDigitsAux_ascii : ∀ fuel n, Ascii (natDigitsAux fuel n)
  | 0, n => ascii_cons (by have := (digit_val (n % 10) (by omega)).2.1; omega) ascii_nil
  | fuel + 1, n => by
    unfold natDigitsAux
    split
    · rename_i h
      exact ascii_cons (by have := (digit_val n h).2.1; omega) ascii_nil
    · exact ascii_append (natDigitsAux_ascii fuel _)
        (ascii_cons (by have := (digit_val (n % 10) (by omega)).2.1; omega) ascii_nil)

theorem intDigits_ascii (n : Int) : Ascii (intDigits n) := by
  unfold intDigits
  split
  · exact ascii_cons (by decide) (natDigitsAux_ascii _ _)
  · exact natDigitsAux_ascii _ _

theorem jsonBytes_ascii (b : Option Bytes) : Ascii (render (jsonBytes b)) := by
  cases b with
  | none => intro c hc; simp [jsonBytes, render] at hc; rcases hc with rfl | rfl | rfl <;> decide
  | some b =>
    simp only [jsonBytes, render]
    exact ascii_cons (by decide) (ascii_append (escStr_ascii _ (b64Encode_ascii b)) (ascii_cons (by decide) ascii_nil))

theorem renderElems_ascii : ∀ xs : List Json, (∀ x ∈ xs, Ascii (render x)) → Ascii (renderElems xs)
  | [], _ => by rw [renderElems]; exact ascii_cons (by decide) ascii_nil
  | x :: xs, h => by
    rw [renderElems]
    exact ascii_cons (by decide) (ascii_append (h x (by simp)) (renderElems_ascii xs (fun y hy => h y (by simp [hy]))))

theorem renderArr_ascii (xs : List Json) (h : ∀ x ∈ xs, Ascii (render x)) : Ascii (render (.arr xs)) := by
  cases xs with
  | nil => simp only [render]; exact ascii_cons (by decide) (ascii_cons (by decide) ascii_nil)
  | cons x xs =>
    simp only [render]
    exact ascii_cons (by decide) (ascii_append (h x (by simp)) (renderElems_ascii xs (fun y hy => h y (by simp [hy]))))

theorem pathJson_ascii (p : Option (List (Option Bytes))) : Ascii (render (pathJson p)) := by
  cases p with
  | none => exact jsonBytes_ascii none
  | some l =>
    apply renderArr_ascii
    intro x hx
    obtain ⟨b, _, rfl⟩ := List.mem_map.1 hx
    exact jsonBytes_ascii b

theorem indexJson_ascii (p : Option (List Int)) : Ascii (render (indexJson p)) := by
  cases p with
  | none => exact jsonBytes_ascii none
  | some l =>
    apply renderArr_ascii
    intro x hx
    obtain ⟨b, _, rfl⟩ := List.mem_map.1 hx
    simp only [render]
    exact intDigits_ascii b

theorem unjson_jsonBytes (b : Option Bytes) : unjsonBytes (jsonBytes b) = some b := by
  cases b with
  | none => rfl
  | some b => simp [jsonBytes, unjsonBytes, b64Decode_encode]

theorem mapM_map_some {α β : Type} (f : α → β) (g : β → Option α) (l : List α) (h : ∀ a ∈ l, g (f a) = some a) :
    (l.map f).mapM g = some l := by
  induction l with
  | nil => rfl
  | cons a l ih =>
    rw [List.map_cons, List.mapM_cons, h a (by simp), ih (fun b hb => h b (by simp [hb]))]
    rfl

theorem decPath_json (p : Option (List (Option Bytes))) : decPath (pathJson p) = some p := by
  cases p with
  | none => rfl
  | some l =>
    simp only [pathJson, decPath]
    rw [mapM_map_some _ _ _ (fun b _ => unjson_jsonBytes b)]
    rfl

theorem decIndex_json (p : Option (List Int)) (h : ∀ l, p = some l → ∀ n ∈ l, inI64 n) : decIndex (indexJson p) = some p := by
  cases p with
  | none => rfl
  | some l =>
    simp only [indexJson, decIndex]
    rw [mapM_map_some Json.num (fun x => decI64 (some x)) l]
    · rfl
    · intro n hn
      have := h l rfl n hn
      unfold inI64 at this
      simp [decI64, decNum, this]

theorem u32_be32 (n : Nat) (h : n < 4294967296) : u32 (be32 n) = n := by
  unfold u32 be32 bytesNum
  simp only [List.foldl_cons, List.foldl_nil, UInt8.toNat_ofNat']
  omega

theorem u32_lt {b : Bytes} (h : b.length = 4) : u32 b < 4294967296 := by
  have := bytesNum_lt b
  rw [h] at this
  exact this

theorem splitAtR_append (a b : Bytes) (n : Nat) (h : a.length = n) : splitAtR (a ++ b) n = .ok (a, b) := by
  unfold splitAtR
  subst h
  rw [if_pos (by simp)]
  simp

end FcRetrieval.Merkle
