import Verif.Lemmas.Merkle
/-!
# Properties of Merkle trees and proofs (C12–C15, C67, C68)
-/

set_option linter.unusedSimpArgs false

namespace FcRetrieval.Merkle
open FcRetrieval.Ids (Id Proper)

/-! ## concrete data for the examples -/

/-- A toy hash with 32-byte digests. -/
def toyHash : Hash := fun m => (m.foldl (fun a b => a * 31 + b + 7) 5) :: List.replicate 31 (UInt8.ofNat m.length)
theorem toyHash_digest : Digest32 toyHash := by intro m; simp [toyHash]
/-- Identifiers for the examples. -/
def exId (n : UInt8) : Id := List.replicate 31 0 ++ [n]
theorem exId_proper (n : UInt8) : Proper (exId n) := by simp [Proper, exId]

/-! ## equality of contents -/

theorem equals_iff {a b : Id} (ha : Proper a) (hb : Proper b) : Ids.equals a b = true ↔ a = b := by
  unfold Ids.equals
  rw [Ids.toStr_eq ha, Ids.toStr_eq hb]
  simp only [decide_eq_true_eq, beq_iff_eq]
  exact ⟨fun h => hexEncode_inj h, fun h => by rw [h]⟩

theorem leaves_proper {cs : List Id} (hne : cs ≠ []) (h : ∀ c ∈ cs, Proper c) : ∀ c ∈ leaves cs, Proper c :=
  fun c hc => h c ((mem_leaves cs hne c).1 hc)

theorem find_mem {cs : List Id} (hne : cs ≠ []) (h : ∀ c ∈ cs, Proper c) {x : Id} (hx : x ∈ cs) :
    ∃ i, (leaves cs).findIdx? (fun c => Ids.equals c x) = some i ∧ ∃ hi : i < (leaves cs).length, (leaves cs)[i] = x := by
  have hm := (mem_leaves cs hne x).2 hx
  cases hf : (leaves cs).findIdx? (fun c => Ids.equals c x) with
  | none =>
    rw [List.findIdx?_eq_none_iff] at hf
    have := hf x hm
    rw [(equals_iff (h x hx) (h x hx)).2 rfl] at this
    cases this
  | some i =>
    rw [List.findIdx?_eq_some_iff_getElem] at hf
    obtain ⟨hi, he, _⟩ := hf
    exact ⟨i, rfl, hi, (equals_iff (leaves_proper hne h _ (List.getElem_mem hi)) (h x hx)).1 he⟩

theorem find_not_mem {cs : List Id} (hne : cs ≠ []) (h : ∀ c ∈ cs, Proper c) {x : Id} (hp : Proper x) (hx : x ∉ cs) :
    (leaves cs).findIdx? (fun c => Ids.equals c x) = none := by
  rw [List.findIdx?_eq_none_iff]
  intro c hc
  cases he : Ids.equals c x with
  | false => rfl
  | true =>
    have := (equals_iff (leaves_proper hne h _ hc) hp).1 he
    subst this
    exact absurd ((mem_leaves cs hne c).1 hc) hx

/-! ## C12 completeness -/

/-- A tree has a root exactly when the list of contents is not empty; the root is written with lower-case hex digits. -/
theorem C12_root_exists (H : Hash) (cs : List Id) :
    (rootHex H cs = none ↔ cs = []) ∧ ∀ r, rootHex H cs = some r → ∃ b, rootBytes H cs = some b ∧ r = hexEncode b := by
  unfold rootHex rootBytes
  by_cases h : cs = []
  · simp [h]
  · simp [h]

/-- The root is that of the usual binary tree: neighbours are hashed together level by level until one digest is left, a last
node without a neighbour with itself; a single content counts as two. -/
theorem C12_root_value (H : Hash) (cs : List Id) :
    rootBytes H cs = match cs with
      | [] => none
      | [a] => some (H (a ++ a))
      | cs => some (treeRoot H cs) := by
  have key : ∀ (fuel : Nat) (nl : List Bytes), 2 ≤ nl.length → nl.length ≤ fuel → buildRoot H fuel nl = treeRoot H nl := by
    intro fuel
    induction fuel with
    | zero => intro nl h1 h2; omega
    | succ fuel ih =>
      intro nl h1 h2
      match nl, h1 with
      | [a, b], _ => simp [buildRoot, pairUp, treeRoot, pairs]
      | a :: b :: c :: l, _ =>
        have hl := pairUp_length H (a :: b :: c :: l)
        simp only [List.length_cons] at hl h2
        rw [buildRoot, if_neg (by simp), ih _ (by omega) (by omega), treeRoot, pairUp_eq_map]
  have odd : ∀ (nl : List Bytes), nl.length % 2 = 1 → pairs (nl ++ [nl.getLastD []]) = pairs nl := by
    intro nl
    induction nl using pairs.induct with
    | case1 => intro h; simp at h
    | case2 a => intro _; rfl
    | case3 a b l ih =>
      intro h
      have hl : l.length % 2 = 1 := by simp at h; omega
      have hne : l ≠ [] := by rintro rfl; simp at hl
      have e : (a :: b :: l).getLastD [] = l.getLastD [] := by
        cases l with
        | nil => exact absurd rfl hne
        | cons c l => rfl
      rw [e]
      simp only [List.cons_append, pairs, ih hl]
  match cs with
  | [] => rfl
  | [a] => simp [rootBytes, leaves, buildRoot, pairUp]
  | a :: b :: l =>
    unfold rootBytes
    rw [if_neg (by simp), key _ _ (leaves_length _ (by simp)) (Nat.le_refl _)]
    congr 1
    unfold leaves
    split
    · rename_i h
      have e := odd (a :: b :: l) h
      simp only [List.cons_append] at e ⊢
      rw [treeRoot, e, treeRoot]
    · rfl

/-- For every hash function, every non-empty list of contents and every content in it (repetitions allowed), the proof
generated for the content is accepted against the root of the tree. -/
theorem C12_generated_proof_verifies (H : Hash) (cs : List Id) (hcs : ∀ c ∈ cs, Proper c) (x : Id) (hx : x ∈ cs) :
    ∃ root, rootHex H cs = some root ∧ verify H (generate H cs x) (some x) root = .ok true := by
  have hne : cs ≠ [] := by rintro rfl; cases hx
  obtain ⟨i, hf, hi, he⟩ := find_mem hne hcs hx
  refine ⟨hexEncode (buildRoot H (leaves cs).length (leaves cs)), by simp [rootHex, rootBytes, hne], ?_⟩
  have hl := verifyLoop_path H (leaves cs).length (leaves cs) i (leaves_length cs hne) (Nat.le_refl _) hi
  have hg : (leaves cs).getD i [] = x := by
    rw [List.getD_eq_getElem?_getD, List.getElem?_eq_getElem hi, Option.getD_some, he]
  rw [hg] at hl
  simp only [verify, generate, hf, Option.getD_some, hl]
  simp

example : verify toyHash (generate toyHash [exId 1, exId 2, exId 3] (exId 3)) (some (exId 3))
    ((rootHex toyHash [exId 1, exId 2, exId 3]).getD []) = .ok true := by
  obtain ⟨r, h1, h2⟩ := C12_generated_proof_verifies toyHash [exId 1, exId 2, exId 3]
    (by intro c hc; simp at hc; rcases hc with rfl | rfl | rfl <;> exact exId_proper _) (exId 3) (by simp)
  rw [h1]; exact h2

/-- The root does not change when the last of an odd number of contents is repeated: lists of contents are not determined by
their roots. -/
theorem C12_root_ignores_repeated_last (H : Hash) (cs : List Id) (x : Id) (h : cs.length % 2 = 0) :
    rootHex H (cs ++ [x]) = rootHex H (cs ++ [x, x]) := by
  have e1 : leaves (cs ++ [x]) = cs ++ [x, x] := by
    unfold leaves
    rw [if_pos (by simp; omega)]
    simp
  have e2 : leaves (cs ++ [x, x]) = cs ++ [x, x] := by
    unfold leaves
    rw [if_neg (by simp; omega)]
  unfold rootHex rootBytes
  rw [if_neg (by simp), if_neg (by simp), e1, e2]
example : rootHex toyHash [exId 1] = rootHex toyHash [exId 1, exId 1] := C12_root_ignores_repeated_last toyHash [] (exId 1) rfl

/-! ## C13 soundness -/

theorem verify_ok {H : Hash} {pr : Proof} {x : Id} {root : List Char} (h : verify H pr (some x) root = .ok true) :
    ∃ cur, verifyLoop H (pr.path.getD []) (pr.index.getD []) x = .ok cur ∧ hexEncode cur = root := by
  simp only [verify] at h
  cases hv : verifyLoop H (pr.path.getD []) (pr.index.getD []) x with
  | ok cur =>
    rw [hv] at h
    simp only [Res.ok.injEq, decide_eq_true_eq] at h
    exact ⟨cur, rfl, h⟩
  | err => rw [hv] at h; simp at h
  | panic => rw [hv] at h; simp at h

theorem sound_core (H : Hash) (hH : Digest32 H) (cs : List Id) (hcs : ∀ c ∈ cs, Proper c) (root : List Char)
    (hroot : rootHex H cs = some root) (pr : Proof) (x : Id) (hx : Proper x) (hno : NoCollision H pr x cs)
    (hv : verify H pr (some x) root = .ok true) :
    ∃ d, lvl H (leaves cs) (d + 1) = [buildRoot H (leaves cs).length (leaves cs)] ∧
      (∀ k, k ≤ d → ∀ m ∈ pairs (lvl H (leaves cs) k), m ∈ treeInputs H (leaves cs).length (leaves cs)) ∧
      (∀ i, (pathAux H (leaves cs).length (leaves cs) i).length = d + 1) ∧
      ((∃ i, i ≤ d + 1 ∧ i + (pr.path.getD []).length = d + 1 ∧ x ∈ lvl H (leaves cs) i) ∨
        ∃ m ∈ proofInputs H (pr.path.getD []) (pr.index.getD []) x, H m ∈ leaves cs) := by
  have hne : cs ≠ [] := by rintro rfl; simp [rootHex, rootBytes] at hroot
  obtain ⟨d, e1, e2, e3⟩ := tree_shape H (leaves cs).length (leaves cs) (leaves_length cs hne) (Nat.le_refl _)
  refine ⟨d, e1, e2, e3, ?_⟩
  obtain ⟨cur, hl, hc⟩ := verify_ok hv
  have hr : hexEncode (buildRoot H (leaves cs).length (leaves cs)) = root := by
    simpa [rootHex, rootBytes, hne] using hroot
  have hcr : cur = buildRoot H (leaves cs).length (leaves cs) := hexEncode_inj (hc.trans hr.symm)
  obtain ⟨ss, s1, s2, s3⟩ := verifyLoop_climb H _ _ _ _ hl
  unfold NoCollision at hno
  rw [← s3] at hno ⊢
  rw [← s1]
  exact descend H hH (leaves cs) (leaves_proper hne hcs) _ d e2 x hx _ ss (d + 1) rfl (Nat.le_refl _)
    (by rw [e1, s2, hcr]; simp) hno

/-- What an accepted proof shows, whatever its shape, if no string hashed in the verification collides with one hashed in
building the tree: the content is in the list, or it is itself the digest of one of the strings hashed in building the
tree, or one of the contents of the list is the digest of a string the proof supplies.
The full property (the content is in the list) fails: see `C13_tree_node_passes_as_content_refuted`. -/
theorem C13_accepted_partial (H : Hash) (hH : Digest32 H) (cs : List Id) (hcs : ∀ c ∈ cs, Proper c) (root : List Char)
    (hroot : rootHex H cs = some root) (pr : Proof) (x : Id) (hx : Proper x) (hno : NoCollision H pr x cs)
    (hv : verify H pr (some x) root = .ok true) :
    x ∈ cs ∨ (∃ m ∈ treeInputs H (leaves cs).length (leaves cs), x = H m) ∨
      ∃ m ∈ proofInputs H (pr.path.getD []) (pr.index.getD []) x, H m ∈ cs := by
  have hne : cs ≠ [] := by rintro rfl; simp [rootHex, rootBytes] at hroot
  obtain ⟨d, _, e2, _, h | ⟨m, h1, h2⟩⟩ := sound_core H hH cs hcs root hroot pr x hx hno hv
  · obtain ⟨i, h1, _, h3⟩ := h
    cases i with
    | zero => exact Or.inl ((mem_leaves cs hne x).1 h3)
    | succ i =>
      rw [lvl, pairUp_eq_map, List.mem_map] at h3
      obtain ⟨m, hm, he⟩ := h3
      exact Or.inr (Or.inl ⟨m, e2 i (by omega) m hm, he.symm⟩)
  · exact Or.inr (Or.inr ⟨m, h1, (mem_leaves cs hne _).1 h2⟩)

/-- Soundness for proofs that have as many steps as the proofs the tree generates: if no string hashed in the verification
collides with one hashed in building the tree, the content is in the list.  Missing: `VerifyContent` does not know the number
of steps, so it accepts other proofs. -/
theorem C13_sound_for_full_length_partial (H : Hash) (hH : Digest32 H) (cs : List Id) (hcs : ∀ c ∈ cs, Proper c)
    (root : List Char) (hroot : rootHex H cs = some root) (pr : Proof) (x : Id) (hx : Proper x)
    (y : Id) (hy : y ∈ cs) (hlen : (pr.path.getD []).length = ((generate H cs y).path.getD []).length)
    (hno : NoCollision H pr x cs) (hv : verify H pr (some x) root = .ok true) : x ∈ cs := by
  have hne : cs ≠ [] := by rintro rfl; simp [rootHex, rootBytes] at hroot
  obtain ⟨i, hf, _, _⟩ := find_mem hne hcs hy
  obtain ⟨cur, hl, hc⟩ := verify_ok hv
  have hr : hexEncode (buildRoot H (leaves cs).length (leaves cs)) = root := by
    simpa [rootHex, rootBytes, hne] using hroot
  have hcr : cur = buildRoot H (leaves cs).length (leaves cs) := hexEncode_inj (hc.trans hr.symm)
  obtain ⟨d, e1, e2, e3⟩ := tree_shape H (leaves cs).length (leaves cs) (leaves_length cs hne) (Nat.le_refl _)
  have hlen' : (pr.path.getD []).length = d + 1 := by
    rw [hlen]
    simp [generate, hf, e3]
  obtain ⟨ss, s1, s2, s3⟩ := verifyLoop_climb H _ _ _ _ hl
  unfold NoCollision at hno
  rw [← s3] at hno
  -- a chain of exactly d + 1 steps down from the root ends at a leaf
  have key : ∀ (n : Nat) (ss : List (Bytes × Int)) (j : Nat), ss.length = n → j = n → j ≤ d + 1 →
      climb H ss x ∈ lvl H (leaves cs) j →
      (∀ m ∈ climbInputs H ss x, ∀ m' ∈ treeInputs H (leaves cs).length (leaves cs), H m = H m' → m = m') →
      x ∈ leaves cs := by
    intro n
    induction n with
    | zero =>
      intro ss j h1 h2 _ hc _
      have : ss = [] := List.length_eq_zero_iff.1 h1
      subst this; subst h2
      exact hc
    | succ n ih =>
      intro ss j h1 h2 hj hc hno
      have hsne : ss ≠ [] := by rintro rfl; simp at h1
      obtain ⟨t, s, rfl⟩ : ∃ t s, ss = t ++ [s] := ⟨ss.dropLast, ss.getLast hsne, (List.dropLast_concat_getLast hsne).symm⟩
      subst h2
      rw [climb_snoc, lvl, pairUp_eq_map, List.mem_map] at hc
      rw [climbInputs_snoc] at hno
      obtain ⟨m', hm', he⟩ := hc
      have e := hno _ (by simp) _ (e2 n (by omega) m' hm') he.symm
      obtain ⟨l, hl', r, hr', rfl⟩ := pairs_mem _ _ hm'
      have ll := lvl_digest H hH _ (leaves_proper hne hcs) n l hl'
      have lr := lvl_digest H hH _ (leaves_proper hne hcs) n r hr'
      have lc := climb_length H hH t x hx
      refine ih t n (by simpa using h1) rfl (by omega) ?_ (fun m hm => hno m (List.mem_append_left _ hm))
      unfold joinStep at e
      split at e
      · obtain ⟨e1, _⟩ := append_inj32 e (lc.trans ll.symm)
        rw [e1]; exact hl'
      · have hlen := congrArg List.length e
        simp only [List.length_append] at hlen
        obtain ⟨_, e2⟩ := append_inj32 e (by omega)
        rw [e2]; exact hr'
  exact (mem_leaves cs hne x).1 (key (d + 1) ss (d + 1) (by omega) rfl (Nat.le_refl _) (by rw [e1, s2, hcr]; simp) hno)

/-- The hypotheses are met by an honest proof when the tree has no collision among its own strings. -/
example : ∃ x ∈ [exId 1, exId 2, exId 3], NoCollision toyHash (generate toyHash [exId 1, exId 2, exId 3] x) x [exId 1, exId 2, exId 3] ∧
    verify toyHash (generate toyHash [exId 1, exId 2, exId 3] x) (some x)
      ((rootHex toyHash [exId 1, exId 2, exId 3]).getD []) = .ok true := by
  refine ⟨exId 2, by simp, ?_, ?_⟩
  · unfold NoCollision; decide +kernel
  · decide +kernel

/-- For every hash function with 32-byte digests and every list of contents, the root itself is accepted as a content, with
the empty proof.  (It is not in the list unless a content equals the root.) -/
theorem C13_tree_node_passes_as_content_refuted (H : Hash) (cs : List Id) (b : Bytes) (hb : rootBytes H cs = some b) :
    ∃ root, rootHex H cs = some root ∧ verify H { path := none, index := none } (some b) root = .ok true := by
  refine ⟨hexEncode b, by simp [rootHex, hb], ?_⟩
  simp [verify, verifyLoop]

/-- The same with inner nodes: what remains of an accepted proof after any number of its steps is an accepted proof for the
value computed by those steps. -/
theorem C13_inner_node_passes_refuted (H : Hash) (p : Option Bytes) (ps : List (Option Bytes)) (i : Int) (is : List Int)
    (x : Id) (root : List Char)
    (h : verify H { path := some (p :: ps), index := some (i :: is) } (some x) root = .ok true) :
    verify H { path := some ps, index := some is }
      (some (if i = 1 then H (x ++ p.getD []) else H (p.getD [] ++ x))) root = .ok true := h

/-- A list, and a value that is not in it, with a proof that is accepted. -/
theorem C13_sound_refuted : ∃ (cs : List Id) (x : Id) (pr : Proof) (root : List Char),
    (∀ c ∈ cs, Proper c) ∧ Proper x ∧ rootHex toyHash cs = some root ∧ NoCollision toyHash pr x cs ∧ x ∉ cs ∧
    verify toyHash pr (some x) root = .ok true := by
  refine ⟨[exId 1, exId 2], toyHash (exId 1 ++ exId 2), ⟨none, none⟩, hexEncode (toyHash (exId 1 ++ exId 2)), ?_, ?_, ?_, ?_, ?_, ?_⟩
  · intro c hc; simp at hc; rcases hc with rfl | rfl <;> exact exId_proper _
  · exact toyHash_digest _
  · rfl
  · unfold NoCollision; intro m hm; simp [proofInputs] at hm
  · decide +kernel
  · decide +kernel

/-! ## C14, C67 content that is not in the list -/

/-- For a content that is not in the list the generated proof is the one without steps; generating never fails, so nothing
tells the caller. -/
theorem C67_missing_content_refuted (H : Hash) (cs : List Id) (hcs : ∀ c ∈ cs, Proper c) (hne : cs ≠ []) (x : Id)
    (hx : Proper x) (hnot : x ∉ cs) : generate H cs x = { path := none, index := none } := by
  simp [generate, find_not_mem hne hcs hx hnot]
example : generate toyHash [exId 1, exId 2] (exId 3) = { path := none, index := none } :=
  C67_missing_content_refuted toyHash _ (by intro c hc; simp at hc; rcases hc with rfl | rfl <;> exact exId_proper _) (by simp)
    _ (exId_proper 3) (by decide +kernel)

/-- What does hold: a proof has steps exactly when the content is in the list, and then one index for each step. -/
theorem C67_steps_iff_in_list_partial (H : Hash) (cs : List Id) (hcs : ∀ c ∈ cs, Proper c) (hne : cs ≠ []) (x : Id)
    (hx : Proper x) :
    ((generate H cs x).path ≠ none ↔ x ∈ cs) ∧
    (((generate H cs x).path.getD []) ≠ [] ↔ x ∈ cs) ∧
    ((generate H cs x).path.getD []).length = ((generate H cs x).index.getD []).length := by
  by_cases hm : x ∈ cs
  · obtain ⟨i, hf, _, _⟩ := find_mem hne hcs hm
    obtain ⟨d, _, _, e3⟩ := tree_shape H (leaves cs).length (leaves cs) (leaves_length cs hne) (Nat.le_refl _)
    have : pathAux H (leaves cs).length (leaves cs) i ≠ [] := by
      intro h; have := e3 i; rw [h] at this; simp at this
    simp [generate, hf, hm, this]
  · simp [generate, find_not_mem hne hcs hx hm, hm]
example : ((generate toyHash [exId 1, exId 2, exId 3] (exId 3)).path.getD []).length = 2 := by decide +kernel

/-- The proof generated for a content that is not in the list is rejected, unless that content is the root itself. -/
theorem C14_missing_content_rejected_partial (H : Hash) (cs : List Id) (hcs : ∀ c ∈ cs, Proper c) (b : Bytes)
    (hb : rootBytes H cs = some b) (x : Id) (hx : Proper x) (hnot : x ∉ cs) :
    ∃ root, rootHex H cs = some root ∧ verify H (generate H cs x) (some x) root = .ok (decide (x = b)) := by
  have hne : cs ≠ [] := by rintro rfl; simp [rootBytes] at hb
  refine ⟨hexEncode b, by simp [rootHex, hb], ?_⟩
  rw [C67_missing_content_refuted H cs hcs hne x hx hnot]
  simp only [verify, verifyLoop, Option.getD_none]
  congr 1
  by_cases h : x = b
  · simp [h]
  · have : hexEncode x ≠ hexEncode b := fun e => h (hexEncode_inj e)
    simp [h, this]
example : verify toyHash (generate toyHash [exId 1, exId 2] (exId 3)) (some (exId 3))
    ((rootHex toyHash [exId 1, exId 2]).getD []) = .ok false := by decide +kernel

/-- The exception is real: the proof generated for the root, which is not in the list, is accepted. -/
theorem C14_root_accepted_refuted : ∃ (cs : List Id) (x : Id) (root : List Char), (∀ c ∈ cs, Proper c) ∧ Proper x ∧ x ∉ cs ∧
    rootHex toyHash cs = some root ∧ verify toyHash (generate toyHash cs x) (some x) root = .ok true := by
  refine ⟨[exId 1, exId 2], toyHash (exId 1 ++ exId 2), hexEncode (toyHash (exId 1 ++ exId 2)), ?_, ?_, ?_, ?_, ?_⟩
  · intro c hc; simp at hc; rcases hc with rfl | rfl <;> exact exId_proper _
  · exact toyHash_digest _
  · decide +kernel
  · rfl
  · decide +kernel

/-! ## C68 -/

/-- Verifying returns an answer, never an error, exactly when there is a content and every step has an index; otherwise the
process panics. -/
theorem C68_answers_iff_partial (H : Hash) (pr : Proof) (x : Option Id) (root : List Char) :
    ((∃ b, verify H pr x root = .ok b) ↔ x ≠ none ∧ (pr.path.getD []).length ≤ (pr.index.getD []).length) ∧
    (verify H pr x root = .panic ↔ ¬ (x ≠ none ∧ (pr.path.getD []).length ≤ (pr.index.getD []).length)) := by
  have key : ∀ (ps : List (Option Bytes)) (is : List Int) (cur : Bytes),
      (ps.length ≤ is.length → ∃ c, verifyLoop H ps is cur = .ok c) ∧
      (¬ ps.length ≤ is.length → verifyLoop H ps is cur = .panic) := by
    intro ps
    induction ps with
    | nil => intro is cur; simp [verifyLoop]
    | cons p ps ih =>
      intro is cur
      cases is with
      | nil => simp [verifyLoop]
      | cons i is =>
        simp only [verifyLoop, List.length_cons, Nat.add_le_add_iff_right]
        exact ih is _
  cases x with
  | none => simp [verify]
  | some x =>
    by_cases h : (pr.path.getD []).length ≤ (pr.index.getD []).length
    · obtain ⟨c, hc⟩ := (key _ _ x).1 h
      simp [verify, hc, h]
    · simp [verify, (key _ _ x).2 h, h]

/-- A proof that decodes without error and makes the verifier panic. -/
theorem C68_received_proof_panics_refuted : ∃ (j : Json) (pr : Proof), unmarshal j = .ok pr ∧
    ∀ (H : Hash) (x : Id) (root : List Char), verify H pr (some x) root = .panic := by
  refine ⟨marshal ⟨some [some [0]], some []⟩, ⟨some [some [0]], some []⟩, by decide +kernel, ?_⟩
  intro H x root
  simp [verify, verifyLoop]

/-! ## C15 serialisation -/

theorem unmarshalBytes_parts (p i : Bytes) (rest : Bytes) (hp : p.length < 4294967296) (hi : i.length < 4294967296) (hi0 : i ≠ [])
    (hrest : rest = p ++ (be32 i.length ++ i)) :
    unmarshalBytes (be32 p.length ++ rest) =
      ((Res.ofOption ((parseJson (asciiText p)).bind decPath)) >>= fun path =>
        (Res.ofOption ((parseJson (asciiText i)).bind decIndex)) >>= fun index => Res.ok { path := path, index := index }) := by
  subst hrest
  have hl : ∀ n, (be32 n).length = 4 := fun _ => rfl
  have h0 : 0 < i.length := List.length_pos_iff.2 hi0
  unfold unmarshalBytes
  rw [if_neg (by simp [hl]; omega), splitAtR_append _ _ 4 (hl _)]
  simp only [Res.bind_ok, Res.pure_ok]
  rw [u32_be32 _ hp, if_neg (by simp [hl]; omega), splitAtR_append _ _ p.length rfl]
  simp only [Res.bind_ok]
  cases (parseJson (asciiText p)).bind decPath with
  | none => rfl
  | some path =>
    simp only [Res.ofOption, Res.bind_ok]
    rw [if_neg (by simp [hl]; omega), splitAtR_append _ _ 4 (hl _)]
    simp only [Res.bind_ok]
    rw [u32_be32 _ hi, if_neg (by simp)]

/-- A proof that is encoded and decoded is unchanged, provided its indices are `int64` values and the JSON texts of its two
parts are shorter than 2^32 bytes (for a generated proof of d steps: about 49 d bytes and 2 d bytes). -/
theorem C15_round_trip (pr : Proof) (hidx : ∀ l, pr.index = some l → ∀ n ∈ l, inI64 n)
    (hp : (render (pathJson pr.path)).length < 4294967296) (hi : (render (indexJson pr.index)).length < 4294967296) :
    unmarshal (marshal pr) = .ok pr := by
  unfold unmarshal marshal
  rw [unjson_jsonBytes]
  simp only [Option.getD_some]
  have hne : asciiBytes (render (indexJson pr.index)) ≠ [] := by
    intro h
    have h' : render (indexJson pr.index) = [] := by simpa [asciiBytes] using h
    have := parseJson_render (indexJson pr.index)
    rw [h'] at this
    have e : parseJson [] = none := by decide +kernel
    rw [e] at this
    cases this
  unfold marshalBytes
  simp only [List.append_assoc]
  rw [unmarshalBytes_parts (asciiBytes (render (pathJson pr.path))) (asciiBytes (render (indexJson pr.index))) _
    (by simpa [asciiBytes] using hp) (by simpa [asciiBytes] using hi) hne rfl]
  rw [asciiText_bytes _ (pathJson_ascii _), asciiText_bytes _ (indexJson_ascii _), parseJson_render, parseJson_render]
  simp only [Option.bind_some, decPath_json, decIndex_json _ hidx, Res.ofOption, Res.bind_ok]

example : unmarshal (marshal ⟨some [some [1, 2], none], some [0, 1, -5]⟩) = .ok ⟨some [some [1, 2], none], some [0, 1, -5]⟩ := by
  decide +kernel

/-- Decoding never panics, whatever the JSON value. -/
theorem C15_decode_never_panics (j : Json) : unmarshal j ≠ .panic := by
  unfold unmarshal
  cases unjsonBytes j with
  | none => simp
  | some ob =>
    simp only
    generalize ob.getD [] = c
    unfold unmarshalBytes
    split
    · simp
    · rename_i h
      have e : splitAtR c 4 = .ok (c.take 4, c.drop 4) := by unfold splitAtR; rw [if_pos (by omega)]
      rw [e]
      simp only [Res.bind_ok, Res.pure_ok]
      split
      · simp
      · rename_i h1
        have e : splitAtR (c.drop 4) (u32 (c.take 4)) = .ok ((c.drop 4).take (u32 (c.take 4)), (c.drop 4).drop (u32 (c.take 4))) := by
          unfold splitAtR; rw [if_pos (by omega)]
        rw [e]
        simp only [Res.bind_ok]
        cases (parseJson (asciiText ((c.drop 4).take (u32 (c.take 4))))).bind decPath with
        | none => simp [Res.ofOption]
        | some path =>
          simp only [Res.ofOption, Res.bind_ok]
          split
          · simp
          · rename_i h2
            generalize (c.drop 4).drop (u32 (c.take 4)) = c2 at *
            have e : splitAtR c2 4 = .ok (c2.take 4, c2.drop 4) := by unfold splitAtR; rw [if_pos (by omega)]
            rw [e]
            simp only [Res.bind_ok]
            split
            · simp
            · cases (parseJson (asciiText (c2.drop 4))).bind decIndex with
              | none => simp
              | some i => simp

/-- Exactly what decodes: bytes that consist of two blocks, each a 32-bit length (high byte first) and a text of that length,
with nothing after them; the first text is the JSON of a list of byte strings, the second, not empty, that of a list of `int64` values. -/
theorem C15_decodes_iff (b : Bytes) (pr : Proof) :
    unmarshalBytes b = .ok pr ↔ ∃ p i : Bytes, b = be32 p.length ++ p ++ be32 i.length ++ i ∧ p.length < 4294967296 ∧
      i.length < 4294967296 ∧ i ≠ [] ∧
      (∃ j, parseJson (asciiText p) = some j ∧ decPath j = some pr.path) ∧
      ∃ j, parseJson (asciiText i) = some j ∧ decIndex j = some pr.index := by
  have be : ∀ c : Bytes, 4 ≤ c.length → be32 (u32 (c.take 4)) = c.take 4 := by
    intro c hc
    match c, hc with
    | x :: y :: z :: w :: l, _ =>
      have hx := u8_lt x
      have hy := u8_lt y
      have hz := u8_lt z
      have hw := u8_lt w
      simp only [List.take_succ_cons, List.take_zero, u32, bytesNum, List.foldl_cons, List.foldl_nil, be32]
      rw [u8_ofNat_eq (b := x) (by omega), u8_ofNat_eq (b := y) (by omega), u8_ofNat_eq (b := z) (by omega),
        u8_ofNat_eq (b := w) (by omega)]
  constructor
  · intro hu
    unfold unmarshalBytes at hu
    split at hu
    · simp at hu
    · rename_i h
      have e : splitAtR b 4 = .ok (b.take 4, b.drop 4) := by unfold splitAtR; rw [if_pos (by omega)]
      rw [e] at hu
      simp only [Res.bind_ok, Res.pure_ok] at hu
      have hbe := be b (by omega)
      have hlt := u32_lt (b := b.take 4) (by simp; omega)
      have hb : b = b.take 4 ++ b.drop 4 := (List.take_append_drop 4 b).symm
      generalize b.take 4 = b4 at *
      generalize b.drop 4 = c at *
      split at hu
      · simp at hu
      · rename_i h1
        have e : splitAtR c (u32 b4) = .ok (c.take (u32 b4), c.drop (u32 b4)) := by
          unfold splitAtR; rw [if_pos (by omega)]
        rw [e] at hu
        simp only [Res.bind_ok] at hu
        have hc : c = c.take (u32 b4) ++ c.drop (u32 b4) := (List.take_append_drop _ c).symm
        have hpl : (c.take (u32 b4)).length = u32 b4 := by simp; omega
        generalize c.take (u32 b4) = p at *
        generalize c.drop (u32 b4) = c2 at *
        cases hpp : (parseJson (asciiText p)).bind decPath with
        | none => rw [hpp] at hu; simp [Res.ofOption] at hu
        | some path =>
          rw [hpp] at hu
          simp only [Res.ofOption, Res.bind_ok] at hu
          split at hu
          · simp at hu
          · rename_i h2
            have e : splitAtR c2 4 = .ok (c2.take 4, c2.drop 4) := by unfold splitAtR; rw [if_pos (by omega)]
            rw [e] at hu
            simp only [Res.bind_ok] at hu
            have hbe2 := be c2 (by omega)
            have hlt2 := u32_lt (b := c2.take 4) (by simp; omega)
            have hb2 : c2 = c2.take 4 ++ c2.drop 4 := (List.take_append_drop 4 c2).symm
            have hil : (c2.drop 4).length = c2.length - 4 := by simp
            generalize c2.take 4 = b42 at *
            generalize c2.drop 4 = i at *
            split at hu
            · simp at hu
            · rename_i h3
              cases hii : (parseJson (asciiText i)).bind decIndex with
              | none => rw [hii] at hu; simp at hu
              | some idx =>
                rw [hii] at hu
                simp only [Res.bind_ok, Res.ok.injEq] at hu
                subst hu
                have h3' : i.length = u32 b42 := by omega
                refine ⟨p, i, ?_, by omega, by omega, ?_, ?_, ?_⟩
                · rw [hb, hc, hb2, h3', hbe2, hpl, hbe]; simp
                · intro h0; rw [h0] at hil; simp at hil; omega
                · cases hpj : parseJson (asciiText p) with
                  | none => rw [hpj] at hpp; simp at hpp
                  | some j => rw [hpj] at hpp; exact ⟨j, rfl, hpp⟩
                · cases hpj : parseJson (asciiText i) with
                  | none => rw [hpj] at hii; simp at hii
                  | some j => rw [hpj] at hii; exact ⟨j, rfl, hii⟩
  · rintro ⟨p, i, rfl, h1, h2, h3, ⟨j, hj, hd⟩, ⟨j', hj', hd'⟩⟩
    rw [List.append_assoc, List.append_assoc, unmarshalBytes_parts p i _ h1 h2 h3 rfl, hj, hj']
    simp [hd, hd', Res.ofOption]

end FcRetrieval.Merkle
