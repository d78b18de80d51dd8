import Verif.Lemmas.JsMerkle
import Verif.Props.Merkle
/-!
# Merkle trees of the JavaScript client (C173), roots and lists (C174)
-/

set_option linter.unusedSimpArgs false

namespace FcRetrieval.JsMerkle
open FcRetrieval.Ids (Id Proper)
open FcRetrieval.Merkle (Hash Digest32 toyHash toyHash_digest exId exId_proper)

theorem getLastD_mem {xs : List Bytes} (h : xs ≠ []) : xs.getLastD [] ∈ xs := by
  rw [List.getLastD_eq_getLast?, List.getLast?_eq_some_getLast h]
  exact List.getLast_mem h

theorem getLastD_map (H : Hash) {xs : List Bytes} (h : xs ≠ []) : (xs.map H).getLastD [] = H (xs.getLastD []) := by
  rw [List.getLastD_eq_getLast?, List.getLastD_eq_getLast?, List.getLast?_map, List.getLast?_eq_some_getLast h]
  rfl

theorem newTree_leaves (H : Hash) (xs : List Bytes) : (newTree H xs).2 = Merkle.leaves (xs.map H) := by
  unfold newTree Merkle.leaves
  by_cases h : xs.length % 2 = 1
  · have hne : xs ≠ [] := by rintro rfl; simp at h
    simp only [h, ne_eq, Nat.one_ne_zero, not_false_eq_true, if_true, List.length_map, List.map_append, List.map_cons, List.map_nil]
    rw [getLastD_map H hne]
  · have h0 : xs.length % 2 = 0 := by omega
    simp [h0]

theorem top_eq (H : Hash) (ls : List Bytes) : rootBytes H ls = top H ls.length ls := rfl

/-! ## C173 -/

/-- **C173**, proofs: the proof that a tree generates for one of its contents verifies against the root of the tree, for every list of contents and every content
in it. -/
theorem C173_proof_verifies_partial (H : Hash) (xs : List Bytes) (x : Bytes) (hx : x ∈ xs) :
    verifyContent H (generate H (newTree H xs).2 x) (H x) (getMerkleRoot H (newTree H xs).2) = true := by
  have hm : H x ∈ (newTree H xs).2 := by
    rw [newTree_leaves, Merkle.mem_leaves _ (by intro e; rw [List.map_eq_nil_iff] at e; rw [e] at hx; cases hx)]
    exact List.mem_map_of_mem hx
  generalize (newTree H xs).2 = ls at hm
  have hs := indexOf_isSome (H x) ls 0 none
  simp only [Option.isSome_none, Bool.false_or, hm, decide_true] at hs
  obtain ⟨i, hi⟩ := Option.isSome_iff_exists.1 hs
  rcases indexOf_some (H x) ls 0 none i hi with h | ⟨-, h⟩
  · cases h
  · unfold verifyContent generate getMerkleRoot
    rw [hi]
    simp only [decide_eq_true_eq]
    rw [climb_proof H ls.length ls i (H x) (by omega) (by simpa using h)]
    rfl

/-- Five contents, and the proof for the last, which stands in the tree twice. -/
example : verifyContent toyHash (generate toyHash (newTree toyHash [[1], [2], [3], [4], [5]]).2 [5]) (toyHash [5])
    (getMerkleRoot toyHash (newTree toyHash [[1], [2], [3], [4], [5]]).2) = true :=
  C173_proof_verifies_partial toyHash _ _ (by simp)

/-- **C173**, other contents: for a content whose hash is not among the leaves the proof is empty, and is accepted only if the hash is the root. -/
theorem C173_absent_partial (H : Hash) (xs : List Bytes) (x : Bytes) (hx : ∀ y ∈ xs, H x ≠ H y) :
    generate H (newTree H xs).2 x = [] ∧
      (verifyContent H (generate H (newTree H xs).2 x) (H x) (getMerkleRoot H (newTree H xs).2) = true ↔ H x = rootBytes H (newTree H xs).2) := by
  have hm : H x ∉ (newTree H xs).2 := by
    rw [newTree_leaves]
    by_cases hne : xs = []
    · subst hne; simp [Merkle.leaves]
    · rw [Merkle.mem_leaves _ (by simpa using hne)]
      intro h
      obtain ⟨y, hy, he⟩ := List.mem_map.1 h
      exact hx y hy he.symm
  generalize (newTree H xs).2 = ls at hm
  have hs := indexOf_isSome (H x) ls 0 none
  simp only [Option.isSome_none, Bool.false_or, hm, decide_false] at hs
  have hi : indexOf (H x) ls 0 none = none := by simpa using hs
  have hg : generate H ls x = [] := by unfold generate; rw [hi]
  refine ⟨hg, ?_⟩
  rw [hg]
  unfold verifyContent
  rw [decide_eq_true_eq]
  unfold climb getMerkleRoot
  exact ⟨fun h => hexEncode_inj h, fun h => by rw [h]⟩

example : verifyContent toyHash (generate toyHash (newTree toyHash [[1], [2], [3]]).2 [5]) (toyHash [5]) (getMerkleRoot toyHash (newTree toyHash [[1], [2], [3]]).2) = false := by
  have := (C173_absent_partial toyHash [[1], [2], [3]] [5] (by decide +kernel)).2
  rw [Bool.eq_false_iff, ne_eq, this]
  decide +kernel

/-- **C173**, beside Go: the root is the one that the tree of Go has over the same leaves, if the number of leaves is a power of two.  (Otherwise a node without a neighbour is
moved up here, and hashed with itself there.) -/
theorem C173_same_leaves_partial (H : Hash) (xs : List Bytes) (k : Nat) (hk : (newTree H xs).2.length = 2 ^ (k + 1)) :
    Merkle.rootBytes H (xs.map H) = some (rootBytes H (newTree H xs).2) ∧ Merkle.rootHex H (xs.map H) = some (getMerkleRoot H (newTree H xs).2) := by
  have hne : xs ≠ [] := by
    rintro rfl
    have := Nat.one_le_two_pow (n := k + 1)
    simp [newTree] at hk
    omega
  have h : Merkle.rootBytes H (xs.map H) = some (rootBytes H (newTree H xs).2) := by
    unfold Merkle.rootBytes
    rw [if_neg (by simpa using hne), ← newTree_leaves, top_eq]
    generalize (newTree H xs).2 = ls at hk
    have hp : 1 ≤ ls.length := by
      have := Nat.one_le_two_pow (n := k + 1)
      omega
    congr 1
    rw [show ls.length = (ls.length - 1) + 1 by omega]
    exact (top_pow H k _ _ ls hk (by omega) (by omega)).symm
  refine ⟨h, ?_⟩
  unfold Merkle.rootHex getMerkleRoot
  rw [h]
  rfl

example : Merkle.rootBytes toyHash ([[1], [2], [3]].map toyHash) = some (rootBytes toyHash (newTree toyHash [[1], [2], [3]]).2) :=
  (C173_same_leaves_partial toyHash [[1], [2], [3]] 1 (by decide)).1

/-- With six leaves the roots are not the same. -/
theorem C173_six_leaves_refuted : ∃ xs : List Bytes, xs.length = 6 ∧ Merkle.rootHex toyHash (xs.map toyHash) ≠ some (getMerkleRoot toyHash (newTree toyHash xs).2) :=
  ⟨[[1], [2], [3], [4], [5], [6]], by decide, by decide +kernel⟩

/-- The text of a CID. -/
def text (cid : Id) : Bytes := asciiBytes (hexEncode cid)

/-- **C173** fails for the CIDs of an offer: a leaf is the hash of the text of the CID here, and the CID itself in Go.  Whatever the hash function and whatever the list, the roots differ, if no
string hashed for the one tree collides with one hashed for the other and the first CID is not the hash of its own text. -/
theorem C173_same_root_refuted (H : Hash) (hH : Digest32 H) (cids : List Id) (hc : ∀ c ∈ cids, Proper c) (c0 : Id) (h0 : cids.head? = some c0) (hself : c0 ≠ H (text c0))
    (hap : Apart H (Merkle.treeInputs H (Merkle.leaves cids).length (Merkle.leaves cids)) (inputs H (newTree H (cids.map text)).2)) :
    Merkle.rootHex H cids ≠ some (getMerkleRoot H (newTree H (cids.map text)).2) := by
  have hne : cids ≠ [] := by rintro rfl; cases h0
  intro h
  have hrb : Merkle.rootBytes H cids = some (rootBytes H (newTree H (cids.map text)).2) := by
    unfold Merkle.rootHex getMerkleRoot at h
    cases hr : Merkle.rootBytes H cids with
    | none => rw [hr] at h; cases h
    | some b =>
      rw [hr] at h
      simp only [Option.map_some, Option.some.injEq] at h
      rw [hexEncode_inj h]
  unfold Merkle.rootBytes at hrb
  rw [if_neg hne, Option.some.injEq, top_eq] at hrb
  have hlv : (newTree H (cids.map text)).2.length = (Merkle.leaves cids).length := by
    rw [newTree_leaves]
    unfold Merkle.leaves
    simp only [List.length_map]
    split <;> simp
  have h2 := Merkle.leaves_length cids hne
  have hd : ∀ a ∈ (newTree H (cids.map text)).2, a.length = 32 := by
    intro a ha
    rw [newTree_leaves, Merkle.mem_leaves _ (by simpa using hne)] at ha
    obtain ⟨y, -, rfl⟩ := List.mem_map.1 ha
    exact hH y
  have := first_leaf H hH _ _ _ _ hlv.symm h2 (Nat.le_refl _) (by omega) (fun a ha => hc a ((Merkle.mem_leaves cids hne a).1 ha)) hd hap hrb
  rw [newTree_leaves] at this
  match cids, h0 with
  | c :: cs, h0 =>
    cases h0
    unfold Merkle.leaves at this
    simp only [List.map_cons, List.length_cons, List.length_map] at this
    split at this <;> simp at this <;> exact hself this

example : Merkle.rootHex toyHash [exId 1, exId 2, exId 3] ≠ some (getMerkleRoot toyHash (newTree toyHash ([exId 1, exId 2, exId 3].map text)).2) :=
  C173_same_root_refuted toyHash toyHash_digest _ (by simp [exId_proper]) (exId 1) rfl (by decide +kernel) (by unfold Apart; decide +kernel)

/-- **C173** fails for the list of the caller: every list of odd length has its last content twice afterwards. -/
theorem C173_caller_list_refuted (H : Hash) (xs : List Bytes) (ho : xs.length % 2 = 1) : (newTree H xs).1 = xs ++ [xs.getLastD []] ∧ (newTree H xs).1 ≠ xs := by
  have : (newTree H xs).1 = xs ++ [xs.getLastD []] := by simp [newTree, ho]
  exact ⟨this, by rw [this]; simp⟩

example : (newTree toyHash [[1], [2], [3]]).1 = [[1], [2], [3], [3]] := (C173_caller_list_refuted toyHash [[1], [2], [3]] rfl).1

/-- What holds of the list of the caller: one of even length stays as it is, and a tree built again from the list as it is afterwards is the same tree. -/
theorem C173_caller_list_partial (H : Hash) (xs : List Bytes) : (xs.length % 2 = 0 → (newTree H xs).1 = xs) ∧ newTree H (newTree H xs).1 = newTree H xs := by
  refine ⟨fun h => by simp [newTree, h], ?_⟩
  by_cases h : xs.length % 2 = 1
  · have h2 : (xs.length + 1) % 2 = 0 := by omega
    simp [newTree, h, h2]
  · have h0 : xs.length % 2 = 0 := by omega
    simp [newTree, h0]

/-! ## C174 -/

theorem leaves_inj {cs cs' : List Bytes} (hl : cs.length = cs'.length) (h : Merkle.leaves cs = Merkle.leaves cs') : cs = cs' := by
  unfold Merkle.leaves at h
  rw [hl] at h
  split at h
  · exact (List.append_inj h hl).1
  · exact h

theorem map_inj (H : Hash) : ∀ {xs xs' : List Bytes}, Apart H xs xs' → xs.map H = xs'.map H → xs = xs'
  | [], [], _, _ => rfl
  | [], _ :: _, _, h => by simp at h
  | _ :: _, [], _, h => by simp at h
  | x :: xs, x' :: xs', ha, h => by
    simp only [List.map_cons, List.cons.injEq] at h
    rw [ha x (by simp) x' (by simp) h.1, map_inj H (fun m hm m' hm' => ha m (by simp [hm]) m' (by simp [hm'])) h.2]

/-- **C174**, in Go: two lists of the same number of contents with the same root are the same list, if no string hashed for the one collides with one hashed for the other. -/
theorem C174_go (H : Hash) (hH : Digest32 H) (cs cs' : List Id) (hc : ∀ c ∈ cs, Proper c) (hc' : ∀ c ∈ cs', Proper c) (hl : cs.length = cs'.length)
    (hap : Apart H (Merkle.treeInputs H (Merkle.leaves cs).length (Merkle.leaves cs)) (Merkle.treeInputs H (Merkle.leaves cs').length (Merkle.leaves cs')))
    (hr : Merkle.rootHex H cs = Merkle.rootHex H cs') : cs = cs' := by
  by_cases hne : cs = []
  · subst hne
    exact (List.length_eq_zero_iff.1 hl.symm).symm
  · have hne' : cs' ≠ [] := by
      rintro rfl
      exact hne (List.length_eq_zero_iff.1 hl)
    have hll : (Merkle.leaves cs).length = (Merkle.leaves cs').length := by
      unfold Merkle.leaves
      rw [hl]
      split <;> simp [hl]
    unfold Merkle.rootHex Merkle.rootBytes at hr
    rw [if_neg hne, if_neg hne'] at hr
    simp only [Option.map_some, Option.some.injEq] at hr
    have hr := hexEncode_inj hr
    rw [← hll] at hr hap
    exact leaves_inj hl (buildRoot_inj H hH _ _ _ hll (Merkle.leaves_length cs hne) (Nat.le_refl _) (fun a ha => hc a ((Merkle.mem_leaves cs hne a).1 ha))
      (fun a ha => hc' a ((Merkle.mem_leaves cs' hne' a).1 ha)) hap hr)

/-- The conditions are met by different lists, whose roots therefore differ. -/
example : Merkle.rootHex toyHash [exId 1, exId 2, exId 3] ≠ Merkle.rootHex toyHash [exId 1, exId 4, exId 3] := by
  intro h
  have := C174_go toyHash toyHash_digest [exId 1, exId 2, exId 3] [exId 1, exId 4, exId 3] (by simp [exId_proper]) (by simp [exId_proper]) rfl (by unfold Apart; decide +kernel) h
  exact absurd this (by decide +kernel)

/-- **C174**, in JavaScript. -/
theorem C174_js (H : Hash) (hH : Digest32 H) (xs xs' : List Bytes) (hl : xs.length = xs'.length)
    (hap : Apart H (inputs H (newTree H xs).2) (inputs H (newTree H xs').2)) (hap0 : Apart H xs xs')
    (hr : getMerkleRoot H (newTree H xs).2 = getMerkleRoot H (newTree H xs').2) : xs = xs' := by
  by_cases hne : xs = []
  · subst hne
    exact (List.length_eq_zero_iff.1 hl.symm).symm
  · have hd : ∀ ys : List Bytes, ys ≠ [] → ∀ a ∈ (newTree H ys).2, a.length = 32 := by
      intro ys hys a ha
      rw [newTree_leaves, Merkle.mem_leaves _ (by simpa using hys)] at ha
      obtain ⟨y, -, rfl⟩ := List.mem_map.1 ha
      exact hH y
    have hne' : xs' ≠ [] := by
      rintro rfl
      exact hne (List.length_eq_zero_iff.1 hl)
    have hll : (newTree H xs).2.length = (newTree H xs').2.length := by
      simp only [newTree, hl]
      split <;> simp [hl]
    have hr := hexEncode_inj hr
    rw [top_eq, top_eq] at hr
    unfold inputs at hap
    rw [← hll] at hr hap
    have h2 := Merkle.leaves_length (xs.map H) (by simpa using hne)
    rw [← newTree_leaves] at h2
    have := top_inj H hH _ _ _ hll (by intro e; rw [e] at h2; simp at h2) (by omega) (hd xs hne) (hd xs' hne') hap hr
    rw [newTree_leaves, newTree_leaves] at this
    exact map_inj H hap0 (leaves_inj (by simpa using hl) this)

example : getMerkleRoot toyHash (newTree toyHash [[1], [2], [3]]).2 ≠ getMerkleRoot toyHash (newTree toyHash [[1], [4], [3]]).2 := by
  intro h
  have := C174_js toyHash toyHash_digest [[1], [2], [3]] [[1], [4], [3]] rfl (by unfold Apart; decide +kernel) (by unfold Apart; decide +kernel) h
  exact absurd this (by decide +kernel)

end FcRetrieval.JsMerkle
