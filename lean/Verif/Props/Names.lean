import Verif.Spec.Names
import Verif.Lemmas.GoMember
/-!
# Names of members that differ in letter case only: C153 and C154 again
-/

namespace FcRetrieval

theorem toLower_toNat (c : Char) : c.toLower.toNat = if 65 ≤ c.toNat ∧ c.toNat ≤ 90 then c.toNat + 32 else c.toNat := by
  unfold Char.toLower
  simp only [Char.toNat]
  by_cases h : 65 ≤ c.val.toNat ∧ c.val.toNat ≤ 90
  · rw [if_pos h, dif_pos ⟨by simpa [UInt32.le_iff_toNat_le] using h.1, by simpa [UInt32.le_iff_toNat_le] using h.2⟩]
    show (c.val + 32).toNat = c.val.toNat + 32
    rw [UInt32.toNat_add]
    have : (32 : UInt32).toNat = 32 := rfl
    omega
  · rw [if_neg h, dif_neg]
    rintro ⟨h1, h2⟩
    exact h ⟨by simpa [UInt32.le_iff_toNat_le] using h1, by simpa [UInt32.le_iff_toNat_le] using h2⟩

theorem char_ext {a b : Char} (h : a.toNat = b.toNat) : a = b := Char.toNat_inj.1 h

theorem fold_letter {n c : Char} (hn : Plain n) : foldChar c = foldChar n ↔ Letter n c := by
  have h1 : foldChar n = n := by
    unfold foldChar
    have a1 : n ≠ 'ſ' := by rintro rfl; revert hn; unfold Plain; decide
    have a2 : n ≠ 'K' := by rintro rfl; revert hn; unfold Plain; decide
    rw [if_neg a1, if_neg a2]
    apply char_ext
    rw [toLower_toNat, if_neg]
    unfold Plain at hn
    rcases hn with ⟨x, y⟩ | ⟨x, y⟩ | rfl
    · have : 'a'.toNat = 97 := rfl
      omega
    · have : '9'.toNat = 57 := rfl
      omega
    · decide
  rw [h1]
  unfold foldChar
  by_cases c1 : c = 'ſ'
  · subst c1
    rw [if_pos rfl]
    unfold Letter
    constructor
    · intro h; exact .inr (.inr (.inl ⟨h.symm, rfl⟩))
    · rintro (h | ⟨-, h, h'⟩ | ⟨h, -⟩ | ⟨-, h⟩)
      · subst h; revert hn; unfold Plain; decide
      · have : 'ſ'.toNat = 383 := rfl
        have : 'z'.toNat = 122 := rfl
        omega
      · exact h.symm
      · exact absurd h (by decide)
  · rw [if_neg c1]
    by_cases c2 : c = 'K'
    · subst c2
      rw [if_pos rfl]
      unfold Letter
      constructor
      · intro h; exact .inr (.inr (.inr ⟨h.symm, rfl⟩))
      · rintro (h | ⟨-, h, h'⟩ | ⟨-, h⟩ | ⟨h, -⟩)
        · subst h; revert hn; unfold Plain; decide
        · have : 'K'.toNat = 8490 := rfl
          have : 'z'.toNat = 122 := rfl
          omega
        · exact absurd h (by decide)
        · exact h.symm
    · rw [if_neg c2]
      have hz : 'z'.toNat = 122 := rfl
      have ha : 'a'.toNat = 97 := rfl
      have h0 : '0'.toNat = 48 := rfl
      have h9 : '9'.toNat = 57 := rfl
      have hu : '_'.toNat = 95 := rfl
      constructor
      · intro h
        have h := congrArg Char.toNat h
        rw [toLower_toNat] at h
        split at h
        · exact .inr (.inl ⟨by omega, by omega, h⟩)
        · exact .inl (char_ext h)
      · intro h
        apply char_ext
        rw [toLower_toNat]
        rcases h with rfl | ⟨x, y, z⟩ | ⟨-, h⟩ | ⟨-, h⟩
        · rw [if_neg]
          rcases hn with ⟨x, y⟩ | ⟨x, y⟩ | rfl <;> omega
        · rw [if_pos (by omega)]; exact z
        · exact absurd h c1
        · exact absurd h c2

theorem fold_spells : ∀ (ns cs : List Char), (∀ n ∈ ns, Plain n) → (ns.map foldChar = cs.map foldChar ↔ Spells ns cs)
  | [], [], _ => by simp [Spells]
  | [], _ :: _, _ => by simp [Spells]
  | _ :: _, [], _ => by simp [Spells]
  | n :: ns, c :: cs, h => by
    simp only [List.map_cons, List.cons.injEq, Spells, fold_spells ns cs (fun x hx => h x (by simp [hx])), ← fold_letter (c := c) (h n (by simp))]
    constructor
    · rintro ⟨a, b⟩; exact ⟨a.symm, b⟩
    · rintro ⟨a, b⟩; exact ⟨a.symm, b⟩

/-- **C153, C154, which member counts**: for a field with a name of small letters, digits and underscores, as all of them are here, a member counts if and
only if its name is the same character by character, each as it is, or in capitals, or the long s for an s, or the Kelvin sign for a k; of several such
members the last one. -/
theorem C153_names (name : String) (hn : ∀ n ∈ name.toList, Plain n) (fs : List (String × Json)) (v : Json) :
    memberFor name fs = some v ↔ ∃ a k b, fs = a ++ (k, v) :: b ∧ Spells name.toList k.toList ∧ ∀ e ∈ b, ¬ Spells name.toList e.1.toList := by
  have hs : ∀ k, sameName name k = true ↔ Spells name.toList k.toList := by
    intro k
    rw [← fold_spells _ _ hn]
    simp [sameName, foldName]
  have hnone : ∀ fs : List (String × Json), memberFor name fs = none → ∀ e ∈ fs, ¬ Spells name.toList e.1.toList := by
    intro fs
    induction fs with
    | nil => intro _ e he; simp at he
    | cons x fs ih =>
      obtain ⟨k, w⟩ := x
      intro h e he
      simp only [memberFor] at h
      cases hm : memberFor name fs with
      | some w' => rw [hm] at h; cases h
      | none =>
        rw [hm] at h
        dsimp only at h
        rcases List.mem_cons.1 he with rfl | he
        · rw [← hs]
          intro h'
          rw [if_pos h'] at h
          cases h
        · exact ih hm e he
  have hno : ∀ fs : List (String × Json), (∀ e ∈ fs, ¬ Spells name.toList e.1.toList) → memberFor name fs = none := by
    intro fs
    induction fs with
    | nil => intro _; rfl
    | cons x fs ih =>
      obtain ⟨k, w⟩ := x
      intro h
      simp only [memberFor, ih (fun e he => h e (by simp [he]))]
      rw [if_neg]
      rw [hs]
      exact h (k, w) (by simp)
  induction fs with
  | nil => simp [memberFor]
  | cons x fs ih =>
    obtain ⟨k, w⟩ := x
    simp only [memberFor]
    cases hm : memberFor name fs with
    | some w' =>
      rw [hm] at ih
      dsimp only
      refine ih.trans ?_
      constructor
      · rintro ⟨a, k', b, rfl, h1, h2⟩
        exact ⟨(k, w) :: a, k', b, rfl, h1, h2⟩
      · rintro ⟨a, k', b, h, h1, h2⟩
        cases a with
        | nil =>
          cases h
          rw [hno _ h2] at hm
          cases hm
        | cons y a =>
          cases h
          exact ⟨a, k', b, rfl, h1, h2⟩
    | none =>
      dsimp only
      have hx := hnone fs hm
      constructor
      · intro h
        split at h
        · rename_i hk
          cases h
          exact ⟨[], k, fs, rfl, (hs k).1 hk, hx⟩
        · cases h
      · rintro ⟨a, k', b, h, h1, h2⟩
        cases a with
        | nil =>
          cases h
          rw [if_pos ((hs k).2 h1)]
        | cons y a =>
          cases h
          exact absurd h1 (hx (k', v) (by simp))

/-- The name in capitals counts, the name with a hyphen does not. -/
example : memberFor "cid_min" [("CID_MIN", .num 1), ("cid-min", .num 2), ("cid_minn", .num 3)] = some (.num 1) :=
  (C153_names "cid_min" (by unfold Plain; decide +kernel) _ _).2 ⟨[], "CID_MIN", [("cid-min", .num 2), ("cid_minn", .num 3)], rfl, by
    simp [Spells, Letter], by
    simp [Spells, Letter]⟩

end FcRetrieval
