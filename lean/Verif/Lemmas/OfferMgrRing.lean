import Verif.Lemmas.OfferMgrRun
/-! Helper lemmas: the ring of the offer manager holds the CIDs offered. -/
set_option linter.unusedSimpArgs false
namespace FcRetrieval.OfferMgr
open FcRetrieval.Ids (Id Proper position)
open FcRetrieval.Merkle (Hash)
open FcRetrieval.Offer (CidOffer terms InRange)
open FcRetrieval.Ring (Fault Ring IsRing validateInput keyOf addSorted SameSpelling)

theorem digitVal_hexChar : ∀ n, n < 16 → Ring.digitVal (hexChar n) = some n := by decide

theorem digitVal_hexChars : ∀ c ∈ hexChars, (Ring.digitVal c).isSome = true := by decide

theorem validate_toStr {c : Id} (h : Proper c) : validateInput (Ids.toStr c) = true := by
  rw [Ids.toStr_eq h]
  unfold validateInput
  have hl : (hexEncode c).length = 64 := by rw [hexEncode_length, show c.length = 32 from h]
  simp only [hl, beq_self_eq_true, Bool.true_and, List.all_eq_true]
  intro x hx
  exact digitVal_hexChars x (hexEncode_chars c x hx)

theorem keyOf_hexEncode : ∀ (c : Bytes) (acc : Nat),
    (hexEncode c).foldl (fun acc x => 16 * acc + (Ring.digitVal x).getD 0) acc = acc * 256 ^ c.length + bytesNum c
  | [], acc => by simp [hexEncode, bytesNum]
  | b :: bs, acc => by
    have hb := u8_lt b
    have e : hexEncode (b :: bs) = hexChar (b.toNat / 16) :: hexChar (b.toNat % 16) :: hexEncode bs := rfl
    rw [e, List.foldl_cons, List.foldl_cons, keyOf_hexEncode bs, digitVal_hexChar _ (by omega), digitVal_hexChar _ (by omega),
      bytesNum_cons]
    simp only [Option.getD_some, List.length_cons]
    have : 16 * (16 * acc + b.toNat / 16) + b.toNat % 16 = acc * 256 + b.toNat := by omega
    rw [this, Nat.add_mul, Nat.pow_succ, Nat.mul_assoc, Nat.mul_comm 256, Nat.add_assoc]

theorem keyOf_toStr {c : Id} (h : Proper c) : keyOf (Ids.toStr c) = position c := by
  rw [Ids.toStr_eq h, Ids.position_eq]
  unfold keyOf
  rw [keyOf_hexEncode]
  simp

theorem position_inj {a b : Id} (ha : Proper a) (hb : Proper b) (h : position a = position b) : a = b := by
  rw [Ids.position_eq, Ids.position_eq] at h
  exact bytesNum_inj (by rw [show a.length = 32 from ha, show b.length = 32 from hb]) h

/-- The ring is intact and holds the CIDs offered. -/
def RingInv (r : Ring) (offered : List Id) : Prop :=
  (∀ c ∈ offered, Proper c) ∧ ∃ l, IsRing r l ∧ ∀ x, x ∈ l ↔ x ∈ offered.map Ids.toStr

theorem ringInv_spelling {l : List Ring.Hex} {offered : List Id} (hp : ∀ c ∈ offered, Proper c)
    (hm : ∀ x, x ∈ l ↔ x ∈ offered.map Ids.toStr) {c : Id} (hc : Proper c) : SameSpelling l (Ids.toStr c) := by
  intro y hy he
  obtain ⟨d, hd, rfl⟩ := List.mem_map.1 ((hm y).1 hy)
  rw [keyOf_toStr (hp d hd), keyOf_toStr hc] at he
  rw [position_inj (hp d hd) hc he]

theorem mem_addSorted_iff {l : List Ring.Hex} {x : Ring.Hex} (hs : SameSpelling l x) (y : Ring.Hex) :
    y ∈ addSorted x l ↔ y = x ∨ y ∈ l := by
  induction l with
  | nil => simp [addSorted]
  | cons z zs ih =>
    unfold addSorted
    split
    · simp
    · split
      · rename_i h1 h2
        have := hs z (by simp) h2.symm
        subst this
        simp
      · rw [List.mem_cons, ih (fun w hw => hs w (by simp [hw])), List.mem_cons]
        constructor
        · rintro (h | h | h)
          · exact Or.inr (Or.inl h)
          · exact Or.inl h
          · exact Or.inr (Or.inr h)
        · rintro (h | h | h)
          · exact Or.inr (Or.inl h)
          · exact Or.inl h
          · exact Or.inr (Or.inr h)

theorem ringInv_insert {r : Ring} {offered : List Id} (h : RingInv r offered) {c : Id} (hc : Proper c) :
    ∃ r', Ring.insert r (Ids.toStr c) = .ok r' ∧ RingInv r' (c :: offered) := by
  obtain ⟨hp, l, hl, hm⟩ := h
  obtain ⟨r', h1, h2⟩ := Ring.insert_eq hl (validate_toStr hc)
  refine ⟨r', h1, ?_, _, h2, ?_⟩
  · intro x hx
    rcases List.mem_cons.1 hx with rfl | hx
    · exact hc
    · exact hp x hx
  · intro x
    rw [mem_addSorted_iff (ringInv_spelling hp hm hc), hm]
    simp

theorem map_of_forall_proper {l : List Ring.Hex} (h : ∀ y ∈ l, ∃ c : Id, Proper c ∧ y = Ids.toStr c) :
    ∃ es : List Id, (∀ c ∈ es, Proper c) ∧ l = es.map Ids.toStr := by
  induction l with
  | nil => exact ⟨[], by simp, rfl⟩
  | cons y ys ih =>
    obtain ⟨c, hc, rfl⟩ := h y (by simp)
    obtain ⟨es, h1, h2⟩ := ih (fun z hz => h z (by simp [hz]))
    refine ⟨c :: es, ?_, by rw [h2]; rfl⟩
    intro x hx
    rcases List.mem_cons.1 hx with rfl | hx
    · exact hc
    · exact h1 x hx

theorem ringInv_range {r : Ring} {offered : List Id} (h : RingInv r offered) {a b : Id} (ha : Proper a) (hb : Proper b)
    (hab : a ≠ b) :
    ∃ r' es, Ring.getWithinRange r (Ids.toStr a) (Ids.toStr b) = .ok (r', .val (es.map Ids.toStr)) ∧
      (∀ c ∈ es, Proper c) ∧ IsArc offered a b es ∧ (Safe offered a b → RingInv r' offered) := by
  obtain ⟨hp, l, hl, hm⟩ := h
  have hva := validate_toStr ha
  have hvb := validate_toStr hb
  have hsa := ringInv_spelling hp hm ha
  have hsb := ringInv_spelling hp hm hb
  have hk : keyOf (Ids.toStr a) ≠ keyOf (Ids.toStr b) := by
    rw [keyOf_toStr ha, keyOf_toStr hb]
    exact fun e => hab (position_inj ha hb e)
  obtain ⟨r', h1⟩ := Ring.C05_getWithinRange_arc hl hva hvb hsa hsb hk
  have hval : ∀ y ∈ l, validateInput y = true := by
    intro y hy
    obtain ⟨d, hd, rfl⟩ := List.mem_map.1 ((hm y).1 hy)
    exact validate_toStr (hp d hd)
  have hka : keyOf (Ids.toStr a) < 2 ^ 256 := Ring.keyOf_lt hva
  have hkb : keyOf (Ids.toStr b) < 2 ^ 256 := Ring.keyOf_lt hvb
  have hmean := Ring.C05_arc_meaning hka hkb hval
  have hord := Ring.C05_arc_order (b := keyOf (Ids.toStr b)) hka hval (Ring.isRing_sorted hl)
  obtain ⟨es, hes1, hes2⟩ : ∃ es : List Id, (∀ c ∈ es, Proper c) ∧
      Ring.arc (keyOf (Ids.toStr a)) (keyOf (Ids.toStr b)) l = es.map Ids.toStr := by
    refine map_of_forall_proper ?_
    intro y hy
    have hyl := ((hmean y).1 hy).1
    obtain ⟨d, hd, rfl⟩ := List.mem_map.1 ((hm y).1 hyl)
    exact ⟨d, hp d hd, rfl⟩
  refine ⟨r', es, by rw [h1, hes2], hes1, ⟨?_, ?_⟩, ?_⟩
  · intro c
    constructor
    · intro hc
      have := (hmean (Ids.toStr c)).1 (by rw [hes2]; exact List.mem_map.2 ⟨c, hc, rfl⟩)
      obtain ⟨hc1, hc2⟩ := this
      obtain ⟨d, hd, e⟩ := List.mem_map.1 ((hm _).1 hc1)
      rw [(toStr_inj (hp d hd) (hes1 c hc)).1 e] at hd
      rw [keyOf_toStr ha, keyOf_toStr hb, keyOf_toStr (hes1 c hc)] at hc2
      exact ⟨hd, hc2⟩
    · rintro ⟨hc1, hc2⟩
      have := (hmean (Ids.toStr c)).2 ⟨(hm _).2 (List.mem_map.2 ⟨c, hc1, rfl⟩), by
        rw [keyOf_toStr ha, keyOf_toStr hb, keyOf_toStr (hp c hc1)]; exact hc2⟩
      rw [hes2] at this
      obtain ⟨d, hd, e⟩ := List.mem_map.1 this
      rw [(toStr_inj (hes1 d hd) (hp c hc1)).1 e] at hd
      exact hd
  · rw [hes2, List.pairwise_map] at hord
    refine hord.imp_of_mem ?_
    intro c d hc hd h
    rw [keyOf_toStr ha, keyOf_toStr (hes1 c hc), keyOf_toStr (hes1 d hd)] at h
    exact h
  · rintro ⟨_, hs1, hs2⟩
    have hlen : l.length < 2 ∨ ∃ y ∈ l, keyOf y ≤ keyOf (Ids.toStr a) := by
      rcases hs1 with h | ⟨c, hc, h⟩
      · left
        match l, hl, hm with
        | [], _, _ => simp
        | [_], _, _ => simp
        | x :: y :: rest, hl, hm =>
          exfalso
          have hx := (hm x).1 (by simp)
          have hy := (hm y).1 (by simp)
          obtain ⟨c, hc, rfl⟩ := List.mem_map.1 hx
          obtain ⟨d, hd, rfl⟩ := List.mem_map.1 hy
          have := (List.pairwise_cons.1 (Ring.isRing_sorted hl)).1 (Ids.toStr d) (by simp)
          rw [h c hc d hd] at this
          omega
      · right
        exact ⟨Ids.toStr c, (hm _).2 (List.mem_map.2 ⟨c, hc, rfl⟩), by rw [keyOf_toStr (hp c hc), keyOf_toStr ha]; exact h⟩
    have hlow : l = [] ∨ (∃ y ∈ l, keyOf y ≤ keyOf (Ids.toStr b)) ∨ (keyOf (Ids.toStr a) < keyOf (Ids.toStr b) ∧ Ids.toStr a ∉ l) := by
      rcases hs2 with h | ⟨c, hc, h⟩ | ⟨h, hn⟩
      · left
        cases l with
        | nil => rfl
        | cons x xs =>
          have := (hm x).1 (by simp)
          rw [h] at this
          simp at this
      · right; left
        exact ⟨Ids.toStr c, (hm _).2 (List.mem_map.2 ⟨c, hc, rfl⟩), by rw [keyOf_toStr (hp c hc), keyOf_toStr hb]; exact h⟩
      · right; right
        refine ⟨by rw [keyOf_toStr ha, keyOf_toStr hb]; exact h, ?_⟩
        intro hmem
        obtain ⟨d, hd, e⟩ := List.mem_map.1 ((hm _).1 hmem)
        rw [(toStr_inj (hp d hd) ha).1 e] at hd
        exact hn hd
    obtain ⟨r'', res, h3, h4⟩ := Ring.C04_getWithinRange_partial hl hva hvb hsa hsb hk hlen hlow
    rw [h1] at h3
    simp only [Except.ok.injEq, Prod.mk.injEq] at h3
    rw [← h3.1] at h4
    exact ⟨hp, l, h4, hm⟩

end FcRetrieval.OfferMgr
