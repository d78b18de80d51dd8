import Verif.Props.JsSigning
/-!
# C193: no key version at all is read
-/

set_option linter.unusedSimpArgs false

namespace FcRetrieval.Js
open FcRetrieval.Crypto (Prims KeyPair KeyVersion)

/-- The number is this natural number. -/
def JsNum.Is : JsNum → Nat → Prop
  | .nan, _ => False
  | .inf _, _ => False
  | .dec neg m e, v => (neg = true → v = 0) ∧ (0 ≤ e → m * 10 ^ e.toNat = v) ∧ (e < 0 → m = v * 10 ^ (-e).toNat)

theorem decVal_append (l : List Char) (c : Char) : decVal (l ++ [c]) = 10 * decVal l + (c.toNat - 48) := by
  unfold decVal
  rw [List.foldl_append]
  rfl

theorem isDec_bounds {c : Char} (h : isDec c = true) : 48 ≤ c.toNat ∧ c.toNat ≤ 57 := by
  unfold isDec at h
  rw [Bool.and_eq_true, decide_eq_true_eq, decide_eq_true_eq] at h
  exact ⟨h.1, h.2⟩

theorem decVal_lt (n : Nat) : ∀ l : List Char, l.length = n → (∀ c ∈ l, isDec c = true) → decVal l < 10 ^ n := by
  induction n with
  | zero =>
    intro l hl _
    cases List.eq_nil_of_length_eq_zero hl
    decide
  | succ n ih =>
    intro l hl h
    rcases List.eq_nil_or_concat l with rfl | ⟨l', c, rfl⟩
    · simp at hl
    · rw [List.concat_eq_append] at *
      rw [decVal_append, Nat.pow_succ]
      have h1 := ih l' (by simpa using hl) (fun x hx => h x (by simp [hx]))
      have := isDec_bounds (h c (by simp))
      omega

theorem decVal_single (c : Char) : decVal [c] = c.toNat - 48 := by
  unfold decVal
  simp

theorem allDigits_some {y : List Char} {n : Nat} (h : allDigits y = some n) : y ≠ [] ∧ (∀ z ∈ y, isDec z = true) ∧ n = decVal y := by
  unfold allDigits at h
  split at h
  · cases h
  · rename_i hp
    rw [Bool.not_eq_true, Bool.or_eq_false_iff] at hp
    cases h
    exact ⟨by simpa using hp.1, by simpa using hp.2, rfl⟩

theorem exponent_some {r : List Char} {k : Int} (h : exponent r = some k) :
    (r = [] ∧ k = 0) ∨ ∃ c sg y, r = c :: (sg ++ y) ∧ y ≠ [] ∧ (∀ z ∈ y, isDec z = true) ∧ (sg = [] → k = decVal y) := by
  unfold exponent at h
  split at h
  · cases h; exact .inl ⟨rfl, rfl⟩
  · rename_i c x
    split at h
    · cases h
    · right
      split at h
      · rename_i y
        rw [Option.map_eq_some_iff] at h
        obtain ⟨n, hn, -⟩ := h
        obtain ⟨h1, h2, -⟩ := allDigits_some hn
        exact ⟨c, ['-'], y, rfl, h1, h2, by simp⟩
      · rename_i y
        rw [Option.map_eq_some_iff] at h
        obtain ⟨n, hn, -⟩ := h
        obtain ⟨h1, h2, -⟩ := allDigits_some hn
        exact ⟨c, ['+'], y, rfl, h1, h2, by simp⟩
      · rw [Option.map_eq_some_iff] at h
        obtain ⟨n, hn, rfl⟩ := h
        obtain ⟨h1, h2, h3⟩ := allDigits_some hn
        exact ⟨c, [], x, rfl, h1, h2, fun _ => by rw [h3]⟩

theorem takeWhile_dec (s : List Char) : ∀ c ∈ s.takeWhile isDec, isDec c = true := by
  have h : (s.takeWhile isDec).all isDec = true := List.all_takeWhile
  exact List.all_eq_true.1 h

theorem fraction_shape (r0 : List Char) : ∃ dot, r0 = dot ++ (fraction r0).1 ++ (fraction r0).2 ∧ (∀ c ∈ (fraction r0).1, isDec c = true) ∧ (dot = [] → (fraction r0).1 = []) := by
  unfold fraction
  split
  · rename_i r
    exact ⟨['.'], by simp [List.takeWhile_append_dropWhile], takeWhile_dec r, by simp⟩
  · exact ⟨[], by simp, by simp, by simp⟩

/-- A decimal literal of at most four characters. -/
theorem unsigned_shape {t : List Char} {m : Nat} {e : Int} (h : unsignedDecimal t = some (m, e)) (hl : t.length ≤ 4) :
    (m < 10 ^ 4 ∧ e ≤ 0) ∨
    (m < 10 ∧ ∃ t' c, t = t' ++ [c] ∧ isDec c = true) ∨
    (m < 10 ^ 2 ∧ t.length = 4 ∧ ∃ t' c, t = t' ++ [c] ∧ isDec c = true ∧ e = ((c.toNat - 48 : Nat) : Int)) := by
  have ht : t.takeWhile isDec ++ t.dropWhile isDec = t := List.takeWhile_append_dropWhile
  have ha := takeWhile_dec t
  unfold unsignedDecimal at h
  dsimp only at h
  generalize t.takeWhile isDec = a at *
  generalize t.dropWhile isDec = r0 at *
  obtain ⟨dot, h1, h2, h3⟩ := fraction_shape r0
  generalize (fraction r0).1 = b at *
  generalize (fraction r0).2 = r at *
  subst h1 ht
  split at h
  · cases h
  rename_i hne
  have hpos : 1 ≤ (a ++ b).length := by
    cases a with
    | nil =>
      cases b with
      | nil => simp at hne
      | cons x b => simp
    | cons x a => simp
  rw [Option.map_eq_some_iff] at h
  obtain ⟨k, hk, he⟩ := h
  cases he
  have hD : ∀ c ∈ a ++ b, isDec c = true := by
    intro c hc
    rcases List.mem_append.1 hc with hc | hc
    · exact ha c hc
    · exact h2 c hc
  have hlt := decVal_lt _ (a ++ b) rfl hD
  rcases exponent_some hk with ⟨rfl, rfl⟩ | ⟨c, sg, y, rfl, hy, hyd, hsg⟩
  · left
    constructor
    · refine Nat.lt_of_lt_of_le hlt (Nat.pow_le_pow_right (by decide) ?_)
      simp only [List.length_append] at hl ⊢
      omega
    · omega
  · right
    rcases List.eq_nil_or_concat y with rfl | ⟨y', z, rfl⟩
    · exact absurd rfl hy
    rw [List.concat_eq_append] at *
    have hz : isDec z = true := hyd z (by simp)
    have hsp : a ++ (dot ++ b ++ c :: (sg ++ (y' ++ [z]))) = (a ++ (dot ++ b ++ c :: (sg ++ y'))) ++ [z] := by simp
    have hlen : a.length + dot.length + b.length + 1 + sg.length + y'.length + 1 ≤ 4 := by
      simp only [List.length_append, List.length_cons, List.length_nil] at hl
      omega
    simp only [List.length_append] at hpos hlt
    by_cases h1 : a.length + b.length = 1
    · left
      rw [h1] at hlt
      exact ⟨hlt, _, z, hsp, hz⟩
    · right
      have hs0 : sg = [] := List.eq_nil_of_length_eq_zero (by omega)
      have hy0 : y' = [] := List.eq_nil_of_length_eq_zero (by omega)
      have hd0 : dot = [] := List.eq_nil_of_length_eq_zero (by omega)
      have hb0 := h3 hd0
      subst hs0 hy0 hd0 hb0
      have h2' : a.length = 2 := by simp at hlen hpos h1; omega
      refine ⟨by simpa [h2'] using hlt, by simp [h2'], _, z, hsp, hz, ?_⟩
      rw [hsg rfl]
      simp [decVal_single]

theorem trim_length (s : List Char) : (trim s).length ≤ s.length := by
  unfold trim
  rw [List.length_reverse]
  refine Nat.le_trans ((List.dropWhile_sublist _).length_le) ?_
  rw [List.length_reverse]
  exact (List.dropWhile_sublist _).length_le

theorem trim_full {s : List Char} (h : (trim s).length = s.length) : trim s = s := by
  have h1 : ((s.dropWhile isSpace).reverse.dropWhile isSpace).Sublist (s.dropWhile isSpace).reverse := List.dropWhile_sublist _
  have h2 : (s.dropWhile isSpace).Sublist s := List.dropWhile_sublist _
  have h3 : (trim s).Sublist s := by
    have := (List.reverse_sublist.2 h1)
    rw [List.reverse_reverse] at this
    exact this.trans h2
  exact h3.eq_of_length h

theorem trim_last {c : Char} (h : isSpace c = false) (s : List Char) : ∃ t, trim (s ++ [c]) = t ++ [c] := by
  unfold trim
  have : ∀ l : List Char, ∃ t, (l ++ [c]).dropWhile isSpace = t ++ [c] := by
    intro l
    induction l with
    | nil => exact ⟨[], by rw [List.nil_append, List.dropWhile_cons_of_neg (by simp [h])]⟩
    | cons x l ih =>
      by_cases hx : isSpace x = true
      · obtain ⟨t, ht⟩ := ih
        exact ⟨t, by rw [List.cons_append, List.dropWhile_cons_of_pos hx, ht]⟩
      · exact ⟨x :: l, by rw [List.cons_append, List.dropWhile_cons_of_neg hx]⟩
  obtain ⟨t, ht⟩ := this s
  rw [ht, List.reverse_append, List.reverse_singleton, List.singleton_append, List.dropWhile_cons_of_neg (by simp [h]), List.reverse_cons, List.reverse_reverse]
  exact ⟨t, rfl⟩

/-- A signed literal inside a trimmed text of four characters whose last has the code `v % 256`. -/
theorem signed_not {s pre r : List Char} {l : Char} {v : Nat} (ht : trim (s ++ [l]) = pre ++ r) (hl : s.length = 3) (hv : 150994944 ≤ v)
    (hlast : l.toNat = v % 256) (neg : Bool) : ¬ (signedNumber neg r).Is v := by
  have hlen : pre.length + r.length ≤ 4 := by
    have := trim_length (s ++ [l])
    rw [ht] at this
    simpa [hl] using this
  intro h
  unfold signedNumber at h
  split at h
  · exact h
  split at h
  · exact h
  rename_i m e hu
  obtain ⟨-, h2, h3⟩ := h
  have hm : e ≤ 0 → v ≤ m := by
    intro he
    rcases Int.lt_or_eq_of_le he with he | rfl
    · rw [h3 he]
      exact Nat.le_mul_of_pos_right _ (Nat.pow_pos (by decide))
    · have := h2 (by decide)
      simp at this
      omega
  have hend : ∀ t' c, r = t' ++ [c] → isDec c = true → v % 256 ≠ 0 := by
    intro t' c hr hc h0
    have hls : isSpace l = false := by
      unfold isSpace
      simp [hlast, h0]
    obtain ⟨t, h5⟩ := trim_last hls s
    rw [ht, hr, ← List.append_assoc] at h5
    have := (List.append_inj_right' h5 rfl)
    cases this
    have := isDec_bounds hc
    omega
  rcases unsigned_shape hu (by omega) with ⟨h4, h5⟩ | ⟨h4, t', c, h5, h6⟩ | ⟨h4, h5, t', c, h6, h7, h8⟩
  · have := hm h5
    omega
  · by_cases he : e ≤ 0
    · have := hm he
      omega
    · have h9 := h2 (by omega)
      by_cases h10 : e.toNat ≤ 7
      · have h11 : 10 ^ e.toNat ≤ 10 ^ 7 := Nat.pow_le_pow_right (by decide) h10
        have h12 : m * 10 ^ e.toNat ≤ 9 * 10 ^ 7 := Nat.mul_le_mul (by omega) h11
        omega
      · refine hend t' c h5 h6 ?_
        obtain ⟨j, hj⟩ : ∃ j, e.toNat = j + 8 := ⟨e.toNat - 8, by omega⟩
        rw [← h9, hj, Nat.pow_add, ← Nat.mul_assoc, show 10 ^ 8 = 390625 * 256 from rfl, ← Nat.mul_assoc, Nat.mul_mod_left]
  · have hp : pre = [] := List.eq_nil_of_length_eq_zero (by omega)
    subst hp
    rw [List.nil_append] at ht
    have h9 : trim (s ++ [l]) = s ++ [l] := trim_full (by rw [ht, h5]; simp [hl])
    rw [ht, h6] at h9
    have hcl : c = l := by simpa using List.append_inj_right' h9 rfl
    have hb := isDec_bounds h7
    rw [← hcl] at hlast
    have h10 := h2 (by omega)
    rw [h8, Int.toNat_natCast] at h10
    generalize hx : c.toNat = x at *
    rcases (by omega : x = 48 ∨ x = 49 ∨ x = 50 ∨ x = 51 ∨ x = 52 ∨ x = 53 ∨ x = 54 ∨ x = 55 ∨ x = 56 ∨ x = 57) with
      rfl | rfl | rfl | rfl | rfl | rfl | rfl | rfl | rfl | rfl <;> simp at h10 <;> omega

theorem radix_small {radix : Nat} (h16 : radix ≤ 16) {r : List Char} (hr : r.length ≤ 2) {v : Nat} (hv : 150994944 ≤ v) : ¬ (radixNumber radix r).Is v := by
  intro h
  unfold radixNumber at h
  split at h
  · exact h
  split at h
  · exact h
  rename_i n hn
  have h1 := h.2.1 (by decide)
  simp at h1
  have key : ∀ (l : List Char) (a n : Nat), l.foldlM (fun n c => (hexVal c).bind fun d => if d < radix then some (radix * n + d) else none) a = some n →
      n < (a + 1) * 16 ^ l.length := by
    intro l
    induction l with
    | nil =>
      intro a n h
      simp at h
      simp [h]
    | cons x l ih =>
      intro a n h
      rw [List.foldlM_cons, Option.bind_eq_bind, Option.bind_eq_some_iff] at h
      obtain ⟨a', h1, h2⟩ := h
      rw [Option.bind_eq_some_iff] at h1
      obtain ⟨d, -, h3⟩ := h1
      split at h3
      · cases h3
        refine Nat.lt_of_lt_of_le (ih _ _ h2) ?_
        rw [List.length_cons, Nat.pow_succ, Nat.mul_comm (16 ^ l.length) 16, ← Nat.mul_assoc]
        refine Nat.mul_le_mul_right _ ?_
        have : radix * a ≤ 16 * a := Nat.mul_le_mul_right _ h16
        omega
      · cases h3
  have h2 := key r 0 n hn
  have h3 : 16 ^ r.length ≤ 16 ^ 2 := Nat.pow_le_pow_right (by decide) hr
  omega

/-- **C193 (refuted)**, reading, every version: no key version at all is read from its bytes. -/
theorem C193_never_refuted (v : KeyVersion) (n : JsNum) (h : decodeKeyVersion (Crypto.encodeKeyVersionAsBytes v) = some n) : ¬ n.Is v.toNat := by
  by_cases hv : v.toNat < 150994944
  · rw [C193_read_refuted v hv] at h
    cases h
    exact id
  · have hv : 150994944 ≤ v.toNat := by omega
    unfold decodeKeyVersion Crypto.encodeKeyVersionAsBytes be32 at h
    rw [if_neg (by simp)] at h
    have h := Option.some.inj h
    subst h
    generalize hs : array2str [UInt8.ofNat (v.toNat / 16777216), UInt8.ofNat (v.toNat / 65536), UInt8.ofNat (v.toNat / 256)] = s
    obtain ⟨l, hl, hlast⟩ : ∃ l : Char, l = Char.ofNat (UInt8.ofNat v.toNat).toNat ∧ l.toNat = v.toNat % 256 := by
      refine ⟨_, rfl, ?_⟩
      have : (UInt8.ofNat v.toNat).toNat = v.toNat % 256 := by simp
      rw [this]
      have : v.toNat % 256 < 256 := Nat.mod_lt _ (by decide)
      generalize v.toNat % 256 = k at this
      unfold Char.ofNat
      rw [dif_pos (by left; omega)]
      simp [Char.toNat, Char.ofNatAux]
    have hsl : s.length = 3 := by rw [← hs]; rfl
    have he : array2str [UInt8.ofNat (v.toNat / 16777216), UInt8.ofNat (v.toNat / 65536), UInt8.ofNat (v.toNat / 256), UInt8.ofNat v.toNat] = s ++ [l] := by
      rw [← hs, hl]; rfl
    rw [he]
    have hlen : (trim (s ++ [l])).length ≤ 4 := by
      have := trim_length (s ++ [l])
      simpa [hsl] using this
    unfold toNumber
    split
    · intro h
      have := h.2.1 (by decide)
      simp at this
      omega
    all_goals first
      | (rename_i r hr; rw [hr] at hlen; simp at hlen; exact radix_small (by decide) (by omega) hv)
      | (rename_i r hr; exact signed_not (pre := ['-']) hr hsl hv hlast _)
      | (rename_i r hr; exact signed_not (pre := ['+']) hr hsl hv hlast _)
      | exact signed_not (pre := []) rfl hsl hv hlast _

/-- Four digits are a number, but another one than the version with these bytes; `20e8` is two thousand million. -/
example : (∃ n, decodeKeyVersion (Crypto.encodeKeyVersionAsBytes 825373492) = some n ∧ n.Is 1234) ∧
    ∃ n, decodeKeyVersion [50, 48, 101, 56] = some n ∧ n.Is 2000000000 :=
  ⟨⟨.dec false 1234 0, by decide +kernel, by simp [JsNum.Is]⟩, ⟨.dec false 20 8, by decide +kernel, by simp [JsNum.Is]⟩⟩

end FcRetrieval.Js
