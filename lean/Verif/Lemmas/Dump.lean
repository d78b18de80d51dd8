import Verif.Model.Dump
import Verif.Spec.Dump
/-! Helper lemmas: the printout of a message. -/

set_option linter.unusedSimpArgs false

namespace FcRetrieval.Dump
open FcRetrieval.Ring (Fault)

theorem digit_ok : ∀ n, n < 10 → (Char.ofNat (48 + n)).isDigit = true ∧ (Char.ofNat (48 + n)).toNat - 48 = n := by decide

theorem hex_ok : ∀ n, n < 16 → hexChar n ≠ ' ' ∧ hexChar n ≠ '|' ∧ nibble (hexChar n) = n ∧ hexChar n ∈ "0123456789abcdef".toList := by decide

theorem digits_ok : ∀ fuel n, n ≤ fuel → (∀ c ∈ natDigitsAux fuel n, c.isDigit = true) ∧
    (natDigitsAux fuel n).foldl (fun a c => 10 * a + (c.toNat - 48)) 0 = n
  | 0, n, h => by
    obtain rfl : n = 0 := by omega
    decide
  | fuel + 1, n, h => by
    unfold natDigitsAux
    split
    · rename_i h10
      have d := digit_ok n h10
      simp [d.1, d.2]
    · have ih := digits_ok fuel (n / 10) (by omega)
      have d := digit_ok (n % 10) (by omega)
      constructor
      · intro c hc
        rcases List.mem_append.1 hc with hc | hc
        · exact ih.1 c hc
        · rw [List.mem_singleton.1 hc]; exact d.1
      · rw [List.foldl_append, ih.2]
        simp only [List.foldl_cons, List.foldl_nil, d.2]
        omega

theorem number_pad5 (n : Nat) : number (pad5 n) = n := by
  have h := digits_ok n n (Nat.le_refl _)
  unfold number pad5 natDigits
  rw [List.filter_append, List.filter_eq_nil_iff.2 (by intro c hc; rw [(List.mem_replicate.1 hc).2]; decide), List.filter_eq_self.2 h.1,
    List.nil_append, h.2]

theorem pad5_chars (n : Nat) : ∀ c ∈ pad5 n, c = ' ' ∨ c.isDigit = true := by
  intro c hc
  rcases List.mem_append.1 hc with hc | hc
  · exact .inl (List.mem_replicate.1 hc).2
  · exact .inr ((digits_ok n n (Nat.le_refl _)).1 c hc)

theorem pad5_length (n : Nat) : 5 ≤ (pad5 n).length := by
  simp [pad5]
  omega

theorem bytesOf_pair {c d : Char} {cs : List Char} (h1 : c ≠ ' ') :
    bytesOf (c :: d :: cs) = UInt8.ofNat (16 * nibble c + nibble d) :: bytesOf cs := by
  conv => lhs; unfold bytesOf
  split
  · contradiction
  · rename_i h; simp at h; exact absurd h.1 h1
  · rename_i h; simp at h
  · rename_i h; simp at h; obtain ⟨rfl, rfl, rfl⟩ := h; rfl

theorem bytesOf_space (cs : List Char) : bytesOf (' ' :: cs) = bytesOf cs := by
  conv => lhs; unfold bytesOf
  rfl

theorem bytesOf_spaces (n : Nat) (cs : List Char) : bytesOf (List.replicate n ' ' ++ cs) = bytesOf cs := by
  induction n with
  | zero => rfl
  | succ n ih => rw [List.replicate_succ, List.cons_append, bytesOf_space, ih]

theorem printable_hex : ∀ (row : Bytes) (i : Nat) (cs : List Char), bytesOf ((printable i row).1 ++ cs) = row ++ bytesOf cs
  | [], i, cs => rfl
  | c :: row, i, cs => by
    have hc := c.toNat_lt
    have h1 := hex_ok (c.toNat / 16) (by omega)
    have h2 := hex_ok (c.toNat % 16) (by omega)
    simp only [printable, List.cons_append]
    rw [bytesOf_pair h1.1, h1.2.2.1, h2.2.2.1, bytesOf_space, show 16 * (c.toNat / 16) + c.toNat % 16 = c.toNat by omega, UInt8.ofNat_toNat]
    split
    · simp only [List.cons_append, List.nil_append]
      rw [bytesOf_space, printable_hex row]
    · rw [List.nil_append, printable_hex row]

theorem printable_hex_chars : ∀ (row : Bytes) (i : Nat), ∀ c ∈ (printable i row).1, c = ' ' ∨ c ∈ "0123456789abcdef".toList
  | [], i, c, hc => by simp [printable] at hc
  | x :: row, i, c, hc => by
    have hx := x.toNat_lt
    simp only [printable, List.mem_cons, List.mem_append] at hc
    rcases hc with rfl | rfl | rfl | hc | hc
    · exact .inr (hex_ok _ (by omega)).2.2.2
    · exact .inr (hex_ok _ (by omega)).2.2.2
    · exact .inl rfl
    · split at hc
      · simp at hc; exact .inl hc
      · simp at hc
    · exact printable_hex_chars row _ c hc

theorem printable_ascii : ∀ (row : Bytes) (i : Nat), (printable i row).2 = row.map shown
  | [], i => rfl
  | x :: row, i => by
    simp only [printable, List.map_cons, printable_ascii row]
    congr 1
    unfold shown
    have e1 : x < 32 ↔ x.toNat < 32 := by rw [UInt8.lt_iff_toNat_lt]; rfl
    have e2 : x ≥ 127 ↔ 127 ≤ x.toNat := by rw [ge_iff_le, UInt8.le_iff_toNat_le]; rfl
    by_cases h : 32 ≤ x.toNat ∧ x.toNat ≤ 126
    · rw [if_pos h, if_neg (by rw [e1, e2]; omega)]
    · rw [if_neg h, if_pos (by rw [e1, e2]; omega)]

theorem dumpRow_ok (s : State) (row : Bytes) : ∃ hex, dumpRow s row = .ok (⟨s.width, s.rowIndex + 1, row.length⟩,
      pad5 (s.rowIndex * s.width) ++ [':', ' '] ++ hex ++ ['|', ' '] ++ row.map shown ++ ['\n']) ∧
    (∀ c ∈ hex, c = ' ' ∨ c ∈ "0123456789abcdef".toList) ∧ bytesOf hex = row := by
  have hr := printable_ascii row 0
  have hb : ∀ cs, bytesOf ((printable 0 row).1 ++ cs) = row ++ bytesOf cs := printable_hex row 0
  have hch := printable_hex_chars row 0
  generalize hp : printable 0 row = pr at *
  obtain ⟨hex, ascii⟩ := pr
  simp only at hr hb hch
  by_cases hlt : row.length < s.maxRowWidth
  · refine ⟨hex ++ List.replicate ((s.maxRowWidth * 2 + (s.maxRowWidth / 4 : Nat) - row.length * 2 - (row.length / 4 : Nat) : Int)).toNat ' ' ++ [' '], ?_, ?_, ?_⟩
    · have hnn : ¬ ((s.maxRowWidth * 2 + (s.maxRowWidth / 4 : Nat) - row.length * 2 - (row.length / 4 : Nat) : Int) < 0) := by omega
      simp only [dumpRow, hp, if_pos hlt, repeatSpace, if_neg hnn, bind, Except.bind, pure, Except.pure, hr]
      simp
    · intro c hc
      simp only [List.mem_append, List.mem_replicate, List.mem_singleton] at hc
      rcases hc with (hc | hc) | hc
      · exact hch c hc
      · exact .inl hc.2
      · exact .inl hc
    · rw [List.append_assoc, hb, bytesOf_spaces, bytesOf_space]
      simp [bytesOf]
  · refine ⟨hex ++ [' '], ?_, ?_, ?_⟩
    · simp only [dumpRow, hp, if_neg hlt, bind, Except.bind, pure, Except.pure, hr]
      simp
    · intro c hc
      simp only [List.mem_append, List.mem_singleton] at hc
      rcases hc with hc | hc
      · exact hch c hc
      · exact .inl hc
    · rw [hb, bytesOf_space]
      simp [bytesOf]

theorem dump_ok (buf : Bytes) : ∀ (fuel i : Nat) (s : State), s.width = 32 → s.rowIndex = i → 0 < fuel → buf.length + 1 ≤ i + fuel →
    ∃ ls : List (List Char), dump buf fuel i s = .ok (ls.flatMap (· ++ ['\n'])) ∧ ls.length = (buf.length + 31) / 32 - i ∧
      ∀ j line, ls[j]? = some line → IsLine buf (i + j) line
  | 0, i, s, hw, hi, h0, hf => absurd h0 (by omega)
  | fuel + 1, i, s, hw, hi, h0, hf => by
    unfold dump
    rw [hw]
    by_cases h : i * 32 < buf.length
    · rw [if_pos h]
      generalize hrow : (buf.take (if (i + 1) * 32 > buf.length then buf.length else (i + 1) * 32)).drop (i * 32) = row
      have hrow' : row = (buf.drop (32 * i)).take 32 := by
        rw [← hrow, List.drop_take, Nat.mul_comm 32 i]
        split
        · rw [List.take_of_length_le (by simp), List.take_of_length_le (by simp; omega)]
        · congr 1; omega
      obtain ⟨hex, h1, h2, h3⟩ := dumpRow_ok s row
      obtain ⟨ls, k1, k2, k3⟩ := dump_ok buf fuel (i + 1) ⟨s.width, s.rowIndex + 1, row.length⟩ hw (by simp [hi]) (by omega) (by omega)
      refine ⟨(pad5 (s.rowIndex * s.width) ++ [':', ' '] ++ hex ++ ['|', ' '] ++ row.map shown) :: ls, ?_, ?_, ?_⟩
      · simp only [hrow, h1, k1, bind, Except.bind, pure, Except.pure, List.flatMap_cons]
      · simp only [List.length_cons, k2]
        omega
      · intro j line hj
        cases j with
        | zero =>
          simp only [List.getElem?_cons_zero, Option.some.injEq] at hj
          subst hj
          rw [hw, hi, Nat.mul_comm i 32, Nat.add_zero]
          rw [hrow'] at h3
          exact ⟨_, hex, by rw [hrow'], pad5_chars _, number_pad5 _, pad5_length _, h2, h3⟩
        | succ j =>
          have := k3 j line (by simpa using hj)
          rwa [show i + 1 + j = i + (j + 1) by omega] at this
    · rw [if_neg h]
      exact ⟨[], rfl, by simp; omega, by simp⟩

theorem shown_ne (b : UInt8) : shown b ≠ '\n' := by
  unfold shown
  split
  · rename_i h
    have : ∀ n, n < 127 → 32 ≤ n → Char.ofNat n ≠ '\n' := by decide
    exact this _ (by omega) h.1
  · decide

theorem isLine_ne {b : Bytes} {i : Nat} {line : List Char} (h : IsLine b i line) : '\n' ∉ line := by
  obtain ⟨off, hex, rfl, h1, -, -, h2, -⟩ := h
  intro hm
  simp only [List.mem_append, List.mem_cons, List.not_mem_nil, or_false, List.mem_map] at hm
  rcases hm with (((hm | hm) | hm) | hm) | ⟨x, -, hx⟩
  · rcases h1 _ hm with h | h
    · exact absurd h (by decide)
    · exact absurd h (by decide)
  · exact absurd hm (by decide)
  · rcases h2 _ hm with h | h
    · exact absurd h (by decide)
    · exact absurd h (by decide)
  · exact absurd hm (by decide)
  · exact shown_ne x hx

theorem linesOf_line : ∀ {line : List Char} (rest : List Char), '\n' ∉ line → linesOf (line ++ '\n' :: rest) = line :: linesOf rest
  | [], rest, _ => by simp [linesOf]
  | c :: line, rest, h => by
    have h1 : c ≠ '\n' := fun e => h (by simp [e])
    have ih := linesOf_line (line := line) rest (fun e => h (by simp [e]))
    simp only [List.cons_append, linesOf, if_neg h1, ih]

theorem linesOf_all : ∀ {ls : List (List Char)}, (∀ l ∈ ls, '\n' ∉ l) → linesOf (ls.flatMap (· ++ ['\n'])) = ls
  | [], _ => rfl
  | l :: ls, h => by
    rw [List.flatMap_cons, List.append_assoc, List.singleton_append, linesOf_line _ (h l (by simp)), linesOf_all (fun x hx => h x (by simp [hx]))]

theorem dropWhile_off {off cs : List Char} (h : ∀ c ∈ off, c = ' ' ∨ c.isDigit = true) : (off ++ ':' :: cs).dropWhile (· ≠ ':') = ':' :: cs := by
  induction off with
  | nil => simp
  | cons c off ih =>
    have hc : c ≠ ':' := by
      rcases h c (by simp) with rfl | hc
      · decide
      · rintro rfl; exact absurd hc (by decide)
    rw [List.cons_append, List.dropWhile_cons_of_pos (by simpa using hc), ih (fun x hx => h x (by simp [hx]))]

theorem takeWhile_hex {hex cs : List Char} (h : ∀ c ∈ hex, c = ' ' ∨ c ∈ "0123456789abcdef".toList) :
    (hex ++ '|' :: cs).takeWhile (· ≠ '|') = hex := by
  induction hex with
  | nil => simp
  | cons c hex ih =>
    have hc : c ≠ '|' := by
      rcases h c (by simp) with rfl | hc
      · decide
      · rintro rfl; exact absurd hc (by decide)
    rw [List.cons_append, List.takeWhile_cons_of_pos (by simpa using hc), ih (fun x hx => h x (by simp [hx]))]

theorem lineBytes_line {b : Bytes} {i : Nat} {line : List Char} (h : IsLine b i line) : lineBytes line = (b.drop (32 * i)).take 32 := by
  obtain ⟨off, hex, rfl, h1, -, -, h2, h3⟩ := h
  have e : off ++ [':', ' '] ++ hex ++ ['|', ' '] ++ ((b.drop (32 * i)).take 32).map shown =
      off ++ ':' :: ((' ' :: hex) ++ '|' :: (' ' :: ((b.drop (32 * i)).take 32).map shown)) := by simp
  unfold lineBytes
  rw [e, dropWhile_off h1, List.tail_cons, takeWhile_hex (by
    intro c hc
    rcases List.mem_cons.1 hc with hc | hc
    · exact .inl hc
    · exact h2 c hc), bytesOf_space, h3]

/-- Rows of 32 put together. -/
theorem rows_join (b : Bytes) : ∀ (n : Nat) (f : Nat → Bytes), (∀ i < n, f i = (b.drop (32 * i)).take 32) → (List.range n).flatMap f = b.take (32 * n)
  | 0, f, _ => by simp
  | n + 1, f, h => by
    rw [List.range_succ, List.flatMap_append, rows_join b n f (fun i hi => h i (by omega))]
    simp only [List.flatMap_cons, List.flatMap_nil, List.append_nil]
    rw [h n (by omega), show 32 * (n + 1) = 32 * n + 32 by omega, List.take_add]

theorem lines_bytes (b : Bytes) {ls : List (List Char)} (hl : ls.length = (b.length + 31) / 32) (h : ∀ (j : Nat) line, ls[j]? = some line → IsLine b j line) :
    ls.flatMap lineBytes = b := by
  have e : ls.flatMap lineBytes = (List.range ls.length).flatMap (fun i => (b.drop (32 * i)).take 32) := by
    rw [List.flatMap_def, List.flatMap_def]
    congr 1
    apply List.ext_getElem?
    intro i
    simp only [List.getElem?_map]
    by_cases hi : i < ls.length
    · rw [List.getElem?_eq_getElem hi, List.getElem?_range hi]
      simp only [Option.map_some]
      rw [lineBytes_line (h i _ (List.getElem?_eq_getElem hi))]
    · rw [List.getElem?_eq_none (by omega), List.getElem?_eq_none (by simp; omega)]
      rfl
  rw [e, rows_join b ls.length _ (fun _ _ => rfl), List.take_of_length_le (by omega)]

end FcRetrieval.Dump
