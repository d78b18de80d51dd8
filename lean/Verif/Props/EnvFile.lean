import Verif.Lemmas.EnvFile
/-!
# C162: the environment file of a node
-/

set_option linter.unusedSimpArgs false

namespace FcRetrieval.EnvFile

theorem parse_none {text : List Char} : parse text = none ↔ ¬ Readable text := by
  rw [← parse_some]
  cases parse text <;> simp

/-- C162.  The tool fails exactly when there is no source file or a file has a line it cannot read, and then changes nothing. -/
theorem C162_error (source dest : Option (List Char)) (ow : Bool) :
    ((make source dest ow).2 = .error ↔
      source = none ∨ (∃ s, source = some s ∧ ¬ Readable s) ∨ ∃ d, dest = some d ∧ ¬ Readable d) ∧
    ((make source dest ow).2 = .error → (make source dest ow).1 = dest) := by
  cases source with
  | none => simp [make]
  | some s =>
    cases hs : parse s with
    | none => simp [make, hs, parse_none.1 hs]
    | some sc =>
      have rs : Readable s := (parse_some s).1 ⟨_, hs⟩
      cases dest with
      | none => simp [make, hs, rs]
      | some d =>
        cases hd : parse d with
        | none => simp [make, hs, hd, parse_none.1 hd]
        | some dc =>
          have rd : Readable d := (parse_some d).1 ⟨_, hd⟩
          simp only [make, hs, hd]
          constructor
          · simp only [reduceCtorEq, Option.some.injEq, exists_eq_left', rs, rd, not_true_eq_false, or_self, iff_false]
            split
            · split <;> simp
            · simp
          · split
            · split <;> simp
            · simp

/-- C162.  A file that is there is never changed unless overwriting is asked for, and whatever is written is the source file. -/
theorem C162_safe (source dest : Option (List Char)) (ow : Bool) :
    (make source dest ow).1 = dest ∨ ((make source dest ow).1 = source ∧ (make source dest ow).2 = .copied ∧ (dest = none ∨ ow = true)) := by
  cases source with
  | none => simp [make]
  | some s =>
    cases hs : parse s with
    | none => simp [make, hs]
    | some sc =>
      cases dest with
      | none => simp [make, hs]
      | some d =>
        cases hd : parse d with
        | none => simp [make, hs, hd]
        | some dc =>
          simp only [make, hs, hd]
          split
          · cases ow <;> simp
          · simp

theorem equal_iff (s d : List Char) (ow : Bool) :
    (make (some s) (some d) ow).2 = .equal ↔
      ∃ sc dc, parse s = some sc ∧ parse d = some dc ∧ ∀ n, sc.filter (fun c => c.name = n) = dc.filter (fun c => c.name = n) := by
  cases hs : parse s with
  | none => simp [make, hs]
  | some sc =>
    cases hd : parse d with
    | none => simp [make, hs, hd]
    | some dc =>
      simp only [make, hs, hd, Option.some.injEq, exists_and_left, exists_eq_left']
      rw [← diff_empty]
      have len (l : List Config) : ¬ l.length > 0 ↔ l = [] := by cases l <;> simp
      split
      · next h =>
        have : ¬ ((diff sc dc).notEquals = [] ∧ (diff sc dc).notFound = [] ∧ (diff sc dc).rest = []) := by
          rw [← len, ← len, ← len]
          omega
        simp only [this, iff_false]
        split <;> simp
      · next h =>
        simp only [not_or] at h
        rw [len, len, len] at h
        simp [h]

/-- C162, what holds of the comparison: for files in which no line has a second `=`, "equal" means that both files give every name the same values in the
same order. -/
theorem C162_equal_partial (s d : List Char) (ow : Bool) (hs : Plain s) (hd : Plain d)
    (h : (make (some s) (some d) ow).2 = .equal) (name : List Char) : values s name = values d name := by
  obtain ⟨sc, dc, h1, h2, h3⟩ := (equal_iff s d ow).1 h
  by_cases hn : name.head? = some '#'
  · rw [values, values, values_nil _ _ hn, values_nil _ _ hn]
  · rw [values, values, ← read_values _ sc h1 hs name hn, ← read_values _ dc h2 hd name hn, h3 name]

/-- C162, what holds: after a run that may write and does not fail, the file is there and gives every name the values the source gives it. -/
theorem C162_after_partial (s : List Char) (dest : Option (List Char)) (ow : Bool) (hs : Plain s) (hd : ∀ d, dest = some d → Plain d)
    (hw : dest = none ∨ ow = true) (he : (make (some s) dest ow).2 ≠ .error) :
    ∃ t, (make (some s) dest ow).1 = some t ∧ ∀ name, values t name = values s name := by
  cases C162_safe (some s) dest ow with
  | inr h => exact ⟨s, h.1, fun _ => rfl⟩
  | inl h =>
    cases dest with
    | none =>
      exfalso
      have hr := (C162_error (some s) none ow).1
      cases hp : parse s with
      | none => exact he (hr.2 (.inr (.inl ⟨s, rfl, parse_none.1 hp⟩)))
      | some sc => simp [make, hp] at h
    | some d =>
      have hw : ow = true := by simpa using hw
      subst hw
      cases hv : (make (some s) (some d) true).2 with
      | error => exact absurd hv he
      | equal => exact ⟨d, h, fun name => (C162_equal_partial s d true hs (hd d rfl) hv name).symm⟩
      | copied =>
        refine ⟨s, ?_, fun _ => rfl⟩
        cases hps : parse s with
        | none => simp [make, hps] at hv
        | some sc =>
          cases hpd : parse d with
          | none => simp [make, hps, hpd] at hv
          | some dc =>
            simp only [make, hps, hpd] at hv ⊢
            split at hv
            · next c => rw [if_pos c]; rfl
            · cases hv
      | differ =>
        exfalso
        cases hps : parse s with
        | none => simp [make, hps] at hv
        | some sc =>
          cases hpd : parse d with
          | none => simp [make, hps, hpd] at hv
          | some dc =>
            simp only [make, hps, hpd] at hv
            split at hv
            · cases hv
            · cases hv

theorem no_comment (ls : List (List Char)) (cs : List Config) (hp : parseLines ls = some cs) (hc : ∀ l ∈ ls, l.head? = some '#' → '=' ∉ l)
    (name : List Char) (hn : name.head? = some '#') : cs.filter (fun c => c.name = name) = [] := by
  induction ls generalizing cs with
  | nil => cases hp; rfl
  | cons l r ih =>
    rw [parseLines] at hp
    split at hp
    · next a b ha hb =>
      cases hp
      rw [List.filter_append, ih b hb (fun l hl => hc l (by simp [hl])), List.append_nil]
      by_cases h : '=' ∈ l
      · rw [parseLine_mem h] at ha
        cases ha
        apply List.filter_cons_of_neg
        simp only [decide_eq_true_eq]
        rintro rfl
        cases l with
        | nil => cases h
        | cons c r =>
          rw [List.takeWhile_cons] at hn
          split at hn
          · simp only [List.head?_cons, Option.some.injEq] at hn
            exact hc _ List.mem_cons_self (by simp [hn]) h
          · cases hn
      · rw [parseLine, if_neg h] at ha
        split at ha
        · cases ha; rfl
        · cases ha
    · cases hp

/-- C162, the other direction: files without a second `=` in a line and without `=` in a comment are called equal whenever they say the same. -/
theorem C162_same_partial (s d : List Char) (ow : Bool) (hs : Plain s) (hd : Plain d) (rs : Readable s) (rd : Readable d)
    (cs : ∀ l ∈ lines s, l.head? = some '#' → '=' ∉ l) (cd : ∀ l ∈ lines d, l.head? = some '#' → '=' ∉ l)
    (h : ∀ name, values s name = values d name) : make (some s) (some d) ow = (some d, .equal) := by
  obtain ⟨sc, hsc⟩ := (parse_some s).2 rs
  obtain ⟨dc, hdc⟩ := (parse_some d).2 rd
  have hv : (make (some s) (some d) ow).2 = .equal := by
    rw [equal_iff]
    refine ⟨sc, dc, hsc, hdc, ?_⟩
    intro n
    by_cases hn : n.head? = some '#'
    · rw [no_comment _ _ hsc cs n hn, no_comment _ _ hdc cd n hn]
    · have h1 := read_values _ sc hsc hs n hn
      have h2 := read_values _ dc hdc hd n hn
      have h3 := h n
      rw [values, values, ← h1, ← h2] at h3
      have back (l : List Config) (hl : ∀ c ∈ l, c.name = n) : l = (l.map (·.value)).map (Config.mk n) := by
        induction l with
        | nil => rfl
        | cons c l ih =>
          have : c = ⟨n, c.value⟩ := by rw [← hl c List.mem_cons_self]
          simp only [List.map_cons]
          rw [← this, ← ih (fun c hc => hl c (by simp [hc]))]
      rw [back (sc.filter (fun c => c.name = n)) (fun c hc => by simpa using (List.mem_filter.1 hc).2), h3,
        ← back (dc.filter (fun c => c.name = n)) (fun c hc => by simpa using (List.mem_filter.1 hc).2)]
  have hw : (make (some s) (some d) ow).1 = some d := by
    cases C162_safe (some s) (some d) ow with
    | inl e => exact e
    | inr e => rw [hv] at e; exact absurd e.2.1 (by simp)
  exact Prod.ext hw hv

theorem split_crlf (s : List Char) :
    split '\n' (crlf s) = (split '\n' s).dropLast.map (· ++ ['\r']) ++ (split '\n' s).getLast?.toList := by
  induction s with
  | nil => rfl
  | cons c r ih =>
    have cr : crlf (c :: r) = (if c = '\n' then ['\r', '\n'] else [c]) ++ crlf r := rfl
    cases hr : split '\n' r with
    | nil => exact absurd hr (split_ne_nil _ _)
    | cons h t =>
      rw [hr] at ih
      by_cases e : c = '\n'
      · subst e
        have h1 : split '\n' ('\r' :: '\n' :: crlf r) = ['\r'] :: split '\n' (crlf r) := by
          rw [split, if_neg (by decide), split, if_pos rfl]
        rw [cr, if_pos rfl]
        simp only [List.cons_append, List.nil_append]
        rw [h1, split, if_pos rfl, hr, ih]
        simp
      · rw [cr, if_neg e]
        simp only [List.cons_append, List.nil_append]
        rw [split, if_neg e, split, if_neg e, hr, ih]
        cases t with
        | nil => simp
        | cons a t => simp

theorem mem_split {sep : Char} {s x : List Char} (hx : x ∈ split sep s) {c : Char} (hc : c ∈ x) : c ∈ s := by
  induction s generalizing x with
  | nil => simp [split] at hx; subst hx; cases hc
  | cons d r ih =>
    rw [split] at hx
    split at hx
    · cases hx with
      | head => cases hc
      | tail _ hx => exact List.mem_cons_of_mem _ (ih hx hc)
    · split at hx
      · next h => exact absurd h (split_ne_nil _ _)
      · next h t hh =>
        cases hx with
        | head =>
          cases hc with
          | head => exact List.mem_cons_self
          | tail _ hc => exact List.mem_cons_of_mem _ (ih (by rw [hh]; exact List.mem_cons_self) hc)
        | tail _ hx => exact List.mem_cons_of_mem _ (ih (by rw [hh]; exact List.mem_cons_of_mem _ hx) hc)

theorem lines_crlf (s : List Char) (h : '\r' ∉ s) : lines (crlf s) = lines s := by
  have no (x : List Char) (hx : x ∈ split '\n' s) : '\r' ∉ x := fun c => h (mem_split hx c)
  have c1 (x : List Char) : chop (x ++ ['\r']) = x := by simp [chop]
  have c2 (x : List Char) (hx : '\r' ∉ x) : chop x = x := by
    rw [chop, if_neg]
    intro e
    exact hx (List.mem_of_getLast? e)
  have hl : (split '\n' s).getLast?.toList ≠ [] := by
    cases hs : split '\n' s with
    | nil => exact absurd hs (split_ne_nil _ _)
    | cons a t => simp
  obtain ⟨z, hz⟩ : ∃ z, (split '\n' s).getLast? = some z := by
    cases hg : (split '\n' s).getLast? with
    | none => simp [hg] at hl
    | some z => exact ⟨z, rfl⟩
  unfold lines
  rw [split_crlf, hz]
  simp only [Option.toList_some, List.dropLast_concat, List.getLast?_append, List.getLast?_singleton, Option.some_or]
  congr 1
  rw [List.map_map]
  apply List.map_congr_left
  intro x hx
  have hm : x ∈ split '\n' s := List.dropLast_subset _ hx
  simp only [Function.comp_apply, c1]
  exact (c2 x (no x hm)).symm

/-- C162: line ends make no difference. -/
theorem C162_line_ends (s : List Char) (rs : Readable s) (h : '\r' ∉ s) (ow : Bool) :
    make (some s) (some (crlf s)) ow = (some (crlf s), .equal) ∧ make (some (crlf s)) (some s) ow = (some s, .equal) := by
  obtain ⟨sc, hsc⟩ := (parse_some s).2 rs
  have hcr : parse (crlf s) = some sc := by rw [parse, lines_crlf s h]; exact hsc
  have one (a b : List Char) (ha : parse a = some sc) (hb : parse b = some sc) : make (some a) (some b) ow = (some b, .equal) := by
    have hv : (make (some a) (some b) ow).2 = .equal := (equal_iff a b ow).2 ⟨sc, sc, ha, hb, fun _ => rfl⟩
    cases C162_safe (some a) (some b) ow with
    | inl e => exact Prod.ext e hv
    | inr e => rw [hv] at e; exact absurd e.2.1 (by simp)
  exact ⟨one _ _ hsc hcr, one _ _ hcr hsc⟩

theorem lines_one {l : List Char} (h : '\n' ∉ l) (hne : l ≠ []) : lines l = [l] := by
  simp [lines, split_none h, hne]

theorem takeWhile_before {n r : List Char} (h : '=' ∉ n) : (n ++ '=' :: r).takeWhile (· ≠ '=') = n ∧ (n ++ '=' :: r).dropWhile (· ≠ '=') = '=' :: r := by
  induction n with
  | nil => simp
  | cons c n ih =>
    simp only [List.mem_cons, not_or] at h
    have hc : ¬ c = '=' := fun e => h.1 e.symm
    have := ih h.2
    have hd : decide (c ≠ '=') = true := by simpa using hc
    constructor
    · rw [List.cons_append, List.takeWhile_cons, hd, this.1]; rfl
    · rw [List.cons_append, List.dropWhile_cons, hd, this.2]; rfl

/-- C162 is false of values with a `=` in them, for every name and every such value: files that differ in what follows it are called equal, and the
destination is left as it is although overwriting is asked for. -/
theorem C162_refuted (n v u u' : List Char) (hn : '=' ∉ n) (hv : '=' ∉ v) (hne : u ≠ u') (hc : n.head? ≠ some '#')
    (hl : ∀ x ∈ [n, v, u, u'], '\n' ∉ x) (ow : Bool) :
    make (some (n ++ '=' :: (v ++ '=' :: u))) (some (n ++ '=' :: (v ++ '=' :: u'))) ow = (some (n ++ '=' :: (v ++ '=' :: u')), .equal) ∧
    values (n ++ '=' :: (v ++ '=' :: u)) n = [v ++ '=' :: u] ∧ values (n ++ '=' :: (v ++ '=' :: u')) n = [v ++ '=' :: u'] ∧
    v ++ '=' :: u ≠ v ++ '=' :: u' := by
  simp only [List.forall_mem_cons, List.not_mem_nil, false_imp_iff, forall_const, and_true] at hl
  obtain ⟨l1, l2, l3, l4⟩ := hl
  have ln (x : List Char) (hx : '\n' ∉ x) : lines (n ++ '=' :: (v ++ '=' :: x)) = [n ++ '=' :: (v ++ '=' :: x)] :=
    lines_one (by simp [l1, l2, hx]) (by simp)
  have pr (x : List Char) (hx : '\n' ∉ x) : parse (n ++ '=' :: (v ++ '=' :: x)) = some [⟨n, v⟩] := by
    rw [parse, ln x hx, parseLines, parseLine_mem (by simp), (takeWhile_before hn).1, (takeWhile_before hn).2]
    simp only [List.drop_succ_cons, List.drop_zero, (takeWhile_before hv).1, parseLines, List.append_nil]
  have vl (x : List Char) (hx : '\n' ∉ x) : values (n ++ '=' :: (v ++ '=' :: x)) n = [v ++ '=' :: x] := by
    have hh : (n ++ '=' :: (v ++ '=' :: x)).head? ≠ some '#' := by
      cases n with
      | nil => simp
      | cons c n => simpa using hc
    have he : '=' ∈ n ++ '=' :: (v ++ '=' :: x) := by simp
    simp only [values, ln x hx, List.flatMap_cons, List.flatMap_nil, List.append_nil, setting]
    rw [if_pos ⟨hh, he⟩, (takeWhile_before hn).1, (takeWhile_before hn).2]
    simp
  refine ⟨?_, vl u l3, vl u' l4, ?_⟩
  · have hq : (make (some (n ++ '=' :: (v ++ '=' :: u))) (some (n ++ '=' :: (v ++ '=' :: u'))) ow).2 = .equal := by
      rw [equal_iff]
      exact ⟨_, _, pr u l3, pr u' l4, fun _ => rfl⟩
    cases C162_safe (some (n ++ '=' :: (v ++ '=' :: u))) (some (n ++ '=' :: (v ++ '=' :: u'))) ow with
    | inl e => exact Prod.ext e hq
    | inr e => rw [hq] at e; exact absurd e.2.1 (by simp)
  · intro e
    exact hne (by simpa using e)

/-- A token with padding. -/
example : make (some "LOTUS_AUTH_TOKEN=abc==".toList) (some "LOTUS_AUTH_TOKEN=abc=".toList) true = (some "LOTUS_AUTH_TOKEN=abc=".toList, .equal) :=
  (C162_refuted "LOTUS_AUTH_TOKEN".toList "abc".toList "=".toList [] (by decide) (by decide) (by decide) (by decide) (by decide) true).1

/-- Two plain files: the order of the names and comments do not matter, a changed value does. -/
example : make (some "# node\nA=1\nB=2\n".toList) (some "B=2\nA=1".toList) false = (some "B=2\nA=1".toList, .equal) ∧
    make (some "A=1\nB=2\n".toList) (some "B=3\nA=1".toList) false = (some "B=3\nA=1".toList, .differ) ∧
    make (some "A=1\nB=2\n".toList) (some "B=3\nA=1".toList) true = (some "A=1\nB=2\n".toList, .copied) ∧
    make (some "A=1\nB\n".toList) none true = (none, .error) ∧ make (some "A=1\r\n\r\n".toList) none true = (some "A=1\r\n\r\n".toList, .copied) := by
  decide +kernel

example : Plain "# node\nA=1\nB=2\n".toList ∧ Readable "# node\nA=1\nB=2\n".toList ∧ values "# node\nA=1\nB=2\n".toList ['B'] = [['2']] := by
  refine ⟨?_, ?_, by decide +kernel⟩
  · unfold Plain; decide +kernel
  · unfold Readable; decide +kernel

end FcRetrieval.EnvFile
