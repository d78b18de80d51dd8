import Verif.Spec.Prng
import Verif.Lemmas.Bytes
/-!
# Lemmas about the random number generators
-/
set_option linter.unusedSimpArgs false
namespace FcRetrieval.Prng
variable {D : Type} {H : Bytes → Bytes} {F : Inner D}

/-- The generator after `n` rounds. -/
def rounds (H : Bytes → Bytes) (F : Inner D) (k : Nat) : Nat → Gen D → Gen D
  | 0, g => g
  | n + 1, g => rounds H F k n (round H F k g)

/-- The digests of `n` rounds. -/
def outputs (H : Bytes → Bytes) (F : Inner D) (k : Nat) : Nat → Gen D → List Bytes
  | 0, _ => []
  | n + 1, g => (round H F k g).state :: outputs H F k n (round H F k g)

theorem outputs_length (k : Nat) : ∀ (n : Nat) (g : Gen D), (outputs H F k n g).length = n
  | 0, _ => rfl
  | n + 1, g => by simp [outputs, outputs_length k n]

theorem flatten_length (hH : Digest H) (k : Nat) : ∀ (n : Nat) (g : Gen D), (outputs H F k n g).flatten.length = 32 * n
  | 0, _ => rfl
  | n + 1, g => by
    simp only [outputs, List.flatten_cons, List.length_append, flatten_length hH k n]
    have : (round H F k g).state.length = 32 := hH _
    omega

theorem overwrite_length (b h : Bytes) (i j : Nat) (hi : i ≤ j) (hj : j ≤ b.length) : (overwrite b i j h).length = b.length := by
  simp only [overwrite, List.length_append, List.length_take, List.length_drop]
  omega

theorem ceil_step {m : Nat} (h : 32 ≤ m) : (m + 31) / 32 = (m - 32 + 31) / 32 + 1 := by omega

theorem readLoop_eq (hH : Digest H) : ∀ (fuel ofs : Nat) (b : Bytes) (g : Gen D), b.length - ofs ≤ fuel → ofs ≤ b.length →
    readLoop H F 32 fuel ofs b g
      = (b.take ofs ++ ((outputs H F 32 ((b.length - ofs + 31) / 32) g).flatten.take (b.length - ofs)),
         rounds H F 32 ((b.length - ofs + 31) / 32) g) := by
  intro fuel
  induction fuel with
  | zero =>
    intro ofs b g h h'
    have e : ofs = b.length := by omega
    subst e
    simp [readLoop, rounds]
  | succ fuel ih =>
    intro ofs b g h h'
    unfold readLoop
    by_cases hlt : ofs < b.length
    · rw [if_pos hlt]
      have hs : (round H F 32 g).state.length = 32 := hH _
      by_cases hfit : ofs + 32 ≤ b.length
      · simp only [hfit, if_true]
        have hl := overwrite_length b (round H F 32 g).state ofs (ofs + 32) (by omega) hfit
        rw [ih _ _ _ (by omega) (by omega), hl]
        have hc : (b.length - ofs + 31) / 32 = (b.length - (ofs + 32) + 31) / 32 + 1 := by omega
        rw [hc]
        simp only [outputs, rounds, List.flatten_cons]
        refine Prod.ext ?_ rfl
        show List.take (ofs + 32) (overwrite b ofs (ofs + 32) (round H F 32 g).state) ++ _ = _
        have e1 : List.take (ofs + 32) (overwrite b ofs (ofs + 32) (round H F 32 g).state) = b.take ofs ++ (round H F 32 g).state := by
          unfold overwrite
          rw [show ofs + 32 - ofs = 32 by omega, List.take_of_length_le (by omega : (round H F 32 g).state.length ≤ 32)]
          rw [List.take_append_of_le_length (by simp only [List.length_append, List.length_take]; omega)]
          rw [List.take_of_length_le (by simp only [List.length_append, List.length_take]; omega)]
        rw [e1, List.take_append, List.take_of_length_le (by omega : (round H F 32 g).state.length ≤ b.length - ofs), hs,
          List.append_assoc, show b.length - (ofs + 32) = b.length - ofs - 32 by omega]
      · simp only [hfit, if_false]
        have hl := overwrite_length b (round H F 32 g).state ofs b.length (by omega) (Nat.le_refl _)
        have hb : overwrite b ofs b.length (round H F 32 g).state = b.take ofs ++ (round H F 32 g).state.take (b.length - ofs) := by
          unfold overwrite
          rw [List.drop_of_length_le (by simp only [List.length_take]; omega), List.append_nil]
        have hstop : ∀ (fu : Nat) (c : Bytes) (g : Gen D), c.length ≤ ofs + 32 → readLoop H F 32 fu (ofs + 32) c g = (c, g) := by
          intro fu c g hcl
          cases fu with
          | zero => rfl
          | succ fu => unfold readLoop; rw [if_neg (by omega)]
        rw [hstop _ _ _ (by omega), hb]
        have hc : (b.length - ofs + 31) / 32 = 1 := by omega
        rw [hc]
        simp [outputs, rounds]
    · rw [if_neg hlt]
      have e : ofs = b.length := by omega
      subst e
      simp [rounds]

theorem readBytes_eq (hH : Digest H) (b : Bytes) (g : Gen D) (hg : g.state.length = 32) :
    readBytes H F b g = ((outputs H F 32 ((b.length + 31) / 32) g).flatten.take b.length, rounds H F 32 ((b.length + 31) / 32) g) := by
  unfold readBytes
  rw [hg, readLoop_eq hH _ _ _ _ (by omega) (by omega)]
  simp

theorem rounds_state (hH : Digest H) (k : Nat) : ∀ (n : Nat) (g : Gen D), g.state.length = 32 → (rounds H F k n g).state.length = 32
  | 0, _, h => h
  | n + 1, _, _ => rounds_state hH k n _ (hH _)

theorem rounds_counter (k : Nat) : ∀ (n : Nat) (g : Gen D), (rounds H F k n g).counter = g.counter + n
  | 0, g => by simp [rounds]
  | n + 1, g => by
    rw [rounds, rounds_counter k n]
    simp only [round]
    omega

/-- A digest of the counter value `c`. -/
def Made (H : Bytes → Bytes) (c : Int) (b : Bytes) : Prop := ∃ x s : Bytes, x.length = 32 ∧ s.length = 32 ∧ b = H (counterBytes c ++ x ++ s)

theorem outputs_made (hH : Digest H) : ∀ (n : Nat) (g : Gen D), g.state.length = 32 →
    ∀ (i : Nat) b, (outputs H F 32 n g)[i]? = some b → Made H (g.counter + 1 + i) b
  | 0, _, _ => by simp [outputs]
  | n + 1, g, hg => by
    intro i b h
    cases i with
    | zero =>
      simp only [outputs, List.getElem?_cons_zero, Option.some.injEq] at h
      exact ⟨_, _, F.fills g.drbg 32, hg, by rw [← h]; simp [round]⟩
    | succ i =>
      simp only [outputs, List.getElem?_cons_succ] at h
      have := outputs_made hH n (round H F 32 g) (hH _) i b h
      have e : (round H F 32 g).counter + 1 + (i : Int) = g.counter + 1 + ((i + 1 : Nat) : Int) := by simp only [round]; omega
      rw [e] at this
      exact this

theorem take_flatten_get : ∀ (l : List Bytes), (∀ b ∈ l, b.length = 32) → ∀ i, i < l.length → (l.flatten.drop (32 * i)).take 32 = l.getD i []
  | [], _ => by simp
  | a :: l, h => by
    intro i hi
    have ha : a.length = 32 := h a (by simp)
    cases i with
    | zero => simp [List.take_append, ha, List.take_of_length_le (Nat.le_of_eq ha)]
    | succ i =>
      have := take_flatten_get l (fun b hb => h b (by simp [hb])) i (by simpa using hi)
      simp only [List.flatten_cons, List.getD_cons_succ]
      rw [List.drop_append, ha, List.drop_of_length_le (by omega), List.nil_append, show 32 * (i + 1) - 32 = 32 * i by omega]
      exact this

theorem outputs_len (hH : Digest H) (k : Nat) : ∀ (n : Nat) (g : Gen D), ∀ b ∈ outputs H F k n g, b.length = 32
  | 0, _ => by simp [outputs]
  | n + 1, g => by
    intro b hb
    simp only [outputs, List.mem_cons] at hb
    rcases hb with rfl | hb
    · exact hH _
    · exact outputs_len hH k n _ b hb

theorem pieces_outputs (hH : Digest H) (m : Nat) (g : Gen D) :
    pieces ((outputs H F 32 ((m + 31) / 32) g).flatten.take m) = (outputs H F 32 ((m + 31) / 32) g).take (m / 32) := by
  have hl := flatten_length (F := F) hH 32 ((m + 31) / 32) g
  have hlen : ((outputs H F 32 ((m + 31) / 32) g).flatten.take m).length = m := by
    rw [List.length_take, hl]; omega
  unfold pieces
  rw [hlen]
  apply List.ext_getElem?
  intro i
  by_cases hi : i < m / 32
  · have h2 : i < (outputs H F 32 ((m + 31) / 32) g).length := by rw [outputs_length]; omega
    rw [List.getElem?_take_of_lt hi]
    simp only [List.getElem?_map, List.getElem?_range hi, Option.map_some]
    rw [List.drop_take, List.take_take, show min 32 (m - 32 * i) = 32 by omega,
      take_flatten_get _ (outputs_len hH _ _ _) i h2, List.getD_eq_getElem?_getD, List.getElem?_eq_getElem h2]
    rfl
  · rw [List.getElem?_eq_none (by simp; omega), List.getElem?_eq_none (by simp [outputs_length]; omega)]

/-- The pieces handed out are digests of strictly increasing counter values. -/
theorem handedOut_made (hH : Digest H) : ∀ (ops : List Op) (g : Gen D), g.state.length = 32 →
    ∃ cs : List Int, cs.length = ((handedOut H F ops g).flatMap pieces).length ∧ cs.Pairwise (· < ·) ∧ (∀ c ∈ cs, g.counter < c) ∧
      ∀ (i : Nat) b c, ((handedOut H F ops g).flatMap pieces)[i]? = some b → cs[i]? = some c → Made H c b
  | [], _, _ => ⟨[], by simp [handedOut]⟩
  | .reseed s :: ops, g, hg => by
    obtain ⟨cs, h⟩ := handedOut_made hH ops (reseed H F s g) (hH _)
    exact ⟨cs, h⟩
  | .read n :: ops, g, hg => by
    simp only [handedOut, readBytes_eq hH _ g hg, List.length_replicate]
    obtain ⟨cs, h1, h2, h3, h4⟩ := handedOut_made hH ops (rounds H F 32 ((n + 31) / 32) g) (rounds_state hH _ _ _ hg)
    rw [rounds_counter] at h3
    refine ⟨(List.range (n / 32)).map (fun i : Nat => g.counter + 1 + (i : Int)) ++ cs, ?_, ?_, ?_, ?_⟩
    · rw [List.flatMap_cons, pieces_outputs hH]
      simp only [List.length_append, List.length_map, List.length_range, List.length_take, outputs_length, h1]
      omega
    · rw [List.pairwise_append]
      refine ⟨?_, h2, ?_⟩
      · rw [List.pairwise_map]
        exact List.Pairwise.imp (by intro a b h; omega) List.pairwise_lt_range
      · intro a ha b hb
        simp only [List.mem_map, List.mem_range] at ha
        obtain ⟨i, hi, rfl⟩ := ha
        have := h3 b hb
        omega
    · intro c hc
      rw [List.mem_append] at hc
      rcases hc with hc | hc
      · simp only [List.mem_map, List.mem_range] at hc
        obtain ⟨i, hi, rfl⟩ := hc
        omega
      · have := h3 c hc
        omega
    · intro i b c hb hc
      rw [List.flatMap_cons, pieces_outputs hH] at hb
      have hlen : ((outputs H F 32 ((n + 31) / 32) g).take (n / 32)).length = n / 32 := by
        simp only [List.length_take, outputs_length]; omega
      by_cases hi : i < n / 32
      · rw [List.getElem?_append_left (by omega), List.getElem?_take_of_lt hi] at hb
        rw [List.getElem?_append_left (by simpa using hi)] at hc
        simp only [List.getElem?_map, List.getElem?_range hi, Option.map_some, Option.some.injEq] at hc
        rw [← hc]
        exact outputs_made hH _ g hg i b hb
      · rw [List.getElem?_append_right (by omega), hlen] at hb
        rw [List.getElem?_append_right (by simp; omega)] at hc
        simp only [List.length_map, List.length_range] at hc
        exact h4 _ b c hb hc

theorem natBytes_inj {m n : Nat} (h : natBytes m = natBytes n) : m = n := by
  have := congrArg bytesNum h
  rwa [bytesNum_natBytes, bytesNum_natBytes] at this

theorem preimage_ne {c d : Int} (hc : 0 ≤ c) (hd : 0 ≤ d) (hcd : c ≠ d) {x s y t : Bytes} (hx : x.length = 32) (hs : s.length = 32)
    (hy : y.length = 32) (ht : t.length = 32) : counterBytes c ++ x ++ s ≠ counterBytes d ++ y ++ t := by
  intro h
  have e1 := (List.append_inj' h (by omega)).1
  have e2 := (List.append_inj' e1 (by omega)).1
  have := natBytes_inj e2
  omega

/-! ## Threads -/

theorem run_append (s : Threads D) (a b : List Nat) : run H F s (a ++ b) = run H F (run H F s a) b := List.foldl_append

theorem run_cons (s : Threads D) (i : Nat) (b : List Nat) : run H F s (i :: b) = run H F (step H F s i) b := rfl

/-- A round of two calls in step with each other: both get the digest of what the second one wrote. -/
theorem lockstep (s : Threads D) (t : Thread) (hs : s.threads = [t, t]) (hpc : t.pc = .head) (hlt : t.ofs < t.buf.length) :
    ∃ s' t', run H F s [0, 0, 0, 0, 1, 1, 1, 1, 0, 1, 0, 1] = s' ∧ s'.threads = [t', t'] ∧ t'.pc = .head ∧ s'.size = s.size ∧
      t'.ofs = t.ofs + s.size ∧ t'.buf.length = t.buf.length := by
  obtain ⟨g, h, n, ths⟩ := s
  obtain ⟨buf, ofs, pc⟩ := t
  simp only at hs hpc hlt
  subst hs hpc
  refine ⟨_, ⟨(if ofs + n ≤ buf.length
      then overwrite buf ofs (ofs + n) (H ([] ++ counterBytes (g.counter + 1 + 1) ++ (F.read (F.read g.drbg n).2 n).1 ++ g.state))
      else overwrite buf ofs buf.length (H ([] ++ counterBytes (g.counter + 1 + 1) ++ (F.read (F.read g.drbg n).2 n).1 ++ g.state))),
    ofs + n, .head⟩, rfl, ?_⟩
  simp only [run, List.foldl, step, stepThread, hlt, if_true, List.getElem?_cons_zero, List.getElem?_cons_succ, List.set]
  refine ⟨trivial, trivial, trivial, trivial, ?_⟩
  split
  · exact overwrite_length _ _ _ _ (by omega) (by assumption)
  · exact overwrite_length _ _ _ _ (by omega) (Nat.le_refl _)

theorem lockstep_all : ∀ (m : Nat) (s : Threads D) (t : Thread), t.buf.length - t.ofs ≤ m → s.threads = [t, t] → t.pc = .head → 0 < s.size →
    ∃ sched t', (run H F s sched).threads = [t', t'] ∧ t'.pc = .done ∧ t'.buf.length = t.buf.length ∧ t'.buf.length ≤ t'.ofs
  | 0, s, t, hm, hs, hpc, _ => by
    refine ⟨[0, 1], { t with pc := .done }, ?_, rfl, rfl, by simp only; omega⟩
    obtain ⟨buf, ofs, pc⟩ := t
    simp only at hpc hm
    subst hpc
    have hlt : ¬ ofs < buf.length := by omega
    simp [run, step, stepThread, hs, hlt]
  | m + 1, s, t, hm, hs, hpc, hz => by
    by_cases hlt : t.ofs < t.buf.length
    · obtain ⟨s', t', h1, h2, h3, h4, h5, h6⟩ := lockstep (H := H) (F := F) s t hs hpc hlt
      obtain ⟨sched, u, g1, g2, g3, g4⟩ := lockstep_all m s' t' (by omega) h2 h3 (by omega)
      exact ⟨_ ++ sched, u, by rw [run_append, h1]; exact g1, g2, by omega, g4⟩
    · exact lockstep_all m s t (by omega) hs hpc hz

/-- One call alone, a round. -/
theorem solo_round (s : Threads D) (i : Nat) (t : Thread) (hs : s.threads[i]? = some t) (hpc : t.pc = .head) (hlt : t.ofs < t.buf.length) :
    ∃ h, run H F s [i, i, i, i, i, i] =
      { s with gen := round H F s.size s.gen, hasher := h,
               threads := s.threads.set i { buf := if t.ofs + s.size ≤ t.buf.length then overwrite t.buf t.ofs (t.ofs + s.size) (round H F s.size s.gen).state
                                                   else overwrite t.buf t.ofs t.buf.length (round H F s.size s.gen).state,
                                            ofs := t.ofs + s.size, pc := .head } } := by
  obtain ⟨g, h, n, ths⟩ := s
  obtain ⟨buf, ofs, pc⟩ := t
  simp only at hs hpc hlt
  subst hpc
  have hi : i < ths.length := by
    rcases Nat.lt_or_ge i ths.length with h | h
    · exact h
    · rw [List.getElem?_eq_none h] at hs; cases hs
  refine ⟨[] ++ counterBytes (g.counter + 1) ++ (F.read g.drbg n).1 ++ g.state, ?_⟩
  have hset : ∀ t : Thread, (ths.set i t)[i]? = some t := fun t => List.getElem?_set_self hi
  simp only [run, List.foldl, step, stepThread, hs, hlt, if_true, hset, List.set_set, round, List.nil_append]

theorem solo : ∀ (fuel : Nat) (s : Threads D) (i : Nat) (t : Thread), t.buf.length - t.ofs ≤ fuel → s.threads[i]? = some t → t.pc = .head →
    0 < s.size →
    ∃ k h ofs, run H F s (List.replicate k i) =
      { s with gen := (readLoop H F s.size fuel t.ofs t.buf s.gen).2, hasher := h,
               threads := s.threads.set i { buf := (readLoop H F s.size fuel t.ofs t.buf s.gen).1, ofs := ofs, pc := .done } } := by
  have stop : ∀ (s : Threads D) (i : Nat) (t : Thread), ¬ t.ofs < t.buf.length → s.threads[i]? = some t → t.pc = .head →
      run H F s [i] = { s with threads := s.threads.set i { t with pc := .done } } := by
    intro s i t hlt hs hpc
    obtain ⟨g, h, n, ths⟩ := s
    obtain ⟨buf, ofs, pc⟩ := t
    simp only at hs hpc hlt
    subst hpc
    simp [run, step, stepThread, hs, hlt]
  intro fuel
  induction fuel with
  | zero =>
    intro s i t hm hs hpc _
    exact ⟨1, s.hasher, t.ofs, stop s i t (by omega) hs hpc⟩
  | succ fuel ih =>
    intro s i t hm hs hpc hz
    by_cases hlt : t.ofs < t.buf.length
    · obtain ⟨h, e⟩ := solo_round (H := H) (F := F) s i t hs hpc hlt
      have hi : i < s.threads.length := by
        rcases Nat.lt_or_ge i s.threads.length with h | h
        · exact h
        · rw [List.getElem?_eq_none h] at hs; cases hs
      have hb : (if t.ofs + s.size ≤ t.buf.length then overwrite t.buf t.ofs (t.ofs + s.size) (round H F s.size s.gen).state
          else overwrite t.buf t.ofs t.buf.length (round H F s.size s.gen).state).length = t.buf.length := by
        split
        · exact overwrite_length _ _ _ _ (by omega) (by assumption)
        · exact overwrite_length _ _ _ _ (by omega) (Nat.le_refl _)
      obtain ⟨k, h', ofs', e'⟩ := ih { s with gen := round H F s.size s.gen, hasher := h, threads := _ } i
        ⟨(if t.ofs + s.size ≤ t.buf.length then overwrite t.buf t.ofs (t.ofs + s.size) (round H F s.size s.gen).state
          else overwrite t.buf t.ofs t.buf.length (round H F s.size s.gen).state), t.ofs + s.size, .head⟩
        (by simp only [hb]; omega)
        (List.getElem?_set_self (l := s.threads) hi) rfl hz
      refine ⟨6 + k, h', ofs', ?_⟩
      rw [show List.replicate (6 + k) i = [i, i, i, i, i, i] ++ List.replicate k i by
        rw [List.replicate_append_replicate.symm]; rfl, run_append, e, e']
      have hr : readLoop H F s.size (fuel + 1) t.ofs t.buf s.gen = readLoop H F s.size fuel (t.ofs + s.size)
          (if t.ofs + s.size ≤ t.buf.length then overwrite t.buf t.ofs (t.ofs + s.size) (round H F s.size s.gen).state
            else overwrite t.buf t.ofs t.buf.length (round H F s.size s.gen).state) (round H F s.size s.gen) := by
        conv => lhs; unfold readLoop
        rw [if_pos hlt]
      rw [hr]
      simp only [List.set_set]
    · refine ⟨1, s.hasher, t.ofs, ?_⟩
      unfold readLoop
      rw [if_neg hlt]
      exact stop s i t hlt hs hpc

end FcRetrieval.Prng
