import Verif.Spec.Tcp
import Verif.Lemmas.Merkle
import Verif.Props.Message
/-!
# Reading from a connection
-/
set_option linter.unusedSimpArgs false

namespace FcRetrieval.Tcp
open FcRetrieval.Message (Msg)

theorem bytesOf_append : ∀ (a b : List Ev), bytesOf (a ++ b) = bytesOf a ++ bytesOf b
  | [], b => rfl
  | .data x xs :: r, b => by simp [bytesOf, bytesOf_append r b]
  | .timeout :: r, b => by simp [bytesOf, bytesOf_append r b]

theorem bytesOf_pushBack (b : Bytes) (r : List Ev) : bytesOf (pushBack b r) = b ++ bytesOf r := by
  cases b <;> simp [pushBack, bytesOf]

theorem allData_pushBack {b : Bytes} {r : List Ev} (h : AllData r) : AllData (pushBack b r) := by
  cases b with
  | nil => exact h
  | cons x xs => simpa [pushBack, AllData] using h

theorem pushBack_append (b : Bytes) (r s : List Ev) : pushBack b (r ++ s) = pushBack b r ++ s := by
  cases b <;> rfl

theorem allData_tail {e : Ev} {r : List Ev} (h : AllData (e :: r)) : AllData r := by
  simp only [AllData, List.mem_cons, not_or] at h ⊢
  exact h.2

theorem allData_append {a b : List Ev} : AllData (a ++ b) ↔ AllData a ∧ AllData b := by
  simp [AllData, not_or]

theorem bufRead_ok {n : Nat} (hn : 0 < n) (buf : Bytes) (e1 e2 : List Ev) (hd : AllData e1) (hne : buf ++ bytesOf e1 ≠ []) :
    ∃ b buf' e1', bufRead n ⟨buf, e1 ++ e2⟩ = (.bytes b, ⟨buf', e1' ++ e2⟩) ∧ b ≠ [] ∧ b.length ≤ n ∧ AllData e1' ∧
      b ++ (buf' ++ bytesOf e1') = buf ++ bytesOf e1 := by
  cases buf with
  | cons x xs =>
    refine ⟨(x :: xs).take n, (x :: xs).drop n, e1, rfl, ?_, List.length_take_le _ _, hd, ?_⟩
    · obtain ⟨k, rfl⟩ : ∃ k, n = k + 1 := ⟨n - 1, by omega⟩
      simp
    · rw [← List.append_assoc, List.take_append_drop]
  | nil =>
    cases e1 with
    | nil => simp [bytesOf] at hne
    | cons e r =>
      cases e with
      | timeout => simp [AllData] at hd
      | data x xs =>
        have hr : AllData r := allData_tail hd
        by_cases hb : bufSize ≤ n
        · refine ⟨(x :: xs).take n, [], pushBack ((x :: xs).drop n) r, ?_, ?_, List.length_take_le _ _, allData_pushBack hr, ?_⟩
          · simp only [bufRead, hb, ↓reduceIte, connRead, List.cons_append, pushBack_append]
          · obtain ⟨k, rfl⟩ : ∃ k, n = k + 1 := ⟨n - 1, by omega⟩
            simp
          · rw [bytesOf_pushBack]
            simp only [List.nil_append, bytesOf]
            rw [← List.append_assoc, List.take_append_drop]
        · refine ⟨((x :: xs).take bufSize).take n, ((x :: xs).take bufSize).drop n, pushBack ((x :: xs).drop bufSize) r, ?_, ?_,
            List.length_take_le _ _, allData_pushBack hr, ?_⟩
          · simp only [bufRead, if_neg hb, connRead, List.cons_append, pushBack_append]
          · obtain ⟨k, rfl⟩ : ∃ k, n = k + 1 := ⟨n - 1, by omega⟩
            simp [bufSize]
          · rw [bytesOf_pushBack, ← List.append_assoc, List.take_append_drop, ← List.append_assoc, List.take_append_drop]
            rfl

theorem readFull_ok (e2 : List Ev) : ∀ (fuel k : Nat) (acc buf : Bytes) (e1 : List Ev), k ≤ fuel → AllData e1 →
    k ≤ (buf ++ bytesOf e1).length →
    ∃ buf' e1', readFull fuel k acc ⟨buf, e1 ++ e2⟩ = (.bytes (acc ++ (buf ++ bytesOf e1).take k), ⟨buf', e1' ++ e2⟩) ∧
      AllData e1' ∧ buf' ++ bytesOf e1' = (buf ++ bytesOf e1).drop k
  | 0, k, acc, buf, e1, hf, hd, _ => by
    have : k = 0 := by omega
    subst this
    exact ⟨buf, e1, by simp [readFull], hd, by simp⟩
  | fuel + 1, k, acc, buf, e1, hf, hd, hk => by
    by_cases h0 : k = 0
    · subst h0
      exact ⟨buf, e1, by simp [readFull], hd, by simp⟩
    · have hne : buf ++ bytesOf e1 ≠ [] := by
        intro h
        rw [h] at hk
        simp at hk
        omega
      obtain ⟨b, buf', e1', h1, h2, h3, h4, h5⟩ := bufRead_ok (n := k) (by omega) buf e1 e2 hd hne
      have hb : 0 < b.length := List.length_pos_iff.2 h2
      rw [← h5] at hk ⊢
      have hk' : k - b.length ≤ (buf' ++ bytesOf e1').length := by
        rw [List.length_append] at hk
        omega
      obtain ⟨buf'', e1'', h6, h7, h8⟩ := readFull_ok e2 fuel (k - b.length) (acc ++ b) buf' e1' (by omega) h4 hk'
      refine ⟨buf'', e1'', ?_, h7, ?_⟩
      · simp only [readFull, h0, ↓reduceIte, h1, h6]
        generalize buf' ++ bytesOf e1' = t
        rw [List.take_append (l₁ := b), List.append_assoc, List.take_of_length_le h3]
      · rw [h8]
        generalize buf' ++ bytesOf e1' = t
        rw [List.drop_append (l₁ := b), List.drop_eq_nil_of_le h3, List.nil_append]

/-- The connection ends or the deadline passes after these chunks: what the read reports, and what is left. -/
def stop : List Ev → Got
  | [] => .eof
  | _ => .timeout

theorem bufRead_stop {n : Nat} (e2 : List Ev) (h2 : e2 = [] ∨ ∃ r, e2 = .timeout :: r) :
    bufRead n ⟨[], e2⟩ = (stop e2, ⟨[], e2.tail⟩) := by
  rcases h2 with rfl | ⟨r, rfl⟩
  · simp only [bufRead, connRead, stop]
    split <;> rfl
  · simp only [bufRead, connRead, stop, List.tail_cons]
    split <;> rfl

theorem stop_ne_bytes (e2 : List Ev) (b : Bytes) : stop e2 ≠ .bytes b := by
  cases e2 <;> simp [stop]

theorem readFull_short (e2 : List Ev) (h2 : e2 = [] ∨ ∃ r, e2 = .timeout :: r) : ∀ (fuel k : Nat) (acc buf : Bytes) (e1 : List Ev),
    k ≤ fuel → AllData e1 → (buf ++ bytesOf e1).length < k →
    readFull fuel k acc ⟨buf, e1 ++ e2⟩ = (stop e2, ⟨[], e2.tail⟩)
  | 0, k, acc, buf, e1, hf, hd, hk => by omega
  | fuel + 1, k, acc, buf, e1, hf, hd, hk => by
    have h0 : k ≠ 0 := by omega
    by_cases hne : buf ++ bytesOf e1 = []
    · rw [List.append_eq_nil_iff] at hne
      obtain ⟨rfl, he⟩ := hne
      have : e1 = [] := by
        cases e1 with
        | nil => rfl
        | cons e r =>
          cases e with
          | timeout => simp [AllData] at hd
          | data x xs => simp [bytesOf] at he
      subst this
      simp only [readFull, h0, ↓reduceIte, List.nil_append, bufRead_stop e2 h2]
      cases hs : stop e2 with
      | bytes b => exact absurd hs (stop_ne_bytes e2 b)
      | eof => rfl
      | timeout => rfl
    · obtain ⟨b, buf', e1', h1, h3, h4, h5, h6⟩ := bufRead_ok (n := k) (by omega) buf e1 e2 hd hne
      have hb : 0 < b.length := List.length_pos_iff.2 h3
      have hl : b.length + (buf' ++ bytesOf e1').length = (buf ++ bytesOf e1).length := by rw [← h6]; simp
      have ih := readFull_short e2 h2 fuel (k - b.length) (acc ++ b) buf' e1' (by omega) h5 (by omega)
      simp only [readFull, h0, ↓reduceIte, h1, ih]

/-- Reading a message when enough bytes arrive. -/
theorem readMsg_ok (e1 e2 : List Ev) (hd : AllData e1) (n : Nat) (hn : n < 4294967296) (d rest : Bytes) (hl : d.length = n)
    (hb : bytesOf e1 = be32 n ++ d ++ rest) :
    ∃ buf e1', AllData e1' ∧ buf ++ bytesOf e1' = rest ∧
      readMsg (e1 ++ e2) = (match Message.fromBytes d with | .ok m => .msg m | .err => .bad | .panic => .crash, e1' ++ e2) := by
  have h4 : (be32 n).length = 4 := rfl
  obtain ⟨buf, e1', h1, h2, h3⟩ := readFull_ok e2 4 4 [] [] e1 (by omega) hd (by rw [hb]; simp [h4])
  have ht : (be32 n ++ d ++ rest).take 4 = be32 n := by
    rw [List.append_assoc]
    exact List.take_left' h4
  have hdr : (be32 n ++ d ++ rest).drop 4 = d ++ rest := by
    rw [List.append_assoc]
    exact List.drop_left' h4
  simp only [List.nil_append, hb, ht, hdr] at h1 h3
  obtain ⟨buf', e1'', h5, h6, h7⟩ := readFull_ok e2 n n [] buf e1' (by omega) h2 (by rw [h3]; simp [hl])
  rw [h3] at h5 h7
  have ht' : (d ++ rest).take n = d := List.take_left' hl
  have hdr' : (d ++ rest).drop n = rest := List.drop_left' hl
  simp only [List.nil_append, ht', hdr'] at h5 h7
  refine ⟨buf', e1'', h6, h7, ?_⟩
  unfold readMsg
  rw [h1]
  simp only [Merkle.u32_be32 n hn, h5]
  cases Message.fromBytes d <;> rfl

theorem u32_lt (l : Bytes) (h : l.length = 4) : Merkle.u32 l < 4294967296 := by
  have := bytesNum_lt l
  rw [h] at this
  exact this

theorem be32_u32 (l : Bytes) (h : l.length = 4) : be32 (Merkle.u32 l) = l := by
  apply bytesNum_inj
  · rw [h]; rfl
  · exact Merkle.u32_be32 _ (u32_lt l h)

/-- Reading a message when the connection ends or the deadline passes too early. -/
theorem readMsg_short (e1 e2 : List Ev) (hd : AllData e1) (h2 : e2 = [] ∨ ∃ r, e2 = .timeout :: r)
    (hs : (bytesOf e1).length < 4 ∨ (bytesOf e1).length < 4 + Merkle.u32 ((bytesOf e1).take 4)) :
    readMsg (e1 ++ e2) = (if e2 = [] then .eof else .timeout, e2.tail) := by
  have hout : ∀ (o : Got), o = stop e2 → (match o, (⟨[], e2.tail⟩ : Reader) with
      | .eof, r => (Out.eof, r.conn)
      | .timeout, r => (.timeout, r.conn)
      | .bytes _, r => (.crash, r.conn)) = (if e2 = [] then .eof else .timeout, e2.tail) := by
    rintro o rfl
    rcases h2 with rfl | ⟨r, rfl⟩ <;> simp [stop]
  by_cases h4 : (bytesOf e1).length < 4
  · unfold readMsg
    rw [readFull_short e2 h2 4 4 [] [] e1 (by omega) hd (by simpa using h4)]
    rcases h2 with rfl | ⟨r, rfl⟩ <;> simp [stop]
  · have hs' : (bytesOf e1).length < 4 + Merkle.u32 ((bytesOf e1).take 4) := by
      rcases hs with h | h
      · exact absurd h h4
      · exact h
    obtain ⟨buf, e1', h1, h3, h5⟩ := readFull_ok e2 4 4 [] [] e1 (by omega) hd (by simpa using h4)
    simp only [List.nil_append] at h1 h5
    have hlen : (buf ++ bytesOf e1').length < Merkle.u32 ((bytesOf e1).take 4) := by
      rw [h5, List.length_drop]
      omega
    unfold readMsg
    rw [h1]
    simp only [readFull_short e2 h2 _ _ [] buf e1' (Nat.le_refl _) h3 hlen]
    rcases h2 with rfl | ⟨r, rfl⟩ <;> simp [stop]

/-- Any list of events is chunks up to a stop. -/
theorem split_events : ∀ evs : List Ev, ∃ e1 e2, evs = e1 ++ e2 ∧ AllData e1 ∧ bytesOf e1 = firstBytes evs ∧ (e2 = [] ∨ ∃ r, e2 = .timeout :: r)
  | [] => ⟨[], [], rfl, by simp [AllData], rfl, Or.inl rfl⟩
  | .timeout :: r => ⟨[], .timeout :: r, rfl, by simp [AllData], rfl, Or.inr ⟨r, rfl⟩⟩
  | .data x xs :: r => by
    obtain ⟨e1, e2, h1, h2, h3, h4⟩ := split_events r
    exact ⟨.data x xs :: e1, e2, by rw [h1]; rfl, by simpa [AllData] using h2, by simp [bytesOf, firstBytes, h3], h4⟩

end FcRetrieval.Tcp
