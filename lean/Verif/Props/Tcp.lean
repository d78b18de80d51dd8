import Verif.Lemmas.Tcp
/-!
# C31, C32, C90: messages over TCP
-/
set_option linter.unusedSimpArgs false

namespace FcRetrieval.Tcp
open FcRetrieval.Message (Msg InRange exMsg exMsg_inRange)

/-- The message is not longer than the frame header can say. -/
def Fits (m : Msg) : Prop := (Message.toBytes m).length < 4294967296

theorem exMsg_fits : Fits exMsg := by unfold Fits; decide +kernel

theorem readMsg_frame (m : Msg) (hm : InRange m) (hf : Fits m) (e1 e2 : List Ev) (rest : Bytes) (hd : AllData e1)
    (hb : bytesOf e1 = frame m ++ rest) :
    ∃ buf e1', AllData e1' ∧ buf ++ bytesOf e1' = rest ∧ readMsg (e1 ++ e2) = (.msg m, e1' ++ e2) := by
  obtain ⟨buf, e1', h1, h2, h3⟩ := readMsg_ok e1 e2 hd (Message.toBytes m).length hf (Message.toBytes m) rest rfl hb
  rw [Message.C27_wire_round_trip m hm] at h3
  exact ⟨buf, e1', h1, h2, h3⟩

theorem eq_nil_of_bytesOf {e : List Ev} (hd : AllData e) (h : bytesOf e = []) : e = [] := by
  cases e with
  | nil => rfl
  | cons a r =>
    cases a with
    | timeout => simp [AllData] at hd
    | data x xs => simp [bytesOf] at h

/-- C31: a message that was sent is received, however its bytes are cut into chunks, and what comes after those chunks is left
untouched. -/
theorem C31_delivered (m : Msg) (hm : InRange m) (hf : Fits m) (evs after : List Ev) (h : Arrives evs (frame m)) :
    readMsg (evs ++ after) = (.msg m, after) := by
  obtain ⟨buf, e1', h1, h2, h3⟩ := readMsg_frame m hm hf evs after [] h.1 (by simpa using h.2)
  rw [List.append_eq_nil_iff] at h2
  rw [h3, eq_nil_of_bytesOf h1 h2.2]
  rfl

/-- The 13 bytes and the rest of the example message, in two chunks. -/
example : InRange exMsg ∧ Fits exMsg ∧ ∃ x xs y ys, frame exMsg = (x :: xs) ++ (y :: ys) ∧
    Arrives [.data x xs, .data y ys] (frame exMsg) := by
  refine ⟨exMsg_inRange, exMsg_fits, 0, (frame exMsg).tail.take 12, (frame exMsg).drop 13 |>.headD 0,
    (frame exMsg).drop 14, by decide +kernel, by simp [AllData], by decide +kernel⟩

/-- C31: if the connection ends before the message is complete, at any byte and however the bytes are cut, the reader reports the
end of the connection. -/
theorem C31_truncated (m : Msg) (hf : Fits m) (evs : List Ev) (b rest : Bytes) (h : Arrives evs b) (hr : rest ≠ [])
    (hb : b ++ rest = frame m) : readMsg evs = (.eof, []) := by
  have hlen : b.length + rest.length = 4 + (Message.toBytes m).length := by
    rw [← List.length_append, hb]
    simp [frame, show (be32 (Message.toBytes m).length).length = 4 from rfl]
  have hrp : 0 < rest.length := List.length_pos_iff.2 hr
  have := readMsg_short evs [] h.1 (Or.inl rfl) (by
    rw [h.2]
    by_cases h4 : b.length < 4
    · exact Or.inl h4
    · right
      have ht : b.take 4 = be32 (Message.toBytes m).length := by
        have h1 : (b ++ rest).take 4 = b.take 4 := List.take_append_of_le_length (by omega)
        rw [← h1, hb]
        exact List.take_left' rfl
      rw [ht, Merkle.u32_be32 _ hf]
      omega)
  simpa using this

example : ∃ b rest, rest ≠ [] ∧ b ++ rest = frame exMsg ∧ b.length = 50 :=
  ⟨(frame exMsg).take 50, (frame exMsg).drop 50, by decide +kernel, List.take_append_drop _ _, by decide +kernel⟩

/-- C31: whatever arrives, a message is reported only if the bytes received start with its length and its encoding; the reader
never crashes. -/
theorem C31_only_what_was_sent (evs : List Ev) :
    (readMsg evs).1 ≠ .crash ∧
    ∀ m, (readMsg evs).1 = .msg m →
      InRange m ∧ ∃ d rest, firstBytes evs = be32 d.length ++ d ++ rest ∧ d.length < 4294967296 ∧ Message.fromBytes d = .ok m := by
  obtain ⟨e1, e2, rfl, hd, hfb, h2⟩ := split_events evs
  rw [← hfb]
  by_cases hs : (bytesOf e1).length < 4 ∨ (bytesOf e1).length < 4 + Merkle.u32 ((bytesOf e1).take 4)
  · rw [readMsg_short e1 e2 hd h2 hs]
    by_cases he : e2 = [] <;> simp [he]
  · have h4 : 4 ≤ (bytesOf e1).length := by omega
    have hn : 4 + Merkle.u32 ((bytesOf e1).take 4) ≤ (bytesOf e1).length := by omega
    have hl4 : ((bytesOf e1).take 4).length = 4 := by simp; omega
    generalize hnn : Merkle.u32 ((bytesOf e1).take 4) = n at hn
    have hd' : (((bytesOf e1).drop 4).take n).length = n := by simp; omega
    have hbytes : bytesOf e1 = be32 n ++ ((bytesOf e1).drop 4).take n ++ ((bytesOf e1).drop 4).drop n := by
      rw [List.append_assoc, List.take_append_drop, ← hnn, be32_u32 _ hl4, List.take_append_drop]
    have hlt : n < 4294967296 := by rw [← hnn]; exact u32_lt _ hl4
    obtain ⟨buf, e1', _, _, h3⟩ := readMsg_ok e1 e2 hd n hlt _ _ hd' hbytes
    rw [h3]
    obtain ⟨hnp, hok⟩ := Message.C27_read_total (((bytesOf e1).drop 4).take n)
    cases hf : Message.fromBytes (((bytesOf e1).drop 4).take n) with
    | err => simp
    | panic => exact absurd hf hnp
    | ok m =>
      refine ⟨by simp, ?_⟩
      intro m' hm'
      simp only [Out.msg.injEq] at hm'
      subst hm'
      exact ⟨hok m hf, _, _, by rw [hd']; exact hbytes, by rw [hd']; exact hlt, hf⟩

/-! ## several messages on one connection -/

/-- C32 fails: two messages that reach the receiver in one chunk of at most 4096 bytes.  The first is read, the second is gone: the
next read waits for what comes after it, here the end of the connection. -/
theorem C32_refuted (m m' : Msg) (hm : InRange m) (hf : Fits m) (x : UInt8) (xs : Bytes)
    (hx : x :: xs = frame m ++ frame m') (hl : (x :: xs).length ≤ bufSize) (after : List Ev) :
    readMsg (.data x xs :: after) = (.msg m, after) ∧ readN 2 [.data x xs] = [.msg m, .eof] := by
  have h4 : (be32 (Message.toBytes m).length).length = 4 := rfl
  have key : ∀ after, readMsg (.data x xs :: after) = (.msg m, after) := by
    intro after
    -- the first read of the header moves the whole chunk into the buffer
    have hbuf : bufRead 4 ⟨[], .data x xs :: after⟩ = (.bytes (be32 (Message.toBytes m).length),
        ⟨Message.toBytes m ++ frame m', after⟩) := by
      have e1 : (x :: xs).take bufSize = x :: xs := List.take_of_length_le hl
      have e2 : (x :: xs).drop bufSize = [] := List.drop_eq_nil_of_le hl
      simp only [bufRead, connRead, e1, e2, pushBack, if_neg (show ¬ bufSize ≤ 4 by decide)]
      rw [hx, frame, List.append_assoc, List.take_left' h4, List.drop_left' h4]
    have hhead : readFull 4 4 [] ⟨[], .data x xs :: after⟩ = (.bytes (be32 (Message.toBytes m).length),
        ⟨Message.toBytes m ++ frame m', after⟩) := by
      rw [readFull, if_neg (by decide)]
      simp only [hbuf, h4, Nat.sub_self, List.nil_append]
      rfl
    have hbody : ∀ (d r : Bytes), readFull d.length d.length [] ⟨d ++ r, after⟩ = (.bytes d, ⟨r, after⟩) := by
      intro d r
      cases d with
      | nil => rfl
      | cons a d =>
        rw [List.length_cons, readFull, if_neg (by omega)]
        have : bufRead (d.length + 1) ⟨(a :: d) ++ r, after⟩ = (.bytes (a :: d), ⟨r, after⟩) := by
          simp [bufRead, List.take_left', List.drop_left']
        simp only [this, List.length_cons, Nat.sub_self, List.nil_append]
        cases d.length <;> rfl
    unfold readMsg
    simp only [hhead, Merkle.u32_be32 _ hf, hbody, Message.C27_wire_round_trip m hm]
  refine ⟨key after, ?_⟩
  simp only [readN, key []]
  rfl

example : (frame exMsg ++ frame exMsg).length ≤ bufSize := by decide +kernel

/-- C32, what is left of it: if no chunk contains bytes of two messages, all messages are received in order. -/
theorem C32_partial : ∀ (l : List (Msg × List Ev)), (∀ p ∈ l, InRange p.1 ∧ Fits p.1 ∧ Arrives p.2 (frame p.1)) →
    ∀ after, readN l.length ((l.map (·.2)).flatten ++ after) = l.map (fun p => Out.msg p.1)
  | [], _, after => rfl
  | (m, evs) :: l, h, after => by
    obtain ⟨h1, h2, h3⟩ := h (m, evs) (by simp)
    have ih := C32_partial l (fun p hp => h p (by simp [hp])) after
    simp only [List.length_cons, List.map_cons, List.flatten_cons, readN, List.append_assoc]
    rw [C31_delivered m h1 h2 evs _ h3]
    simp only [ih]

/-- Two messages, each in a chunk of its own. -/
example (x : UInt8) (xs : Bytes) (hx : x :: xs = frame exMsg) :
    readN 2 [.data x xs, .data x xs] = [.msg exMsg, .msg exMsg] := by
  have := C32_partial [(exMsg, [.data x xs]), (exMsg, [.data x xs])] (by
    intro p hp
    simp only [List.mem_cons, List.not_mem_nil, or_false, or_self] at hp
    subst hp
    exact ⟨exMsg_inRange, exMsg_fits, by simp [AllData], by simp [bytesOf]; exact hx⟩) []
  simpa using this

/-! ## a slow sender -/

/-- How every encoded message begins. -/
theorem toBytes_prefix (m : Msg) : ∃ t, Message.toBytes m = 123 :: 34 :: 109 :: 101 :: t := by
  have hr : ∃ cs, render (Message.marshal m) = '{' :: '"' :: 'm' :: 'e' :: cs := ⟨_, rfl⟩
  obtain ⟨cs, hr⟩ := hr
  refine ⟨utf8Bytes cs, ?_⟩
  unfold Message.toBytes Message.jsonText
  rw [hr]
  rfl

/-- C90 fails: the header of a message arrives, the deadline passes, then the rest arrives, with anything after it (up to two
gigabytes).  The first read reports the timeout and has swallowed the header; the next one takes the text of the message for a
header and waits for 2065853797 bytes: neither this message nor any later one is ever received. -/
theorem C90_refuted (m : Msg) (x : UInt8) (xs : Bytes) (hx : x :: xs = be32 (Message.toBytes m).length) (evs : List Ev) (later : Bytes)
    (h : Arrives evs (Message.toBytes m ++ later)) (hl : (Message.toBytes m ++ later).length < 2065853797) :
    readN 2 (.data x xs :: .timeout :: evs) = [.timeout, .eof] := by
  have h1 : readMsg ([.data x xs] ++ (.timeout :: evs)) = (if (Ev.timeout :: evs) = [] then Out.eof else .timeout, evs) := by
    apply readMsg_short
    · simp [AllData]
    · exact Or.inr ⟨evs, rfl⟩
    · obtain ⟨t, ht⟩ := toBytes_prefix m
      right
      simp only [bytesOf, List.append_nil, hx]
      have h4 : (be32 (Message.toBytes m).length).length = 4 := rfl
      rw [List.take_of_length_le (by rw [h4]; omega), Merkle.u32_be32, h4, ht, List.length_cons]
      · omega
      · rw [List.length_append] at hl
        omega
  have h2 : readMsg (evs ++ []) = (if ([] : List Ev) = [] then Out.eof else .timeout, []) := by
    apply readMsg_short _ _ h.1 (Or.inl rfl)
    right
    obtain ⟨t, ht⟩ := toBytes_prefix m
    rw [h.2]
    have : (Message.toBytes m ++ later).take 4 = [123, 34, 109, 101] := by rw [ht]; simp
    rw [this, show Merkle.u32 [123, 34, 109, 101] = 2065853797 by decide]
    omega
  simp only [List.cons_append, List.nil_append, reduceCtorEq, ↓reduceIte, List.append_nil] at h1 h2
  simp only [readN, h1, h2]

example : ∃ x xs, x :: xs = be32 (Message.toBytes exMsg).length ∧ (Message.toBytes exMsg ++ frame exMsg).length < 2065853797 :=
  ⟨0, [0, 0, UInt8.ofNat (Message.toBytes exMsg).length], by decide +kernel, by decide +kernel⟩

/-- C90, what is left of it: a deadline that passes between messages does no harm. -/
theorem C90_partial (m : Msg) (hm : InRange m) (hf : Fits m) (k : Nat) (evs after : List Ev) (h : Arrives evs (frame m)) :
    readN (k + 1) (List.replicate k .timeout ++ (evs ++ after)) = List.replicate k .timeout ++ [.msg m] := by
  induction k with
  | zero =>
    simp only [readN, List.replicate_zero, List.nil_append, C31_delivered m hm hf evs after h]
  | succ k ih =>
    have : readMsg (.timeout :: (List.replicate k .timeout ++ (evs ++ after))) = (.timeout, List.replicate k .timeout ++ (evs ++ after)) := rfl
    rw [List.replicate_succ, List.cons_append, readN, this]
    simp only [ih]
    rfl
example : InRange exMsg ∧ Fits exMsg := ⟨exMsg_inRange, exMsg_fits⟩

end FcRetrieval.Tcp
