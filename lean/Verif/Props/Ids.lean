import Verif.Lemmas.Ids
/-!
# Properties of identifiers (C08 - C11, C83)
-/

set_option linter.unusedSimpArgs false

namespace FcRetrieval.Ids
open FcRetrieval.Ring (cw)

/-! ## C08 identifiers are canonical -/

/-- The number an identifier spells, as the code computes it (`SetBytes`), is its position. -/
theorem C08_position_meaning (b : Bytes) : bytesNum b = position b := (position_eq b).symm

/-- Building from bytes succeeds exactly for at most 32 bytes and pads with zeros on the left. -/
theorem C08_from_bytes (b : Bytes) (id : Id) :
    fromBytes b = some id ↔ b.length ≤ 32 ∧ id = List.replicate (32 - b.length) 0 ++ b := fromBytes_some b id

example : fromBytes [7, 8] = some (List.replicate 30 0 ++ [7, 8]) := (C08_from_bytes _ _).2 ⟨by decide, rfl⟩

/-- Building from a big integer succeeds exactly when its absolute value fits 256 bits, and the identifier is 32 bytes that
spell that value. -/
theorem C08_from_big (n : Int) (id : Id) :
    fromBig n = some id ↔ n.natAbs < 2 ^ 256 ∧ id.length = 32 ∧ position id = n.natAbs := by
  unfold fromBig
  rw [fromBytes_some, natBytes_length_le, pow_eq, position_eq]
  constructor
  · rintro ⟨h, rfl⟩
    have h' := (natBytes_length_le (k := 32)).2 (by rw [pow_eq]; exact h)
    refine ⟨h, by simp; omega, ?_⟩
    rw [bytesNum_pad, bytesNum_natBytes]
  · rintro ⟨h, h1, h2⟩
    have h' := (natBytes_length_le (k := 32)).2 (by rw [pow_eq]; exact h)
    refine ⟨h, ?_⟩
    apply bytesNum_inj
    · simp; omega
    · rw [bytesNum_pad, bytesNum_natBytes, h2]

example : fromBig (-258) = some (List.replicate 30 0 ++ [1, 2]) := by
  rw [C08_from_big]; decide +kernel

/-- Building from a hex string succeeds exactly for hex text of at most 64 digits; `ToString` of the result is the input in
lower case with zeros in front. -/
theorem C08_from_hex (s : List Char) (id : Id) :
    fromHex s = some id ↔
      HexText s ∧ s.length ≤ 64 ∧ id.length = 32 ∧ toStr id = List.replicate (64 - s.length) '0' ++ s.map Char.toLower := by
  unfold fromHex HexText
  rw [lowerHexDigits_eq, ← hexDecode_some_iff]
  have hz : ∀ k, hexEncode (List.replicate k (0 : UInt8)) = List.replicate (2 * k) '0' := by
    intro k
    induction k with
    | zero => rfl
    | succ k ih => rw [List.replicate_succ, hexEncode, ih, show 2 * (k + 1) = 2 * k + 1 + 1 by omega]; rfl
  cases hd : hexDecode s with
  | none => simp [hd]
  | some b =>
    have hl := hexDecode_length s b hd
    have he := hexEncode_decode s b hd
    simp only [Option.isSome_some, true_and]
    rw [fromBytes_some]
    constructor
    · rintro ⟨h1, rfl⟩
      have h32 : (List.replicate (32 - b.length) (0 : UInt8) ++ b).length = 32 := by simp; omega
      refine ⟨by omega, h32, ?_⟩
      rw [toStr_eq h32, hexEncode_append, hz, he]
      congr 2; omega
    · rintro ⟨h1, h2, h3⟩
      refine ⟨by omega, ?_⟩
      rw [toStr_eq h2] at h3
      apply hexEncode_inj
      rw [h3, hexEncode_append, hz, he]
      congr 2; omega

example : fromHex "aB01".toList = some (List.replicate 30 0 ++ [171, 1]) := by decide +kernel
example : HexText "aB01".toList ∧ ¬ HexText "aB0".toList ∧ ¬ HexText "xy".toList := by unfold HexText; decide +kernel

/-- Every identifier the constructors build prints as 64 lower-case hex digits. -/
theorem C08_to_string_shape (id : Id) (h : Proper id) :
    (toStr id).length = 64 ∧ ∀ c ∈ toStr id, c ∈ lowerHexDigits := by
  rw [toStr_eq h, hexEncode_length, h, lowerHexDigits_eq]
  exact ⟨rfl, hexEncode_chars id⟩

example : Proper (List.replicate 31 0 ++ [5]) := rfl

/-- Every constructor builds 32 bytes. -/
theorem C08_constructors_proper (b : Bytes) (n : Int) (s : List Char) (id : Id)
    (h : fromBytes b = some id ∨ fromBig n = some id ∨ fromHex s = some id) : Proper id := by
  rcases h with h | h | h
  · exact fromBytes_proper h
  · exact ((C08_from_big _ _).1 h).2.1
  · exact ((C08_from_hex _ _).1 h).2.2.1

/-- Rebuilding an identifier from its string, its bytes or its number gives it back. -/
theorem C08_round_trip (id : Id) (h : Proper id) :
    fromHex (toStr id) = some id ∧ fromBytes (toBytes id) = some id ∧ fromBig (position id) = some id ∧ asBytes32 id = id := by
  refine ⟨fromHex_toStr h, fromBytes_of_proper h, ?_, ?_⟩
  · rw [C08_from_big]
    have := num_lt h
    rw [← position_eq] at this
    exact ⟨by simpa using this, h, by simp⟩
  · have h' : id.length = 32 := h
    unfold asBytes32 wordSize
    rw [List.take_of_length_le (by omega), h']
    simp

/-- Two identifiers are `Equals`, and print alike, exactly when they have the same bytes. -/
theorem C08_equal_iff (a b : Id) (ha : Proper a) (hb : Proper b) :
    (equals a b = true ↔ a = b) ∧ (toStr a = toStr b ↔ a = b) ∧ (position a = position b ↔ a = b) := by
  have key : toStr a = toStr b ↔ a = b := by
    rw [toStr_eq ha, toStr_eq hb]
    exact ⟨hexEncode_inj, fun h => h ▸ rfl⟩
  refine ⟨by unfold equals; rw [decide_eq_true_iff]; exact key, key, ?_⟩
  rw [position_eq, position_eq]
  exact ⟨bytesNum_inj (ha.trans hb.symm), fun h => h ▸ rfl⟩

/-! ## C09 JSON -/

/-- Marshalling and unmarshalling gives the identifier back. -/
theorem C09_json_round_trip (id : Id) (h : Proper id) : unmarshal (marshal id) = some id := by
  rw [unmarshal_iff]
  exact ⟨Or.inl ⟨_, rfl, b64Decode_encode id⟩, h⟩

/-- Unmarshalling takes exactly the JSON values that carry 32 bytes, and returns those bytes. -/
theorem C09_unmarshal_exact (j : Json) (id : Id) : unmarshal j = some id ↔ Carries j id ∧ id.length = 32 :=
  unmarshal_iff j id

example : unmarshal (.str "AAAAAAAAAAAAAAAAAAAAAAAAAAAAAAAAAAAAAAAAAAU=".toList) = some (List.replicate 31 0 ++ [5]) := by
  decide +kernel
example : unmarshal (.str "AAAA".toList) = none := by decide +kernel

/-- Base64 as it appears on the wire gives the bytes back, whatever they are. -/
theorem C09_base64_round_trip (b : Bytes) : b64Decode (b64Encode b) = some b := b64Decode_encode b

/-! ## C10 SortClockwise -/

/-- The result has the same identifiers, as often, in order of clockwise distance from the start. -/
theorem C10_sort_clockwise (start : Id) (ids : List Id) (hs : Proper start) (hl : ∀ x ∈ ids, Proper x) :
    (sortClockwise start ids).Perm ids ∧
    (sortClockwise start ids).Pairwise
      (fun a b => cw (position start) (position a) ≤ cw (position start) (position b)) := by
  refine ⟨sortClockwise_perm _ _, ?_⟩
  simp only [position_eq]
  exact sortClockwise_cw start ids hs hl

/-- The identifiers from the start upwards come first, ascending; then those below the start, ascending. -/
theorem C10_two_blocks (start : Id) (ids : List Id) (hs : Proper start) (hl : ∀ x ∈ ids, Proper x) :
    ∃ hi lo, sortClockwise start ids = hi ++ lo ∧
      (∀ x ∈ hi, position start ≤ position x) ∧ (∀ x ∈ lo, position x < position start) ∧
      hi.Pairwise (fun a b => position a ≤ position b) ∧ lo.Pairwise (fun a b => position a ≤ position b) := by
  simp only [position_eq]
  obtain ⟨hi, lo, e, _, ⟨h1, h2⟩, h3, h4⟩ := sortClockwise_split start ids hs hl
  exact ⟨hi, lo, e, h1, h2, h3, h4⟩

/-- The order is determined: any arrangement of the same identifiers by clockwise distance is this one. -/
theorem C10_unique (start : Id) (ids out : List Id) (hs : Proper start) (hl : ∀ x ∈ ids, Proper x)
    (hp : out.Perm ids)
    (ho : out.Pairwise (fun a b => cw (position start) (position a) ≤ cw (position start) (position b))) :
    out = sortClockwise start ids := by
  obtain ⟨p1, p2⟩ := C10_sort_clockwise start ids hs hl
  refine List.Perm.eq_of_pairwise ?_ ho p2 (hp.trans p1.symm)
  intro a b ha hb h1 h2
  have pa := hl a (hp.mem_iff.1 ha)
  have pb := hl b (p1.mem_iff.1 hb)
  have na := num_lt pa
  have nb := num_lt pb
  have ns := num_lt hs
  have e : cw (position start) (position a) = cw (position start) (position b) := Nat.le_antisymm h1 h2
  simp only [position_eq] at e
  apply bytesNum_inj (pa.trans pb.symm)
  unfold cw at e
  generalize 2 ^ 256 = N at *
  by_cases ha' : bytesNum start ≤ bytesNum a <;> by_cases hb' : bytesNum start ≤ bytesNum b
  · rw [cw_ge na ha', cw_ge nb hb'] at e; omega
  · rw [cw_ge na ha', cw_lt ns (by omega)] at e; omega
  · rw [cw_lt ns (by omega), cw_ge nb hb'] at e; omega
  · rw [cw_lt ns (by omega), cw_lt ns (by omega)] at e; omega

example : let f := fun n : UInt8 => (List.replicate 31 0 ++ [n] : Id)
    sortClockwise (f 5) [f 9, f 1, f 5, f 3, f 7] = [f 5, f 7, f 9, f 1, f 3] ∧
    Proper (f 5) ∧ ∀ x ∈ [f 9, f 1, f 5, f 3, f 7], Proper x := by
  refine ⟨?_, rfl, ?_⟩
  · simp only
    symm
    apply C10_unique
    · rfl
    · intro x hx; simp at hx; rcases hx with rfl | rfl | rfl | rfl | rfl <;> rfl
    · decide +kernel
    · decide +kernel
  · intro x hx; simp at hx; rcases hx with rfl | rfl | rfl | rfl | rfl <;> rfl

/-! ## C11 the distance helper -/

/-- The distance is the shorter way round. -/
theorem C11_shorter_way (a b : Bytes) (card : Nat) (ha : position a < card) (hb : position b < card) :
    getDistance a b card =
      min (max (position a) (position b) - min (position a) (position b) : Nat)
        (card - (max (position a) (position b) - min (position a) (position b)) : Nat) := by
  unfold getDistance
  rw [position_eq] at ha hb
  simp only [position_eq]
  generalize bytesNum a = x at *
  generalize bytesNum b = y at *
  split <;> omega

/-- Symmetric; zero exactly for equal positions; at most half the ring; at most the plain difference. -/
theorem C11_metric (a b : Bytes) (card : Nat) (ha : position a < card) (hb : position b < card) :
    getDistance a b card = getDistance b a card ∧
    (getDistance a b card = 0 ↔ position a = position b) ∧
    0 ≤ getDistance a b card ∧ 2 * getDistance a b card ≤ card ∧
    getDistance a b card ≤ ((position a : Int) - position b).natAbs := by
  rw [C11_shorter_way a b card ha hb, C11_shorter_way b a card hb ha]
  omega

/-- The triangle inequality. -/
theorem C11_triangle (a b c : Bytes) (card : Nat) (ha : position a < card) (hb : position b < card) (hc : position c < card) :
    getDistance a c card ≤ getDistance a b card + getDistance b c card := by
  rw [C11_shorter_way a b card ha hb, C11_shorter_way b c card hb hc, C11_shorter_way a c card ha hc]
  omega

example : getDistance [1] [250] 256 = 7 ∧ position [1] < 256 ∧ position [250] < 256 := by decide +kernel

/-! ## C83 converting lists of strings -/

/-- Converting a list of strings returns iff every string is hex text of at most 64 digits; otherwise the program crashes. -/
theorem C83_map_from_strings_partial (ss : List (List Char)) :
    ((mapFromString ss).isSome = true ↔ ∀ s ∈ ss, HexText s ∧ s.length ≤ 64) ∧
    ∀ ids, mapFromString ss = some ids → ss.map fromHex = ids.map some := by
  have key : ∀ s : List Char, (fromHex s).isSome = true ↔ HexText s ∧ s.length ≤ 64 := by
    intro s
    unfold fromHex HexText
    rw [lowerHexDigits_eq, ← hexDecode_some_iff]
    cases hd : hexDecode s with
    | none => simp [hd]
    | some b =>
      have hl := hexDecode_length s b hd
      simp [fromBytes, wordSize]
      omega
  refine ⟨?_, fun ids h => (mapFromString_some ss ids).1 h⟩
  induction ss with
  | nil => simp [mapFromString]
  | cons s ss ih =>
    have k := key s
    simp only [mapFromString, List.mem_cons, forall_eq_or_imp]
    rw [← k, ← ih]
    cases fromHex s <;> cases mapFromString ss <;> simp

/-- A malformed string crashes the conversion instead of giving an error. -/
theorem C83_map_from_strings_refuted : ∃ s, mapFromString [s] = none := ⟨"zz".toList, by decide +kernel⟩

/-- Strings made by the library convert back. -/
theorem C83_map_round_trip (ids : List Id) (h : ∀ x ∈ ids, Proper x) : mapFromString (mapToString ids) = some ids := by
  rw [mapFromString_some]
  unfold mapToString
  rw [List.map_map]
  apply List.map_congr_left
  intro x hx
  exact fromHex_toStr (h x hx)

example : mapFromString ["0a".toList, "FF".toList] = some [List.replicate 31 0 ++ [10], List.replicate 31 0 ++ [255]] := by
  decide +kernel

end FcRetrieval.Ids
