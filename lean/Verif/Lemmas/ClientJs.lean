import Verif.Spec.ClientJs
import Verif.Props.JsonGrammar
import Verif.Props.GatewayLife
set_option linter.unusedSimpArgs false
/-!
# Lemmas about the JavaScript client
-/

namespace FcRetrieval.Js
open FcRetrieval.Crypto (Prims KeyPair KeyVersion)
open FcRetrieval.JsonGrammar
open FcRetrieval.Register (Record)

/-! ## `JSON.stringify` writes JSON -/

theorem escChar_text (c : Char) : CharText false c (escChar c) := by
  unfold escChar
  split
  · rename_i h; subst h; exact .escape _ _ (by decide)
  split
  · rename_i h; subst h; exact .escape _ _ (by decide)
  split
  · rename_i h
    have : c = Char.ofNat 8 := by rw [← h, Char.ofNat_toNat]
    subst this; exact .escape _ _ (by decide)
  split
  · rename_i h
    have : c = Char.ofNat 12 := by rw [← h, Char.ofNat_toNat]
    subst this; exact .escape _ _ (by decide)
  split
  · rename_i h; subst h; exact .escape _ _ (by decide)
  split
  · rename_i h; subst h; exact .escape _ _ (by decide)
  split
  · rename_i h; subst h; exact .escape _ _ (by decide)
  rename_i h1 h2 _ _ _ _ _
  split
  · have := CharText.code (lenient := false) _ _ (hex4_of (hex4 c.toNat (by omega))) (.inl (by omega))
    rw [Char.ofNat_toNat] at this
    exact this
  · exact .plain c (by omega) h1 h2

theorem esc_text : ∀ cs : List Char, StrText false cs (escStr cs)
  | [] => .nil
  | c :: cs => .cons _ _ _ _ (escChar_text c) (esc_text cs)

mutual
theorem stringify_text : ∀ j : Json, Text false (.value j) (stringify j)
  | .null => .null
  | .bool true => .true
  | .bool false => .false
  | .num n => by
    unfold stringify intDigits
    split
    · have := Text.minus (lenient := false) _ _ (natDigits_text n.natAbs)
      rwa [show (-(n.natAbs : Int)) = n by omega] at this
    · have := Text.nat (lenient := false) _ _ (natDigits_text n.natAbs)
      rwa [show ((n.natAbs : Int)) = n by omega] at this
  | .str s => .str _ _ (esc_text s)
  | .arr [] => .noElems [] white_nil
  | .arr (x :: xs) => by
    obtain ⟨t, h1, h2⟩ := stringifyElems_text x xs
    unfold stringify
    rw [h1]
    exact .arr _ _ h2
  | .obj [] => .noMembers [] white_nil
  | .obj ((k, v) :: fs) => by
    obtain ⟨t, h1, h2⟩ := stringifyFields_text k v fs
    unfold stringify
    rw [h1]
    exact .obj _ _ h2
termination_by j => sizeOf j
theorem stringifyElems_text : ∀ (x : Json) (xs : List Json), ∃ t, stringify x ++ stringifyElems xs = t ++ [']'] ∧ Text false (.elems (x :: xs)) t
  | x, [] => ⟨stringify x, rfl, by
      have := Text.elem [] [] x _ white_nil white_nil (stringify_text x)
      rwa [List.nil_append, List.append_nil] at this⟩
  | x, y :: ys => by
    obtain ⟨t, h1, h2⟩ := stringifyElems_text y ys
    have := Text.elemMore [] [] x _ _ _ white_nil white_nil (stringify_text x) h2
    rw [List.nil_append, List.append_nil] at this
    refine ⟨_, ?_, this⟩
    simp only [stringifyElems]
    rw [h1]
    simp
termination_by x xs => sizeOf x + sizeOf xs + 1
theorem stringifyFields_text : ∀ (k : String) (v : Json) (fs : List (String × Json)),
    ∃ t, stringifyField (k, v) ++ stringifyFields fs = t ++ ['}'] ∧ Text false (.members ((k, v) :: fs)) t
  | k, v, [] => by
    have := Text.member [] [] [] [] k.toList _ v _ white_nil white_nil white_nil white_nil (esc_text _) (stringify_text v)
    rw [String.ofList_toList] at this
    refine ⟨_, ?_, this⟩
    simp [stringifyField, stringifyFields]
  | k, v, (k2, v2) :: fs => by
    obtain ⟨t, h1, h2⟩ := stringifyFields_text k2 v2 fs
    have := Text.memberMore [] [] [] [] k.toList _ v _ _ _ white_nil white_nil white_nil white_nil (esc_text _) (stringify_text v) h2
    rw [String.ofList_toList] at this
    refine ⟨_, ?_, this⟩
    simp only [stringifyFields]
    rw [h1]
    simp [stringifyField]
termination_by _ v fs => sizeOf v + sizeOf fs + 1
end


theorem stringify_whole (j : Json) : Whole false j (stringify j) := ⟨[], stringify j, [], by simp, white_nil, white_nil, stringify_text j⟩

/-! ## texts that Go and JavaScript write alike -/

/-- A character neither of them escapes. -/
def Plain (c : Char) : Prop := 32 ≤ c.toNat ∧ c.toNat < 128 ∧ c ≠ '"' ∧ c ≠ '\\' ∧ c ≠ '<' ∧ c ≠ '>' ∧ c ≠ '&'

instance (c : Char) : Decidable (Plain c) := by unfold Plain; infer_instance

theorem plain_js {c : Char} (h : Plain c) : escChar c = [c] := by
  obtain ⟨h1, h2, h3, h4, -⟩ := h
  have a : c ≠ '\n' := by rintro rfl; revert h1; decide
  have b : c ≠ '\r' := by rintro rfl; revert h1; decide
  have d : c ≠ '\t' := by rintro rfl; revert h1; decide
  unfold escChar
  rw [if_neg h3, if_neg h4, if_neg (by omega), if_neg (by omega), if_neg a, if_neg b, if_neg d, if_neg (by omega)]

theorem plain_go {c : Char} (h : Plain c) : FcRetrieval.escChar c = [c] := by
  obtain ⟨h1, h2, h3, h4, h5, h6, h7⟩ := h
  have a : c ≠ '\n' := by rintro rfl; revert h1; decide
  have b : c ≠ '\r' := by rintro rfl; revert h1; decide
  have d : c ≠ '\t' := by rintro rfl; revert h1; decide
  unfold FcRetrieval.escChar
  rw [if_neg h3, if_neg h4, if_neg a, if_neg b, if_neg d, if_neg]
  simp only [h5, h6, h7, false_or, not_or]
  omega

theorem plain_str_js : ∀ {s : List Char}, (∀ c ∈ s, Plain c) → escStr s = s
  | [], _ => rfl
  | c :: s, h => by
    rw [escStr, plain_js (h c (by simp)), plain_str_js fun d hd => h d (by simp [hd])]
    rfl

theorem plain_str_go : ∀ {s : List Char}, (∀ c ∈ s, Plain c) → FcRetrieval.escStr s = s
  | [], _ => rfl
  | c :: s, h => by
    rw [FcRetrieval.escStr, plain_go (h c (by simp)), plain_str_go fun d hd => h d (by simp [hd])]
    rfl

theorem plain_alike {s : List Char} (h : ∀ c ∈ s, Plain c) : stringify (.str s) = render (.str s) := by
  rw [stringify, render, plain_str_js h, plain_str_go h]

theorem nums_alike : ∀ l : List Int, stringifyElems (l.map .num) = renderElems (l.map .num)
  | [] => rfl
  | n :: l => by
    simp only [List.map_cons, stringifyElems, renderElems, stringify, render, nums_alike l]

theorem ints_alike (l : Option (List Int)) : stringify (Message.intsJson l) = render (Message.intsJson l) := by
  rcases l with _ | _ | ⟨n, l⟩
  · rfl
  · rfl
  · simp only [Message.intsJson, List.map_cons, stringify, render, nums_alike]

theorem hexChar_plain : ∀ n, n < 16 → Plain (hexChar n) := by decide
theorem hexChar_word : ∀ n, n < 16 → isWord (hexChar n) = true := by decide
theorem b64Char_plain : ∀ n, n < 64 → Plain (b64Char n) := by decide

theorem hex_plain : ∀ (b : Bytes), ∀ c ∈ hexEncode b, Plain c
  | [], c, h => by cases h
  | x :: b, c, h => by
    have hx := u8_lt x
    rw [hexEncode] at h
    simp only [List.mem_cons] at h
    rcases h with rfl | rfl | h
    · exact hexChar_plain _ (by omega)
    · exact hexChar_plain _ (by omega)
    · exact hex_plain b c h

theorem b64_plain : ∀ (b : Bytes), ∀ c ∈ b64Encode b, Plain c
  | [], c, h => by cases h
  | [x], c, h => by
    have hx := u8_lt x
    simp only [b64Encode, List.mem_cons, List.not_mem_nil, or_false] at h
    rcases h with rfl | rfl | rfl | rfl
    · exact b64Char_plain _ (by omega)
    · exact b64Char_plain _ (by omega)
    · decide
    · decide
  | [x, y], c, h => by
    have hx := u8_lt x
    have hy := u8_lt y
    simp only [b64Encode, List.mem_cons, List.not_mem_nil, or_false] at h
    rcases h with rfl | rfl | rfl | rfl
    · exact b64Char_plain _ (by omega)
    · exact b64Char_plain _ (by omega)
    · exact b64Char_plain _ (by omega)
    · decide
  | x :: y :: z :: b, c, h => by
    have hx := u8_lt x
    have hy := u8_lt y
    have hz := u8_lt z
    simp only [b64Encode, List.mem_cons] at h
    rcases h with rfl | rfl | rfl | rfl | h
    · exact b64Char_plain _ (by omega)
    · exact b64Char_plain _ (by omega)
    · exact b64Char_plain _ (by omega)
    · exact b64Char_plain _ (by omega)
    · exact b64_plain b c h

theorem id_plain (id : Bytes) : ∀ c ∈ Ids.toStr id, Plain c := by
  intro c h
  unfold Ids.toStr at h
  dsimp only at h
  split at h
  · simp only [List.mem_cons, List.not_mem_nil, or_false] at h
    rcases h with rfl | rfl <;> decide
  · exact hex_plain _ c h

/-! ## bytes -/

theorem parse_hex : ∀ n, n < 256 → parseHexByte [hexChar (n / 16), hexChar (n % 16)] = UInt8.ofNat n := by decide +kernel

theorem hexArray_encode : ∀ b : Bytes, hexArray (hexEncode b) = b
  | [] => rfl
  | x :: b => by
    have hx := u8_lt x
    have ih := hexArray_encode b
    unfold hexArray at ih ⊢
    rw [hexEncode, pieces, hexChar_word _ (by omega), hexChar_word _ (by omega)]
    · simp only [Bool.and_self, if_true, List.map_cons, ih]
      rw [parse_hex _ hx, UInt8.ofNat_toNat]

theorem b64Value_char : ∀ n, n < 64 → b64Value (b64Char n) = some n := by decide

theorem fromB64_encode : ∀ b : Bytes, fromB64 (b64Encode b) = b
  | [] => rfl
  | [x] => by
    have hx := u8_lt x
    have e : b64Value '=' = none := by decide
    simp only [fromB64, b64Encode, List.filterMap_cons, List.filterMap_nil, b64Value_char _ (show x.toNat / 4 < 64 by omega), b64Value_char _ (show x.toNat % 4 * 16 < 64 by omega), e, b64Bytes]
    rw [u8_ofNat_eq (b := x) (by omega)]
  | [x, y] => by
    have hx := u8_lt x
    have hy := u8_lt y
    have e : b64Value '=' = none := by decide
    simp only [fromB64, b64Encode, List.filterMap_cons, List.filterMap_nil, b64Value_char _ (show x.toNat / 4 < 64 by omega),
      b64Value_char _ (show x.toNat % 4 * 16 + y.toNat / 16 < 64 by omega), b64Value_char _ (show y.toNat % 16 * 4 < 64 by omega), e, b64Bytes]
    rw [u8_ofNat_eq (b := x) (by omega), u8_ofNat_eq (b := y) (by omega)]
  | x :: y :: z :: b => by
    have hx := u8_lt x
    have hy := u8_lt y
    have hz := u8_lt z
    have ih := fromB64_encode b
    unfold fromB64 at ih
    simp only [fromB64, b64Encode, List.filterMap_cons, b64Value_char _ (show x.toNat / 4 < 64 by omega),
      b64Value_char _ (show x.toNat % 4 * 16 + y.toNat / 16 < 64 by omega), b64Value_char _ (show y.toNat % 16 * 4 + z.toNat / 64 < 64 by omega),
      b64Value_char _ (show z.toNat % 64 < 64 by omega), b64Bytes, ih]
    rw [u8_ofNat_eq (b := x) (by omega), u8_ofNat_eq (b := y) (by omega), u8_ofNat_eq (b := z) (by omega)]

end FcRetrieval.Js
