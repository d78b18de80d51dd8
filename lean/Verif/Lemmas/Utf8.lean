import Verif.Lemmas.JsonText
/-! UTF-8 text and bytes. -/
namespace FcRetrieval

theorem utf8Text_bytes (s : List Char) : utf8Text (utf8Bytes s) = some s := by
  unfold utf8Text utf8Bytes
  have h := List.utf8Decode?_utf8Encode (l := s)
  unfold List.utf8Encode at h
  rw [h]
  simp

theorem utf8Bytes_inj {a b : List Char} (h : utf8Bytes a = utf8Bytes b) : a = b := by
  have := utf8Text_bytes a
  rw [h, utf8Text_bytes] at this
  exact (Option.some.inj this).symm

/-- A JSON value through its text and back. -/
theorem json_text_round_trip (j : Json) : (utf8Text (utf8Bytes (render j))).bind parseJson = some j := by
  rw [utf8Text_bytes]
  exact parseJson_render j

theorem json_bytes_inj {j j' : Json} (h : utf8Bytes (render j) = utf8Bytes (render j')) : j = j' :=
  render_inj (utf8Bytes_inj h)

end FcRetrieval
