import Verif.Model.Go
/-!
# Names of members that differ in letter case only
-/

namespace FcRetrieval

/-- A character that stands for a small letter, digit or underscore of a field name: the same one, the capital letter, or one of the two characters
that Unicode folds to `s` and `k`. -/
def Letter (n c : Char) : Prop :=
  c = n ∨ ('a'.toNat ≤ n.toNat ∧ n.toNat ≤ 'z'.toNat ∧ c.toNat + 32 = n.toNat) ∨ (n = 's' ∧ c = 'ſ') ∨ (n = 'k' ∧ c = 'K')

/-- The key is the name, character by character, up to case. -/
def Spells : List Char → List Char → Prop
  | [], [] => True
  | n :: ns, c :: cs => Letter n c ∧ Spells ns cs
  | _, _ => False

/-- The names of the members of messages are made of these. -/
def Plain (n : Char) : Prop := ('a'.toNat ≤ n.toNat ∧ n.toNat ≤ 'z'.toNat) ∨ ('0'.toNat ≤ n.toNat ∧ n.toNat ≤ '9'.toNat) ∨ n = '_'

end FcRetrieval
