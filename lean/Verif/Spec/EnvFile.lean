import Verif.Model.EnvFile
/-!
# What an environment file says
-/

namespace FcRetrieval.EnvFile

/-- A line that is no comment and has a `=` in it sets the name before the first `=` to all that follows. -/
def setting (l : List Char) : List (List Char × List Char) :=
  if l.head? ≠ some '#' ∧ '=' ∈ l then [(l.takeWhile (· ≠ '='), (l.dropWhile (· ≠ '=')).drop 1)] else []

/-- The values that a file gives to a name, in their order. -/
def values (text name : List Char) : List (List Char) :=
  (((lines text).flatMap setting).filter (fun e => e.1 = name)).map (·.2)

/-- The same text with the line ends of Windows. -/
def crlf (text : List Char) : List Char := text.flatMap fun c => if c = '\n' then ['\r', '\n'] else [c]

/-- No line has more than one `=`. -/
def Plain (text : List Char) : Prop := ∀ l ∈ lines text, l.count '=' ≤ 1

/-- Every line can be read: it has a `=`, or is blank, or begins with `#`. -/
def Readable (text : List Char) : Prop :=
  ∀ l ∈ lines text, '=' ∈ l ∨ l.head? = some '#' ∨ ∀ c ∈ l, c.toNat ∈ [9, 10, 12, 13, 32]

end FcRetrieval.EnvFile
