import Verif.Model.Go
/-!
# Model of the tool that makes the environment file of a node (`gateway/scripts/make-env-file/main.go`, also in `provider` and `register`)

A file is its text, or is not there.  Simplifications: lines are shorter than the reader's buffer of 4096 bytes; no directories; reading and writing
a file that is there does not fail.
-/

namespace FcRetrieval.EnvFile

/-- main.go:29-32 `Config`. -/
structure Config where
  name : List Char
  value : List Char
deriving DecidableEq

/-- `strings.Split(s, sep)` for a separator of one character. -/
def split (sep : Char) : List Char → List (List Char)
  | [] => [[]]
  | c :: r =>
    if c = sep then [] :: split sep r
    else
      match split sep r with
      | [] => [[c]]
      | h :: t => (c :: h) :: t

/-- `ReadLine` drops one carriage return before the line feed. -/
def chop (l : List Char) : List Char := if l.getLast? = some '\r' then l.dropLast else l

/-- main.go:67-78: the lines until the end of the file; what follows the last line feed is a line if it is not empty, and keeps a carriage return. -/
def lines (text : List Char) : List (List Char) :=
  ((split '\n' text).dropLast.map chop) ++ ((split '\n' text).getLast?.toList.filter (· ≠ []))

/-- main.go:26 `^#|^\s*$`. -/
def comment (l : List Char) : Bool := l.head? = some '#' || l.all (fun c => c = '\t' || c = '\n' || c.toNat = 12 || c = '\r' || c = ' ')

/-- main.go:72, 80-94: one line.  The expression `(.*)=(.*)` finds the whole line if there is a `=` in it. -/
def parseLine (l : List Char) : Option (List Config) :=
  if '=' ∈ l then
    match split '=' l with
    | n :: v :: _ => some [⟨n, v⟩]
    | _ => none
  else if comment l then some [] else none

/-- main.go:66-96: the loop; `none` is an error. -/
def parseLines : List (List Char) → Option (List Config)
  | [] => some []
  | l :: r =>
    match parseLine l, parseLines r with
    | some c, some cs => some (c ++ cs)
    | _, _ => none

/-- main.go:58-97 `ParseConfig`. -/
def parse (text : List Char) : Option (List Config) := parseLines (lines text)

/-- main.go:105-119: the first entry with a name, and the others. -/
def takeOut (name : List Char) : List Config → Option (Config × List Config)
  | [] => none
  | d :: r =>
    if name = d.name then some (d, r)
    else
      match takeOut name r with
      | none => none
      | some (x, r') => some (x, d :: r')

/-- What `GetConfigDiff` returns. -/
structure Diff where
  found : List Config
  notEquals : List Config
  notFound : List Config
  rest : List Config

/-- main.go:98-128 `GetConfigDiff`. -/
def diff : List Config → List Config → Diff
  | [], dest => ⟨[], [], [], dest⟩
  | s :: src, dest =>
    match takeOut s.name dest with
    | none => let d := diff src dest; { d with notFound := s :: d.notFound }
    | some (x, dest') =>
      let d := diff src dest'
      { d with found := s :: d.found, notEquals := if s.value = x.value then d.notEquals else s :: d.notEquals }

/-- How a run ends. -/
inductive Verdict where
  /-- `log.Fatal`. -/
  | error
  /-- The source file was copied. -/
  | copied
  /-- "config files values are equal, do nothing". -/
  | equal
  /-- "overwrite disable, do nothing". -/
  | differ
deriving DecidableEq

/-- main.go:155-256 `CheckEnv`, `MakeEnv`, `main`: the destination afterwards. -/
def make (source dest : Option (List Char)) (overwrite : Bool) : Option (List Char) × Verdict :=
  match source with
  | none => (dest, .error)
  | some s =>
    match parse s with
    | none => (dest, .error)
    | some sc =>
      match dest with
      | none => (some s, .copied)
      | some d =>
        match parse d with
        | none => (some d, .error)
        | some dc =>
          let x := diff sc dc
          if x.notEquals.length > 0 ∨ x.notFound.length > 0 ∨ x.rest.length > 0 then
            if overwrite then (some s, .copied) else (some d, .differ)
          else (some d, .equal)

end FcRetrieval.EnvFile
