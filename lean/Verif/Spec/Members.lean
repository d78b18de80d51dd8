import Verif.Model.Go
/-!
# Members of an object, by name up to case
-/

namespace FcRetrieval

/-- No two of the names are the same up to case. -/
abbrev Distinct (names : List String) : Prop := (names.map foldName).Nodup

/-- Of the members of the object exactly one has this name up to case, and it holds this value. -/
def HasMember (fs : List (String × Json)) (x : String × Json) : Prop := ∃ k, fs.filter (fun e => decide (foldName e.1 = foldName x.1)) = [(k, x.2)]

end FcRetrieval
