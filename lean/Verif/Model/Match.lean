import Verif.Model.Str

/-! # Model of src/ngircd/match.c -/

namespace Ngircd

/-- Result codes, src/ngircd/match.c:36-41 (`MATCH_RANGE` is never produced). -/
inductive MRes
  | pattern | literal | abort | endOfPattern | valid
  deriving DecidableEq, Repr

/-- The `do ... while` loop of `Matche_After_Star`, match.c:133-180.  `m` is the call
`Matche(p, ·)` for the current pattern position; at the end of the text the loop
always ends with `MATCH_ABORT` (line 172). -/
def starLoop (nextp : Char) (m : Str → MRes) : Str → MRes
  | [] => .abort
  | c :: ts =>
    let r := if nextp == c || nextp == '[' then m (c :: ts) else .literal
    match r with
    | .valid => .valid
    | .abort => .abort
    | .pattern => .pattern
    | _ => starLoop nextp m ts

mutual
/-- `Matche`, match.c:103-131. -/
def matche : Str → Str → MRes
  | [], [] => .valid
  | [], _ :: _ => .endOfPattern
  | p :: ps, t =>
    match t with
    | [] => if p == '*' && ps.isEmpty then .valid else .abort
    | c :: ts =>
      if p == '?' then matche ps ts
      else if p == '*' then matcheAfterStar ps (c :: ts)
      else if p != c then .literal
      else matche ps ts
/-- `Matche_After_Star`, match.c:133-180.  The pattern passed in is the one *behind* the
star `Matche` stopped at (the first iteration of the `while` of lines 139-149 always
skips that star).  The inner `fun` is the body of `Matche (p :: ps)` specialised to a
`p` that is neither `*` nor `?` (see `matcheAfterStar_literal` for the equation with
`matche (p :: ps)`); it is unfolded here only to keep the recursion structural. -/
def matcheAfterStar : Str → Str → MRes
  | [], _ => .valid
  | p :: ps, t =>
    if p == '?' then
      match t with
      | [] => .abort
      | _ :: ts => matcheAfterStar ps ts
    else if p == '*' then matcheAfterStar ps t
    else
      let m : Str → MRes := fun t' =>
        match t' with
        | [] => .abort
        | c :: ts => if p != c then .literal else matche ps ts
      if p == '\\' then
        match ps with
        | [] => .pattern
        | n :: _ => starLoop n m t
      else starLoop p m t
end

/-- `Match`, match.c:50-57. -/
def Match (pattern text : Str) : Bool := matche pattern text == .valid

/-- `MatchCaseInsensitive`, match.c:66-75. -/
def matchCaseInsensitive (pattern text : Str) : Bool :=
  Match (lowerStr (strlcpy COMMAND_LEN pattern)) (lowerStr (strlcpy COMMAND_LEN text))

/-- `MatchCaseInsensitiveList`, match.c:85-101. -/
def matchCaseInsensitiveList (pattern text sep : Str) : Bool :=
  (strtok (strlcpy COMMAND_LEN pattern) sep).any
    (fun p => matchCaseInsensitive (trimStr p) text)

end Ngircd
