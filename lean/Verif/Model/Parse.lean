import Verif.Model.Str

/-!
# Model of the request parser

src/ngircd/parse.c: `Parse_Request` (176-268) up to the validation calls, and `ScrubCTCP`
(583-609).  Not modelled here: `#ifdef STRICT_RFC` branches.
-/

namespace Ngircd

/-- `REQUEST`, parse.h. -/
structure Request where
  prefix? : Option Str
  command : Str
  argv : List Str
  deriving DecidableEq

/-- Result of the parsing part of `Parse_Request`. -/
inductive PRes
  /-- dropped because of CTCP scrubbing, parse.c:194-195 -/
  | scrubbed
  /-- "ERROR :Prefix without command", parse.c:201-205 -/
  | prefixError
  /-- a request, handed to the validation functions -/
  | request (r : Request)
  deriving DecidableEq

/-- Split at the first space; several spaces count as one (parse.c:207-211, 217-224,
243-250): the word before, and what follows, if there was a space. -/
def cutSpace (s : Str) : Str × Option Str :=
  (s.takeWhile (fun c => c != ' '),
   match s.dropWhile (fun c => c != ' ') with
   | [] => none
   | _ :: r => some (r.dropWhile (fun c => c == ' ')))

/-- The argument loop, parse.c:230-259; `k` is `15 - argc`. -/
def parseArgs : Nat → Str → List Str
  | 0, _ => []
  | k + 1, start =>
    match start with
    | ':' :: r => [r]
    | _ =>
      let (w, rest) := cutSpace start
      w :: (match rest with
        | none => []
        | some r => parseArgs k r)

/-- Command and arguments, parse.c:215-258. -/
def parseCommand (prefix? : Option Str) (start : Str) : Request :=
  let (cmd, rest) := cutSpace start
  { prefix? := prefix?, command := cmd,
    argv := match rest with
      | none => []
      | some r => parseArgs 15 r }

/-- The search for a colon and the test of the text behind it, parse.c:594-607. -/
def scrubAt (ptr : Str) : Bool :=
  match ptr.dropWhile (fun c => c != ':') with
  | _ :: c :: r =>
    if c == '\x01' then !(decide ("ACTION ".toList.length ≤ r.length) && ("ACTION ".toList == r.take "ACTION ".toList.length))
    else false
  | _ => false

/-- `ScrubCTCP`, parse.c:582-609: `true` if the line is to be dropped. -/
def scrubCTCP (request : Str) : Bool :=
  match request with
  | ':' :: r => scrubAt r
  | r => scrubAt r

/-- `Parse_Request`, parse.c:175-268; `scrub` is `Conf_ScrubCTCP`. -/
def parseRequest (scrub : Bool) (line : Str) : PRes :=
  let s := trimStr line
  if scrub && scrubCTCP s then .scrubbed
  else match s with
  | ':' :: r =>
    match cutSpace r with
    | (_, none) => .prefixError
    | (p, some start) => .request (parseCommand (some p) start)
  | _ => .request (parseCommand none s)

end Ngircd
