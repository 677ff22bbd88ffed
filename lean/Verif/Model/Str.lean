/-!
# C strings and the string helpers of ngIRCd

A NUL-terminated C string is modelled by the list of its bytes before the NUL;
a `Char` stands for one byte.
-/

namespace Ngircd

/-- A C string: the bytes before the terminating NUL. -/
abbrev Str := List Char

/-- `strlcpy(dst, src, size)` for `size > 0`: src/portab/strlcpy.c:54-68.
The resulting destination string. -/
def strlcpy (size : Nat) (src : Str) : Str := src.take (size - 1)

/-- `strlcat(dst, src, size)`: src/portab/strlcpy.c:31-47.  The resulting destination
string: nothing is appended unless `len1 < size - 1`; otherwise `len2` is cut to
`size - len1 - 1`. -/
def strlcat (size : Nat) (dst src : Str) : Str :=
  if dst.length + 1 < size then
    (if src.length ≥ size - dst.length then dst ++ src.take (size - dst.length - 1)
     else dst ++ src)
  else dst

/-- C `tolower()` in the "C" locale. -/
def toLower (c : Char) : Char :=
  if 'A' ≤ c ∧ c ≤ 'Z' then Char.ofNat (c.toNat + 32) else c

/-- C `toupper()` in the "C" locale. -/
def toUpper (c : Char) : Char :=
  if 'a' ≤ c ∧ c ≤ 'z' then Char.ofNat (c.toNat - 32) else c

/-- `ngt_LowerStr`: src/tool/tool.c:96-108. -/
def lowerStr (s : Str) : Str := s.map toLower

/-- `ngt_UpperStr`: src/tool/tool.c:77-89. -/
def upperStr (s : Str) : Str := s.map toUpper

/-- `strcasecmp(a, b) == 0`: equality of the lower-cased strings (POSIX). -/
def caseEq (a b : Str) : Bool := lowerStr a == lowerStr b

/-- The characters `ngt_TrimStr` treats as white space: src/tool/tool.c:50-51, 61. -/
def isTrimWs (c : Char) : Bool := c == ' ' || c == '\t' || c == '\n' || c == '\r'

/-- The loop of src/tool/tool.c:61-63 walking back from the end of the string;
the argument is the reversed string. -/
def trimEndRev : Str → Str
  | [] => []
  | c :: cs => if isTrimWs c then trimEndRev cs else c :: cs

/-- `ngt_TrimStr`: src/tool/tool.c:41-70. -/
def trimStr (s : Str) : Str :=
  let start := s.dropWhile isTrimWs
  if start.isEmpty then [] else (trimEndRev start.reverse).reverse

/-- `ngt_TrimLastChr`: src/tool/tool.c:112-129. -/
def trimLastChr (s : Str) (chr : Char) : Str :=
  match s.getLast? with
  | none => s
  | some l => if l == chr then s.dropLast else s

/-- `strchr(s, c)` for `c ≠ 0`: the tail beginning with the first `c`, or NULL. -/
def strchr : Str → Char → Option Str
  | [], _ => none
  | c :: cs, x => if c == x then some (c :: cs) else strchr cs x

/-- Everything before the first `x` (the effect of writing a NUL at `strchr(s, x)`). -/
def cutAt (s : Str) (x : Char) : Str := s.takeWhile (fun c => c != x)

/-- The C library's `strtok` over a whole string: maximal runs of non-delimiters
(used with one or more delimiter characters, see src/portab/strtok_r.c:17-34). -/
def strtokAux (delim : Char → Bool) : Str → Str → List Str
  | [], cur => if cur.isEmpty then [] else [cur.reverse]
  | c :: cs, cur =>
    if delim c then
      (if cur.isEmpty then strtokAux delim cs [] else cur.reverse :: strtokAux delim cs [])
    else strtokAux delim cs (c :: cur)

/-- All tokens `strtok(s, delim)` / `strtok_r` return in sequence. -/
def strtok (s : Str) (delim : Str) : List Str := strtokAux (fun c => delim.contains c) s []

/-! ## Size constants, src/ngircd/defines.h -/

/-- `COMMAND_LEN`, defines.h. -/
def COMMAND_LEN : Nat := 513
/-- `CLIENT_ID_LEN`, defines.h. -/
def CLIENT_ID_LEN : Nat := 64
/-- `CLIENT_NICK_LEN`, defines.h. -/
def CLIENT_NICK_LEN : Nat := 32
/-- `CLIENT_USER_LEN`, defines.h. -/
def CLIENT_USER_LEN : Nat := 20
/-- `CLIENT_HOST_LEN`, defines.h. -/
def CLIENT_HOST_LEN : Nat := 64
/-- `CLIENT_MODE_LEN`, defines.h. -/
def CLIENT_MODE_LEN : Nat := 21
/-- `CLIENT_INFO_LEN`, defines.h. -/
def CLIENT_INFO_LEN : Nat := 128
/-- `CLIENT_AWAY_LEN`, defines.h. -/
def CLIENT_AWAY_LEN : Nat := 128
/-- `CHANNEL_NAME_LEN`, defines.h. -/
def CHANNEL_NAME_LEN : Nat := 51
/-- `CHANNEL_MODE_LEN`, defines.h. -/
def CHANNEL_MODE_LEN : Nat := 21
/-- `MASK_LEN`, defines.h. -/
def MASK_LEN : Nat := 128

end Ngircd
