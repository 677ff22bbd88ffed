import Verif.Model.Match

/-!
# Model of mask lists

src/ngircd/lists.c (ban, exception and invite lists of channels; G- and K-lines) and
src/ngircd/class.c.  A `struct list_head` is the list of its elements in link order.
Simplification: `strdup` of a reason text does not fail.
-/

namespace Ngircd

/-- `struct list_elem`, lists.c:31-37. -/
structure ListElem where
  mask : Str
  reason : Option Str
  validUntil : Nat
  onlyonce : Bool
  deriving DecidableEq

/-- `struct list_head`, lists.h. -/
abbrev MaskList := List ListElem

/-- `Lists_CheckDupeMask`, lists.c:256-267. -/
def listsCheckDupe (h : MaskList) (mask : Str) : Option ListElem :=
  match h with
  | [] => none
  | e :: es => if caseEq e.mask mask then some e else listsCheckDupe es mask

/-- The update of an existing element, lists.c:136-144: of the first element found. -/
def listsUpdate (h : MaskList) (mask : Str) (validUntil : Nat) (reason : Option Str) : MaskList :=
  match h with
  | [] => []
  | e :: es =>
    if caseEq e.mask mask then
      { e with validUntil := validUntil,
               reason := match reason with
                 | some r => some r
                 | none => e.reason } :: es
    else e :: listsUpdate es mask validUntil reason

/-- `Lists_Add`, lists.c:126-170; `alloc` is the outcome of `malloc`. -/
def listsAdd (alloc : Bool) (h : MaskList) (mask : Str) (validUntil : Nat) (reason : Option Str)
    (onlyOnce : Bool) : MaskList × Bool :=
  match listsCheckDupe h mask with
  | some _ => (listsUpdate h mask validUntil reason, true)
  | none =>
    if alloc then
      ({ mask := strlcpy MASK_LEN mask, reason := reason, validUntil := validUntil,
         onlyonce := onlyOnce } :: h, true)
    else (h, false)

/-- `Lists_Del`, lists.c:202-223. -/
def listsDel (h : MaskList) (mask : Str) : MaskList :=
  match h with
  | [] => []
  | e :: es => if caseEq e.mask mask then listsDel es mask else e :: listsDel es mask

/-- `Lists_MakeMask`, lists.c:276-308 (`len` is the buffer size). `at < excl` compares
positions; both are positions of the first occurrence. -/
def listsMakeMask (pattern : Str) (len : Nat) : Str :=
  let at_ := strchr pattern '@'
  let excl := strchr pattern '!'
  -- `if (at && at < excl) excl = NULL`: the tail at '@' is longer than the tail at '!'
  let excl := match at_, excl with
    | some a, some x => if a.length > x.length then none else some x
    | _, x => x
  match at_, excl with
  | none, none => strlcat len (strlcpy (len - 5) pattern) "!*@*".toList
  | none, some _ => strlcat len (strlcpy (len - 3) pattern) "@*".toList
  | some a, none =>
    let m := strlcpy (len - 5) (cutAt pattern '@')
    strlcat len (strlcat len m "!*@".toList) a.tail
  | some _, some _ => strlcpy len pattern

/-- The two masks of a client a list entry is matched against
(`Client_MaskCloaked`, `Client_Mask`). -/
structure ClientMasks where
  cloaked : Str
  real : Str

/-- `MatchCaseInsensitive(..) || MatchCaseInsensitive(..)`, lists.c:344. -/
def elemMatches (e : ListElem) (m : ClientMasks) : Bool :=
  matchCaseInsensitive e.mask m.cloaked || matchCaseInsensitive e.mask m.real

/-- `Lists_CheckReason`, lists.c:332-360: the list afterwards and the element found. -/
def listsCheckReason (h : MaskList) (m : ClientMasks) : MaskList × Option ListElem :=
  match h with
  | [] => ([], none)
  | e :: es =>
    if elemMatches e m then
      (if e.onlyonce then es else e :: es, some e)
    else
      let r := listsCheckReason es m
      (e :: r.1, r.2)

/-- `Lists_Check`, lists.c:317-321. -/
def listsCheck (h : MaskList) (m : ClientMasks) : MaskList × Bool :=
  ((listsCheckReason h m).1, (listsCheckReason h m).2.isSome)

/-- `Lists_Expire`, lists.c:367-398. -/
def listsExpire (h : MaskList) (now : Nat) : MaskList :=
  match h with
  | [] => []
  | e :: es =>
    if e.validUntil > 0 ∧ e.validUntil < now then listsExpire es now
    else e :: listsExpire es now

/-- `Lists_Count`, lists.c:406-420. -/
def listsCount (h : MaskList) : Nat :=
  match h with
  | [] => 0
  | _ :: es => listsCount es + 1

/-- `Class_AddMask`, class.c:96-109. -/
def classAddMask (alloc : Bool) (h : MaskList) (pattern : Str) (validUntil : Nat) (reason : Str) :
    MaskList × Bool :=
  listsAdd alloc h (listsMakeMask pattern MASK_LEN) validUntil (some reason) false

/-- `Class_DeleteMask`, class.c:111-121. -/
def classDeleteMask (h : MaskList) (pattern : Str) : MaskList :=
  listsDel h (listsMakeMask pattern MASK_LEN)

/-- `Class_HandleServerBans`, class.c:79-93, decision only: `true` means CONNECTED. -/
def classHandleServerBans (gline kline : MaskList) (m : ClientMasks) : Bool :=
  !((listsCheck gline m).2 || (listsCheck kline m).2)

/-- Operations on a mask list, as used by the rest of the server. -/
inductive LOp
  | add (alloc : Bool) (mask : Str) (validUntil : Nat) (reason : Option Str) (onlyOnce : Bool)
  | del (mask : Str)
  | check (m : ClientMasks)
  | expire (now : Nat)

/-- One operation. -/
def LOp.apply (h : MaskList) : LOp → MaskList
  | .add al m v r o => (listsAdd al h m v r o).1
  | .del m => listsDel h m
  | .check m => (listsCheck h m).1
  | .expire now => listsExpire h now

end Ngircd
