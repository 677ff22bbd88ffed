import Verif.Model.Message

/-!
# Model of src/ngircd/irc-cap.c and irc-metadata.c
-/

namespace Ngircd

/-- The only capability known, irc-cap.c:72-83. -/
def capMultiPrefix : Str := "multi-prefix".toList

/-- `Set_CAP_Negotiation`, irc-cap.c:41-49. -/
def setCapNegotiation (s : Srv) (cl : Nat) : Srv :=
  s.updCl cl (fun c => { c with caps :=
    { c.caps with pending := c.caps.pending || decide (c.type ≠ .user), supported := true } })

/-- One word of `Parse_CAP`, irc-cap.c:57-87: switch on or off; `none` is unknown. -/
def capWord (w : Str) : Option Bool :=
  match w with
  | '-' :: rest => if rest = capMultiPrefix then some false else none
  | _ => if w = capMultiPrefix then some true else none

/-- The loop of `Parse_CAP`, irc-cap.c:57-87. -/
def parseCapLoop : List Str → Caps → Option Caps
  | [], caps => some caps
  | w :: ws, caps =>
    match capWord w with
    | none => none
    | some on => parseCapLoop ws { caps with multiPrefix := on }

/-- `Parse_CAP`, irc-cap.c:57-87; `none` is -1. -/
def parseCAP (caps : Caps) (args : Str) : Option Caps :=
  parseCapLoop (strtok (strlcpy COMMAND_LEN args) [' ']) caps

/-- `Get_CAP_String`, irc-cap.c:98-109. -/
def capString (caps : Caps) : Str := if caps.multiPrefix then "multi-prefix ".toList else []

/-- `Handle_CAP_LS`, irc-cap.c:118-128. -/
def capLS (s : Srv) (cl : Nat) : HRes :=
  let s := setCapNegotiation s cl
  (write s (s.cl cl) ⟨"CAP", [(s.cl cl).ID, "LS".toList, capMultiPrefix]⟩, true)

/-- `Handle_CAP_LIST`, irc-cap.c:137-144. -/
def capLIST (s : Srv) (cl : Nat) : HRes :=
  (write s (s.cl cl) ⟨"CAP", [(s.cl cl).ID, "LIST".toList, capString (s.cl cl).caps]⟩, true)

/-- `Handle_CAP_REQ`, irc-cap.c:153-172. -/
def capREQ (s : Srv) (cl : Nat) (arg : Str) : HRes :=
  let s := setCapNegotiation s cl
  match parseCAP (s.cl cl).caps arg with
  | none => (write s (s.cl cl) ⟨"CAP", [(s.cl cl).ID, "NAK".toList, arg]⟩, true)
  | some caps =>
    let s := s.updCl cl (fun c => { c with caps := caps })
    (write s (s.cl cl) ⟨"CAP", [(s.cl cl).ID, "ACK".toList, arg]⟩, true)

/-- `Handle_CAP_CLEAR`, irc-cap.c:196-209. -/
def capCLEAR (s : Srv) (cl : Nat) : HRes :=
  let old := (s.cl cl).caps
  let s := s.updCl cl (fun c => { c with caps := { c.caps with multiPrefix := false } })
  (write s (s.cl cl) ⟨"CAP", [(s.cl cl).ID, "ACK".toList, capString old]⟩, true)

/-- `Handle_CAP_END`, irc-cap.c:217-233. -/
def capEND (s : Srv) (cl : Nat) : HRes :=
  if (s.cl cl).type ≠ .user then
    let s := s.updCl cl (fun c => { c with caps := { c.caps with pending := false } })
    if (s.cl cl).type = .waitCapEnd then loginUser s cl else (s, true)
  else (s, true)

/-- `IRC_CAP`, irc-cap.c:244-274. -/
def ircCAP (s : Srv) (cl : Nat) (req : Request) : HRes :=
  let is (n : String) : Bool := caseEq (req.arg 0) n.toList
  if req.argc = 1 && is "CLEAR" then capCLEAR s cl
  else if req.argc = 1 && is "END" then capEND s cl
  else if req.argc ≥ 1 && req.argc ≤ 2 && is "LS" then capLS s cl
  else if req.argc ≥ 1 && req.argc ≤ 2 && is "LIST" then capLIST s cl
  else if req.argc = 2 && is "REQ" then capREQ s cl (req.arg 1)
  else if req.argc = 2 && is "ACK" then (s, true)
  else (writeErr s (s.cl cl) ⟨"ERR_INVALIDCAP_MSG", [(s.cl cl).ID, req.arg 0]⟩, true)

/-! ## METADATA -/

/-- `Client_UpdateCloakedHostname`, client.c:815-852, with an originator. -/
def updateCloak (s : Srv) (target origin : Nat) (host : Option Str) : Srv :=
  let c := s.cl target
  let h := match host with | some h => strlcpy CLIENT_HOST_LEN h | none => genCloak s c
  let s := s.updCl target (fun c => { c with cloaked := some h })
  writeServersFlag s (some (nextHop s (s.cl origin)).ref) (s.cl origin) (some 'M')
    ⟨"METADATA", [(s.cl target).ID, "cloakhost".toList, h]⟩

/-- Tell a local client its host name, irc-metadata.c:78-81 and 88-91. -/
def tellHost (s : Srv) (target prefix_ : Nat) : Srv :=
  if (s.cl target).conn.isSome then
    writePrefix s (s.cl target) (s.cl prefix_)
      ⟨"RPL_HOSTHIDDEN_MSG", [(s.cl target).ID, displayedHost s (s.cl target)]⟩
  else s

/-- The keys of `IRC_METADATA` other than "cloakhost", irc-metadata.c:86-105.  The certificate
fingerprint is not modelled. -/
def metadataSet (s : Srv) (target prefix_ : Nat) (key value : Str) : Srv :=
  if !value.isEmpty && caseEq key "host".toList then
    let s := clientSetHostname s target value
    if (s.cl target).hasMode 'x' then s else tellHost s target prefix_
  else if caseEq key "info".toList then clientSetInfo s target value
  else if !value.isEmpty && caseEq key "user".toList then clientSetUser s target value true
  else if caseEq key "accountname".toList then
    s.updCl target (fun c => { c with account := if value.isEmpty then none else some (value.take 31) })
  else s

/-- `IRC_METADATA`, irc-metadata.c:42-110. -/
def ircMETADATA (s : Srv) (cl : Nat) (req : Request) : HRes :=
  match req.prefix? with
  | none => needMoreParams s cl req
  | some p =>
    match clientSearch s p with
    | none => (writeErr s (s.cl cl) ⟨"ERR_NOSUCHNICK_MSG", [(s.cl cl).ID, p]⟩, true)
    | some pre =>
      match clientSearch s (req.arg 0) with
      | none => (writeErr s (s.cl cl) ⟨"ERR_NOSUCHNICK_MSG", [(s.cl cl).ID, req.arg 0]⟩, true)
      | some t =>
        let s := if t.hasFlag 'M' then s
          else s.updCl t.ref (fun c => { c with flags := strlcpy 16 (c.flags ++ ['M']) })
        if caseEq (req.arg 1) "cloakhost".toList then
          let s := updateCloak s t.ref pre.ref (if (req.arg 2).isEmpty then none else some (req.arg 2))
          (if (s.cl t.ref).hasMode 'x' then tellHost s t.ref pre.ref else s, true)
        else
          let s := metadataSet s t.ref pre.ref (req.arg 1) (req.arg 2)
          (writeServersFlag s (some cl) (s.cl pre.ref) (some 'M')
            ⟨"METADATA", [(s.cl t.ref).ID, req.arg 1, req.arg 2]⟩, true)

end Ngircd
