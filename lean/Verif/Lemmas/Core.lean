import Verif.Model.Events

/-!
# The core of the state, and runs of elementary actions

`Srv.core` forgets the parts of the state that only record output, faults and pending
signals.  All handlers are shown (Lemmas/Handlers*) to change the core only
through the elementary actions `Act`, each under the guards the code tests; invariants then
have to be checked for the actions only.
-/

set_option linter.unusedSimpArgs false

namespace Ngircd

/-- The part of the state the invariants talk about. -/
def Srv.core (s : Srv) : Srv :=
  { s with out := [], fault := false, rnd := 0, sigQuit := false, sigRestart := false,
           sigRehash := false, linkReq := [] }

/-! ## Output does not touch the core -/

@[simp] theorem core_emits (s : Srv) (l : List Sent) : (s.emits l).core = s.core := rfl
@[simp] theorem core_emit (s : Srv) (i : Nat) (p : Option Str) (m : Msg) :
    (s.emit i p m).core = s.core := rfl
@[simp] theorem core_crash (s : Srv) : s.crash.core = s.core := rfl
@[simp] theorem core_writePrefix (s : Srv) (a b : Client) (m : Msg) :
    (writePrefix s a b m).core = s.core := rfl
@[simp] theorem core_write (s : Srv) (a : Client) (m : Msg) : (write s a m).core = s.core := rfl
@[simp] theorem core_writeErr (s : Srv) (a : Client) (m : Msg) :
    (writeErr s a m).core = s.core := rfl
@[simp] theorem core_sendMarked (s : Srv) (p : Client) (h : List Client) (m : Msg) :
    (sendMarked s p h m).core = s.core := rfl
@[simp] theorem core_writeChannelPrefix (s : Srv) (a b : Nat) (p : Client) (r : Bool) (m : Msg) :
    (writeChannelPrefix s a b p r m).core = s.core := rfl
@[simp] theorem core_writeChannel (s : Srv) (a b : Nat) (r : Bool) (m : Msg) :
    (writeChannel s a b r m).core = s.core := rfl
@[simp] theorem core_writeRelatedPrefix (s : Srv) (a : Nat) (p : Client) (r : Bool) (m : Msg) :
    (writeRelatedPrefix s a p r m).core = s.core := rfl
@[simp] theorem core_writeServersFlag (s : Srv) (e : Option Nat) (p : Client) (f : Option Char)
    (m : Msg) : (writeServersFlag s e p f m).core = s.core := rfl
@[simp] theorem core_writeServers (s : Srv) (e : Option Nat) (p : Client) (m : Msg) :
    (writeServers s e p m).core = s.core := rfl
@[simp] theorem core_sendWallops (s : Srv) (a : Nat) (p : Client) (t : Str) :
    (sendWallops s a p t).core = s.core := rfl

theorem core_ite {c : Prop} [Decidable c] (a b : Srv) :
    (if c then a else b).core = if c then a.core else b.core := by split <;> rfl

theorem foldl_core {α : Type} (f : Srv → α → Srv) (h : ∀ s a, (f s a).core = s.core)
    (l : List α) (s : Srv) : (l.foldl f s).core = s.core := by
  induction l generalizing s with
  | nil => rfl
  | cons a l ih => rw [List.foldl_cons, ih, h]

@[simp] theorem core_removeMsgs (s : Srv) (t : Removal) (ch : Chan) (c o : Client) (r : Str)
    (b : Bool) : (removeMsgs s t ch c o r b).core = s.core := by
  cases t
  · simp only [removeMsgs]; repeat' split
    all_goals rfl
  · rfl
  · simp only [removeMsgs]; repeat' split
    all_goals rfl

@[simp] theorem core_closeMsgs (s : Srv) (i : Nat) (c : Client) (f : Option Str) :
    (closeMsgs s i c f).core = s.core := by
  simp only [closeMsgs]
  split <;> rfl

@[simp] theorem core_needMoreParams (s : Srv) (cl : Nat) (req : Request) :
    (needMoreParams s cl req).1.core = s.core := rfl

@[simp] theorem core_opNoPrivileges (s : Srv) (cl : Nat) (req : Request) :
    (opNoPrivileges s cl req).1.core = s.core := rfl

@[simp] theorem core_sendNAMES (s : Srv) (c : Client) (ch : Chan) :
    (sendNAMES s c ch).core = s.core := by
  simp only [sendNAMES]
  split
  · rfl
  · split
    · rfl
    · split <;> rfl

@[simp] theorem core_sendChannelInfo (s : Srv) (c : Client) (ch : Chan) :
    (sendChannelInfo s c ch).core = s.core := by simp only [sendChannelInfo, core_ite, core_emits, core_emit, core_writePrefix, core_write, core_writeErr,
    core_writeChannelPrefix, core_writeServers, core_writeServersFlag, core_sendNAMES, ite_self]

@[simp] theorem core_showChannelList (s : Srv) (c : Client) (ch : Chan) (l : CList) :
    (showChannelList s c ch l).core = s.core := by
  simp only [showChannelList, core_write]
  refine foldl_core _ ?_ _ _
  intros; rfl

@[simp] theorem core_sendListChange (s : Srv) (b : Bool) (l : CList) (p c : Client) (ch : Chan)
    (m : Str) : (sendListChange s b l p c ch m).core = s.core := by
  simp only [sendListChange, core_ite, core_emits, core_emit, core_writePrefix, core_write, core_writeErr,
    core_writeChannelPrefix, core_writeServers, core_writeServersFlag, core_sendNAMES, ite_self]

@[simp] theorem core_channelModeAnswer (s : Srv) (c : Client) (ch : Chan) :
    (channelModeAnswer s c ch).core = s.core := rfl

@[simp] theorem core_joinForward (s : Srv) (cl : Nat) (t : Client) (ch : Chan) (n : Str) :
    (joinForward s cl t ch n).core = s.core := by simp only [joinForward, core_ite, core_emits, core_emit, core_writePrefix, core_write, core_writeErr,
    core_writeChannelPrefix, core_writeServers, core_writeServersFlag, core_sendNAMES, ite_self]

@[simp] theorem core_sendLUSERS (s : Srv) (c : Client) : (sendLUSERS s c).core = s.core := by
  simp only [sendLUSERS, core_ite, core_emits, core_emit, core_writePrefix, core_write, core_writeErr,
    core_writeChannelPrefix, core_writeServers, core_writeServersFlag, core_sendNAMES, ite_self]

@[simp] theorem core_showMOTD (s : Srv) (c : Client) : (showMOTD s c).core = s.core := by
  simp only [showMOTD]
  split
  · rfl
  · simp only [core_ite, core_write, ite_self]
    refine (foldl_core _ ?_ _ _).trans rfl
    intros; rfl

@[simp] theorem core_sendISUPPORT (s : Srv) (c : Client) : (sendISUPPORT s c).core = s.core := rfl

@[simp] theorem core_welcome (s : Srv) (c : Client) : (welcome s c).core = s.core := by
  simp [welcome]

@[simp] theorem core_tellHost (s : Srv) (a b : Nat) : (tellHost s a b).core = s.core := by
  simp only [tellHost, core_ite, core_emits, core_emit, core_writePrefix, core_write, core_writeErr,
    core_writeChannelPrefix, core_writeServers, core_writeServersFlag, core_sendNAMES, ite_self]

@[simp] theorem core_userModeFinish (st : UModeSt) (a b c : Nat) :
    (userModeFinish st a b c).core = st.s.core := by
  simp only [userModeFinish, core_ite, core_emits, core_emit, core_writePrefix, core_write, core_writeErr,
    core_writeChannelPrefix, core_writeServers, core_writeServersFlag, core_sendNAMES, ite_self]

@[simp] theorem core_cmFinish (st : CModeSt) (a b : Nat) (ch : Chan) :
    (cmFinish st a b ch).core = st.s.core := by
  simp only [cmFinish, core_ite, core_emits, core_emit, core_writePrefix, core_write, core_writeErr,
    core_writeChannelPrefix, core_writeServers, core_writeServersFlag, core_sendNAMES, ite_self]

@[simp] theorem core_inviteSend (s : Srv) (a b : Client) (n c : Str) :
    (inviteSend s a b n c).core = s.core := by
  simp only [inviteSend, core_ite, core_emits, core_emit, core_writePrefix, core_write, core_writeErr,
    core_writeChannelPrefix, core_writeServers, core_writeServersFlag, core_sendNAMES, ite_self]

/-! ## Congruence: what depends on the core only -/

section congr
variable {s t : Srv} (h : s.core = t.core)
include h

theorem core_clients : s.clients = t.clients :=
  (congrArg Srv.clients h : s.core.clients = t.core.clients)
theorem core_chans : s.chans = t.chans :=
  (congrArg Srv.chans h : s.core.chans = t.core.chans)
theorem core_cl2 : s.cl2 = t.cl2 :=
  (congrArg Srv.cl2 h : s.core.cl2 = t.core.cl2)
theorem core_conns : s.conns = t.conns :=
  (congrArg Srv.conns h : s.core.conns = t.core.conns)
theorem core_this : s.this = t.this :=
  (congrArg Srv.this h : s.core.this = t.core.this)
theorem core_conf : s.conf = t.conf :=
  (congrArg Srv.conf h : s.core.conf = t.core.conf)
theorem core_nextRef : s.nextRef = t.nextRef :=
  (congrArg Srv.nextRef h : s.core.nextRef = t.core.nextRef)
theorem core_now : s.now = t.now :=
  (congrArg Srv.now h : s.core.now = t.core.now)
theorem core_cl (r : Nat) : s.cl r = t.cl r := by simp only [Srv.cl, Srv.cl?, core_clients h]
theorem core_chan (r : Nat) : s.chan r = t.chan r := by
  simp only [Srv.chan, Srv.chan?, core_chans h]
theorem core_clientSearch (n : Str) : clientSearch s n = clientSearch t n := by
  simp only [clientSearch, core_clients h]
theorem core_channelSearch (n : Str) : channelSearch s n = channelSearch t n := by
  simp only [channelSearch, core_chans h]
theorem core_isMemberOf (c n : Nat) : isMemberOf s c n = isMemberOf t c n := by
  simp only [isMemberOf, getCl2Chan, core_cl2 h]

end congr

end Ngircd
