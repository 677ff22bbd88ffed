import Verif.Spec.Messages
import Verif.Model.Oper

/-!
# Vocabulary: G-lines and K-lines
-/

namespace Ngircd.Spec

/-- The reason given to everybody removed because of a new line. -/
def lineReason (k : LineClass) (f : Client) (text : Str) : Str :=
  ((match k with | .gline => "G-Line by \"".toList | .kline => "K-Line by \"".toList) ++
    f.ID ++ "\": \"".toList ++ text ++ "\"".toList).take 512

/-- The users, services and connections that have chosen a nickname which a list of lines covers;
K-lines are for the connections of this server only. -/
def Hit (s : Srv) (k : LineClass) (l : MaskList) (c : Client) : Prop :=
  (c.type = .user ∨ c.type = .gotNick ∨ c.type = .service) ∧ c.id ≠ [] ∧ (k = .gline ∨ c.conn.isSome = true) ∧ Covers s l c

instance (s : Srv) (l : MaskList) (c : Client) : Decidable (Covers s l c) := inferInstanceAs (Decidable (∃ _ ∈ _, _))

instance (s : Srv) (k : LineClass) (l : MaskList) (c : Client) : Decidable (Hit s k l c) :=
  inferInstanceAs (Decidable ((_ ∨ _ ∨ _) ∧ _ ≠ _ ∧ (_ ∨ _) ∧ Covers _ _ _))

/-- From `s` to `t` everybody covered by the line has been removed, and nobody else: they are gone
with their memberships and connections, every server link has been told to kill each of them, in
the order of the client list, nobody else has, and the users sharing a channel with one of them,
and not removed themselves, have seen it quit.  (`o` is the output, newest first.) -/
structure Swept (s t : Srv) (k : LineClass) (l : MaskList) (reason : Str) (o : List Sent) : Prop where
  clients : ∀ d, d ∈ t.clients ↔ d ∈ s.clients ∧ ¬ Hit s k l d
  members : ∀ ch r, OnChannel t ch r ↔ OnChannel s ch r ∧ ¬ ∃ d ∈ s.clients, d.ref = r ∧ Hit s k l d
  closed : ∀ d ∈ s.clients, Hit s k l d → ∀ j, d.conn = some j → t.conn? j = none
  links : ∀ d ∈ s.clients, d.type = .server → ∀ j, d.conn = some j →
    (onConn o j).filter (fun y => y.msg.cmd == "KILL") =
      ((s.clients.filter (fun c => decide (Hit s k l c))).map
        (fun c => (⟨j, some (s.cl s.this).ID, ⟨"KILL", [c.id, reason]⟩⟩ : Sent))).reverse
  others : ∀ y ∈ o, y.msg.cmd = "KILL" → isLink s y.conn = true
  quits : ∀ c ∈ s.clients, Hit s k l c → c.type = .user → c.introducer ≠ c.ref →
    ∀ d ∈ s.clients, ¬ Hit s k l d → ∀ j, d.conn = some j → Related s c.ref j →
      (⟨j, some (maskCloaked s c), ⟨"QUIT", [if s.conf.morePrivacy then [] else reason]⟩⟩ : Sent) ∈ o

end Ngircd.Spec
