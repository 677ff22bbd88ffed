import Verif.Spec.Modes

/-!
# Vocabulary: what a netsplit looks like to the others
-/

namespace Ngircd.Spec

/-- The reason given when the client `d` disappears together with the server `r`: the reason for the loss of `r`
itself, and for all others the name of this server and of the server `d` was introduced by. -/
def splitText (s : Srv) (r : Nat) (reason : Option Str) (d : Client) : Str :=
  if d.ref = r then reason.getD [] else (s.cl s.this).id ++ ' ' :: (s.cl d.introducer).id

/-- Of the lines `o`, every server link except `i` got exactly one `SQUIT` for every server lost with `r`; the
connection of every other local client got exactly one `QUIT` for every user or service lost with
`r` it shared a channel with; nobody got anything else, and connection `i` got nothing. -/
structure SplitTold (s : Srv) (i r : Nat) (reason : Option Str) (o : List Sent) : Prop where
  links : ∀ j, j ≠ i → isLink s j = true → ∃ ds : List Client, ds.Nodup ∧
    (∀ d, d ∈ ds ↔ Under s r d ∧ d.type = .server) ∧
    onConn o j = ds.map (fun d => ⟨j, some d.ID, ⟨"SQUIT", [d.id, splitText s r reason d]⟩⟩)
  users : ∀ j, isLink s j = false → ∃ ds : List Client, ds.Nodup ∧
    (∀ d, d ∈ ds ↔ Under s r d ∧ (d.type = .user ∨ d.type = .service) ∧ Related s d.ref j) ∧
    onConn o j = ds.map (fun d => ⟨j, some (maskCloaked s d),
      ⟨"QUIT", [if s.conf.morePrivacy then [] else splitText s r reason d]⟩⟩)
  own : onConn o i = []

end Ngircd.Spec
