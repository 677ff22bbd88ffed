import Verif.Spec.Answers

/-!
# Vocabulary: answers about the network and this server
-/

namespace Ngircd.Spec

/-- The server the given server is behind. -/
def via (s : Srv) (d : Client) : Client :=
  match d.topserver with
  | some r => s.cl r
  | none => s.cl s.this

/-- Every server is known together with the server it is behind. -/
def Rooted (s : Srv) : Prop := ∀ d ∈ s.clients, d.type = .server → ∀ r, d.topserver = some r → ∃ f ∈ s.clients, f.ref = r

/-- The answer to LINKS: one line for each server of the network whose name matches the mask. -/
def linksAnswer (s : Srv) (c : Client) (mask : Str) : List Msg :=
  (s.clients.filter (fun d => decide (d.type = .server) && matchCaseInsensitive mask d.ID)).map
    (fun d => ⟨"RPL_LINKS_MSG", [c.ID, d.ID, (via s d).ID, intStr d.hops, d.info]⟩) ++ [⟨"RPL_ENDOFLINKS_MSG", [c.ID, mask]⟩]

/-- The answer to SERVLIST: one line for each service of the network whose name matches the mask (if given); there are only services of the type "0". -/
def servlistAnswer (s : Srv) (c : Client) (mask : Str) (type : Str) : List Msg :=
  (if type = ['0'] then s.clients.filter (fun d => decide (d.type = .service) && matchCaseInsensitive mask d.ID) else []).map
    (fun d => ⟨"RPL_SERVLIST_MSG", [c.ID, d.mask, (s.cl d.introducer).mask, intStr d.hops, d.info]⟩) ++
  [⟨"RPL_SERVLISTEND_MSG", [c.ID, mask, type]⟩]

/-- The answer to STATS, asking for `q`.  The G- and K-lines and the list of all connections are for IRC operators only; others see, of the connections, those to
servers and their own. -/
def statsAnswer (s : Srv) (c : Client) (q : Char) : List Msg :=
  if 'o' ∉ c.modes ∧ q ∈ ['g', 'G', 'k', 'K', 'L'] then [⟨"ERR_NOPRIVILEGES_MSG", [c.ID]⟩]
  else
    (if q ∈ ['g', 'G'] then s.glines.map (fun e => ⟨"RPL_STATSXLINE_MSG", [c.ID, [q], e.mask, intStr e.validUntil, e.reason.getD []]⟩)
     else if q ∈ ['k', 'K'] then s.klines.map (fun e => ⟨"RPL_STATSXLINE_MSG", [c.ID, [q], e.mask, intStr e.validUntil, e.reason.getD []]⟩)
     else if q ∈ ['l', 'L'] then
       ((s.conns.map (fun k => s.cl k.client)).filter (fun d => decide (d.type = .server) || decide (d.ref = c.ref) || (decide (q = 'L') && decide (d.type = .user)))).map
         (fun d => ⟨"RPL_STATSLINKINFO_MSG", [c.ID, d.mask]⟩)
     else if q ∈ ['u', 'U'] then [⟨"RPL_STATSUPTIME", [c.ID]⟩]
     else []) ++ [⟨"RPL_ENDOFSTATS_MSG", [c.ID, [q]]⟩]

/-- The answer to TRACE: the servers linked directly, and the IRC operators connected here. -/
def traceAnswer (s : Srv) (c : Client) : List Msg :=
  s.clients.flatMap (fun d =>
    if d.conn = none then []
    else if d.type = .server then [⟨"RPL_TRACESERVER_MSG", [c.ID, d.ID, d.host]⟩]
    else if d.type = .user ∧ 'o' ∈ d.modes then [⟨"RPL_TRACEOPERATOR_MSG", [c.ID, d.ID]⟩]
    else []) ++ [⟨"RPL_TRACEEND_MSG", [c.ID, s.conf.serverName]⟩]

end Ngircd.Spec
