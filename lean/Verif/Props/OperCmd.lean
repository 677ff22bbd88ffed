import Verif.Props.Refuse
import Verif.Props.UserModes
import Verif.Props.NetInfo
import Verif.Props.Kill
import Verif.Props.Metadata

/-!
# C89: what OPER, DIE, REHASH and RESTART do
-/

set_option linter.unusedSimpArgs false

namespace Ngircd.Spec

/-- The name and the password are those of a configured operator (the first entry with that name),
and the client's nick!user@host is matched by its mask. -/
def Credentials (s : Srv) (c : Client) (name pwd : Str) : Prop :=
  ∃ op, OperEntry s.conf name op ∧ op.pwd = pwd ∧ ∀ m, op.mask = some m → Glob m c.mask

/-- Of the lines `o` (newest first), the new operator `c` at connection `i` got two of this server, his new mode and
the greeting; every server link got his new mode; and there are no others. -/
structure OperTold (s : Srv) (i : Nat) (c : Client) (o : List Sent) : Prop where
  self : onConn o i = [⟨i, some (shownAs s (s.cl s.this) i), ⟨"RPL_YOUREOPER_MSG", [c.ID]⟩⟩,
    ⟨i, some (shownAs s (s.cl s.this) i), ⟨"MODE", [c.ID, "+o".toList]⟩⟩]
  links : ∀ j, isLink s j = true → onConn o j = [⟨j, some c.ID, ⟨"MODE", [c.ID, "+o".toList]⟩⟩]
  others : ∀ y ∈ o, y.conn = i ∨ isLink s y.conn = true

/-- Of the lines `o`, every user connected to this server got exactly one, a NOTICE of this server; and there are no
others. -/
structure NoticeTold (s : Srv) (text : Str) (o : List Sent) : Prop where
  users : ∀ c ∈ s.clients, ∀ j, c.type = .user → c.conn = some j →
    onConn o j = [⟨j, some (shownAs s (s.cl s.this) j), ⟨"NOTICE", [c.ID, text]⟩⟩]
  others : ∀ y ∈ o, ∃ c ∈ s.clients, c.type = .user ∧ c.conn = some y.conn

end Ngircd.Spec

namespace Ngircd
open Spec

variable {s : Srv} {i : Nat} {l : Str} {cl : Nat} {req : Request} {f x : Client} {c : Chan}

theorem oper_mode {m : Str} (hl : m.length < 20) (hm : 'o' ∉ m) : (modeAdd m 'o').1 = m ++ ['o'] := by
  simp only [modeAdd]
  rw [if_neg (fun hh => hm (hasChar_iff.1 hh))]
  simp only
  rw [strlcat_fits]
  simp only [List.length_append, List.length_singleton, CLIENT_MODE_LEN]
  omega

/-- What OPER sends. -/
def operTell (u : Srv) (cl : Nat) : Srv :=
  let u := write u (u.cl cl) ⟨"MODE", [(u.cl cl).ID, "+o".toList]⟩
  let u := writeServers u none (u.cl cl) ⟨"MODE", [(u.cl cl).ID, "+o".toList]⟩
  write u (u.cl cl) ⟨"RPL_YOUREOPER_MSG", [(u.cl cl).ID]⟩

theorem oper_out (hb : Base s) (hcl : s.cl cl ∈ s.clients) (href : (s.cl cl).ref = cl) (hci : (s.cl cl).conn = some i) (hty : (s.cl cl).type = .user)
    (g : Client → Client) (hg : ∀ d, (g d).ref = d.ref ∧ (g d).conn = d.conn ∧ (g d).type = d.type ∧ (g d).introducer = d.introducer ∧ (g d).id = d.id ∧ (g d).hash = d.hash)
    (rnd : Int) :
    ∃ o r, operTell ((s.roll rnd).updCl cl g) cl =
        { withClient s cl g with out := o ++ s.out, rnd := r } ∧ OperTold s i (s.cl cl) o := by
  have hbu : Base ((s.roll rnd).updCl cl g) := by
    refine ⟨(hb.cl.of_core (s := s) (t := s.roll rnd) rfl).upd (fun d hd _ => ?_), ?_⟩
    · obtain ⟨h1, h2, h3, h4, h5, h6⟩ := hg d
      exact ⟨h1, h2, h4, by rw [h6, h5]; exact hb.cl.hash d hd, .inl h3⟩
    · exact ⟨hb.ch.ord, hb.ch.lt, hb.ch.pairs, hb.ch.chan, hb.ch.clt⟩
  have hsome : (s.cl? cl).isSome = true := cl?_isSome_of_conn (by rw [hci]; rfl)
  have hcu : ((s.roll rnd).updCl cl g).cl cl = g (s.cl cl) := by
    rw [cl_updCl (s.roll rnd) cl cl g (fun d => (hg d).1) (fun _ => hsome), if_pos rfl, roll_cl]
  have hne : s.this ≠ cl := by
    intro e
    obtain ⟨z, hz, z1, -, z2, -⟩ := hb.cl.self
    have : s.cl cl = z := hb.cl.ord.eq_of_ref hcl hz (href.trans (e.symm.trans z1.symm))
    rw [this, z2] at hci
    cases hci
  have hthis : ((s.roll rnd).updCl cl g).cl s.this = s.cl s.this := by
    rw [cl_updCl (s.roll rnd) cl s.this g (fun d => (hg d).1) (fun e => absurd e hne), if_neg hne, roll_cl]
  obtain ⟨k1, k2, k3, k4, k5, k6⟩ := hg (s.cl cl)
  have hID : (g (s.cl cl)).ID = (s.cl cl).ID := by simp only [Client.ID, k5]
  obtain ⟨o, h1, h2, h3⟩ := servers_spec hbu none (g (s.cl cl)) ⟨"MODE", [(s.cl cl).ID, "+o".toList]⟩
  have hmem : ∀ d ∈ s.clients, (if d.ref = cl then g d else d) ∈ ((s.roll rnd).updCl cl g).clients :=
    fun d hd => List.mem_map_of_mem (f := fun d : Client => if d.ref = cl then g d else d) hd
  have hlk : ∀ j, isLink s j = true ↔ ∃ d ∈ ((s.roll rnd).updCl cl g).clients, d.type = .server ∧ d.conn = some j := by
    intro j
    rw [isLink_mem]
    constructor
    · rintro ⟨d, hd, d1, d2⟩
      refine ⟨_, hmem d hd, ?_⟩
      split
      · exact ⟨(hg d).2.2.1.trans d1, (hg d).2.1.trans d2⟩
      · exact ⟨d1, d2⟩
    · rintro ⟨d, hd, d1, d2⟩
      obtain ⟨d', hd', rfl⟩ := mem_updCl.1 hd
      refine ⟨d', hd', ?_⟩
      split at d1
      · rename_i e; rw [if_pos e] at d2; exact ⟨(hg d').2.2.1.symm.trans d1, (hg d').2.1.symm.trans d2⟩
      · rename_i e; rw [if_neg e] at d2; exact ⟨d1, d2⟩
  have hi : isLink s i = false := by
    rw [isLink_iff hb hcl hci, hty]; rfl
  have hci' : ∀ j, isLink s j = true → j ≠ i := by
    rintro j hj rfl
    rw [hi] at hj; cases hj
  have hgm : g (s.cl cl) ∈ ((s.roll rnd).updCl cl g).clients := by
    have := hmem _ hcl
    rwa [if_pos href] at this
  have hoi : onConn o i = [] := by
    rw [onConn, List.filter_eq_nil_iff]
    intro y hy hyi
    obtain ⟨d, hd, d1, d2, -⟩ := h3 y hy
    exact hci' y.conn ((hlk _).2 ⟨d, hd, d1, d2⟩) (by simpa using hyi)
  have hpre : getPrefix ((s.roll rnd).updCl cl g) (g (s.cl cl)) (((s.roll rnd).updCl cl g).cl s.this) = shownAs s (s.cl s.this) i := by
    rw [hthis, getPrefix, k3, hty, if_neg (by decide), shownAs, hi, if_neg (by decide)]
    simp only [maskCloaked, displayedHost, genCloak, show ((s.roll rnd).updCl cl g).this = s.this from rfl,
      show ((s.roll rnd).updCl cl g).conf = s.conf from rfl, hthis,
      cl_updCl_field (fun d : Client => d.ID) (s.roll rnd) cl (s.cl s.this).introducer g (fun d => (hg d).1)
        (fun d => by simp only [Client.ID, (hg d).2.2.2.2.1]), roll_cl]
  have ht : ((s.roll rnd).updCl cl g).this = s.this := rfl
  have hin : ((s.roll rnd).updCl cl g).out = s.out := rfl
  generalize hu : (s.roll rnd).updCl cl g = u at hcu hbu h1 h2 h3 hlk hgm hpre ht hin
  have hloc := hbu.cl.loc _ hgm (by rw [k2, hci]; rfl)
  have e1 : ∀ q m, write { u with out := q } (g (s.cl cl)) m = { u with out := ⟨i, some (shownAs s (s.cl s.this) i), m⟩ :: q } := by
    intro q m
    rw [write_local (i := i) (u := { u with out := q }) hloc (k2.trans hci)]
    show { u with out := ⟨i, some (getPrefix u (g (s.cl cl)) (u.cl u.this)), m⟩ :: q } = _
    rw [ht, hpre]
  have hcq : ∀ q, ({ u with out := q } : Srv).cl cl = g (s.cl cl) := fun q => hcu
  have e0 := e1 u.out ⟨"MODE", [(s.cl cl).ID, "+o".toList]⟩
  have e2 := h1 { u with out := ⟨i, some (shownAs s (s.cl s.this) i), ⟨"MODE", [(s.cl cl).ID, "+o".toList]⟩⟩ :: u.out } ⟨rfl, rfl, rfl, rfl, rfl⟩
  refine ⟨⟨i, some (shownAs s (s.cl s.this) i), ⟨"RPL_YOUREOPER_MSG", [(s.cl cl).ID]⟩⟩ ::
    (o ++ [⟨i, some (shownAs s (s.cl s.this) i), ⟨"MODE", [(s.cl cl).ID, "+o".toList]⟩⟩]), rnd, ?_, ⟨?_, ?_, ?_⟩⟩
  · simp only [operTell, hcu, hID]
    rw [show write u (g (s.cl cl)) ⟨"MODE", [(s.cl cl).ID, "+o".toList]⟩ = _ from e0]
    simp only [hcq, hID]
    rw [e2]
    simp only [hcq, hID]
    rw [e1, ← hu]
    simp only [List.cons_append, List.append_assoc, List.nil_append, withClient]
    rfl
  · simp only [onConn] at hoi ⊢
    rw [List.filter_cons_of_pos (by simp), List.filter_append, hoi, List.nil_append, List.filter_cons_of_pos (by simp), List.filter_nil]
  · intro j hj
    obtain ⟨d, hd, d1, d2⟩ := (hlk j).1 hj
    have := h2 j d hd d1 d2 (by intro e; cases e)
    simp only [onConn] at this ⊢
    rw [List.filter_cons_of_neg (by simpa using (hci' j hj).symm), List.filter_append, this, hID,
      List.filter_cons_of_neg (by simpa using (hci' j hj).symm), List.filter_nil, List.append_nil]
  · intro y hy
    rcases List.mem_cons.1 hy with rfl | hy
    · exact .inl rfl
    · rcases List.mem_append.1 hy with hy | hy
      · obtain ⟨d, hd, d1, d2, -⟩ := h3 y hy
        exact .inr ((hlk _).2 ⟨d, hd, d1, d2⟩)
      · cases List.mem_singleton.1 hy
        exact .inl rfl

theorem oper_step (hr : Received s i l cl req) (his : Is req "OPER") (hty : (s.cl cl).type = .user) {name pwd : Str} (ha : req.argv = [name, pwd]) (rnd : Int) :
    step s (.line i rnd l) = (ircOPER (s.roll rnd) cl req).1 :=
  step_do hr rnd his rfl (by rw [hty]; rfl) (by simp only [Command.argcOk, Request.argc, ha]; rfl)

theorem entry_found {conf : Conf} {name : Str} {op : ConfOper} (h : OperEntry conf name op) : conf.opers.find? (fun o => o.name == name) = some op := by
  obtain ⟨pre, post, h1, h2, h3⟩ := h
  rw [List.find?_eq_some_iff_append]
  refine ⟨by simp [h2], pre, post, h1, fun o ho => by simpa using h3 o ho⟩

theorem oper_ok (op : ConfOper) (hm : ∀ m, op.mask = some m → Glob m f.mask ∧ GoodMask m) : operMaskOk op.mask f = true := by
  unfold operMaskOk
  cases h : op.mask with
  | none => rfl
  | some m =>
    obtain ⟨h1, h2⟩ := hm m h
    exact C02_match_complete_partial m _ h2 h1

/-- **C89** OPER with the name and password of a configured operator makes the user an IRC operator; the user, told by
this server, and every linked server learn about it, once, and nobody else does; nothing else changes. -/
theorem C89_oper (h : Reachable s) (hr : Received s i l cl req) (his : Is req "OPER") (hty : (s.cl cl).type = .user) {name pwd : Str}
    (ha : req.argv = [name, pwd]) {op : ConfOper} (ho : OperEntry s.conf name op) (hp : op.pwd = pwd)
    (hm : ∀ m, op.mask = some m → Glob m (s.cl cl).mask ∧ GoodMask m) (hno : 'o' ∉ (s.cl cl).modes) (hroom : (s.cl cl).modes.length < 20) (rnd : Int) :
    ∃ o r, step s (.line i rnd l) = { withClient s cl (fun d => { d with modes := d.modes ++ ['o'] }) with out := o ++ s.out, rnd := r } ∧
      OperTold s i (s.cl cl) o := by
  have hb := h.base
  obtain ⟨g1, g2, g3, g4⟩ := hr.owner hb
  rw [oper_step hr his hty ha rnd]
  have e0 : req.arg 0 = name := by rw [Request.arg, ha]; rfl
  have e1 : req.arg 1 = pwd := by rw [Request.arg, ha]; rfl
  obtain ⟨o, r, e, ht⟩ := oper_out hb g1 g2 g3 hty (fun d => { d with modes := (modeAdd d.modes 'o').1 }) (fun d => ⟨rfl, rfl, rfl, rfl, rfl, rfl⟩) rnd
  refine ⟨o, r, ?_, ht⟩
  have hw : withClient s cl (fun d => { d with modes := (modeAdd d.modes 'o').1 }) =
      withClient s cl (fun d => { d with modes := d.modes ++ ['o'] }) := by
    simp only [withClient]
    congr 1
    apply List.map_congr_left
    intro d hd
    by_cases hdr : d.ref = cl
    · have : d = s.cl cl := hb.cl.ord.eq_of_ref hd g1 (hdr.trans g2.symm)
      rw [if_pos hdr, if_pos hdr, this, oper_mode hroom hno]
    · rw [if_neg hdr, if_neg hdr]
  rw [← hw, ← e]
  unfold ircOPER
  rw [e0, e1, roll_conf, entry_found ho]
  simp only
  rw [if_neg (fun x => x hp), if_neg (by rw [roll_cl, oper_ok op hm]; decide), if_pos (by
    rw [roll_cl]
    cases hx : (s.cl cl).hasMode 'o' with
    | false => rfl
    | true => exact absurd (hasMode_iff.1 hx) hno)]
  rfl

/-- **C89** A user who is an IRC operator already is just greeted. -/
theorem C89_oper_again (h : Reachable s) (hr : Received s i l cl req) (his : Is req "OPER") (hty : (s.cl cl).type = .user) {name pwd : Str}
    (ha : req.argv = [name, pwd]) {op : ConfOper} (ho : OperEntry s.conf name op) (hp : op.pwd = pwd)
    (hm : ∀ m, op.mask = some m → Glob m (s.cl cl).mask ∧ GoodMask m) (hyes : 'o' ∈ (s.cl cl).modes) (rnd : Int) :
    Emitted s (step s (.line i rnd l)) [⟨i, some (shownAs s (s.cl s.this) i), ⟨"RPL_YOUREOPER_MSG", [(s.cl cl).ID]⟩⟩] := by
  rw [oper_step hr his hty ha rnd]
  have e0 : req.arg 0 = name := by rw [Request.arg, ha]; rfl
  have e1 : req.arg 1 = pwd := by rw [Request.arg, ha]; rfl
  unfold ircOPER
  rw [e0, e1, roll_conf, entry_found ho]
  simp only
  rw [if_neg (fun x => x hp), if_neg (by rw [roll_cl, oper_ok op hm]; decide), if_neg (by
    rw [roll_cl, hasMode_iff.2 hyes]; decide)]
  exact refused hr h.base rnd _

/-- **C89** OPER with a wrong name, a wrong password or from the wrong host is refused: the user gets exactly one line, and nothing
else happens. -/
theorem C89_oper_refused (h : Reachable s) (hr : Received s i l cl req) (his : Is req "OPER") (hty : (s.cl cl).type = .user) {name pwd : Str}
    (ha : req.argv = [name, pwd]) (hno : ¬ Credentials s (s.cl cl) name pwd) (rnd : Int) :
    Emitted s (step s (.line i rnd l)) [⟨i, some (shownAs s (s.cl s.this) i), ⟨"ERR_PASSWDMISMATCH_MSG", [(s.cl cl).ID]⟩⟩] := by
  rw [oper_step hr his hty ha rnd]
  have e0 : req.arg 0 = name := by rw [Request.arg, ha]; rfl
  have e1 : req.arg 1 = pwd := by rw [Request.arg, ha]; rfl
  have hbad : Emitted s (badOperPass (s.roll rnd) cl).1 [⟨i, some (shownAs s (s.cl s.this) i), ⟨"ERR_PASSWDMISMATCH_MSG", [(s.cl cl).ID]⟩⟩] :=
    refused hr h.base rnd _
  unfold ircOPER
  rw [e0, e1, roll_conf]
  cases hf : s.conf.opers.find? (fun o => o.name == name) with
  | none => exact hbad
  | some op =>
    simp only
    split
    · exact hbad
    · rename_i h1
      split
      · exact hbad
      · rename_i h2
        exfalso
        apply hno
        obtain ⟨h3, pre, post, h4, h5⟩ := List.find?_eq_some_iff_append.1 hf
        refine ⟨op, ⟨pre, post, h4, by simpa using h3, fun o ho he => ?_⟩, by simpa using h1, fun m hm => ?_⟩
        · have := h5 o ho
          simp [he] at this
        · simp only [operMaskOk, hm] at h2
          exact C01_match_sound _ _ (by simpa using h2)

/-! ## DIE, REHASH, RESTART -/

theorem die_fold (hb : Base s) (text : Str) : ∀ (ks : List Conn), (∀ k ∈ ks, k ∈ s.conns) → (ks.map Conn.idx).Nodup → ∀ (u : Srv) (q : List Sent), Emitted s u q →
    ∃ o, Emitted s (ks.foldl (fun s k => if (s.cl k.client).type = .user then
          write s (s.cl k.client) ⟨"NOTICE", [(s.cl k.client).ID, text]⟩ else s) u) (o ++ q) ∧
      (∀ c ∈ s.clients, ∀ j, c.type = .user → c.conn = some j → onConn o j = if j ∈ ks.map Conn.idx then [⟨j, some (shownAs s (s.cl s.this) j), ⟨"NOTICE", [c.ID, text]⟩⟩] else []) ∧
      (∀ y ∈ o, ∃ c ∈ s.clients, c.type = .user ∧ c.conn = some y.conn ∧ y.conn ∈ ks.map Conn.idx)
  | [], _, _, u, q, hu => ⟨[], hu, fun c _ j _ _ => rfl, fun y hy => by cases hy⟩
  | k :: ks, hk, hn, u, q, hu => by
    obtain ⟨d, hd, d1, d2⟩ := hb.cl.connCl k (hk k (List.mem_cons_self ..))
    have hcl : s.cl k.client = d := cl_of_mem' hb.cl.ord hd d1
    have hcu : u.cl k.client = d := (emitted_cl hu _).trans hcl
    have hn1 : k.idx ∉ ks.map Conn.idx := (List.nodup_cons.1 hn).1
    rw [List.foldl_cons, hcu]
    by_cases hty : d.type = .user
    · rw [if_pos hty]
      have hlk : isLink s k.idx = false := by rw [isLink_iff hb hd d2, hty]; rfl
      have hnx : nextHop s d = d := nextHop_self (hb.cl.loc d hd (by rw [d2]; rfl))
      have hw := emitted_then hu (d := d) (j := k.idx) (by rw [hnx]; exact d2) (u.cl u.this) ⟨"NOTICE", [d.ID, text]⟩
      have hthis : u.cl u.this = s.cl s.this := by rw [emitted_cl hu, (emitted_like hu).this]
      have hpre : (if (nextHop s d).type = .server then (u.cl u.this).ID else maskCloaked s (u.cl u.this)) = shownAs s (s.cl s.this) k.idx := by
        rw [hnx, hthis, hty, if_neg (by decide), shownAs, hlk, if_neg (by decide)]
      rw [hpre] at hw
      obtain ⟨o, h1, h2, h3⟩ := die_fold hb text ks (fun k' hk' => hk k' (List.mem_cons_of_mem _ hk')) (List.nodup_cons.1 hn).2 _ _ hw
      refine ⟨o ++ [⟨k.idx, some (shownAs s (s.cl s.this) k.idx), ⟨"NOTICE", [d.ID, text]⟩⟩], ?_, ?_, ?_⟩
      · rw [List.append_assoc]; exact h1
      · intro c hc j c1 c2
        have := h2 c hc j c1 c2
        simp only [onConn] at this ⊢
        rw [List.filter_append, this]
        by_cases hj : j = k.idx
        · subst hj
          have hcd : c = d := hb.cl.conn_inj hc hd c2 d2
          subst hcd
          rw [if_neg hn1, if_pos (by simp), List.nil_append, List.filter_cons_of_pos (by simp), List.filter_nil]
        · rw [List.filter_cons_of_neg (by simpa using fun e => hj e.symm), List.filter_nil, List.append_nil]
          by_cases hjk : j ∈ ks.map Conn.idx
          · rw [if_pos hjk, if_pos (show j ∈ List.map Conn.idx (k :: ks) from List.mem_cons_of_mem _ hjk)]
          · rw [if_neg hjk, if_neg (fun e => by
              rcases List.mem_cons.1 e with e | e
              · exact hj e
              · exact hjk e)]
      · intro y hy
        rcases List.mem_append.1 hy with hy | hy
        · obtain ⟨c, hc, c1, c2, c3⟩ := h3 y hy
          exact ⟨c, hc, c1, c2, List.mem_cons_of_mem _ c3⟩
        · cases List.mem_singleton.1 hy
          exact ⟨d, hd, hty, d2, List.mem_cons_self ..⟩
    · rw [if_neg hty]
      obtain ⟨o, h1, h2, h3⟩ := die_fold hb text ks (fun k' hk' => hk k' (List.mem_cons_of_mem _ hk')) (List.nodup_cons.1 hn).2 u q hu
      refine ⟨o, h1, ?_, ?_⟩
      · intro c hc j c1 c2
        rw [h2 c hc j c1 c2]
        have hj : j ≠ k.idx := by
          rintro rfl
          have hcd : c = d := hb.cl.conn_inj hc hd c2 d2
          exact hty (hcd ▸ c1)
        by_cases hjk : j ∈ ks.map Conn.idx
        · rw [if_pos hjk, if_pos (show j ∈ List.map Conn.idx (k :: ks) from List.mem_cons_of_mem _ hjk)]
        · rw [if_neg hjk, if_neg (fun e => by
            rcases List.mem_cons.1 e with e | e
            · exact hj e
            · exact hjk e)]
      · intro y hy
        obtain ⟨c, hc, c1, c2, c3⟩ := h3 y hy
        exact ⟨c, hc, c1, c2, List.mem_cons_of_mem _ c3⟩

theorem op_step (hr : Received s i l cl req) (hb : Base s) (hty : (s.cl cl).type = .user) (hop : 'o' ∈ (s.cl cl).modes) (rnd : Int) :
    opCheck (s.roll rnd) cl req = some (s.cl cl) := by
  obtain ⟨g1, g2, g3, g4⟩ := hr.owner hb
  exact opCheck_op (s := s.roll rnd) (i := i) (by rw [roll_cl, hty]; decide) hop g3

/-- **C89** DIE of an operator makes the server stop; if a text is given, every user of this server gets it in one
NOTICE, and nobody else gets anything; nothing else changes. -/
theorem C89_die (h : Reachable s) (hr : Received s i l cl req) (his : Is req "DIE") (hty : (s.cl cl).type = .user) (hop : 'o' ∈ (s.cl cl).modes)
    {text : Str} (ha : req.argv = [text]) (rnd : Int) :
    ∃ o r, step s (.line i rnd l) = { s with out := o ++ s.out, rnd := r, sigQuit := true } ∧ NoticeTold s text o := by
  have hb := h.base
  have hst : step s (.line i rnd l) = (ircDIE (s.roll rnd) cl req).1 :=
    step_do hr rnd his rfl (by rw [hty]; rfl) (by simp only [Command.argcOk, Request.argc, ha]; rfl)
  obtain ⟨o, ⟨r, h1⟩, h2, h3⟩ := die_fold hb text s.conns (fun _ h => h) hb.cl.idx (s.roll rnd) [] ⟨rnd, rfl⟩
  refine ⟨o, r, ?_, fun c hc j c1 c2 => ?_, fun y hy => ?_⟩
  · rw [hst]
    unfold ircDIE
    rw [op_step hr hb hty hop rnd]
    have e0 : req.arg 0 = text := by rw [Request.arg, ha]; rfl
    have e1 : req.argc > 0 := by rw [Request.argc, ha]; exact Nat.zero_lt_succ _
    simp only [e0]
    rw [if_neg (by simp), if_pos e1]
    show { (List.foldl _ (s.roll rnd) s.conns) with sigQuit := true } = _
    rw [h1, List.append_nil]
  · obtain ⟨k, hk, k1, -⟩ := hb.cl.clConn c hc j c2
    rw [h2 c hc j c1 c2, if_pos (by rw [← k1]; exact List.mem_map_of_mem hk)]
  · obtain ⟨c, hc, c1, c2, -⟩ := h3 y hy
    exact ⟨c, hc, c1, c2⟩

/-- **C89** DIE of an operator, without a text, makes the server stop, and nothing else happens. -/
theorem C89_die_silent (h : Reachable s) (hr : Received s i l cl req) (his : Is req "DIE") (hty : (s.cl cl).type = .user) (hop : 'o' ∈ (s.cl cl).modes)
    (ha : req.argv = []) (rnd : Int) :
    step s (.line i rnd l) = { s with rnd := rnd, sigQuit := true } := by
  have hst : step s (.line i rnd l) = (ircDIE (s.roll rnd) cl req).1 :=
    step_do hr rnd his rfl (by rw [hty]; rfl) (by simp only [Command.argcOk, Request.argc, ha]; rfl)
  rw [hst]
  unfold ircDIE
  rw [op_step hr h.base hty hop rnd, if_neg (by simp), if_neg (by rw [Request.argc, ha]; exact Nat.lt_irrefl _)]
  rfl

/-- **C89** REHASH of an operator makes the server read its configuration again; the operator is told, and nothing else
happens yet. -/
theorem C89_rehash (h : Reachable s) (hr : Received s i l cl req) (his : Is req "REHASH") (hty : (s.cl cl).type = .user) (hop : 'o' ∈ (s.cl cl).modes)
    (ha : req.argv = []) (rnd : Int) :
    Emitted { s with sigRehash := true } (step s (.line i rnd l))
      [⟨i, some (shownAs s (s.cl s.this) i), ⟨"RPL_REHASHING_MSG", [(s.cl cl).ID]⟩⟩] := by
  have hst : step s (.line i rnd l) = (ircREHASH (s.roll rnd) cl req).1 :=
    step_do hr rnd his rfl (by rw [hty]; rfl) (by simp only [Command.argcOk, Request.argc, ha]; rfl)
  rw [hst]
  unfold ircREHASH
  rw [op_step hr h.base hty hop rnd, if_neg (by simp)]
  obtain ⟨r, e⟩ := refused hr h.base rnd ⟨"RPL_REHASHING_MSG", [(s.cl cl).ID]⟩
  refine ⟨r, ?_⟩
  show { (write (s.roll rnd) (s.cl cl) ⟨"RPL_REHASHING_MSG", [(s.cl cl).ID]⟩) with sigRehash := true } = _
  rw [show write (s.roll rnd) (s.cl cl) ⟨"RPL_REHASHING_MSG", [(s.cl cl).ID]⟩ = _ from e]

/-- **C89** RESTART of an operator makes the server start again, and nothing else happens yet. -/
theorem C89_restart (h : Reachable s) (hr : Received s i l cl req) (his : Is req "RESTART") (hty : (s.cl cl).type = .user) (hop : 'o' ∈ (s.cl cl).modes)
    (ha : req.argv = []) (rnd : Int) :
    step s (.line i rnd l) = { s with rnd := rnd, sigRestart := true } := by
  have hst : step s (.line i rnd l) = (ircRESTART (s.roll rnd) cl req).1 :=
    step_do hr rnd his rfl (by rw [hty]; rfl) (by simp only [Command.argcOk, Request.argc, ha]; rfl)
  rw [hst]
  unfold ircRESTART
  rw [op_step hr h.base hty hop rnd, if_neg (by simp)]
  rfl

/-- A client keeps its wish to stop the server to itself unless it is an operator: DIE, REHASH and RESTART of other users are only answered. -/
theorem C89_refused (h : Reachable s) (hr : Received s i l cl req) (his : Is req "DIE" ∨ Is req "REHASH" ∨ Is req "RESTART") (hty : (s.cl cl).type = .user)
    (hno : 'o' ∉ (s.cl cl).modes) (rnd : Int) : Answered i s (step s (.line i rnd l)) := by
  rcases his with e | e | e
  · exact C27_users h hr ⟨"DIE", by decide, e⟩ (by rw [hty]; decide) hno rnd
  · exact C27_users h hr ⟨"REHASH", by decide, e⟩ (by rw [hty]; decide) hno rnd
  · exact C27_users h hr ⟨"RESTART", by decide, e⟩ (by rw [hty]; decide) hno rnd

theorem Sample.opercmd_facts :
    recv Sample.s5 5 "OPER root secret".toList = some (3, ⟨none, "OPER".toList, ["root".toList, "secret".toList]⟩) ∧
    recv Sample.s5 5 "OPER root guess".toList = some (3, ⟨none, "OPER".toList, ["root".toList, "guess".toList]⟩) ∧
    (Sample.s5.cl 3).type = .user ∧ 'o' ∉ (Sample.s5.cl 3).modes ∧ (Sample.s5.cl 3).modes.length < 20 ∧ isLink Sample.s5 7 = true := by decide +kernel

theorem Sample.opercmd_facts2 :
    recv Sample.s5op 5 "DIE :bye".toList = some (3, ⟨none, "DIE".toList, ["bye".toList]⟩) ∧
    recv Sample.s5op 5 "DIE".toList = some (3, ⟨none, "DIE".toList, []⟩) ∧
    recv Sample.s5op 5 "REHASH".toList = some (3, ⟨none, "REHASH".toList, []⟩) ∧
    recv Sample.s5op 5 "RESTART".toList = some (3, ⟨none, "RESTART".toList, []⟩) ∧
    recv Sample.s5op 5 "OPER root secret".toList = some (3, ⟨none, "OPER".toList, ["root".toList, "secret".toList]⟩) ∧
    (Sample.s5op.cl 3).type = .user ∧ 'o' ∈ (Sample.s5op.cl 3).modes := by decide +kernel

deriving instance DecidableEq for ConfOper

/-- The configured operator of the sample, with a mask. -/
def Sample.root : ConfOper := ⟨"root".toList, "secret".toList, some "*!*@1.2.3.*".toList⟩

theorem Sample.root_facts : Sample.s5.conf.opers = [Sample.root] ∧ Sample.s5op.conf.opers = [Sample.root] ∧
    Match "*!*@1.2.3.*".toList (Sample.s5.cl 3).mask = true ∧ Match "*!*@1.2.3.*".toList (Sample.s5op.cl 3).mask = true := by decide +kernel

theorem Sample.root_mask : GoodMask "*!*@1.2.3.*".toList := by
  refine goodMask_of_simple _ (by decide) ?_
  intro pre post e
  have h1 := congrArg List.length e
  have : pre.length ≤ 11 := by simp at h1; omega
  have h2 : "*!*@1.2.3.*".toList[pre.length]? = some '*' := by rw [e]; simp
  have h3 : "*!*@1.2.3.*".toList[pre.length + 1]? = some '*' := by rw [e]; simp
  revert h2 h3
  generalize pre.length = n at this
  revert n
  decide

/-- alice gives the right name and password. -/
example : ∃ req, Reachable Sample.s5 ∧ Received Sample.s5 5 "OPER root secret".toList 3 req ∧ Is req "OPER" ∧ (Sample.s5.cl 3).type = .user ∧
    req.argv = ["root".toList, "secret".toList] ∧ OperEntry Sample.s5.conf "root".toList Sample.root ∧ Sample.root.pwd = "secret".toList ∧
    (∀ m, Sample.root.mask = some m → Glob m (Sample.s5.cl 3).mask ∧ GoodMask m) ∧ 'o' ∉ (Sample.s5.cl 3).modes ∧ (Sample.s5.cl 3).modes.length < 20 ∧
    isLink Sample.s5 7 = true := by
  obtain ⟨f1, -, f3, f4, f5, f6⟩ := Sample.opercmd_facts
  obtain ⟨k1, -, k3, -⟩ := Sample.root_facts
  exact ⟨_, Sample.reach_s5, recv_sound f1, by simp only [Is]; decide, f3, rfl, ⟨[], [], k1, rfl, fun o ho => by cases ho⟩, rfl,
    fun m hm => by cases hm; exact ⟨C01_match_sound _ _ k3, Sample.root_mask⟩, f4, f5, f6⟩

/-- ... and once more. -/
example : ∃ req, Reachable Sample.s5op ∧ Received Sample.s5op 5 "OPER root secret".toList 3 req ∧ Is req "OPER" ∧ (Sample.s5op.cl 3).type = .user ∧
    req.argv = ["root".toList, "secret".toList] ∧ OperEntry Sample.s5op.conf "root".toList Sample.root ∧ Sample.root.pwd = "secret".toList ∧
    (∀ m, Sample.root.mask = some m → Glob m (Sample.s5op.cl 3).mask ∧ GoodMask m) ∧ 'o' ∈ (Sample.s5op.cl 3).modes := by
  obtain ⟨-, -, -, -, f5, f6, f7⟩ := Sample.opercmd_facts2
  obtain ⟨-, k2, -, k4⟩ := Sample.root_facts
  exact ⟨_, polite_s5op.reachable, recv_sound f5, by simp only [Is]; decide, f6, rfl, ⟨[], [], k2, rfl, fun o ho => by cases ho⟩, rfl,
    fun m hm => by cases hm; exact ⟨C01_match_sound _ _ k4, Sample.root_mask⟩, f7⟩

/-- alice guesses. -/
example : ∃ req, Reachable Sample.s5 ∧ Received Sample.s5 5 "OPER root guess".toList 3 req ∧ Is req "OPER" ∧ (Sample.s5.cl 3).type = .user ∧
    req.argv = ["root".toList, "guess".toList] ∧ ¬ Credentials Sample.s5 (Sample.s5.cl 3) "root".toList "guess".toList := by
  obtain ⟨-, f2, f3, -⟩ := Sample.opercmd_facts
  obtain ⟨k1, -⟩ := Sample.root_facts
  refine ⟨_, Sample.reach_s5, recv_sound f2, by simp only [Is]; decide, f3, rfl, ?_⟩
  rintro ⟨op, ⟨pre, post, h1, h2, h3⟩, h4, -⟩
  have : op ∈ [Sample.root] := by rw [← k1, h1]; simp
  cases List.mem_singleton.1 this
  exact absurd h4 (by decide)

/-- alice, an operator, stops, rehashes and restarts the server. -/
example : (∃ req, Reachable Sample.s5op ∧ Received Sample.s5op 5 "DIE :bye".toList 3 req ∧ Is req "DIE" ∧ (Sample.s5op.cl 3).type = .user ∧
      'o' ∈ (Sample.s5op.cl 3).modes ∧ req.argv = ["bye".toList]) ∧
    (∃ req, Received Sample.s5op 5 "DIE".toList 3 req ∧ Is req "DIE" ∧ req.argv = []) ∧
    (∃ req, Received Sample.s5op 5 "REHASH".toList 3 req ∧ Is req "REHASH" ∧ req.argv = []) ∧
    (∃ req, Received Sample.s5op 5 "RESTART".toList 3 req ∧ Is req "RESTART" ∧ req.argv = []) := by
  obtain ⟨f1, f2, f3, f4, -, f6, f7⟩ := Sample.opercmd_facts2
  exact ⟨⟨_, polite_s5op.reachable, recv_sound f1, by simp only [Is]; decide, f6, f7, rfl⟩,
    ⟨_, recv_sound f2, by simp only [Is]; decide, rfl⟩, ⟨_, recv_sound f3, by simp only [Is]; decide, rfl⟩,
    ⟨_, recv_sound f4, by simp only [Is]; decide, rfl⟩⟩

/-- bob is no operator. -/
example : ∃ req, Reachable Sample.s5 ∧ Received Sample.s5 6 "DIE".toList 4 req ∧ (Is req "DIE" ∨ Is req "REHASH" ∨ Is req "RESTART") ∧
    (Sample.s5.cl 4).type = .user ∧ 'o' ∉ (Sample.s5.cl 4).modes :=
  ⟨⟨none, "DIE".toList, []⟩, Sample.reach_s5, recv_sound (by decide +kernel), .inl (by simp only [Is]; decide), by decide +kernel, by decide +kernel⟩

end Ngircd
