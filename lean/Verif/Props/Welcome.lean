import Verif.Props.Introduce
import Verif.Props.Counters
import Verif.Props.Whowas

/-!
# C69: registration with this server
-/

set_option linter.unusedSimpArgs false

namespace Ngircd
open Spec

variable {s v t : Srv} {i : Nat} {l : Str} {cl : Nat} {req : Request} {c : Client}

/-- The state with the client `r` changed by `g`; the highest numbers of users seen so far are now `n` and, locally, `m`. -/
def Spec.withEntered (s : Srv) (r : Nat) (g : Client → Client) (n m : Nat) : Srv :=
  { withClient s r g with maxUsers := n, myMaxUsers := m }

/-- The connection may become a user with the identity `c`: it has answered the PING if it has to, it is not
negotiating capabilities, its password is right, and no ban of this server or of the network covers it. -/
structure Spec.MayEnter (s : Srv) (i : Nat) (c : Client) : Prop where
  ping : s.conf.authPing = true → ∀ k ∈ s.conns, k.idx = i → k.authPing = 0
  caps : c.caps.pending = false
  pwd : ∀ k ∈ s.conns, k.idx = i → k.pwd = s.conf.serverPwd
  gline : ¬ Covers s s.glines c
  kline : ¬ Covers s s.klines c

/-- The message of the day, as sent to `c` at connection `i`. -/
def Spec.motdLines (t : Srv) (i : Nat) (c : Client) : List Msg :=
  if t.conf.motd = [] ∧ ¬ (∃ k ∈ t.conns, k.idx = i ∧ k.ssl = true) then [⟨"ERR_NOMOTD_MSG", [shown c]⟩]
  else [⟨"RPL_MOTDSTART_MSG", [shown c, shown (t.cl t.this)]⟩] ++ t.conf.motd.map (fun x => ⟨"RPL_MOTD_MSG", [shown c, x]⟩) ++
    [⟨"RPL_ENDOFMOTD_MSG", [shown c]⟩] ++ (if t.conf.cloakHost.isSome then [⟨"RPL_HOSTHIDDEN_MSG", [shown c, c.host]⟩] else [])

/-- What a new user gets to see. -/
def Spec.welcomeLines (t : Srv) (i : Nat) (c : Client) : List Msg :=
  [⟨"RPL_WELCOME_MSG", [shown c, c.mask]⟩, ⟨"RPL_YOURHOST_MSG", [shown c, shown (t.cl t.this)]⟩, ⟨"RPL_CREATED_MSG", [shown c]⟩,
   ⟨"RPL_MYINFO_MSG", [shown c, shown (t.cl t.this)]⟩, ⟨"RPL_ISUPPORT1_MSG", [shown c, (toString t.conf.maxJoins).toList]⟩,
   ⟨"RPL_ISUPPORT2_MSG", [shown c, "50".toList, (toString (t.conf.maxNickLength - 1 : Int)).toList]⟩] ++ lusers t c ++ motdLines t i c

/-- Of the lines `o` (newest first), every linked server got exactly the introduction of the new user `c`, coming from this server, the
user itself got the welcome, and nobody else got anything. -/
structure Spec.Welcomed (t : Srv) (i : Nat) (c : Client) (o : List Sent) : Prop where
  links : ∀ j d, d ∈ t.clients → d.type = .server → d.conn = some j → (onConn o j).reverse = introLines t j d (t.cl t.this) c
  own : (onConn o i).reverse = (welcomeLines t i c).map (fun m => ⟨i, some (shownAs t (t.cl t.this) i), m⟩)
  others : ∀ y ∈ o, y.conn = i ∨ isLink t y.conn = true

theorem lusersM_eq (hb : Base t) (c : Client) : lusersM t c = lusers t c := by
  have e4 : operCount t = operators t := rfl
  have e5 : unknownCount t = unregistered t := by
    simp only [unknownCount, unregistered]
    congr 1
    refine List.filter_congr ?_
    intro c _
    cases c.type <;> rfl
  have e6 : countVisible t (some c.ref) = knownChannels t c.ref := by
    simp only [countVisible, knownChannels]
    congr 1
    refine List.filter_congr ?_
    intro c _
    simp only [isMemberOf, getCl2Chan, Chan.hasMode, hasChar]
    congr 1
    rw [Bool.eq_iff_iff, List.find?_isSome, List.any_eq_true]
  have e7 : myCountType t .user = localUsers t := (localUsers_eq hb).symm
  have e8 : myCountType t .service = 0 := myServices_eq hb
  have e9 : ∀ (p : Nat) (a : List Msg), (if p > 0 then a else []) = if p = 0 then [] else a := by
    intro p a
    cases p <;> rfl
  simp only [lusersM, lusers, id_eq, e4, e5, e6, e7, e8, e9]
  simp only [List.nil_append, List.append_assoc, List.cons_append]
  rfl

theorem usesSSL_spec (hb : Base t) (hi : c.conn = some i) : usesSSL t c = true ↔ ∃ k ∈ t.conns, k.idx = i ∧ k.ssl = true := by
  simp only [usesSSL, hi, Option.bind_some, Srv.conn?]
  cases hq : t.conns.find? (fun k => k.idx == i) with
  | none =>
    simp only [Bool.false_eq_true, false_iff]
    rintro ⟨k, hk, h1, -⟩
    exact absurd (by simpa using h1) (List.find?_eq_none.1 hq k hk)
  | some k =>
    have h1 := List.mem_of_find?_eq_some hq
    have h2 : k.idx = i := by simpa using List.find?_some hq
    simp only
    constructor
    · exact fun h => ⟨k, h1, h2, h⟩
    · rintro ⟨k', hk', h3, h4⟩
      rw [conn_eq_of_idx hb hk' h1 (h3.trans h2.symm)] at h4
      exact h4

theorem told_fold (hc : c.introducer = c.ref ∨ c.introducer = t.this) (hi : c.conn = some i) (f : Str → Msg) :
    ∀ (xs : List Str) (ms : List Msg), xs.foldl (fun s x => write s c (f x)) (told t i c ms) = told t i c (ms ++ xs.map f)
  | [], ms => by simp
  | x :: xs, ms => by
    rw [List.foldl_cons, told_write hc hi, told_fold hc hi f xs, List.map_cons, List.append_assoc]
    rfl

theorem told_told (ms ms' : List Msg) : told (told t i c ms) i c ms' = told t i c (ms ++ ms') := by
  simp only [told, List.map_append, List.reverse_append, List.append_assoc]
  rfl

theorem motd_out (hb : Base t) (hc : c.introducer = c.ref ∨ c.introducer = t.this) (hi : c.conn = some i) :
    showMOTD t c = told t i c (motdLines t i c) := by
  have h0 : t = told t i c [] := rfl
  simp only [showMOTD, motdLines]
  by_cases h : t.conf.motd = [] ∧ ¬ (∃ k ∈ t.conns, k.idx = i ∧ k.ssl = true)
  · rw [if_pos h, if_pos (by
      rw [h.1]
      have : usesSSL t c = false := by
        cases hu : usesSSL t c with
        | false => rfl
        | true => exact absurd ((usesSSL_spec hb hi).1 hu) h.2
      rw [this]; rfl)]
    rw [← id_eq]
    exact told_write hc hi [] _
  · rw [if_neg h, if_neg (by
      intro hx
      simp only [Bool.and_eq_true, Bool.not_eq_true', List.isEmpty_iff] at hx
      refine h ⟨hx.1, fun hk => ?_⟩
      rw [(usesSSL_spec hb hi).2 hk] at hx
      exact absurd hx.2 (by decide))]
    have e1 : write t c ⟨"RPL_MOTDSTART_MSG", [c.ID, (t.cl t.this).ID]⟩ = told t i c ([] ++ [⟨"RPL_MOTDSTART_MSG", [shown c, shown (t.cl t.this)]⟩]) := by
      rw [← id_eq, ← id_eq]
      exact told_write hc hi [] _
    simp only [e1]
    rw [show (told t i c ([] ++ [⟨"RPL_MOTDSTART_MSG", [shown c, shown (t.cl t.this)]⟩])).conf = t.conf from rfl]
    rw [told_fold hc hi (fun x => ⟨"RPL_MOTD_MSG", [c.ID, x]⟩), told_write hc hi]
    rw [show ∀ m, (told t i c m).conf = t.conf from fun _ => rfl]
    simp only [id_eq, List.nil_append]
    cases hk : t.conf.cloakHost.isSome with
    | false => simp
    | true =>
      simp only [if_true]
      exact told_write hc hi _ _

theorem welcome_out (hb : Base t) (hc : c.introducer = c.ref ∨ c.introducer = t.this) (hi : c.conn = some i) :
    welcome t c = told t i c (welcomeLines t i c) := by
  have e : ∀ (ms : List Msg) (m : Msg), write (told t i c ms) c m = told t i c (ms ++ [m]) := told_write hc hi
  have h0 : t = told t i c [] := rfl
  have hl : ∀ ms, sendLUSERS (told t i c ms) c = told t i c (ms ++ lusers t c) := by
    intro ms
    have := sendLUSERS_out (s := told t i c ms) (c := c) hc hi
    rw [lusersM_eq (t := told t i c ms) (Base.of_core (s := t) rfl hb)] at this
    refine this.trans ?_
    rw [← told_told]
    rfl
  have hm : ∀ ms, showMOTD (told t i c ms) c = told t i c (ms ++ motdLines t i c) := by
    intro ms
    have := motd_out (t := told t i c ms) (c := c) (i := i) (Base.of_core (s := t) rfl hb) hc hi
    rw [← told_told]
    exact this
  have h1 : write t c ⟨"RPL_WELCOME_MSG", [c.ID, c.mask]⟩ = told t i c ([] ++ [⟨"RPL_WELCOME_MSG", [c.ID, c.mask]⟩]) := e [] _
  have g1 : ∀ ms, (told t i c ms).cl (told t i c ms).this = t.cl t.this := fun _ => rfl
  have g2 : ∀ ms, (told t i c ms).conf = t.conf := fun _ => rfl
  simp only [welcome, sendISUPPORT, h1, e, g1, g2, hl, hm]
  simp only [welcomeLines, id_eq, intStr]
  simp only [List.nil_append, List.cons_append, List.append_assoc]
  rfl

theorem autojoin_none (cl : Nat) : ∀ (l : List ConfChannel) (t : Srv), (∀ ch ∈ l, ch.autojoin = false) → autojoinLoop cl l t = t
  | [], _, _ => rfl
  | ch :: l, t, h => by
    simp only [autojoinLoop]
    rw [h ch (List.mem_cons_self ..)]
    simp only [Bool.false_and, Bool.false_eq_true, if_false]
    exact autojoin_none cl l t (fun x hx => h x (List.mem_cons_of_mem _ hx))

theorem setType_entered (v : Srv) (cl : Nat) :
    ∃ n m, clientSetType v cl .user = withEntered v cl (fun c => { c with type := .user }) n m := by
  simp only [clientSetType, if_neg (show ¬ (CType.user = CType.server) from by decide)]
  obtain ⟨n, m, h⟩ := adjustCounters_eq (v.updCl cl (fun c => { c with type := .user })) ((v.updCl cl (fun c => { c with type := .user })).cl cl)
  exact ⟨n, m, h⟩

theorem entered_base (hb : Base v) (hne : cl ≠ v.this) (n m : Nat) : Base (withEntered v cl (fun c => { c with type := .user }) n m) := by
  refine ⟨?_, hb.ch.of_eq rfl rfl (Nat.le_refl _)⟩
  refine ClInv.of_eq (s := v.updCl cl (fun c => { c with type := .user })) ?_ rfl rfl rfl (Nat.le_refl _) rfl
  exact hb.cl.upd (f := fun c => { c with type := .user }) (fun c hc _ => ⟨rfl, rfl, rfl, hb.cl.hash c hc, .inr ⟨hne, fun _ => by simp⟩⟩)

theorem notBanned_of (h : MayEnter v i (v.cl cl)) : NotBanned v cl := by
  have h1 := mt covers_iff.1 h.gline
  have h2 := mt covers_iff.1 h.kline
  simp only [listsCheck, Option.isSome_iff_ne_none, ne_eq, Decidable.not_not] at h1 h2
  exact ⟨by simpa using h1, by simpa using h2⟩

/-- `Login_User` for a client that may enter. -/
theorem login_told (hb : Base v) (hm : v.cl cl ∈ v.clients) (href : (v.cl cl).ref = cl) (hi : (v.cl cl).conn = some i) (hne : cl ≠ v.this)
    (hok : MayEnter v i (v.cl cl)) (hdm : v.conf.defaultUserModes = []) (haj : ∀ ch ∈ v.conf.channels, ch.autojoin = false) :
    ∃ n m o, loginUser v cl = ({ withEntered v cl (fun c => { c with type := .user }) n m with out := o ++ v.out }, true) ∧
      Welcomed (withEntered v cl (fun c => { c with type := .user }) n m) i { v.cl cl with type := .user } o := by
  obtain ⟨k, hk, -⟩ := conn?_of_mem hb.cl hm hi
  have hkm : k ∈ v.conns := List.mem_of_find?_eq_some hk
  have hki : k.idx = i := by simpa using List.find?_some hk
  have hap : ¬ ((v.conf.authPing && decide (authPingOf v (v.cl cl) ≠ 0)) = true) := by
    intro hx
    simp only [Bool.and_eq_true, decide_eq_true_eq, authPingOf, hi, Option.bind_some, hk] at hx
    exact hx.2 (hok.ping hx.1 k hkm hki)
  have hpw : ¬ (passwordOf v (v.cl cl) ≠ v.conf.serverPwd) := by
    simp only [passwordOf, hi, Option.bind_some, hk]
    exact fun h => h (hok.pwd k hkm hki)
  have hnb := notBanned_of hok
  have hbans : handleServerBans v cl = (v, true) := by
    simp only [handleServerBans]
    rw [hnb.1]
    simp only
    rw [listsCheckReason_none hnb.1]
    have : (masksOf v (v.cl cl)) = masksOf v (v.cl cl) := rfl
    rw [hnb.2]
    simp only
    rw [listsCheckReason_none hnb.2]
  obtain ⟨n, m, hst⟩ := setType_entered v cl
  obtain ⟨T, hT⟩ : ∃ T, T = withEntered v cl (fun c => { c with type := .user }) n m := ⟨_, rfl⟩
  have hbT : Base T := hT ▸ entered_base hb hne n m
  have hc : T.cl cl = { v.cl cl with type := .user } := by
    have := cl_updCl v cl cl (fun c => { c with type := .user }) (fun _ => rfl) (fun _ => by rw [← href, cl?_of_mem hb.cl.ord hm]; rfl)
    rw [if_pos rfl] at this
    rw [hT]; exact this
  have hmT : T.cl cl ∈ T.clients := (mem_of_conn (s := T) (r := cl) (by rw [hc]; show ((v.cl cl).conn).isSome = true; rw [hi]; rfl)).1
  have hciT : (T.cl cl).conn = some i := by rw [hc]; exact hi
  have hl : isLink T i = false := by
    rw [isLink_iff hbT hmT hciT, hc]; rfl
  have hintro : (T.cl cl).introducer = (T.cl cl).ref ∨ (T.cl cl).introducer = T.this := hbT.cl.loc _ hmT (by rw [hciT]; rfl)
  obtain ⟨O, hO⟩ : ∃ O, O = ((peerServers T none none).flatMap (fun to => announceMsgs T to (T.cl T.this) (T.cl cl))).reverse := ⟨_, rfl⟩
  obtain ⟨h1, h2⟩ := intro_out hbT none (T.cl T.this) (T.cl cl)
  rw [← hO] at h1 h2
  have hci : clientIntroduce v none cl .user = { T with out := O ++ T.out } := by
    rw [clientIntroduce, hst, ← hT, hO]
    rfl
  have hw : welcome { T with out := O ++ T.out } (T.cl cl) =
      { T with out := ((welcomeLines T i (T.cl cl)).map (fun m => (⟨i, some (getPrefix T (T.cl cl) (T.cl T.this)), m⟩ : Sent))).reverse ++ O ++ T.out } := by
    refine (welcome_out (t := { T with out := O ++ T.out }) (Base.of_core (s := T) rfl hbT) hintro hciT).trans ?_
    simp only [told, List.append_assoc]
    rfl
  have hpre : getPrefix T (T.cl cl) (T.cl T.this) = shownAs T (T.cl T.this) i := by
    simp only [shownAs, getPrefix, hl, hc]
    rfl
  have hout : T.out = v.out := by rw [hT]; rfl
  have hconf : T.conf = v.conf := by rw [hT]; rfl
  have hrun : loginUser v cl = ({ T with out := ((welcomeLines T i (T.cl cl)).map (fun m => (⟨i, some (shownAs T (T.cl T.this) i), m⟩ : Sent))).reverse ++ O ++ v.out }, true) := by
    simp only [loginUser]
    rw [if_neg hap, if_neg (by rw [hok.caps]; decide), if_neg hpw]
    simp only [loginPostAuth, hbans, hci]
    rw [show Srv.cl { T with out := O ++ T.out } cl = T.cl cl from rfl, hw, hpre]
    simp only [hconf, hdm, List.isEmpty_nil, if_true, hout]
    rw [autojoin_none _ _ _ haj]
  rw [← hc]
  refine ⟨n, m, ((welcomeLines T i (T.cl cl)).map (fun m => (⟨i, some (shownAs T (T.cl T.this) i), m⟩ : Sent))).reverse ++ O, ?_, ?_⟩
  · rw [hrun, ← hT]
  rw [← hT]
  have hO2 : ∀ y ∈ O, isLink T y.conn = true := fun y hy => by
    obtain ⟨d, hd, hty, hj, -⟩ := h2 y hy
    rw [isLink_iff hbT hd hj]; simpa using hty
  refine ⟨fun j d hd hty hj => ?_, ?_, fun y hy => ?_⟩
  · have hji : j ≠ i := by
      intro he
      subst he
      rw [isLink_iff hbT hd hj] at hl
      simp [hty] at hl
    rw [onConn_append]
    have : onConn ((welcomeLines T i (T.cl cl)).map (fun m => (⟨i, some (shownAs T (T.cl T.this) i), m⟩ : Sent))).reverse j = [] := by
      simp only [onConn, List.filter_eq_nil_iff, List.mem_reverse, List.mem_map]
      rintro y ⟨m, -, rfl⟩
      simpa using fun h => hji h.symm
    rw [this, List.nil_append]
    exact h1 j d hd hty hj (by simp)
  · rw [onConn_append]
    have e1 : onConn O i = [] := by
      simp only [onConn, List.filter_eq_nil_iff]
      intro y hy he
      have := hO2 y hy
      rw [show y.conn = i by simpa using he, hl] at this
      cases this
    have e2 : onConn ((welcomeLines T i (T.cl cl)).map (fun m => (⟨i, some (shownAs T (T.cl T.this) i), m⟩ : Sent))).reverse i =
        ((welcomeLines T i (T.cl cl)).map (fun m => (⟨i, some (shownAs T (T.cl T.this) i), m⟩ : Sent))).reverse := by
      simp only [onConn, List.filter_eq_self, List.mem_reverse, List.mem_map]
      rintro y ⟨m, -, rfl⟩
      simp
    rw [e1, e2, List.append_nil, List.reverse_reverse]
  · rcases List.mem_append.1 hy with hy | hy
    · simp only [List.mem_reverse, List.mem_map] at hy
      obtain ⟨m, -, rfl⟩ := hy
      exact .inl rfl
    · exact .inr (hO2 y hy)

/-- The client with user name and real name as sent with `USER`. -/
def Spec.identified (conf : Conf) (user info : Str) (c : Client) : Client :=
  { c with user := if conf.cloakUserToNick then c.id.take 19 else '~' :: (user.takeWhile (· ≠ '@')).take 18,
           info := if conf.cloakUserToNick then c.id.take 127 else if info = [] then "-".toList else info.take 127 }

/-- The client with its nick. -/
def Spec.nicked (conf : Conf) (nick : Str) (c : Client) : Client :=
  { c with id := nick, hash := Hash nick,
           user := if conf.cloakUserToNick then nick.take 19 else c.user, info := if conf.cloakUserToNick then nick.take 127 else c.info }

theorem covers_plain (hx : c.modes = []) (l : MaskList) (t u : Srv) : Covers t l c ↔ Covers u l c := by
  simp only [Covers, maskCloaked, Client.hasMode, hx]
  rfl

theorem login_step (hb : Base s) (hr : Received s i l cl req) (rnd : Int) {S : Srv} {g : Client → Client}
    (hS : ∀ r, S.cl r = s.cl r) (hcl : S.clients = s.clients) (hth : S.this = s.this) (hcf : S.conf = s.conf)
    (hg : ∀ c, (g c).ref = c.ref ∧ (g c).conn = c.conn ∧ (g c).modes = c.modes) (hmo : (s.cl cl).modes = [])
    (hv : Base (withClient (S.roll rnd) cl g))
    (hok : MayEnter S i (g (s.cl cl))) (hdm : s.conf.defaultUserModes = []) (haj : ∀ ch ∈ s.conf.channels, ch.autojoin = false) :
    ∃ n m o, loginUser (withClient (S.roll rnd) cl g) cl =
        ({ withEntered S cl (fun c => { g c with type := .user }) n m with out := o ++ S.out, rnd := rnd }, true) ∧
      Welcomed (withEntered S cl (fun c => { g c with type := .user }) n m) i { g (s.cl cl) with type := .user } o := by
  obtain ⟨g1, g2, g3, g4⟩ := hr.owner hb
  have hc : (withClient (S.roll rnd) cl g).cl cl = g (s.cl cl) := by
    have hs : ∀ r, (S.cl? r).isSome = (s.cl? r).isSome := fun r => by rw [Srv.cl?, Srv.cl?, hcl]
    have := cl_updCl (S.roll rnd) cl cl g (fun c => (hg c).1) (fun _ => (by
      show (S.cl? cl).isSome = true
      rw [hs]
      have := cl?_of_mem hb.cl.ord g1
      rw [g2] at this
      rw [this]; rfl))
    rw [if_pos rfl, roll_cl, hS] at this
    exact this
  have hm : (withClient (S.roll rnd) cl g).cl cl ∈ (withClient (S.roll rnd) cl g).clients :=
    (mem_of_conn (r := cl) (by rw [hc, (hg _).2.1, g3]; rfl)).1
  obtain ⟨n, m, o, h1, h2⟩ := login_told hv hm (by rw [hc, (hg _).1, g2]) (by rw [hc, (hg _).2.1, g3]) (i := i)
    (by show cl ≠ S.this; rw [hth]; exact g4)
    (by
      rw [hc]
      have hx : (g (s.cl cl)).modes = [] := (hg _).2.2.trans hmo
      exact ⟨hok.ping, hok.caps, hok.pwd, fun hq => hok.gline ((covers_plain hx _ _ _).1 hq), fun hq => hok.kline ((covers_plain hx _ _ _).1 hq)⟩) (by show S.conf.defaultUserModes = []; rw [hcf]; exact hdm)
    (by show ∀ ch ∈ S.conf.channels, ch.autojoin = false; rw [hcf]; exact haj)
  have e : withEntered (withClient (S.roll rnd) cl g) cl (fun c => { c with type := .user }) n m =
      { withEntered S cl (fun c => { g c with type := .user }) n m with rnd := rnd } := by
    simp only [withEntered, withClient, List.map_map, Srv.roll]
    congr 1
    refine List.map_congr_left (fun d _ => ?_)
    simp only [Function.comp]
    by_cases h : d.ref = cl
    · rw [if_pos h, if_pos (by rw [(hg _).1]; exact h), if_pos h]
    · rw [if_neg h, if_neg h, if_neg h]
  rw [e, hc] at h2
  rw [e] at h1
  exact ⟨n, m, o, h1, ⟨h2.links, h2.own, h2.others⟩⟩

theorem withClient_base (hb : Base s) {g : Client → Client} (hg : KeepsCl g) (r : Nat) : Base (withClient s r g) :=
  ⟨hb.cl.keeps (r := r) hg, hb.ch.of_eq rfl rfl (Nat.le_refl _)⟩

/-- **C69** A client that has got its nick sends `USER`: if nothing stands against it, it is a user now, every linked server has got its
introduction, the client has got the welcome, and nothing else has happened. -/
theorem C69_user (h : Reachable s) (hr : Received s i l cl req) (hs : (s.cl cl).type = .gotNick) (hmo : (s.cl cl).modes = []) (his : Is req "USER")
    {user mode unused info : Str} (hargs : req.argv = [user, mode, unused, info])
    (hu : ∀ ch ∈ user, ch.isAlphanum = true ∨ ch ∈ ['+', '-', '@', '.', '_'])
    (hok : MayEnter s i (identified s.conf user info (s.cl cl))) (hdm : s.conf.defaultUserModes = [])
    (haj : ∀ ch ∈ s.conf.channels, ch.autojoin = false) (rnd : Int) :
    ∃ n m o, Emitted (withEntered s cl (fun c => { identified s.conf user info c with type := .user }) n m) (step s (.line i rnd l)) o ∧
      Welcomed (withEntered s cl (fun c => { identified s.conf user info c with type := .user }) n m) i
        { identified s.conf user info (s.cl cl) with type := .user } o := by
  have hb := h.base
  have hst : step s (.line i rnd l) = (ircUSER (s.roll rnd) cl req).1 :=
    step_do hr rnd his rfl (by rw [hs]; rfl) (by simp only [Command.argcOk, Request.argc, hargs]; rfl)
  have hall : (!(user.all isUserChar)) = false := by
    simp only [Bool.not_eq_false', List.all_eq_true]
    intro ch hch
    rcases hu ch hch with h | h
    · simp [isUserChar, h]
    · simp only [isUserChar, Bool.or_eq_true]
      exact .inr (by simpa using h)
  have hrun : (ircUSER (s.roll rnd) cl req).1 = (loginUser (withClient (s.roll rnd) cl (identified s.conf user info)) cl).1 := by
    simp only [ircUSER]
    rw [roll_cl, hs]
    rw [if_pos (by decide), if_neg (by simp only [Request.argc, hargs]; simp)]
    simp only [Request.arg, hargs, List.getD_cons_zero, List.getD_cons_succ, hall, Bool.false_eq_true, if_false]
    rw [if_pos trivial]
    congr 2
    simp only [clientSetInfo, clientSetUser, Srv.updCl, List.map_map, withClient]
    congr 1
    refine List.map_congr_left (fun d _ => ?_)
    simp only [Function.comp]
    have e1 : ∀ c : Client, (setUserC (s.roll rnd).conf c (cutAt user '@') false).ref = c.ref := by
      intro c; simp only [setUserC]; split <;> rfl
    by_cases hd : d.ref = cl
    · rw [if_pos hd, if_pos (by rw [e1]; exact hd), if_pos hd]
      have e2 : cutAt user '@' = user.takeWhile (· ≠ '@') := by
        simp only [cutAt]
        congr 1
        funext x
        by_cases hx : x = '@' <;> simp [hx]
      simp only [setInfoC, setUserC, identified, e2]
      rw [roll_conf]
      cases s.conf.cloakUserToNick <;> cases info <;>
        simp [strlcpy, CLIENT_USER_LEN, CLIENT_INFO_LEN]
    · simp only [if_neg hd]
  obtain ⟨n, m, o, h1, h2⟩ := login_step hb hr rnd (S := s) (g := identified s.conf user info) (fun _ => rfl) rfl rfl rfl (fun _ => ⟨rfl, rfl, rfl⟩) hmo
    (withClient_base (s := s.roll rnd) (g := identified s.conf user info) (Base.of_core (s := s) rfl hb) (fun _ => ⟨rfl, rfl, rfl, rfl, rfl, rfl, rfl, rfl⟩) cl) hok hdm haj
  exact ⟨n, m, o, ⟨rnd, by rw [hst, hrun, h1]; rfl⟩, h2⟩

/-- **C69** The same for a client that sends `NICK` last, with a valid nick that is free and not reserved for services. -/
theorem C69_nick (h : PoliteRun s) (hr : Received s i l cl req) (hs : (s.cl cl).type = .gotUser) (his : Is req "NICK")
    {nick : Str} (hargs : req.argv = [nick]) (hid : (s.cl cl).id = []) (hmo : (s.cl cl).modes = [])
    (hn : ValidNick s.conf.maxNickLength nick) (hres : ¬ Reserved s nick) (hfree : FreeName s nick) (hap : s.conf.authPing = false)
    (hok : MayEnter s i (nicked s.conf nick (s.cl cl))) (hdm : s.conf.defaultUserModes = [])
    (haj : ∀ ch ∈ s.conf.channels, ch.autojoin = false) (rnd : Int) :
    ∃ n m o, Emitted (withEntered s cl (fun c => { nicked s.conf nick c with type := .user }) n m) (step s (.line i rnd l)) o ∧
      Welcomed (withEntered s cl (fun c => { nicked s.conf nick c with type := .user }) n m) i
        { nicked s.conf nick (s.cl cl) with type := .user } o := by
  have hb := h.reachable.base
  obtain ⟨g1, g2, g3, g4⟩ := hr.owner hb
  have hni := polite_name h
  have hst : step s (.line i rnd l) = (ircNICK (s.roll rnd) cl req).1 :=
    step_do hr rnd his rfl (by rw [hs]; rfl) (by simp only [Command.argcOk, Request.argc, hargs]; rfl)
  have hv : isValidNick s.conf.maxNickLength nick = true := (isValidNick_iff _ _).2 hn
  have hgood := isValidNick_good hni.nick.1 hv
  have hcopy : strlcpy CLIENT_ID_LEN nick = nick := good_copy hgood
  have hID : (s.cl cl).ID = ['*'] := by
    simp only [Client.ID, hid]; rfl
  have hstar : nick ≠ ['*'] := by
    rintro rfl
    have := hn.chars '*' (by simp)
    revert this
    unfold NickChar
    decide
  have hset : clientSetID (s.roll rnd) cl nick = withClient (s.roll rnd) cl (nicked s.conf nick) := by
    simp only [clientSetID, Srv.updCl, withClient]
    congr 1
    refine List.map_congr_left (fun d _ => ?_)
    by_cases hd : d.ref = cl
    · rw [if_pos hd, if_pos hd]
      simp only [setIdC, nicked, hcopy]
      rw [roll_conf]
      cases s.conf.cloakUserToNick <;> simp [strlcpy, CLIENT_USER_LEN, CLIENT_INFO_LEN]
    · simp only [if_neg hd]
  have hcl' : (withClient (s.roll rnd) cl (nicked s.conf nick)).cl cl = nicked s.conf nick (s.cl cl) := by
    have := cl_updCl (s.roll rnd) cl cl (nicked s.conf nick) (fun _ => rfl) (fun _ => (by
      have := cl?_of_mem hb.cl.ord g1
      rw [g2] at this
      show (s.cl? cl).isSome = true
      rw [this]; rfl))
    rw [if_pos rfl] at this
    exact this
  have hrun : (ircNICK (s.roll rnd) cl req).1 = (loginUser (withClient (s.roll rnd) cl (nicked s.conf nick)) cl).1 := by
    simp only [ircNICK]
    rw [roll_cl, hs]
    rw [if_pos (by decide), if_neg (by simp only [Request.argc, hargs]; simp)]
    rw [if_neg (by simp [Client.hasMode, hasChar, hmo])]
    simp only [Request.arg, hargs, List.getD_cons_zero, nickTarget, roll_cl, hID]
    rw [if_neg (fun e => hstar e.symm)]
    have hsr : clientSearch s nick = none := free_search h hfree
    have hchk : clientCheckNick (s.roll rnd) (s.cl cl) nick = (s.roll rnd, true) := by
      simp only [clientCheckNick]
      rw [roll_conf, roll_search, hv, hsr]
      have hbl : nickIsBlocked (s.roll rnd) nick = false := by
        cases hq : nickIsBlocked (s.roll rnd) nick with
        | false => rfl
        | true => exact absurd (by simpa only [nickIsBlocked, List.any_eq_true, Reserved, roll_conf] using hq) hres
      rw [hbl]
      simp
    rw [hchk]
    simp only [ite_self, hs]
    rw [if_pos (by decide)]
    simp only [nickNew, hset]
    rw [show (withClient (s.roll rnd) cl (nicked s.conf nick)).conf.authPing = false from hap]
    simp only [Bool.false_eq_true, if_false]
    rw [hcl', if_pos (show (nicked s.conf nick (s.cl cl)).type = .gotUser from hs)]
  obtain ⟨n, m, o, h1, h2⟩ := login_step hb hr rnd (S := s) (g := nicked s.conf nick) (fun _ => rfl) rfl rfl rfl (fun _ => ⟨rfl, rfl, rfl⟩) hmo
    (⟨(Base.of_core (s := s) (t := s.roll rnd) rfl hb).cl.upd (r := cl) (f := nicked s.conf nick) (fun c hc _ => ⟨rfl, rfl, rfl, .inl rfl, .inl rfl⟩),
      hb.ch.of_eq rfl rfl (Nat.le_refl _)⟩) hok hdm haj
  exact ⟨n, m, o, ⟨rnd, by rw [hst, hrun, h1]; rfl⟩, h2⟩

/-- **C69** The same for a client that ends the capability negotiation it had to finish. -/
theorem C69_cap (h : Reachable s) (hr : Received s i l cl req) (hs : (s.cl cl).type = .waitCapEnd) (hmo : (s.cl cl).modes = [])
    (his : Is req "CAP") {a : Str} (hargs : req.argv = [a]) (ha : SameCase a "END".toList)
    (hok : MayEnter s i { s.cl cl with caps := { (s.cl cl).caps with pending := false } }) (hdm : s.conf.defaultUserModes = [])
    (haj : ∀ ch ∈ s.conf.channels, ch.autojoin = false) (rnd : Int) :
    ∃ n m o, Emitted (withEntered s cl (fun c => { c with caps := { c.caps with pending := false }, type := .user }) n m) (step s (.line i rnd l)) o ∧
      Welcomed (withEntered s cl (fun c => { c with caps := { c.caps with pending := false }, type := .user }) n m) i
        { s.cl cl with caps := { (s.cl cl).caps with pending := false }, type := .user } o := by
  have hb := h.base
  obtain ⟨g1, g2, g3, g4⟩ := hr.owner hb
  have hst : step s (.line i rnd l) = (ircCAP (s.roll rnd) cl req).1 :=
    step_do hr rnd his rfl (by rw [hs]; rfl) (by simp only [Command.argcOk, Request.argc, hargs]; rfl)
  have hcl' : (withClient (s.roll rnd) cl (fun c => { c with caps := { c.caps with pending := false } })).cl cl =
      { s.cl cl with caps := { (s.cl cl).caps with pending := false } } := by
    have := cl_updCl (s.roll rnd) cl cl (fun c => { c with caps := { c.caps with pending := false } }) (fun _ => rfl) (fun _ => (by
      have := cl?_of_mem hb.cl.ord g1
      rw [g2] at this
      show (s.cl? cl).isSome = true
      rw [this]; rfl))
    rw [if_pos rfl] at this
    exact this
  have hnc : caseEq a "CLEAR".toList = false := by
    cases hq : caseEq a "CLEAR".toList with
    | false => rfl
    | true => exact absurd ((caseEq_same _ _).2 (((caseEq_same _ _).1 hq).symm.trans ha)) (by decide)
  have hend : caseEq a "END".toList = true := (caseEq_same _ _).2 ha
  have hrun : (ircCAP (s.roll rnd) cl req).1 =
      (loginUser (withClient (s.roll rnd) cl (fun c => { c with caps := { c.caps with pending := false } })) cl).1 := by
    simp only [ircCAP, Request.arg, hargs, List.getD_cons_zero, hnc, hend]
    rw [if_neg (by simp), if_pos (by simp only [Request.argc, hargs]; rfl)]
    simp only [capEND]
    rw [roll_cl, hs, if_pos (by decide)]
    have e : (s.roll rnd).updCl cl (fun c => { c with caps := { c.caps with pending := false } }) =
      withClient (s.roll rnd) cl (fun c => { c with caps := { c.caps with pending := false } }) := rfl
    rw [e, hcl', if_pos (show ({ s.cl cl with caps := { (s.cl cl).caps with pending := false } } : Client).type = .waitCapEnd from hs)]
  obtain ⟨n, m, o, h1, h2⟩ := login_step hb hr rnd (S := s) (g := fun c => { c with caps := { c.caps with pending := false } }) (fun _ => rfl) rfl rfl rfl
    (fun _ => ⟨rfl, rfl, rfl⟩) hmo (withClient_base (s := s.roll rnd) (g := fun c => { c with caps := { c.caps with pending := false } })
      (Base.of_core (s := s) rfl hb) (fun _ => ⟨rfl, rfl, rfl, rfl, rfl, rfl, rfl, rfl⟩) cl) hok hdm haj
  exact ⟨n, m, o, ⟨rnd, by rw [hst, hrun, h1]; rfl⟩, h2⟩

/-- The PING of connection `i` has been answered. -/
def Spec.ponged (s : Srv) (i : Nat) : Srv := { s with conns := s.conns.map (fun k => if k.idx = i then { k with authPing := 0 } else k) }

theorem ponged_base (hb : Base s) (hi : (s.cl cl).conn = some i) {a : Str} (hp : authPingOf s (s.cl cl) = atoi a) : Base (ponged s i) :=
  hb.act (x := { cl := cl, cmd := "PONG".toList, argv := [a] }) (a := .conn i (fun k => { k with authPing := 0 }))
    ⟨fun _ => ⟨rfl, rfl, rfl⟩, .inl (fun _ => rfl), .inl (fun _ => ⟨rfl, rfl⟩), .inr ⟨hi, .inr ⟨by unfold Ctx.is; show caseEq "PONG".toList "PONG".toList = true; decide, hp, fun _ => rfl⟩⟩⟩

/-- **C69** The same for a client that answers the PING it had to answer. -/
theorem C69_pong (h : Reachable s) (hr : Received s i l cl req) (hs : (s.cl cl).type = .waitAuthPing) (hmo : (s.cl cl).modes = [])
    (his : Is req "PONG") {a : Str} (hargs : req.argv = [a]) {k : Conn} (hk : k ∈ s.conns) (hki : k.idx = i) (hkp : k.authPing = atoi a) (hnz : atoi a ≠ 0)
    (hok : MayEnter (ponged s i) i (s.cl cl)) (hdm : s.conf.defaultUserModes = [])
    (haj : ∀ ch ∈ s.conf.channels, ch.autojoin = false) (rnd : Int) :
    ∃ n m o, Emitted (withEntered (ponged s i) cl (fun c => { c with type := .user }) n m) (step s (.line i rnd l)) o ∧
      Welcomed (withEntered (ponged s i) cl (fun c => { c with type := .user }) n m) i { s.cl cl with type := .user } o := by
  have hb := h.base
  obtain ⟨g1, g2, g3, g4⟩ := hr.owner hb
  have hst : step s (.line i rnd l) = (ircPONG (s.roll rnd) cl req).1 :=
    step_do hr rnd his rfl (by rw [hs]; rfl) (by simp only [Command.argcOk, Request.argc, hargs]; rfl)
  have hself : withClient ((ponged s i).roll rnd) cl (fun c => c) = (ponged s i).roll rnd := by
    simp only [withClient, ite_self, List.map_id']
  have hping : authPingOf (s.roll rnd) (s.cl cl) = atoi a := by
    obtain ⟨k', hk', -⟩ := conn?_of_mem hb.cl g1 g3
    have e1 := List.mem_of_find?_eq_some hk'
    have e2 : k'.idx = i := by simpa using List.find?_some hk'
    rw [conn_eq_of_idx hb e1 hk (e2.trans hki.symm)] at hk'
    simp only [authPingOf, g3, Option.bind_some]
    rw [show (s.roll rnd).conn? i = some k from hk']
    exact hkp
  obtain ⟨n, m, o, h1, h2⟩ := login_step hb hr rnd (S := ponged s i) (g := fun c => c) (fun _ => rfl) rfl rfl rfl
    (fun _ => ⟨rfl, rfl, rfl⟩) hmo (by rw [hself]; exact Base.of_core (s := ponged s i) rfl (ponged_base hb g3 hping)) hok hdm haj
  rw [hself] at h1
  have hrun : (ircPONG (s.roll rnd) cl req).1 = (loginUser ((ponged s i).roll rnd) cl).1 := by
    simp only [ircPONG, Request.argc, Request.arg, hargs, List.length_cons, List.length_nil, List.getD_cons_zero]
    rw [if_neg (by decide), if_neg (by simp), if_neg (by simp)]
    simp only [pongAuth, Request.arg, hargs, List.getD_cons_zero, roll_cl]
    rw [hping, if_neg hnz, if_pos rfl]
    have e : updConnOf (s.roll rnd) (s.cl cl) (fun k => { k with authPing := 0 }) = (ponged s i).roll rnd := by
      simp only [updConnOf, g3]; rfl
    rw [e]
    refine (if_pos hs).trans ?_
    rw [h1]
  exact ⟨n, m, o, ⟨rnd, by rw [hst, hrun, h1]; rfl⟩, h2⟩

/-- Covering is decidable. -/
instance (s : Srv) (l : MaskList) (c : Client) : Decidable (Covers s l c) := inferInstanceAs (Decidable (∃ _ ∈ _, _))

/-- A newcomer at a server with two links. -/
def Sample.netNew : Srv := step Sample.net (.accept 9 "1.2.3.9".toList "1.2.3.9".toList false)

theorem Sample.fine_netNew : FineRun Sample.netNew := Sample.fine_step Sample.fine_net _ (by decide +kernel)

/-- The newcomer has sent its nick. -/
def Sample.netNick : Srv := Sample.lines Sample.netNew 9 ["NICK carol"]

theorem Sample.polite_netNick : PoliteRun Sample.netNick :=
  (Sample.fine_lines Sample.fine_netNew 9 ["NICK carol"] (by decide +kernel)).mono (fun _ h => h.1) (fun _ _ h => h.1)

instance (s : Srv) (i : Nat) (c : Client) : Decidable (MayEnter s i c) :=
  decidable_of_iff ((s.conf.authPing = true → ∀ k ∈ s.conns, k.idx = i → k.authPing = 0) ∧ c.caps.pending = false ∧
      (∀ k ∈ s.conns, k.idx = i → k.pwd = s.conf.serverPwd) ∧ ¬ Covers s s.glines c ∧ ¬ Covers s s.klines c)
    ⟨fun ⟨a, b, c, d, e⟩ => ⟨a, b, c, d, e⟩, fun ⟨a, b, c, d, e⟩ => ⟨a, b, c, d, e⟩⟩

theorem Sample.netNick_facts : recv Sample.netNick 9 "USER carol 0 * :Carol C".toList =
      some (11, ⟨none, "USER".toList, ["carol".toList, "0".toList, "*".toList, "Carol C".toList]⟩) ∧
    (Sample.netNick.cl 11).type = .gotNick ∧ (Sample.netNick.cl 11).modes = [] ∧
    MayEnter Sample.netNick 9 (identified Sample.netNick.conf "carol".toList "Carol C".toList (Sample.netNick.cl 11)) ∧
    Sample.netNick.conf.defaultUserModes = [] ∧ (∀ ch ∈ Sample.netNick.conf.channels, ch.autojoin = false) ∧
    isLink Sample.netNick 7 = true ∧ isLink Sample.netNick 8 = true := by decide +kernel

/-- It sends the rest; there are two links, which get the introduction. -/
example : ∃ req, Reachable Sample.netNick ∧ Received Sample.netNick 9 "USER carol 0 * :Carol C".toList 11 req ∧
    (Sample.netNick.cl 11).type = .gotNick ∧ (Sample.netNick.cl 11).modes = [] ∧ Is req "USER" ∧
    req.argv = ["carol".toList, "0".toList, "*".toList, "Carol C".toList] ∧
    (∀ ch ∈ "carol".toList, ch.isAlphanum = true ∨ ch ∈ ['+', '-', '@', '.', '_']) ∧
    MayEnter Sample.netNick 9 (identified Sample.netNick.conf "carol".toList "Carol C".toList (Sample.netNick.cl 11)) ∧
    Sample.netNick.conf.defaultUserModes = [] ∧ (∀ ch ∈ Sample.netNick.conf.channels, ch.autojoin = false) ∧
    isLink Sample.netNick 7 = true ∧ isLink Sample.netNick 8 = true := by
  obtain ⟨h1, h2, h3, h4, h5, h6, h7, h8⟩ := Sample.netNick_facts
  exact ⟨_, Sample.polite_netNick.reachable, recv_sound h1, h2, h3, by simp only [Is]; decide, rfl, by decide, h4, h5, h6, h7, h8⟩

/-- The newcomer has sent the rest, but not its nick. -/
def Sample.netUser : Srv := Sample.lines Sample.netNew 9 ["USER carol 0 * :Carol C"]

theorem Sample.polite_netUser : PoliteRun Sample.netUser :=
  (Sample.fine_lines Sample.fine_netNew 9 ["USER carol 0 * :Carol C"] (by decide +kernel)).mono (fun _ h => h.1) (fun _ _ h => h.1)

theorem Sample.netUser_facts : recv Sample.netUser 9 "NICK carol".toList = some (11, ⟨none, "NICK".toList, ["carol".toList]⟩) ∧
    (Sample.netUser.cl 11).type = .gotUser ∧ (Sample.netUser.cl 11).id = [] ∧ (Sample.netUser.cl 11).modes = [] ∧
    isValidNick Sample.netUser.conf.maxNickLength "carol".toList = true ∧
    ¬ (∃ cs ∈ Sample.netUser.conf.servers, matchCaseInsensitiveList cs.svsMask "carol".toList [','] = true) ∧
    (∀ c ∈ Sample.netUser.clients, caseEq c.id (nickPart "carol".toList) = false) ∧
    Sample.netUser.conf.authPing = false ∧ MayEnter Sample.netUser 9 (nicked Sample.netUser.conf "carol".toList (Sample.netUser.cl 11)) ∧
    Sample.netUser.conf.defaultUserModes = [] ∧ (∀ ch ∈ Sample.netUser.conf.channels, ch.autojoin = false) := by decide +kernel

example : ∃ req, PoliteRun Sample.netUser ∧ Received Sample.netUser 9 "NICK carol".toList 11 req ∧
    (Sample.netUser.cl 11).type = .gotUser ∧ Is req "NICK" ∧ req.argv = ["carol".toList] ∧ (Sample.netUser.cl 11).id = [] ∧ (Sample.netUser.cl 11).modes = [] ∧
    ValidNick Sample.netUser.conf.maxNickLength "carol".toList ∧ ¬ Reserved Sample.netUser "carol".toList ∧ FreeName Sample.netUser "carol".toList ∧
    Sample.netUser.conf.authPing = false ∧ MayEnter Sample.netUser 9 (nicked Sample.netUser.conf "carol".toList (Sample.netUser.cl 11)) ∧
    Sample.netUser.conf.defaultUserModes = [] ∧ (∀ ch ∈ Sample.netUser.conf.channels, ch.autojoin = false) := by
  obtain ⟨h1, h2, h3, h4, h5, h6, h7, h8, h9, h10, h11⟩ := Sample.netUser_facts
  exact ⟨_, Sample.polite_netUser, recv_sound h1, h2, by simp only [Is]; decide, rfl, h3, h4, (C14_nick_check _ _).1 h5, h6, freeName_of h7, h8, h9, h10, h11⟩

/-- The newcomer negotiates capabilities. -/
def Sample.netCap : Srv := Sample.lines Sample.netNew 9 ["CAP LS", "NICK carol", "USER carol 0 * :Carol C"]

theorem Sample.polite_netCap : PoliteRun Sample.netCap :=
  (Sample.fine_lines Sample.fine_netNew 9 ["CAP LS", "NICK carol", "USER carol 0 * :Carol C"] (by decide +kernel)).mono (fun _ h => h.1) (fun _ _ h => h.1)

theorem Sample.netCap_facts : recv Sample.netCap 9 "CAP END".toList = some (11, ⟨none, "CAP".toList, ["END".toList]⟩) ∧
    (Sample.netCap.cl 11).type = .waitCapEnd ∧ (Sample.netCap.cl 11).modes = [] ∧
    MayEnter Sample.netCap 9 { Sample.netCap.cl 11 with caps := { (Sample.netCap.cl 11).caps with pending := false } } ∧
    Sample.netCap.conf.defaultUserModes = [] ∧ (∀ ch ∈ Sample.netCap.conf.channels, ch.autojoin = false) := by decide +kernel

example : ∃ req, Reachable Sample.netCap ∧ Received Sample.netCap 9 "CAP END".toList 11 req ∧
    (Sample.netCap.cl 11).type = .waitCapEnd ∧ (Sample.netCap.cl 11).modes = [] ∧ Is req "CAP" ∧ req.argv = ["END".toList] ∧
    MayEnter Sample.netCap 9 { Sample.netCap.cl 11 with caps := { (Sample.netCap.cl 11).caps with pending := false } } ∧
    Sample.netCap.conf.defaultUserModes = [] ∧ (∀ ch ∈ Sample.netCap.conf.channels, ch.autojoin = false) := by
  obtain ⟨h1, h2, h3, h4, h5, h6⟩ := Sample.netCap_facts
  exact ⟨_, Sample.polite_netCap.reachable, recv_sound h1, h2, h3, by simp only [Is]; decide, rfl, h4, h5, h6⟩

/-- A server that wants an answer to its PING. -/
def Sample.pingSrv : Srv := (Sample.runH [] (Srv.init Sample.strictConf "host".toList 1000)
  [.accept 5 "1.2.3.4".toList "1.2.3.4".toList false, Sample.say "PASS pw", Sample.say "NICK alice", Sample.say "USER alice 0 * :Alice A"]).2

theorem Sample.polite_ping : PoliteRun Sample.pingSrv :=
  (Sample.runH_history (.start _ _ _ (by decide +kernel)) _ (by decide +kernel)).polite

example : ∃ req k, Reachable Sample.pingSrv ∧ Received Sample.pingSrv 5 "PONG 7".toList 3 req ∧
    (Sample.pingSrv.cl 3).type = .waitAuthPing ∧ (Sample.pingSrv.cl 3).modes = [] ∧ Is req "PONG" ∧ req.argv = ["7".toList] ∧
    k ∈ Sample.pingSrv.conns ∧ k.idx = 5 ∧ k.authPing = atoi "7".toList ∧ atoi "7".toList ≠ 0 ∧
    MayEnter (ponged Sample.pingSrv 5) 5 (Sample.pingSrv.cl 3) ∧
    Sample.pingSrv.conf.defaultUserModes = [] ∧ (∀ ch ∈ Sample.pingSrv.conf.channels, ch.autojoin = false) :=
  ⟨⟨none, "PONG".toList, ["7".toList]⟩, Sample.pingSrv.conns.head (by decide +kernel), Sample.polite_ping.reachable,
    recv_sound (by decide +kernel), by decide +kernel, by decide +kernel, by simp only [Is]; decide, rfl,
    by decide +kernel, by decide +kernel, by decide +kernel, by decide +kernel,
    ⟨by decide +kernel, by decide +kernel, by decide +kernel, by decide +kernel, by decide +kernel⟩, by decide +kernel, by decide +kernel⟩

end Ngircd
