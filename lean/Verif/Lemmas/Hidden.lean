import Verif.Spec.Channels
import Verif.Lemmas.Query
import Verif.Lemmas.Join
import Verif.Props.Registry

/-!
# Queries and secret channels

The answers to queries are the same whether a secret channel exists or not.
-/

set_option linter.unusedSimpArgs false
set_option linter.unusedSectionVars false

namespace Ngircd
open Spec

variable {s t u : Srv} {cl ch : Nat}

@[simp] theorem w_cl (r : Nat) : (without s ch).cl r = s.cl r := rfl
@[simp] theorem w_cl? (r : Nat) : (without s ch).cl? r = s.cl? r := rfl
@[simp] theorem w_conf : (without s ch).conf = s.conf := rfl
@[simp] theorem w_this : (without s ch).this = s.this := rfl
@[simp] theorem w_clients : (without s ch).clients = s.clients := rfl
@[simp] theorem w_conns : (without s ch).conns = s.conns := rfl
@[simp] theorem w_whowas : (without s ch).whowas = s.whowas := rfl
@[simp] theorem w_lastWhowas : (without s ch).lastWhowas = s.lastWhowas := rfl
@[simp] theorem w_glines : (without s ch).glines = s.glines := rfl
@[simp] theorem w_klines : (without s ch).klines = s.klines := rfl
@[simp] theorem w_maxUsers : (without s ch).maxUsers = s.maxUsers := rfl
@[simp] theorem w_myMaxUsers : (without s ch).myMaxUsers = s.myMaxUsers := rfl
@[simp] theorem w_search (n : Str) : clientSearch (without s ch) n = clientSearch s n := rfl
@[simp] theorem w_searchServer (n : Str) : clientSearchServer (without s ch) n = clientSearchServer s n := rfl
@[simp] theorem w_host (c : Client) : displayedHost (without s ch) c = displayedHost s c := rfl
@[simp] theorem w_mask (c : Client) : maskCloaked (without s ch) c = maskCloaked s c := rfl
@[simp] theorem w_ssl (c : Client) : usesSSL (without s ch) c = usesSSL s c := rfl
@[simp] theorem w_crash : (without s ch).crash = without s.crash ch := rfl
@[simp] theorem w_roll (r : Int) : (without s ch).roll r = without (s.roll r) ch := rfl

theorem w_hopF (n : Nat) (c : Client) : nextHopF n (without s ch) c = nextHopF n s c := by
  induction n generalizing c with
  | zero => rfl
  | succ n ih => simp only [nextHopF, ih, w_this, w_cl]

@[simp] theorem w_hop (c : Client) : nextHop (without s ch) c = nextHop s c := w_hopF _ _

@[simp] theorem w_writePrefix (c p : Client) (m : Msg) :
    writePrefix (without s ch) c p m = without (writePrefix s c p m) ch := by
  have : lineTo (without s ch) c p m = lineTo s c p m := by
    simp only [lineTo, w_hop]; rfl
  simp only [writePrefix, this]
  rfl

@[simp] theorem w_write (c : Client) (m : Msg) : write (without s ch) c m = without (write s c m) ch :=
  w_writePrefix ..

@[simp] theorem w_writeErr (c : Client) (m : Msg) : writeErr (without s ch) c m = without (writeErr s c m) ch :=
  w_writePrefix ..

theorem w_ite {c : Prop} [Decidable c] (a b : Srv) :
    (if c then without a ch else without b ch) = without (if c then a else b) ch := by
  split <;> rfl

theorem w_foldl {α : Type} {f : Srv → α → Srv} {l : List α} (P : Srv → Prop)
    (hP : ∀ s x, x ∈ l → P s → P (f s x)) (hf : ∀ s x, x ∈ l → P s → f (without s ch) x = without (f s x) ch)
    (hs : P s) : l.foldl f (without s ch) = without (l.foldl f s) ch := by
  induction l generalizing s with
  | nil => rfl
  | cons a l ih =>
    simp only [List.foldl_cons]
    rw [hf s a (List.mem_cons_self ..) hs]
    exact ih (fun s x hx => hP s x (List.mem_cons_of_mem _ hx)) (fun s x hx => hf s x (List.mem_cons_of_mem _ hx))
      (hP s a (List.mem_cons_self ..) hs)

theorem w_foldl' {α : Type} {f : Srv → α → Srv} {l : List α}
    (hf : ∀ s x, x ∈ l → f (without s ch) x = without (f s x) ch) :
    l.foldl f (without s ch) = without (l.foldl f s) ch :=
  w_foldl (fun _ => True) (fun _ _ _ _ => trivial) (fun s x hx _ => hf s x hx) trivial

theorem w_getCl2 {c r : Nat} (h : c ≠ ch) : getCl2Chan (without s ch) c r = getCl2Chan s c r := by
  simp only [getCl2Chan, without]
  induction s.cl2 with
  | nil => rfl
  | cons m l ih =>
    by_cases hm : m.chan = ch
    · rw [List.filter_cons_of_neg (by simp [hm]), ih, List.find?_cons_of_neg]
      simp [hm, Ne.symm h]
    · rw [List.filter_cons_of_pos (by simp [hm])]
      simp only [List.find?_cons, ih]

theorem w_member {c r : Nat} (h : c ≠ ch) : isMemberOf (without s ch) c r = isMemberOf s c r := by
  simp only [isMemberOf, w_getCl2 h]

theorem w_modes {c r : Nat} (h : c ≠ ch) : userModes (without s ch) c r = userModes s c r := by
  simp only [userModes, w_getCl2 h]

theorem w_filter {c : Nat} (h : c ≠ ch) :
    (without s ch).cl2.filter (fun m => m.chan == c) = s.cl2.filter (fun m => m.chan == c) := by
  simp only [without, List.filter_filter]
  refine List.filter_congr fun m _ => ?_
  by_cases hm : m.chan = c
  · simp [hm, h]
  · simp [hm]

theorem w_membersOf {c : Nat} (h : c ≠ ch) : membersOf (without s ch) c = membersOf s c := by
  simp only [membersOf, w_filter h]

theorem w_memberCount {c : Nat} (h : c ≠ ch) : memberCount (without s ch) c = memberCount s c := by
  simp only [memberCount, w_filter h]

theorem w_channelsOf (r : Nat) : channelsOf (without s ch) r = (channelsOf s r).filter (fun c => decide (c ≠ ch)) := by
  simp only [channelsOf, without, List.filter_filter, List.filter_map]
  congr 1
  refine List.filter_congr fun m _ => ?_
  simp [Function.comp, Bool.and_comm]

theorem w_chan {r : Nat} (h : r ≠ ch) : (without s ch).chan r = s.chan r := by
  have : (without s ch).chan? r = s.chan? r := by
    simp only [Srv.chan?, without]
    induction s.chans with
    | nil => rfl
    | cons c l ih =>
      by_cases hm : c.ref = ch
      · rw [List.filter_cons_of_neg (by simp [hm]), ih, List.find?_cons_of_neg]
        simp [hm, Ne.symm h]
      · rw [List.filter_cons_of_pos (by simp [hm])]
        simp only [List.find?_cons, ih]
  simp only [Srv.chan, this]

/-- The channel `ch` is secret, and `cl` is not on it. -/
structure Hid (cl ch : Nat) (s : Srv) : Prop where
  off : isMemberOf s ch cl = false
  sec : ∀ c ∈ s.chans, c.ref = ch → c.hasMode 's' = true
  ex : ∃ c ∈ s.chans, c.ref = ch
  uniq : ∀ a ∈ s.chans, ∀ b ∈ s.chans, caseEq a.name b.name = true → a.ref = b.ref
  has : ∀ m ∈ s.cl2, ∃ c ∈ s.chans, c.ref = m.chan

theorem Hid.oo (h : Hid cl ch s) (ho : OnlyOutput s t) : Hid cl ch t := by
  obtain ⟨o, f, rfl⟩ := ho
  exact ⟨h.off, h.sec, h.ex, h.uniq, h.has⟩

theorem w_hidden {p : Chan → Bool} {l : List Chan} (h : ∀ c ∈ l, c.ref = ch → p c = false) :
    (l.filter (fun c => decide (c.ref ≠ ch))).filter p = l.filter p := by
  rw [List.filter_filter]
  refine List.filter_congr fun c hc => ?_
  by_cases he : c.ref = ch
  · simp [he, h c hc he]
  · simp [he]

/-! ## The handlers -/

/-- What a handler does is the same, but for the channel. -/
def Blind (cl ch : Nat) (f : Srv → Srv) : Prop := ∀ s, Hid cl ch s → f (without s ch) = without (f s) ch

theorem w_listLoop {f : Client} (hf : f.ref = cl) (ho : f.hasMode 'o' = false) (l : List Str) (n : Nat) :
    Blind cl ch (listLoop f l n) := by
  induction l generalizing n with
  | nil => intro s _; rfl
  | cons p ps ih =>
    intro s h
    have hfound : (without s ch).chans.filter (fun c => matchCaseInsensitive p c.name && listVisible (without s ch) f c) =
        s.chans.filter (fun c => matchCaseInsensitive p c.name && listVisible s f c) := by
      rw [show (without s ch).chans = s.chans.filter (fun c => decide (c.ref ≠ ch)) from rfl, List.filter_filter]
      refine List.filter_congr fun c hc => ?_
      by_cases he : c.ref = ch
      · simp [he, listVisible, h.sec c hc he, hf, h.off, ho]
      · simp [he, listVisible, w_member he]
    simp only [listLoop, hfound, w_conf]
    have hvis : ∀ c ∈ s.chans.filter (fun c => matchCaseInsensitive p c.name && listVisible s f c), c.ref ≠ ch := by
      intro c hc he
      obtain ⟨h1, h2⟩ := List.mem_filter.1 hc
      simp [listVisible, h.sec c h1 he, he, hf, h.off, ho] at h2
    generalize s.chans.filter (fun c => matchCaseInsensitive p c.name && listVisible s f c) = found at *
    have hshown : ∀ c ∈ (if s.conf.maxListSize > 0 then found.take (s.conf.maxListSize.toNat - n) else found), c.ref ≠ ch := by
      intro c hc
      split at hc
      · exact hvis c (List.mem_of_mem_take hc)
      · exact hvis c hc
    generalize (if s.conf.maxListSize > 0 then found.take (s.conf.maxListSize.toNat - n) else found) = shown at *
    rw [w_foldl' (fun s c hc => by rw [w_memberCount (hshown c hc), w_write])]
    have hoo : OnlyOutput s (shown.foldl (fun s c => write s f ⟨"RPL_LIST_MSG",
      [f.ID, c.name, intStr (memberCount s c.ref), c.topic]⟩) s) :=
      oo_foldl _ (fun s c => oo_write ..) _ _
    generalize shown.foldl (fun s c => write s f ⟨"RPL_LIST_MSG",
      [f.ID, c.name, intStr (memberCount s c.ref), c.topic]⟩) s = s1 at *
    rw [w_write, w_ite]
    refine ih _ _ (h.oo (hoo.trans ?_))
    split
    · exact oo_write ..
    · exact .refl _

theorem w_channelSearch (h : Hid cl ch s) (n : Str) :
    channelSearch (without s ch) n = (channelSearch s n).filter (fun c => decide (c.ref ≠ ch)) := by
  have hu := h.uniq
  simp only [channelSearch, without]
  generalize s.chans = l at hu
  clear h
  induction l with
  | nil => rfl
  | cons c l ih =>
    have ih := ih (fun a ha b hb => hu a (List.mem_cons_of_mem _ ha) b (List.mem_cons_of_mem _ hb))
    by_cases hm : c.ref = ch
    · rw [List.filter_cons_of_neg (by simp [hm])]
      by_cases hp : (c.hash == Hash n && caseEq n c.name) = true
      · rw [List.find?_cons_of_pos (by exact hp)]
        simp only [Option.filter_some, hm, ne_eq, not_true_eq_false, decide_false, Bool.false_eq_true, if_false]
        rw [List.find?_eq_none]
        intro d hd hq
        obtain ⟨hd1, hd2⟩ := List.mem_filter.1 hd
        simp only [Bool.and_eq_true] at hp hq
        have := hu c (List.mem_cons_self ..) d (List.mem_cons_of_mem _ hd1)
          (by rw [← caseEq_eq_of hp.2]; exact hq.2)
        simp [← this, hm] at hd2
      · rw [List.find?_cons_of_neg (by exact hp)]
        exact ih
    · rw [List.filter_cons_of_pos (by simp [hm])]
      by_cases hp : (c.hash == Hash n && caseEq n c.name) = true
      · rw [List.find?_cons_of_pos (by exact hp), List.find?_cons_of_pos (by exact hp)]
        simp [hm, Option.filter]
      · rw [List.find?_cons_of_neg (by exact hp), List.find?_cons_of_neg (by exact hp)]
        exact ih

theorem w_sendNAMES {f : Client} {c : Chan} (hc : c.ref ≠ ch) :
    sendNAMES (without s ch) f c = without (sendNAMES s f c) ch := by
  simp only [sendNAMES, visibleMembers, w_member hc, w_membersOf hc, w_modes hc, w_conf, w_cl, w_write, w_ite]
  rfl

theorem sendNAMES_hid {f : Client} (hf : f.ref = cl) (h : Hid cl ch s) {c : Chan} (hc : c ∈ s.chans) (he : c.ref = ch) :
    sendNAMES s f c = s := by
  simp only [sendNAMES, he, hf, h.off, h.sec c hc he]
  cases s.conf.morePrivacy <;> simp

theorem w_names {f : Client} (hf : f.ref = cl) (l : List Str) (h : Hid cl ch s) :
    l.foldl (fun s n => write (match channelSearch s n with
        | some ch => sendNAMES s f ch
        | none => s) f ⟨"RPL_ENDOFNAMES_MSG", [f.ID, n]⟩) (without s ch) =
    without (l.foldl (fun s n => write (match channelSearch s n with
        | some ch => sendNAMES s f ch
        | none => s) f ⟨"RPL_ENDOFNAMES_MSG", [f.ID, n]⟩) s) ch := by
  refine w_foldl (Hid cl ch) (fun s n _ hs => hs.oo ?_) (fun s n _ hs => ?_) h
  · apply oow
    split
    · exact oo_sendNAMES ..
    · exact oo_refl _
  · rw [w_channelSearch hs]
    cases hc : channelSearch s n with
    | none => exact w_write ..
    | some c =>
      by_cases he : c.ref = ch
      · simp only [Option.filter_some, he, ne_eq, not_true_eq_false, decide_false, Bool.false_eq_true, if_false]
        rw [sendNAMES_hid hf hs (channelSearch_mem hc) he]
        exact w_write ..
      · simp only [Option.filter_some, he, ne_eq, not_false_eq_true, decide_true, if_true]
        rw [w_sendNAMES he]
        exact w_write ..

/-! ### WHO -/

theorem Hid.notOn (h : Hid cl ch s) : ch ∉ channelsOf s cl := by
  intro hm
  simp only [channelsOf, List.mem_map, List.mem_filter, beq_iff_eq] at hm
  obtain ⟨m, ⟨h1, h2⟩, h3⟩ := hm
  have := h.off
  simp only [isMemberOf, getCl2Chan] at this
  rw [Option.isSome_eq_false_iff, Option.isNone_iff_eq_none] at this
  have := List.find?_eq_none.1 this m h1
  simp [h2, h3] at this

theorem w_whoVisible (h : Hid cl ch s) {f : Client} (hf : f.ref = cl) (m : Option Str) (c : Client) :
    whoVisible (without s ch) f m c = whoVisible s f m c := by
  simp only [whoVisible]
  congr 1
  rw [w_channelsOf, List.filter_eq_self.2 (fun x hx => by
    have := h.notOn; rw [← hf] at this
    exact decide_eq_true (fun e => this (e ▸ hx)))]
  have hn := h.notOn
  rw [← hf] at hn
  generalize channelsOf s f.ref = l at hn
  induction l with
  | nil => rfl
  | cons a l ih =>
    simp only [List.any_cons]
    rw [w_member (c := a) (fun e => hn (by rw [e]; exact List.mem_cons_self ..)), ih (fun hm => hn (List.mem_cons_of_mem _ hm))]

theorem w_whoMask (h : Hid cl ch s) {f : Client} (hf : f.ref = cl) (m : Option Str) (b : Bool) :
    whoMask (without s ch) f m b = without (whoMask s f m b) ch := by
  have e : ∀ m c, whoMatch (without s ch) m c = whoMatch s m c := fun _ _ => rfl
  simp only [whoMask, w_clients, e, w_whoVisible h hf]
  rw [w_foldl' (fun s x _ => w_write ..)]
  simp only [w_write, w_ite]

theorem w_whoChannel {c : Chan} (hc : c.ref ≠ ch) (f : Client) (b : Bool) :
    whoChannel (without s ch) f c b = without (whoChannel s f c b) ch := by
  simp only [whoChannel, whoMembers, w_member hc, w_membersOf hc, w_cl]
  rw [w_foldl' (fun s x _ => by rw [w_modes hc]; exact w_write ..), w_ite, w_write]

/-! ### WHOIS -/

theorem chan_ref (h : Hid cl ch s) {c r : Nat} (hm : r ∈ channelsOf s c) (hr : r ≠ ch) : (s.chan r).ref ≠ ch := by
  simp only [channelsOf, List.mem_map, List.mem_filter, beq_iff_eq] at hm
  obtain ⟨m, ⟨h1, h2⟩, h3⟩ := hm
  obtain ⟨d, hd, hd2⟩ := h.has m h1
  simp only [Srv.chan, Srv.chan?]
  cases hc : s.chans.find? (fun c => c.ref == r) with
  | none =>
    have := List.find?_eq_none.1 hc d hd
    simp [hd2, h3] at this
  | some c =>
    have := List.find?_some hc
    simp only [beq_iff_eq] at this
    simp [this, hr]

theorem chan_self (h : Hid cl ch s) : (s.chan ch).ref = ch ∧ (s.chan ch).hasMode 's' = true := by
  obtain ⟨c, hc, he⟩ := h.ex
  simp only [Srv.chan, Srv.chan?]
  cases hf : s.chans.find? (fun c => c.ref == ch) with
  | none =>
    have := List.find?_eq_none.1 hf c hc
    simp [he] at this
  | some d =>
    have h1 := List.find?_some hf
    simp only [beq_iff_eq] at h1
    exact ⟨h1, h.sec d (List.mem_of_find?_eq_some hf) h1⟩

theorem w_whoisChannels (h : Hid cl ch s) {f : Client} (hf : f.ref = cl) (c : Client) :
    whoisChannels (without s ch) f c = whoisChannels s f c := by
  simp only [whoisChannels, w_channelsOf]
  have hr : ∀ r ∈ channelsOf s c.ref, r ≠ ch → (s.chan r).ref ≠ ch := fun r hr => chan_ref h hr
  generalize channelsOf s c.ref = l at hr
  induction l with
  | nil => rfl
  | cons a l ih =>
    have ih := ih (fun r hm => hr r (List.mem_cons_of_mem _ hm))
    by_cases he : a = ch
    · subst he
      rw [List.filter_cons_of_neg (by simp), ih, List.map_cons, List.filter_cons_of_neg]
      simp [(chan_self h).1, (chan_self h).2, hf, h.off]
    · rw [List.filter_cons_of_pos (by simp [he]), List.map_cons, List.map_cons]
      simp only [List.filter_cons, ih, w_chan he, w_member (hr a (List.mem_cons_self ..) he)]

theorem w_whoisFlags (h : Hid cl ch s) {f : Client} (hf : f.ref = cl) (c : Client) :
    (whoisChannels s f c).map (fun k => flagsQualifier f (userModes (without s ch) k.ref c.ref) ++ k.name) =
    (whoisChannels s f c).map (fun k => flagsQualifier f (userModes s k.ref c.ref) ++ k.name) := by
  refine List.map_congr_left fun k hk => ?_
  simp only [whoisChannels, List.mem_filter, List.mem_map] at hk
  obtain ⟨⟨r, h1, rfl⟩, h2⟩ := hk
  by_cases he : r = ch
  · subst he
    simp [(chan_self h).1, (chan_self h).2, hf, h.off] at h2
  · rw [w_modes (chan_ref h h1 he)]

theorem w_whoisReply (h : Hid cl ch s) {f : Client} (hf : f.ref = cl) (c : Client) :
    whoisReply (without s ch) f f c = without (whoisReply s f f c) ch := by
  have e1 : whoisChannels (write (write s f ⟨"RPL_WHOISUSER_MSG", [f.ID, c.ID, c.User, displayedHost s c, c.info]⟩) f
      ⟨"RPL_WHOISSERVER_MSG", [f.ID, c.ID, (s.cl c.introducer).ID, (s.cl c.introducer).info]⟩) f c = whoisChannels s f c := rfl
  simp only [whoisReply, w_write, w_host, w_cl, w_conf, w_ssl]
  have hh : Hid cl ch (write (write s f ⟨"RPL_WHOISUSER_MSG", [f.ID, c.ID, c.User, displayedHost s c, c.info]⟩) f
      ⟨"RPL_WHOISSERVER_MSG", [f.ID, c.ID, ((write s f ⟨"RPL_WHOISUSER_MSG", [f.ID, c.ID, c.User, displayedHost s c, c.info]⟩).cl c.introducer).ID,
        ((write s f ⟨"RPL_WHOISUSER_MSG", [f.ID, c.ID, c.User, displayedHost s c, c.info]⟩).cl c.introducer).info]⟩) :=
    h.oo (oow (oo_write ..))
  rw [w_whoisChannels hh hf, w_whoisFlags hh hf]
  simp only [w_ite, w_write, w_ssl, w_conf]

theorem w_whoisWild {f : Client} (hf : f.ref = cl) (q : Str) (l : List Client) (n : Nat) (h : Hid cl ch s) :
    (whoisWild f f q l n (without s ch)).1 = without (whoisWild f f q l n s).1 ch ∧
    (whoisWild f f q l n (without s ch)).2 = (whoisWild f f q l n s).2 := by
  induction l generalizing n s with
  | nil => exact ⟨rfl, rfl⟩
  | cons c l ih =>
    simp only [whoisWild]
    split
    · exact ⟨w_write .., rfl⟩
    · split
      · rw [w_whoisReply h hf]
        exact ih _ (h.oo (oo_whoisReply ..))
      · exact ih _ h

theorem w_whoisLoop {f : Client} (hf : f.ref = cl) (arg : Str) (l : List Str) (g : Bool) (h : Hid cl ch s) :
    whoisLoop f f arg l g (without s ch) = without (whoisLoop f f arg l g s) ch := by
  induction l generalizing g s with
  | nil => rfl
  | cons q l ih =>
    simp only [whoisLoop, w_search]
    split
    · split
      · split
        · rw [w_whoisReply h hf]
          exact ih _ (h.oo (oo_whoisReply ..))
        · rw [w_writeErr]
          exact ih _ (h.oo (oo_writeErr ..))
      · rw [w_writeErr]
        exact ih _ (h.oo (oo_writeErr ..))
    · split
      · rw [w_writeErr]
        exact ih _ (h.oo (oo_writeErr ..))
      · have hw := w_whoisWild hf q s.clients 0 h
        rw [w_clients, hw.1, hw.2, w_writeErr, w_ite]
        refine ih _ (h.oo ?_)
        have := oo_whoisWild f f q s.clients 0 s
        split
        · exact oowe this
        · exact this

/-! ### Sender and target -/

theorem w_needMore (c : Nat) (req : Request) : needMoreParams (without s ch) c req = (without (needMoreParams s c req).1 ch, true) := by
  simp only [needMoreParams, w_cl, w_writeErr]

theorem getSender_user {c : Nat} {req : Request} (h : (s.cl c).type = .user) : getSender s c req = .ok c := by
  simp only [getSender, h]
  rfl

/-- A target, in the state without the channel. -/
def Got.w (ch : Nat) : Got → Got
  | .err s => .err (without s ch)
  | .ok r => .ok r

theorem w_getTarget (req : Request) (n f : Nat) :
    getTarget (without s ch) req n f = (getTarget s req n f).w ch := by
  simp only [getTarget, w_search, w_searchServer, w_cl, w_writeErr, w_this]
  split
  · cases clientSearch s (req.arg n) with
    | some c => rfl
    | none =>
      cases clientSearchServer s (req.arg n) with
      | some c => rfl
      | none => rfl
  · rfl

theorem w_answerHere {c : Nat} {req : Request} (hu : (s.cl c).type = .user) {n : Nat} {fwd : Client → Msg}
    {k k' : Nat → Srv} (hk : k c = without (k' c) ch) :
    (answerHere (without s ch) c req n fwd k).1 = without (answerHere s c req n fwd k').1 ch := by
  simp only [answerHere, getSender_user hu, getSender_user (s := without s ch) hu, w_getTarget]
  cases getTarget s req n c with
  | err s => rfl
  | ok t =>
    simp only [Got.w, w_this, w_cl, w_writePrefix]
    split
    · rfl
    · exact hk

/-- The second half of a NAMES for everything. -/
def namesRest (f : Client) (s : Srv) : Srv :=
  let rest := s.clients.filter (fun c => c.type = .user && (channelsOf s c.ref).isEmpty && !c.hasMode 'i')
  let s := if rest.isEmpty then s else write s f ⟨"RPL_NAMREPLY_MSG", f.ID :: ['*'] :: ['*'] :: rest.map Client.ID⟩
  write s f ⟨"RPL_ENDOFNAMES_MSG", [f.ID, ['*']]⟩

/-! ## The commands -/

section
variable {req : Request} (h : Hid cl ch s) (hu : (s.cl cl).type = .user) (ho : (s.cl cl).hasMode 'o' = false)
  (hr : (s.cl cl).ref = cl)
include h hu

theorem w_ircADMIN : (ircADMIN (without s ch) cl req).1 = without (ircADMIN s cl req).1 ch :=
  w_answerHere hu (w_foldl' (fun s x _ => w_write ..))
theorem w_ircINFO : (ircINFO (without s ch) cl req).1 = without (ircINFO s cl req).1 ch :=
  w_answerHere hu (w_foldl' (fun s x _ => w_write ..))
theorem w_ircTIME : (ircTIME (without s ch) cl req).1 = without (ircTIME s cl req).1 ch :=
  w_answerHere hu (w_write ..)
theorem w_ircVERSION : (ircVERSION (without s ch) cl req).1 = without (ircVERSION s cl req).1 ch :=
  w_answerHere hu (by simp only [sendISUPPORT, w_write, w_cl, w_conf])
omit h hu in
theorem w_ircSUMMON : (ircSUMMON (without s ch) cl req).1 = without (ircSUMMON s cl req).1 ch :=
  w_writeErr ..
omit h hu in
theorem w_ircUSERS : (ircUSERS (without s ch) cl req).1 = without (ircUSERS s cl req).1 ch :=
  w_writeErr ..
omit h hu in
theorem w_ircHELP : (ircHELP (without s ch) cl req).1 = without (ircHELP s cl req).1 ch := by
  simp only [ircHELP, w_cl, w_write]
  split <;> rfl
omit h hu in
theorem w_ircISON : (ircISON (without s ch) cl req).1 = without (ircISON s cl req).1 ch := by
  simp only [ircISON, writeAsFormat, w_cl, w_write, w_search, w_crash, w_ite]
omit h hu in
theorem w_ircUSERHOST : (ircUSERHOST (without s ch) cl req).1 = without (ircUSERHOST s cl req).1 ch := by
  have e : ∀ c, userhostEntry (without s ch) c = userhostEntry s c := fun _ => rfl
  simp only [ircUSERHOST, writeAsFormat, w_cl, w_write, w_search, w_crash, w_ite, e]
omit h hu in
theorem w_ircSERVLIST : (ircSERVLIST (without s ch) cl req).1 = without (ircSERVLIST s cl req).1 ch := by
  simp only [ircSERVLIST, w_cl, w_clients]
  rw [w_foldl' (fun s x _ => by rw [w_cl]; exact w_write ..), w_write]

omit h hu in
theorem w_linksHere (f : Nat) (m : Str) : linksHere (without s ch) f m = without (linksHere s f m) ch := by
  simp only [linksHere, w_cl, w_clients]
  rw [w_foldl' (fun s x _ => by
    rw [show linksTop (without s ch) x = linksTop s x from rfl]
    cases linksTop s x with
    | some t => exact w_write ..
    | none => rfl), w_write]

theorem w_ircLINKS : (ircLINKS (without s ch) cl req).1 = without (ircLINKS s cl req).1 ch := by
  simp only [ircLINKS]
  by_cases h2 : req.argc = 2
  · rw [if_pos h2, if_pos h2]
    exact w_answerHere hu (w_linksHere ..)
  · rw [if_neg h2, if_neg h2, getSender_user hu, getSender_user (s := without s ch) hu]
    exact w_linksHere ..

omit hu in
theorem w_sendLUSERS {f : Client} (hf : f.ref = cl) : sendLUSERS (without s ch) f = without (sendLUSERS s f) ch := by
  have e : ∀ t, Hid cl ch t → countVisible (without t ch) (some f.ref) = countVisible t (some f.ref) := by
    intro t h
    simp only [countVisible, hf]
    rw [show (without t ch).chans = t.chans.filter (fun c => decide (c.ref ≠ ch)) from rfl, List.filter_filter]
    congr 1
    refine List.filter_congr fun c hc => ?_
    by_cases he : c.ref = ch
    · simp [he, h.sec c hc he, h.off]
    · simp [he, w_member he]
  have e1 : ∀ (t : Srv) k, countType (without t ch) k = countType t k := fun _ _ => rfl
  have e2 : ∀ (t : Srv) k, myCountType (without t ch) k = myCountType t k := fun _ _ => rfl
  have e3 : ∀ (t : Srv), operCount (without t ch) = operCount t := fun _ => rfl
  have e4 : ∀ (t : Srv), unknownCount (without t ch) = unknownCount t := fun _ => rfl
  have e5 : ∀ (t : Srv), myServerCount (without t ch) = myServerCount t := fun _ => rfl
  simp only [sendLUSERS, w_write, e1, e2, e3, e4, e5, w_ite]
  rw [e _ (h.oo (by oo))]
  simp only [w_write, e1, e2, e3, e4, e5, w_myMaxUsers, w_maxUsers]

include hr in
theorem w_ircLUSERS : (ircLUSERS (without s ch) cl req).1 = without (ircLUSERS s cl req).1 ch :=
  w_answerHere hu (w_sendLUSERS h hr)

theorem w_ircMOTD : (ircMOTD (without s ch) cl req).1 = without (ircMOTD s cl req).1 ch := by
  refine w_answerHere hu ?_
  simp only [showMOTD, w_conf, w_ssl, w_cl, w_this, w_write, w_writeErr]
  rw [w_foldl' (fun s x _ => w_write ..)]
  simp only [w_write, w_conf, w_ite]

theorem w_ircSTATS : (ircSTATS (without s ch) cl req).1 = without (ircSTATS s cl req).1 ch := by
  refine w_answerHere hu ?_
  have e : ∀ b, statsLinks (without s ch) cl b = statsLinks s cl b := fun _ => rfl
  have e2 : opCheck (without s ch) cl req = opCheck s cl req := rfl
  have e3 : opNoPrivileges (without s ch) cl req = (without (opNoPrivileges s cl req).1 ch, true) := by
    rw [opNoPrivileges, opNoPrivileges, show clientSearch (without s ch) = clientSearch s from rfl]
    cases req.prefix?.bind (clientSearch s) with
    | none => simp only [w_cl, w_writeErr]
    | some f => simp only [w_writeErr]
  simp only [statsHere, w_glines, w_klines, e, e2, e3, w_cl, w_write, w_writeErr]
  rw [w_foldl' (fun s x _ => w_write ..), w_foldl' (fun s x _ => w_write ..)]
  simp only [w_write, w_ite]

theorem w_ircTRACE : (ircTRACE (without s ch) cl req).1 = without (ircTRACE s cl req).1 ch := by
  simp only [ircTRACE, getSender_user hu, getSender_user (s := without s ch) hu, w_getTarget]
  cases getTarget s req 0 cl with
  | err s => rfl
  | ok t =>
    simp only [Got.w, w_this, w_cl, w_hop, w_crash, w_write, w_writePrefix, w_clients]
    split
    · split <;> rfl
    · rw [w_foldl' (fun s x _ => by simp only [traceLine, w_cl, w_write, w_ite])]
      simp only [w_cl, w_write, w_conf]

theorem w_ircPING : (ircPING (without s ch) cl req).1 = without (ircPING s cl req).1 ch := by
  simp only [ircPING, w_cl, w_this, w_write, w_writeErr, w_search, getSender_user hu,
    getSender_user (s := without s ch) hu, w_writePrefix, hu, reduceCtorEq, if_false]
  repeat' split
  all_goals rfl

omit h hu in
theorem w_whowasScan (p : Client) (nick : Str) (last : Nat) (max : Int) (k i nc cnt : Nat) :
    whowasScan p nick last max k i nc cnt (without s ch) =
      (without (whowasScan p nick last max k i nc cnt s).1 ch, (whowasScan p nick last max k i nc cnt s).2) := by
  induction k generalizing s i nc cnt with
  | zero => rfl
  | succ k ih =>
    simp only [whowasScan, whowasWrite]
    rw [w_whowas]
    generalize (decide ((s.whowas.getD i {}).time > 0) && caseEq nick (s.whowas.getD i {}).id) = hit
    generalize (if hit = true then nc + 1 else nc) = nc1
    generalize (if hit = true then cnt + 1 else cnt) = c1
    rw [w_write, w_write, w_ite]
    split
    · rfl
    · split
      · rfl
      · exact ih ..

omit h hu in
theorem w_whowasLoop (p : Client) (last : Nat) (max : Int) (l : List Str) (i n : Nat) :
    whowasLoop p last max l i n (without s ch) = without (whowasLoop p last max l i n s) ch := by
  induction l generalizing s i n with
  | nil => rfl
  | cons a l ih =>
    simp only [whowasLoop, w_whowasScan, w_writeErr, w_ite]
    exact ih ..

theorem w_ircWHOWAS : (ircWHOWAS (without s ch) cl req).1 = without (ircWHOWAS s cl req).1 ch := by
  simp only [ircWHOWAS, getSender_user hu, getSender_user (s := without s ch) hu, w_getTarget, w_cl, w_writeErr, w_needMore]
  split
  · rfl
  · split
    · rfl
    · cases getTarget s req 2 cl with
      | err s => rfl
      | ok t =>
        simp only [Got.w, w_conf, w_this, w_writePrefix, w_lastWhowas, w_whowasLoop, w_cl, w_write]
        repeat' split
        all_goals rfl

include hr ho in
theorem w_ircLIST : (ircLIST (without s ch) cl req).1 = without (ircLIST s cl req).1 ch := by
  simp only [ircLIST, getSender_user hu, getSender_user (s := without s ch) hu, w_cl, w_search, w_writeErr, w_writePrefix,
    w_write, w_this]
  rw [w_listLoop hr ho _ _ _ (h.oo (oo_write ..)), w_write]
  repeat' split
  all_goals rfl

include hr in
theorem w_ircWHOIS : (ircWHOIS (without s ch) cl req).1 = without (ircWHOIS s cl req).1 ch := by
  simp only [ircWHOIS, getSender_user hu, getSender_user (s := without s ch) hu, w_getTarget, w_cl, w_writeErr, w_needMore]
  split
  · rfl
  · split
    · rfl
    · have e : (if req.argc > 1 then (getTarget s req 0 cl).w ch else Got.ok (without s ch).this) =
          (if req.argc > 1 then getTarget s req 0 cl else Got.ok s.this).w ch := by
        split <;> rfl
      rw [e]
      cases (if req.argc > 1 then getTarget s req 0 cl else Got.ok s.this) with
      | err s => rfl
      | ok t =>
        simp only [Got.w, w_this, w_writePrefix, w_cl]
        rw [w_whoisLoop hr _ _ _ h]
        simp only [w_cl, w_write]
        split <;> rfl

include hr in
theorem w_ircWHO (hn : req.argc ≥ 1 → ∀ c, channelSearch s (req.arg 0) = some c → c.ref ≠ ch) :
    (ircWHO (without s ch) cl req).1 = without (ircWHO s cl req).1 ch := by
  simp only [ircWHO, w_cl]
  split
  · rename_i ha
    rw [w_channelSearch h]
    cases hc : channelSearch s (req.arg 0) with
    | none => exact w_whoMask h hr ..
    | some c =>
      have := hn ha c hc
      simp only [Option.filter, this, ne_eq, not_false_eq_true, decide_true, if_true]
      exact w_whoChannel this ..
  · exact w_whoMask h hr ..

include hr in
theorem w_ircNAMES (hn : req.argc = 0 → ∀ c ∈ s.clients, c.type = .user → c.hasMode 'i' = false →
      ch ∈ channelsOf s c.ref → ∃ d ∈ channelsOf s c.ref, d ≠ ch) :
    (ircNAMES (without s ch) cl req).1 = without (ircNAMES s cl req).1 ch := by
  refine w_answerHere hu ?_
  simp only [namesHere, w_cl]
  by_cases ha : req.argc > 0
  · rw [if_pos ha, if_pos ha]
    exact w_names hr _ h
  · rw [if_neg ha, if_neg ha]
    have key : ∀ (l : List Chan) (t : Srv), (∀ c ∈ l, c ∈ s.chans) → OnlyOutput s t →
        (l.filter (fun c => decide (c.ref ≠ ch))).foldl (fun t c => sendNAMES t (s.cl cl) c) (without t ch) =
        without (l.foldl (fun t c => sendNAMES t (s.cl cl) c) t) ch := by
      intro l
      induction l with
      | nil => intro t _ _; rfl
      | cons c l ih =>
        intro t hl ht
        have h2 := ih (sendNAMES t (s.cl cl) c) (fun c hc => hl c (List.mem_cons_of_mem _ hc)) (ht.trans (oo_sendNAMES ..))
        by_cases he : c.ref = ch
        · rw [List.filter_cons_of_neg (by simp [he])]
          rw [List.foldl_cons, ← h2]
          rw [sendNAMES_hid hr (h.oo ht) (by
            have := hl c (List.mem_cons_self ..)
            obtain ⟨o, f, rfl⟩ := ht
            exact this) he]
        · rw [List.filter_cons_of_pos (by simp [he]), List.foldl_cons, List.foldl_cons, w_sendNAMES he]
          exact h2
    have hoo : OnlyOutput s (s.chans.foldl (fun t c => sendNAMES t (s.cl cl) c) s) :=
      oo_foldl _ (fun t c => oo_sendNAMES ..) _ _
    have hk := key _ s (fun _ h => h) (oo_refl _)
    show namesRest (s.cl cl) _ = without (namesRest (s.cl cl) _) ch
    generalize s.chans.foldl (fun t c => sendNAMES t (s.cl cl) c) s = t at hoo hk
    refine (congrArg (namesRest (s.cl cl)) hk).trans ?_
    have hrest : ((without t ch).clients.filter (fun c => c.type = .user && (channelsOf (without t ch) c.ref).isEmpty &&
        !c.hasMode 'i')) = t.clients.filter (fun c => c.type = .user && (channelsOf t c.ref).isEmpty && !c.hasMode 'i') := by
      have hcl : t.clients = s.clients := by obtain ⟨o, f, rfl⟩ := hoo; rfl
      have hco : ∀ r, channelsOf t r = channelsOf s r := by obtain ⟨o, f, rfl⟩ := hoo; exact fun _ => rfl
      rw [w_clients, hcl]
      refine List.filter_congr fun c hc => ?_
      rw [w_channelsOf, hco]
      by_cases hcu : c.type = .user
      · cases hi : c.hasMode 'i' with
        | true => simp
        | false =>
          have := hn (by omega) c hc hcu hi
          simp only [hcu, decide_true, Bool.true_and, Bool.not_false, Bool.and_true]
          by_cases hm : ch ∈ channelsOf s c.ref
          · obtain ⟨d, hd, hne⟩ := this hm
            rw [show (channelsOf s c.ref).isEmpty = false by
              rw [List.isEmpty_eq_false_iff]; exact List.ne_nil_of_mem hd]
            rw [List.isEmpty_eq_false_iff]
            exact List.ne_nil_of_mem (List.mem_filter.2 ⟨hd, by simp [hne]⟩)
          · rw [List.filter_eq_self.2 (fun x hx => decide_eq_true (show x ≠ ch from fun e => hm (e ▸ hx)))]
      · simp [hcu]
    simp only [namesRest, hrest, w_write, w_ite]

end

end Ngircd
