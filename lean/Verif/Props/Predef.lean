import Verif.Lemmas.Predef
import Verif.Props.Answers
import Verif.Props.ModeLocal

/-!
# C91: pre-defined channels, at the start and when the configuration is read again
-/

set_option linter.unusedSimpArgs false

namespace Ngircd
open Spec

variable {s t : Srv}

theorem chanName_valid {n : Str} : (n ≠ [] ∧ isValidChanName n = true) ↔ ChannelName n := by
  cases n with
  | nil => exact ⟨fun h => absurd rfl h.1, fun h => by obtain ⟨⟨t, ht, -⟩, -⟩ := h; cases ht⟩
  | cons a as =>
    have e : CHANNEL_NAME_LEN = 51 := rfl
    simp only [isValidChanName, ChannelName, Bool.and_eq_true, List.contains_iff_mem, decide_eq_true_eq, e, List.all_eq_true,
      Bool.not_eq_true', ← Bool.not_eq_true, List.head?_cons, Option.some.injEq]
    have h1 : ∀ x : Char, x ∈ "#&+".toList ↔ x ∈ ['#', '&', '+'] := fun x => Iff.rfl
    have h2 : ∀ x : Char, x ∉ " ,:\x07".toList ↔ (x ≠ ' ' ∧ x ≠ ',' ∧ x ≠ ':' ∧ x ≠ '\x07') := by
      intro x
      show x ∉ [' ', ',', ':', '\x07'] ↔ _
      simp only [List.mem_cons, List.not_mem_nil, or_false, not_or]
    constructor
    · rintro ⟨-, ⟨h3, h4⟩, h5⟩
      exact ⟨⟨a, rfl, (h1 a).1 h3⟩, h4, fun x hx => (h2 x).1 (h5 x hx)⟩
    · rintro ⟨⟨b, rfl, h3⟩, h4, h5⟩
      exact ⟨by simp, ⟨(h1 _).2 h3, h4⟩, fun x hx => (h2 x).2 (h5 x hx)⟩

theorem found_there {n : Str} (h : (channelSearch t n).isSome = true) : ∃ c ∈ t.chans, SameCase c.name n := by
  obtain ⟨c, hc⟩ := Option.isSome_iff_exists.1 h
  have h1 := List.mem_of_find?_eq_some hc
  have h2 := List.find?_some hc
  simp only [Bool.and_eq_true] at h2
  refine ⟨c, h1, (sameCase_iff _ _).2 ?_⟩
  exact ((caseEq_iff _ _).1 h2.2).symm

theorem fromBlock {cc : ConfChannel} {d : Chan} (h1 : d.name = cc.name) (h2 : d.topic = topicOf cc) (h3 : ModesFrom s cc d) (hi : ChInv s) (hs : Selfed s) :
    FromBlock cc d := by
  refine ⟨h1, ?_, h3 hi hs⟩
  rw [h2]
  unfold topicOf
  by_cases h : cc.topic.length ≤ 512
  · rw [if_pos h, if_pos (by omega)]
  · rw [if_neg h, if_neg (by omega)]

theorem rehash_eq (s : Srv) (conf : Conf) : step s (.rehash conf) = channelInitPredefined (configured s conf) := by
  show rehash s conf = _
  unfold rehash
  simp only
  congr 1
  simp only [clientSetInfo, Srv.updCl, configured, setInfoC]
  congr 1
  refine List.map_congr_left (fun c _ => ?_)
  split
  · split <;> rfl
  · rfl

/-! ## The name of this server -/

/-- This server has the configured name, which is a proper one. -/
def OwnName (s : Srv) : Prop := GoodName s.conf.serverName ∧ ∀ c ∈ s.clients, c.ref = s.this → c.id = s.conf.serverName

theorem OwnName.of_eq (h : OwnName s) (h1 : t.clients = s.clients) (h2 : t.this = s.this) (h3 : t.conf.serverName = s.conf.serverName) : OwnName t := by
  unfold OwnName
  rw [h1, h2, h3]; exact h

theorem OwnName.upd (h : OwnName s) {r : Nat} {f : Client → Client} (hf : ∀ c, r = s.this → (f c).id = c.id) (hr : ∀ c, (f c).ref = c.ref)
    (h1 : t.clients = (s.updCl r f).clients) (h2 : t.this = s.this) (h3 : t.conf.serverName = s.conf.serverName) : OwnName t := by
  unfold OwnName
  rw [h1, h2, h3]
  refine ⟨h.1, ?_⟩
  intro c hc hcr
  obtain ⟨d, hd, rfl⟩ := mem_updCl.1 hc
  by_cases e : d.ref = r
  · rw [if_pos e] at hcr ⊢
    rw [hr] at hcr
    rw [hf d (by rw [← e]; exact hcr)]
    exact h.2 d hd hcr
  · rw [if_neg e] at hcr ⊢
    exact h.2 d hd hcr

theorem OwnName.act {x : Ctx} {a : Act} (hb : Base t) (h : OwnName t) (hp : Okay x t a) : OwnName (a.run t) := by
  have ht := run_this t a
  have hlt : t.this < t.nextRef := by
    have h1 := hb.this_mem
    have := hb.cl.lt _ h1.1
    rw [h1.2.1] at this
    exact this
  cases a with
  | conf c => exact ⟨by show GoodName c.serverName; rw [hp.2.1]; exact h.1, fun d hd hr => by show d.id = c.serverName; rw [hp.2.1]; exact h.2 d hd hr⟩
  | soft r f => exact h.upd (f := f) (fun c _ => (hp.keeps c).2.1) (fun c => (hp.keeps c).1) rfl ht rfl
  | umode r m set =>
    exact h.upd (f := umodeC m set) (fun c _ => rfl) (fun _ => rfl) (umode_clients t r m set) ht (by rw [run_conf t (by simp)])
  | setId r id =>
    refine h.upd (f := fun c => setIdC t.conf c id) (fun c e => absurd e hp.1) (fun c => ?_) rfl ht rfl
    simp only [setIdC]; split <;> rfl
  | setType r ty =>
    refine h.upd (f := typeC t ty) (fun c _ => ?_) (fun c => ?_) (setType_clients t r ty) ht (by rw [run_conf t (by simp)])
    · unfold typeC; split <;> rfl
    · unfold typeC; split <;> rfl
  | setIntro r tok => exact h.upd (f := fun c => { c with introducer := r, token := tok }) (fun _ _ => rfl) (fun _ => rfl) rfl ht rfl
  | newCl c =>
    refine ⟨by rw [run_conf t (by simp)]; exact h.1, ?_⟩
    rw [newCl_clients, ht, run_conf t (by simp)]
    intro d hd hr
    rcases List.mem_cons.1 hd with rfl | hd
    · have := hp.2.1; omega
    · exact h.2 d hd hr
  | newLocal c k =>
    refine ⟨by rw [run_conf t (by simp)]; exact h.1, ?_⟩
    rw [newLocal_clients, ht, run_conf t (by simp)]
    intro d hd hr
    rcases List.mem_cons.1 hd with rfl | hd
    · have := hp.1; omega
    · exact h.2 d hd hr
  | destroy c =>
    refine ⟨by rw [run_conf t (by simp)]; exact h.1, ?_⟩
    rw [destroy_run_clients, ht, run_conf t (by simp)]
    exact fun d hd hr => h.2 d (List.mem_filter.1 hd).1 hr
  | whowas c => exact h.of_eq (run_clients rfl t) ht (by rw [run_conf t (by simp)])
  | remove ch r => exact h.of_eq (run_clients rfl t) ht (by rw [run_conf t (by simp)])
  | chMode ch r m => exact h.of_eq (run_clients rfl t) ht (by rw [run_conf t (by simp)])
  | mmode ch r m set => exact h.of_eq (run_clients rfl t) ht (by rw [run_conf t (by simp)])
  | _ => exact h.of_eq rfl ht rfl

theorem polite_own (h : PoliteRun s) : OwnName s := by
  refine polite_inv (fun s t hc hi => hi.of_eq (core_clients hc) (core_this hc) (by rw [core_conf hc]))
    (fun x t a _ hB hi hp => hi.act hB hp) (fun conf host now hg => ⟨hg.1, ?_⟩) h
  intro c hc _
  simp only [clientInit, List.mem_singleton] at hc
  rw [hc]
  exact thisServer_id host hg.1

theorem polite_selfed (h : PoliteRun s) : Selfed s := by
  have hb := h.reachable.base
  obtain ⟨h1, h2, h3, -⟩ := hb.this_mem
  obtain ⟨⟨g1, g2, g3⟩, k2⟩ := polite_own h
  have hid := k2 _ h1 h2
  have hID : (s.cl s.this).ID = (s.cl s.this).id := by
    unfold Client.ID
    rw [if_neg]
    rw [List.isEmpty_iff, hid]; exact g1
  have hnp : nickPart (s.cl s.this).id = (s.cl s.this).id := by
    rw [hid]
    have : strlcpy CLIENT_ID_LEN s.conf.serverName = s.conf.serverName := strlcpy_of_lt g3
    rw [← nickPart_eq, this]; exact cutAt_of_not_mem g2
  refine ⟨?_, h2, h3⟩
  rw [hID]
  exact (C13_lookup h _ _).2 ⟨h1, by rw [hid]; exact g1, by rw [hnp]; exact (caseEq_same _ _).1 (caseEq_refl' _)⟩

/-- **C91** The server keeps the name it was started with. -/
theorem C91_own_name (h : PoliteRun s) : (s.cl s.this).id = s.conf.serverName ∧ ∀ conf, (step s (.rehash conf)).conf.serverName = s.conf.serverName := by
  obtain ⟨h1, h2, -⟩ := h.reachable.base.this_mem
  refine ⟨(polite_own h).2 _ h1 h2, fun conf => ?_⟩
  have hb := h.reachable.base
  obtain ⟨new, h1, -⟩ := initPredefined_made (s := configured s conf) ⟨hb.low.chans, hb.low.members⟩
  rw [rehash_eq, h1.conf]; rfl

theorem configured_selfed (h : PoliteRun s) (conf : Conf) : Selfed (configured s conf) := by
  have hs := polite_selfed h
  have hb := h.reachable.base
  obtain ⟨h1, h2, h3, -⟩ := hb.this_mem
  have e : (configured s conf).clients = (s.updCl s.this (fun c => { c with info := (if conf.cloakUserToNick then c.id else conf.serverInfo).take 127 })).clients := rfl
  have hcl : (configured s conf).cl s.this = { s.cl s.this with info := (if conf.cloakUserToNick then (s.cl s.this).id else conf.serverInfo).take 127 } := by
    have : (configured s conf).cl s.this = (s.updCl s.this (fun c => { c with info := (if conf.cloakUserToNick then c.id else conf.serverInfo).take 127 })).cl s.this := by
      simp only [Srv.cl, Srv.cl?, e]
    rw [this]
    rw [cl_updCl _ _ _ _ (by intro c; rfl) (fun _ => ?_), if_pos rfl]
    exact List.find?_isSome.2 ⟨_, h1, by simp [h2]⟩
  have hth : (configured s conf).this = s.this := rfl
  refine ⟨?_, by rw [hth, hcl]; exact h2, by rw [hth, hcl]; exact h3⟩
  rw [hth, hcl]
  have hf := hs.found
  have hID : ({ s.cl s.this with info := (if conf.cloakUserToNick then (s.cl s.this).id else conf.serverInfo).take 127 } : Client).ID = (s.cl s.this).ID := rfl
  rw [hID]
  simp only [clientSearch] at hf ⊢
  rw [e]
  simp only [Srv.updCl, List.find?_map]
  have hfun : ((fun c : Client => c.hash == Hash (cutAt (strlcpy CLIENT_ID_LEN (s.cl s.this).ID) '!') && caseEq c.id (cutAt (strlcpy CLIENT_ID_LEN (s.cl s.this).ID) '!')) ∘
      fun c => if c.ref = s.this then { c with info := (if conf.cloakUserToNick then c.id else conf.serverInfo).take 127 } else c) =
      fun c : Client => c.hash == Hash (cutAt (strlcpy CLIENT_ID_LEN (s.cl s.this).ID) '!') && caseEq c.id (cutAt (strlcpy CLIENT_ID_LEN (s.cl s.this).ID) '!') := by
    funext c
    simp only [Function.comp]
    split <;> rfl
  rw [hfun, hf]
  simp only [Option.map_some, h2, if_true]

/-- **C91** When the configuration is read again, it comes into force as far as it can change; no
channel, no topic, no mode, no member, no client and no connection changes: nothing happens but that
channels are created, the configured ones that did not exist and `&SERVER`. -/
theorem C91_rehash (h : PoliteRun s) (conf : Conf) : ∃ new, CreatedOnly new (configured s conf) (step s (.rehash conf)) ∧
    (∀ d ∈ new, (∃ cc ∈ conf.channels, FromBlock cc d) ∨ ServerChannel d) ∧
    (∀ cc ∈ conf.channels, ChannelName cc.name → ∃ c ∈ (step s (.rehash conf)).chans, SameCase c.name cc.name) ∧
    ∃ c ∈ (step s (.rehash conf)).chans, SameCase c.name "&SERVER".toList := by
  have hb := h.reachable.base
  have hch : ChInv (configured s conf) := ⟨hb.ch.ord, hb.ch.lt, hb.ch.pairs, hb.ch.chan, hb.ch.clt⟩
  have hl : Low (configured s conf) := ⟨hb.low.chans, hb.low.members⟩
  obtain ⟨new, h1, h2, h3, h4⟩ := initPredefined_made hl
  rw [rehash_eq]
  refine ⟨new, h1, ?_, ?_, found_there h4⟩
  · intro d hd
    rcases h2 d hd with ⟨cc, a, -, b, c, e⟩ | h2
    · exact .inl ⟨cc, a, fromBlock b c e hch (configured_selfed h conf)⟩
    · exact .inr h2
  · intro cc hc hn
    obtain ⟨a, b⟩ := chanName_valid.2 hn
    exact found_there (h3 cc hc a b)

/-- **C91** No channel is made twice: none of the channels created has the name of one there was. -/
theorem C91_rehash_new (h : PoliteRun s) (hf : s.fault = false) (conf : Conf) {new : List Chan}
    (hn : CreatedOnly new (configured s conf) (step s (.rehash conf))) : ∀ d ∈ new, ∀ c ∈ s.chans, ¬ SameCase d.name c.name := by
  have ht : PoliteRun (step s (.rehash conf)) := .step _ h hf (fun i rnd l e => by cases e)
  intro d hd c hc hs
  have hb := ht.reachable.base
  have e := hn.1
  have hsc : (configured s conf).chans = s.chans := rfl
  rw [hsc] at e
  have := (C17_names_unique ht).1 d (by rw [e]; exact List.mem_append_left _ hd) c (by rw [e]; exact List.mem_append_right _ hc) hs
  have hord := hb.ch.ord
  rw [e] at hord
  have := (List.pairwise_append.1 hord).2.2 d hd c hc
  subst d
  omega

/-- **C91** At the start there are the configured channels and `&SERVER`, and no others. -/
theorem C91_start (conf : Conf) (host : Str) (now : Nat) (hg : GoodConf conf) :
    (∀ d ∈ (Srv.init conf host now).chans, (∃ cc ∈ conf.channels, FromBlock cc d) ∨ ServerChannel d) ∧
    (∀ cc ∈ conf.channels, ChannelName cc.name → ∃ c ∈ (Srv.init conf host now).chans, SameCase c.name cc.name) ∧
    (∃ c ∈ (Srv.init conf host now).chans, SameCase c.name "&SERVER".toList) ∧ (Srv.init conf host now).cl2 = [] := by
  have hch : ChInv (clientInit conf host now) := ⟨List.Pairwise.nil, fun _ h => (by cases h), List.Pairwise.nil, fun _ h => (by cases h), fun _ h => (by cases h)⟩
  have hl : Low (clientInit conf host now) := ⟨fun _ h => (by cases h), fun _ h => (by cases h)⟩
  obtain ⟨new, h1, h2, h3, h4⟩ := initPredefined_made hl
  have hself : Selfed (clientInit conf host now) := by
    have hs : Selfed (Srv.init conf host now) := polite_selfed (.init conf host now hg)
    obtain ⟨-, o, f, r, k⟩ := h1
    have e1 : (Srv.init conf host now).clients = (clientInit conf host now).clients := by
      have := congrArg Srv.clients k; exact this
    have e2 : (Srv.init conf host now).this = (clientInit conf host now).this := by
      have := congrArg Srv.this k; exact this
    have e3 : (Srv.init conf host now).cl (Srv.init conf host now).this = (clientInit conf host now).cl (clientInit conf host now).this := by
      simp only [Srv.cl, Srv.cl?, e1, e2]
    obtain ⟨a, b, c⟩ := hs
    rw [e3] at a b c
    rw [e2] at b
    refine ⟨?_, b, c⟩
    simp only [clientSearch, e1] at a ⊢
    exact a
  have e : (Srv.init conf host now).chans = new := by
    have := h1.1
    rw [show (clientInit conf host now).chans = [] from rfl, List.append_nil] at this
    exact this
  refine ⟨?_, ?_, found_there h4, h1.cl2⟩
  · intro d hd
    rw [e] at hd
    rcases h2 d hd with ⟨cc, a, -, b, c, e⟩ | h2
    · exact .inl ⟨cc, a, fromBlock b c e hch hself⟩
    · exact .inr h2
  · intro cc hc hn
    obtain ⟨a, b⟩ := chanName_valid.2 hn
    exact found_there (h3 cc hc a b)

/-! ## Examples -/

namespace Sample

/-- A configuration with two channels, one of them there already. -/
def chanConf : Conf :=
  { conf with channels := [{ name := "#C".toList, topic := "never".toList, modes := ["+s".toList] },
      { name := "#new".toList, topic := "welcome".toList, modes := ["+nt".toList, "i".toList] }] }

theorem predef_facts : Sample.s5.fault = false ∧ GoodName chanConf.serverName ∧ chanConf.maxNickLength ≤ CLIENT_NICK_LEN ∧
    (∀ cs ∈ chanConf.servers, GoodName cs.name) ∧
    ((step Sample.s5 (.rehash chanConf)).chans.map (fun c => (c.name, c.topic, c.modes))) =
      ("#new".toList, "welcome".toList, "Pnti".toList) :: Sample.s5.chans.map (fun c => (c.name, c.topic, c.modes)) ∧
    ((Srv.init chanConf "host".toList 1).chans.map (fun c => (c.name, c.topic, c.modes))) =
      [("&SERVER".toList, "Server Messages".toList, "mnPt".toList), ("#new".toList, "welcome".toList, "Pnti".toList), ("#C".toList, "never".toList, "Ps".toList)] := by
  unfold GoodName
  decide +kernel

theorem plain_new : PlainChannel { name := "#new".toList, topic := "welcome".toList, modes := ["+nt".toList, "i".toList] } := by
  refine ⟨by decide, ?_, by decide⟩
  intro m hm
  rcases List.mem_cons.1 hm with rfl | hm
  · exact ⟨"nt".toList, .inr rfl, by decide, by decide, by decide⟩
  · cases List.mem_singleton.1 hm
    exact ⟨"i".toList, .inl rfl, by decide, by decide, by decide⟩

end Sample

/-- The sample server reads a configuration with a channel it has and one it has not (`predef_facts` shows the result). -/
example : PoliteRun Sample.s5 ∧ Sample.s5.fault = false ∧ GoodConf Sample.chanConf ∧
    (∃ cc ∈ Sample.chanConf.channels, ChannelName cc.name ∧ PlainChannel cc) := by
  obtain ⟨h1, h2, h3, h4, -⟩ := Sample.predef_facts
  exact ⟨polite_s5, h1, ⟨h2, h3, h4⟩, ⟨{ name := "#new".toList, topic := "welcome".toList, modes := ["+nt".toList, "i".toList] }, List.mem_cons_of_mem _ (List.mem_singleton.2 rfl), chanName_valid.1 (by decide), Sample.plain_new⟩⟩

/-! ## A violation -/

/-- **C91** The modes of a block are carried out as a command of the server itself, and errors are
answered to it, on a connection it does not have: the mode string `+o nobody`, or any mode of a
channel without modes (`+name`), stops the server when it starts or reads its configuration. -/
theorem C91_violated_by_modes :
    (∃ conf, GoodConf conf ∧ (Srv.init conf "host".toList 1).fault = true ∧
      conf.channels = [{ name := "#new".toList, modes := ["+o nobody".toList] }]) ∧
    (∃ conf, GoodConf conf ∧ (Srv.init conf "host".toList 1).fault = true ∧
      conf.channels = [{ name := "+new".toList, modes := ["+n".toList] }]) ∧
    (∃ conf, PoliteRun Sample.s5 ∧ Sample.s5.fault = false ∧ (step Sample.s5 (.rehash conf)).fault = true) := by
  obtain ⟨h1, h2, h3, h4, -⟩ := Sample.predef_facts
  refine ⟨⟨{ Sample.conf with channels := [{ name := "#new".toList, modes := ["+o nobody".toList] }] }, ⟨h2, h3, h4⟩, by decide +kernel, rfl⟩,
    ⟨{ Sample.conf with channels := [{ name := "+new".toList, modes := ["+n".toList] }] }, ⟨h2, h3, h4⟩, by decide +kernel, rfl⟩,
    ⟨{ Sample.conf with channels := [{ name := "#new".toList, modes := ["+o nobody".toList] }] }, polite_s5, h1, by decide +kernel⟩⟩

end Ngircd
