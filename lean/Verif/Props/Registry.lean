import Verif.Lemmas.Strict4
import Verif.Spec.SamplePolite

/-!
# Properties C12, C13, C14, C16, C17, C31, C41: names, memberships, channels, tokens, modes

All of them speak about every state the server can reach (`Reachable`), or about every state
it can reach while peers follow the server protocol (`PoliteRun`).
-/

set_option linter.unusedSimpArgs false

namespace Ngircd

open Spec

variable {s : Srv}

/-! ## The invariants hold -/

theorem thisServer_id {conf : Conf} (host : Str) (h : GoodName conf.serverName) :
    (thisServerC conf host).id = conf.serverName := by
  rw [(thisServerC_fields conf host).2.2.2.2.1, strlcpy_of_lt h.2.2]

theorem polite_inv {I : Srv → Prop}
    (hcore : ∀ s t : Srv, t.core = s.core → I s → I t)
    (hact : ∀ x t a, ¬ x.bad → Base t → I t → Okay x t a → I (a.run t))
    (hinit : ∀ conf host now, GoodConf conf → I (clientInit conf host now))
    (h : PoliteRun s) : I s :=
  reach_inv (bad := False) (loose := True) (fun _ _ hp => .inr hp) (.inl trivial) hcore
    (fun x t a hb _ hB hi hp => hact x t a hb hB hi hp) hinit h

theorem polite_name (h : PoliteRun s) : NameInv s := by
  refine polite_inv (fun s t hc hi => hi.of_eq (core_clients hc) (by rw [core_conf hc]))
    (fun x t a hb hB hi hp => hi.act hb hB hp) (fun conf host now hg => ?_) h
  have hid := thisServer_id host hg.1
  refine ⟨?_, ?_, by simp [clientInit], hg.2.1, hg.2.2⟩
  · intro c hc
    simp only [clientInit, List.mem_singleton] at hc
    subst hc; rw [hid]; exact .inr hg.1
  · intro c hc he
    simp only [clientInit, List.mem_singleton] at hc
    subst hc; rw [hid] at he; exact absurd he hg.1.1

theorem polite_kind (h : PoliteRun s) : KindInv s := by
  refine polite_inv (fun s t hc hi => hi.of_eq (core_clients hc) (by rw [core_cl2 hc]; exact fun m hm => ⟨m, hm, rfl⟩))
    (fun x t a hb hB hi hp => hi.act hb hB hp) (fun conf host now hg => ?_) h
  obtain ⟨h1, h2, h3, h4, _⟩ := thisServerC_fields conf host
  refine ⟨?_, by simp [clientInit]⟩
  intro c hc _
  simp only [clientInit, List.mem_singleton] at hc ⊢
  subst hc
  exact ⟨_, rfl, by rw [h1, h4], h2⟩

theorem polite_mode (h : PoliteRun s) : ModeInv s := by
  refine polite_inv (fun s t hc hi => ?_) (fun x t a hb hB hi hp => hi.act hb hB hp)
    (fun conf host now hg => ?_) h
  · obtain ⟨a, b, c⟩ := hi
    exact ⟨by rw [core_clients hc]; exact a, by rw [core_chans hc]; exact b, by rw [core_cl2 hc]; exact c⟩
  · refine ⟨?_, by simp [clientInit], by simp [clientInit]⟩
    intro c hc
    simp only [clientInit, List.mem_singleton] at hc
    subst hc
    rw [(thisServerC_fields conf host).2.2.2.2.2.2.1]; exact List.nodup_nil

theorem polite_chan (h : PoliteRun s) : ChanInv s := by
  refine polite_inv (fun s t hc hi => hi.sub (by rw [core_chans hc]; exact List.Sublist.refl _))
    (fun x t a hb _ hi hp => hi.act hb hp) (fun conf host now hg => ?_) h
  exact ⟨by simp [clientInit], by simp [clientInit], by simp [clientInit]⟩

theorem polite_nick (h : PoliteRun s) : NickInv s := by
  refine polite_inv (fun s t hc hi => hi.of_eq (core_clients hc) (by rw [core_conf hc]))
    (fun x t a hb hB hi hp => hi.act hb hB hp) (fun conf host now hg => ?_) h
  obtain ⟨h1, h2, h3, h4, _⟩ := thisServerC_fields conf host
  refine ⟨hg.2.1, ?_, ?_⟩
  · intro c hc hn
    simp only [clientInit, List.mem_singleton] at hc
    subst hc; rw [h3] at hn; cases hn
  · intro c hc hn
    simp only [clientInit, List.mem_singleton] at hc
    subst hc; rw [h3] at hn; cases hn

theorem reach_tok (h : Reachable s) : TokInv s := by
  refine reach_inv_all (fun s t hc hi => hi.of_eq (core_clients hc) (core_this hc))
    (fun x t a hB hi hp => hi.act hB hp) (fun conf host now => ?_) h
  obtain ⟨h1, h2, h3, h4, h5, h6, h7, h8⟩ := thisServerC_fields conf host
  refine ⟨by simp [clientInit], ?_, ?_⟩
  · intro c hc ht hr
    simp only [clientInit, List.mem_singleton] at hc
    subst hc; exact absurd h1 hr
  · intro c hc hr
    simp only [clientInit, List.mem_singleton] at hc
    subst hc; exact h8

theorem polite_s5 : PoliteRun Sample.s5 :=
  Sample.fine_s5.mono (fun _ h => h.1) (fun _ _ h => h.1)

/-! ## C12 -/

/-- **C12** No two clients known to the server carry the same name, comparing
case-insensitively, as long as peers follow the server protocol. -/
theorem C12_names_unique (h : PoliteRun s) : NamesUnique s := by
  intro a ha b hb hne hs
  exact (polite_name h).inj ha hb hne ((caseEq_same _ _).2 hs)

/-- Users, a remote user, a link and the server itself: five names. -/
example : PoliteRun Sample.s5 ∧ (Sample.s5.clients.map Client.id).length = 5 :=
  ⟨polite_s5, by decide +kernel⟩

/-- The state after a peer that breaks the rules has introduced the nick "a!b" twice. -/
def twice : Srv := Sample.lines Sample.s5 7
  [":peer.example.net NICK a!b 1 u h 1 + :x", ":peer.example.net NICK a!b 1 u h 1 + :x"]

/-- **C12, violated without that condition**: NICK from a server does not check the name, and a
name containing '!' is not found by the collision check. -/
theorem C12_violated_by_peer : ∃ t, Reachable t ∧ ¬ NamesUnique t := by
  refine ⟨twice, Sample.reach_lines Sample.reach_s5 _ _ (by decide +kernel), fun h => ?_⟩
  have h1 : ∃ a ∈ twice.clients, ∃ b ∈ twice.clients, a.id ≠ [] ∧ caseEq a.id b.id = true ∧ a.ref ≠ b.ref := by
    decide +kernel
  obtain ⟨a, ha, b, hb, hne, hc, hr⟩ := h1
  exact hr (by rw [h a ha b hb hne ((caseEq_same _ _).1 hc)])

/-! ## C13 -/

theorem nickPart_eq (n : Str) : cutAt (strlcpy CLIENT_ID_LEN n) '!' = nickPart n := by
  simp only [cutAt, strlcpy, CLIENT_ID_LEN, nickPart]
  congr 1
  funext c
  by_cases h : c = '!' <;> simp [h]

theorem find?_congr_mem {α : Type} {l : List α} {p q : α → Bool} (h : ∀ a ∈ l, p a = q a) : l.find? p = l.find? q := by
  induction l with
  | nil => rfl
  | cons a l ih =>
    rw [List.find?_cons, List.find?_cons, h a (by simp), ih (fun b hb => h b (by simp [hb]))]

/-- **C13** The hash never changes the answer of a lookup: in every reachable state the first
client with the wanted name is found, as if there were no hashes. -/
theorem C13_hash_irrelevant (h : Reachable s) (n : Str) (hn : nickPart n ≠ []) :
    clientSearch s n = s.clients.find? (fun c => caseEq c.id (nickPart n)) := by
  simp only [clientSearch, nickPart_eq]
  refine find?_congr_mem ?_
  intro c hc
  cases hce : caseEq c.id (nickPart n) with
  | false => simp
  | true =>
    have hid : c.id ≠ [] := by
      intro he; rw [he, caseEq_nil_left hn] at hce; cases hce
    have hh := (h.base.cl.hash c hc).resolve_right (fun g => hid g.1)
    rw [hh, C35_hash_case _ _ ((caseEq_same _ _).1 hce)]
    simp

/-- **C13** A lookup finds exactly the client with that name. -/
theorem C13_lookup (h : PoliteRun s) (n : Str) (c : Client) :
    clientSearch s n = some c ↔ c ∈ s.clients ∧ c.id ≠ [] ∧ SameCase c.id (nickPart n) := by
  have hi := polite_name h
  have hb := h.reachable.base
  constructor
  · intro hs
    simp only [clientSearch, nickPart_eq] at hs
    have hm := List.mem_of_find?_eq_some hs
    have hp := List.find?_some hs
    simp only [Bool.and_eq_true, beq_iff_eq] at hp
    refine ⟨hm, ?_, (caseEq_same _ _).1 hp.2⟩
    intro he
    have h0 := hi.hash c hm he
    have hnil : nickPart n = [] := by
      cases hn : nickPart n with
      | nil => rfl
      | cons a l => rw [he, hn, caseEq_nil_left (by simp)] at hp; exact absurd hp.2 (by simp)
    rw [h0, hnil] at hp
    exact absurd hp.1 (by decide)
  · rintro ⟨hm, hid, hs⟩
    have hn : nickPart n ≠ [] := by
      intro he; rw [he] at hs
      have := (caseEq_same _ _).2 hs
      rw [caseEq_comm, caseEq_nil_left hid] at this; cases this
    rw [C13_hash_irrelevant h.reachable n hn]
    cases hf : s.clients.find? (fun c => caseEq c.id (nickPart n)) with
    | none =>
      have := List.find?_eq_none.1 hf c hm
      rw [(caseEq_same _ _).2 hs] at this; exact absurd rfl this
    | some d =>
      have hd := List.mem_of_find?_eq_some hf
      have hp : caseEq d.id (nickPart n) = true := by
        have := List.find?_some hf; simpa using this
      have : caseEq c.id d.id = true := (caseEq_iff _ _).2
        (((caseEq_iff _ _).1 ((caseEq_same _ _).2 hs)).trans ((caseEq_iff _ _).1 hp).symm)
      rw [hi.inj hm hd hid this]

/-- Looking up "ALICE!x" in the sample run finds alice. -/
example : PoliteRun Sample.s5 ∧ (clientSearch Sample.s5 "ALICE!x".toList).map Client.ref = some 3 :=
  ⟨polite_s5, by decide +kernel⟩

/-- **C13** for channels. -/
theorem C13_channel_lookup (h : PoliteRun s) (n : Str) (c : Chan) :
    channelSearch s n = some c ↔ c ∈ s.chans ∧ SameCase c.name n := by
  have hi := polite_chan h
  constructor
  · intro hs
    have hm := List.mem_of_find?_eq_some hs
    have hp := List.find?_some hs
    simp only [Bool.and_eq_true, beq_iff_eq] at hp
    refine ⟨hm, (caseEq_same _ _).1 ?_⟩
    rw [caseEq_comm]; exact hp.2
  · rintro ⟨hm, hs⟩
    have hs' := (caseEq_same _ _).2 hs
    cases hf : channelSearch s n with
    | none =>
      have := channelSearch_none hi.hash hf c hm
      rw [caseEq_comm, hs'] at this; cases this
    | some d =>
      have hd := List.mem_of_find?_eq_some hf
      have hp := List.find?_some hf
      simp only [Bool.and_eq_true, beq_iff_eq] at hp
      have hcd : caseEq c.name d.name = true := (caseEq_iff _ _).2
        (((caseEq_iff _ _).1 hs').trans ((caseEq_iff _ _).1 hp.2))
      have huniq := hi.uniq
      congr 1
      generalize s.chans = l at hm hd huniq
      induction l with
      | nil => cases hm
      | cons a l ih =>
        obtain ⟨h1, h2⟩ := List.pairwise_cons.1 huniq
        rcases List.mem_cons.1 hm with rfl | hm'
        · rcases List.mem_cons.1 hd with rfl | hd'
          · rfl
          · rw [h1 d hd'] at hcd; cases hcd
        · rcases List.mem_cons.1 hd with rfl | hd'
          · rw [caseEq_comm, h1 c hm'] at hcd; cases hcd
          · exact ih hm' hd' h2

example : PoliteRun Sample.s5 ∧ (channelSearch Sample.s5 "#C".toList).map Chan.ref = some 5 :=
  ⟨polite_s5, by decide +kernel⟩

/-! ## C14 -/

/-- **C14** The check accepts exactly the valid nick names. -/
theorem C14_nick_check (max : Nat) (n : Str) : isValidNick max n = true ↔ ValidNick max n := isValidNick_iff max n

example : ValidNick 10 "al[i]ce-9".toList := (C14_nick_check _ _).1 (by decide +kernel)
example : ¬ ValidNick 10 "9lives".toList := fun h => absurd ((C14_nick_check _ _).2 h) (by decide +kernel)

/-- **C14** The nick name of every local connection that is not a server link is valid; a
registered user (and a client that has sent NICK) has one. -/
theorem C14_nicks_valid (h : PoliteRun s) {c : Client} (hc : c ∈ s.clients) (hl : c.conn.isSome = true)
    (h1 : c.type ≠ .server) (h2 : c.type ≠ .unknownServer) :
    (c.id = [] ∨ ValidNick s.conf.maxNickLength c.id) ∧ (c.type = .user → ValidNick s.conf.maxNickLength c.id) := by
  have hi := polite_nick h
  have hv := hi.valid c hc hl h1 h2
  rw [isValidNick_iff] at hv
  exact ⟨hv, fun hu => hv.resolve_left (hi.named c hc hl (.inr (.inl hu)))⟩

/-- alice and bob are local users of the sample run. -/
example : PoliteRun Sample.s5 ∧ (Sample.s5.clients.filter (fun c => c.conn.isSome && decide (c.type = .user))).length = 2 :=
  ⟨polite_s5, by decide +kernel⟩

/-- **C14** A local NICK with a name that is no valid nick name (and not the old one in another
letter case) is refused: nothing changes. -/
theorem C14_bad_nick_refused {cl : Nat} {nick : Str}
    (hv : ¬ ValidNick s.conf.maxNickLength nick) (hne : ¬ SameCase (s.cl cl).ID nick) :
    (nickTarget s cl cl nick).1.core = s.core ∧ (nickTarget s cl cl nick).1.clients = s.clients := by
  have key : (nickTarget s cl cl nick).1.core = s.core := by
    simp only [nickTarget]
    split
    · rfl
    · rw [if_neg (fun h => hne ((caseEq_same _ _).1 h))]
      have hc := clientCheckNick_core (s := s) (s.cl cl) nick
      generalize hr : clientCheckNick s (s.cl cl) nick = r at hc
      obtain ⟨s1, b⟩ := r
      cases b with
      | false => exact hc
      | true => exact absurd ((isValidNick_iff _ _).1 (clientCheckNick_true hr).2.1) hv
  exact ⟨key, core_clients key⟩

example : ¬ ValidNick Sample.s5.conf.maxNickLength "a b".toList ∧ ¬ SameCase (Sample.s5.cl 3).ID "a b".toList :=
  ⟨fun h => absurd ((C14_nick_check _ _).2 h) (by decide +kernel),
   fun h => absurd ((caseEq_same _ _).2 h) (by decide +kernel)⟩

/-! ## C16 -/

/-- **C16** Every membership refers to an existing channel, and nobody is on a channel twice:
in every reachable state, whatever peers send. -/
theorem C16_members_once (h : Reachable s) :
    (∀ m ∈ s.cl2, ∃ c ∈ s.chans, c.ref = m.chan) ∧
    s.cl2.Pairwise (fun m m' => ¬ (m.chan = m'.chan ∧ m.client = m'.client)) := by
  refine ⟨h.base.ch.chan, ?_⟩
  have := List.pairwise_map.1 h.base.ch.pairs
  exact this.imp (fun hne he => hne (by rw [he.1, he.2]))

/-- **C16** Every membership refers to an existing client, which is a user or a service. -/
theorem C16_members_exist (h : PoliteRun s) {m : Cl2Chan} (hm : m ∈ s.cl2) :
    ∃ c, IsClient s m.client c ∧ (c.type = .user ∨ c.type = .service) := by
  obtain ⟨c, hc, hr, ht⟩ := (polite_kind h).members m hm
  exact ⟨c, ⟨hc, hr⟩, ht⟩

/-- **C16** Whoever leaves the network is a member of no channel any more. -/
theorem C16_departed_on_no_channel (h : PoliteRun s) {e : Event} (he : PoliteEvent s e) (hf : s.fault = false)
    {c : Client} (hgone : ∀ d ∈ (step s e).clients, d.ref ≠ c.ref) (ch : Nat) :
    ¬ OnChannel (step s e) ch c.ref := by
  rintro ⟨m, hm, _, hc⟩
  obtain ⟨d, ⟨hd, hr⟩, _⟩ := C16_members_exist (ReachableWith.step e h hf he) hm
  exact hgone d hd (by rw [hr, hc])

/-- Four memberships exist in the sample run; when alice's connection is lost, hers is gone. -/
example : PoliteRun Sample.s5 ∧ Sample.s5.cl2.length = 3 ∧
    PoliteEvent Sample.s5 (.lost 5 none true) ∧
    (∀ d ∈ (step Sample.s5 (.lost 5 none true)).clients, d.ref ≠ 3) :=
  ⟨polite_s5, by decide +kernel, fun i _ _ h => by simp at h, by decide +kernel⟩

/-- A peer that lets a server join a channel and then removes that server. -/
def dangling : Srv := Sample.lines Sample.s5 7
  [":peer.example.net SERVER leaf.example.net 2 5 :leaf", ":peer.example.net NJOIN #c :leaf.example.net",
   ":peer.example.net SQUIT leaf.example.net :bye"]

/-- **C16, violated without that condition**: NJOIN does not check that the target is a user,
and removing a server does not look for memberships. -/
theorem C16_violated_by_peer : ∃ t, Reachable t ∧ ∃ m ∈ t.cl2, ∀ c ∈ t.clients, c.ref ≠ m.client :=
  ⟨dangling, Sample.reach_lines Sample.reach_s5 _ _ (by decide +kernel), by decide +kernel⟩

/-! ## C17 -/

/-- **C17** Channel names are unique, comparing case-insensitively, and valid. -/
theorem C17_names_unique (h : PoliteRun s) : ChannelsUnique s ∧
    ∀ c ∈ s.chans, c.name ≠ [] ∧ (∃ t, c.name.head? = some t ∧ t ∈ ['#', '&', '+']) ∧
      c.name.length < 51 ∧ ∀ x ∈ c.name, x ≠ ' ' ∧ x ≠ ',' ∧ x ≠ ':' ∧ x ≠ '\x07' := by
  refine ⟨?_, ?_⟩
  · intro a ha b hb hs
    have h1 := (C13_channel_lookup h b.name a).2 ⟨ha, hs⟩
    have h2 := (C13_channel_lookup h b.name b).2 ⟨hb, (caseEq_same _ _).1 (caseEq_refl' _)⟩
    rw [h1] at h2; exact Option.some.inj h2
  · intro c hc
    obtain ⟨hv, hne⟩ := (polite_chan h).good c hc
    simp only [isValidChanName, Bool.and_eq_true, decide_eq_true_eq] at hv
    obtain ⟨⟨h1, h2⟩, h3⟩ := hv
    refine ⟨hne, ?_, h2, ?_⟩
    · cases hn : c.name with
      | nil => exact absurd hn hne
      | cons t l =>
        rw [hn] at h1
        refine ⟨t, rfl, ?_⟩
        have h4 : ∀ d ∈ "#&+".toList, d ∈ ['#', '&', '+'] := by decide
        exact h4 t (by simpa using h1)
    · intro x hx
      have := List.all_eq_true.1 h3 x hx
      refine ⟨?_, ?_, ?_, ?_⟩ <;> (rintro rfl; revert this; decide)

example : PoliteRun Sample.s5 ∧ Sample.s5.chans.length = 2 := ⟨polite_s5, by decide +kernel⟩

/-- The runs in which no channel is left behind empty by a MODE -P, by a CHANINFO for an unknown
channel, or by a configuration taking `P` away. -/
def TidyRun : Srv → Prop := ReachableWith TidyConf TidyEvent

/-- **C17** Every channel has at least one member or is persistent: whatever users and peers
send, except for the requests named in `Tidy`. -/
theorem C17_no_empty_channels (h : TidyRun s) {c : Chan} (hc : c ∈ s.chans) :
    (∃ r, OnChannel s c.ref r) ∨ 'P' ∈ c.modes := by
  have hi : NonEmpty s :=
    reach_inv (bad := True) (loose := False) (fun _ _ _ => .inl trivial) (.inr ⟨fun _ _ h => h, fun _ h => h⟩)
      (fun s t hc hi => hi.of_eq (core_chans hc) (core_cl2 hc))
      (fun x t a _ hl hB hi hp => hi.act hl hB hp)
      (fun conf host now _ c hc => by simp [clientInit] at hc) h
  rcases hi c hc with h | h
  · left
    simp only [membersOf] at h
    obtain ⟨m, hm⟩ := List.exists_mem_of_ne_nil _ h
    obtain ⟨m', hm', rfl⟩ := List.mem_map.1 hm
    obtain ⟨h1, h2⟩ := List.mem_filter.1 hm'
    exact ⟨m'.client, m', h1, by simpa using h2, rfl⟩
  · exact .inr h

example : TidyRun Sample.s5 ∧ ∃ c ∈ Sample.s5.chans, 'P' ∉ c.modes :=
  ⟨Sample.fine_s5.mono (fun _ h => h.2) (fun _ _ h => h.2), by decide +kernel⟩

/-- **C17, violated by CHANINFO**: a peer's CHANINFO creates a channel nobody is on. -/
theorem C17_violated_by_chaninfo : ∃ t, PoliteRun t ∧ ∃ c ∈ t.chans, 'P' ∉ c.modes ∧ ∀ m ∈ t.cl2, m.chan ≠ c.ref := by
  refine ⟨step Sample.s5 (.line 7 7 ":peer.example.net CHANINFO #new +nt".toList), ?_, by decide +kernel⟩
  refine .step _ polite_s5 (by decide +kernel) (politeEvB_sound (by decide +kernel))

/-! ## C31 -/

/-- **C31** Every server known has a token of its own; those of other servers are at least 2,
this server's own is 1. -/
theorem C31_tokens_unique (h : Reachable s) :
    (∀ a ∈ s.clients, ∀ b ∈ s.clients, a.type = .server → b.type = .server → a.mytoken = b.mytoken → a = b) ∧
    (∀ c ∈ s.clients, c.type = .server → (c.ref = s.this ∧ c.mytoken = 1) ∨ 2 ≤ c.mytoken) := by
  have hi := reach_tok h
  refine ⟨?_, fun c hc ht => ?_⟩
  · have hu := hi.uniq
    generalize s.clients = l at hu
    induction l with
    | nil => intro a ha; cases ha
    | cons x l ih =>
      obtain ⟨h1, h2⟩ := List.pairwise_cons.1 hu
      intro a ha b hb hta htb he
      rcases List.mem_cons.1 ha with ha | ha
      · rcases List.mem_cons.1 hb with hb | hb
        · rw [ha, hb]
        · rw [ha] at he hta; exact absurd he (h1 b hb hta htb)
      · rcases List.mem_cons.1 hb with hb | hb
        · rw [hb] at he htb; exact absurd he.symm (h1 a ha htb hta)
        · exact ih h2 a ha b hb hta htb he
  · by_cases hr : c.ref = s.this
    · exact .inl ⟨hr, hi.self c hc hr⟩
    · exact .inr (hi.ge c hc ht hr)

/-- **C31** A new server gets the smallest token that is free. -/
theorem C31_token_smallest (s : Srv) : 2 ≤ genMyToken s ∧ (∀ c ∈ s.clients, c.mytoken ≠ genMyToken s) ∧
    ∀ k : Int, 2 ≤ k → k < genMyToken s → ∃ c ∈ s.clients, c.mytoken = k :=
  ⟨genMyToken_ge s, genMyToken_free s, fun k h1 h2 => freeToken_least _ _ _ k h1 h2⟩

example : Reachable Sample.s5 ∧ (Sample.s5.clients.filter (fun c => decide (c.type = .server))).map Client.mytoken = [2, 1] :=
  ⟨Sample.reach_s5, by decide +kernel⟩

/-! ## C41 -/

/-- **C41** No mode string ever contains a letter twice. -/
theorem C41_modes_are_sets (h : PoliteRun s) :
    (∀ c ∈ s.clients, c.modes.Nodup) ∧ (∀ c ∈ s.chans, c.modes.Nodup) ∧ (∀ m ∈ s.cl2, m.modes.Nodup) :=
  ⟨(polite_mode h).cl, (polite_mode h).ch, (polite_mode h).mem⟩

/-- alice has the member mode `o` on `#c`. -/
example : PoliteRun Sample.s5 ∧ HasRank Sample.s5 5 3 'o' := ⟨polite_s5, by
  refine ⟨⟨3, 5, ['o']⟩, ?_, rfl, rfl, by simp⟩
  decide +kernel⟩

/-- **C41** Adding a letter reports whether the set changed; while the buffer (20 letters) has
room the result is the set with the letter added. -/
theorem C41_add (modes : Str) (m : Char) (hroom : modes.length < 20) :
    ((modeAdd modes m).2 = true ↔ m ∉ modes) ∧
    ∀ c, c ∈ (modeAdd modes m).1 ↔ c ∈ modes ∨ c = m := by
  simp only [modeAdd]
  split
  · rename_i h
    have h : m ∈ modes := by simpa [hasChar] using h
    refine ⟨by simp [h], fun c => ?_⟩
    constructor
    · exact .inl
    · rintro (h' | rfl)
      · exact h'
      · exact h
  · rename_i h
    have h : m ∉ modes := by simpa [hasChar] using h
    refine ⟨by simp [h], fun c => ?_⟩
    show c ∈ strlcat CLIENT_MODE_LEN modes [m] ↔ _
    rw [strlcat_eq _ _ _ (by simp only [CLIENT_MODE_LEN]; omega), List.take_of_length_le (by simp [CLIENT_MODE_LEN]; omega)]
    simp

example : (modeAdd "nt".toList 's').1 = "nts".toList := by decide +kernel

/-- **C41** A full buffer: the letter is reported as newly set, but it is not. -/
theorem C41_add_full (modes : Str) (m : Char) (hfull : modes.length = 20) (hm : m ∉ modes) :
    modeAdd modes m = (modes, true) := by
  have h : hasChar modes m = false := by simpa [hasChar] using hm
  simp only [modeAdd, h]
  rw [if_neg (by simp), strlcat_eq _ _ _ (by simp only [CLIENT_MODE_LEN]; omega)]
  simp only [CLIENT_MODE_LEN]
  rw [List.take_append_of_le_length (by omega), List.take_of_length_le (by omega)]

example : ("abcdefghijklmnopqrst".toList).length = 20 := by decide +kernel

/-- **C41** Deleting a letter from a set reports whether the set changed, and the result is the
set without the letter. -/
theorem C41_del (modes : Str) (m : Char) (hset : modes.Nodup) :
    ((modeDel modes m).2 = true ↔ m ∈ modes) ∧
    ∀ c, c ∈ (modeDel modes m).1 ↔ c ∈ modes ∧ c ≠ m := by
  simp only [modeDel]
  split
  · rename_i h
    have h : m ∈ modes := by simpa [hasChar] using h
    refine ⟨by simp [h], fun c => ?_⟩
    show c ∈ modes.erase m ↔ _
    rw [List.Nodup.mem_erase_iff hset]
    exact And.comm
  · rename_i h
    have h : m ∉ modes := by simpa [hasChar] using h
    refine ⟨by simp [h], fun c => ?_⟩
    constructor
    · exact fun hc => ⟨hc, fun e => h (e ▸ hc)⟩
    · exact And.left

example : (modeDel "nts".toList 't').1 = "ns".toList := by decide +kernel

/-- **C41, violated by peers**: the modes of a remote user are copied without a check. -/
theorem C41_violated_by_peer : ∃ t, Reachable t ∧ ∃ c ∈ t.clients, ¬ c.modes.Nodup :=
  ⟨step Sample.s5 (.line 7 7 ":peer.example.net NICK yan 1 u h 1 +ii :x".toList),
    .step _ Sample.reach_s5 (by decide +kernel), by decide +kernel⟩

end Ngircd
