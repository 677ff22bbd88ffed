import Verif.Props.Metadata

/-!
# C78: CHANINFO
-/

set_option linter.unusedSimpArgs false

namespace Ngircd
open Spec

variable {s v t : Srv} {i j : Nat} {l : Str} {cl : Nat} {req : Request} {d f p x : Client} {c : Chan}

theorem chan_const (hi : ChInv v) (hc : c ∈ v.chans) {e : Chan} (he : e.ref = c.ref) : (v.updChan c.ref (fun _ => e)).chan c.ref = e := by
  have hi' : ChInv (v.updChan c.ref (fun d => if d.ref = c.ref then e else d)) := hi.updChan _ _ (fun d => by
    split
    · rename_i h; exact he.trans h.symm
    · rfl)
  have e1 : v.updChan c.ref (fun d => if d.ref = c.ref then e else d) = v.updChan c.ref (fun _ => e) := by
    simp only [Srv.updChan]
    congr 1
    refine List.map_congr_left (fun d _ => ?_)
    split <;> rfl
  rw [e1] at hi'
  have hm : e ∈ (v.updChan c.ref (fun _ => e)).chans := mem_updChan.2 ⟨c, hc, (if_pos rfl).symm⟩
  have := chan_of_mem hi' hm
  rwa [he] at this

theorem const_const {a b : Chan} (ha : a.ref = c.ref) : (v.updChan c.ref (fun _ => a)).updChan c.ref (fun _ => b) = v.updChan c.ref (fun _ => b) := by
  simp only [Srv.updChan, List.map_map]
  congr 1
  refine List.map_congr_left (fun d _ => ?_)
  simp only [Function.comp]
  by_cases h : d.ref = c.ref
  · simp [h, ha]
  · simp [h]

theorem const_upd {a : Chan} (ha : a.ref = c.ref) (g : Chan → Chan) : (v.updChan c.ref (fun _ => a)).updChan c.ref g = v.updChan c.ref (fun _ => g a) := by
  simp only [Srv.updChan, List.map_map]
  congr 1
  refine List.map_congr_left (fun d _ => ?_)
  simp only [Function.comp]
  by_cases h : d.ref = c.ref
  · simp [h, ha]
  · simp [h]

theorem infoModes_ref (m : Str) (kl : Option (Str × Str)) (c : Chan) : (infoModes m kl c).ref = c.ref ∧ (infoModes m kl c).topic = c.topic := by
  unfold infoModes
  split
  · cases kl <;> exact ⟨rfl, rfl⟩
  · exact ⟨rfl, rfl⟩

theorem infoTopic_ref (n : Nat) (t : Str) (c : Chan) : (infoTopic n t c).ref = c.ref := by
  unfold infoTopic
  split <;> rfl

theorem like_upd (u : Srv) (r : Nat) (g : Chan → Chan) (o : List Sent) : Like u { u.updChan r g with out := o } := ⟨rfl, rfl, rfl, rfl, rfl⟩

theorem modeDel_erase (ms : Str) (m : Char) : (modeDel ms m).1 = ms.erase m := by
  unfold modeDel
  split
  · rfl
  · rename_i h
    rw [List.erase_of_not_mem]
    intro hm
    exact h (by simpa [hasChar] using hm)

theorem infoArgs_arg {n m t : Str} {kl : Option (Str × Str)} {argv : List Str} (h : infoArgs argv = some (n, m, kl, t)) :
    argv.getD 0 [] = n ∧ argv.getD 1 [] = m ∧ (∀ k l, kl = some (k, l) → argv.length = 5 ∧ argv.getD 2 [] = k ∧ argv.getD 3 [] = l ∧ argv.getD 4 [] = t) ∧
    (kl = none → argv.length ≠ 5 ∧ (if argv.length = 3 then argv.getD 2 [] else []) = t) ∧ (argv.length = 2 ∨ argv.length = 3 ∨ argv.length = 5) := by
  unfold infoArgs at h
  split at h
  · injection h with h; injection h with h1 h; injection h with h2 h; injection h with h3 h4
    subst h1 h2 h3 h4
    exact ⟨rfl, rfl, fun _ _ h => (by cases h), fun _ => ⟨by simp, rfl⟩, .inl rfl⟩
  · injection h with h; injection h with h1 h; injection h with h2 h; injection h with h3 h4
    subst h1 h2 h3 h4
    exact ⟨rfl, rfl, fun _ _ h => (by cases h), fun _ => ⟨by simp, rfl⟩, .inr (.inl rfl)⟩
  · injection h with h; injection h with h1 h; injection h with h2 h; injection h with h3 h4
    subst h1 h2 h3 h4
    refine ⟨rfl, rfl, fun _ _ h => ?_, fun h => (by cases h), .inr (.inr rfl)⟩
    injection h with h; injection h with h1 h2
    subst h1 h2
    exact ⟨rfl, rfl, rfl, rfl⟩
  · cases h

/-- The modes part of CHANINFO. -/
theorem info_modes (hb : Base v) (hc : c ∈ v.chans) {n m t : Str} {kl : Option (Str × Str)} (ha : infoArgs req.argv = some (n, m, kl, t)) (r : Nat) :
    chaninfoModes v cl r c.ref req =
      if m.head? = some '+' ∧ c.modes = [] then
        writeChannelPrefix (v.updChan c.ref (fun _ => infoModes m kl c)) cl c.ref (v.cl r) false
          ⟨"MODE", n :: ('+' :: (infoModes m kl c).modes) ::
            ((if 'l' ∈ (infoModes m kl c).modes then [intStr (infoModes m kl c).maxusers] else []) ++
             if 'k' ∈ (infoModes m kl c).modes then [(infoModes m kl c).key] else [])⟩
      else v := by
  obtain ⟨a0, a1, a5, a3, -⟩ := infoArgs_arg ha
  have e0 : req.arg 0 = n := a0
  have e1 : req.arg 1 = m := a1
  unfold chaninfoModes
  rw [e1, e0, chan_of_mem hb.ch hc]
  by_cases h : m.head? = some '+' ∧ c.modes = []
  · rw [if_pos h, if_pos (show (decide (m.head? = some '+') && c.modes.isEmpty) = true by rw [Bool.and_eq_true]; exact ⟨decide_eq_true h.1, by rw [h.2]; rfl⟩)]
    have key : (if req.argc = 5 then
        let s := if ((channelSetModes v c.ref m.tail).chan c.ref).hasMode 'k' then channelSetKey (channelSetModes v c.ref m.tail) c.ref (req.arg 2) else channelSetModes v c.ref m.tail
        if (s.chan c.ref).hasMode 'l' then channelSetMaxUsers s c.ref (atoi (req.arg 3)).toNat else s
      else (channelModeDel (channelModeDel (channelSetModes v c.ref m.tail) c.ref 'l').1 c.ref 'k').1) = v.updChan c.ref (fun _ => infoModes m kl c) := by
      have e2 : channelSetModes v c.ref m.tail = v.updChan c.ref (fun _ => { c with modes := m.tail.take 20 }) :=
        (updChan_const hb.ch hc (fun c => { c with modes := strlcpy CHANNEL_MODE_LEN m.tail })).symm
      rw [e2]
      cases kl with
      | none =>
        rw [if_neg (show ¬ req.argc = 5 from (a3 rfl).1)]
        simp only [channelModeDel]
        rw [const_upd (c := c) (a := { c with modes := m.tail.take 20 }) rfl, const_upd (c := c) (a := { c with modes := (modeDel (m.tail.take 20) 'l').1 }) rfl]
        simp only [modeDel_erase, infoModes, if_pos h]
      | some kl =>
        obtain ⟨k, l⟩ := kl
        obtain ⟨b1, b2, b3, b4⟩ := a5 k l rfl
        rw [if_pos (show req.argc = 5 from b1), chan_const hb.ch hc (e := { c with modes := m.tail.take 20 }) rfl]
        have e3 : (if ({ c with modes := m.tail.take 20 } : Chan).hasMode 'k' then channelSetKey (v.updChan c.ref (fun _ => { c with modes := m.tail.take 20 })) c.ref (req.arg 2)
            else v.updChan c.ref (fun _ => { c with modes := m.tail.take 20 })) =
            v.updChan c.ref (fun _ => { c with modes := m.tail.take 20, key := if 'k' ∈ m.tail.take 20 then k.take 64 else c.key }) := by
          by_cases hk : 'k' ∈ m.tail.take 20
          · rw [if_pos (show ({ c with modes := m.tail.take 20 } : Chan).hasMode 'k' = true by simpa [Chan.hasMode, hasChar] using hk), channelSetKey,
              const_upd (c := c) (a := { c with modes := m.tail.take 20 }) rfl]
            simp only [if_pos hk]
            rw [show req.arg 2 = k from b2]
            rfl
          · rw [if_neg (show ¬ ({ c with modes := m.tail.take 20 } : Chan).hasMode 'k' = true by simpa [Chan.hasMode, hasChar] using hk)]
            simp only [if_neg hk]
        rw [e3]
        simp only
        rw [chan_const hb.ch hc (e := { c with modes := m.tail.take 20, key := if 'k' ∈ m.tail.take 20 then k.take 64 else c.key }) rfl]
        by_cases hl : 'l' ∈ m.tail.take 20
        · rw [if_pos (show ({ c with modes := m.tail.take 20, key := if 'k' ∈ m.tail.take 20 then k.take 64 else c.key } : Chan).hasMode 'l' = true by simpa [Chan.hasMode, hasChar] using hl),
            channelSetMaxUsers,
            const_upd (c := c) (a := { c with modes := m.tail.take 20, key := if 'k' ∈ m.tail.take 20 then k.take 64 else c.key }) rfl]
          simp only [infoModes, if_pos h, if_pos hl]
          rw [show req.arg 3 = l from b3]
        · rw [if_neg (show ¬ ({ c with modes := m.tail.take 20, key := if 'k' ∈ m.tail.take 20 then k.take 64 else c.key } : Chan).hasMode 'l' = true by simpa [Chan.hasMode, hasChar] using hl)]
          simp only [infoModes, if_pos h, if_neg hl]
    simp only [key]
    rw [chan_const hb.ch hc (infoModes_ref m kl c).1]
    congr 1
    simp only [Chan.hasMode, hasChar_iff]
  · rw [if_neg h, if_neg (show ¬ (decide (m.head? = some '+') && c.modes.isEmpty) = true from fun g => by
      rw [Bool.and_eq_true, decide_eq_true_eq, List.isEmpty_iff] at g; exact h g)]

/-- The topic part of CHANINFO. -/
theorem info_topic (hb : Base v) (hc : c ∈ v.chans) (hs : (v.cl cl).type = .server) {n m t : Str} {kl : Option (Str × Str)} (ha : infoArgs req.argv = some (n, m, kl, t))
    (ht : t.length < COMMAND_LEN) (r : Nat) :
    chaninfoTopic v cl r c.ref req =
      if c.topic = [] ∧ t ≠ [] then writeChannelPrefix (v.updChan c.ref (fun _ => infoTopic v.now t c)) cl c.ref (v.cl r) false ⟨"TOPIC", [n, t]⟩ else v := by
  obtain ⟨a0, a1, a5, a3, -⟩ := infoArgs_arg ha
  have e0 : req.arg 0 = n := a0
  have et : (if req.argc = 5 then req.arg 4 else if req.argc = 3 then req.arg 2 else []) = t := by
    cases kl with
    | none => rw [if_neg (show ¬ req.argc = 5 from (a3 rfl).1)]; exact (a3 rfl).2
    | some kl => rw [if_pos (show req.argc = 5 from (a5 kl.1 kl.2 rfl).1)]; exact (a5 kl.1 kl.2 rfl).2.2.2
  unfold chaninfoTopic
  rw [et, e0, chan_of_mem hb.ch hc]
  by_cases h : c.topic = [] ∧ t ≠ []
  · rw [if_pos h, if_pos (show (c.topic.isEmpty && !t.isEmpty) = true by rw [h.1, Bool.and_eq_true]; exact ⟨rfl, by simpa using h.2⟩)]
    have e : channelSetTopic v c.ref (some (v.cl cl)) t = v.updChan c.ref (fun _ => infoTopic v.now t c) := by
      rw [infoTopic, if_pos h]
      refine Eq.trans ?_ (updChan_const hb.ch hc (fun c => { c with topic := t, topicTime := v.now, topicWho := "-Server-".toList })).symm
      unfold channelSetTopic
      simp only [if_neg (show ¬ t.length ≥ COMMAND_LEN by omega), if_neg (show ¬ (v.cl cl).type ≠ .server from fun g => g hs)]
    simp only
    rw [e, chan_const hb.ch hc (infoTopic_ref _ _ _)]
    have e2 : (infoTopic v.now t c).topic = t := by rw [infoTopic, if_pos h]
    rw [e2]
    rfl
  · rw [if_neg h, if_neg (show ¬ (c.topic.isEmpty && !t.isEmpty) = true from fun g => h (by
      rw [Bool.and_eq_true, List.isEmpty_iff, Bool.not_eq_true', List.isEmpty_eq_false_iff] at g; exact g))]

/-- What the local members and the linked servers get. -/
theorem peer_told (hb : Base v) (hcl : v.cl cl ∈ v.clients) (hcr : (v.cl cl).ref = cl) (hci : (v.cl cl).conn = some i) (hs : (v.cl cl).type = .server)
    (r ch : Nat) (x : Char) (m : Msg) : ∀ ms : List Msg, ∃ oc of, (∀ t, Like v t → ms.foldl (fun t m => writeChannelPrefix t cl ch (v.cl r) false m) t = { t with out := oc ++ t.out }) ∧
      (∀ t, Like v t → writeServersFlag t (some cl) (v.cl r) (some x) m = { t with out := of ++ t.out }) ∧ PeerTold v i (v.cl r) ch ms x m (of ++ oc) := by
  intro ms
  obtain ⟨of, k1, k2, k3⟩ := flag_spec hb (some cl) (v.cl r) x m
  have hlm : ∀ j, LocalMember v cl ch j ↔ Listens v ch j := by
    intro j
    constructor
    · rintro ⟨d, hd, -, h1, h2, h3⟩; exact ⟨d, hd, h1, h2, h3⟩
    · rintro ⟨d, hd, h1, h2, h3⟩
      refine ⟨d, hd, ?_, h1, h2, h3⟩
      intro e
      have : d = v.cl cl := hb.cl.ord.eq_of_ref hd hcl (e.trans hcr.symm)
      rw [this] at h2
      exact h2 hs
  have hoc : ∃ oc : List Sent, (∀ t, Like v t → ms.foldl (fun t m => writeChannelPrefix t cl ch (v.cl r) false m) t = { t with out := oc ++ t.out }) ∧
      (∀ j, Listens v ch j → (onConn oc j).reverse = ms.map (fun m => ⟨j, some (maskCloaked v (v.cl r)), m⟩)) ∧ (∀ y ∈ oc, ms ≠ [] ∧ Listens v ch y.conn) := by
    clear k1 k2 k3
    induction ms with
    | nil => exact ⟨[], fun t _ => rfl, fun j _ => rfl, fun y hy => (by cases hy)⟩
    | cons m0 ms ih =>
      obtain ⟨o1, q1, q2, q3⟩ := ih
      obtain ⟨o0, p1, p2, p3⟩ := channel_spec hb cl ch (v.cl r) m0
      refine ⟨o1 ++ o0, fun t ht => ?_, fun j hj => ?_, fun y hy => ?_⟩
      · rw [List.foldl_cons, p1 t ht, q1 { t with out := o0 ++ t.out } ⟨ht.clients, ht.conns, ht.cl2, ht.conf, ht.this⟩, List.append_assoc]
      · rw [onConn_append, List.reverse_append, q2 j hj, p2 j ((hlm j).2 hj)]
        rfl
      · refine ⟨List.cons_ne_nil _ _, ?_⟩
        rcases List.mem_append.1 hy with h | h
        · exact (q3 y h).2
        · exact (hlm _).1 (p3 y h)
  obtain ⟨oc, q1, q2, q3⟩ := hoc
  have hother : ∀ y ∈ of, y.conn ≠ i ∧ Speaks v y.conn x := by
    intro y hy
    obtain ⟨d, hd, h1, h2, h3, h4⟩ := k3 y hy
    refine ⟨?_, d, hd, h1, h2, h3⟩
    intro e
    rw [e] at h2
    have := conn_owner hb hd hcl h2 hci
    rw [this, hcr] at h4
    exact h4 rfl
  have hdis : ∀ j, Listens v ch j → ¬ Speaks v j x := by
    rintro j ⟨d, hd, h1, h2, -⟩ ⟨d', hd', h1', h2', -⟩
    rw [conn_owner hb hd hd' h1 h2'] at h2
    exact h2 h1'
  have hnil : ∀ {o : List Sent} {j : Nat}, (∀ y ∈ o, y.conn ≠ j) → onConn o j = [] := by
    intro o j h
    rw [onConn, List.filter_eq_nil_iff]
    intro y hy he
    exact h y hy (by simpa using he)
  refine ⟨oc, of, q1, k1, ⟨fun j hj => ?_, fun j hj hsp => ?_, fun y hy => ?_⟩⟩
  · rw [onConn_append, hnil (o := of) (fun y hy e => hdis j hj (by rw [← e]; exact (hother y hy).2))]
    exact q2 j hj
  · rw [onConn_append, hnil (o := oc) (fun y hy e => hdis j (by rw [← e]; exact (q3 y hy).2) hsp), List.append_nil]
    obtain ⟨d, hd, h1, h2, h3⟩ := hsp
    refine k2 j d hd h1 h2 h3 ?_
    intro e
    injection e with e
    have : d = v.cl cl := hb.cl.ord.eq_of_ref hd hcl (e.trans hcr.symm)
    rw [this, hci] at h2
    injection h2 with h2
    exact hj h2.symm
  · exact (List.mem_append.1 hy).elim (fun h => .inr (hother y h)) (fun h => .inl (q3 y h))
theorem base_const (hb : Base v) (hc : c ∈ v.chans) {e : Chan} (he : e.ref = c.ref) : Base (v.updChan c.ref (fun _ => e)) := by
  have hi' : ChInv (v.updChan c.ref (fun d => if d.ref = c.ref then e else d)) := hb.ch.updChan _ _ (fun d => by
    split
    · rename_i h; exact he.trans h.symm
    · rfl)
  have e1 : v.updChan c.ref (fun d => if d.ref = c.ref then e else d) = v.updChan c.ref (fun _ => e) := by
    simp only [Srv.updChan]
    congr 1
    refine List.map_congr_left (fun d _ => ?_)
    split <;> rfl
  rw [e1] at hi'
  exact ⟨hb.cl.of_eq rfl rfl rfl (Nat.le_refl _) rfl, hi'⟩

theorem write_upd (hb : Base v) (ht : Like v t) (ch r : Nat) (g : Chan → Chan) (p : Client) (m : Msg) :
    (writeChannelPrefix t cl ch p false m).updChan r g = writeChannelPrefix (t.updChan r g) cl ch p false m := by
  obtain ⟨o, k1, -, -⟩ := channel_spec hb cl ch p m
  rw [k1 t ht, k1 (t.updChan r g) ⟨ht.clients, ht.conns, ht.cl2, ht.conf, ht.this⟩]
  rfl

/-- CHANINFO for an existing channel. -/
theorem info_run (hb : Base v) (hc : c ∈ v.chans) (hs : (v.cl cl).type = .server) {n m tp : Str} {kl : Option (Str × Str)} (ha : infoArgs req.argv = some (n, m, kl, tp))
    (ht : tp.length < COMMAND_LEN) (r : Nat) :
    chaninfoTopic (chaninfoModes v cl r c.ref req) cl r c.ref req =
      (infoTells n m kl tp c).foldl (fun t m => writeChannelPrefix t cl c.ref (v.cl r) false m) (v.updChan c.ref (fun c => infoTopic v.now tp (infoModes m kl c))) := by
  rw [info_modes hb hc ha r, ← updChan_const hb.ch hc (fun c => infoTopic v.now tp (infoModes m kl c))]
  obtain ⟨h1, h2⟩ := infoModes_ref m kl c
  have hlast : ∀ u : Srv, Base u → infoModes m kl c ∈ u.chans → (u.cl cl).type = .server → u.now = v.now → u.cl r = v.cl r → Like v u →
      chaninfoTopic u cl r c.ref req = (if c.topic = [] ∧ tp ≠ [] then [(⟨"TOPIC", [n, tp]⟩ : Msg)] else []).foldl (fun t m => writeChannelPrefix t cl c.ref (v.cl r) false m)
        (u.updChan c.ref (fun _ => infoTopic v.now tp (infoModes m kl c))) := by
    intro u hu hm hus hn hr _
    rw [← h1, info_topic hu hm hus ha ht r, h2, hn, hr]
    split
    · rfl
    · rename_i hno
      rw [List.foldl_nil, infoTopic, h2, if_neg hno]
      exact (updChan_self hu.ch hm).symm
  unfold infoTells
  by_cases h : m.head? = some '+' ∧ c.modes = []
  · rw [if_pos h, if_pos h, List.foldl_append, List.foldl_cons, List.foldl_nil]
    obtain ⟨ms, hms⟩ : ∃ ms : Msg, ms = ⟨"MODE", n :: ('+' :: (infoModes m kl c).modes) ::
            ((if 'l' ∈ (infoModes m kl c).modes then [intStr (infoModes m kl c).maxusers] else []) ++
             if 'k' ∈ (infoModes m kl c).modes then [(infoModes m kl c).key] else [])⟩ := ⟨_, rfl⟩
    rw [← hms]
    have hb1 := base_const hb hc h1
    obtain ⟨o, k1, -, -⟩ := channel_spec hb cl c.ref (v.cl r) ms
    have hl : Like v (v.updChan c.ref (fun _ => infoModes m kl c)) := ⟨rfl, rfl, rfl, rfl, rfl⟩
    rw [hlast _ (Base.of_core (core_writeChannelPrefix ..) hb1) (by rw [k1 _ hl]; exact mem_updChan.2 ⟨c, hc, (if_pos rfl).symm⟩) (by rw [k1 _ hl]; exact hs)
      (by rw [k1 _ hl]; rfl) (by rw [k1 _ hl]; rfl) (by rw [k1 _ hl]; exact ⟨rfl, rfl, rfl, rfl, rfl⟩), write_upd hb hl, const_const h1]
  · have e : infoModes m kl c = c := by unfold infoModes; exact if_neg h
    rw [if_neg h, if_neg h, List.nil_append, hlast v hb (by rw [e]; exact hc) hs rfl rfl ⟨rfl, rfl, rfl, rfl, rfl⟩]

/-- **C78** A linked server sends CHANINFO for a known channel: the channel takes over modes, key and limit if it has no modes yet, and the topic if it has none; nothing
else changes. The local members are told what has changed; all other linked servers that understand CHANINFO get it as it was; nobody else gets a line. -/
theorem C78_chaninfo (h : PoliteRun s) (hr : Received s i l cl req) (hs : (s.cl cl).type = .server) (his : Is req "CHANINFO")
    {p n m tp : Str} {kl : Option (Str × Str)} (hargs : infoArgs req.argv = some (n, m, kl, tp)) (ht : tp.length < COMMAND_LEN)
    (hp : req.prefix? = some p) (hf : clientNamed s p = some f) (hc : channelNamed s n = some c) (rnd : Int) :
    ∃ o, Emitted (withChannel s c.ref (fun c => infoTopic s.now tp (infoModes m kl c))) (step s (.line i rnd l)) o ∧
      PeerTold s i f c.ref (infoTells n m kl tp c) 'C' ⟨"CHANINFO", req.argv⟩ o := by
  have hb := h.reachable.base
  rw [← clientNamed_eq h] at hf
  rw [← channelNamed_eq h] at hc
  have ha := hr.asker hb rnd
  have hbr := ha.base
  obtain ⟨a0, -, -, -, al⟩ := infoArgs_arg hargs
  have hcm := channelSearch_mem hc
  have hfm := cl_of_mem hb.cl.ord (clientSearch_mem hf)
  have hok : (decide (req.argc < 2) || decide (req.argc = 4) || decide (req.argc > 5)) = false := by
    rw [Request.argc]
    rcases al with e | e | e <;> rw [e] <;> rfl
  rw [step_do hr rnd his rfl (by rw [hs]; rfl) (by rw [Command.argcOk, Bool.and_eq_true]; exact ⟨decide_eq_true (Nat.zero_le _), rfl⟩)]
  show ∃ o, Emitted _ (ircCHANINFO (s.roll rnd) cl req).1 o ∧ _
  have hg : getSender (s.roll rnd) cl req = .ok f.ref := by
    unfold getSender
    rw [if_pos (show ((s.roll rnd).cl cl).type = .server from hs), hp]
    simp only
    rw [roll_search, hf]
  unfold ircCHANINFO
  rw [if_neg (by rw [hok]; decide), hg]
  simp only
  have e1 : chaninfoChan (s.roll rnd) (req.arg 0) = (s.roll rnd, c.ref) := by
    unfold chaninfoChan
    rw [roll_chan, show req.arg 0 = n from a0, hc]
  rw [e1]
  simp only
  rw [info_run (v := s.roll rnd) hbr hcm hs hargs ht]
  obtain ⟨oc, of, q1, q2, q3⟩ := peer_told hbr ha.mem ha.ref ha.conn hs f.ref c.ref 'C' ⟨"CHANINFO", req.argv⟩ (infoTells n m kl tp c)
  rw [q1 ((s.roll rnd).updChan c.ref (fun c => infoTopic (s.roll rnd).now tp (infoModes m kl c))) ⟨rfl, rfl, rfl, rfl, rfl⟩]
  refine ⟨of ++ oc, ?_, ?_⟩
  · have := q2 { (s.roll rnd).updChan c.ref (fun c => infoTopic (s.roll rnd).now tp (infoModes m kl c)) with
        out := oc ++ ((s.roll rnd).updChan c.ref (fun c => infoTopic (s.roll rnd).now tp (infoModes m kl c))).out } ⟨rfl, rfl, rfl, rfl, rfl⟩
    refine ⟨rnd, Eq.trans this ?_⟩
    simp only [List.append_assoc]
    rfl
  · rw [roll_cl, hfm] at q3
    exact ⟨q3.members, q3.links, q3.others⟩
/-- **C78** CHANINFO for a channel nobody here knows: a channel without members is made, with the modes and the topic told; all other linked servers that
understand CHANINFO get it as it was; nobody else gets a line. -/
theorem C78_new_channel (h : PoliteRun s) (hr : Received s i l cl req) (hs : (s.cl cl).type = .server) (his : Is req "CHANINFO")
    {p n m tp : Str} {kl : Option (Str × Str)} (hargs : infoArgs req.argv = some (n, m, kl, tp)) (ht : tp.length < COMMAND_LEN)
    (hp : req.prefix? = some p) (hf : clientNamed s p = some f) (hc : channelNamed s n = none) (rnd : Int) :
    ∃ o, Emitted (withNewChannel s (infoTopic s.now tp (infoModes m kl (emptyChannel s n)))) (step s (.line i rnd l)) o ∧
      (∀ j, j ≠ i → Speaks s j 'C' → onConn o j = [⟨j, some f.ID, ⟨"CHANINFO", req.argv⟩⟩]) ∧ (∀ y ∈ o, y.conn ≠ i ∧ Speaks s y.conn 'C') := by
  have hb := h.reachable.base
  rw [← clientNamed_eq h] at hf
  rw [← channelNamed_eq h] at hc
  have ha := hr.asker hb rnd
  have hbr : Base (channelCreate (s.roll rnd) n) := ⟨ha.base.cl.of_eq rfl rfl rfl (Nat.le_succ _) rfl, ha.base.ch.create n⟩
  obtain ⟨a0, -, -, -, al⟩ := infoArgs_arg hargs
  have hfm := cl_of_mem hb.cl.ord (clientSearch_mem hf)
  have hok : (decide (req.argc < 2) || decide (req.argc = 4) || decide (req.argc > 5)) = false := by
    rw [Request.argc]
    rcases al with e | e | e <;> rw [e] <;> rfl
  rw [step_do hr rnd his rfl (by rw [hs]; rfl) (by rw [Command.argcOk, Bool.and_eq_true]; exact ⟨decide_eq_true (Nat.zero_le _), rfl⟩)]
  show ∃ o, Emitted _ (ircCHANINFO (s.roll rnd) cl req).1 o ∧ _
  have hg : getSender (s.roll rnd) cl req = .ok f.ref := by
    unfold getSender
    rw [if_pos (show ((s.roll rnd).cl cl).type = .server from hs), hp]
    simp only
    rw [roll_search, hf]
  unfold ircCHANINFO
  rw [if_neg (by rw [hok]; decide), hg]
  simp only
  have e1 : chaninfoChan (s.roll rnd) (req.arg 0) = (channelCreate (s.roll rnd) n, (newChan (s.roll rnd) n).ref) := by
    unfold chaninfoChan
    rw [roll_chan, show req.arg 0 = n from a0, hc]
    rfl
  rw [e1]
  simp only
  rw [info_run (v := channelCreate (s.roll rnd) n) (c := newChan (s.roll rnd) n) hbr (List.mem_cons_self ..) hs hargs ht]
  obtain ⟨oc, of, q1, q2, q3⟩ := peer_told hbr ha.mem ha.ref ha.conn hs f.ref (newChan (s.roll rnd) n).ref 'C' ⟨"CHANINFO", req.argv⟩ (infoTells n m kl tp (newChan (s.roll rnd) n))
  obtain ⟨W, hW⟩ : ∃ W, W = (channelCreate (s.roll rnd) n).updChan (newChan (s.roll rnd) n).ref (fun c => infoTopic (channelCreate (s.roll rnd) n).now tp (infoModes m kl c)) := ⟨_, rfl⟩
  have hWe : W = (withNewChannel s (infoTopic s.now tp (infoModes m kl (emptyChannel s n)))).roll rnd := by
    rw [hW]
    simp only [Srv.updChan, channelCreate, List.map_cons]
    rw [if_pos trivial]
    have e2 : s.chans.map (fun c => if c.ref = s.nextRef then infoTopic s.now tp (infoModes m kl c) else c) = s.chans := by
      conv => rhs; rw [← List.map_id s.chans]
      refine List.map_congr_left (fun d hd => ?_)
      have := hb.ch.lt d hd
      rw [if_neg (by omega)]
      rfl
    have e3 : (s.roll rnd).chans.map (fun c => if c.ref = (newChan (s.roll rnd) n).ref then infoTopic (s.roll rnd).now tp (infoModes m kl c) else c) = s.chans := e2
    rw [e3]
    rfl
  rw [← hW]
  have hlike : Like (channelCreate (s.roll rnd) n) W := by rw [hW]; exact ⟨rfl, rfl, rfl, rfl, rfl⟩
  have hnl : ∀ j, ¬ Listens (channelCreate (s.roll rnd) n) (newChan (s.roll rnd) n).ref j := by
    rintro j ⟨d, hd, -, -, ⟨k, hk, k1, k2⟩⟩
    obtain ⟨c, hc, hcr⟩ := hb.ch.chan k hk
    have h1 := hb.ch.lt c hc
    have h2 : k.chan = s.nextRef := k1
    rw [hcr] at h1
    omega
  refine ⟨of ++ oc, ?_, ?_, ?_⟩
  · have e4 := q1 W hlike
    have e5 := q2 { W with out := oc ++ W.out } ⟨hlike.clients, hlike.conns, hlike.cl2, hlike.conf, hlike.this⟩
    have e6 : ((infoTells n m kl tp (newChan (s.roll rnd) n)).foldl (fun t m => writeChannelPrefix t cl (newChan (s.roll rnd) n).ref ((channelCreate (s.roll rnd) n).cl f.ref) false m) W).cl f.ref
        = (channelCreate (s.roll rnd) n).cl f.ref := by
      rw [e4]
      exact hlike.cl f.ref
    rw [e6, e4, e5, hWe]
    exact ⟨rnd, by simp only [List.append_assoc]; rfl⟩
  · intro j hj hsp
    have := q3.links j hj hsp
    rwa [show (channelCreate (s.roll rnd) n).cl f.ref = f from hfm] at this
  · intro y hy
    rcases q3.others y hy with ⟨-, g⟩ | g
    · exact absurd g (hnl _)
    · exact g
/-- **C78** CHANINFO with a wrong number of arguments, without a prefix or from somebody nobody knows, is only answered. -/
theorem C78_refused (h : PoliteRun s) (hr : Received s i l cl req) (hs : (s.cl cl).type = .server) (his : Is req "CHANINFO")
    (hno : infoArgs req.argv = none ∨ ∀ p, req.prefix? = some p → clientNamed s p = none) (rnd : Int) :
    Answered i s (step s (.line i rnd l)) := by
  have hb := h.reachable.base
  simp only [← clientNamed_eq h] at hno
  have ha := hr.asker hb rnd
  rcases step_run hr hb rnd his rfl (by decide) with ⟨e, -⟩ | e
  · rw [e]
    show Answered i s (ircCHANINFO (s.roll rnd) cl req).1
    refine Reply.ans (r := rnd) ?_
    unfold ircCHANINFO
    split
    · exact rp_writeErr ha.hop (rp_refl _ _)
    · rename_i hn
      have hno : ∀ p, req.prefix? = some p → clientSearch s p = none := by
        rcases hno with h1 | h1
        · exfalso
          have hl : req.argv.length = 2 ∨ req.argv.length = 3 ∨ req.argv.length = 5 := by
            have hn' : ¬ ((req.argc < 2 ∨ req.argc = 4) ∨ req.argc > 5) := by
              simpa only [Bool.or_eq_true, decide_eq_true_eq] using hn
            unfold Request.argc at hn'
            omega
          revert h1 hl
          generalize req.argv = a
          intro h1 hl
          match a, h1, hl with
          | [a, b], h1, _ => cases h1
          | [a, b, c], h1, _ => cases h1
          | [a, b, c, d, e], h1, _ => cases h1
          | [], _, hl => simp at hl
          | [a], _, hl => simp at hl
          | [a, b, c, d], _, hl => simp at hl
          | a :: b :: c :: d :: e :: g :: r, _, hl => simp only [List.length_cons] at hl; omega
        · exact h1
      generalize hg : getSender (s.roll rnd) cl req = g
      unfold getSender at hg
      rw [if_pos (show ((s.roll rnd).cl cl).type = .server from hs)] at hg
      split at hg
      · rw [← hg]; exact rp_writeErr ha.hop (rp_refl _ _)
      · rename_i p hp
        rw [roll_search, hno p hp] at hg
        rw [← hg]; exact rp_writeErr ha.hop (rp_refl _ _)
  · exact e

theorem Sample.info_facts :
    recv Sample.net 7 ":peer.example.net CHANINFO #c +tk key 0 :Hello".toList = some (6, ⟨some "peer.example.net".toList, "CHANINFO".toList, ["#c".toList, "+tk".toList, "key".toList, "0".toList, "Hello".toList]⟩) ∧
    recv Sample.net 7 ":peer.example.net CHANINFO #new +t :Hello".toList = some (6, ⟨some "peer.example.net".toList, "CHANINFO".toList, ["#new".toList, "+t".toList, "Hello".toList]⟩) ∧
    recv Sample.net 7 ":peer.example.net CHANINFO #c".toList = some (6, ⟨some "peer.example.net".toList, "CHANINFO".toList, ["#c".toList]⟩) ∧
    (Sample.net.cl 6).type = .server ∧ (clientNamed Sample.net "peer.example.net".toList).any (fun d => decide (d.ref = 6)) = true ∧
    (channelNamed Sample.net "#c".toList).any (fun c => decide (c.ref = 4 ∧ c.modes = [] ∧ c.topic = [])) = true ∧
    channelNamed Sample.net "#new".toList = none ∧ (Sample.net.cl 3).conn = some 5 ∧ OnChannel Sample.net 4 3 ∧ 'C' ∈ (Sample.net.cl 10).flags := by decide +kernel

example : ∃ req f c, PoliteRun Sample.net ∧ Received Sample.net 7 ":peer.example.net CHANINFO #c +tk key 0 :Hello".toList 6 req ∧ (Sample.net.cl 6).type = .server ∧ Is req "CHANINFO" ∧
    infoArgs req.argv = some ("#c".toList, "+tk".toList, some ("key".toList, "0".toList), "Hello".toList) ∧ req.prefix? = some "peer.example.net".toList ∧
    clientNamed Sample.net "peer.example.net".toList = some f ∧ channelNamed Sample.net "#c".toList = some c ∧ c.modes = [] ∧ c.topic = [] := by
  obtain ⟨f1, -, -, f4, f5, f6, -⟩ := Sample.info_facts
  obtain ⟨g1, -⟩ := (Option.any_eq_true_iff_get _ _).1 f5
  obtain ⟨g3, g4⟩ := (Option.any_eq_true_iff_get _ _).1 f6
  exact ⟨_, _, _, Sample.polite_net, recv_sound f1, f4, by simp only [Is]; decide, rfl, rfl, (Option.some_get g1).symm, (Option.some_get g3).symm, (of_decide_eq_true g4).2.1, (of_decide_eq_true g4).2.2⟩

example : ∃ req f, PoliteRun Sample.net ∧ Received Sample.net 7 ":peer.example.net CHANINFO #new +t :Hello".toList 6 req ∧ (Sample.net.cl 6).type = .server ∧ Is req "CHANINFO" ∧
    infoArgs req.argv = some ("#new".toList, "+t".toList, none, "Hello".toList) ∧ req.prefix? = some "peer.example.net".toList ∧
    clientNamed Sample.net "peer.example.net".toList = some f ∧ channelNamed Sample.net "#new".toList = none := by
  obtain ⟨-, f1, -, f4, f5, -, f7, -⟩ := Sample.info_facts
  obtain ⟨g1, -⟩ := (Option.any_eq_true_iff_get _ _).1 f5
  exact ⟨_, _, Sample.polite_net, recv_sound f1, f4, by simp only [Is]; decide, rfl, rfl, (Option.some_get g1).symm, f7⟩

example : ∃ req, PoliteRun Sample.net ∧ Received Sample.net 7 ":peer.example.net CHANINFO #c".toList 6 req ∧ (Sample.net.cl 6).type = .server ∧ Is req "CHANINFO" ∧
    (infoArgs req.argv = none ∨ ∀ p, req.prefix? = some p → clientNamed Sample.net p = none) := by
  obtain ⟨-, -, f1, f4, -⟩ := Sample.info_facts
  exact ⟨_, Sample.polite_net, recv_sound f1, f4, by simp only [Is]; decide, .inl rfl⟩

end Ngircd
