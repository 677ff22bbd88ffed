import Verif.Props.Prefix

/-!
# C32: a lost server link removes everything behind it
-/

set_option linter.unusedSimpArgs false

namespace Ngircd
open Spec

variable {s t u : Srv} {i cl : Nat} {l : Str} {req : Request} {p : Str}

/-- Memberships of a state some clients have left. -/
theorem Gone.members (hk : KindInv s) (hb : Base s) {G : Client → Prop} (h : Gone s t G) (m : Cl2Chan) :
    m ∈ t.cl2 ↔ m ∈ s.cl2 ∧ ∀ c ∈ s.clients, G c → c.ref ≠ m.client := by
  constructor
  · intro hm
    have hms := h.cl2 m hm
    refine ⟨hms, fun c hc hg he => ?_⟩
    obtain ⟨d, hd, hdr, hty⟩ := hk.members m hms
    have : d = c := hb.cl.ord.eq_of_ref hd hc (by rw [hdr, he])
    subst this
    exact h.gone m hm d hd hg hty he
  · rintro ⟨hm, hg⟩
    exact h.keep m hm (fun c hc hcs => hg c hcs hc)

theorem connClose_conns {k : Conn} (hk : s.conn? i = some k) (fwd : Option Str) (inf : Bool) :
    (connClose s i fwd inf).conns = s.conns.filter (fun x => x.idx != i) := by
  simp only [connClose, hk]
  show (clientDestroy _ _ _ _).conns = _
  simp only [clientDestroy]
  rw [(destroyF_conns _ _ _ _ _).1]
  have : (if inf = true then closeMsgs s i (s.cl k.client) fwd else s).conns = s.conns := by
    split
    · simp only [closeMsgs]; split <;> rfl
    · rfl
  show List.filter _ (if inf = true then closeMsgs s i (s.cl k.client) fwd else s).conns = _
  rw [this]

/-- **C32** When a connection is lost, exactly the clients reached through it are removed - for a
server link all servers, users and services behind it - together with exactly their channel
memberships; every other client, membership and connection stays as it is. -/
theorem C32_lost_link (h : PoliteRun s) (ho : Owner s i cl) (reason : Option Str) (inform : Bool) :
    (∀ c, c ∈ (step s (.lost i reason inform)).clients ↔ c ∈ s.clients ∧ ¬ Behind s i c) ∧
    (∀ m, m ∈ (step s (.lost i reason inform)).cl2 ↔
      m ∈ s.cl2 ∧ ∀ c ∈ s.clients, Behind s i c → c.ref ≠ m.client) ∧
    (∀ k, k ∈ (step s (.lost i reason inform)).conns ↔ k ∈ s.conns ∧ k.idx ≠ i) := by
  have hb := h.reachable.base
  have hki := polite_kind h
  obtain ⟨k, hk, rfl⟩ := ho.conn hb
  obtain ⟨g1, g2, g3, g4⟩ := conn?_mem hb.cl hk
  have hs : step s (.lost i reason inform) = connClose s i reason inform := by
    simp only [step]; rw [if_pos (by rw [hk]; rfl)]
  rw [hs]
  have hG := (connClose_gone hb hk reason inform).congr (H := Behind s i) (fun c hc => by
    have := behind_iff_under hb hki g1 g3 hc
    rw [g2] at this; exact this.symm)
  refine ⟨hG.clients, hG.members hki hb, fun k' => ?_⟩
  rw [connClose_conns hk, List.mem_filter]
  simp [bne_iff_ne]

/-- In the sample state the link carries a server and a remote user; two users and the server
itself are elsewhere. -/
example : PoliteRun Sample.s5 ∧ Owner Sample.s5 7 6 ∧
    (step Sample.s5 (.lost 7 none false)).clients.map Client.ref = [4, 3, 1] :=
  ⟨polite_s5, by simp only [Owner]; decide +kernel, by decide +kernel⟩

/-- The same without any assumption on peers: what goes is what depends on the owner of the
connection by way of servers. -/
theorem C32_lost_connection (h : Reachable s) (ho : Owner s i cl) (reason : Option Str) (inform : Bool) :
    (∀ c, c ∈ (step s (.lost i reason inform)).clients ↔ c ∈ s.clients ∧ ¬ Under s cl c) ∧
    (∀ m ∈ (step s (.lost i reason inform)).cl2, m ∈ s.cl2 ∧
      ∀ c ∈ s.clients, Under s cl c → Person c → c.ref ≠ m.client) ∧
    (∀ m ∈ s.cl2, (∀ c ∈ s.clients, Under s cl c → c.ref ≠ m.client) →
      m ∈ (step s (.lost i reason inform)).cl2) := by
  have hb := h.base
  obtain ⟨k, hk, rfl⟩ := ho.conn hb
  have hs : step s (.lost i reason inform) = connClose s i reason inform := by
    simp only [step]; rw [if_pos (by rw [hk]; rfl)]
  rw [hs]
  have hG := connClose_gone hb hk reason inform
  exact ⟨hG.clients, fun m hm => ⟨hG.cl2 m hm, fun c hc hu hp => hG.gone m hm c hc hu hp⟩,
    fun m hm hg => hG.keep m hm (fun c hu hc => hg c hc hu)⟩

example : Reachable Sample.s5 ∧ Owner Sample.s5 7 6 :=
  ⟨Sample.reach_s5, by simp only [Owner]; decide +kernel⟩

theorem behind_some (hb : Base s) (hk : KindInv s) : ∀ n, ∀ c ∈ s.clients, c.ref ≤ n → c.ref ≠ s.this →
    ∃ j o, Owner s j o ∧ Behind s j c ∧ (c.conn = none → (s.cl o).type = .server) := by
  intro n
  induction n with
  | zero =>
    intro c hc hle
    have := hb.cl.pos c hc; omega
  | succ n ih =>
    intro c hc hle hne
    cases hco : c.conn with
    | some j =>
      obtain ⟨k, hkm, e1, e2⟩ := hb.cl.clConn c hc j hco
      exact ⟨j, c.ref, ⟨k, hkm, e1, e2⟩, .direct hco, fun h => by cases h⟩
    | none =>
      obtain ⟨q, hq, hqr, hqs⟩ := hk.intro c hc hco
      have h1 := hb.cl.rem c hc hco hne
      have h2 := hb.cl.intro c hc
      obtain ⟨j, o, ho, hbe, hsv⟩ := ih q hq (by have := h1.1; omega) (by rw [hqr]; exact h1.2)
      refine ⟨j, o, ho, .via hco hq hqr hbe, fun _ => ?_⟩
      cases hqc : q.conn with
      | none => exact hsv hqc
      | some j' =>
        obtain ⟨k, hk1, e1, e2⟩ := ho
        obtain ⟨c', hc', e3, e4⟩ := hb.cl.connCl k hk1
        have hj : j' = j := by
          cases hbe with
          | direct h => rw [hqc] at h; injection h
          | via h => rw [hqc] at h; cases h
        subst hj
        have hcq : c' = q := conn_owner hb hc' hq (e4.trans (congrArg some e1)) hqc
        have : s.cl o = q := cl_of_mem' hb.cl.ord (hcq ▸ hc') (by rw [← hcq, e3, e2])
        rw [this]; exact hqs

/-- **C32** Nobody survives the loss of the link it was reached through, however the link was
lost: at any time every known client but the server itself is reached through an open
connection, and a remote client through one to a server. -/
theorem C32_no_orphans (h : PoliteRun s) {c : Client} (hc : c ∈ s.clients) (hne : c.ref ≠ s.this) :
    ∃ j o, Owner s j o ∧ Behind s j c ∧ (c.conn = none → (s.cl o).type = .server) :=
  behind_some h.reachable.base (polite_kind h) c.ref c hc (Nat.le_refl _) hne

example : PoliteRun Sample.s5 ∧ ∃ c ∈ Sample.s5.clients, c.ref ≠ Sample.s5.this ∧ c.conn = none :=
  ⟨polite_s5, by decide +kernel⟩

/-- **C32** A SQUIT from a server for another server (or any remote client) removes exactly what
depends on the named client. -/
theorem C32_squit (h : PoliteRun s) (hr : Received s i l cl req) (hn : Is req "SQUIT") (ha : req.argv.length = 2)
    (hsrv : (s.cl cl).type = .server)
    (hfrom : ∀ p, req.prefix? = some p → ∃ f ∈ s.clients, f.id ≠ [] ∧ SameCase f.id (nickPart p) ∧ f.type = .server)
    {c : Client} (hc : c ∈ s.clients) (hid : c.id ≠ []) (hname : SameCase c.id (nickPart (req.arg 0)))
    (hne : c.ref ≠ s.this) (rnd : Int) :
    (∀ d, d ∈ (step s (.line i rnd l)).clients ↔ d ∈ s.clients ∧ ¬ Under s c.ref d) ∧
    (∀ m, m ∈ (step s (.line i rnd l)).cl2 ↔ m ∈ s.cl2 ∧ ∀ d ∈ s.clients, Under s c.ref d → d.ref ≠ m.client) := by
  have hb := h.reachable.base
  have hki := polite_kind h
  have hrun : step s (.line i rnd l) = (ircSQUIT (s.roll rnd) cl req).1 :=
    step_do hr rnd hn rfl (by rw [hsrv]; rfl) (by simp only [Command.argcOk, Request.argc, ha]; rfl)
  suffices hG : Gone s (step s (.line i rnd l)) (Under s c.ref) from ⟨hG.clients, hG.members hki hb⟩
  rw [hrun]
  have hb' : Base (s.roll rnd) := Base.of_core (s := s) rfl hb
  have hsc : clientSearch (s.roll rnd) (req.arg 0) = some c :=
    (C13_lookup h (req.arg 0) c).2 ⟨hc, hid, hname⟩
  have hdo : ∀ f : Client, f.type = .server →
      Gone s (squitDo (s.roll rnd) cl f req).1 (Under s c.ref) := by
    intro f hf
    simp only [squitDo, hsc]
    have ht : (s.roll rnd).cl cl = s.cl cl := rfl
    rw [ht, hsrv]
    simp only [ne_eq, not_true_eq_false, decide_false, Bool.false_and, Bool.false_eq_true, if_false]
    cases hco : c.conn with
    | some con =>
      simp only
      generalize hw : sendWallops _ _ _ _ = w
      have hwc : w.core = s.core := by rw [← hw, core_sendWallops, roll_core]
      have hbw : Base w := Base.of_core hwc hb
      obtain ⟨k, hk, hkc⟩ := conn?_of_mem hbw.cl (by rw [core_clients hwc]; exact hc) hco
      have hG := connClose_gone hbw hk (some (squitMsg (s.roll rnd) cl f (some con) (req.arg 1))) true
      rw [hkc] at hG
      have := (Gone.core hwc).trans hG
      refine this.congr (fun d hd => ?_)
      simp only [false_or]
      exact under_congr (core_clients hwc)
    | none =>
      simp only [hf, ne_eq, not_true_eq_false, if_false]
      rw [roll_this, if_neg hne]
      have hG := clientDestroy_gone hb' hc hne hco (some (squitMsg (s.roll rnd) cl f none (req.arg 1))) false
      have hc0 : (s.roll rnd).core = s.core := rfl
      have := (Gone.core hc0).trans hG
      refine this.congr (fun d hd => ?_)
      simp only [false_or]
      exact under_congr (t := (s.roll rnd)) (s := s) rfl
  simp only [ircSQUIT]
  have ht : (s.roll rnd).cl cl = s.cl cl := rfl
  rw [ht, hsrv]
  simp only [ne_eq, not_true_eq_false, decide_false, Bool.false_and, Bool.false_eq_true, if_false]
  simp only [squitFrom, ht, hsrv, if_true]
  cases hp : req.prefix? with
  | none => exact hdo _ hsrv
  | some p =>
    obtain ⟨f, hf, hfid, hfn, hfs⟩ := hfrom p hp
    have hsf : clientSearch (s.roll rnd) p = some f := (C13_lookup h p f).2 ⟨hf, hfid, hfn⟩
    simp only [hsf, hfs, ne_eq, not_true_eq_false, decide_false, Bool.false_and, Bool.false_eq_true, if_false]
    exact hdo f hfs

/-- The peer says that the server `far`, introduced by it, has gone, with the user there. -/
def Sample.s5far : Srv :=
  Sample.lines Sample.s5 7 [":peer.example.net SERVER far.example.net 2 5 :far",
    ":far.example.net NICK yan 2 yan host.example 5 + :Yan Y"]

theorem Sample.polite_s5far : PoliteRun Sample.s5far :=
  (Sample.fine_lines Sample.fine_s5 _ _ (by decide +kernel)).mono (fun _ h => h.1) (fun _ _ h => h.1)

example : ∃ req, PoliteRun Sample.s5far ∧
    Received Sample.s5far 7 ":peer.example.net SQUIT far.example.net :gone".toList 6 req ∧ Is req "SQUIT" ∧
    req.argv.length = 2 ∧ (Sample.s5far.cl 6).type = .server ∧
    (∀ p, req.prefix? = some p → ∃ f ∈ Sample.s5far.clients, f.id ≠ [] ∧ SameCase f.id (nickPart p) ∧ f.type = .server) ∧
    (∃ c ∈ Sample.s5far.clients, c.id ≠ [] ∧ SameCase c.id (nickPart (req.arg 0)) ∧ c.ref ≠ Sample.s5far.this) ∧
    (step Sample.s5far (.line 7 0 ":peer.example.net SQUIT far.example.net :gone".toList)).clients.map Client.ref = [7, 6, 4, 3, 1] := by
  refine ⟨⟨some "peer.example.net".toList, "SQUIT".toList, ["far.example.net".toList, "gone".toList]⟩,
    Sample.polite_s5far, recv_sound (by decide +kernel), by simp only [Is]; decide +kernel, rfl, by decide +kernel, ?_, ?_, by decide +kernel⟩
  · intro p hp; injection hp with hp; subst hp
    have : ∃ f ∈ Sample.s5far.clients, f.id ≠ [] ∧ caseEq f.id (nickPart "peer.example.net".toList) = true ∧ f.type = .server := by
      decide +kernel
    obtain ⟨f, h1, h2, h3, h4⟩ := this
    exact ⟨f, h1, h2, (caseEq_same _ _).1 h3, h4⟩
  · have : ∃ f ∈ Sample.s5far.clients, f.id ≠ [] ∧ caseEq f.id (nickPart "far.example.net".toList) = true ∧ f.ref ≠ Sample.s5far.this := by
      decide +kernel
    obtain ⟨f, h1, h2, h3, h4⟩ := this
    exact ⟨f, h1, h2, (caseEq_same _ _).1 h3, h4⟩

end Ngircd
