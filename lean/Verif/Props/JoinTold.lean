import Verif.Lemmas.JoinTold
import Verif.Props.Counters

/-!
# C57, continued: joining a channel is shown to its members and to the other servers
-/

set_option linter.unusedSimpArgs false

namespace Ngircd
open Spec

variable {s : Srv} {i : Nat} {l : Str} {cl : Nat} {req : Request} {f x : Client} {c : Chan}

/-- **C57** When a client comes onto a channel by a JOIN command, its own line first tells itself so; the other local
members and the other servers are told too, with the modes it has there, and nobody else is. -/
theorem C57_join (h : PoliteRun s) (hr : Received s i l cl req) (his : Is req "JOIN")
    (hty : (s.cl cl).type = .user ∨ (s.cl cl).type = .server) (hf : Originator s cl req f) (hfu : f.type ≠ .server) (rnd : Int)
    (hargs : 1 ≤ req.argv.length ∧ req.argv.length ≤ 2) {a : Str} (ha : items (req.arg 0) = [a]) (h0 : req.arg 0 ≠ ['0'])
    (hc : c ∈ (step s (.line i rnd l)).chans) {k : Cl2Chan} (hk : k ∈ (step s (.line i rnd l)).cl2) (hkc : k.chan = c.ref)
    (hkf : k.client = f.ref) (hoff : ¬ OnChannel s c.ref f.ref) :
    ∃ o, (step s (.line i rnd l)).out = o ++ s.out ∧
      JoinTold (step s (.line i rnd l)) i ((s.cl cl).type = .user) c f (a.takeWhile (· != '\x07')) (k.modes.take 19) o := by
  have hb := h.reachable.base
  have hbt : Base (step s (.line i rnd l)) := (step_steps_any hb (.line i rnd l)).base hb
  obtain ⟨hg, hor⟩ := sender_is h hr hf hfu rnd
  obtain ⟨g1, g2, g3, -⟩ := hr.owner hb
  have hst : step s (.line i rnd l) = (ircJOIN (s.roll rnd) cl req).1 :=
    step_do hr rnd his rfl (by rcases hty with e | e <;> rw [e] <;> rfl) (by
      simp only [Command.argcOk, Bool.and_eq_true, decide_eq_true_eq]; exact hargs)
  have hfc : (s.roll rnd).cl f.ref = f := cl_of_mem hb.cl.ord hf.1
  have hst2 : ∃ key, step s (.line i rnd l) = joinOne (s.roll rnd) cl f.ref a key := by
    rw [hst]
    simp only [ircJOIN, hg]
    rw [if_neg (by simp only [Bool.and_eq_true, decide_eq_true_eq, not_and]; intro _; exact h0), strtok_items, ha]
    exact ⟨_, rfl⟩
  obtain ⟨key, hst2⟩ := hst2
  rcases joinOne_tail (s := s.roll rnd) (cl := cl) (target := f.ref) (n := a) (key := key) (by rw [hfc]) (by
      intro hu
      rcases hor with ⟨e, -⟩ | ⟨-, e⟩
      · have hu : (s.cl cl).type = .user := hu
        rw [hu] at e; cases e
      · rw [e]; exact g2) hty with e | ⟨v, ch, e, hj⟩
  · rw [← hst2] at e
    rw [e] at hk
    exact absurd ⟨k, hk, hkc, hkf⟩ hoff
  · rw [← hst2] at e
    have hcore : (step s (.line i rnd l)).core = v.core := by rw [e]; exact joinTail_core _ _ _ _ _
    have hbv : Base v := Base.of_core (s := step s (.line i rnd l)) hcore.symm hbt
    obtain ⟨l1, l2, l3, l4, l5⟩ := hj.like
    have hkv : k ∈ v.cl2 := by rw [← core_cl2 hcore]; exact hk
    have hchr : c.ref = ch := by
      rcases hj.cl2 k hkv with ⟨e1, -⟩ | ⟨m, hm, e1, e2⟩
      · rw [← e1]; exact hkc.symm
      · exact absurd ⟨m, hm, e1.trans hkc, e2.trans hkf⟩ hoff
    subst hchr
    have hcv : c ∈ v.chans := by rw [← core_chans hcore]; exact hc
    have hclv : v.cl cl = s.cl cl := cl_congr l1 cl
    have hmodes : strlcpy (CHANNEL_MODE_LEN - 1) (userModes v c.ref f.ref) = k.modes.take 19 := by
      rw [← hkc, ← hkf, userModes_mem hbv.ch hkv]; rfl
    obtain ⟨o, ho, htold⟩ := joinTail_told (i := i) (f := f) (c := c) hbv (by rw [hclv, l1]; exact g1) (by rw [hclv]; exact g2)
      (by rw [hclv]; exact g3) (by rw [hclv]; exact hty) (by rw [l1]; exact hf.1) hcv (a.takeWhile (· != '\x07'))
    rw [hmodes, hclv] at htold
    refine ⟨o, by rw [e, ho, l5]; rfl, ?_⟩
    have e1 : (step s (.line i rnd l)).clients = v.clients := core_clients hcore
    have e2 : (step s (.line i rnd l)).conns = v.conns := core_conns hcore
    have e3 : (step s (.line i rnd l)).cl2 = v.cl2 := core_cl2 hcore
    have e4 : (step s (.line i rnd l)).conf = v.conf := core_conf hcore
    have hmask : maskCloaked (step s (.line i rnd l)) f = maskCloaked v f := maskCloaked_eq e4 e1 f
    have hlis : ∀ j, Listens (step s (.line i rnd l)) c.ref j ↔ Listens v c.ref j := by
      intro j; simp only [Listens, OnChannel, e1, e3]
    have hlk : ∀ j, isLink (step s (.line i rnd l)) j = isLink v j := by
      intro j; simp only [isLink, e1]
    have hll : ∀ ms j, joinLinkLines (step s (.line i rnd l)) f (a.takeWhile (· != '\x07')) ms j =
        joinLinkLines v f (a.takeWhile (· != '\x07')) ms j := by
      intro ms j
      have : oldStyle (step s (.line i rnd l)) j = oldStyle v j := by simp only [oldStyle, e2]
      simp only [joinLinkLines]; rw [this]
    refine ⟨?_, ?_, ?_, ?_⟩
    · rw [hmask]; exact htold.self
    · simp only [hmask, hlis]; exact htold.members
    · simp only [hlk, hll]; exact htold.links
    · simp only [hlk, hlis]; exact htold.others

/-! ## Cases -/

/-- Bob comes back to the channel: alice and the peer are told. -/
example : ∃ req o, PoliteRun (Sample.lines Sample.s5 6 ["PART #c"]) ∧
    Received (Sample.lines Sample.s5 6 ["PART #c"]) 6 "JOIN #c".toList 4 req ∧ Is req "JOIN" ∧
    ((Sample.lines Sample.s5 6 ["PART #c"]).cl 4).type = .user ∧ items (req.arg 0) = ["#c".toList] ∧
    ¬ OnChannel (Sample.lines Sample.s5 6 ["PART #c"]) 5 4 ∧
    OnChannel (step (Sample.lines Sample.s5 6 ["PART #c"]) (.line 6 0 "JOIN #c".toList)) 5 4 ∧
    (step (Sample.lines Sample.s5 6 ["PART #c"]) (.line 6 0 "JOIN #c".toList)).out =
      o ++ (Sample.lines Sample.s5 6 ["PART #c"]).out ∧
    onConn o 7 = [⟨7, some "bob".toList, ⟨"JOIN", ["#c".toList]⟩⟩] ∧ (onConn o 5).length = 1 :=
  ⟨⟨none, "JOIN".toList, ["#c".toList]⟩,
    (step (Sample.lines Sample.s5 6 ["PART #c"]) (.line 6 0 "JOIN #c".toList)).out.take
      ((step (Sample.lines Sample.s5 6 ["PART #c"]) (.line 6 0 "JOIN #c".toList)).out.length - (Sample.lines Sample.s5 6 ["PART #c"]).out.length),
    (Sample.fine_lines Sample.fine_s5 _ _ (by decide +kernel)).mono (fun _ h => h.1) (fun _ _ h => h.1),
    recv_sound (by decide +kernel), by simp only [Is]; decide, by decide +kernel, by decide, by decide +kernel, by decide +kernel,
    by decide +kernel, by decide +kernel, by decide +kernel⟩

end Ngircd
