import Verif.Lemmas.Core

/-!
# Elementary actions

What the handlers do to the core, cut into small pieces.
-/

namespace Ngircd

/-- The elementary changes of the core. -/
inductive Act
  /-- change fields of a client no invariant depends on -/
  | soft (r : Nat) (f : Client → Client)
  | umode (r : Nat) (m : Char) (set : Bool)
  | setId (r : Nat) (id : Str)
  | setType (r : Nat) (t : CType)
  /-- the client becomes its own introducer (a server link) -/
  | setIntro (r : Nat) (token : Int)
  /-- a remote client is introduced -/
  | newCl (c : Client)
  /-- a connection with its client -/
  | newLocal (c : Client) (k : Conn)
  /-- a client without children goes, and its connection with it -/
  | destroy (c : Client)
  | whowas (c : Client)
  | conn (i : Nat) (f : Conn → Conn)
  | srvConn (l : List (Nat × Nat))
  | create (name : Str) (f : Chan → Chan)
  | createJoin (name : Str) (client : Nat)
  | join (chan client : Nat)
  | remove (chan client : Nat)
  /-- change fields of a channel other than name and modes -/
  | chSoft (chan : Nat) (f : Chan → Chan)
  | chMode (chan : Nat) (m : Char) (set : Bool)
  | chModes (chan : Nat) (modes : Str)
  | mmode (chan client : Nat) (m : Char) (set : Bool)
  /-- the G- and K-lines -/
  | lines (g k : MaskList)
  | conf (c : Conf)
  | time (d : Nat)

/-- The connections after the client `c` has gone. -/
def dropConn (s : Srv) (c : Client) : Srv :=
  { s with conns := s.conns.filter (fun k => some k.idx != c.conn),
           srvConn := s.srvConn.filter (fun p => some p.2 != c.conn),
           numConns := if c.conn.isSome then s.numConns - 1 else s.numConns }

/-- The effect of an action. -/
def Act.run (s : Srv) : Act → Srv
  | .soft r f => s.updCl r f
  | .umode r m set => if set then (clientModeAdd s r m).1 else (clientModeDel s r m).1
  | .setId r id => clientSetID s r id
  | .setType r t => clientSetType s r t
  | .setIntro r tok => s.updCl r (fun c => { c with introducer := r, token := tok })
  | .newCl c => initNewClient s c
  | .newLocal c k =>
    { initNewClient s c with conns := k :: s.conns, numConns := s.numConns + 1 }
  | .destroy c => dropConn (destroySelf s c none false) c
  | .whowas c => registerWhowas s c
  | .conn i f => s.updConn i f
  | .srvConn l => { s with srvConn := l }
  | .create name f => (channelCreate s name).updChan s.nextRef f
  | .createJoin name r => addClient (channelCreate s name) s.nextRef r
  | .join ch r => addClient s ch r
  | .remove ch r => deleteIfEmpty (unlinkMember s ch r) ch
  | .chSoft ch f => s.updChan ch f
  | .chMode ch m set => if set then (channelModeAdd s ch m).1 else (channelModeDel s ch m).1
  | .chModes ch modes => channelSetModes s ch modes
  | .mmode ch r m set => if set then (userModeAdd s ch r m).1 else (userModeDel s ch r m).1
  | .lines g k => { s with glines := g, klines := k }
  | .conf c => { s with conf := c }
  | .time d => { s with now := s.now + d }

/-- `s'` is reached from `s`, as far as the core is concerned, by actions each of which
satisfies `P` in the state it is done in. -/
inductive Steps (P : Srv → Act → Prop) (s : Srv) : Srv → Prop
  | refl {s' : Srv} : s'.core = s.core → Steps P s s'
  | tail {t s' : Srv} (a : Act) : Steps P s t → P t a → s'.core = (a.run t).core → Steps P s s'

namespace Steps
variable {P Q : Srv → Act → Prop} {s t u : Srv}

theorem same (h : t.core = s.core) : Steps P s t := .refl h

theorem rfl' : Steps P s s := .refl rfl

theorem one (a : Act) (hp : P s a) (h : t.core = (a.run s).core) : Steps P s t :=
  .tail a (.refl rfl) hp h

theorem congr_right (h : Steps P s t) (hu : u.core = t.core) : Steps P s u := by
  cases h with
  | refl h => exact .refl (hu.trans h)
  | tail a h hp hr => exact .tail a h hp (hu.trans hr)

theorem trans (h : Steps P s t) (h' : Steps P t u) : Steps P s u := by
  induction h' with
  | refl hc => exact h.congr_right hc
  | tail a _ hp hr ih => exact .tail a ih hp hr

theorem mono (hPQ : ∀ t a, P t a → Q t a) (h : Steps P s t) : Steps Q s t := by
  induction h with
  | refl hc => exact .refl hc
  | tail a _ hp hr ih => exact .tail a ih (hPQ _ _ hp) hr

/-- Invariants need to be checked for the actions only. -/
theorem inv {I : Srv → Prop} (hcore : ∀ s t : Srv, t.core = s.core → I s → I t)
    (hact : ∀ t a, I t → P t a → I (a.run t)) (h : Steps P s t) (hI : I s) : I t := by
  induction h with
  | refl hc => exact hcore _ _ hc hI
  | tail a _ hp hr ih => exact hcore _ _ hr (hact _ a ih hp)

/-- As `inv`, with the action guard strengthened by the invariant. -/
theorem and_inv {I : Srv → Prop} (hcore : ∀ s t : Srv, t.core = s.core → I s → I t)
    (hact : ∀ t a, I t → P t a → I (a.run t)) (h : Steps P s t) (hI : I s) :
    Steps (fun t a => I t ∧ P t a) s t ∧ I t := by
  induction h with
  | refl hc => exact ⟨.refl hc, hcore _ _ hc hI⟩
  | tail a _ hp hr ih =>
    exact ⟨.tail a ih.1 ⟨ih.2, hp⟩ hr, hcore _ _ hr (hact _ a ih.2 hp)⟩

theorem ite {c : Prop} [Decidable c] {a b : Srv} (ha : c → Steps P s a) (hb : ¬ c → Steps P s b) :
    Steps P s (if c then a else b) := by
  split
  · exact ha ‹_›
  · exact hb ‹_›

theorem foldl {α : Type} (f : Srv → α → Srv) (h : ∀ s a, Steps P s (f s a)) (l : List α)
    (s : Srv) : Steps P s (l.foldl f s) := by
  induction l generalizing s with
  | nil => exact rfl'
  | cons a l ih => exact (h s a).trans (ih _)

end Steps

/-! ## The actions on the core -/

/-- Fields the actions may depend on are those of the core. -/
theorem updCl_core (s : Srv) (r : Nat) (f : Client → Client) :
    (s.updCl r f).core = s.core.updCl r f := rfl

theorem adjustCounters_core (s : Srv) (c : Client) :
    (adjustCounters s c).core = adjustCounters s.core c := by
  simp only [adjustCounters]
  split
  · rfl
  · split <;> rfl

theorem setType_core (s : Srv) (r : Nat) (t : CType) :
    (clientSetType s r t).core = clientSetType s.core r t := by
  simp only [clientSetType]
  rw [adjustCounters_core]
  rfl

theorem deleteIfEmpty_core (s : Srv) (ch : Nat) :
    (deleteIfEmpty s ch).core = deleteIfEmpty s.core ch := by
  simp only [deleteIfEmpty]
  rw [core_ite]
  rfl

theorem registerWhowas_core (s : Srv) (c : Client) :
    (registerWhowas s c).core = registerWhowas s.core c := by
  simp only [registerWhowas]
  rw [core_ite, core_ite]
  rfl

theorem removeClient_core (s : Srv) (t : Removal) (ch : Nat) (c o : Client) (r : Str) (b : Bool) :
    (removeClient s t ch c o r b).1.core =
      if isMemberOf s ch c.ref then (deleteIfEmpty (unlinkMember s ch c.ref) ch).core else s.core := by
  simp only [removeClient]
  split
  · rename_i h
    simp only [Bool.not_eq_true'] at h
    simp [h]
  · rename_i h
    simp only [Bool.not_eq_true', Bool.not_eq_false] at h
    simp only [h, if_true]
    rw [deleteIfEmpty_core, core_removeMsgs, ← deleteIfEmpty_core]

end Ngircd
