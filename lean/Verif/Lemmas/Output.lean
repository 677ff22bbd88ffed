import Verif.Spec.Server
import Verif.Lemmas.Core

/-! # The output functions only produce output -/

namespace Ngircd
open Spec

theorem oo_emits (s : Srv) (l : List Sent) : OnlyOutput s (s.emits l) := ⟨l.reverse, s.fault, rfl⟩
theorem oo_emit (s : Srv) (i : Nat) (p : Option Str) (m : Msg) : OnlyOutput s (s.emit i p m) :=
  ⟨[_], s.fault, rfl⟩
theorem oo_crash (s : Srv) : OnlyOutput s s.crash := ⟨[], true, rfl⟩
theorem oo_writePrefix (s : Srv) (a b : Client) (m : Msg) : OnlyOutput s (writePrefix s a b m) :=
  ⟨_, _, rfl⟩
theorem oo_write (s : Srv) (a : Client) (m : Msg) : OnlyOutput s (write s a m) := ⟨_, _, rfl⟩
theorem oo_writeErr (s : Srv) (a : Client) (m : Msg) : OnlyOutput s (writeErr s a m) := ⟨_, _, rfl⟩
theorem oo_writeServers (s : Srv) (e : Option Nat) (p : Client) (m : Msg) :
    OnlyOutput s (writeServers s e p m) := ⟨_, _, rfl⟩
theorem oo_writeServersFlag (s : Srv) (e : Option Nat) (p : Client) (f : Option Char) (m : Msg) :
    OnlyOutput s (writeServersFlag s e p f m) := ⟨_, _, rfl⟩
theorem oo_writeChannelPrefix (s : Srv) (a b : Nat) (p : Client) (r : Bool) (m : Msg) :
    OnlyOutput s (writeChannelPrefix s a b p r m) := ⟨_, _, rfl⟩
theorem oo_writeRelatedPrefix (s : Srv) (a : Nat) (p : Client) (r : Bool) (m : Msg) :
    OnlyOutput s (writeRelatedPrefix s a p r m) := ⟨_, _, rfl⟩
theorem oo_sendWallops (s : Srv) (a : Nat) (p : Client) (t : Str) :
    OnlyOutput s (sendWallops s a p t) := ⟨_, _, rfl⟩
theorem oo_needMoreParams (s : Srv) (cl : Nat) (req : Request) :
    OnlyOutput s (needMoreParams s cl req).1 := ⟨_, _, rfl⟩
theorem oo_opNoPrivileges (s : Srv) (cl : Nat) (req : Request) :
    OnlyOutput s (opNoPrivileges s cl req).1 := ⟨_, _, rfl⟩

theorem oo_foldl {α : Type} (f : Srv → α → Srv) (h : ∀ s a, OnlyOutput s (f s a)) (l : List α)
    (s : Srv) : OnlyOutput s (l.foldl f s) := by
  induction l generalizing s with
  | nil => exact .refl s
  | cons a l ih => exact (h s a).trans (ih _)

theorem Spec.OnlyOutput.cl {s t : Srv} (h : OnlyOutput s t) (r : Nat) : t.cl r = s.cl r := by
  obtain ⟨o, f, rfl⟩ := h; rfl
theorem Spec.OnlyOutput.clients {s t : Srv} (h : OnlyOutput s t) : t.clients = s.clients := by
  obtain ⟨o, f, rfl⟩ := h; rfl
theorem Spec.OnlyOutput.chans {s t : Srv} (h : OnlyOutput s t) : t.chans = s.chans := by
  obtain ⟨o, f, rfl⟩ := h; rfl
theorem Spec.OnlyOutput.cl2 {s t : Srv} (h : OnlyOutput s t) : t.cl2 = s.cl2 := by
  obtain ⟨o, f, rfl⟩ := h; rfl
theorem Spec.OnlyOutput.core {s t : Srv} (h : OnlyOutput s t) : t.core = s.core := by
  obtain ⟨o, f, rfl⟩ := h; rfl

end Ngircd
