import Verif.Spec.Polite
import Verif.Spec.Server
import Verif.Spec.Str

/-!
# Names of clients and channels
-/

namespace Ngircd.Spec

/-- The name meant by a prefix or target: up to the first '!', at most 63 characters. -/
def nickPart (n : Str) : Str := (n.take 63).takeWhile (fun c => c ≠ '!')

/-- The characters of RFC 2812 nick names (letters, digits, specials, '-'); ngIRCd also
accepts ';'. -/
def NickChar (c : Char) : Prop :=
  (97 ≤ c.toNat ∧ c.toNat ≤ 122) ∨ (65 ≤ c.toNat ∧ c.toNat ≤ 90) ∨ (48 ≤ c.toNat ∧ c.toNat ≤ 57) ∨
  c ∈ ['[', ']', '\\', '`', '_', '^', '{', '|', '}', '-', ';']

/-- A nick name as users may choose it. -/
structure ValidNick (max : Nat) (n : Str) : Prop where
  nonempty : n ≠ []
  length : n.length < max
  first : ∀ c, n.head? = some c → ¬ (48 ≤ c.toNat ∧ c.toNat ≤ 57) ∧ c ≠ '-' ∧ c ≠ ';'
  chars : ∀ c ∈ n, NickChar c

/-- The states reachable when peers follow the server protocol. -/
def PoliteRun : Srv → Prop := ReachableWith GoodConf PoliteEvent

/-- No two different clients carry the same name. -/
def NamesUnique (s : Srv) : Prop :=
  ∀ a ∈ s.clients, ∀ b ∈ s.clients, a.id ≠ [] → SameCase a.id b.id → a = b

/-- No two different channels carry the same name. -/
def ChannelsUnique (s : Srv) : Prop :=
  ∀ a ∈ s.chans, ∀ b ∈ s.chans, SameCase a.name b.name → a = b

/-- The client has been introduced as user: it is shown to others. -/
def isUser (c : Client) : Prop := c.type = .user

end Ngircd.Spec
