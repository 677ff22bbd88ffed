import Verif.Model.Zip

/-!
# Vocabulary: compressed links
-/

namespace Ngircd.Spec
open Ngircd

/-- What a compressor makes of some pieces of text. -/
def packed (z : Zlib) : z.D → List Str → z.D × Str
  | d, [] => (d, [])
  | d, c :: cs => ((packed z (z.deflate d c).1 cs).1, (z.deflate d c).2 ++ (packed z (z.deflate d c).1 cs).2)

/-- A decompressor that has used `s` and given `t` in some calls. -/
inductive Unpacked (z : Zlib) : z.I → Str → Str → Prop
  | init : Unpacked z z.i0 [] []
  | step {i : z.I} {s t : Str} (inp : Str) (n : Nat) : Unpacked z i s t → (z.inflate i inp n).ok = true →
      Unpacked z (z.inflate i inp n).st (s ++ inp.take (z.inflate i inp n).used) (t ++ (z.inflate i inp n).out)

/-- What zlib promises: on a stream that a compressor has made, the decompressor does not fail, gives the
text in order, and has given all of it when it has used the whole stream; and text makes a stream.  (Every
piece ends with the mark of a Z_SYNC_FLUSH, which inflate() does not use before all of the output in front of
it had room.) -/
def Lawful (z : Zlib) : Prop :=
  (∀ cs : List Str, (packed z z.d0 cs).2 = [] → cs.flatten = []) ∧
  ∀ (cs : List Str) (i : z.I) (s t inp : Str) (n : Nat), Unpacked z i s t → s ++ inp <+: (packed z z.d0 cs).2 →
    inp ≠ [] → 0 < n →
    (z.inflate i inp n).ok = true ∧ (z.inflate i inp n).used ≤ inp.length ∧
    t ++ (z.inflate i inp n).out <+: cs.flatten ∧
    (s ++ inp.take (z.inflate i inp n).used = (packed z z.d0 cs).2 → t ++ (z.inflate i inp n).out = cs.flatten)

/-- What zlib promises, too: the decompressor stops only when it has used its input or filled its room. -/
def Eager (z : Zlib) : Prop := ∀ (i : z.I) (inp : Str) (n : Nat), (z.inflate i inp n).ok = true →
  inp.length ≤ (z.inflate i inp n).used ∨ n ≤ (z.inflate i inp n).out.length

/-- Each `read()` comes at a time when the uncompressed buffer is smaller than a command (`Conn_Handler` does
not ask for input otherwise) and the compressed one not full, if it has been left behind by the request that
has enabled the compression. -/
def ReadsInTime {z : Zlib} (acts : Str → Bool) (x : Rx z) (es : List RxEvent) : Prop :=
  ∀ j data n, es[j]? = some (.read data n) → (x.run acts (es.take j)).rbuf.length < COMMAND_LEN ∧
    ((x.run acts (es.take j)).rbuf = [] → (x.run acts (es.take j)).zrbuf.length < READBUFFER_LEN)

/-- How many commands are allowed when this happens. -/
def allowed : RxEvent → Nat
  | .read _ n => n
  | .round n => n

/-- Every time at least two commands are allowed. -/
def TwoAllowed (es : List RxEvent) : Prop := ∀ e ∈ es, 2 ≤ allowed e

instance (es : List RxEvent) : Decidable (TwoAllowed es) := by unfold TwoAllowed; infer_instance

/-- A line as servers send it: without CR, LF and NUL, at most 510 bytes, not empty. -/
def WireLine (l : Str) : Prop := '\r' ∉ l ∧ '\n' ∉ l ∧ '\x00' ∉ l ∧ l ≠ [] ∧ l.length ≤ 510

instance (l : Str) : Decidable (WireLine l) := by unfold WireLine; infer_instance

/-- Lines as text. -/
def onWire (ls : List Str) : Str := (ls.map (fun l => l ++ ['\r', '\n'])).flatten

/-- Of these requests the last one enables the compression, and no other. -/
def StartsZip (acts : Str → Bool) (ls : List Str) : Prop :=
  ∃ a0 a, ls = a0 ++ [a] ∧ acts a = true ∧ ∀ l ∈ a0, acts l = false

/-- What was read from the socket. -/
def readOf (es : List RxEvent) : Str :=
  (es.map (fun e => match e with | .read data _ => data | .round _ => [])).flatten

end Ngircd.Spec
