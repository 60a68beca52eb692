import Verif.Spec.Jenkins
import Verif.Spec.Stream

/-!
# The Jenkins objects, streaming and one-shot calls mixed (C121)

`hashlittle2 c b k` is lookup3 of `k` with the two initial words `c` and `b`; its result is again two words. This file uses nothing of the model.
-/

namespace Verif.Spec.JenkinsCalls
open Verif Verif.Spec.Jenkins

/-- A call on an object: the streaming calls, and `Hash32(k, seeds...)` or `Hash64(k, seeds...)`, and `Hash64S(k, seed)`. -/
inductive Call where
  | stream (op : HOp)
  | write64 (h : U64)
  | hash (k : List U8) (seeds : List U64)
  | hashS (k : List U8) (seed : U64)

/-- What an object remembers: the bytes written since the last `Reset` and two words. -/
structure Memory where
  bytes : List U8
  words : U32 × U32

/-- The low and the high half. -/
def halves (s : U64) : U32 × U32 := (BitVec.ofNat 32 s.toNat, BitVec.ofNat 32 (s.toNat / 2 ^ 32))

/-- A 64-bit value from the two words of lookup3. -/
def value64 (r : U32 × U32) : U64 := BitVec.ofNat 64 (r.2.toNat * 2 ^ 32 + r.1.toNat)

/-- lookup3 started from two words. -/
def look (w : U32 × U32) (k : List U8) : U32 × U32 := hashlittle2 w.1 w.2 k

/-- `New364(seed)`. Every sum and every one-shot hash leaves its two words behind, and is what the next one starts from, unless that gets seeds of its own;
`Reset` forgets the words and the bytes written. With three seeds or more they are ignored. -/
def step364 (seed : U64) (s : Memory) : Call → Memory × HOut
  | .stream (.write p) => (⟨s.bytes ++ p, s.words⟩, .wrote p.length)
  | .write64 h => (⟨s.bytes ++ beBytes 8 h.toNat, s.words⟩, .done)
  | .stream .reset => (⟨[], halves seed⟩, .done)
  | .stream (.sum b) => (⟨s.bytes, look s.words s.bytes⟩, .bytes (b ++ [0#8, 0#8, 0#8, 0#8] ++ beBytes 4 (look s.words s.bytes).1.toNat))
  | .stream .value => (⟨s.bytes, look s.words s.bytes⟩, .value [value64 (look s.words s.bytes)])
  | .hash k seeds =>
    let r := match seeds with
      | [a] => look (halves a) k
      | [a, b] => look ((halves a).1, (halves b).1) k
      | _ => look s.words k
    (⟨s.bytes, r⟩, .value [value64 r])
  | .hashS k a => (⟨s.bytes, look (halves a) k⟩, .value [value64 (look (halves a) k)])

/-- `New(seed)` and `New332c(seed)`: a one-shot hash always starts from 0, 0, and the next sum starts from what it leaves behind. (`Write64` and `Hash64S` do not exist; the
calls are ignored.) -/
def step332 (seed : U32) (s : Memory) : Call → Memory × HOut
  | .stream (.write p) => (⟨s.bytes ++ p, s.words⟩, .wrote p.length)
  | .stream .reset => (⟨[], (seed, seed)⟩, .done)
  | .stream (.sum b) => (⟨s.bytes, look s.words s.bytes⟩, .bytes (b ++ beBytes 4 (look s.words s.bytes).1.toNat))
  | .stream .value => (⟨s.bytes, look s.words s.bytes⟩, .value [BitVec.ofNat 64 (look s.words s.bytes).1.toNat])
  | .hash k _ => (⟨s.bytes, look (0, 0) k⟩, .value [BitVec.ofNat 64 (look (0, 0) k).1.toNat])
  | .write64 _ => (s, .done)
  | .hashS _ _ => (s, .done)

/-- `New232(seed)`: only the bytes written are remembered. -/
def step232 (m : List U8) : Call → List U8 × HOut
  | .stream (.write p) => (m ++ p, .wrote p.length)
  | .stream .reset => ([], .done)
  | .stream (.sum b) => (m, .bytes (b ++ beBytes 4 (hash232 (m.take (m.length % 2 ^ 32)) 0).toNat))
  | .stream .value => (m, .value [BitVec.ofNat 64 (hash232 (m.take (m.length % 2 ^ 32)) 0).toNat])
  | .hash k _ => (m, .value [BitVec.ofNat 64 (hash232 (k.take (k.length % 2 ^ 32)) 0).toNat])
  | .write64 _ => (m, .done)
  | .hashS _ _ => (m, .done)

/-- What a caller sees of a history of calls. -/
def seen {σ : Type} (step : σ → Call → σ × HOut) : σ → List Call → List HOut
  | _, [] => []
  | s, c :: cs => (step s c).2 :: seen step (step s c).1 cs

end Verif.Spec.JenkinsCalls
