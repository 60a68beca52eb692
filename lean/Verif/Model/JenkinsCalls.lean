import Verif.Model.Jenkins
import Verif.Spec.JenkinsCalls

/-!
# Model of a caller that uses all methods of a Jenkins object
-/

namespace Verif.Model.Jenkins
open Verif Verif.Spec.JenkinsCalls

/-- One call on a `State364`: its methods, jenkins.go:993-1054. -/
def State364.call (d : State364) : Call → Go (State364 × HOut)
  | .stream (.write p) => let (d, n) := d.write p; .ok (d, .wrote n)
  | .stream .reset => .ok (d.reset, .done)
  | .stream (.sum b) => do let (d, r) ← d.sum b; return (d, .bytes r)
  | .stream .value => do let (d, v) ← d.sum64; return (d, .value [v])
  | .write64 h => .ok (d.write64 h, .done)
  | .hash k seeds => do let (d, v) ← d.hash64 k seeds; return (d, .value [v])
  | .hashS k seed => do let (d, v) ← d.hash64S k seed; return (d, .value [v])

/-- One call on a `State332c`: its methods, jenkins.go:915-964. `Write64` and `Hash64S` do not exist. The seeds of `Hash32` are 32-bit numbers. -/
def State332c.call (d : State332c) : Call → Go (State332c × HOut)
  | .stream (.write p) => let (d, n) := d.write p; .ok (d, .wrote n)
  | .stream .reset => .ok (d.reset, .done)
  | .stream (.sum b) => do let (d, r) ← d.sum b; return (d, .bytes r)
  | .stream .value => do let (d, v) ← d.sum32; return (d, .value [v.setWidth 64])
  | .hash k seeds => do let (d, v) ← d.hash32 k (seeds.map (·.setWidth 32)); return (d, .value [v.setWidth 64])
  | .write64 _ => .ok (d, .done)
  | .hashS _ _ => .ok (d, .done)

/-- One call on a `State232`: its methods, jenkins.go:1083-1117. -/
def State232.call (d : State232) : Call → Go (State232 × HOut)
  | .stream (.write p) => let (d, n) := d.write p; .ok (d, .wrote n)
  | .stream .reset => .ok (d.reset, .done)
  | .stream (.sum b) => do let (d, r) ← d.sum b; return (d, .bytes r)
  | .stream .value => do let (d, v) ← d.sum32; return (d, .value [v.setWidth 64])
  | .hash k seeds => do let (d, v) ← d.hash32 k (seeds.map (·.setWidth 32)); return (d, .value [v.setWidth 64])
  | .write64 _ => .ok (d, .done)
  | .hashS _ _ => .ok (d, .done)

/-- A history of calls on one object: what the caller sees. The caller, not in the source. -/
def runCalls {σ : Type} (call : σ → Call → Go (σ × HOut)) : σ → List Call → Go (List HOut)
  | _, [] => .ok []
  | d, c :: cs => do
    let (d, o) ← call d c
    return o :: (← runCalls call d cs)

end Verif.Model.Jenkins
