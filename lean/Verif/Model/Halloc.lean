import Verif.Model.Small
import Verif.Model.Jenkins
import Verif.Model.Accessors

/-! # Model of `Halloc`, /repo/hashf/hashf.go:207-219, and of calls through the interface it returns -/

namespace Verif.Model.Halloc
open Verif

/-- The dynamic value of a `nhash.HashF32` returned by `Halloc`. hashf.go:207-219. -/
inductive Obj where
  | none
  | sbox (s : Sbox.State)
  | crapwow (s : CrapWow.State)
  | j332c (s : Jenkins.State332c)
  | j232 (s : Jenkins.State232)

/-- `Halloc`, hashf.go:207-219. -/
def Halloc (hfs : String) : Obj :=
  if hfs = "sbox" then .sbox (Sbox.New 0#32)
  else if hfs = "CrapWow" then .crapwow (CrapWow.New 0#32)
  else if hfs = "j332c" then .j332c (Jenkins.new332c 0#32)
  else if hfs = "j232" then .j232 (Jenkins.new232 0#32)
  else .none

/-- `o.Hash32(b, seeds...)`: the method of the dynamic type (sbox.go:87-93, crapwow.go:104-110, jenkins.go:946-964, 1110-1117); calling a method of a nil interface panics. -/
def Obj.Hash32 : Obj → List U8 → List U32 → Go (Obj × U32)
  | .none, _, _ => Go.panic "nil"
  | .sbox s, b, seeds => do
    let (s, h) ← s.Hash32 b seeds
    return (.sbox s, h)
  | .crapwow s, b, seeds => do
    let (s, h) ← s.Hash32 b seeds
    return (.crapwow s, h)
  | .j332c s, b, seeds => do
    let (s, h) ← s.hash32 b seeds
    return (.j332c s, h)
  | .j232 s, b, seeds => do
    let (s, h) ← s.hash32 b seeds
    return (.j232 s, h)

/-- A history of calls on one object: the results. The caller, not in the source; for hashf.go:207-219. -/
def Obj.run (o : Obj) : List (List U8 × List U32) → Go (List U32)
  | [] => .ok []
  | (b, seeds) :: cs => do
    let (o, h) ← o.Hash32 b seeds
    let hs ← Obj.run o cs
    return h :: hs

/-- `o.Size()`, `o.BlockSize()`, `o.NumSeedBytes()` (see `Model.Accessors`). nhash/nhash.go. -/
def Obj.info : Obj → Option Accessors.Info
  | .none => Option.none
  | .sbox _ => some Accessors.sbox
  | .crapwow _ => some Accessors.crapwow
  | .j332c s => some (Accessors.j332c s)
  | .j232 s => some (Accessors.j232 s)

end Verif.Model.Halloc
