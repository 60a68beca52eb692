import Verif.Model.SipHash
import Verif.Model.Murmur3
import Verif.Model.Jenkins
import Verif.Model.Keccak
import Verif.Model.KeccakC
import Verif.Model.Small

/-!
# The constant methods of the hash objects: `Size`, `BlockSize`, `NumSeedBytes`, `HashSizeInBits`
-/

namespace Verif.Model.Accessors
open Verif

/-- What an object says about itself. `none` where the type has no such method. The methods are those cited at each instance below (e.g. murmur3/murmur.go:32). -/
structure Info where
  size : Int
  blockSize : Int
  seedBytes : Option Int
  bits : Option Int
  deriving DecidableEq, Repr

/-- siphash.go:73, 75 (`BlockSize = 8`, siphash.go:13). -/
def sip (d : SipHash.Digest) : Info := ⟨d.size, 8, none, none⟩

/-- `murmur3.New32()`: murmur32.go:34, murmur.go:32. -/
def murmur32 (_ : Murmur3.Digest U32) : Info := ⟨Murmur3.mixer32.size, 1, none, none⟩

/-- `murmur3.New128()`: murmur128.go:41, murmur.go:32. -/
def murmur128 (_ : Murmur3.Digest (U64 × U64)) : Info := ⟨Murmur3.mixer128.size, 1, none, none⟩

/-- `murmur3.New64()`: `type digest64 digest128` (murmur64.go:11-19) declares no `Size`; the promoted method is that of the embedded
`bmixer`, which is the `digest128` (murmur128.go:36-41), and murmur.go:32. -/
def murmur64 (d : Murmur3.Digest (U64 × U64)) : Info := murmur128 d

/-- `State332c`, jenkins.go:899-912. -/
def j332c (_ : Jenkins.State332c) : Info := ⟨4, 1, some 8, some 32⟩

/-- `State364`, jenkins.go:977-990. -/
def j364 (_ : Jenkins.State364) : Info := ⟨8, 1, some 8, some 64⟩

/-- `State232`, jenkins.go:1067-1080. -/
def j232 (_ : Jenkins.State232) : Info := ⟨4, 12, some 4, some 32⟩

/-- keccakpg, keccak.go:132-138. -/
def keccakpg (k : Keccak.Keccak) : Info := ⟨k.size, k.blockSize, none, none⟩

/-- keccak (cgo), keccak.go:72-78. -/
def keccak (k : KeccakC.Keccak) : Info := ⟨k.Size, k.BlockSize, none, none⟩

/-- `nullhashstate`, nullhash.go:16-26. -/
def nullhash (_ : NullHash.State) : Info := ⟨8, 8, some 8, none⟩

/-- `sbox.State`, sbox.go:69-85. -/
def sbox : Info := ⟨4, 2, some 4, some 32⟩

/-- `crapwow.State`, crapwow.go:86-102. -/
def crapwow : Info := ⟨4, 8, some 4, some 32⟩

end Verif.Model.Accessors
