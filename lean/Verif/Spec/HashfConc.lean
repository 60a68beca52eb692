/-! # Which names may be used by several goroutines at once (C107) -/

namespace Verif.Spec.HashfConc

/-- The names whose functions use no package variables. -/
def safe : List String := ["perfecthash", "gomap64", "gomap32", "aeshash64", "aeshash32I", "aeshash64I", "sbox", "CrapWow", "MaHash8v64", "j232",
  "j264", "j264l", "j264h", "j264xor", "spooky32", "spooky64", "spooky128h", "spooky128l", "siphash64", "FarmHash32", "FarmHash64",
  "FarmHash128-high", "FarmHash128-low", "MetroHash64-1", "MetroHash64-2", "MetroHash128-1h", "MetroHash128-1l", "MetroHash128-2h", "MetroHash128-2l"]

/-- The names under which the result is taken from package variables alone. -/
def stolen : List String := ["nullhash", "nullhashF64ns", "adler32", "j364", "j332c", "j332b", "spooky128xor", "murmur332", "murmur364", "FarmHash128-xor",
  "MetroHash128-1xor", "MetroHash128-2xor", "keccak224", "keccakpg643", "keccakpg644", "keccakpg648", "keccakpg160", "whirlpool", "blake2b", "sha1"]

/-- Of these, the names that use a shared buffer for the digest. -/
def buffered : List String := ["keccak224", "keccakpg643", "keccakpg644", "keccakpg648", "keccakpg160", "whirlpool", "blake2b", "sha1"]

end Verif.Spec.HashfConc
