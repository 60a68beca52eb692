import Verif.Go

/-! Tables of packages sbox and mahash, written by tools/gen_small.py from the Go source. -/

namespace Verif.Gen
open Verif

/-- `SBoxTable`, /repo/sbox/sbox.go:7-40. -/
def SBoxTable : List U32 := [
  0x4660c395#32, 0x3baba6c5#32, 0x27ec605b#32, 0xdfc1d81a#32, 0xaaac4406#32, 0x3783e9b8#32, 0xa4e87c68#32, 0x62dc1b2a#32,
  0xa8830d34#32, 0x10a56307#32, 0x4ba469e3#32, 0x54836450#32, 0x1b0223d4#32, 0x23312e32#32, 0xc04e13fe#32, 0x3b3d61fa#32,
  0xdab2d0ea#32, 0x297286b1#32, 0x73dbf93f#32, 0x6bb1158b#32, 0x46867fe2#32, 0xb7fb5313#32, 0x3146f063#32, 0x4fd4c7cb#32,
  0xa59780fa#32, 0x9fa38c24#32, 0x38c63986#32, 0xa0bac49f#32, 0xd47d3386#32, 0x49f44707#32, 0xa28dea30#32, 0xd0f30e6d#32,
  0xd5ca7704#32, 0x934698e3#32, 0x1a1ddd6d#32, 0xfa026c39#32, 0xd72f0fe6#32, 0x4d52eb70#32, 0xe99126df#32, 0xdfdaed86#32,
  0x4f649da8#32, 0x427212bb#32, 0xc728b983#32, 0x7ca5d563#32, 0x5e6164e5#32, 0xe41d3a24#32, 0x10018a23#32, 0x5a12e111#32,
  0x999ebc05#32, 0xf1383400#32, 0x50b92a7c#32, 0xa37f7577#32, 0x2c126291#32, 0x9daf79b2#32, 0xdea086b1#32, 0x85b1f03d#32,
  0x598ce687#32, 0xf3f5f6b9#32, 0xe55c5c74#32, 0x791733af#32, 0x39954ea8#32, 0xafcff761#32, 0x5fea64f1#32, 0x216d43b4#32,
  0xd039f8c1#32, 0xa6cf1125#32, 0xc14b7939#32, 0xb6ac7001#32, 0x138a2eff#32, 0x2f7875d6#32, 0xfe298e40#32, 0x4a3fad3b#32,
  0x066207fd#32, 0x8d4dd630#32, 0x96998973#32, 0xe656ac56#32, 0xbb2df109#32, 0x0ee1ec32#32, 0x03673d6c#32, 0xd20fb97d#32,
  0x2c09423c#32, 0x093eb555#32, 0xab77c1e2#32, 0x64607bf2#32, 0x945204bd#32, 0xe8819613#32, 0xb59de0e3#32, 0x5df7fc9a#32,
  0x82542258#32, 0xfb0ee357#32, 0xda2a4356#32, 0x5c97ab61#32, 0x8076e10d#32, 0x48e4b3cc#32, 0x7c28ec12#32, 0xb17986e1#32,
  0x01735836#32, 0x1b826322#32, 0x6602a990#32, 0x7c1cef68#32, 0xe102458e#32, 0xa5564a67#32, 0x1136b393#32, 0x98dc0ea1#32,
  0x3b6f59e5#32, 0x9efe981d#32, 0x35fafbe0#32, 0xc9949ec2#32, 0x62c765f9#32, 0x510cab26#32, 0xbe071300#32, 0x7ee1d449#32,
  0xcc71beef#32, 0xfbb4284e#32, 0xbfc02ce7#32, 0xdf734c93#32, 0x2f8cebcd#32, 0xfeedc6ab#32, 0x5476ee54#32, 0xbd2b5ff9#32,
  0xf4fd0352#32, 0x67f9d6ea#32, 0x7b70db05#32, 0x5a5f5310#32, 0x482dd7aa#32, 0xa0a66735#32, 0x321ae71f#32, 0x8e8ad56c#32,
  0x27a509c3#32, 0x1690b261#32, 0x4494b132#32, 0xc43a42a7#32, 0x3f60a7a6#32, 0xd63779ff#32, 0xe69c1659#32, 0xd15972c8#32,
  0x5f6cdb0c#32, 0xb9415af2#32, 0x1261ad8d#32, 0xb70a6135#32, 0x52ceda5e#32, 0xd4591dc3#32, 0x442b793c#32, 0xe50e2dee#32,
  0x6f90fc79#32, 0xd9ecc8f9#32, 0x063dd233#32, 0x6cf2e985#32, 0xe62cfbe9#32, 0x3466e821#32, 0x2c8377a2#32, 0x00b9f14e#32,
  0x237c4751#32, 0x40d4a33b#32, 0x919df7e8#32, 0xa16991a4#32, 0xc5295033#32, 0x5c507944#32, 0x89510e2b#32, 0xb5f7d902#32,
  0xd2d439a6#32, 0xc23e5216#32, 0xd52d9de3#32, 0x534a5e05#32, 0x762e73d4#32, 0x3c147760#32, 0x2d189706#32, 0x20aa0564#32,
  0xb07bbc3b#32, 0x8183e2de#32, 0xebc28889#32, 0xf839ed29#32, 0x532278f7#32, 0x41f8b31b#32, 0x762e89c1#32, 0xa1e71830#32,
  0xac049bfc#32, 0x9b7f839c#32, 0x8fd9208d#32, 0x2d2402ed#32, 0xf1f06670#32, 0x2711d695#32, 0x5b9e8fe4#32, 0xdc935762#32,
  0xa56b794f#32, 0xd8666b88#32, 0x6872c274#32, 0xbc603be2#32, 0x2196689b#32, 0x5b2b5f7a#32, 0x00c77076#32, 0x16bfa292#32,
  0xc2f86524#32, 0xdd92e83e#32, 0xab60a3d4#32, 0x92daf8bd#32, 0x1fe14c62#32, 0xf0ff82cc#32, 0xc0ed8d0a#32, 0x64356e4d#32,
  0x7e996b28#32, 0x81aad3e8#32, 0x05a22d56#32, 0xc4b25d4f#32, 0x5e3683e5#32, 0x811c2881#32, 0x124b1041#32, 0xdb1b4f02#32,
  0x5a72b5cc#32, 0x07f8d94e#32, 0xe5740463#32, 0x498632ad#32, 0x7357ffb1#32, 0x0dddd380#32, 0x3d095486#32, 0x2569b0a9#32,
  0xd6e054ae#32, 0x14a47e22#32, 0x73ec8dcc#32, 0x004968cf#32, 0xe0c3a853#32, 0xc9b50a03#32, 0xe1b0eb17#32, 0x57c6f281#32,
  0xc9f9377d#32, 0x43e03612#32, 0x9a0c4554#32, 0xbb2d83ff#32, 0xa818ffee#32, 0xf407db87#32, 0x175e3847#32, 0x5597168f#32,
  0xd3d547a7#32, 0x78f3157c#32, 0xfc750f20#32, 0x9880a1c6#32, 0x1af41571#32, 0x95d01dfc#32, 0xa3968d62#32, 0xeae03cf8#32,
  0x02ee4662#32, 0x5f1943ff#32, 0x252d9d1c#32, 0x6b718887#32, 0xe052f724#32, 0x4cefa30b#32, 0xdcc31a00#32, 0xe4d0024d#32,
  0xdbb4534a#32, 0xce01f5c8#32, 0x0c072b61#32, 0x5d59736a#32, 0x60291da4#32, 0x1fbe2c71#32, 0x2f11d09c#32, 0x9dce266a#32]

/-- `sTable`, /repo/mahash/mahash8v64.go:8-25. -/
def sTable : List U8 := [
  0xa3#8, 0xd7#8, 0x09#8, 0x83#8, 0xf8#8, 0x48#8, 0xf6#8, 0xf4#8,
  0xb3#8, 0x21#8, 0x15#8, 0x78#8, 0x99#8, 0xb1#8, 0xaf#8, 0xf9#8,
  0xe7#8, 0x2d#8, 0x4d#8, 0x8a#8, 0xce#8, 0x4c#8, 0xca#8, 0x2e#8,
  0x52#8, 0x95#8, 0xd9#8, 0x1e#8, 0x4e#8, 0x38#8, 0x44#8, 0x28#8,
  0x0a#8, 0xdf#8, 0x02#8, 0xa0#8, 0x17#8, 0xf1#8, 0x60#8, 0x68#8,
  0x12#8, 0xb7#8, 0x7a#8, 0xc3#8, 0xe9#8, 0xfa#8, 0x3d#8, 0x53#8,
  0x96#8, 0x84#8, 0x6b#8, 0xba#8, 0xf2#8, 0x63#8, 0x9a#8, 0x19#8,
  0x7c#8, 0xae#8, 0xe5#8, 0xf5#8, 0xf7#8, 0x16#8, 0x6a#8, 0xa2#8,
  0x39#8, 0xb6#8, 0x7b#8, 0x0f#8, 0xc1#8, 0x93#8, 0x81#8, 0x1b#8,
  0xee#8, 0xb4#8, 0x1a#8, 0xea#8, 0xd0#8, 0x91#8, 0x2f#8, 0xb8#8,
  0x55#8, 0xb9#8, 0xda#8, 0x85#8, 0x3f#8, 0x41#8, 0xbf#8, 0xe0#8,
  0x5a#8, 0x58#8, 0x80#8, 0x5f#8, 0x66#8, 0x0b#8, 0xd8#8, 0x90#8,
  0x35#8, 0xd5#8, 0xc0#8, 0xa7#8, 0x33#8, 0x06#8, 0x65#8, 0x69#8,
  0x45#8, 0x00#8, 0x94#8, 0x56#8, 0x6d#8, 0x98#8, 0x9b#8, 0x76#8,
  0x97#8, 0xfc#8, 0xb2#8, 0xc2#8, 0xb0#8, 0xfe#8, 0xdb#8, 0x20#8,
  0xe1#8, 0xeb#8, 0xd6#8, 0xe4#8, 0xdd#8, 0x47#8, 0x4a#8, 0x1d#8,
  0x42#8, 0xed#8, 0x9e#8, 0x6e#8, 0x49#8, 0x3c#8, 0xcd#8, 0x43#8,
  0x27#8, 0xd2#8, 0x07#8, 0xd4#8, 0xde#8, 0xc7#8, 0x67#8, 0x18#8,
  0x89#8, 0xcb#8, 0x30#8, 0x1f#8, 0x8d#8, 0xc6#8, 0x8f#8, 0xaa#8,
  0xc8#8, 0x74#8, 0xdc#8, 0xc9#8, 0x5d#8, 0x5c#8, 0x31#8, 0xa4#8,
  0x70#8, 0x88#8, 0x61#8, 0x2c#8, 0x9f#8, 0x0d#8, 0x2b#8, 0x87#8,
  0x50#8, 0x82#8, 0x54#8, 0x64#8, 0x26#8, 0x7d#8, 0x03#8, 0x40#8,
  0x34#8, 0x4b#8, 0x1c#8, 0x73#8, 0xd1#8, 0xc4#8, 0xfd#8, 0x3b#8,
  0xcc#8, 0xfb#8, 0x7f#8, 0xab#8, 0xe6#8, 0x3e#8, 0x5b#8, 0xa5#8,
  0xad#8, 0x04#8, 0x23#8, 0x9c#8, 0x14#8, 0x51#8, 0x22#8, 0xf0#8,
  0x29#8, 0x79#8, 0x71#8, 0x7e#8, 0xff#8, 0x8c#8, 0x0e#8, 0xe2#8,
  0x0c#8, 0xef#8, 0xbc#8, 0x72#8, 0x75#8, 0x6f#8, 0x37#8, 0xa1#8,
  0xec#8, 0xd3#8, 0x8e#8, 0x62#8, 0x8b#8, 0x86#8, 0x10#8, 0xe8#8,
  0x08#8, 0x77#8, 0x11#8, 0xbe#8, 0x92#8, 0x4f#8, 0x24#8, 0xc5#8,
  0x32#8, 0x36#8, 0x9d#8, 0xcf#8, 0xf3#8, 0xa6#8, 0xbb#8, 0xac#8,
  0x5e#8, 0x6c#8, 0xa9#8, 0x13#8, 0x57#8, 0x25#8, 0xb5#8, 0xe3#8,
  0xbd#8, 0xa8#8, 0x3a#8, 0x01#8, 0x05#8, 0x59#8, 0x2a#8, 0x46#8]

end Verif.Gen
