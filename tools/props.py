#!/usr/bin/env python3
"""Generates /verif/properties.jsonl (one tuple per property)."""
import json, os
P = []
def p(id, title, statement, quantifier, why, *anchors):
    P.append(dict(id=id, title=title, statement=statement, quantifier=quantifier,
                  why_tests_cant=why, anchors=list(anchors)))
HT="hashtable/hashtable.go"
p("C01","NextLog2 is the ceiling base-2 logarithm","For every 32-bit x >= 2, NextLog2(x) is the least n with 2^n >= x; NextLog2(0)=0 and NextLog2(1)=1, so 2^NextLog2(x) >= x always.","all 2^32 values of x","2^32 inputs; a wrong shift in the bisection shows up only at particular boundaries",f"{HT}:NextLog2")
p("C02","Table geometry","NewHashTable(size,...) with 0<=size<2^32 and extra>=0 allocates exactly Size buckets, Size = 2^(NextLog2(size)+extra) >= size is a power of two and h & SizeMask = h mod Size; a negative size allocates exactly -size buckets; a size >= 2^32 is silently truncated modulo 2^32. The new table is empty, its counters are 0, and it reports its arguments and the logarithm NextLog2(size)+extra; with the prime option it has NextPrime(Size) buckets. It succeeds exactly when the bucket array fits the 48-bit address space (NextLog2(size)+extra <= 43; -size <= 2^48/24) or the shift overflows to an empty table, and panics otherwise.","all sizes, extras and hash values h","unbounded sizes; overflow corners are never exercised",f"{HT}:NewHashTable",f"{HT}:NextLog2")
p("C03","Insert never indexes outside the table","For every table with at least one bucket, every hash function and every history of inserts, each bucket index Insert touches is below the number of buckets, so Insert never dies with an index-out-of-range panic.","all table shapes, hash functions, keys and insert histories","the index is a function of arbitrary 64-bit hash values and wrap-around of the probe",f"{HT}:(*HashTable).Insert")
p("C04","Chained table holds exactly the inserted keys","In chaining mode after any sequence of inserts, bucket i contains exactly the inserted keys whose hash maps to i, in insertion order, with multiplicity; nothing is lost, duplicated or moved.","all insert sequences, all hash functions","any history length",f"{HT}:(*HashTable).Insert")
p("C05","Chained statistics are exact","In chaining mode after n inserts: Inserts = Probes = n, Cols = 0, Heads = number of non-empty buckets, Nbuckets = n - Heads, LongestChain = length of the longest chain (0 while no chain exceeds one key).","all insert sequences, all hash functions","statistics of unbounded histories",f"{HT}:(*HashTable).Insert",f"{HT}:Stats")
p("C06","Dups counts colliding pairs","For a deterministic hash function, Dups after any insert history equals the number of pairs i<j of inserted keys whose full 64-bit hashes are equal - in chaining mode and, as long as no insert panics, identically in open-addressing mode.","all insert sequences, hash functions, both modes","relates a counter to all pairs of a history",f"{HT}:(*HashTable).Insert",f"{HT}:Stats.Dups")
p("C07","Open addressing stores every key at its first free slot","In open-addressing mode each slot holds at most one key, n inserts into a table of Size >= n slots all succeed, the stored keys are exactly the inserted keys as a multiset, and each stored key is reachable by scanning circularly from its home slot without meeting an empty slot.","all insert sequences, all hash functions, all sizes","probe wrap-around and clustering depend on the entire history",f"{HT}:(*HashTable).Insert")
p("C08","Open-addressing insert terminates and panics exactly when full","In open-addressing mode Insert always terminates; it panics with \"Add: pass\" iff every slot is occupied.","all tables and hash values","termination over all table states",f"{HT}:(*HashTable).Insert")
p("C09","Open-addressing statistics","In open-addressing mode, Heads = Inserts = number of occupied slots; Probes - Inserts = number of inserts that met an occupied slot first; Cols + (Probes - Inserts) = total number of occupied slots stepped over.","all insert histories that do not panic","counter invariants over unbounded histories",f"{HT}:(*HashTable).Insert")
p("C10","Insert keeps its own copy of the key","Overwriting the caller's key buffer after Insert never changes what the table holds, any later statistic or whether an insert succeeds.","all heaps, buffers, later writes","aliasing shows only under particular later mutations",f"{HT}:(*HashTable).Insert","ht.go:TestI","ht.go:TestJ")
p("C11","HashQuality is the Dragon-book ratio","HashQuality returns Size*sum c(c+1) / (n(n+2*Size-1)) over chain lengths c (0 when n=0); in open-addressing mode it depends on n and Size only, not on the hash function.","all histories","holds for all histories; exact arithmetic (rounding of float64 is outside the model)",f"{HT}:(*HashTable).HashQuality")
p("C12","diff counts bits","diff(d) returns (64 - popcount d, popcount d) and never panics.","all 2^64 values d","2^64 inputs",f"{HT}:diff")
p("C13","siphash.Hash is SipHash-2-4","For every key (k0,k1) and message, the pure-Go Hash equals the SipHash-2-4 specification (pad the message to 8-byte little-endian words with the length byte on top, 2 rounds per word, xor 0xff, 4 rounds, xor of the state), and never panics.","all keys and messages of any length","unbounded inputs","siphash/hash.go:Hash")
p("C14","siphash.Hash128 is SipHash-2-4-128","Same for Hash128 and the 128-bit specification.","all keys and messages","unbounded inputs","siphash/hash128.go:Hash128")
p("C15","SipHash streaming equals one-shot","For any 16-byte key and any way of splitting a message into Write calls (including empty ones), New(key).Write*.Sum64 equals Hash(k0,k1,message), and the 128-bit streaming sum equals Hash128.","all keys, messages, chunkings","every split point of every message","siphash/siphash.go:(*digest).Write","siphash/siphash.go:(*digest).Sum64","siphash/siphash.go:(*digest).sum128")
p("C16","SipHash Sum is pure, little-endian and Reset restores","Sum/Sum64 do not change the state (summing any number of times and continuing to write is the same as not having summed); Sum appends the little-endian bytes of Sum64 (or of both halves) to its argument; Reset after any history behaves like a fresh digest; Write reports len(p).","all histories of Write/Sum/Sum64/Reset","histories","siphash/siphash.go:(*digest).Sum","siphash/siphash.go:(*digest).Reset")
p("C17","The two SipHash packages agree","siphashpg.Siphash(in,key,2,4,false) returns siphash.Hash of the key's two little-endian halves, and with dbl=true returns Hash128; for general round counts it is SipHash-c-d; it panics iff the key is not 16 bytes or a round count is not positive.","all keys, messages, round counts","two implementations, unbounded inputs","siphashpg/siphash.go:Siphash","siphash/hash.go:Hash")
p("C18","SipHash word codec and round are bijections","U8tou64le and U64tou8le are mutually inverse, and siprounda followed by siproundb equals the inlined round, which is a permutation of the 256-bit state.","all words / states","2^64 / 2^256 inputs","siphashpg/siphash.go:U8tou64le","siphashpg/siphash.go:U64tou8le","siphashpg/siphash.go:siprounda")
p("C19","Assembly SipHash equals Go SipHash","The amd64 assembly Hash computes the same function as the pure Go Hash for every key and message, reads only inside the slice and terminates.","all keys and messages","which one runs depends on the platform; unbounded inputs","siphash/hash_amd64.s","siphash/hash.go:Hash")
p("C20","Assembly SipHash-128 equals Go","Same for Hash128.","all keys and messages","as C19","siphash/hash128_amd64.s","siphash/hash128.go:Hash128")
p("C21","murmur3.Sum32 is MurmurHash3_x86_32","Sum32(data) equals the MurmurHash3 x86_32 specification with seed 0 for all data.","all byte strings","unbounded inputs","murmur3/murmur32.go:Sum32")
p("C22","murmur3 32-bit streaming equals one-shot","New32 followed by any sequence of Writes then Sum32 equals Sum32 of the concatenation; Sum32 leaves the state unchanged.","all messages, all chunkings","every split point","murmur3/murmur.go:(*digest).Write","murmur3/murmur32.go:(*digest32).bmix","murmur3/murmur32.go:(*digest32).Sum32")
p("C23","murmur3 128/64-bit streaming, one-shot and specification agree","Sum128(data) equals the x64_128 specification; any chunking of Writes gives the same; Sum64 is its first half.","all messages, all chunkings","every split point","murmur3/murmur128.go:Sum128","murmur3/murmur128.go:(*digest128).bmix","murmur3/murmur64.go:Sum64")
p("C24","What murmur3 Sum appends","Sum(b) appends to b a fixed number of bytes that depend only on the complete blocks written since the last Reset: the big-endian unfinalised running state, ignoring pending bytes and length, and does not change the object. The hash.Hash contract (append the digest that Sum32/Sum64/Sum128 return) therefore fails, for 32, 64 and 128 bits.","all histories","a universal contract over histories; the tests only compare Sum32/Sum64/Sum128","murmur3/murmur32.go:(*digest32).Sum","murmur3/murmur64.go:(*digest64).Sum","murmur3/murmur128.go:(*digest128).Sum")
p("C25","murmur3 is injective on short keys","Distinct keys of the same length <= 4 never collide under Sum32, and distinct keys of the same length <= 16 never collide under Sum128. Longer keys of one length that differ inside one aligned block (or the tail) only never collide either, and for two keys of the same length that consist of whole blocks appending the same bytes to both neither makes nor breaks a collision.","all pairs of keys and all common prefixes and suffixes","2^64 resp. 2^256 pairs","murmur3/murmur32.go:Sum32","murmur3/murmur128.go:Sum128","murmur3/murmur128.go:fmix64")
p("C26","murmur3 Reset and Write contract","Reset after any history is indistinguishable from a fresh hasher; Write always reports len(p); pending bytes are always fewer than the block size and clen is the number of bytes written since the last Reset.","all histories","histories","murmur3/murmur.go:(*digest).Reset","murmur3/murmur.go:(*digest).Write")
J="jenkins/jenkins.go"
p("C27","Jenkins mixers are reversible","mix32, mix64, mix1, mix2, final1 and final2 are bijections of the (a,b,c) state: no two states are merged.","all states (96 / 192 bits)","2^96 states",f"{J}:mix32",f"{J}:mix64",f"{J}:mix1",f"{J}:final1")
p("C28","Which spellings of the mixers agree","For every state mix32a = mix32 and mix64f(mix64e(...mix64a)) = mix64alt; mix64alt, documented as a restatement of mix64, is a different function (precedence of - and ^).","all states","2^96 / 2^192 states",f"{J}:mix32a",f"{J}:mix64alt",f"{J}:mix64a")
p("C29","Hash232 fast and slow paths agree and never panic","For keys shorter than 2^32 bytes Hash232 terminates without panic, its word-slice path and its byte path return the same value and both equal the block specification; for longer keys only the first (len mod 2^32) bytes are hashed.","all keys and seeds","unbounded inputs; >4GiB keys",f"{J}:Hash232",f"{J}:sliceUI32")
p("C30","What Hash232 sees of a short key","On keys of one to three bytes Hash232 depends only on k[0]+len(k), k[1] and k[2] (zero when absent), through the bijective mixer; hence for every seed [x+1] collides with [x,0] and short keys are not separated (the TestL / SmallKeys expectation).","all short keys, all seeds","all short keys and all 2^32 seeds",f"{J}:Hash232","ht.go:TestL","smhasher/smhasher.go:TestSmhasherSmallKeys")
p("C31","Hash264 fast and slow paths agree and never panic","For all keys and seeds Hash264 terminates without panic and fast path = slow path = block specification.","all keys and seeds","unbounded inputs",f"{J}:Hash264",f"{J}:sliceUI64")
p("C32","lookup3 word hash and byte hash agree","HashWords332(w,seed) = HashWordsLen(w,len w,seed) = XHashWords(w,_,seed) = first result of Jenkins364(little-endian bytes of w, 4*len w, seed, 0).","all word slices (shorter than 2^30 words) and seeds","unbounded inputs",f"{J}:HashWords332",f"{J}:HashWordsLen",f"{J}:XHashWords",f"{J}:Jenkins364")
p("C33","Jenkins364 is memory safe and equals its specification","With length = len(k) or 0, all unsafe loads stay inside the key, no panic occurs, and the result is the lookup3 block specification (12-byte blocks, zero-padded last block).","all keys and seeds","out-of-bounds unsafe loads are invisible to tests",f"{J}:Jenkins364")
p("C34","What the length argument of HashBytesLength means","HashBytesLength(k,n,seed) panics iff n > len(k). For 0 < n <= len(k) its value is lookup3 of k[:n] with the length word taken from len(k), so it depends on nothing of k beyond k[:n] but its length; for n = len(k) it is the hash of k; n = 0 hashes the whole slice, a negative n nothing of it (all keys of one length get the same hash). It is not in general the hash of k[:n].","all keys, n, seeds","all keys, lengths and seeds",f"{J}:HashBytesLength",f"{J}:Jenkins364")
p("C35","Jenkins streaming equals one-shot","New(seed).Write*.Sum32 equals Sum32(concatenation, seed) for every chunking, also after Reset from any history; New364 likewise equals Jenkins364 of the concatenation.","all messages, chunkings, histories","every split point",f"{J}:(*State332c).Write",f"{J}:(*State332c).Sum32",f"{J}:Sum32",f"{J}:(*State364).Sum64")
p("C36","Jenkins objects under every call history","For New(seed) and New364(seed) every sequence of Write, Reset, Sum, Sum32/Sum64 runs without fault, and each sum is lookup3 of the bytes written since the last Reset seeded with the two words of the previous sum since that Reset. So asking twice gives different answers and no digest function makes the objects satisfy the hash.Hash contract.","all histories","histories of calls",f"{J}:(*State332c).Sum32",f"{J}:(*State364).Sum64","nhash/nhash.go:HashStream")
p("C37","State364: Sum against Sum64, Write64 against Write","In every state Write64(h) equals Write of the eight big-endian bytes of h, and Sum(b) appends four zero bytes followed by the low four big-endian bytes of what Sum64 would return - not the bytes of Sum64.","all histories","all states",f"{J}:(*State364).Sum",f"{J}:(*State364).Write64")
p("C38","Which seeds the Jenkins one-shot interfaces honour","Hash32 on New332c(seed) and on New232(seed) returns the seed-0 hash whatever seed is given at construction or call; Hash64 on New364(seed) uses the two call seeds, or the two halves of the single call seed, or else of the construction seed.","all seeds, keys","all seeds and keys",f"{J}:(*State332c).Hash32",f"{J}:New232",f"{J}:(*State232).Hash32")
p("C39","Lengths HashWordsLen survives","HashWordsLen(k,n,seed) returns normally if n <= len(k) (lookup3 of the first n words started from the length of the whole slice; for negative n the unmixed initial value), dies with an index fault if len(k) < n <= 4*len(k), and panics through its guard iff n > 4*len(k); the guard compares bytes with words and so does not protect the slice.","all slices and lengths","all slices and lengths",f"{J}:HashWordsLen")
p("C40","SpookyHash mixers are permutations","ShortMix, ShortEnd, EndPartial and, for fixed data, Mix and End are bijections of the state.","all states","2^256 / 2^768 states","spooky/spooky.go:ShortMix","spooky/spooky.go:ShortEnd","spooky/spooky.go:Mix","spooky/spooky.go:EndPartial")
p("C41","SpookyHash is total and consistent across widths","SpookyHash128 never panics or reads out of bounds for any input, switches algorithm at 192 bytes, equals the block specification, Hash64 is the first half of Hash128 and Hash32 its low 32 bits with a zero-extended seed.","all inputs and seeds","unbounded inputs","spooky/spooky.go:SpookyHash128","spooky/spooky.go:SpookyHashShort","spooky/spooky.go:Hash64")
p("C42","MetroHash never panics","All four MetroHash functions return normally for every key and seed (every load is in bounds).","all keys and seeds","all residues of the length and all tails","metro/metro64.go:Hash64_1","metro/metro64.go:Hash64_2","metro/metro128.go:Hash128_1","metro/metro128.go:Hash128_2")
p("C43","MetroHash64: which bytes of the key are used","Hash64_1 is the published MetroHash64_1 on every key whose length is not 4 mod 8; on every key whose length is 4 mod 8 the last byte of the key is only counted, never read, so for every seed all keys differing in that byte collide. The expected property (every byte of the key can influence Hash64_1) is refuted; Hash64_2 reads the byte.","all keys whose length is 4 mod 8","quantifies over all keys and seeds; a test sees single collisions","metro/metro64.go:Hash64_1")
p("C44","MetroHash64 reaches at most half of the 64-bit range","Every output of Hash64_1 and Hash64_2 has even bit parity, so flipping any one bit of an output gives a value that no key and seed hash to, and at most 2^63 of the 2^64 values are outputs; of Hash64_2, which folds its state by a rotation of 28 bits, at most 2^60 are. The expected property (every 64-bit value is a possible output) is refuted.","all keys and seeds","quantifies over all keys and seeds: unreachability cannot be tested","metro/metro64.go:Hash64_1","metro/metro64.go:Hash64_2")
p("C45","FarmHash is total and equals the published algorithm","Hash32, Hash32WithSeed, Hash64, Hash64WithSeed(s), Hash128/Fingerprint128 and Hash128WithSeed return normally for every input length (no index or slice goes out of range) with the FarmHash (CityHash128) value of the key.","all inputs and seeds","offsets computed from the length at every boundary; unbounded keys","farm/farmhashmk.go:Hash32","farm/farmhashuo.go:Hash64","farm/farmhashna.go:naHash64","farm/farmhashcc.go:cityHash128WithSeed")
p("C46","FarmHash seeding cannot separate colliding keys","For keys of at most 64 bytes, Hash64WithSeed(s,seed)=Hash64WithSeed(t,seed) for one seed iff Hash64(s)=Hash64(t), so it holds for all seeds or none (likewise Hash64WithSeeds); for keys of the same length > 24 with equal first 24 bytes, Hash32WithSeed collides for one seed iff Hash32 of the remaining bytes collides. The expectation that seeds separate keys is refuted by a pair colliding under all seeds.","all pairs of keys, all seeds","quantifies over seeds and keys","farm/farmhashuo.go:Hash64WithSeed","farm/farmhashna.go:naHash64WithSeeds")
p("C47","FarmHash helpers","rotate32/rotate64 are bijections undone by the complementary rotation; fmix is a bijection; mur is a bijection in each argument; hashLen16Mul is a bijection in its first argument for odd multipliers.","all words","2^32 / 2^64 inputs","farm/basics.go:fmix","farm/basics.go:mur","farm/platform.go:rotate64","farm/farmhashna.go:hashLen16Mul")
p("C48","gomap hashes read only the key and fail only on the empty key","For every non-empty key all unsafe loads of Hash32/Hash64 lie inside the key, the call returns and the result is the documented four-lane word hash; for the empty key, and no other, it panics.","all keys and seeds","unsafe pointer arithmetic; unbounded keys","gomap/hash32.go:Hash32","gomap/hash64.go:Hash64")
p("C49","gomap hashes are injective on the last group of a key and in the seed","Keys of equal length, however long, that differ only in their last aligned 4-byte (Hash32) or 8-byte (Hash64) group never collide; in particular distinct keys of the same length <= 4 (<= 8) never collide. In keys longer than 16 (32) bytes the same holds for a change of any one aligned group inside the complete blocks of 16 (32) bytes. Elsewhere it is refuted (the middle group of a 12-byte key - of a 24-byte key for Hash64 - is read twice, and two keys that differ only there collide). For keys up to 16 (32) bytes distinct seeds give distinct hashes.","all pairs of keys / seeds","2^64 pairs and more, at every length","gomap/hash32.go:Hash32","gomap/hash64.go:Hash64","ht.go:TestL","smhasher/smhasher.go:TestSmhasherSeed")
p("C50","Both readUnaligned variants agree","The shift-and-add byte reader of the ARM/PPC build returns the same word as a little-endian load.","all byte groups","2^64 inputs","gomap/unaligned1.go:readUnaligned64","gomap/unaligned2.go:readUnaligned64")
p("C51","sbox is a per-byte fold","Sbox(key,seed) never panics and equals the byte-at-a-time fold h -> (h xor T[b])*3 from len+seed, then its final mix; State.Hash32 uses the most recent seed ever passed (sticky). The fold itself loses nothing (bijective in the seed, one-byte changes always change it), so every key reaches the same set of values as the seed varies; but the final mix is not one-to-one, so on every key two seeds collide and some value is never reached.","all keys, seeds, call histories","unbounded keys; call histories; all 2^32 seeds","sbox/sbox.go:Sbox","sbox/sbox.go:(*State).Hash32")
p("C52","CrapWow is a sum of block contributions","CrapWow(key,seed) never panics and depends only on the length, the seed and the xor of independent contributions of the 8-byte blocks and the rest. Hence the expectation that block order matters is refuted: keys whose 8-byte blocks are rearranged collide under every seed, a block that occurs twice cancels, zero blocks only count in the length. State.Hash32 uses the most recent seed ever passed.","all keys and seeds","unbounded keys; all seeds; call histories","crapwow/crapwow.go:CrapWow")
p("C53","MaHash8v64 fold and its rotations","MaHash8v64 never panics and equals the per-byte fold with half exchange. LROT14 and RROT14 are mutually inverse rotations. LROT64 is documented as a rotation but is none (shifts 29 and 34): it merges two words exactly when their inner 62 bits agree and their outer bits have the same or, its outer output bits are always equal; the per-byte step also merges states.","all words","unbounded strings, all words","mahash/mahash8v64.go:LROT64","mahash/mahash8v64.go:MaHash8v64")
p("C54","nullhash returns a call counter","nullhash.Sum64/Hash64/Hash64S ignore the data and return 1,2,3,... per call, so it is not a function of the key, while Sum always appends eight zero bytes.","all histories","histories","nullhash/nullhash.go:(*nullhashstate).Sum64","nullhash/nullhash.go:(*nullhashstate).Sum")
p("C55","Keccak streaming equals the sponge","For New160/224/256/384/512 and every NewCustom digest size that is a multiple of 4 bytes and at most 66 bytes (3*size <= 200), with at most 24 rounds: in any history of calls each Sum appends the first size bytes of the Keccak sponge (10*1 padding, rate 200-2*size, keccak-f) of the bytes written since the last Reset, however they were split into Writes; Write reports the length.","all messages and chunkings","every split point and history","keccakpg/keccak.go:(*keccak).Write","keccakpg/keccak.go:(*keccak).Sum","keccakpg/keccak.go:(*keccak).pad")
p("C56","Keccak Sum is pure and Reset restores","Sum does not change the hasher; after Reset the hasher behaves like new, from any history.","all histories","histories","keccakpg/keccak.go:(*keccak).Sum","keccakpg/keccak.go:(*keccak).Reset")
p("C57","Keccak Write and the caller's memory","If the caller passes slices without spare capacity and does not store into the arrays it wrote until Reset, every history behaves as if slices were values and the caller's memory is changed only by the caller. Otherwise not: after a Write of less than a block, Sum hashes what the caller's array holds at the time of Sum, and a second short Write stores its bytes into the spare capacity of the first slice. (The io.Writer rule that a writer neither retains nor modifies the caller's data is refuted.)","all heaps and histories","all heaps, slices, stores and histories","keccakpg/keccak.go:(*keccak).Write")
p("C58","keccak-f is a permutation","For every number of rounds <= 24 the state transformation is a bijection on 1600-bit states.","all 2^1600 states","2^1600 states","keccakpg/keccak.go:(*keccak).f")
p("C59","NewCustom: which bytes and parameters count","For digest sizes that are a multiple of 4 bytes every byte of a block influences the state. For every other size up to 99 bytes the last (blockSize mod 8) bytes of each block have no effect on the digest, for all messages, so collisions are known without search. More than 24 rounds makes every history that asks for a Sum panic; a 100-byte digest makes Write loop forever and Sum panic; larger digests make Write and Sum panic. (The expectation that every message byte influences the digest for any accepted bit length is refuted.)","all messages","all messages, sizes and round counts","keccakpg/keccak.go:NewCustom","keccakpg/keccak.go:(*keccak).f")
T="threefish"
p("C60","Threefish decrypt inverts encrypt","For Threefish-256/512/1024, every cipher reachable through the API, every key, tweak and block: Decrypt64(Encrypt64(x)) = x and Encrypt64(Decrypt64(x)) = x, for equal, overlapping or distinct slices.","all keys, tweaks, blocks","2^1024 x 2^1024 x 2^128 inputs; thousands of unrolled lines",f"{T}/threefish256.go:encrypt",f"{T}/threefish512.go:encrypt",f"{T}/threefish1024.go:encrypt",f"{T}/threefish.go:(*Cipher).Encrypt64")
p("C61","Unrolled Threefish equals the round-based definition","The unrolled encrypt equals the compact Threefish definition (72/72/80 rounds of MIX with the Skein 1.3 rotation table and permutation, subkey injection every 4 rounds).","all keys, tweaks, blocks","a single wrong constant in thousands of lines",f"{T}/threefish256.go:encrypt",f"{T}/threefish512.go:encrypt",f"{T}/threefish1024.go:encrypt")
p("C62","Threefish byte interface round-trips","For a cipher from New or NewSize, Decrypt(Encrypt(src)) = src for every block, with dst and src equal or distinct buffers, and Encrypt equals Encrypt64 on the little-endian words.","all keys, blocks, buffer aliasing","all blocks",f"{T}/threefish.go:(*Cipher).Encrypt",f"{T}/threefish.go:(*Cipher).Decrypt")
p("C63","Exact behaviour of ciphers from New64","Encrypt64 and Decrypt64 of a cipher from New64 agree with one from New. Its byte interface does not: BlockSize is 4, 8 or 16 (an eighth of the block), and Encrypt encrypts the first 0, 1 or 2 words of src followed by zero words and stores only the first 0, 1 or 2 words. The expected agreement with New, and the byte round trip, are refuted.","all keys","all keys, tweaks, blocks and histories; the unit tests never call the byte interface of a New64 cipher",f"{T}/threefish.go:New64",f"{T}/threefish.go:(*Cipher).BlockSize")
p("C64","Threefish construction validates sizes and rekeying is complete","New/New64/NewSize return an error exactly for unsupported lengths; SetKey+SetTweak on any cipher gives the same cipher as constructing it with that key and tweak.","all keys, tweaks, histories","histories of rekeying",f"{T}/threefish.go:New",f"{T}/threefish.go:(*Cipher).SetKey",f"{T}/threefish.go:setTweak")
p("C65","genWords enumerates all combinations exactly once","For a non-empty list of non-empty strings, genWords(perms,f) calls f once for each choice of one letter per string (first position fastest), with the UTF-8 spelling of the chosen bytes (the bytes themselves when ASCII), and returns; the words are distinct when no string repeats a letter (so TestH gets 262144 different words). With an empty list it calls f once with \"\" and panics; with an empty string in the list it panics before any call.","all lists of strings","unbounded product of list lengths","ht.go:genWords","ht.go:TestH")
p("C66","reverse reverses exactly the ASCII strings","reverse(s) spells, in UTF-8, the bytes of s in reverse order read as code points: it is the byte-reversed string exactly when s is ASCII, and it is injective. The expected 'reverse(s) is the byte-reversed string' is refuted for every string with a byte >= 0x80, which grows.","all strings","unbounded strings; unit tests use ASCII words","ht.go:reverse","ht.go:TestG")
p("C67","hexToBytes inverts hex encoding","For every byte string b of at most 1000 bytes, hexToBytes of its lower- or upper-case hex is b; every other string of hex digits is decoded digit by digit; it panics exactly on odd length, non-hex digits or more than 2001 characters.","all strings","unbounded strings","ht.go:hexToBytes","ht.go:unhex")
p("C68","What ReadFile delivers","ReadFile calls back, in order, once per newline-terminated line with the line stripped of the newline, one carriage return and one space, and returns the number of lines, provided no line is empty or a lone CR; at the first such line it panics with an index error after delivering the lines before it. An unterminated last line is never delivered. Read errors and missing files panic. The expected 'every line is delivered' is refuted by empty lines and by unterminated last lines.","all file contents","all file contents","ht.go:ReadFile")
p("C69","checkForDups32 counts duplicates","For every slice seen as a sequence of runs of equal elements, dups is the number of elements equal to their predecessor (for a sorted slice: length minus number of distinct values) and mrun the largest number of repetitions in any run but the last. The expected 'mrun is the longest run' is refuted: the last run is never considered.","all sorted slices","all slices","ht.go:checkForDups32")
p("C70","Generated integer and one-bit keys are distinct","The keys inserted by TestI (ni <= 2^32), TestJ and TestL are pairwise distinct and are exactly the little-endian integers, the one-bit strings, and all three-byte strings.","all ni, all index pairs","unbounded loops over mutated buffers","ht.go:TestI","ht.go:TestJ","ht.go:TestL")
S="smhasher/smhasher.go"
p("C71","Sparse key enumeration","sparse(n,k), i.e. setbits on a zero buffer of n/8 bytes with budget k, hashes exactly the keys of that length with at most k set bits, each once (so the sum of binomials C(n,j), j<=k, of them), and restores the buffer; for the eight (n,k) run by the test, it reports exactly when two different such keys have the same hash.","all buffer sizes and k","combinatorial enumeration with a shared mutated buffer",f"{S}:setbits",f"{S}:sparse")
p("C72","Two-nonzero enumeration","twoNonZero(h,n) hashes exactly the n-byte strings with at most two non-zero bytes, each once; TestSmhasherTwoNonzero reports exactly when two different such strings of 2 to 16 bytes have the same hash.","all n","combinatorial; hash functions are arbitrary",f"{S}:twoNonZero")
p("C73","Block combination enumeration","permutation(s,n) hashes exactly all strings made of at most n 4-byte little-endian blocks drawn from s, each once when s has no repeats; for the five sets of the test a report is computed exactly when two different combinations have the same hash.","all s, n","combinatorial; hash functions are arbitrary",f"{S}:genPerm",f"{S}:permutation")
p("C74","Integer/bytes/string key hashing agree","Int32Hash(i)/Int64Hash(i) = BytesHash of the little-endian bytes, StringHash(s)=BytesHash(bytes of s); flipBit is an involution changing exactly that bit, for Int32Key, Int64Key and BytesKey consistently.","all keys, bit positions, hash functions","all values",f"{S}:Int32Hash",f"{S}:Int64Hash",f"{S}:StringHash",f"{S}:(*BytesKey).flipBit")
p("C75","HashSet collision count and report","n - len(m) after any sequence of adds equals additions minus number of distinct hashes, and is 0 iff all added hashes are pairwise distinct; for up to 2*10^8 additions check, in float64 arithmetic, reports iff two added hashes are equal; from 2.1*10^8 to 10^9 additions a single collision goes unreported.","all sequences","histories of any length",f"{S}:(*HashSet).add",f"{S}:(*HashSet).check","ht.go:TestL")
H="hashf/hashf.go"
p("C76","Functions declared 32 bits wide return 32-bit values","For every name whose HashFunctions entry says Size 32, Hashf returns a value below 2^32 for every key and seed.","all keys, seeds, names","unbounded inputs",f"{H}:Hashf",f"{H}:HashFunctions")
p("C77","Variants of one hash are the advertised parts","j364 = j332b<<32|j332c; j264l, j264h, j264xor are low, high, xor halves of j264; spooky128xor = spooky128h xor spooky128l; spooky64 = spooky128h.","all keys and seeds","unbounded inputs",f"{H}:Hashf")
p("C78","Which names and keys Hashf accepts","After any history, Hashf panics with \"hashf\" exactly when Hf2 is none of the 50 dispatched names; otherwise it returns, except for an index panic under perfecthash and aeshash32I (key shorter than 4), aeshash64I (shorter than 8) and gomap32, gomap64 (empty key). Of TestHashFunctions exactly skein256 is not dispatched, and of the keys of HashFunctions exactly FarmHash128, MetroHash128-1, MetroHash128-2 and keccak160, so the expected property that every listed hash can be run is refuted.","all keys and seeds, all names","for all names, keys, seeds and histories over global state",f"{H}:TestHashFunctions",f"{H}:Hashf")
p("C79","FarmHash128-low/high return the halves swapped","For every key Hashf under FarmHash128-high returns the first result (declared lo) of Fingerprint128 and under FarmHash128-low the second (declared hi); the expected property that the names denote the right half is refuted.","all keys","for all keys",f"{H}:Hashf","farm/farmhashcc.go:Fingerprint128")
p("C80","Which hashes use how much of the seed","Under 21 of the names (the counters, perfecthash, adler32, MaHash8v64, murmur3*, siphash64, FarmHash*, keccak*, whirlpool, blake2b, sha1) the seed never matters; under 16 (gomap32, sbox, CrapWow, j3*, j232, spooky32, MetroHash*) only its low 32 bits matter and they do; under gomap64, j264*, spooky64/128*, siphash64pg the high half matters too. siphash64pg is SipHash-2-4 keyed with the seed twice and siphash64 is siphash64pg at seed 0. The expected property that the seed reaches every function is refuted.","all keys and seeds","for all keys, seeds and histories",f"{H}:Hashf")
p("C81","Hashf is history independent","Although Hashf keeps global hasher objects and buffers, under every name except nullhash and nullhashF64ns its result (or panic) depends only on name, key and seed, and is the published function of them, for any sequence of earlier calls with any names; the two null hashes return the number of calls made to them.","all call histories","histories over global state",f"{H}:Hashf",f"{H}:sipSeedSet",f"{H}:init")
p("C82","File tests insert one key per line","TestA-TestG on a file of acceptable lines insert, in order, exactly one key per terminated line: the line; the line and a newline; the line twice and four newlines; ABCDE and the line; the line twice; four times; the line reversed. Different lines give different keys; in chaining mode the table ends up with exactly these keys and Inserts is the number of lines. The flag of each test runs that test, except that flag G runs TestF, so TestG is never run (and TestC, described as adding 4 newlines, also doubles the line).","all files, all hash functions, all table sizes","unbounded files and histories","ht.go:TestA","ht.go:TestG","ht.go:Tests")
p("C83","TestM prints the histogram of the hash modulo n","For 0 < n <= 2^45 buckets TestM's histogram has n bins, bin b counts the integers i < ni whose hash is congruent to b modulo n, and the bins sum to ni. It panics for every other n; since -dru negates n first, -dru makes it panic for every positive n.","all hash functions, n, ni","unbounded loops","ht.go:TestM")
p("C84","TestK prints the hash of 1000 zero bytes","For every file of hex keys TestK prints each decoded key with the hash, at the chosen seed, of a buffer of 1000 zero bytes, whatever the key is. The expected 'prints the hash of the key' is refuted.","all hash functions, seeds, files","all files","ht.go:TestK")
p("C85","Small-key enumeration","TestSmhasherSmallKeys hashes exactly the 16843008 strings of one to three bytes, each once, and reports exactly when two different ones have the same hash. The documented 'all 0-3 byte strings' is refuted: the empty string is not hashed.","all hash functions","the claim is about all strings of up to three bytes and any hash",f"{S}:TestSmhasherSmallKeys")
p("C86","Appended-zeros enumeration","TestSmhasherAppendedZeros hashes exactly the 262 prefixes of hello followed by 256 zeros, each once, and reports exactly when two have the same hash; TestSmhasherZeros would hash exactly the strings of at most N zeros, each once, but no entry of the table of tests runs it (two entries run another test than the one they name).","all hash functions, all N","universal over hash functions",f"{S}:TestSmhasherAppendedZeros",f"{S}:TestSmhasherZeros",f"{S}:Tests")
p("C87","Text key enumeration","text(prefix,suffix) hashes exactly the 50^4 strings prefix + four letters of A-T, a-t, 0-9 + suffix, each once, and computes a report exactly when two have the same hash. The documented alphabet [A-Za-z0-9] is refuted.","all prefixes and suffixes, all hash functions","combinatorial",f"{S}:text")
p("C88","Cyclic keys are periodic and distinct","For every period n >= 4 and every outcome of the random generator, TestSmhasherCyclic hashes one key of 8n bytes per iteration, each byte equal to the one n earlier, and the first 97*137*197*251 keys (the test makes 10^6) are pairwise different; it reports exactly when two of them have the same hash; n < 4 panics.","all periods, all random bytes, all hash functions","random bytes are arbitrary; distinctness is number-theoretic",f"{S}:TestSmhasherCyclic")
p("C89","Windowed keys","For every key of at least 16 bits, windowed makes one set per bit position r of exactly the 2^16 keys whose set bits lie in the 16 positions from r on (modulo the size), each once, and computes a report exactly when two of them have the same hash.","all key types, sizes, positions, hash functions","combinatorial",f"{S}:windowed",f"{S}:(*BytesKey).flipBit")
p("C90","Avalanche counts","After any sequence of random keys of n bits, entry (i,j) of avalancheTest1's grid is the number of keys for which inverting input bit i changes output bit j; no index is out of range.","all key sequences, key types, hash functions","arbitrary random keys and hash functions",f"{S}:avalancheTest1")
p("C91","Sanity and seed tests","In every iteration of TestSmhasherSanity the slices are in range and the two compared keys have equal bytes, so a hash that depends only on key bytes and seed is never reported; TestSmhasherSeed reports exactly when two seeds below N give hello the same hash, hence for every function that ignores its seed.","all random arrays, lengths, offsets, hash functions","random arrays and arbitrary hash functions",f"{S}:TestSmhasherSanity",f"{S}:TestSmhasherSeed")
p("C92","Which hashes the flags -c, -h32, -h64 run","ht runs a listed hash exactly when its HashFunctions entry meets the given flags; hence under any flag the FarmHash128 and MetroHash128 halves (which have no entry) are silently skipped, -h32 and -h64 together run nothing, and without flags a run over all hashes panics at skein256 and never reaches whirlpool and blake2b.","all flag combinations, all lists of names, all histories","the selection depends on string lookups with a zero default that no test exercises","ht.go:main","ht.go:runTestsWithFileAndHashes","hashf/hashf.go:HashFunctions","hashf/hashf.go:TestHashFunctions")
p("C93","The C Keccak permutation is Keccak-f[1600]","In package keccak (the optimised C code behind cgo), the 24 unrolled rounds on a state with six lanes stored complemented compute Keccak-f[1600] of the state represented, and absorbing a block, at every rate of whole lanes, through the six specialised routines or the general one, exclusive-ors exactly that block into the state and permutes; distinct stored states represent distinct Keccak states.","all 2^1600 states, all blocks, all rates of whole lanes","2^1600 states; test vectors reach a handful of blocks and two of the rates","keccak/KeccakF-1600-opt64.c:KeccakPermutationOnWords,KeccakAbsorb,KeccakAbsorb1088bits","keccak/KeccakF-1600-64.macros.h:thetaRhoPiChiIota,thetaRhoPiChiIotaPrepareTheta,copyFromStateAndXor1088bits","keccak/KeccakF-1600-unrolling.macros.h:rounds")
p("C94","keccak.New224/256/384/512 streaming equals the sponge","Any history of Write, Sum, Reset on an object of package keccak sees in every Sum the Keccak sponge digest of the bytes written since the last Reset, provided every Write is sound: no bytes of an incomplete block are pending, or the block stays incomplete, or the write completes it as computed with its length modulo 2^29. This covers every history with writes of at most 2^29-200 bytes and every single Write of a whole message after New or Reset, however long.","all histories of calls, all contents and lengths of the writes","unbounded histories and chunkings","keccak/keccak.go:Write,Sum,Reset,New224,New256,New384,New512","keccak/KeccakSponge.c:Absorb,AbsorbQueue,PadAndSwitchToSqueezingPhase,Squeeze","keccak/KeccakNISTInterface.c:Init,Update,Final")
p("C95","Packages keccak and keccakpg agree","For 224, 256, 384 and 512 bits, every history of calls with writes of at most 2^29-200 bytes has the same results on the cgo package keccak and on the pure Go package keccakpg.","all histories of calls with such writes","unbounded histories of two implementations","keccak/keccak.go:New224,New256,New384,New512","keccakpg/keccak.go:New224,New256,New384,New512")
p("C96","keccak: exactly which writes fail","After any history of sound writes, with q bytes of an incomplete block pending and a rate of r bytes, Write of n bytes succeeds if q = 0, n + q < r or r <= n mod 2^29 + q < 2^29; otherwise, if n mod 2^29 + q >= 2^29, the C code copies past the end of its 192-byte queue, and else (n >= 2^29 and n mod 2^29 + q < r) it never returns. The expected property, that Write accepts every slice, is refuted: one byte and then 2^29 bytes hang, one byte and then 2^29-1 bytes overrun the queue.","all histories, all write lengths below 2^61","a test would have to allocate half a gigabyte at exactly the right lengths","keccak/KeccakSponge.c:Absorb","keccak/keccak.go:Write")
p("C97","keccak: sizes, Reset, Sum, errors","Size and BlockSize are the digest length and the sponge rate; Reset makes an object of any contents behave like a new one; Sum never changes the object; a Write that returns an error does not report the length of the slice, so no Write of a history of sound writes returns one; Reset, Write(key), Sum(fp), as hashf uses the 224-bit object, append the Keccak-224 digest of the key from any earlier contents, for every sequence of keys; so after any history Hashf returns under the name keccak224 the first eight bytes of the Keccak-224 digest of the key, whatever the seed.","all object states, all keys below 2^61 bytes","all object states","keccak/keccak.go:Size,BlockSize,Reset,Sum,Write","hashf/hashf.go:Hashf")
p("C98","Size() is what Sum appends","For every history of calls, every Sum(b) of an object of siphash (64 and 128 bit), murmur3 (32 and 128 bit), jenkins (332c, 364, 232), keccakpg (digests of at most 99 bytes), keccak (writes of at most 2^29-200 bytes) and nullhash returns b followed by exactly Size() bytes; where an object reports a width in bits it is 8*Size(), and BlockSize is positive: 8 for siphash, nullhash and CrapWow, 1 for murmur3, j332c and j364, 12 for j232, 2 for sbox, the rate in bytes for the Keccak objects (the seeds are 8 bytes for j332c, j364 and nullhash, 4 for j232, sbox and CrapWow). For murmur3.New64 the expected property is refuted: Size() is 16 and every Sum appends 8 bytes.","all histories of calls, all keys and seeds","histories are unbounded, and the promoted Size method of the 64-bit murmur object is exercised by no test","siphash/siphash.go:Size,Sum","murmur3/murmur64.go:Sum","murmur3/murmur128.go:Size","jenkins/jenkins.go:Size,BlockSize,HashSizeInBits","keccakpg/keccak.go:Size,BlockSize","keccak/keccak.go:Size")
p("C99","What ht runs, in which order, and what each run leaves behind","For every command line, set of files and hash functions, the test program runs: with -sm SMHasher, else with -b or -hcb the benchmarks, for the chosen hashes; else file by file, on each file test by test in the order A-M, and each test with one hash function after the other (without file and tests: I and J). The runs it completes are always a prefix of this plan. If no step must fail it completes the plan, and each run leaves a table of the announced size (with -p, of the prime NextPrime returns for it) holding exactly the keys of the test (chained in insertion order, or by linear probing with -oa), with right counters, test L counting keys minus distinct hashes and test M keys per residue class. The first step with a key that cannot be hashed, traced or stored (for test K a line that is not hexadecimal) ends the program with that panic, and there is no other outcome. Tests that need a file panic when there is none, test M panics unless n (after -dru) is from 1 to 2^45, test L panics with -t, and the command line without arguments panics at skein256 during test I after 42 runs and never reaches test J: the expected 'ht runs all tests asked for' is refuted.","all command lines, files, hash functions, seeds","combinations of 24 options, unbounded files, and hash functions with state","ht.go:main","ht.go:runTestsWithFileAndHashes","ht.go:Tests","ht.go:allTestsOn","ht.go:allTestsOff","ht.go:Test0")
p("C100","-dru rounds up every second time, and cannot use all buckets","With -dru tests I and M make a table of exactly n buckets in the first, third, fifth, ... run and one rounded up to a power of two in the second, fourth, ... (the option changes the sign of n for good); so the documented 'don't round n up' is refuted from the second run on. In a table of m buckets a hash can only select bucket i if every bit of i is a bit of m-1: all buckets can be used exactly when m is a power of two, and the others stay empty whatever the keys.","all command lines, numbers of runs, table sizes, hashes","depends on the number of earlier runs; all sizes","ht.go:TestI","ht.go:TestM","hashtable/hashtable.go:NewHashTable","hashtable/hashtable.go:Insert")
p("C106","Which runs fit an open-addressing table","With -oa, tests H, J, L and M always find room for their keys, tests A-G if the lines were counted or not under-declared with -lines, and test I exactly if -ni is at most the number of slots made for -n; otherwise test I panics with 'Add: pass' after filling the table, and ends the program. The expected 'every test runs with -oa' is refuted.","all option values, files and hash functions","needs as many keys as slots, at every size","ht.go:TestI","ht.go:runTestsWithFileAndHashes","hashtable/hashtable.go:Insert")
p("C101","The random numbers of rbetween","For a <= b < 2^53 and every value of Float64, rbetween(a,b) is at least a and at most b+1; for b < 2^52, b+1 comes out for some value exactly if the width b-a+1 needs fewer bits (rounded up) than b+1. With a = 0 it never exceeds b, and over the whole range of uint64 it is always 0; test K's seed is below 2^63. From 2^53 on it can be below a. The expected 'a number between a and b' is refuted.","all ends, all values of the random generator, IEEE rounding","needs particular values among 2^53 of the random generator","ht.go:rbetween","ht.go:TestK")
p("C102","What the benchmarks hash","For every hash function, state and n, benchmark32g as the program calls it hashes with seed 0, for each of the eight key sizes from 4 to 4096 bytes, always the same key of zeros, n times (n/10 from 512 bytes on); -hcb does the same with Spooky and never panics; a panic of the hash function ends it, so -b over all hashes ends at the first name that is not dispatched. The expected 'hashes n different keys' is refuted; with an object it would hash the integers from 0 in little-endian order, all different unless more than 2^32 keys of 4 bytes are asked for.","all hash functions with state, all n, all command lines","universal over hash functions and n","ht.go:benchmark32g","ht.go:benchmark32s","ht.go:benchmark","ht.go:main")
p("C103","The jenkins example program: duplicates and keys","checkForDups64 counts, on every sorted slice, its length minus the number of different elements (on any slice, the elements equal to their predecessor); benchmark64(n) prints n minus the number of different hashes of its n keys, which are different below 2^32, and panics for negative n; stu returns the words of every string whose length is a multiple of 4 and reads past the end otherwise; the three hashes of words in main are lookup3 of all but the last 4, 8 and 12 bytes of its string, started from the whole length, and the six string hashes main prints are those its comments promise. benchmark32 hashes the integer modulo 256 only: the expected 'hashes the integers below n' is refuted.","all slices, n, strings","unbounded slices and sizes","jenkins/example/example.go:checkForDups64","jenkins/example/example.go:benchmark64","jenkins/example/example.go:benchmark32","jenkins/example/example.go:stu","jenkins/example/example.go:main")
p("C104","The avalanche check of the jenkins example","For every hash function that returns on 70-byte keys, driver2 never panics and prints one line for each length 0 to 69. It says success exactly if, for each input byte below that length, bit, and seed 1 to 7, over the 256 values of that byte (other bytes zero), every output bit is seen changed and unchanged when the bit is inverted, and seen 0 and 1; the number printed is the largest index of the trial after which all this had been seen, at most 255. Otherwise it names the first combination that fails, and its masks are exactly the output bits that always change, never change, are always 1 and always 0. The hash function as called starts from the length of the whole buffer (70), not the length tested.","all hash functions, lengths, bits, seeds","universal over hash functions","jenkins/example/example.go:driver2","jenkins/jenkins.go:HashBytesLength")
p("C107","Concurrent calls of Hashf","Any number of goroutines may call Hashf at once under the 29 names that use no package variable: under every schedule each call returns what it returns alone, and nothing shared changes. Under the other 21 names calls must exclude each other; then (every schedule a mutex allows, every name) they return what the same calls return one after the other. Without that, after any history and for any two calls there is a schedule under which, for 20 of the names, both calls return the second one's result, for siphash64pg the first call uses the second one's seed, and for the eight names with a shared digest buffer the program panics with an index out of range. The expected 'Hashf is a function that may be called concurrently' is refuted.","all schedules of any number of goroutines, all keys and seeds, all earlier histories","schedules are not under a test's control","hashf/hashf.go:Hashf")
p("C105","What Print shows","For every table and duration, Print shows the time in seconds from one second on, in milliseconds from one millisecond on and in microseconds below, in spite of binary rounding, with relative error at most 2^-50. After any inserts (chaining, fewer than 2^26 keys) it shows the size, the number of keys, the buckets in use, the keys that found their bucket in use, the longest chain (0 if no bucket has two keys), the pairs of keys with equal hashes, and the quality of the distribution to within 2^-50 as computed in float64; with open addressing the collisions in percent of, and the probes divided by, the number of keys, the latter between 1 and 2, and NaN for both if there are no keys.","all tables reachable by inserts, all durations","all durations and histories; rounding at the unit boundaries","hashtable/hashtable.go:Print","hashtable/hashtable.go:HashQuality")
p("C108","Objects made by Halloc","Halloc makes an object for exactly the names sbox, CrapWow, j332c and j232; for every other name it returns nil and the first call panics. In every history of Hash32 calls each call returns what Hashf returns for that key under the same name: for sbox and CrapWow with the last seed passed to the object (0 if none), for j332c and j232 with seed 0 whatever seeds are passed. So the expected 'Hash32(key, seed) is Hashf(key, seed)' holds for the first two and is refuted for the others. All four report 4 bytes and 32 bits; the block sizes are 2, 8, 1, 12 and the seed lengths 4, 4, 8, 4 bytes.","all names, all histories of calls, keys and seeds","unbounded histories; no test calls Halloc","hashf/hashf.go:Halloc","sbox/sbox.go:Hash32","crapwow/crapwow.go:Hash32","jenkins/jenkins.go:Hash32")
p("C109","What a whole SMHasher run does","For every hash function that is a function of key and seed (whatever globals it changes) and all random numbers, RunSMhasher completes its eleven tests in order, and each test reports exactly those of its key sets in which two different keys get the same hash, with the number of keys beyond the different hashes, and returns whether it reported (Text, Windowed, Avalanche and Permutation always return false; the seed test of a function that ignores its seed reports 99999 collisions). With a counter such as nullhash, of its 465689455 calls, the sanity test reports all 20480 comparisons and the other tests nothing. Under an unknown name or one of five names that index into the key the run panics at its first key, the empty one. The expected 'ht -sm tests all hash functions' is refuted: it tests nullhash and aeshash64 and ends with an index panic at gomap64.","all hash functions with state, all random sequences, all reachable globals","universal over hash functions; a run takes half a billion calls",f"{S}:RunSMhasher",f"{S}:TestSmhasherSanity",f"{S}:TestSmhasherCyclic",f"{S}:check","ht.go:main")

p("C110","The avalanche test's search for a confidence bound ends","For every number of experiments the search loop of avalancheTest1 ends after at most 86 steps with the first of 0, 0.1, 0.2, ... (summed in float64) whose probability reaches 0.9999, whatever Erf and Pow are as long as Erf(x)=1 for x>=6 and Pow(1,n)=1; the limits derived from it lie between 44000 and 50000 and between 50000 and 56000 of 100000 rounds.","all numbers of experiments, all Erf and Pow with these values","termination of a floating-point loop",f"{S}:avalancheTest1")
p("C111","What Insert prints","Tracing does not change what happens to the table: for every hash function (even a stateful one) and history of keys of at least four bytes the outcome is the same with tracing on and off; a shorter key panics with an index out of range before anything is printed for it. With chaining an insert prints one I record: the bucket its hash selects, the number of keys already there, l = 0; the print-duplicates flag prints nothing. With open addressing an insert prints one P record for each occupied slot from the one its hash selects, circularly, numbered from l = 0, each followed (print-duplicates) by two lines exactly if the key there has the same hash, then one I record for the free slot; if there is none it prints this for the rest of the table and the whole table once more, and panics. Over a whole history the records are numbered 0, 1, 2, ..., their number is Probes + Cols, there is one I record per insert, and replaying the I records rebuilds the buckets (keys shown by their first four bytes).","all hash functions, tables, histories and keys","unbounded histories; no test looks at the output","hashtable/hashtable.go:Insert","hashtable/hashtable.go:btoi","hashtable/hashtable.go:Trace")

p("C112","The siphashpg example program","With positive round counts c and d, bench(n) completes for every n and computes SipHash-c-d (64 or 128 bit), keyed with the bytes 0 to 15, of the eight little-endian bytes of 0 to n-1, which are different keys; with a round count that is not positive it panics at the first key.","all n, round counts and widths","unbounded n and round counts","siphashpg/example/example.go:bench","siphashpg/siphash.go:Siphash")

p("C113","Recovering from a panic of Insert","A call of Insert that panics has already counted itself in Inserts, but never in Heads or Nbuckets, and unless the key was too short to be traced it leaves the buckets and LongestChain as they were. So for a hash that panics on some keys, and a caller that recovers from every panic: with chaining each call on such a key ends with the hash's panic, every other call succeeds, and the table is the one that results from inserting only the other keys, except that Inserts counts all calls; with open addressing the same holds until the table is full, then every further key panics with 'Add: pass', and each adds 1 to Probes, 2*Size-1-home to Cols and the keys of equal hash it walks over to Dups. With tracing, a key shorter than four bytes panics with an index out of range but is in the table all the same (unless, with open addressing, its home slot is taken), counted neither in Heads nor in Nbuckets nor in Probes. If a key that is already in a chain cannot be hashed any more, a call on that chain ends with this panic, having added to Dups only the keys of equal hash before it. The expected 'a call that panics leaves the table unchanged' is refuted.","all hash functions (stateful, panicking), tables, histories with panics at any call","every crash point of every history; the tests never recover","hashtable/hashtable.go:Insert","hashtable/hashtable.go:btoi","hashf/hashf.go:Hashf")
p("C114","Hash objects and the caller's memory","A program that makes any number of hash objects of one kind (murmur3 New32, New64, New128; jenkins New, New332c, New364, New232; siphash New, New128) and calls Write, Sum, Reset and the numeric accessors with slices of its own arrays - which may overlap, have spare capacity, and be stored into between the calls - gets the results it would get from objects that are plain values: a call sees the bytes of its argument at the time of the call, objects never influence each other, no store of the program changes an object, and the only memory of the program that calls change is the spare capacity of the slice given to Sum. For copies made with d2 := *d, which the exported structs of package jenkins allow, this is refuted: original and copy share spare capacity, and after writes of equal length to both, both answer for the bytes written last.","all programs (sequences of constructor calls, method calls and stores on any number of objects and arrays), all slices, all growth rates of append","unboundedly many objects, aliasings and interleavings of stores and calls","murmur3/murmur.go:Write","jenkins/jenkins.go:Write","jenkins/jenkins.go:Sum","siphash/siphash.go:Write","siphash/siphash.go:newDigest")

p("C115","One Threefish cipher shared by goroutines","When goroutines share one cipher and never two of them are inside Encrypt or Decrypt at once (a lock around these two calls, none around Encrypt64 and Decrypt64), then whatever the interleaving of their memory accesses no call panics that would not panic alone, a goroutine that gets its steps finishes, and whenever a goroutine is not inside a call its memory is what its calls so far produce on a cipher of its own with the same key and tweak. In particular any number of goroutines may call Encrypt64 and Decrypt64 without a lock, beside one that calls Encrypt and Decrypt. That Encrypt may be called concurrently is refuted: for every key, tweak and pair of blocks there is a schedule of two calls after which the first has returned with the encryption of the second's block.","all keys, tweaks, ciphers with any history, numbers of goroutines, call sequences, slices and schedules","unboundedly many interleavings; the tests use one goroutine","threefish/threefish.go:Encrypt","threefish/threefish.go:Decrypt","threefish/threefish.go:Encrypt64","threefish/threefish256.go:getTempData")

p("C116","One block of the key reaches every hash value","Fix everything in a key but one aligned block (4 bytes for murmur3.Sum32, 16 for Sum128; the last aligned word, or any aligned word of a whole block of a key longer than one block, for gomap.Hash32 and Hash64 under any seed): each possible hash value is the hash of exactly one content of that block. So over all contents the low k bits are spread perfectly evenly over the 2^k buckets. And so murmur332, murmur364, gomap32 and gomap64 can be flooded: for every m, every n up to 256^(b m) (b the block size), every seed and every table size there are n different keys of b (m + 1) bytes that all have the same hash (under the murmur names for every seed at once), and inserting them into a chaining table puts them all into one bucket: n(n-1)/2 duplicates, one used bucket, longest chain n.","all prefixes and suffixes, block positions, seeds, target values, numbers of buckets and keys, tables","an existence and uniqueness claim over 2^32 to 2^128 block contents for each of infinitely many keys","murmur3/murmur32.go:Sum32","murmur3/murmur128.go:Sum128","gomap/hash32.go:Hash32","gomap/hash64.go:Hash64","hashf/hashf.go:Hashf","hashtable/hashtable.go:Insert")

p("C117","Tests that cannot find duplicates","Under murmur332 and gomap32 (keys up to 4 bytes) and gomap64 (up to 8 bytes), Hashf tells any two different keys of one length apart, for every seed and after any calls. So in the test program, whatever the flags, files, seed and kind of table and whether or not a later step panics, every run of test I with up to 2^32 integers and of test L under these names, and of test H under gomap64, reports no duplicates, and test L no repeated hash; over exactly 2^32 integers murmur332 and gomap32 fill the 2^k bins of test M, and the 2^k chains of test I, perfectly evenly. From 2^32 on the integers of test I repeat: with any hash function but the two counters a run reports at least one duplicate per integer beyond 2^32, under the three functions exactly one each up to 2^33. And an SMHasher run of murmur332 cannot report the sparse keys of 32 bits, the windows of 32-bit keys or the text keys beginning with the varying letters.","all command lines, seeds, table sizes, numbers of integers, earlier calls","2^32 keys for each of 2^64 seeds","ht.go:TestI","ht.go:TestL","ht.go:TestM","ht.go:TestH","hashf/hashf.go:Hashf","murmur3/murmur32.go:Sum32","gomap/hash32.go:Hash32","gomap/hash64.go:Hash64",f"{S}:TestSmhasherSparse",f"{S}:TestSmhasherWindowed",f"{S}:TestSmhasherText")

p("C118","The Jenkins hashes are balanced block by block","Fix everything in a key but one 12-byte block that starts at a multiple of 12 (24 bytes for Hash264). Then for every seed and every wanted result: each pair of results of Jenkins364 comes from exactly 2^32 contents of the block, each jenkins.Sum32 from exactly 2^64, each Hash232 value (keys below 2^32 bytes) from exactly 2^64, and each Hash264 value from exactly 2^128. So no block is ever ignored or biased - and for every seed there are any number of different keys of one length that collide under the dispatcher's j332c, j332b, j364, j232, j264, j264l, j264h and j264xor, and that pile up in one chain of a chained table.","all prefixes of whole blocks, all suffixes, all seeds and wanted results; all table geometries and numbers of keys","A count over 2^96 or 2^192 block contents, for every surrounding key and seed, cannot be sampled: a block the hash ignores for one residue of the length, or a bias of one part in 2^32, is invisible to tests.","jenkins/jenkins.go:Jenkins364","jenkins/jenkins.go:Sum32","jenkins/jenkins.go:Hash232","jenkins/jenkins.go:Hash264","hashf/hashf.go:Hashf","hashtable/hashtable.go:Insert")
p("C119","The C interface of keccak on bit strings","On an object of any contents: Init with 0, 224, 256, 384 or 512, or InitSponge with a rate and capacity that sum to 1600 and a rate in 64..1536 that is a multiple of 64, returns 0 and starts a new message; every other Init returns 2 and every other InitSponge 1, and neither changes anything. From then on every sequence of InitSponge, Init, Absorb, Update, Squeeze and Final (with buffers that are long enough, and no unsound write in the sense of C96) behaves like the Keccak sponge on bit strings with pad10*1: Absorb appends the first n bits of its data, an incomplete last byte counting from its low end, Update the same with the incomplete byte's high bits; after an incomplete byte, or once output was asked for, both return 1 and change nothing; Squeeze writes the next n/8 bytes of the output to the front of the buffer and leaves the rest of it alone, so consecutive requests give consecutive output (also of Final, which is a request for the length of Init; a second Final goes on, it does not repeat the digest); a request for a number of bits that is not a multiple of 8 returns 1 and writes nothing, but ends the message. On whole bytes this is the function of C94.","all object contents, all rates, all call sequences, all message and output lengths in bits","bit lengths, positions of the padding in the last byte, block boundaries and call sequences are unbounded","keccak/KeccakNISTInterface.c:Init","keccak/KeccakNISTInterface.c:Update","keccak/KeccakNISTInterface.c:Final","keccak/KeccakSponge.c:InitSponge","keccak/KeccakSponge.c:Absorb","keccak/KeccakSponge.c:Squeeze","keccak/KeccakSponge.c:PadAndSwitchToSqueezingPhase")
p("C120","The keys the sanity and avalanche tests hash","For every hash function that returns (it may keep state) and every sequence of random numbers: the avalanche test calls it with seed 0 exactly on, for each of its eight kinds of key (byte strings of 2, 4, 8, 16, 32, 200 bytes, 32-bit and 64-bit integers) in turn, 100000 random keys made from consecutive numbers of a generator that starts afresh, each followed by the key with each single bit inverted, in order, and reports nothing; the sanity test calls it exactly on 20480 pairs of equal keys, of lengths 0 to 127, each cut out of its own random array at byte 16, and reports once for each pair answered differently, returning whether there was one.","all hash functions with state, all random sequences","universal over hash functions and random sequences; 220 million calls",f"{S}:avalancheTest1",f"{S}:TestSmhasherAvalanche",f"{S}:TestSmhasherSanity",f"{S}:randBytes",f"{S}:BytesKey",f"{S}:Int64Key")
p("C121","Jenkins objects, streaming and one-shot calls mixed","For every seed and every history of all their calls no call on New(seed), New364(seed) or New232(seed) faults, and every result is determined: New364 starts each sum and each Hash64 from the two words left behind by the last sum or one-shot hash since Reset (from the seed if none), unless the call brings one or two seeds of its own; New always starts Hash32 from zero and leaves its words behind for the next sum; New232 remembers only the bytes written. Reset after any history makes each object answer as a new one, and a one-shot hash with seeds does not depend on earlier calls. The expected property that a one-shot hash is a function of its arguments and does not disturb the streamed bytes is refuted.","all seeds, all histories of Write, Write64, Sum, Sum32/64, Reset, Hash32/64, Hash64S","universal over histories",f"{J}:(*State364).Hash64",f"{J}:(*State364).Hash64S",f"{J}:(*State364).Write64",f"{J}:(*State332c).Hash32",f"{J}:(*State232).Hash32")
p("C122","The Keccak permutation in C, however it is built","Whatever the settings the C code is compiled with (any of the eight unrollings, with or without complemented lanes, little- or big-endian words, the 64-bit or the 128-bit SIMD registers) and whatever its uninitialised variables hold, every sequence of calls of its interface that stays inside the 25 lanes and the data given (initialise, permute, absorb any number of lanes, absorb a fixed block size, extract) gives back the bytes Keccak-f[1600] gives; so no caller can tell two builds apart, two builds that agree on complemented lanes may even share the state memory, and the build /repo selects is the code the other Keccak properties are about.","all build settings, unrollings, call sequences, data and contents of uninitialised variables","universal over inputs and histories, and over configurations of which one test build has only one","keccak/KeccakF-1600-opt64.c:KeccakPermutationOnWords","keccak/KeccakF-1600-opt64.c:KeccakAbsorb","keccak/KeccakF-1600-opt64.c:KeccakExtract","keccak/KeccakF-1600-simd64.macros.h:thetaRhoPiChiIota","keccak/KeccakF-1600-simd128.macros.h:thetaRhoPiChiIotaPrepareTheta","keccak/KeccakF-1600-unrolling.macros.h:rounds","keccak/KeccakF-1600-opt64-settings.h:Unrolling")

p("C123","SpookyHash is balanced over windows of the key","Fix everything in a key but 32 bytes that start at an offset of 16 modulo 32. Then for all seeds: each pair of results of SpookyHashShort, and of SpookyHash128 if the key is shorter than 192 bytes, comes from exactly 2^128 contents of the window; each value of Hash64, each second half and each xor of the halves of SpookyHash128 (keys below 192 bytes) from exactly 2^192, and each value of Hash32 from exactly 2^224. So every such window is used and no result is favoured or unreachable - and for every seed there are up to 256^(16+32m) different keys of 48+32m bytes (m < 5) that collide under the dispatcher's spooky32, spooky64, spooky128h, spooky128l and spooky128xor, and that pile up in one chain of a chained table of any geometry.","all prefixes of 16 mod 32 bytes, all suffixes, all seeds and wanted results; all table geometries and numbers of keys","A count over 2^256 window contents for every surrounding key and seed cannot be sampled: a window that is ignored or a result that is favoured by one part in 2^64 is invisible to tests.","spooky/spooky.go:SpookyHashShort","spooky/spooky.go:SpookyHash128","spooky/spooky.go:Hash64","spooky/spooky.go:Hash32","hashf/hashf.go:Hashf","hashtable/hashtable.go:Insert")

p("C124","FarmHash is balanced over windows of the key","Fix everything in a key but some window. Each value is reached from exactly one content of the window: Hash32 and Hash32WithSeed, first 4 bytes of keys of 8 to 12 and 16 to 24 bytes (with a seed also of all longer keys); Hash64, Hash64WithSeed and Hash64WithSeeds, bytes 16 to 23 of keys of 32 bytes and bytes n-24 to n-17 of keys of n = 56 to 64 bytes. Hash32 takes each value for exactly 2^128 contents of the last 20 bytes of a key of 40, 60, 80, ... bytes. Hash128WithSeed (below 128 bytes; Hash128 below 144, not in the first 16) takes each pair of words for exactly 2^128, each first word, second word and xor for exactly 2^192 contents of any 32 bytes that start at a multiple of 16 and end 16 bytes before the end. So no such window is ignored and no value favoured - and, because the dispatcher ignores the seed, there is one list of up to 256^40 (FarmHash64) or 256^80 (FarmHash128-high, -low, -xor) keys, and of any number of keys for FarmHash32, that collides under every seed and floods one chain of every chained table, whatever its geometry.","all surrounding bytes, seeds and wanted values; all table geometries and numbers of keys","A bijection of 2^64 windows, or an exact count over 2^256, for every surrounding key and seed cannot be sampled.","farm/farmhashmk.go:Hash32","farm/farmhashmk.go:Hash32WithSeed","farm/farmhashuo.go:Hash64","farm/farmhashuo.go:Hash64WithSeeds","farm/farmhashcc.go:Hash128","farm/farmhashcc.go:Hash128WithSeed","hashf/hashf.go:Hashf","hashtable/hashtable.go:Insert")

p("C125","Second preimages and floods of MetroHash","For each of MetroHash64_1, 64_2, 128_1 and 128_2, every seed and every key that begins with one or more whole 32-byte blocks z: all blocks of z but the last can be replaced by anything, and there is a last block with which the hash stays what it was, whatever bytes follow (only their number must be known). So one block takes the hash from any state to any state: no block is ignored, and for every seed and m there are up to 256^(32m) different keys of 32(m+1) bytes that collide under the dispatcher's MetroHash64-1, 64-2, 128-1h, 128-1l, 128-1xor, 128-2h, 128-2l and 128-2xor, keep colliding when the same bytes are appended to all of them, and pile up in one chain of a chained table of any geometry.","all keys of whole blocks, all replacements, all suffixes and seeds; all table geometries and numbers of keys","The replacement block exists for each of 2^256 states, every seed and every suffix; a block step that is not onto cannot be noticed by tests.","metro/metro64.go:Hash64_1","metro/metro64.go:Hash64_2","metro/metro128.go:Hash128_1","metro/metro128.go:Hash128_2","hashf/hashf.go:Hashf","hashtable/hashtable.go:Insert")

p("C126","No name of the dispatcher protects a table","Under every name of Hashf but the two counters, for every seed and every key length of at least 8 bytes, there are up to 256^(length-8) different keys of that length with one hash, and they fill one chain of every chained table with that seed, whatever its geometry. The expected protection by a seed is refuted for the 21 names that ignore it (one list of keys floods every table) and for CrapWow, whose seed has no effect on it: keys made of doubled 8-byte blocks, 256^(8m) of them for 16m bytes, collide for every seed and whatever is appended to all of them. Under perfecthash and aeshash32I all keys that agree on the first 4 bytes collide for every seed, under aeshash64I all that agree on the first 8.","all names, seeds, key lengths, numbers of keys and table geometries; all suffixes","The existence of the keys is a counting argument over 256^length keys; independence of the seed needs all 2^64 seeds.","hashf/hashf.go:Hashf","crapwow/crapwow.go:CrapWow","hashtable/hashtable.go:Insert")
p("C127","Insert called by several goroutines on one table","Calls of Insert guarded by one lock leave, whenever the lock is free, exactly the table that the returned calls leave when made one after the other in the order in which they took the lock, whatever the schedule, and a call that panics is one that panics in that order. Without a lock, at every moment of every schedule each bucket still begins with what it held, only keys passed to Insert are added, each at most once and (chaining) only in the bucket it selects, where at least one returned call's key remains; Inserts grows by between one and the number of calls; and a call whose bucket no other call selects never panics and stores its key. The stronger expectations without a lock are refuted: in every chaining table any two keys of one bucket can lose one of the two (and one count), any four can make a call panic with an index out of range, and in an open-addressing table two keys can end up in one slot.","all tables and layouts in memory, numbers of goroutines, keys, pure hash functions, growth policies of append and schedules","The interleavings of the memory accesses are unboundedly many; a test sees the few the scheduler produces, and the lost update and the panic need particular ones.","hashtable/hashtable.go:Insert")

p("C128","The C sponge and package keccak, however they are compiled","Whatever settings the C library is compiled with (unrolling, complemented lanes, byte order, SIMD registers, any choice of the six ProvideFast macros, any contents of uninitialised variables): from an initialisation that succeeds on, every sequence of InitSponge, Init, Absorb, Update, Squeeze and Final has the same outcome - return values, output buffers, or the same failure - whatever the memory of the object held before, and a caller who keeps the contract of C119 gets the Keccak sponge on bit strings; an initialisation that fails says so and changes nothing. Every history of calls on the Go objects New224, New256, New384 and New512 has the same outcome in all settings, Keccak-224 to -512 for writes below 2^29-200 bytes; and no setting avoids the failures of C96.","all settings, contents of memory, call sequences and data","A test runs one build on one machine; the settings multiply to thousands of programs.","keccak/KeccakSponge.c:Absorb","keccak/KeccakSponge.c:Squeeze","keccak/KeccakSponge.c:PadAndSwitchToSqueezingPhase","keccak/KeccakNISTInterface.c:Update","keccak/KeccakF-1600-int-set.h:ProvideFast1024","keccak/KeccakF-1600-opt64-settings.h:Unrolling","keccak/keccak.go:newKeccak")

p("C129","What HashQuality measures","In chain mode HashQuality is a function of the number of keys n, the number of buckets Size and the number e of pairs of keys that share a bucket, Size(2n+2e)/(n(n+2Size-1)), so of two hash functions on the same keys and table the one with fewer such pairs scores lower. It is at most Size(n+1)/(n+2Size-1), exactly when all keys share one bucket; it is at least the value of a spread of n/Size or n/Size+1 keys per bucket, exactly for those spreads; it is at least (n+Size)/(n+2Size-1), exactly for even loads, and always above 1/2. Over a family of hash functions in which two keys share a bucket in at most (exactly) one member out of Size the mean is at most (exactly) 1; over all assignments of keys to buckets it is exactly 1.","all tables, keys, hash functions and finite families of hash functions","A mean over all assignments and an optimum over all spreads are statements about every hash function at once.","hashtable/hashtable.go:HashQuality","hashtable/hashtable.go:Insert")

p("C130","The order of the inserts","Inserting the same keys in another order: in chaining mode every bucket holds the same keys and all statistics (Inserts, Probes, Cols, Heads, Nbuckets, LongestChain, Dups, HashQuality) are the same; in open-addressing mode the same slots are taken and Inserts, Heads, Dups and Cols + Probes are the same. The expected invariance of Probes and Cols separately is refuted for open addressing: there are orders of three keys with 5 and 0, and with 4 and 1.","all tables, hash functions, key sequences and permutations of them","Tests compare a few orders; there are n! of them.","hashtable/hashtable.go:Insert","hashtable/hashtable.go:HashQuality")

p("C131","What linear probing costs","In open-addressing mode the number of occupied slots stepped over, Cols + Probes - Inserts, is decided by the loads c(h) of the home slots: while a slot is free there is exactly one flow C with C(h+1) = max(0, C(h) + c(h) - 1) around the table, and the number is the sum of C, which equals the sum of c(h)C(h) plus the pairs of keys with one home; the free slots are those with C(h) + c(h) = 0. It is at most n(n-1)/2, exactly when all homes are the same, and 0 exactly when they are all different. Over all Size^n assignments of n <= Size keys to homes, the mean of Probes is n + n(n-1)/(2 Size), the mean of Cols + Probes - Inserts is Knuth's 1/2 sum over k of n(n-1)...(n-k-1)/Size^(k+1), and every slot is taken in a share n/Size of them.","all tables, hash functions and key sequences; means over all assignments of homes, for every n and Size","The means range over Size^n tables, and the formulas over every n and Size.","hashtable/hashtable.go:Insert","hashtable/hashtable.go:HashTable")

p("C132","What a function chosen at random scores","Over all assignments of n keys to Size home buckets: the mean of Heads of a chained table is Size - Size(1 - 1/Size)^n and the mean of Nbuckets is n minus that; the mean of Cols of an open-addressing table with n <= Size is 1/2 sum over k of n(n-1)...(n-k-2)/Size^(k+2). Over all assignments of n keys to V hash values the mean of Dups is n(n-1)/(2V) in both modes. The collision check of the SMHasher tests reports a function with independent uniform 64-bit values on n <= 2*10^8 keys in exactly V^n - V(V-1)...(V-n+1) of the V^n assignments, V = 2^64, a share of at most n(n-1)/2^65.","all tables, all n, Size and V; means and counts over all assignments","A test samples a few functions; the baseline it is compared with is a mean over Size^n of them.","hashtable/hashtable.go:Insert","hashtable/hashtable.go:HashTable","smhasher/smhasher.go:check")

p("C133","How far a function chosen at random strays","Over all assignments of n keys to V hash values the variance of Dups is n(n-1)/(2V) (1 - 1/V), in both modes, so Dups is t or more from its mean in a share of at most n(n-1)/(2V t^2). Over all assignments of n keys to Size buckets of a chained table the variance of HashQuality is 2(n-1)(Size-1)/(n(n+2Size-1)^2), so whatever n it is eps or more away from 1 in a share of at most 1/(2 Size eps^2), and the variance of Heads is Size(1-1/Size)^n + Size(Size-1)(1-2/Size)^n - Size^2 (1-1/Size)^(2n).","all tables, all n, Size and V; variances over all assignments","A test samples a few functions; how far a good one may be off is a statement about all Size^n.","hashtable/hashtable.go:Insert","hashtable/hashtable.go:HashQuality")

p("C134","The avalanche test on a function chosen at random","Over all functions from keys of n bits to 64-bit values, and for every sequence of random keys: every entry of the grid has mean half the number of rounds, and its variance is a quarter of the number of pairs of rounds (a round with itself included) whose keys are the same up to the inverted bit. That is at least REP/4, exactly if the keys of any two rounds differ in another bit too, and at least REP^2/2^(n+1). The expected 'each entry is the sum of REP coin flips' is refuted for keys of two bytes: whatever the keys, the variance is more than three times the REP/4 from which the test computes its limits.","all key sequences, key sizes, grid entries; mean and variance over all functions","The mean ranges over (2^64)^(2^n) functions.","smhasher/smhasher.go:avalancheTest1")

p("C135","How often the SMHasher tests accuse a function chosen at random","For every finite family of hash functions of key and seed in which two different (key, seed) pairs of one key set collide in at most one member of 2^64, and for all random numbers: a run of RunSMhasher reports anything, or returns true from any test, for a share of the members of at most 3403067119097082/2^65, less than one in 10000. In particular over all ways to give the tested (key, seed) pairs 64-bit values.","all families of hash functions with state, all random sequences","The share ranges over (2^64)^n functions on hundreds of millions of keys.","smhasher/smhasher.go:RunSMhasher","smhasher/smhasher.go:check")

p("C136","The longest chain of a function chosen at random","Over all assignments of n keys to Size buckets of a chained table, LongestChain is k or more, for every k >= 2, in a share of at most C(n,k)/Size^(k-1), and it is 0 (no two keys share a bucket) in exactly Size(Size-1)...(Size-n+1) of the Size^n.","all tables, all n, Size and k; shares over all assignments","A test samples a few functions.","hashtable/hashtable.go:Insert","hashtable/hashtable.go:HashTable")

p("C137","Which functions of hashf cannot pass the SMHasher run","Whatever the random numbers, the calls made before and the flags: a run of RunSMhasher with any name of Hashf except aeshash64, j364, j264, spooky64, the spooky128, siphash64pg, MetroHash64-2 and the MetroHash128 names panics or has a test that returns true. Every function of at most 32 bits (adler32, which is outside the model, apart) fails the test of keys with two non-zero bytes (a test compares 64-bit values and allows no collision at all), all of them but murmur332 also the test of small keys; CrapWow fails the test of appended zeros, MetroHash64-1 that of two non-zero bytes, j232, j264l, j264h and j264xor the seed test; a function that ignores the seed (adler32, MaHash8v64, murmur3, siphash64, FarmHash, keccak, whirlpool, blake2b, sha1) reports exactly 99999 collisions in the seed test.","all states of hashf, random sequences, external functions and flags","A run takes hundreds of millions of calls and its keys depend on the random numbers.","smhasher/smhasher.go:RunSMhasher","smhasher/smhasher.go:check","hashf/hashf.go:Hashf")

p("C138","What the next insert costs at a given load","In open-addressing mode, over all Size^(n+1) assignments of n+1 keys to home slots, n < Size, the mean number of occupied slots the last Insert steps over (what it adds to Cols + Probes, less one) is 1/2 sum over k of (k+2) n(n-1)...(n-k)/Size^(k+1); at a load a = n/Size it is at most 1/2 (1/(1-a)^2 - 1), and the mean for all n inserts together is at most n/2 a/(1-a), whatever the size of the table.","all tables, n and Size; means over all assignments","A test samples a few functions and sizes.","hashtable/hashtable.go:Insert")

p("C139","murmur3 separates short keys of different lengths","murmur3.Sum32 gives different values to any two different keys that begin with the same whole 4-byte blocks and go on with at most 3 bytes each, whether or not their lengths agree; Sum128 does so for 16-byte blocks and at most 15 bytes each. With up to 4 bytes each, Sum32 has collisions. Hence in every SMHasher run with murmur332 the small-keys test reports no collision.","all common prefixes of whole blocks, all pairs of tails of any two lengths up to 3 (15) bytes; all runs","There are 2^240 pairs of tails and unboundedly many prefixes; the same-length case (C25) says nothing about different lengths.","murmur3/murmur32.go:Sum32","murmur3/murmur128.go:Sum128","smhasher/smhasher.go:RunSMhasher")

p("C140","What the printed ratios still tell after rounding","Print computes its ratios in float64, with several roundings. For chaining tables and at most 2^25 keys, of two hash functions on the same keys and table the one with fewer pairs of keys in one bucket gets the smaller printed quality, and the two numbers are equal exactly when the pairs are as many; if n(n+2Size-1) <= 2^52 the printed quality is below (exactly, above) 1 if and only if the number of pairs is below (exactly, above) the n(n-1)/(2 Size) that a function chosen at random has on average. With open addressing and at most 2^25 keys the printed collisions in percent and probes per insert of two runs of equally many inserts compare exactly as Cols and Probes do.","all tables, keys, pairs of hash functions within the stated sizes","Whether rounding merges two close values cannot be seen on samples.","hashtable/hashtable.go:Print","hashtable/hashtable.go:HashQuality")

p("C141","Which bits of a hash value a table uses","Two hash functions that send every key of a history to the same bucket leave, from the same new table and with either collision strategy, tables that agree in the keys of every bucket and in every statistic except Dups (which compares whole hash values), or fail alike. In a power-of-two table of 2^n buckets changing bit i of a hash value moves the key exactly when i < n; in a table with an odd number of buckets above one, as every prime above 2 is, changing any single bit moves it. So a table of at most 2^32 buckets chosen by the mask cannot tell the functions named j264 and j264l apart except in Dups.","all tables, histories of inserts, pairs of hash functions, hash values and bits","A statement about all pairs of hash functions and all histories.","hashtable/hashtable.go:Insert","hashf/hashf.go:Hashf")

p("C142","What the two duplicate counts say about each other","In every run of test L of the test program, under every name but the two counters, Dups2 (keys minus different hash values) is at most Dups (pairs of keys with equal hash values), Dups is at most Dups2(Dups2+1)/2, and the two are equal exactly if no three different 3-byte keys share a hash value. Every run of a test that inserts n keys under a name declared to be 32 bits wide reports at least n(n-2^32)/2^33 duplicates. In particular (if Go's adler32 is that of RFC 1950) test L under adler32 always reports at least 111 million Dups and 15.6 million Dups2.","all runs of the test program for all flags, seeds, files and hash names covered by C99","A relation between counters over all runs, hash functions and 2^24 keys.","ht.go:TestL","hashtable/hashtable.go:Insert")

p("C143","What the test program says about a hash that only counts its calls","Under nullhash and nullhashF64ns, which are not functions of the key, a new table of prime size or of a power of two with room for all keys takes any keys, equal ones too, without a collision: the i-th key goes alone into the i-th bucket after the one the counter is at, Probes and Heads equal the number of keys and Cols, Dups, the chained entries and the longest chain are 0, with either collision strategy. In every complete run of the test program, for any command line, files, seeds and earlier calls, as long as the counter stays below 2^64, every test under these names reports Dups = 0 and Dups2 = 0 (also beyond the room of its table), and test M puts ni/n integers, rounded down or up, into every bin. So perfect reports do not show that a hash can be used.","all command lines, files, seeds, earlier calls, tables and keys","A statement about all runs of the program and all histories of a stateful hash.","hashf/hashf.go:Hashf","nullhash/nullhash.go","hashtable/hashtable.go:Insert","ht.go:TestM","ht.go:TestL")

p("C144","The statistics of a table bound each other, whatever the hash does","For every new table with at least one bucket, every hash, even one that keeps state between calls, and every list of keys. With chaining, n inserts end with Heads <= Size, Heads + Nbuckets = n, n <= Heads * max(1, LongestChain) (so LongestChain is at least n/Size once it is not 0), LongestChain <= Nbuckets + 1, LongestChain never 1 and 0 exactly if Nbuckets is 0, and 2 * Dups <= Nbuckets * LongestChain; for n > 0, HashQuality (in exact arithmetic) is at least 2 Size (n + Dups) / (n (n + 2 Size - 1)) and at most Size (max(1, LongestChain) + 1) / (n + 2 Size - 1). With open addressing and n at most Size, Heads = n, Nbuckets and LongestChain are 0, n <= Probes <= 2n - 1 (for n > 0), Dups <= (Probes - n) + Cols <= n(n-1)/2, and if Probes = n then Cols and Dups are 0. Keys of equal hash values reach the upper bounds on LongestChain, Dups, Probes and Cols. In every complete run of the test program, with any command line, files, seeds and hash functions, every test reports statistics that meet these inequalities, with n the reported Inserts.","all tables, hashes, hash states, collision strategies and key lists","A statement about all insert histories and all hashes, including stateful ones.","hashtable/hashtable.go:Insert","hashtable/hashtable.go:NewHashTable")

if __name__=="__main__":
    out=os.path.join(os.path.dirname(os.path.abspath(__file__)),"..","properties.jsonl")
    with open(out,"w") as f:
        for x in P: f.write(json.dumps(x)+"\n")
    print(len(P))
