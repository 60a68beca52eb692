import Verif.Lemmas.Threefish2

/-!
# Properties of package threefish

`Spec.Threefish.encryptWords key t0 t1 x` is the round-based cipher of the Skein 1.3 paper. `Made o key t0 t1 c` says that the
cipher `c` was obtained through the public API and that `key`, `(t0, t1)` are the key and tweak last given to it.
Slices are windows of one memory, so two arguments may be equal, overlap or be disjoint.
-/

namespace Verif.Props.Threefish
open Verif Verif.Model.Threefish
open Verif.Lemmas.Threefish (Good)
open Verif.Spec.Threefish (encryptWords toWords toBytes readAt writeAt)

/-- Which constructor a cipher came from: `New` or `NewSize`, or `New64`. -/
inductive Origin where
  | bytes | words
  deriving DecidableEq

/-- Ciphers reachable through the API, with the key words and the tweak in force. -/
inductive Made : Origin → List U64 → U64 → U64 → Cipher → Prop
  | new (key : List U8) (t0 t1 : U64) (rest : List U64) (c : Cipher) (h : New key (some (t0 :: t1 :: rest)) = .ok (.ok c)) : Made .bytes (toWords key) t0 t1 c
  | newNil (key : List U8) (c : Cipher) (h : New key none = .ok (.ok c)) : Made .bytes (toWords key) 0#64 0#64 c
  | new64 (key : List U64) (t0 t1 : U64) (rest : List U64) (c : Cipher) (h : New64 key (some (t0 :: t1 :: rest)) = .ok (.ok c)) : Made .words key t0 t1 c
  | new64Nil (key : List U64) (c : Cipher) (h : New64 key none = .ok (.ok c)) : Made .words key 0#64 0#64 c
  | newSize (n : Nat) (c : Cipher) (h : NewSize n = .ok (.ok c)) : Made .bytes (List.replicate (n / 64) 0#64) 0#64 0#64 c
  | setKey (o key t0 t1 c) (hc : Made o key t0 t1 c) (k : List U64) (c' : Cipher) (h : c.SetKey k = .ok c') : Made o (k.take key.length) t0 t1 c'
  | setTweak (o key t0 t1 c) (hc : Made o key t0 t1 c) (a b : U64) (rest : List U64) (c' : Cipher) (h : c.SetTweak (some (a :: b :: rest)) = .ok c') : Made o key a b c'
  | setTweakNil (o key t0 t1 c) (hc : Made o key t0 t1 c) (c' : Cipher) (h : c.SetTweak none = .ok c') : Made o key t0 t1 c'
  | encrypt (o key t0 t1 c) (hc : Made o key t0 t1 c) (mem : List U8) (dst src : Win) (hd : Win.Valid dst mem) (hs : Win.Valid src mem) (r : Cipher × List U8) (h : c.Encrypt mem dst src = .ok r) : Made o key t0 t1 r.1
  | decrypt (o key t0 t1 c) (hc : Made o key t0 t1 c) (mem : List U8) (dst src : Win) (hd : Win.Valid dst mem) (hs : Win.Valid src mem) (r : Cipher × List U8) (h : c.Decrypt mem dst src = .ok r) : Made o key t0 t1 r.1

/-- Words handled by the byte interface: all of them, or an eighth of them. -/
def shown (o : Origin) (n : Nat) : Nat := match o with | .bytes => n | .words => n / 8

/-- `stateSize` in terms of the number of words of the key. -/
def stateBits (o : Origin) (n : Nat) : Nat := match o with | .bytes => n * 64 | .words => n * 8

theorem made_good {o : Origin} {key : List U64} {t0 t1 : U64} {c : Cipher} (h : Made o key t0 t1 c) :
    Good c (shown o key.length) key t0 t1 ∧ c.stateSize = stateBits o key.length := by
  have new_case : ∀ (key : List U8) (tw : Option (List U64)) (t0 t1 : U64) (c : Cipher), (tw = none ∧ t0 = 0#64 ∧ t1 = 0#64 ∨ ∃ r, tw = some (t0 :: t1 :: r)) →
      New key tw = .ok (.ok c) → Good c (toWords key).length (toWords key) t0 t1 ∧ c.stateSize = (toWords key).length * 64 := by
    intro key tw t0 t1 c htw h
    have hw := Lemmas.Threefish.toWords_length key
    have main : ∀ s : Size, key.length = 8 * s.words → (do let i ← newBytes s (some key) tw; return Except.ok ⟨key.length * 8, i⟩ : Go (Except Int Cipher)) = .ok (.ok c) →
        Good c (toWords key).length (toWords key) t0 t1 ∧ c.stateSize = (toWords key).length * 64 := by
      intro s hs e
      rw [Lemmas.Threefish.newBytes_ok s key hs] at e
      rcases htw with ⟨rfl, rfl, rfl⟩ | ⟨r, rfl⟩
      · simp only [Go.bind_ok, Go.pure_ok] at e
        cases e
        exact ⟨Lemmas.Threefish.mk_good s (toWords key) (by omega) _ _ _ _ (by omega) (by omega), by show key.length * 8 = _; omega⟩
      · simp only [Go.bind_ok, Go.pure_ok] at e
        cases e
        exact ⟨Lemmas.Threefish.mk_good s (toWords key) (by omega) _ _ _ _ (by omega) (by omega), by show key.length * 8 = _; omega⟩
    unfold New at h
    split at h
    · exact main .s256 (by simpa [Size.words] using ‹_›) h
    · split at h
      · exact main .s512 (by simpa [Size.words] using ‹_›) h
      · split at h
        · exact main .s1024 (by simpa [Size.words] using ‹_›) h
        · cases h
  have new64_case : ∀ (key : List U64) (tw : Option (List U64)) (t0 t1 : U64) (c : Cipher), (tw = none ∧ t0 = 0#64 ∧ t1 = 0#64 ∨ ∃ r, tw = some (t0 :: t1 :: r)) →
      New64 key tw = .ok (.ok c) → Good c (key.length / 8) key t0 t1 ∧ c.stateSize = key.length * 8 := by
    intro key tw t0 t1 c htw h
    have main : ∀ s : Size, key.length = s.words → (do let i ← newWords s key tw; return Except.ok ⟨key.length * 8, i⟩ : Go (Except Int Cipher)) = .ok (.ok c) →
        Good c (key.length / 8) key t0 t1 ∧ c.stateSize = key.length * 8 := by
      intro s hs e
      rw [Lemmas.Threefish.newWords_ok s key hs] at e
      rcases htw with ⟨rfl, rfl, rfl⟩ | ⟨r, rfl⟩
      · simp only [Go.bind_ok, Go.pure_ok] at e
        cases e
        exact ⟨Lemmas.Threefish.mk_good s key hs _ _ _ _ (by omega) (by omega), rfl⟩
      · simp only [Go.bind_ok, Go.pure_ok] at e
        cases e
        exact ⟨Lemmas.Threefish.mk_good s key hs _ _ _ _ (by omega) (by omega), rfl⟩
    unfold New64 at h
    split at h
    · exact main .s256 (by simpa [Size.words] using ‹_›) h
    · split at h
      · exact main .s512 (by simpa [Size.words] using ‹_›) h
      · split at h
        · exact main .s1024 (by simpa [Size.words] using ‹_›) h
        · cases h
  induction h with
  | new key t0 t1 rest c h => exact new_case key _ t0 t1 c (.inr ⟨rest, rfl⟩) h
  | newNil key c h => exact new_case key _ _ _ c (.inl ⟨rfl, rfl, rfl⟩) h
  | new64 key t0 t1 rest c h => exact new64_case key _ t0 t1 c (.inr ⟨rest, rfl⟩) h
  | new64Nil key c h => exact new64_case key _ _ _ c (.inl ⟨rfl, rfl, rfl⟩) h
  | newSize n c h =>
    have main : ∀ s : Size, n = s.words * 64 → (do let i ← newBytes s none none; return Except.ok ⟨n, i⟩ : Go (Except Int Cipher)) = .ok (.ok c) →
        Good c (List.replicate (n / 64) 0#64).length (List.replicate (n / 64) 0#64) 0#64 0#64 ∧ c.stateSize = (List.replicate (n / 64) 0#64).length * 64 := by
      intro s hs e
      rw [Lemmas.Threefish.newBytes_nil s] at e
      simp only [Go.bind_ok, Go.pure_ok] at e
      cases e
      have : n / 64 = s.words := by omega
      rw [this, List.length_replicate]
      exact ⟨Lemmas.Threefish.mk_good s _ List.length_replicate _ _ _ _ (by omega) (by rw [List.length_replicate]), hs⟩
    unfold NewSize at h
    split at h
    · rename_i hn; obtain rfl : n = 256 := by omega
      exact main .s256 rfl h
    · split at h
      · rename_i hn; obtain rfl : n = 512 := by omega
        exact main .s512 rfl h
      · split at h
        · rename_i hn; obtain rfl : n = 1024 := by omega
          exact main .s1024 rfl h
        · cases h
  | setKey o key t0 t1 c hc k c' h ih =>
    have := Lemmas.Threefish.SetKey_good ih.1 k
    split at this
    · rename_i hk
      obtain ⟨c'', e, hz, hg⟩ := this
      rw [e] at h
      cases h
      have hl : (k.take key.length).length = key.length := by rw [List.length_take]; omega
      rw [hl]
      exact ⟨hg, by rw [hz]; exact ih.2⟩
    · rw [this] at h; cases h
  | setTweak o key t0 t1 c hc a b rest c' h ih =>
    obtain ⟨c'', e, hz, hg⟩ := Lemmas.Threefish.SetTweak_good ih.1 (some (a :: b :: rest))
    rw [e] at h
    cases h
    exact ⟨hg, by rw [hz]; exact ih.2⟩
  | setTweakNil o key t0 t1 c hc c' h ih => cases h; exact ih
  | encrypt o key t0 t1 c hc mem dst src hd hs r h ih =>
    unfold Cipher.Encrypt at h
    rw [Lemmas.Threefish.bytes_call ih.1 mem dst src hd hs c.int.encBody (fun b => by rw [Lemmas.Threefish.encBody_length, ih.1.keyed.len])] at h
    split at h
    · rename_i hc'
      cases h
      exact ⟨Lemmas.Threefish.bytes_call_good ih.1 mem src hc'.1 hs _, ih.2⟩
    · cases h
  | decrypt o key t0 t1 c hc mem dst src hd hs r h ih =>
    unfold Cipher.Decrypt at h
    rw [Lemmas.Threefish.bytes_call ih.1 mem dst src hd hs c.int.decBody (fun b => by rw [Lemmas.Threefish.decBody_length, ih.1.keyed.len])] at h
    split at h
    · rename_i hc'
      cases h
      exact ⟨Lemmas.Threefish.bytes_call_good ih.1 mem src hc'.1 hs _, ih.2⟩
    · cases h

/-! ## Words -/

/-- C61: whatever the history of a cipher, `Encrypt64` replaces the destination by the round-based Threefish encryption of the
source under the key and tweak last set, and changes nothing else; it panics when a slice is too short. The key then
has 4, 8 or 16 words. -/
theorem C61_encrypt64 {o : Origin} {key : List U64} {t0 t1 : U64} {c : Cipher} (h : Made o key t0 t1 c) (mem : List U64) (dst src : Win) (hd : Win.Valid dst mem) (hs : Win.Valid src mem) :
    (key.length = 4 ∨ key.length = 8 ∨ key.length = 16) ∧
    c.Encrypt64 mem dst src = if key.length ≤ src.len ∧ key.length ≤ dst.len then .ok (writeAt mem dst.off (encryptWords key t0 t1 (readAt mem src.off key.length))) else .error .index := by
  have hg := (made_good h).1.keyed
  refine ⟨by rw [hg.len]; exact Lemmas.Threefish.words_pos _, ?_⟩
  rw [Lemmas.Threefish.Encrypt64_eq c mem dst src hd hs, Lemmas.Threefish.encBody_eq hg, hg.len]

/-- C60: `Decrypt64` writes the block whose encryption is the source. -/
theorem C60_decrypt64 {o : Origin} {key : List U64} {t0 t1 : U64} {c : Cipher} (h : Made o key t0 t1 c) (mem : List U64) (dst src : Win) (hd : Win.Valid dst mem) (hs : Win.Valid src mem) :
    if key.length ≤ src.len ∧ key.length ≤ dst.len then
      ∃ x : List U64, x.length = key.length ∧ encryptWords key t0 t1 x = readAt mem src.off key.length ∧ c.Decrypt64 mem dst src = .ok (writeAt mem dst.off x)
    else c.Decrypt64 mem dst src = .error .index := by
  have hg := (made_good h).1.keyed
  rw [Lemmas.Threefish.Decrypt64_eq c mem dst src hd hs, ← hg.len]
  split
  · rename_i hc
    refine ⟨_, by rw [Lemmas.Threefish.decBody_length, hg.len], ?_, rfl⟩
    have := hs.mem
    have := hs.lencap
    rw [← Lemmas.Threefish.encBody_eq hg, Lemmas.Threefish.encBody_decBody _ _ (by rw [Lemmas.Threefish.readAt_length _ _ _ (by omega), hg.len])]
  · rfl

/-- The round-based cipher is injective on blocks, so the block of `C60_decrypt64` is the only one. -/
theorem C60_injective (key : List U64) (t0 t1 : U64) (hk : key.length = 4 ∨ key.length = 8 ∨ key.length = 16) (x y : List U64) (hx : x.length = key.length) (hy : y.length = key.length)
    (e : encryptWords key t0 t1 x = encryptWords key t0 t1 y) : x = y := by
  obtain ⟨s, hs⟩ : ∃ s : Size, key.length = s.words := by
    rcases hk with h | h | h
    · exact ⟨.s256, h⟩
    · exact ⟨.s512, h⟩
    · exact ⟨.s1024, h⟩
  have hg := Lemmas.Threefish.mk_keyed s key hs t0 t1
  rw [← Lemmas.Threefish.encBody_eq hg, ← Lemmas.Threefish.encBody_eq hg] at e
  rw [← Lemmas.Threefish.decBody_encBody (Lemmas.Threefish.mk s key t0 t1) x (by rw [hx]; exact hs), e,
    Lemmas.Threefish.decBody_encBody _ y (by rw [hy]; exact hs)]

/-- C60_injective at work. -/
example (t0 t1 : U64) : encryptWords [1, 2, 3, 4] t0 t1 [0, 0, 0, 0] ≠ encryptWords [1, 2, 3, 4] t0 t1 [0, 0, 0, 1] := by
  intro h
  have := C60_injective [1, 2, 3, 4] t0 t1 (.inl rfl) [0, 0, 0, 0] [0, 0, 0, 1] rfl rfl h
  revert this
  decide

/-- C60: decrypting what was encrypted gives the block back, with any placement of the three slices. -/
theorem C60_decrypt_encrypt {o : Origin} {key : List U64} {t0 t1 : U64} {c : Cipher} (h : Made o key t0 t1 c) (mem mem1 mem2 : List U64) (src mid dst : Win)
    (hs : Win.Valid src mem) (hm : Win.Valid mid mem) (hd : Win.Valid dst mem) (h1 : c.Encrypt64 mem mid src = .ok mem1) (h2 : c.Decrypt64 mem1 dst mid = .ok mem2) :
    readAt mem2 dst.off key.length = readAt mem src.off key.length ∧ mem2 = writeAt mem1 dst.off (readAt mem src.off key.length) := by
  have hg := (made_good h).1.keyed
  have a1 := hs.mem; have a2 := hs.lencap; have a3 := hm.mem; have a4 := hm.lencap; have a5 := hd.mem; have a6 := hd.lencap
  rw [Lemmas.Threefish.Encrypt64_eq c mem mid src hm hs] at h1
  split at h1
  · rename_i c1
    cases h1
    have hl := Lemmas.Threefish.encBody_length c.int (readAt mem src.off c.int.size.words)
    have hw := Lemmas.Threefish.writeAt_length mem mid.off (c.int.encBody (readAt mem src.off c.int.size.words)) (by omega)
    have hm' : Win.Valid mid (writeAt mem mid.off (c.int.encBody (readAt mem src.off c.int.size.words))) := ⟨a4, by rw [hw]; exact a3⟩
    have hd' : Win.Valid dst (writeAt mem mid.off (c.int.encBody (readAt mem src.off c.int.size.words))) := ⟨a6, by rw [hw]; exact a5⟩
    rw [Lemmas.Threefish.Decrypt64_eq c _ dst mid hd' hm'] at h2
    split at h2
    · rename_i c2
      cases h2
      have hr := Lemmas.Threefish.readAt_length mem src.off c.int.size.words (by omega)
      have e := Lemmas.Threefish.readAt_writeAt mem mid.off (c.int.encBody (readAt mem src.off c.int.size.words)) (by omega)
      rw [hl] at e
      rw [e, Lemmas.Threefish.decBody_encBody _ _ hr, hg.len]
      refine ⟨?_, rfl⟩
      have := Lemmas.Threefish.readAt_writeAt (writeAt mem mid.off (c.int.encBody (readAt mem src.off c.int.size.words))) dst.off (readAt mem src.off c.int.size.words) (by rw [hw]; omega)
      rwa [hr] at this
    · cases h2
  · cases h1

/-- C60: encrypting what was decrypted gives the block back. -/
theorem C60_encrypt_decrypt {o : Origin} {key : List U64} {t0 t1 : U64} {c : Cipher} (h : Made o key t0 t1 c) (mem mem1 mem2 : List U64) (src mid dst : Win)
    (hs : Win.Valid src mem) (hm : Win.Valid mid mem) (hd : Win.Valid dst mem) (h1 : c.Decrypt64 mem mid src = .ok mem1) (h2 : c.Encrypt64 mem1 dst mid = .ok mem2) :
    readAt mem2 dst.off key.length = readAt mem src.off key.length ∧ mem2 = writeAt mem1 dst.off (readAt mem src.off key.length) := by
  have hg := (made_good h).1.keyed
  have a1 := hs.mem; have a2 := hs.lencap; have a3 := hm.mem; have a4 := hm.lencap; have a5 := hd.mem; have a6 := hd.lencap
  rw [Lemmas.Threefish.Decrypt64_eq c mem mid src hm hs] at h1
  split at h1
  · rename_i c1
    cases h1
    have hl := Lemmas.Threefish.decBody_length c.int (readAt mem src.off c.int.size.words)
    have hw := Lemmas.Threefish.writeAt_length mem mid.off (c.int.decBody (readAt mem src.off c.int.size.words)) (by omega)
    have hm' : Win.Valid mid (writeAt mem mid.off (c.int.decBody (readAt mem src.off c.int.size.words))) := ⟨a4, by rw [hw]; exact a3⟩
    have hd' : Win.Valid dst (writeAt mem mid.off (c.int.decBody (readAt mem src.off c.int.size.words))) := ⟨a6, by rw [hw]; exact a5⟩
    rw [Lemmas.Threefish.Encrypt64_eq c _ dst mid hd' hm'] at h2
    split at h2
    · rename_i c2
      cases h2
      have hr := Lemmas.Threefish.readAt_length mem src.off c.int.size.words (by omega)
      have e := Lemmas.Threefish.readAt_writeAt mem mid.off (c.int.decBody (readAt mem src.off c.int.size.words)) (by omega)
      rw [hl] at e
      rw [e, Lemmas.Threefish.encBody_decBody _ _ hr, hg.len]
      refine ⟨?_, rfl⟩
      have := Lemmas.Threefish.readAt_writeAt (writeAt mem mid.off (c.int.decBody (readAt mem src.off c.int.size.words))) dst.off (readAt mem src.off c.int.size.words) (by rw [hw]; omega)
      rwa [hr] at this
    · cases h2
  · cases h1

/-! ## Bytes -/

/-- What `Encrypt` does for a cipher of any origin: `m` words of the source, completed by zero words, are encrypted and the first `m`
words of the result stored. -/
theorem encrypt_gen {o : Origin} {key : List U64} {t0 t1 : U64} {c : Cipher} (h : Made o key t0 t1 c) (mem : List U8) (dst src : Win) (hd : Win.Valid dst mem) (hs : Win.Valid src mem) :
    if 8 * shown o key.length ≤ src.cap ∧ 8 * shown o key.length ≤ dst.cap then
      ∃ c', c.Encrypt mem dst src = .ok (c', writeAt mem dst.off (toBytes ((encryptWords key t0 t1
        (toWords (readAt mem src.off (8 * shown o key.length)) ++ List.replicate (key.length - shown o key.length) 0#64)).take (shown o key.length))))
    else c.Encrypt mem dst src = .error .slice := by
  have hg := (made_good h).1
  have hf : ∀ b, (c.int.encBody b).length = key.length := fun b => by rw [Lemmas.Threefish.encBody_length, hg.keyed.len]
  have := Lemmas.Threefish.bytes_call hg mem dst src hd hs c.int.encBody hf
  split
  · rename_i hc
    rw [if_pos hc] at this
    rw [Lemmas.Threefish.encBody_eq hg.keyed] at this
    exact ⟨_, this⟩
  · rename_i hc
    rw [if_neg hc] at this
    exact this

/-- The same for `Decrypt`. -/
theorem decrypt_gen {o : Origin} {key : List U64} {t0 t1 : U64} {c : Cipher} (h : Made o key t0 t1 c) (mem : List U8) (dst src : Win) (hd : Win.Valid dst mem) (hs : Win.Valid src mem) :
    if 8 * shown o key.length ≤ src.cap ∧ 8 * shown o key.length ≤ dst.cap then
      ∃ c' x, x.length = key.length ∧
        encryptWords key t0 t1 x = toWords (readAt mem src.off (8 * shown o key.length)) ++ List.replicate (key.length - shown o key.length) 0#64 ∧
        c.Decrypt mem dst src = .ok (c', writeAt mem dst.off (toBytes (x.take (shown o key.length))))
    else c.Decrypt mem dst src = .error .slice := by
  have hg := (made_good h).1
  have hle := hg.m_le
  have hf : ∀ b, (c.int.decBody b).length = key.length := fun b => by rw [Lemmas.Threefish.decBody_length, hg.keyed.len]
  have := Lemmas.Threefish.bytes_call hg mem dst src hd hs c.int.decBody hf
  split
  · rename_i hc
    rw [if_pos hc] at this
    refine ⟨_, _, hf _, ?_, this⟩
    have hb := hs.mem
    rw [← Lemmas.Threefish.encBody_eq hg.keyed, Lemmas.Threefish.encBody_decBody]
    rw [List.length_append, Lemmas.Threefish.toWords_length, Lemmas.Threefish.readAt_length _ _ _ (by omega), List.length_replicate, ← hg.keyed.len]
    omega
  · rename_i hc
    rw [if_neg hc] at this
    exact this

/-- C62: a cipher from `New` or `NewSize` has the block size of its key, and `Encrypt` replaces the destination block by the
little-endian bytes of the Threefish encryption of the source's little-endian words, and changes nothing else. `dst` and `src`
may be the same or overlap. It panics exactly when a slice cannot hold a block. -/
theorem C62_encrypt {key : List U64} {t0 t1 : U64} {c : Cipher} (h : Made .bytes key t0 t1 c) (mem : List U8) (dst src : Win) (hd : Win.Valid dst mem) (hs : Win.Valid src mem) :
    c.BlockSize = 8 * key.length ∧
    if c.BlockSize ≤ src.cap ∧ c.BlockSize ≤ dst.cap then
      ∃ c', c.Encrypt mem dst src = .ok (c', writeAt mem dst.off (toBytes (encryptWords key t0 t1 (toWords (readAt mem src.off c.BlockSize)))))
    else c.Encrypt mem dst src = .error .slice := by
  have hb : c.BlockSize = 8 * key.length := by unfold Cipher.BlockSize; rw [(made_good h).2]; show key.length * 64 / 8 = _; omega
  have hg := encrypt_gen h mem dst src hd hs
  have he : ∀ b, (encryptWords key t0 t1 b).length = key.length := fun b => by
    rw [← Lemmas.Threefish.encBody_eq (made_good h).1.keyed, Lemmas.Threefish.encBody_length, (made_good h).1.keyed.len]
  refine ⟨hb, ?_⟩
  rw [hb]
  simp only [shown, Nat.sub_self, List.replicate_zero, List.append_nil] at hg
  split
  · rename_i hc
    rw [if_pos hc] at hg
    rw [List.take_of_length_le (by rw [he])] at hg
    exact hg
  · rename_i hc
    rw [if_neg hc] at hg
    exact hg

/-- C62: `Decrypt` writes the block whose encryption is the source. -/
theorem C62_decrypt {key : List U64} {t0 t1 : U64} {c : Cipher} (h : Made .bytes key t0 t1 c) (mem : List U8) (dst src : Win) (hd : Win.Valid dst mem) (hs : Win.Valid src mem) :
    if c.BlockSize ≤ src.cap ∧ c.BlockSize ≤ dst.cap then
      ∃ c' bs, bs.length = c.BlockSize ∧ toBytes (encryptWords key t0 t1 (toWords bs)) = readAt mem src.off c.BlockSize ∧ c.Decrypt mem dst src = .ok (c', writeAt mem dst.off bs)
    else c.Decrypt mem dst src = .error .slice := by
  have hb := (C62_encrypt h mem dst src hd hs).1
  have hg := decrypt_gen h mem dst src hd hs
  rw [hb]
  simp only [shown, Nat.sub_self, List.replicate_zero, List.append_nil] at hg
  split
  · rename_i hc
    rw [if_pos hc] at hg
    obtain ⟨c', x, hx, e, hd'⟩ := hg
    rw [List.take_of_length_le (by omega)] at hd'
    refine ⟨c', toBytes x, by rw [Lemmas.Threefish.toBytes_length, hx], ?_, hd'⟩
    have := hs.mem
    rw [Lemmas.Threefish.toWords_toBytes, e, Lemmas.Threefish.toBytes_toWords _ (by rw [Lemmas.Threefish.readAt_length _ _ _ (by omega)]; omega)]
  · rename_i hc
    rw [if_neg hc] at hg
    exact hg

/-- C62: round trip through any three buffers (equal, overlapping or disjoint), also when the decryption is done later on another
cipher with the same key and tweak. -/
theorem C62_round_trip {key : List U64} {t0 t1 : U64} {c c2 : Cipher} (h : Made .bytes key t0 t1 c) (h2 : Made .bytes key t0 t1 c2) (mem : List U8) (src mid dst : Win)
    (hs : Win.Valid src mem) (hm : Win.Valid mid mem) (hd : Win.Valid dst mem) (r1 r2 : Cipher × List U8) (e1 : c.Encrypt mem mid src = .ok r1) (e2 : c2.Decrypt r1.2 dst mid = .ok r2) :
    readAt r2.2 dst.off c.BlockSize = readAt mem src.off c.BlockSize := by
  obtain ⟨hb, he⟩ := C62_encrypt h mem mid src hm hs
  have hk := (C61_encrypt64 h [] ⟨0, 0, 0⟩ ⟨0, 0, 0⟩ ⟨Nat.le_refl _, Nat.le_refl _⟩ ⟨Nat.le_refl _, Nat.le_refl _⟩).1
  have hsm := hs.mem; have hmm := hm.mem; have hdm := hd.mem
  have hlen : ∀ b, (encryptWords key t0 t1 b).length = key.length := fun b => by
    rw [← Lemmas.Threefish.encBody_eq (made_good h).1.keyed, Lemmas.Threefish.encBody_length, (made_good h).1.keyed.len]
  split at he
  · rename_i hc
    obtain ⟨c', he⟩ := he
    rw [he] at e1
    cases e1
    dsimp only at e2
    have hwl : (toBytes (encryptWords key t0 t1 (toWords (readAt mem src.off c.BlockSize)))).length = c.BlockSize := by
      rw [Lemmas.Threefish.toBytes_length, hlen, hb]
    generalize hE : toBytes (encryptWords key t0 t1 (toWords (readAt mem src.off c.BlockSize))) = E at *
    have hw := Lemmas.Threefish.writeAt_length mem mid.off E (by omega)
    have hm' : Win.Valid mid (writeAt mem mid.off E) := ⟨hm.lencap, by rw [hw]; exact hmm⟩
    have hd' : Win.Valid dst (writeAt mem mid.off E) := ⟨hd.lencap, by rw [hw]; exact hdm⟩
    have hdec := C62_decrypt h2 (writeAt mem mid.off E) dst mid hd' hm'
    have hb2 := (C62_encrypt h2 mem mid src hm hs).1
    rw [hb2, ← hb] at hdec
    split at hdec
    · obtain ⟨c'', bs, hl, hbs, hdec⟩ := hdec
      rw [hdec] at e2
      cases e2
      have hrw := Lemmas.Threefish.readAt_writeAt mem mid.off E (by omega)
      rw [hwl] at hrw
      rw [hrw, ← hE] at hbs
      have hsl := Lemmas.Threefish.readAt_length mem src.off c.BlockSize (by omega)
      have e3 := congrArg toWords hbs
      rw [Lemmas.Threefish.toWords_toBytes, Lemmas.Threefish.toWords_toBytes] at e3
      have e4 := C60_injective key t0 t1 hk _ _ (by rw [Lemmas.Threefish.toWords_length, hl, hb]; omega)
        (by rw [Lemmas.Threefish.toWords_length, hsl, hb]; omega) e3
      have e5 := congrArg toBytes e4
      rw [Lemmas.Threefish.toBytes_toWords _ (by rw [hl, hb]; omega), Lemmas.Threefish.toBytes_toWords _ (by rw [hsl, hb]; omega)] at e5
      show readAt (writeAt (writeAt mem mid.off E) dst.off bs) dst.off c.BlockSize = _
      have := Lemmas.Threefish.readAt_writeAt (writeAt mem mid.off E) dst.off bs (by rw [hw]; omega)
      rw [hl] at this
      rw [this, e5]
    · rw [hdec] at e2; cases e2
  · rw [he] at e1; cases e1

/-! ## `New64` -/

/-- C63: a cipher from `New64` reports a block size of 4, 8 or 16 bytes (an eighth of the real one), and its `Encrypt` encrypts the
first 0, 1 or 2 words of the source followed by zero words and stores the first 0, 1 or 2 words of the result. `Encrypt64` is right
(`C61_encrypt64`). -/
theorem C63_new64_bytes {key : List U64} {t0 t1 : U64} {c : Cipher} (h : Made .words key t0 t1 c) (mem : List U8) (dst src : Win) (hd : Win.Valid dst mem) (hs : Win.Valid src mem)
    (hc : 8 * (key.length / 8) ≤ src.cap ∧ 8 * (key.length / 8) ≤ dst.cap) :
    c.BlockSize = key.length ∧
    ∃ c', c.Encrypt mem dst src = .ok (c', writeAt mem dst.off (toBytes ((encryptWords key t0 t1
      (toWords (readAt mem src.off (8 * (key.length / 8))) ++ List.replicate (key.length - key.length / 8) 0#64)).take (key.length / 8)))) := by
  refine ⟨by unfold Cipher.BlockSize; rw [(made_good h).2]; show key.length * 8 / 8 = _; omega, ?_⟩
  have := encrypt_gen h mem dst src hd hs
  rw [show shown .words key.length = key.length / 8 from rfl] at this
  rwa [if_pos hc] at this

/-- C63: in particular a 256-bit cipher from `New64` leaves the destination of `Encrypt` untouched. -/
theorem C63_new64_256_noop {key : List U64} {t0 t1 : U64} {c : Cipher} (h : Made .words key t0 t1 c) (hk : key.length = 4) (mem : List U8) (dst src : Win) (hd : Win.Valid dst mem) (hs : Win.Valid src mem) :
    ∃ c', c.Encrypt mem dst src = .ok (c', mem) := by
  obtain ⟨_, c', e⟩ := C63_new64_bytes h mem dst src hd hs (by rw [hk]; exact ⟨Nat.zero_le _, Nat.zero_le _⟩)
  rw [hk] at e
  refine ⟨c', e.trans ?_⟩
  rw [List.take_zero, show toBytes [] = [] from rfl, Lemmas.Threefish.writeAt_nil]

/-- C63: the expected agreement with `New` fails for every cipher from `New64`: the block sizes differ. -/
theorem C63_block_size_violated {key : List U64} {t0 t1 : U64} {c c2 : Cipher} (h : Made .words key t0 t1 c) (h2 : Made .bytes key t0 t1 c2) : c2.BlockSize = 8 * c.BlockSize ∧ c.BlockSize ≠ c2.BlockSize := by
  have hk := (C61_encrypt64 h [] ⟨0, 0, 0⟩ ⟨0, 0, 0⟩ ⟨Nat.le_refl _, Nat.le_refl _⟩ ⟨Nat.le_refl _, Nat.le_refl _⟩).1
  have h1 := (made_good h).2
  have h2 := (made_good h2).2
  unfold Cipher.BlockSize
  rw [h1, h2]
  dsimp only [stateBits]
  omega

/-- C63: `Encrypt64` and `Decrypt64` do not depend on the constructor. -/
theorem C63_words_same {o o' : Origin} {key : List U64} {t0 t1 : U64} {c c2 : Cipher} (h : Made o key t0 t1 c) (h2 : Made o' key t0 t1 c2) (mem : List U64) (dst src : Win)
    (hd : Win.Valid dst mem) (hs : Win.Valid src mem) : c.Encrypt64 mem dst src = c2.Encrypt64 mem dst src ∧ c.Decrypt64 mem dst src = c2.Decrypt64 mem dst src := by
  have hk := (C61_encrypt64 h mem dst src hd hs).1
  refine ⟨by rw [(C61_encrypt64 h mem dst src hd hs).2, (C61_encrypt64 h2 mem dst src hd hs).2], ?_⟩
  have d1 := C60_decrypt64 h mem dst src hd hs
  have d2 := C60_decrypt64 h2 mem dst src hd hs
  split at d1
  · rename_i hc
    rw [if_pos hc] at d2
    obtain ⟨x, hx, ex, dx⟩ := d1
    obtain ⟨y, hy, ey, dy⟩ := d2
    rw [dx, dy, C60_injective key t0 t1 hk x y hx hy (ex.trans ey.symm)]
  · rename_i hc
    rw [if_neg hc] at d2
    rw [d1, d2]

/-! ## Construction and rekeying -/

/-- A tweak argument the code accepts: nil, or at least two words. -/
def TweakOk (t : Option (List U64)) : Prop := ∀ l, t = some l → 2 ≤ l.length

/-- C64: `New` succeeds exactly for keys of 32, 64 and 128 bytes, and otherwise returns a size error. -/
theorem C64_new (key : List U8) (tweak : Option (List U64)) (ht : TweakOk tweak) :
    if key.length = 32 ∨ key.length = 64 ∨ key.length = 128 then ∃ c, New key tweak = .ok (.ok c) else New key tweak = .ok (.error key.length) := by
  have main : ∀ s : Size, key.length = 8 * s.words → ∃ i, newBytes s (some key) tweak = .ok i := by
    intro s hs
    rw [Lemmas.Threefish.newBytes_ok s key hs]
    match tweak, ht with
    | none, _ => exact ⟨_, rfl⟩
    | some [], ht => exact absurd (ht _ rfl) (by simp)
    | some [_], ht => exact absurd (ht _ rfl) (by simp)
    | some (a :: b :: _), _ => exact ⟨_, rfl⟩
  unfold New
  split
  · rename_i h
    rcases h with h | h | h
    · obtain ⟨i, hi⟩ := main .s256 (by rw [h]; rfl)
      rw [if_pos h, hi]; exact ⟨_, rfl⟩
    · obtain ⟨i, hi⟩ := main .s512 (by rw [h]; rfl)
      rw [if_neg (by omega), if_pos h, hi]; exact ⟨_, rfl⟩
    · obtain ⟨i, hi⟩ := main .s1024 (by rw [h]; rfl)
      rw [if_neg (by omega), if_neg (by omega), if_pos h, hi]; exact ⟨_, rfl⟩
  · rename_i h
    rw [if_neg (by omega), if_neg (by omega), if_neg (by omega)]; rfl

/-- C64: `New64` succeeds exactly for keys of 4, 8 and 16 words, and otherwise returns a size error. -/
theorem C64_new64 (key : List U64) (tweak : Option (List U64)) (ht : TweakOk tweak) :
    if key.length = 4 ∨ key.length = 8 ∨ key.length = 16 then ∃ c, New64 key tweak = .ok (.ok c) else New64 key tweak = .ok (.error key.length) := by
  have main : ∀ s : Size, key.length = s.words → ∃ i, newWords s key tweak = .ok i := by
    intro s hs
    rw [Lemmas.Threefish.newWords_ok s key hs]
    match tweak, ht with
    | none, _ => exact ⟨_, rfl⟩
    | some [], ht => exact absurd (ht _ rfl) (by simp)
    | some [_], ht => exact absurd (ht _ rfl) (by simp)
    | some (a :: b :: _), _ => exact ⟨_, rfl⟩
  unfold New64
  split
  · rename_i h
    rcases h with h | h | h
    · obtain ⟨i, hi⟩ := main .s256 (by rw [h]; rfl)
      rw [if_pos h, hi]; exact ⟨_, rfl⟩
    · obtain ⟨i, hi⟩ := main .s512 (by rw [h]; rfl)
      rw [if_neg (by omega), if_pos h, hi]; exact ⟨_, rfl⟩
    · obtain ⟨i, hi⟩ := main .s1024 (by rw [h]; rfl)
      rw [if_neg (by omega), if_neg (by omega), if_pos h, hi]; exact ⟨_, rfl⟩
  · rename_i h
    rw [if_neg (by omega), if_neg (by omega), if_neg (by omega)]; rfl

/-- C64: `NewSize` succeeds exactly for 256, 512 and 1024 (for every `int`), and otherwise returns a size error. -/
theorem C64_newSize (n : Int) : if n = 256 ∨ n = 512 ∨ n = 1024 then ∃ c, NewSize n = .ok (.ok c) else NewSize n = .ok (.error n) := by
  unfold NewSize
  split
  · rename_i h
    rcases h with h | h | h
    · rw [if_pos h, Lemmas.Threefish.newBytes_nil]; exact ⟨_, rfl⟩
    · rw [if_neg (by omega), if_pos h, Lemmas.Threefish.newBytes_nil]; exact ⟨_, rfl⟩
    · rw [if_neg (by omega), if_neg (by omega), if_pos h, Lemmas.Threefish.newBytes_nil]; exact ⟨_, rfl⟩
  · rw [if_neg (by omega), if_neg (by omega), if_neg (by omega)]; rfl

/-- C64: a tweak of fewer than two words makes a constructor with a supported key length panic. -/
theorem C64_short_tweak (key : List U8) (key64 : List U64) (tweak : List U64) (ht : tweak.length < 2) :
    (key.length = 32 ∨ key.length = 64 ∨ key.length = 128 → New key (some tweak) = .error .index) ∧
    (key64.length = 4 ∨ key64.length = 8 ∨ key64.length = 16 → New64 key64 (some tweak) = .error .index) := by
  have m1 : ∀ s : Size, key.length = 8 * s.words → newBytes s (some key) (some tweak) = .error .index := by
    intro s hs
    rw [Lemmas.Threefish.newBytes_ok s key hs]
    match tweak, ht with
    | [], _ => rfl
    | [_], _ => rfl
  have m2 : ∀ s : Size, key64.length = s.words → newWords s key64 (some tweak) = .error .index := by
    intro s hs
    rw [Lemmas.Threefish.newWords_ok s key64 hs]
    match tweak, ht with
    | [], _ => rfl
    | [_], _ => rfl
  constructor
  · unfold New
    rintro (h | h | h)
    · rw [if_pos h, m1 .s256 (by rw [h]; rfl)]; rfl
    · rw [if_neg (by omega), if_pos h, m1 .s512 (by rw [h]; rfl)]; rfl
    · rw [if_neg (by omega), if_neg (by omega), if_pos h, m1 .s1024 (by rw [h]; rfl)]; rfl
  · unfold New64
    rintro (h | h | h)
    · rw [if_pos h, m2 .s256 (by rw [h]; rfl)]; rfl
    · rw [if_neg (by omega), if_pos h, m2 .s512 (by rw [h]; rfl)]; rfl
    · rw [if_neg (by omega), if_neg (by omega), if_pos h, m2 .s1024 (by rw [h]; rfl)]; rfl

/-- C64: rekeying is complete. After any history, `SetKey` and `SetTweak` succeed on arguments long enough (and panic otherwise), and the
cipher then behaves as any cipher of the same origin made with that key and tweak - in particular a fresh one: same block size,
same memory after `Encrypt` and `Encrypt64` and the same decryptions. -/
theorem C64_rekey {o : Origin} {key : List U64} {t0 t1 : U64} {c : Cipher} (h : Made o key t0 t1 c) (k : List U64) (a b : U64) (rest : List U64) :
    if key.length ≤ k.length then
      ∃ c1 c2, c.SetKey k = .ok c1 ∧ c1.SetTweak (some (a :: b :: rest)) = .ok c2 ∧ Made o (k.take key.length) a b c2
    else c.SetKey k = .error .index := by
  have := Lemmas.Threefish.SetKey_good (made_good h).1 k
  split
  · rename_i hk
    rw [if_pos hk] at this
    obtain ⟨c1, e1, _, hg⟩ := this
    obtain ⟨c2, e2, _, _⟩ := Lemmas.Threefish.SetTweak_good hg (some (a :: b :: rest))
    exact ⟨c1, c2, e1, e2, .setTweak _ _ _ _ _ (.setKey _ _ _ _ _ h k c1 e1) a b rest c2 e2⟩
  · rename_i hk
    rwa [if_neg hk] at this

/-- C64: ciphers of the same origin with the same key and tweak behave alike, whatever their histories. -/
theorem C64_same_behaviour {o : Origin} {key : List U64} {t0 t1 : U64} {c c2 : Cipher} (h : Made o key t0 t1 c) (h2 : Made o key t0 t1 c2) :
    c.BlockSize = c2.BlockSize ∧
    (∀ mem dst src, Win.Valid dst mem → Win.Valid src mem → c.Encrypt64 mem dst src = c2.Encrypt64 mem dst src ∧ c.Decrypt64 mem dst src = c2.Decrypt64 mem dst src) ∧
    (∀ mem dst src, Win.Valid dst mem → Win.Valid src mem →
      (c.Encrypt mem dst src).map Prod.snd = (c2.Encrypt mem dst src).map Prod.snd ∧ (c.Decrypt mem dst src).map Prod.snd = (c2.Decrypt mem dst src).map Prod.snd) := by
  refine ⟨by unfold Cipher.BlockSize; rw [(made_good h).2, (made_good h2).2], fun mem dst src hd hs => C63_words_same h h2 mem dst src hd hs, fun mem dst src hd hs => ?_⟩
  have hk := (C61_encrypt64 h [] ⟨0, 0, 0⟩ ⟨0, 0, 0⟩ ⟨Nat.le_refl _, Nat.le_refl _⟩ ⟨Nat.le_refl _, Nat.le_refl _⟩).1
  have e1 := encrypt_gen h mem dst src hd hs
  have e2 := encrypt_gen h2 mem dst src hd hs
  have d1 := decrypt_gen h mem dst src hd hs
  have d2 := decrypt_gen h2 mem dst src hd hs
  by_cases hc : 8 * shown o key.length ≤ src.cap ∧ 8 * shown o key.length ≤ dst.cap
  · rw [if_pos hc] at e1 e2 d1 d2
    obtain ⟨_, e1⟩ := e1
    obtain ⟨_, e2⟩ := e2
    obtain ⟨_, x, hx, ex, d1⟩ := d1
    obtain ⟨_, y, hy, ey, d2⟩ := d2
    rw [e1, e2, d1, d2, C60_injective key t0 t1 hk x y hx hy (ex.trans ey.symm)]
    exact ⟨rfl, rfl⟩
  · rw [if_neg hc] at e1 e2 d1 d2
    rw [e1, e2, d1, d2]
    exact ⟨rfl, rfl⟩

/-! ## Concrete cases

The published vectors of threefish_test.go, evaluated on the unrolled code and hence (`encryptWords_runL`) on the round-based definition; a
reachable cipher with a history; the failure of the byte round trip for `New64`. -/

section vectors
set_option maxRecDepth 1000000

/-- threefish_test.go:30-36. -/
theorem vector_256_0 : encryptWords [0#64, 0#64, 0#64, 0#64] 0#64 0#64 [0#64, 0#64, 0#64, 0#64] =
    [0x94EEEA8B1F2ADA84#64, 0xADF103313EAE6670#64, 0x952419A1F4B16D53#64, 0xD83F13E63C9F6B11#64] := by
  rw [Lemmas.Threefish.encryptWords_runL256 _ _ _ _ rfl rfl]
  decide +kernel

/-- threefish_test.go:38-47 (the test XORs the plaintext onto the result). -/
theorem vector_256_1 : encryptWords [0x1716151413121110#64, 0x1F1E1D1C1B1A1918#64, 0x2726252423222120#64, 0x2F2E2D2C2B2A2928#64] 0x0706050403020100#64 0x0F0E0D0C0B0A0908#64
      [0xF8F9FAFBFCFDFEFF#64, 0xF0F1F2F3F4F5F6F7#64, 0xE8E9EAEBECEDEEEF#64, 0xE0E1E2E3E4E5E6E7#64] =
    [0xDF8FEA0EFF91D0E0#64, 0xD50AD82EE69281C9#64, 0x76F48D58085D869D#64, 0xDF975E95B5567065#64] := by
  rw [Lemmas.Threefish.encryptWords_runL256 _ _ _ _ rfl rfl]
  decide +kernel

/-- threefish_test.go:61-74 (the test XORs the plaintext onto the result). -/
theorem vector_512_1 : encryptWords [0x1716151413121110#64, 0x1F1E1D1C1B1A1918#64, 0x2726252423222120#64, 0x2F2E2D2C2B2A2928#64, 0x3736353433323130#64,
      0x3F3E3D3C3B3A3938#64, 0x4746454443424140#64, 0x4F4E4D4C4B4A4948#64] 0x0706050403020100#64 0x0F0E0D0C0B0A0908#64
      [0xF8F9FAFBFCFDFEFF#64, 0xF0F1F2F3F4F5F6F7#64, 0xE8E9EAEBECEDEEEF#64, 0xE0E1E2E3E4E5E6E7#64, 0xD8D9DADBDCDDDEDF#64, 0xD0D1D2D3D4D5D6D7#64, 0xC8C9CACBCCCDCECF#64, 0xC0C1C2C3C4C5C6C7#64] =
    [0x2C5AD426964304E3#64, 0x9A2436D6D8CA01B4#64, 0xDD456DB00E333863#64, 0x794725970EB9368B#64, 0x043546998D0A2A27#64, 0x25A7C918EA204478#64, 0x346201A1FEDF11AF#64, 0x3DAF1C5C3D672789#64] := by
  rw [Lemmas.Threefish.encryptWords_runL512 _ _ _ _ rfl rfl]
  decide +kernel

/-- threefish_test.go:81-88. -/
theorem vector_1024_0 : encryptWords (List.replicate 16 0#64) 0#64 0#64 (List.replicate 16 0#64) =
    [0x04B3053D0A3D5CF0#64, 0x0136E0D1C7DD85F7#64, 0x067B212F6EA78A5C#64, 0x0DA9C10B4C54E1C6#64, 0x0F4EC27394CBACF0#64, 0x32437F0568EA4FD5#64, 0xCFF56D1D7654B49C#64,
      0xA2D5FB14369B2E7B#64, 0x540306B460472E0B#64, 0x71C18254BCEA820D#64, 0xC36B4068BEAF32C8#64, 0xFA4329597A360095#64, 0xC4A36C28434A5B9A#64, 0xD54331444B1046CF#64,
      0xDF11834830B2A460#64, 0x1E39E8DFE1F7EE4F#64] := by
  rw [Lemmas.Threefish.encryptWords_runL1024 _ _ _ _ rfl rfl]
  decide +kernel

end vectors

/-- A reachable cipher with a history: made by `NewSize`, rekeyed, retweaked. -/
example : ∃ c, Made .bytes [1#64, 2#64, 3#64, 4#64] 5#64 6#64 c := by
  obtain ⟨c, hc⟩ := C64_newSize 256
  have h : Made .bytes (List.replicate (256 / 64) 0#64) 0#64 0#64 c := .newSize 256 c hc
  obtain ⟨_, c2, _, _, h2⟩ := C64_rekey h [1#64, 2#64, 3#64, 4#64, 99#64] 5#64 6#64 [7#64]
  exact ⟨c2, h2⟩

/-- In-place use: source and destination are the same window. -/
example : ∃ c c', Made .words [0#64, 0#64, 0#64, 0#64] 0#64 0#64 c ∧ Made .bytes (toWords (List.replicate 32 0#8)) 0#64 0#64 c' ∧
    Win.Valid ⟨1, 4, 4⟩ (List.replicate 6 0#64) ∧
    c.Encrypt64 (List.replicate 6 0#64) ⟨1, 4, 4⟩ ⟨1, 4, 4⟩ =
      .ok [0#64, 0x94EEEA8B1F2ADA84#64, 0xADF103313EAE6670#64, 0x952419A1F4B16D53#64, 0xD83F13E63C9F6B11#64, 0#64] := by
  obtain ⟨c, hc⟩ := C64_new64 [0#64, 0#64, 0#64, 0#64] none (by intro l h; cases h)
  obtain ⟨c', hc'⟩ := C64_new (List.replicate 32 0#8) none (by intro l h; cases h)
  have h : Made .words [0#64, 0#64, 0#64, 0#64] 0#64 0#64 c := .new64Nil _ c hc
  have hv : Win.Valid ⟨1, 4, 4⟩ (List.replicate 6 0#64) := ⟨by decide, by decide⟩
  refine ⟨c, c', h, .newNil _ c' hc', hv, ?_⟩
  rw [(C61_encrypt64 h _ _ _ hv hv).2, if_pos (by decide)]
  show Except.ok (writeAt _ _ (encryptWords _ _ _ [0#64, 0#64, 0#64, 0#64])) = _
  rw [vector_256_0]
  rfl

/-- C63: `Decrypt` after `Encrypt` does not give the block back for a 512-bit cipher from `New64`, even for the 8 bytes it calls a block. -/
theorem C63_round_trip_violated : ∃ (key : List U64) (c : Cipher) (mem : List U8) (w : Win) (r1 r2 : Cipher × List U8), Made .words key 0#64 0#64 c ∧ Win.Valid w mem ∧
    c.Encrypt mem w w = .ok r1 ∧ r1.1.Decrypt r1.2 w w = .ok r2 ∧ readAt r2.2 w.off c.BlockSize ≠ readAt mem w.off c.BlockSize := by
  obtain ⟨c, hc⟩ := C64_new64 (List.replicate 8 0#64) none (by intro l h; cases h)
  have h : Made .words (List.replicate 8 0#64) 0#64 0#64 c := .new64Nil _ c hc
  have hv : Win.Valid ⟨0, 8, 8⟩ (List.replicate 8 0#8) := ⟨by decide, by decide⟩
  obtain ⟨hb, c1, e1⟩ := C63_new64_bytes h (List.replicate 8 0#8) ⟨0, 8, 8⟩ ⟨0, 8, 8⟩ hv hv ⟨by decide, by decide⟩
  have hm1 : Made .words (List.replicate 8 0#64) 0#64 0#64 c1 := .encrypt _ _ _ _ _ h _ _ _ hv hv _ e1
  have hx := Lemmas.Threefish.zeros512
  have ee : encryptWords (List.replicate 8 0#64) 0#64 0#64 (toWords (readAt (List.replicate 8 0#8) 0 8) ++ List.replicate 7 0#64) =
      encryptWords (List.replicate 8 0#64) 0#64 0#64 (List.replicate 8 0#64) := rfl
  have e1' : c.Encrypt (List.replicate 8 0#8) ⟨0, 8, 8⟩ ⟨0, 8, 8⟩ = .ok (c1, leBytes 8 0xBC2560EFC6BBA2B1) := by
    refine e1.trans ?_
    show Except.ok (c1, writeAt _ _ (toBytes ((encryptWords (List.replicate 8 0#64) 0#64 0#64 (toWords (readAt (List.replicate 8 0#8) 0 8) ++ List.replicate 7 0#64)).take 1))) = _
    rw [ee, hx]
    rfl
  have hv1 : Win.Valid ⟨0, 8, 8⟩ (leBytes 8 0xBC2560EFC6BBA2B1) := ⟨by decide, by decide⟩
  have hd := decrypt_gen hm1 (leBytes 8 0xBC2560EFC6BBA2B1) ⟨0, 8, 8⟩ ⟨0, 8, 8⟩ hv1 hv1
  rw [if_pos (show 8 * shown .words (List.replicate 8 0#64).length ≤ 8 ∧ 8 * shown .words (List.replicate 8 0#64).length ≤ 8 from ⟨by decide, by decide⟩)] at hd
  obtain ⟨c2, x, hxl, ex, e2⟩ := hd
  refine ⟨_, c, _, ⟨0, 8, 8⟩, _, _, h, hv, e1', e2, ?_⟩
  have ex' : encryptWords (List.replicate 8 0#64) 0#64 0#64 x = [0xBC2560EFC6BBA2B1#64, 0#64, 0#64, 0#64, 0#64, 0#64, 0#64, 0#64] := ex.trans (by decide +kernel)
  have hy := Lemmas.Threefish.back512
  have hyx := C60_injective (List.replicate 8 0#64) 0#64 0#64 (by simp) x _ hxl (by rfl) (ex'.trans hy.symm)
  rw [hyx, hb]
  clear ex e2 hyx
  dsimp only
  decide +kernel

end Verif.Props.Threefish
