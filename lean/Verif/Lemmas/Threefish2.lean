import Verif.Lemmas.Threefish

/-! Ciphers obtained through the API: what the constructors and the other calls leave in the cipher. -/

namespace Verif.Lemmas.Threefish
open Verif Verif.Arx Verif.Model.Threefish
open Verif.Spec.Threefish (Params subkey rotOf mixAll permOf p256 p512 p1024 extKey extTweak encryptWords toWords toBytes readAt writeAt C240)

/-- A cipher keyed with `key`, `t0`, `t1` whose `stateSize` is `m * 64 + r`, `r < 64`, `m` at most the number of words. -/
structure Good (c : Cipher) (m : Nat) (key : List U64) (t0 t1 : U64) : Prop where
  keyed : Keyed c.int key t0 t1
  m_eq : c.stateSize / 64 = m
  m_le : m ≤ key.length
  tmp : ∃ pre : List U64, pre.length = m ∧ c.int.tmpData1 = pre ++ List.replicate (key.length - m) 0#64

theorem blank_eq (s : Size) (tweak : Option (List U64)) :
    blank s tweak = (match tweak with
      | none => .ok [0#64, 0#64, 0#64]
      | some (c :: d :: _) => .ok [c, d, c ^^^ d]
      | some _ => .error .index : Go (List U64)).map fun t =>
        { size := s, expanedTweak := t, expanedKey := (List.replicate (s.words + 1) 0#64).set s.words KEY_SCHEDULE_CONST,
          tmpData1 := List.replicate s.words 0#64, tmpData2 := List.replicate s.words 0#64 } := by
  match tweak with
  | none => rfl
  | some [] => rfl
  | some [_] => rfl
  | some (c :: d :: _) => rfl

/-- The internal cipher the constructors should produce. -/
def mk (s : Size) (key : List U64) (t0 t1 : U64) : Internal :=
  { size := s, expanedTweak := [t0, t1, t0 ^^^ t1], expanedKey := key ++ [key.foldl (· ^^^ ·) C240],
    tmpData1 := List.replicate s.words 0#64, tmpData2 := List.replicate s.words 0#64 }

theorem ek_length (s : Size) : ((List.replicate (s.words + 1) 0#64).set s.words KEY_SCHEDULE_CONST).length = s.words + 1 := by
  rw [List.length_set, List.length_replicate]

theorem newWords_ok (s : Size) (key : List U64) (hk : key.length = s.words) (tweak : Option (List U64)) :
    newWords s key tweak = match tweak with
      | none => .ok (mk s key 0#64 0#64)
      | some (c :: d :: _) => .ok (mk s key c d)
      | some _ => .error .index := by
  have hs := fun ek h => setKey_eq key ek s.words h (by omega)
  unfold newWords
  rw [blank_eq]
  match tweak with
  | none =>
    show (setKey _ _ >>= _) = _
    rw [hs _ (ek_length s), List.take_of_length_le (by omega)]; rfl
  | some [] => rfl
  | some [_] => rfl
  | some (c :: d :: _) =>
    show (setKey _ _ >>= _) = _
    rw [hs _ (ek_length s), List.take_of_length_le (by omega)]; rfl

theorem newBytes_ok (s : Size) (key : List U8) (hk : key.length = 8 * s.words) (tweak : Option (List U64)) :
    newBytes s (some key) tweak = match tweak with
      | none => .ok (mk s (toWords key) 0#64 0#64)
      | some (c :: d :: _) => .ok (mk s (toWords key) c d)
      | some _ => .error .index := by
  have hw : (toWords key).length = s.words := by rw [toWords_length, hk]; omega
  have hl := keyWord_loop key (List.replicate (s.words + 1) 0#64) s.words (by omega) (by rw [List.length_replicate]; omega)
  rw [List.take_of_length_le (by omega)] at hl
  have hs := setKey_eq (toWords key ++ (List.replicate (s.words + 1) 0#64).drop s.words) _ s.words (ek_length s) (by rw [List.length_append]; omega)
  rw [List.take_left' hw] at hs
  unfold newBytes
  rw [blank_eq]
  match tweak with
  | none =>
    show (Go.forRange _ _ _ _ >>= _) = _
    rw [hl, Go.bind_ok, hs]; rfl
  | some [] => rfl
  | some [_] => rfl
  | some (c :: d :: _) =>
    show (Go.forRange _ _ _ _ >>= _) = _
    rw [hl, Go.bind_ok, hs]; rfl

theorem xor_replicate (n : Nat) (x : U64) : (List.replicate n 0#64).foldl (· ^^^ ·) x = x := by
  induction n generalizing x with
  | zero => rfl
  | succ n ih => rw [List.replicate_succ, List.foldl_cons, ih, BitVec.xor_zero]

theorem newBytes_nil (s : Size) : newBytes s none none = .ok (mk s (List.replicate s.words 0#64) 0#64 0#64) := by
  unfold newBytes
  rw [blank_eq]
  show Except.ok _ = _
  unfold mk
  rw [xor_replicate]
  congr 2
  rw [List.replicate_succ', List.set_append_right _ _ (by rw [List.length_replicate]), List.length_replicate, Nat.sub_self, List.set_cons_zero]
  rfl

theorem mk_keyed (s : Size) (key : List U64) (hk : key.length = s.words) (t0 t1 : U64) : Keyed (mk s key t0 t1) key t0 t1 := ⟨hk, rfl, rfl⟩

theorem mk_good (s : Size) (key : List U64) (hk : key.length = s.words) (t0 t1 : U64) (z m : Nat) (hz : z / 64 = m) (hm : m ≤ key.length) : Good ⟨z, mk s key t0 t1⟩ m key t0 t1 :=
  ⟨mk_keyed s key hk t0 t1, hz, hm, List.replicate m 0#64, by rw [List.length_replicate],
    by show List.replicate s.words 0#64 = _; rw [List.replicate_append_replicate, ← hk]; congr 1; omega⟩

theorem SetKey_good {c : Cipher} {m : Nat} {key : List U64} {t0 t1 : U64} (h : Good c m key t0 t1) (k : List U64) :
    if key.length ≤ k.length then ∃ c', c.SetKey k = .ok c' ∧ c'.stateSize = c.stateSize ∧ Good c' m (k.take key.length) t0 t1 else c.SetKey k = .error .index := by
  have hl : c.int.expanedKey.length = key.length + 1 := by rw [h.keyed.key, List.length_append]; rfl
  unfold Cipher.SetKey
  split
  · rename_i hk
    have ht : (k.take key.length).length = key.length := by rw [List.length_take]; omega
    rw [setKey_eq k _ key.length hl hk]
    obtain ⟨pre, hp, he⟩ := h.tmp
    exact ⟨_, rfl, rfl, ⟨⟨by rw [ht]; exact h.keyed.len, rfl, h.keyed.tweak⟩, h.m_eq, by rw [ht]; exact h.m_le, pre, hp, by rw [ht]; exact he⟩⟩
  · rw [setKey_short k _ key.length hl (by omega)]; rfl

theorem SetTweak_good {c : Cipher} {m : Nat} {key : List U64} {t0 t1 : U64} (h : Good c m key t0 t1) (t : Option (List U64)) :
    match t with
    | none => c.SetTweak t = .ok c
    | some (a :: b :: _) => ∃ c', c.SetTweak t = .ok c' ∧ c'.stateSize = c.stateSize ∧ Good c' m key a b
    | some _ => c.SetTweak t = .error .index := by
  unfold Cipher.SetTweak
  match t with
  | none => rfl
  | some [] => rfl
  | some [_] => rfl
  | some (a :: b :: _) =>
    obtain ⟨pre, hp, he⟩ := h.tmp
    exact ⟨_, rfl, rfl, ⟨⟨h.keyed.len, h.keyed.key, rfl⟩, h.m_eq, h.m_le, pre, hp, he⟩⟩

theorem pre_drop {tmp : List U64} {m k : Nat} (h : ∃ pre : List U64, pre.length = m ∧ tmp = pre ++ List.replicate k 0#64) : tmp.drop m = List.replicate k 0#64 ∧ tmp.length = m + k := by
  obtain ⟨pre, hp, rfl⟩ := h
  exact ⟨List.drop_left' hp, by rw [List.length_append, hp, List.length_replicate]⟩

/-- What a byte-oriented call does, for `f` the encryption or decryption body. -/
theorem bytes_call {c : Cipher} {m : Nat} {key : List U64} {t0 t1 : U64} (h : Good c m key t0 t1) (mem : List U8) (dst src : Win) (hd : Win.Valid dst mem) (hs : Win.Valid src mem)
    (f : List U64 → List U64) (hf : ∀ b, (f b).length = key.length) :
    (do
      let tmpin ← Go.forRange 0 (c.stateSize / 64) (loadBytes mem src) c.int.tmpData1
      let tmpout := f tmpin
      let mem' ← Go.forRange 0 (c.stateSize / 64) (storeBytes tmpout dst) mem
      return ({ c with int := { c.int with tmpData1 := tmpin, tmpData2 := tmpout } }, mem') : Go (Cipher × List U8)) =
    if 8 * m ≤ src.cap ∧ 8 * m ≤ dst.cap then
      .ok ({ c with int := { c.int with tmpData1 := toWords (readAt mem src.off (8 * m)) ++ List.replicate (key.length - m) 0#64, tmpData2 := f (toWords (readAt mem src.off (8 * m)) ++ List.replicate (key.length - m) 0#64) } },
        writeAt mem dst.off (toBytes ((f (toWords (readAt mem src.off (8 * m)) ++ List.replicate (key.length - m) 0#64)).take m)))
    else .error .slice := by
  obtain ⟨h1, h2⟩ := pre_drop h.tmp
  have hm := h.m_le
  rw [h.m_eq]
  by_cases c1 : 8 * m ≤ src.cap
  · rw [loadLoop mem src c.int.tmpData1 m (by omega) c1 hs.mem, Go.bind_ok, h1]
    by_cases c2 : 8 * m ≤ dst.cap
    · rw [if_pos ⟨c1, c2⟩]
      dsimp only
      rw [storeLoop _ dst mem m (by rw [hf]; exact hm) c2 hd.mem]
      rfl
    · rw [if_neg (fun e => c2 e.2)]
      dsimp only
      have := storeLoop_short (f (toWords (readAt mem src.off (8 * m)) ++ List.replicate (key.length - m) 0#64)) dst m (by rw [hf]; exact hm) (by omega) 0 (by omega) mem hd.mem
      rw [Nat.sub_zero] at this
      rw [this]
      rfl
  · rw [if_neg (fun e => c1 e.1)]
    have := loadLoop_short mem src m (by omega) hs.mem 0 (by omega) c.int.tmpData1 (by omega)
    rw [Nat.sub_zero] at this
    rw [this]
    rfl

theorem bytes_call_good {c : Cipher} {m : Nat} {key : List U64} {t0 t1 : U64} (h : Good c m key t0 t1) (mem : List U8) (src : Win) (hc : 8 * m ≤ src.cap) (hs : Win.Valid src mem) (out : List U64) :
    Good { c with int := { c.int with tmpData1 := toWords (readAt mem src.off (8 * m)) ++ List.replicate (key.length - m) 0#64, tmpData2 := out } } m key t0 t1 :=
  ⟨⟨h.keyed.len, h.keyed.key, h.keyed.tweak⟩, h.m_eq, h.m_le, _, by rw [toWords_length, readAt_length _ _ _ (by have := hs.mem; omega)]; omega, rfl⟩

theorem Encrypt64_eq (c : Cipher) (mem : List U64) (dst src : Win) (hd : Win.Valid dst mem) (hs : Win.Valid src mem) :
    c.Encrypt64 mem dst src = if c.int.size.words ≤ src.len ∧ c.int.size.words ≤ dst.len then .ok (writeAt mem dst.off (c.int.encBody (readAt mem src.off c.int.size.words))) else .error .index := by
  unfold Cipher.Encrypt64
  rw [loads_eq _ _ _ hs]
  by_cases c1 : c.int.size.words ≤ src.len
  · rw [if_pos c1, Go.bind_ok, stores_eq _ _ _ _ (encBody_length _ _) hd]
    simp only [c1, true_and]
  · rw [if_neg c1, if_neg (fun e => c1 e.1)]; rfl

theorem Decrypt64_eq (c : Cipher) (mem : List U64) (dst src : Win) (hd : Win.Valid dst mem) (hs : Win.Valid src mem) :
    c.Decrypt64 mem dst src = if c.int.size.words ≤ src.len ∧ c.int.size.words ≤ dst.len then .ok (writeAt mem dst.off (c.int.decBody (readAt mem src.off c.int.size.words))) else .error .index := by
  unfold Cipher.Decrypt64
  rw [loads_eq _ _ _ hs]
  by_cases c1 : c.int.size.words ≤ src.len
  · rw [if_pos c1, Go.bind_ok, stores_eq _ _ _ _ (decBody_length _ _) hd]
    simp only [c1, true_and]
  · rw [if_neg c1, if_neg (fun e => c1 e.1)]; rfl

/-! ## Evaluating the code on lists, for concrete cases -/

def Operand.valL (par : List U64) (s : List U64) : Operand n → U64
  | .reg i => s.getD i.val 0#64
  | .par i => par.getD i 0#64
  | .lit v => BitVec.ofNat 64 v

def totalL (par : List U64) (s : List U64) (xs : List (Operand n)) : U64 := xs.foldr (fun x acc => Operand.valL par s x + acc) 0#64

def evalL (par : List U64) (s : List U64) : Instr n → List U64
  | .add d xs => s.set d.val (s.getD d.val 0#64 + totalL par s xs)
  | .sub d xs => s.set d.val (s.getD d.val 0#64 - totalL par s xs)
  | .xor d r => s.set d.val (s.getD d.val 0#64 ^^^ s.getD r.val 0#64)
  | .rotl d k => s.set d.val (s.getD d.val 0#64 <<< k ||| s.getD d.val 0#64 >>> (64 - k))
  | .rotr d k => s.set d.val (s.getD d.val 0#64 >>> k ||| s.getD d.val 0#64 <<< (64 - k))

def runL (par : List U64) (s : List U64) (p : List (Instr n)) : List U64 := p.foldl (evalL par) s

theorem totalL_eq (par : List U64) (s : List U64) (xs : List (Operand n)) : totalL par s xs = total (fun i => par.getD i 0#64) (fun i : Fin n => s.getD i.val 0#64) xs := by
  induction xs with
  | nil => rfl
  | cons x xs ih =>
    show Operand.valL par s x + totalL par s xs = _
    rw [ih]
    cases x <;> rfl

theorem getD_set_update (s : List U64) (hs : s.length = n) (d : Fin n) (v : U64) :
    (fun i : Fin n => (s.set d.val v).getD i.val 0#64) = Function.update (fun i : Fin n => s.getD i.val 0#64) d v := by
  funext i
  by_cases h : i = d
  · subst h
    rw [Function.update_self, List.getD_eq_getElem?_getD, List.getElem?_set_self (by rw [hs]; exact i.isLt)]
    rfl
  · have hv : d.val ≠ i.val := fun e => h (Fin.ext e.symm)
    rw [Function.update_of_ne h, List.getD_eq_getElem?_getD, List.getElem?_set_ne hv, List.getD_eq_getElem?_getD]

theorem evalL_eq (par : List U64) (s : List U64) (hs : s.length = n) (i : Instr n) :
    (fun j : Fin n => (evalL par s i).getD j.val 0#64) = i.eval (fun i => par.getD i 0#64) (fun i => s.getD i.val 0#64) ∧ (evalL par s i).length = n := by
  cases i <;> simp only [evalL, Instr.eval, totalL_eq, getD_set_update s hs, List.length_set, hs, and_self]

theorem runL_eq (par : List U64) (p : List (Instr n)) : ∀ (s : List U64), s.length = n → runL par s p = runCode (fun i => par.getD i 0#64) p s := by
  induction p with
  | nil => intro s hs; exact (ofFn_getD s hs).symm
  | cons i p ih =>
    intro s hs
    obtain ⟨h1, h2⟩ := evalL_eq par s hs i
    show runL par (evalL par s i) p = _
    rw [ih _ h2]
    unfold runCode
    rw [h1]
    rfl


theorem mk_par (s : Size) (key : List U64) (hk : key.length = s.words) (t0 t1 : U64) (i : Nat) (hi : i < s.words + 4) :
    (mk s key t0 t1).par i = (key ++ [key.foldl (· ^^^ ·) C240, t0, t1, t0 ^^^ t1]).getD i 0#64 := by
  show (if i ≤ s.words then (key ++ [key.foldl (· ^^^ ·) C240]).getD i 0#64 else [t0, t1, t0 ^^^ t1].getD (i - (s.words + 1)) 0#64) = _
  split
  · rw [show key ++ [key.foldl (· ^^^ ·) C240, t0, t1, t0 ^^^ t1] = (key ++ [key.foldl (· ^^^ ·) C240]) ++ [t0, t1, t0 ^^^ t1] by simp, List.getD_eq_getElem?_getD, List.getD_eq_getElem?_getD, List.getElem?_append_left (l₂ := [t0, t1, t0 ^^^ t1])]
    rw [List.length_append, List.length_singleton]; omega
  · rw [show key ++ [key.foldl (· ^^^ ·) C240, t0, t1, t0 ^^^ t1] = (key ++ [key.foldl (· ^^^ ·) C240]) ++ [t0, t1, t0 ^^^ t1] by simp, List.getD_eq_getElem?_getD, List.getD_eq_getElem?_getD, List.getElem?_append_right]
    · rw [List.length_append, List.length_singleton, hk]
    · rw [List.length_append, List.length_singleton]; omega

theorem encryptWords_runL256 (key : List U64) (t0 t1 : U64) (x : List U64) (hk : key.length = 4) (hx : x.length = 4) :
    encryptWords key t0 t1 x = runL (key ++ [key.foldl (· ^^^ ·) C240, t0, t1, t0 ^^^ t1]) x Gen.Threefish256.encrypt := by
  have hg := mk_keyed .s256 key hk t0 t1
  rw [← encBody_eq hg, runL_eq _ _ _ hx]
  show runCode _ Gen.Threefish256.encrypt x = _
  unfold runCode
  rw [run_parsBelow (par' := fun i => (key ++ [key.foldl (· ^^^ ·) C240, t0, t1, t0 ^^^ t1]).getD i 0#64) (m := 8) _ _ pb256]
  intro i hi
  exact mk_par .s256 key hk t0 t1 i hi

theorem encryptWords_runL512 (key : List U64) (t0 t1 : U64) (x : List U64) (hk : key.length = 8) (hx : x.length = 8) :
    encryptWords key t0 t1 x = runL (key ++ [key.foldl (· ^^^ ·) C240, t0, t1, t0 ^^^ t1]) x Gen.Threefish512.encrypt := by
  have hg := mk_keyed .s512 key hk t0 t1
  rw [← encBody_eq hg, runL_eq _ _ _ hx]
  show runCode _ Gen.Threefish512.encrypt x = _
  unfold runCode
  rw [run_parsBelow (par' := fun i => (key ++ [key.foldl (· ^^^ ·) C240, t0, t1, t0 ^^^ t1]).getD i 0#64) (m := 12) _ _ pb512]
  intro i hi
  exact mk_par .s512 key hk t0 t1 i hi

theorem encryptWords_runL1024 (key : List U64) (t0 t1 : U64) (x : List U64) (hk : key.length = 16) (hx : x.length = 16) :
    encryptWords key t0 t1 x = runL (key ++ [key.foldl (· ^^^ ·) C240, t0, t1, t0 ^^^ t1]) x Gen.Threefish1024.encrypt := by
  have hg := mk_keyed .s1024 key hk t0 t1
  rw [← encBody_eq hg, runL_eq _ _ _ hx]
  show runCode _ Gen.Threefish1024.encrypt x = _
  unfold runCode
  rw [run_parsBelow (par' := fun i => (key ++ [key.foldl (· ^^^ ·) C240, t0, t1, t0 ^^^ t1]).getD i 0#64) (m := 20) _ _ pb1024]
  intro i hi
  exact mk_par .s1024 key hk t0 t1 i hi

section vectors
set_option maxRecDepth 1000000
/-- threefish_test.go:52-58. -/
theorem zeros512 : encryptWords (List.replicate 8 0#64) 0#64 0#64 (List.replicate 8 0#64) =
    [0xBC2560EFC6BBA2B1#64, 0xE3361F162238EB40#64, 0xFB8631EE0ABBD175#64, 0x7B9479D4C5479ED1#64, 0xCFF0356E58F8C27B#64, 0xB1B7B08430F0E7F7#64, 0xE9A380A56139ABF1#64, 0xBE7B6D4AA11EB47E#64] := by
  rw [encryptWords_runL512 _ _ _ _ rfl rfl]
  decide +kernel

theorem back512 : encryptWords (List.replicate 8 0#64) 0#64 0#64
      [14169322038676153123#64, 1258542804641071023#64, 14539178469932017069#64, 18033710487505234074#64, 13188142063794512111#64, 5334127679051552019#64, 17647579129477563925#64, 4191615470740222367#64] =
    [0xBC2560EFC6BBA2B1#64, 0#64, 0#64, 0#64, 0#64, 0#64, 0#64, 0#64] := by
  rw [encryptWords_runL512 _ _ _ _ rfl rfl]
  decide +kernel
end vectors

end Verif.Lemmas.Threefish
