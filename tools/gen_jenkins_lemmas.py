def e_(W,d,k,m256):
    # returns tactic lines rewriting the RHS new term
    if m256:
        return f"word256_one (w := {W}) (t := t) (d := {d}) (by omega)" if k==0 else f"word256_succ (w := {W}) (t := t) (d := {d}) (k := {k}) (by omega)"
    return f"word_one (w := {W}) (t := t) (d := {d}) (by omega)" if k==0 else f"word_succ (w := {W}) (t := t) (d := {d}) (k := {k}) (by omega)"
def lem(pref,n,W,a,b,c,new,prev):
    d,k,m=new
    sw=", ← add_swap" if k else ""
    if pref=="h232c" and n>8: sw=", ← add_swap4" if k else ", add_swap3 s.c"
    fin=f"rw [{prev} t (by omega) _]" if n>1 else f"rfl"
    return f"""theorem {pref}{n}_eq (t : List U8) (h : {n} ≤ t.length) (s : S3 {W}) :
    {pref}{n} t s = .ok ⟨{a}, {b}, {c}⟩ := by
  have e := {e_(W,d,k,m)}
  rw [e{sw}]
  unfold {pref}{n}
  rw [Go.idx_eq (show {n-1} < t.length by omega)]
  rw [Go.bind_ok]
  {fin}"""
o=[]
A=lambda n: "s.a" if n==0 else f"s.a + 256#32 * word 32 ((t.drop 1).take {n})"
B=lambda n: "s.b" if n==0 else f"s.b + word 32 ((t.drop 4).take {n})"
C=lambda n: "s.c + word 32 ((t.drop 0).take 1)" + ("" if n==0 else f" + 256#32 * word 32 ((t.drop 8).take {n})")
for n in range(1,12):
    prev=f"h232c{n-1}_eq"
    new=(0,0,False) if n==1 else (1,n-2,True) if n<=4 else (4,n-5,False) if n<=8 else (8,n-9,True)
    o.append(lem("h232c",n,32,A(max(0,min(n-1,3))),B(max(0,min(n-4,4))),C(max(0,n-8)),new,prev))
A=lambda n: "s.a" if n==0 else f"s.a + word 64 ((t.drop 0).take {n})"
B=lambda n: "s.b" if n==0 else f"s.b + word 64 ((t.drop 8).take {n})"
C=lambda n: "s.c" if n==0 else f"s.c + 256#64 * word 64 ((t.drop 16).take {n})"
for n in range(1,24):
    prev=f"h264c{n-1}_eq"
    new=(0,n-1,False) if n<=8 else (8,n-9,False) if n<=16 else (16,n-17,True)
    o.append(lem("h264c",n,64,A(min(n,8)),B(max(0,min(n-8,8))),C(max(0,n-16)),new,prev))
def tailthm(W,N,pref,f):
    cases=" | ".join(["hl"]*N)
    ors=" ∨ ".join(f"t.length = {i}" for i in range(N))
    if W==32:
        rhs="⟨s.a + 256#32 * word 32 ((t.take 4).drop 1), s.b + word 32 ((t.drop 4).take 4), s.c + word 32 (t.take 1) + 256#32 * word 32 (t.drop 8)⟩"
    else:
        rhs="⟨s.a + word 64 (t.take 8), s.b + word 64 ((t.drop 8).take 8), s.c + 256#64 * word 64 (t.drop 16)⟩"
    body=""
    for i in range(N):
        if i==0: body+=f"  · rw [List.length_eq_zero_iff.1 hl]; simp [{pref}0, word, leNat]\n"
        else: body+=f"  · rw [{pref}{i}_eq t (by omega)]; apply tail{W}_pad <;> omega\n"
    return f"""theorem {f}_eq (t : List U8) (h : t.length < {N}) (s : S3 {W}) :
    {f} t t.length s = .ok {rhs} := by
  rcases (by omega : {ors}) with {cases} <;> simp only [{f}, hl]
{body}"""
H="""import Verif.Model.Jenkins
import Verif.Spec.Jenkins
import Verif.Lemmas.Bits

/-! The tail switches of `Hash232` and `Hash264` (generated by tools/gen_jenkins_lemmas.py). -/

namespace Verif.Lemmas.Jenkins
open Verif Verif.Model.Jenkins
open Verif.Spec.Jenkins (word)

theorem mk_eq {w : Nat} {a a' b b' c c' : BitVec w} (ha : a = a') (hb : b = b') (hc : c = c') :
    S3.mk a b c = S3.mk a' b' c' := by rw [ha, hb, hc]

theorem add_swap {w : Nat} (x y z : BitVec w) : x + y + z = x + (z + y) := by
  rw [BitVec.add_assoc, BitVec.add_comm y]

theorem add_swap3 {w : Nat} (x y z : BitVec w) : x + y + z = x + z + y := by
  rw [BitVec.add_assoc, BitVec.add_comm y, BitVec.add_assoc]

theorem add_swap4 {w : Nat} (x y z u : BitVec w) : x + y + z + u = x + z + (u + y) := by
  rw [add_swap3 x y z, add_swap]

theorem word_nil (w : Nat) : word w [] = 0#w := by simp [word, leNat]

theorem word_succ {w : Nat} {t : List U8} {d k : Nat} (h : d + k < t.length) :
    word w ((t.drop d).take (k + 1)) = word w ((t.drop d).take k) + t[d + k].setWidth w <<< (8 * k) := by
  have := leNat_take_succ (t := t.drop d) (k := k) (by simp; omega)
  rw [word, word, this, byte_shl, BitVec.ofNat_add]
  simp

theorem word_one {w : Nat} {t : List U8} {d : Nat} (h : d < t.length) :
    word w ((t.drop d).take 1) = t[d].setWidth w := by
  have := word_succ (w := w) (t := t) (d := d) (k := 0) (by omega)
  simpa [word_nil] using this

theorem mul256_shl {w : Nat} (x : BitVec w) (k : Nat) : 256#w * x <<< k = x <<< (k + 8) := by
  rw [Nat.add_comm, BitVec.shiftLeft_add, BitVec.shiftLeft_eq_mul_twoPow x 8, BitVec.mul_comm x,
    BitVec.shiftLeft_eq_mul_twoPow, BitVec.shiftLeft_eq_mul_twoPow, BitVec.mul_assoc]
  congr 1
  apply BitVec.eq_of_toNat_eq
  simp

theorem word256_succ {w : Nat} {t : List U8} {d k : Nat} (h : d + k < t.length) :
    256#w * word w ((t.drop d).take (k + 1)) = 256#w * word w ((t.drop d).take k) + t[d + k].setWidth w <<< (8 * k + 8) := by
  rw [word_succ h, BitVec.mul_add, mul256_shl]

theorem word256_one {w : Nat} {t : List U8} {d : Nat} (h : d < t.length) :
    256#w * word w ((t.drop d).take 1) = t[d].setWidth w <<< 8 := by
  have := word256_succ (w := w) (t := t) (d := d) (k := 0) (by omega)
  simpa [word_nil] using this

"""
print(H+"\n\n".join(o)+"""

theorem drop_take_short {t : List U8} {d n : Nat} (m : Nat) (h : t.length ≤ d + n) (h2 : t.length ≤ d + m) : (t.drop d).take n = (t.drop d).take m := by
  rw [List.take_of_length_le (by simp; omega), List.take_of_length_le (by simp; omega)]

theorem drop_short {t : List U8} {d : Nat} (n : Nat) (h : t.length ≤ d + n) : t.drop d = (t.drop d).take n := by
  rw [List.take_of_length_le (by simp; omega)]

theorem take_drop_short {t : List U8} {d n : Nat} : (t.take n).drop d = (t.drop d).take (n - d) := by
  rw [List.drop_take]

""")
def padproof(W,N,pref,f):
    ors=" ∨ ".join(f"t.length = {i}" for i in range(N))
    cases=" | ".join(["hl"]*N)
    body=""
    for i in range(N):
        if i==0:
            body+=f"  · rw [List.length_eq_zero_iff.1 hl]; simp [{pref}0, word_nil]\n"; continue
        if W==32:
            a,b,c=max(0,min(i-1,3)),max(0,min(i-4,4)),max(0,i-8)
            rw=["take_drop_short (n := 4)","Nat.reduceSub"]
            ea=f"drop_take_short (t := t) (d := 1) (n := 3) {a} (by omega) (by omega)"
            eb=f"drop_take_short (t := t) (d := 4) (n := 4) {b} (by omega) (by omega)"
            ec=f"drop_short (t := t) (d := 8) {c} (by omega)"
        else:
            a,b,c=min(i,8),max(0,min(i-8,8)),max(0,i-16)
            ea=f"drop_take_short (t := t) (d := 0) (n := 8) {a} (by omega) (by omega)"
            eb=f"drop_take_short (t := t) (d := 8) (n := 8) {b} (by omega) (by omega)"
            ec=f"drop_short (t := t) (d := 16) {c} (by omega)"
        l=[]
        full_a = 3 if W==32 else 8
        full_b = 4 if W==32 else 8
        if a!=full_a: l.append(ea)
        if b!=full_b: l.append(eb)
        l.append(ec)
        body+=f"  · rw [{', '.join(l)}, {pref}{i}_eq t (by omega)]"
        if (a==0 or b==0 or c==0): body+="\n    simp only [List.take_zero, word_nil, BitVec.mul_zero, BitVec.add_zero]"
        body+="\n"
    if W==32:
        rhs="⟨s.a + 256#32 * word 32 ((t.take 4).drop 1), s.b + word 32 ((t.drop 4).take 4), s.c + word 32 (t.take 1) + 256#32 * word 32 (t.drop 8)⟩"
        pre="  rw [take_drop_short, ← List.drop_zero (l := t.take 1), take_drop_short]\n"
    else:
        rhs="⟨s.a + word 64 (t.take 8), s.b + word 64 ((t.drop 8).take 8), s.c + 256#64 * word 64 (t.drop 16)⟩"
        pre="  rw [← List.drop_zero (l := t.take 8), take_drop_short]\n"
    return f"""theorem {f}_eq (t : List U8) (h : t.length < {N}) (s : S3 {W}) :
    {f} t t.length s = .ok {rhs} := by
{pre}  simp only [Nat.reduceSub]
  rcases (by omega : {ors}) with
    {cases} <;> simp only [{f}, hl]
{body}"""
print(padproof(32,12,"h232c","h232tail"))
print(padproof(64,24,"h264c","h264tail"))
print("end Verif.Lemmas.Jenkins")
