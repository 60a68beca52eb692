#!/usr/bin/env python3
"""Writes the case lemmas for the final switch of Jenkins364 in lean/Verif/Lemmas/Jenkins3.lean."""
o=[]
def W(reg,d,n): return f"s.{reg}" if n==0 else f"s.{reg} + word 32 ((t.drop {d}).take {n})"
for n in range(1,13):
    a,b,c=min(n,4),max(0,min(n-4,4)),max(0,n-8)
    st=f"theorem j{n}_eq (t : List U8) (h : {n} ≤ t.length) (s : S3 32) :\n    j{n} t s = .ok ⟨{W('a',0,a)}, {W('b',4,b)}, {W('c',8,c)}⟩ := by\n"
    if n in (4,8,12):
        k=n//4
        rws=", ".join(f"Go.unsafe32_eq (show {4*i} + 4 ≤ t.length by omega)" for i in range(k))
        o.append(st+f"  rw [j{n}, {rws}]\n  simp only [Go.bind_ok, Go.pure_ok]\n  rfl")
    else:
        d={0:0,1:4,2:8}[(n-1)//4]; k=(n-1)%4
        e=f"word_one (w := 32) (t := t) (d := {d}) (by omega)" if k==0 else f"word_succ (w := 32) (t := t) (d := {d}) (k := {k}) (by omega)"
        sw=", ← add_swap" if k else ""
        fin = "rfl" if n==1 else f"rw [j{n-1}_eq t (by omega) _]"
        o.append(st+f"  have e := {e}\n  rw [e{sw}]\n  unfold j{n}\n  rw [Go.idx_eq (show {n-1} < t.length by omega), Go.bind_ok]\n  {fin}")
print("\n\n".join(o))
print("""
theorem j364tail_eq (t : List U8) (l : Nat) (h0 : 0 < l) (h : l ≤ 12) (hl : l ≤ t.length) (s : S3 32) :
    j364tail t l s = .ok ((final2 (final1 (addB s (t.take l)))).c, (final2 (final1 (addB s (t.take l)))).b) := by
  rw [j364tail, if_neg (by omega)]
  rcases (by omega : """+" ∨ ".join(f"l = {i}" for i in range(1,13))+""") with
    """+" | ".join(["rfl"]*12))
for n in range(1,13):
    print(f"  · have e : addB s (t.take {n}) = ⟨{W('a',0,min(n,4))}, {W('b',4,max(0,min(n-4,4)))}, {W('c',8,max(0,n-8))}⟩ := by")
    print(f"      simp [addB, List.drop_take, List.take_take, word_nil]")
    print(f"    rw [e]")
    print(f"    show (j{n} t s >>= _) = _")
    print(f"    rw [j{n}_eq t hl s, Go.bind_ok]; rfl")
