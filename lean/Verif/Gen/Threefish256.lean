import Verif.Arx

/-! Generated by tools/gen_threefish.py from /repo/threefish/threefish256.go: the unrolled bodies of `encrypt` and `decrypt`.
Register `i` is the local `b<i>`; parameter `j` is `k<j>` for `j <= 4`, and `t0`, `t1`, `t2` are parameters 5, 6, 7. -/

namespace Verif.Gen.Threefish256
open Verif.Arx

abbrev I := Instr 4

/-- `encrypt`, threefish256.go:100-219. -/
def encrypt0 : List I := [
  .add 1 [.par 1, .par 5], .add 0 [.reg 1, .par 0], .rotl 1 14, .xor 1 0, .add 3 [.par 3], .add 2 [.reg 3, .par 2, .par 6],
  .rotl 3 16, .xor 3 2, .add 0 [.reg 3], .rotl 3 52, .xor 3 0, .add 2 [.reg 1],
  .rotl 1 57, .xor 1 2, .add 0 [.reg 1], .rotl 1 23, .xor 1 0, .add 2 [.reg 3],
  .rotl 3 40, .xor 3 2, .add 0 [.reg 3], .rotl 3 5, .xor 3 0, .add 2 [.reg 1],
  .rotl 1 37, .xor 1 2, .add 1 [.par 2, .par 6], .add 0 [.reg 1, .par 1], .rotl 1 25, .xor 1 0,
  .add 3 [.par 4, .lit 1], .add 2 [.reg 3, .par 3, .par 7], .rotl 3 33, .xor 3 2, .add 0 [.reg 3], .rotl 3 46,
  .xor 3 0, .add 2 [.reg 1], .rotl 1 12, .xor 1 2, .add 0 [.reg 1], .rotl 1 58,
  .xor 1 0, .add 2 [.reg 3], .rotl 3 22, .xor 3 2, .add 0 [.reg 3], .rotl 3 32,
  .xor 3 0, .add 2 [.reg 1], .rotl 1 32, .xor 1 2, .add 1 [.par 3, .par 7], .add 0 [.reg 1, .par 2],
  .rotl 1 14, .xor 1 0, .add 3 [.par 0, .lit 2], .add 2 [.reg 3, .par 4, .par 5], .rotl 3 16, .xor 3 2,
  .add 0 [.reg 3], .rotl 3 52, .xor 3 0, .add 2 [.reg 1], .rotl 1 57, .xor 1 2,
  .add 0 [.reg 1], .rotl 1 23, .xor 1 0, .add 2 [.reg 3], .rotl 3 40, .xor 3 2,
  .add 0 [.reg 3], .rotl 3 5, .xor 3 0, .add 2 [.reg 1], .rotl 1 37, .xor 1 2,
  .add 1 [.par 4, .par 5], .add 0 [.reg 1, .par 3], .rotl 1 25, .xor 1 0, .add 3 [.par 1, .lit 3], .add 2 [.reg 3, .par 0, .par 6],
  .rotl 3 33, .xor 3 2, .add 0 [.reg 3], .rotl 3 46, .xor 3 0, .add 2 [.reg 1],
  .rotl 1 12, .xor 1 2, .add 0 [.reg 1], .rotl 1 58, .xor 1 0, .add 2 [.reg 3],
  .rotl 3 22, .xor 3 2, .add 0 [.reg 3], .rotl 3 32, .xor 3 0, .add 2 [.reg 1],
  .rotl 1 32, .xor 1 2, .add 1 [.par 0, .par 6], .add 0 [.reg 1, .par 4], .rotl 1 14, .xor 1 0,
  .add 3 [.par 2, .lit 4], .add 2 [.reg 3, .par 1, .par 7], .rotl 3 16, .xor 3 2, .add 0 [.reg 3], .rotl 3 52,
  .xor 3 0, .add 2 [.reg 1], .rotl 1 57, .xor 1 2, .add 0 [.reg 1], .rotl 1 23,
  .xor 1 0, .add 2 [.reg 3], .rotl 3 40, .xor 3 2, .add 0 [.reg 3], .rotl 3 5,
  .xor 3 0, .add 2 [.reg 1], .rotl 1 37, .xor 1 2, .add 1 [.par 1, .par 7], .add 0 [.reg 1, .par 0],
  .rotl 1 25, .xor 1 0, .add 3 [.par 3, .lit 5], .add 2 [.reg 3, .par 2, .par 5], .rotl 3 33, .xor 3 2,
  .add 0 [.reg 3], .rotl 3 46, .xor 3 0, .add 2 [.reg 1], .rotl 1 12, .xor 1 2,
  .add 0 [.reg 1], .rotl 1 58, .xor 1 0, .add 2 [.reg 3], .rotl 3 22, .xor 3 2,
  .add 0 [.reg 3], .rotl 3 32, .xor 3 0, .add 2 [.reg 1], .rotl 1 32, .xor 1 2,
  .add 1 [.par 2, .par 5], .add 0 [.reg 1, .par 1], .rotl 1 14, .xor 1 0, .add 3 [.par 4, .lit 6], .add 2 [.reg 3, .par 3, .par 6],
  .rotl 3 16, .xor 3 2, .add 0 [.reg 3], .rotl 3 52, .xor 3 0, .add 2 [.reg 1],
  .rotl 1 57, .xor 1 2, .add 0 [.reg 1], .rotl 1 23, .xor 1 0]

/-- `encrypt`, threefish256.go:220-339. -/
def encrypt1 : List I := [
  .add 2 [.reg 3], .rotl 3 40, .xor 3 2, .add 0 [.reg 3], .rotl 3 5, .xor 3 0,
  .add 2 [.reg 1], .rotl 1 37, .xor 1 2, .add 1 [.par 3, .par 6], .add 0 [.reg 1, .par 2], .rotl 1 25,
  .xor 1 0, .add 3 [.par 0, .lit 7], .add 2 [.reg 3, .par 4, .par 7], .rotl 3 33, .xor 3 2, .add 0 [.reg 3],
  .rotl 3 46, .xor 3 0, .add 2 [.reg 1], .rotl 1 12, .xor 1 2, .add 0 [.reg 1],
  .rotl 1 58, .xor 1 0, .add 2 [.reg 3], .rotl 3 22, .xor 3 2, .add 0 [.reg 3],
  .rotl 3 32, .xor 3 0, .add 2 [.reg 1], .rotl 1 32, .xor 1 2, .add 1 [.par 4, .par 7],
  .add 0 [.reg 1, .par 3], .rotl 1 14, .xor 1 0, .add 3 [.par 1, .lit 8], .add 2 [.reg 3, .par 0, .par 5], .rotl 3 16,
  .xor 3 2, .add 0 [.reg 3], .rotl 3 52, .xor 3 0, .add 2 [.reg 1], .rotl 1 57,
  .xor 1 2, .add 0 [.reg 1], .rotl 1 23, .xor 1 0, .add 2 [.reg 3], .rotl 3 40,
  .xor 3 2, .add 0 [.reg 3], .rotl 3 5, .xor 3 0, .add 2 [.reg 1], .rotl 1 37,
  .xor 1 2, .add 1 [.par 0, .par 5], .add 0 [.reg 1, .par 4], .rotl 1 25, .xor 1 0, .add 3 [.par 2, .lit 9],
  .add 2 [.reg 3, .par 1, .par 6], .rotl 3 33, .xor 3 2, .add 0 [.reg 3], .rotl 3 46, .xor 3 0,
  .add 2 [.reg 1], .rotl 1 12, .xor 1 2, .add 0 [.reg 1], .rotl 1 58, .xor 1 0,
  .add 2 [.reg 3], .rotl 3 22, .xor 3 2, .add 0 [.reg 3], .rotl 3 32, .xor 3 0,
  .add 2 [.reg 1], .rotl 1 32, .xor 1 2, .add 1 [.par 1, .par 6], .add 0 [.reg 1, .par 0], .rotl 1 14,
  .xor 1 0, .add 3 [.par 3, .lit 10], .add 2 [.reg 3, .par 2, .par 7], .rotl 3 16, .xor 3 2, .add 0 [.reg 3],
  .rotl 3 52, .xor 3 0, .add 2 [.reg 1], .rotl 1 57, .xor 1 2, .add 0 [.reg 1],
  .rotl 1 23, .xor 1 0, .add 2 [.reg 3], .rotl 3 40, .xor 3 2, .add 0 [.reg 3],
  .rotl 3 5, .xor 3 0, .add 2 [.reg 1], .rotl 1 37, .xor 1 2, .add 1 [.par 2, .par 7],
  .add 0 [.reg 1, .par 1], .rotl 1 25, .xor 1 0, .add 3 [.par 4, .lit 11], .add 2 [.reg 3, .par 3, .par 5], .rotl 3 33,
  .xor 3 2, .add 0 [.reg 3], .rotl 3 46, .xor 3 0, .add 2 [.reg 1], .rotl 1 12,
  .xor 1 2, .add 0 [.reg 1], .rotl 1 58, .xor 1 0, .add 2 [.reg 3], .rotl 3 22,
  .xor 3 2, .add 0 [.reg 3], .rotl 3 32, .xor 3 0, .add 2 [.reg 1], .rotl 1 32,
  .xor 1 2, .add 1 [.par 3, .par 5], .add 0 [.reg 1, .par 2], .rotl 1 14, .xor 1 0, .add 3 [.par 0, .lit 12],
  .add 2 [.reg 3, .par 4, .par 6], .rotl 3 16, .xor 3 2, .add 0 [.reg 3], .rotl 3 52, .xor 3 0,
  .add 2 [.reg 1], .rotl 1 57, .xor 1 2, .add 0 [.reg 1], .rotl 1 23, .xor 1 0,
  .add 2 [.reg 3], .rotl 3 40, .xor 3 2, .add 0 [.reg 3], .rotl 3 5, .xor 3 0,
  .add 2 [.reg 1], .rotl 1 37, .xor 1 2, .add 1 [.par 4, .par 6], .add 0 [.reg 1, .par 3], .rotl 1 25,
  .xor 1 0, .add 3 [.par 1, .lit 13], .add 2 [.reg 3, .par 0, .par 7], .rotl 3 33, .xor 3 2]

/-- `encrypt`, threefish256.go:340-428. -/
def encrypt2 : List I := [
  .add 0 [.reg 3], .rotl 3 46, .xor 3 0, .add 2 [.reg 1], .rotl 1 12, .xor 1 2,
  .add 0 [.reg 1], .rotl 1 58, .xor 1 0, .add 2 [.reg 3], .rotl 3 22, .xor 3 2,
  .add 0 [.reg 3], .rotl 3 32, .xor 3 0, .add 2 [.reg 1], .rotl 1 32, .xor 1 2,
  .add 1 [.par 0, .par 7], .add 0 [.reg 1, .par 4], .rotl 1 14, .xor 1 0, .add 3 [.par 2, .lit 14], .add 2 [.reg 3, .par 1, .par 5],
  .rotl 3 16, .xor 3 2, .add 0 [.reg 3], .rotl 3 52, .xor 3 0, .add 2 [.reg 1],
  .rotl 1 57, .xor 1 2, .add 0 [.reg 1], .rotl 1 23, .xor 1 0, .add 2 [.reg 3],
  .rotl 3 40, .xor 3 2, .add 0 [.reg 3], .rotl 3 5, .xor 3 0, .add 2 [.reg 1],
  .rotl 1 37, .xor 1 2, .add 1 [.par 1, .par 5], .add 0 [.reg 1, .par 0], .rotl 1 25, .xor 1 0,
  .add 3 [.par 3, .lit 15], .add 2 [.reg 3, .par 2, .par 6], .rotl 3 33, .xor 3 2, .add 0 [.reg 3], .rotl 3 46,
  .xor 3 0, .add 2 [.reg 1], .rotl 1 12, .xor 1 2, .add 0 [.reg 1], .rotl 1 58,
  .xor 1 0, .add 2 [.reg 3], .rotl 3 22, .xor 3 2, .add 0 [.reg 3], .rotl 3 32,
  .xor 3 0, .add 2 [.reg 1], .rotl 1 32, .xor 1 2, .add 1 [.par 2, .par 6], .add 0 [.reg 1, .par 1],
  .rotl 1 14, .xor 1 0, .add 3 [.par 4, .lit 16], .add 2 [.reg 3, .par 3, .par 7], .rotl 3 16, .xor 3 2,
  .add 0 [.reg 3], .rotl 3 52, .xor 3 0, .add 2 [.reg 1], .rotl 1 57, .xor 1 2,
  .add 0 [.reg 1], .rotl 1 23, .xor 1 0, .add 2 [.reg 3], .rotl 3 40, .xor 3 2,
  .add 0 [.reg 3], .rotl 3 5, .xor 3 0, .add 2 [.reg 1], .rotl 1 37, .xor 1 2,
  .add 1 [.par 3, .par 7], .add 0 [.reg 1, .par 2], .rotl 1 25, .xor 1 0, .add 3 [.par 0, .lit 17], .add 2 [.reg 3, .par 4, .par 5],
  .rotl 3 33, .xor 3 2, .add 0 [.reg 3], .rotl 3 46, .xor 3 0, .add 2 [.reg 1],
  .rotl 1 12, .xor 1 2, .add 0 [.reg 1], .rotl 1 58, .xor 1 0, .add 2 [.reg 3],
  .rotl 3 22, .xor 3 2, .add 0 [.reg 3], .rotl 3 32, .xor 3 0, .add 2 [.reg 1],
  .rotl 1 32, .xor 1 2, .add 0 [.par 3], .add 1 [.par 4, .par 5], .add 2 [.par 0, .par 6], .add 3 [.par 1, .lit 18]]

/-- The body of `encrypt`, threefish256.go:83-430: the assignments between reading `input` and storing `output` (the sums stored into `output` are the last ones). -/
def encrypt : List I := encrypt0 ++ encrypt1 ++ encrypt2

/-- `decrypt`, threefish256.go:451-622. -/
def decrypt0 : List I := [
  .sub 0 [.par 3], .sub 1 [.par 4, .par 5], .sub 2 [.par 0, .par 6], .sub 3 [.par 1, .lit 18], .xor 3 0, .rotr 3 32,
  .sub 0 [.reg 3], .xor 1 2, .rotr 1 32, .sub 2 [.reg 1], .xor 1 0, .rotr 1 58,
  .sub 0 [.reg 1], .xor 3 2, .rotr 3 22, .sub 2 [.reg 3], .xor 3 0, .rotr 3 46,
  .sub 0 [.reg 3], .xor 1 2, .rotr 1 12, .sub 2 [.reg 1], .xor 1 0, .rotr 1 25,
  .sub 0 [.reg 1, .par 2], .sub 1 [.par 3, .par 7], .xor 3 2, .rotr 3 33, .sub 2 [.reg 3, .par 4, .par 5], .sub 3 [.par 0, .lit 17],
  .xor 3 0, .rotr 3 5, .sub 0 [.reg 3], .xor 1 2, .rotr 1 37, .sub 2 [.reg 1],
  .xor 1 0, .rotr 1 23, .sub 0 [.reg 1], .xor 3 2, .rotr 3 40, .sub 2 [.reg 3],
  .xor 3 0, .rotr 3 52, .sub 0 [.reg 3], .xor 1 2, .rotr 1 57, .sub 2 [.reg 1],
  .xor 1 0, .rotr 1 14, .sub 0 [.reg 1, .par 1], .sub 1 [.par 2, .par 6], .xor 3 2, .rotr 3 16,
  .sub 2 [.reg 3, .par 3, .par 7], .sub 3 [.par 4, .lit 16], .xor 3 0, .rotr 3 32, .sub 0 [.reg 3], .xor 1 2,
  .rotr 1 32, .sub 2 [.reg 1], .xor 1 0, .rotr 1 58, .sub 0 [.reg 1], .xor 3 2,
  .rotr 3 22, .sub 2 [.reg 3], .xor 3 0, .rotr 3 46, .sub 0 [.reg 3], .xor 1 2,
  .rotr 1 12, .sub 2 [.reg 1], .xor 1 0, .rotr 1 25, .sub 0 [.reg 1, .par 0], .sub 1 [.par 1, .par 5],
  .xor 3 2, .rotr 3 33, .sub 2 [.reg 3, .par 2, .par 6], .sub 3 [.par 3, .lit 15], .xor 3 0, .rotr 3 5,
  .sub 0 [.reg 3], .xor 1 2, .rotr 1 37, .sub 2 [.reg 1], .xor 1 0, .rotr 1 23,
  .sub 0 [.reg 1], .xor 3 2, .rotr 3 40, .sub 2 [.reg 3], .xor 3 0, .rotr 3 52,
  .sub 0 [.reg 3], .xor 1 2, .rotr 1 57, .sub 2 [.reg 1], .xor 1 0, .rotr 1 14,
  .sub 0 [.reg 1, .par 4], .sub 1 [.par 0, .par 7], .xor 3 2, .rotr 3 16, .sub 2 [.reg 3, .par 1, .par 5], .sub 3 [.par 2, .lit 14],
  .xor 3 0, .rotr 3 32, .sub 0 [.reg 3], .xor 1 2, .rotr 1 32, .sub 2 [.reg 1],
  .xor 1 0, .rotr 1 58, .sub 0 [.reg 1], .xor 3 2, .rotr 3 22, .sub 2 [.reg 3],
  .xor 3 0, .rotr 3 46, .sub 0 [.reg 3], .xor 1 2, .rotr 1 12, .sub 2 [.reg 1],
  .xor 1 0, .rotr 1 25, .sub 0 [.reg 1, .par 3], .sub 1 [.par 4, .par 6], .xor 3 2, .rotr 3 33,
  .sub 2 [.reg 3, .par 0, .par 7], .sub 3 [.par 1, .lit 13], .xor 3 0, .rotr 3 5, .sub 0 [.reg 3], .xor 1 2,
  .rotr 1 37, .sub 2 [.reg 1], .xor 1 0, .rotr 1 23, .sub 0 [.reg 1], .xor 3 2,
  .rotr 3 40, .sub 2 [.reg 3], .xor 3 0, .rotr 3 52, .sub 0 [.reg 3], .xor 1 2,
  .rotr 1 57, .sub 2 [.reg 1], .xor 1 0, .rotr 1 14, .sub 0 [.reg 1, .par 2], .sub 1 [.par 3, .par 5],
  .xor 3 2, .rotr 3 16, .sub 2 [.reg 3, .par 4, .par 6], .sub 3 [.par 0, .lit 12], .xor 3 0, .rotr 3 32,
  .sub 0 [.reg 3], .xor 1 2, .rotr 1 32, .sub 2 [.reg 1], .xor 1 0, .rotr 1 58,
  .sub 0 [.reg 1], .xor 3 2, .rotr 3 22, .sub 2 [.reg 3]]

/-- `decrypt`, threefish256.go:624-795. -/
def decrypt1 : List I := [
  .xor 3 0, .rotr 3 46, .sub 0 [.reg 3], .xor 1 2, .rotr 1 12, .sub 2 [.reg 1],
  .xor 1 0, .rotr 1 25, .sub 0 [.reg 1, .par 1], .sub 1 [.par 2, .par 7], .xor 3 2, .rotr 3 33,
  .sub 2 [.reg 3, .par 3, .par 5], .sub 3 [.par 4, .lit 11], .xor 3 0, .rotr 3 5, .sub 0 [.reg 3], .xor 1 2,
  .rotr 1 37, .sub 2 [.reg 1], .xor 1 0, .rotr 1 23, .sub 0 [.reg 1], .xor 3 2,
  .rotr 3 40, .sub 2 [.reg 3], .xor 3 0, .rotr 3 52, .sub 0 [.reg 3], .xor 1 2,
  .rotr 1 57, .sub 2 [.reg 1], .xor 1 0, .rotr 1 14, .sub 0 [.reg 1, .par 0], .sub 1 [.par 1, .par 6],
  .xor 3 2, .rotr 3 16, .sub 2 [.reg 3, .par 2, .par 7], .sub 3 [.par 3, .lit 10], .xor 3 0, .rotr 3 32,
  .sub 0 [.reg 3], .xor 1 2, .rotr 1 32, .sub 2 [.reg 1], .xor 1 0, .rotr 1 58,
  .sub 0 [.reg 1], .xor 3 2, .rotr 3 22, .sub 2 [.reg 3], .xor 3 0, .rotr 3 46,
  .sub 0 [.reg 3], .xor 1 2, .rotr 1 12, .sub 2 [.reg 1], .xor 1 0, .rotr 1 25,
  .sub 0 [.reg 1, .par 4], .sub 1 [.par 0, .par 5], .xor 3 2, .rotr 3 33, .sub 2 [.reg 3, .par 1, .par 6], .sub 3 [.par 2, .lit 9],
  .xor 3 0, .rotr 3 5, .sub 0 [.reg 3], .xor 1 2, .rotr 1 37, .sub 2 [.reg 1],
  .xor 1 0, .rotr 1 23, .sub 0 [.reg 1], .xor 3 2, .rotr 3 40, .sub 2 [.reg 3],
  .xor 3 0, .rotr 3 52, .sub 0 [.reg 3], .xor 1 2, .rotr 1 57, .sub 2 [.reg 1],
  .xor 1 0, .rotr 1 14, .sub 0 [.reg 1, .par 3], .sub 1 [.par 4, .par 7], .xor 3 2, .rotr 3 16,
  .sub 2 [.reg 3, .par 0, .par 5], .sub 3 [.par 1, .lit 8], .xor 3 0, .rotr 3 32, .sub 0 [.reg 3], .xor 1 2,
  .rotr 1 32, .sub 2 [.reg 1], .xor 1 0, .rotr 1 58, .sub 0 [.reg 1], .xor 3 2,
  .rotr 3 22, .sub 2 [.reg 3], .xor 3 0, .rotr 3 46, .sub 0 [.reg 3], .xor 1 2,
  .rotr 1 12, .sub 2 [.reg 1], .xor 1 0, .rotr 1 25, .sub 0 [.reg 1, .par 2], .sub 1 [.par 3, .par 6],
  .xor 3 2, .rotr 3 33, .sub 2 [.reg 3, .par 4, .par 7], .sub 3 [.par 0, .lit 7], .xor 3 0, .rotr 3 5,
  .sub 0 [.reg 3], .xor 1 2, .rotr 1 37, .sub 2 [.reg 1], .xor 1 0, .rotr 1 23,
  .sub 0 [.reg 1], .xor 3 2, .rotr 3 40, .sub 2 [.reg 3], .xor 3 0, .rotr 3 52,
  .sub 0 [.reg 3], .xor 1 2, .rotr 1 57, .sub 2 [.reg 1], .xor 1 0, .rotr 1 14,
  .sub 0 [.reg 1, .par 1], .sub 1 [.par 2, .par 5], .xor 3 2, .rotr 3 16, .sub 2 [.reg 3, .par 3, .par 6], .sub 3 [.par 4, .lit 6],
  .xor 3 0, .rotr 3 32, .sub 0 [.reg 3], .xor 1 2, .rotr 1 32, .sub 2 [.reg 1],
  .xor 1 0, .rotr 1 58, .sub 0 [.reg 1], .xor 3 2, .rotr 3 22, .sub 2 [.reg 3],
  .xor 3 0, .rotr 3 46, .sub 0 [.reg 3], .xor 1 2, .rotr 1 12, .sub 2 [.reg 1],
  .xor 1 0, .rotr 1 25, .sub 0 [.reg 1, .par 0], .sub 1 [.par 1, .par 7], .xor 3 2, .rotr 3 33,
  .sub 2 [.reg 3, .par 2, .par 5], .sub 3 [.par 3, .lit 5], .xor 3 0, .rotr 3 5, .sub 0 [.reg 3]]

/-- `decrypt`, threefish256.go:797-922. -/
def decrypt2 : List I := [
  .xor 1 2, .rotr 1 37, .sub 2 [.reg 1], .xor 1 0, .rotr 1 23, .sub 0 [.reg 1],
  .xor 3 2, .rotr 3 40, .sub 2 [.reg 3], .xor 3 0, .rotr 3 52, .sub 0 [.reg 3],
  .xor 1 2, .rotr 1 57, .sub 2 [.reg 1], .xor 1 0, .rotr 1 14, .sub 0 [.reg 1, .par 4],
  .sub 1 [.par 0, .par 6], .xor 3 2, .rotr 3 16, .sub 2 [.reg 3, .par 1, .par 7], .sub 3 [.par 2, .lit 4], .xor 3 0,
  .rotr 3 32, .sub 0 [.reg 3], .xor 1 2, .rotr 1 32, .sub 2 [.reg 1], .xor 1 0,
  .rotr 1 58, .sub 0 [.reg 1], .xor 3 2, .rotr 3 22, .sub 2 [.reg 3], .xor 3 0,
  .rotr 3 46, .sub 0 [.reg 3], .xor 1 2, .rotr 1 12, .sub 2 [.reg 1], .xor 1 0,
  .rotr 1 25, .sub 0 [.reg 1, .par 3], .sub 1 [.par 4, .par 5], .xor 3 2, .rotr 3 33, .sub 2 [.reg 3, .par 0, .par 6],
  .sub 3 [.par 1, .lit 3], .xor 3 0, .rotr 3 5, .sub 0 [.reg 3], .xor 1 2, .rotr 1 37,
  .sub 2 [.reg 1], .xor 1 0, .rotr 1 23, .sub 0 [.reg 1], .xor 3 2, .rotr 3 40,
  .sub 2 [.reg 3], .xor 3 0, .rotr 3 52, .sub 0 [.reg 3], .xor 1 2, .rotr 1 57,
  .sub 2 [.reg 1], .xor 1 0, .rotr 1 14, .sub 0 [.reg 1, .par 2], .sub 1 [.par 3, .par 7], .xor 3 2,
  .rotr 3 16, .sub 2 [.reg 3, .par 4, .par 5], .sub 3 [.par 0, .lit 2], .xor 3 0, .rotr 3 32, .sub 0 [.reg 3],
  .xor 1 2, .rotr 1 32, .sub 2 [.reg 1], .xor 1 0, .rotr 1 58, .sub 0 [.reg 1],
  .xor 3 2, .rotr 3 22, .sub 2 [.reg 3], .xor 3 0, .rotr 3 46, .sub 0 [.reg 3],
  .xor 1 2, .rotr 1 12, .sub 2 [.reg 1], .xor 1 0, .rotr 1 25, .sub 0 [.reg 1, .par 1],
  .sub 1 [.par 2, .par 6], .xor 3 2, .rotr 3 33, .sub 2 [.reg 3, .par 3, .par 7], .sub 3 [.par 4, .lit 1], .xor 3 0,
  .rotr 3 5, .sub 0 [.reg 3], .xor 1 2, .rotr 1 37, .sub 2 [.reg 1], .xor 1 0,
  .rotr 1 23, .sub 0 [.reg 1], .xor 3 2, .rotr 3 40, .sub 2 [.reg 3], .xor 3 0,
  .rotr 3 52, .sub 0 [.reg 3], .xor 1 2, .rotr 1 57, .sub 2 [.reg 1], .xor 1 0,
  .rotr 1 14, .sub 0 [.reg 1, .par 0], .sub 1 [.par 1, .par 5], .xor 3 2, .rotr 3 16, .sub 2 [.reg 3, .par 2, .par 6],
  .sub 3 [.par 3]]

/-- The body of `decrypt`, threefish256.go:432-928: the assignments between reading `input` and storing `output`. -/
def decrypt : List I := decrypt0 ++ decrypt1 ++ decrypt2

end Verif.Gen.Threefish256
