import Verif.Arx

/-! Generated by tools/gen_threefish.py from /repo/threefish/threefish512.go: the unrolled bodies of `encrypt` and `decrypt`.
Register `i` is the local `b<i>`; parameter `j` is `k<j>` for `j <= 8`, and `t0`, `t1`, `t2` are parameters 9, 10, 11. -/

namespace Verif.Gen.Threefish512
open Verif.Arx

abbrev I := Instr 8

/-- `encrypt`, threefish512.go:108-227. -/
def encrypt0 : List I := [
  .add 1 [.par 1], .add 0 [.reg 1, .par 0], .rotl 1 46, .xor 1 0, .add 3 [.par 3], .add 2 [.reg 3, .par 2],
  .rotl 3 36, .xor 3 2, .add 5 [.par 5, .par 9], .add 4 [.reg 5, .par 4], .rotl 5 19, .xor 5 4,
  .add 7 [.par 7], .add 6 [.reg 7, .par 6, .par 10], .rotl 7 37, .xor 7 6, .add 2 [.reg 1], .rotl 1 33,
  .xor 1 2, .add 4 [.reg 7], .rotl 7 27, .xor 7 4, .add 6 [.reg 5], .rotl 5 14,
  .xor 5 6, .add 0 [.reg 3], .rotl 3 42, .xor 3 0, .add 4 [.reg 1], .rotl 1 17,
  .xor 1 4, .add 6 [.reg 3], .rotl 3 49, .xor 3 6, .add 0 [.reg 5], .rotl 5 36,
  .xor 5 0, .add 2 [.reg 7], .rotl 7 39, .xor 7 2, .add 6 [.reg 1], .rotl 1 44,
  .xor 1 6, .add 0 [.reg 7], .rotl 7 9, .xor 7 0, .add 2 [.reg 5], .rotl 5 54,
  .xor 5 2, .add 4 [.reg 3], .rotl 3 56, .xor 3 4, .add 1 [.par 2], .add 0 [.reg 1, .par 1],
  .rotl 1 39, .xor 1 0, .add 3 [.par 4], .add 2 [.reg 3, .par 3], .rotl 3 30, .xor 3 2,
  .add 5 [.par 6, .par 10], .add 4 [.reg 5, .par 5], .rotl 5 34, .xor 5 4, .add 7 [.par 8, .lit 1], .add 6 [.reg 7, .par 7, .par 11],
  .rotl 7 24, .xor 7 6, .add 2 [.reg 1], .rotl 1 13, .xor 1 2, .add 4 [.reg 7],
  .rotl 7 50, .xor 7 4, .add 6 [.reg 5], .rotl 5 10, .xor 5 6, .add 0 [.reg 3],
  .rotl 3 17, .xor 3 0, .add 4 [.reg 1], .rotl 1 25, .xor 1 4, .add 6 [.reg 3],
  .rotl 3 29, .xor 3 6, .add 0 [.reg 5], .rotl 5 39, .xor 5 0, .add 2 [.reg 7],
  .rotl 7 43, .xor 7 2, .add 6 [.reg 1], .rotl 1 8, .xor 1 6, .add 0 [.reg 7],
  .rotl 7 35, .xor 7 0, .add 2 [.reg 5], .rotl 5 56, .xor 5 2, .add 4 [.reg 3],
  .rotl 3 22, .xor 3 4, .add 1 [.par 3], .add 0 [.reg 1, .par 2], .rotl 1 46, .xor 1 0,
  .add 3 [.par 5], .add 2 [.reg 3, .par 4], .rotl 3 36, .xor 3 2, .add 5 [.par 7, .par 11], .add 4 [.reg 5, .par 6],
  .rotl 5 19, .xor 5 4, .add 7 [.par 0, .lit 2], .add 6 [.reg 7, .par 8, .par 9], .rotl 7 37, .xor 7 6,
  .add 2 [.reg 1], .rotl 1 33, .xor 1 2, .add 4 [.reg 7], .rotl 7 27, .xor 7 4,
  .add 6 [.reg 5], .rotl 5 14, .xor 5 6, .add 0 [.reg 3], .rotl 3 42, .xor 3 0,
  .add 4 [.reg 1], .rotl 1 17, .xor 1 4, .add 6 [.reg 3], .rotl 3 49, .xor 3 6,
  .add 0 [.reg 5], .rotl 5 36, .xor 5 0, .add 2 [.reg 7], .rotl 7 39, .xor 7 2,
  .add 6 [.reg 1], .rotl 1 44, .xor 1 6, .add 0 [.reg 7], .rotl 7 9, .xor 7 0,
  .add 2 [.reg 5], .rotl 5 54, .xor 5 2, .add 4 [.reg 3], .rotl 3 56, .xor 3 4,
  .add 1 [.par 4], .add 0 [.reg 1, .par 3], .rotl 1 39, .xor 1 0, .add 3 [.par 6], .add 2 [.reg 3, .par 5],
  .rotl 3 30, .xor 3 2, .add 5 [.par 8, .par 9], .add 4 [.reg 5, .par 7], .rotl 5 34, .xor 5 4,
  .add 7 [.par 1, .lit 3], .add 6 [.reg 7, .par 0, .par 10], .rotl 7 24, .xor 7 6]

/-- `encrypt`, threefish512.go:228-347. -/
def encrypt1 : List I := [
  .add 2 [.reg 1], .rotl 1 13, .xor 1 2, .add 4 [.reg 7], .rotl 7 50, .xor 7 4,
  .add 6 [.reg 5], .rotl 5 10, .xor 5 6, .add 0 [.reg 3], .rotl 3 17, .xor 3 0,
  .add 4 [.reg 1], .rotl 1 25, .xor 1 4, .add 6 [.reg 3], .rotl 3 29, .xor 3 6,
  .add 0 [.reg 5], .rotl 5 39, .xor 5 0, .add 2 [.reg 7], .rotl 7 43, .xor 7 2,
  .add 6 [.reg 1], .rotl 1 8, .xor 1 6, .add 0 [.reg 7], .rotl 7 35, .xor 7 0,
  .add 2 [.reg 5], .rotl 5 56, .xor 5 2, .add 4 [.reg 3], .rotl 3 22, .xor 3 4,
  .add 1 [.par 5], .add 0 [.reg 1, .par 4], .rotl 1 46, .xor 1 0, .add 3 [.par 7], .add 2 [.reg 3, .par 6],
  .rotl 3 36, .xor 3 2, .add 5 [.par 0, .par 10], .add 4 [.reg 5, .par 8], .rotl 5 19, .xor 5 4,
  .add 7 [.par 2, .lit 4], .add 6 [.reg 7, .par 1, .par 11], .rotl 7 37, .xor 7 6, .add 2 [.reg 1], .rotl 1 33,
  .xor 1 2, .add 4 [.reg 7], .rotl 7 27, .xor 7 4, .add 6 [.reg 5], .rotl 5 14,
  .xor 5 6, .add 0 [.reg 3], .rotl 3 42, .xor 3 0, .add 4 [.reg 1], .rotl 1 17,
  .xor 1 4, .add 6 [.reg 3], .rotl 3 49, .xor 3 6, .add 0 [.reg 5], .rotl 5 36,
  .xor 5 0, .add 2 [.reg 7], .rotl 7 39, .xor 7 2, .add 6 [.reg 1], .rotl 1 44,
  .xor 1 6, .add 0 [.reg 7], .rotl 7 9, .xor 7 0, .add 2 [.reg 5], .rotl 5 54,
  .xor 5 2, .add 4 [.reg 3], .rotl 3 56, .xor 3 4, .add 1 [.par 6], .add 0 [.reg 1, .par 5],
  .rotl 1 39, .xor 1 0, .add 3 [.par 8], .add 2 [.reg 3, .par 7], .rotl 3 30, .xor 3 2,
  .add 5 [.par 1, .par 11], .add 4 [.reg 5, .par 0], .rotl 5 34, .xor 5 4, .add 7 [.par 3, .lit 5], .add 6 [.reg 7, .par 2, .par 9],
  .rotl 7 24, .xor 7 6, .add 2 [.reg 1], .rotl 1 13, .xor 1 2, .add 4 [.reg 7],
  .rotl 7 50, .xor 7 4, .add 6 [.reg 5], .rotl 5 10, .xor 5 6, .add 0 [.reg 3],
  .rotl 3 17, .xor 3 0, .add 4 [.reg 1], .rotl 1 25, .xor 1 4, .add 6 [.reg 3],
  .rotl 3 29, .xor 3 6, .add 0 [.reg 5], .rotl 5 39, .xor 5 0, .add 2 [.reg 7],
  .rotl 7 43, .xor 7 2, .add 6 [.reg 1], .rotl 1 8, .xor 1 6, .add 0 [.reg 7],
  .rotl 7 35, .xor 7 0, .add 2 [.reg 5], .rotl 5 56, .xor 5 2, .add 4 [.reg 3],
  .rotl 3 22, .xor 3 4, .add 1 [.par 7], .add 0 [.reg 1, .par 6], .rotl 1 46, .xor 1 0,
  .add 3 [.par 0], .add 2 [.reg 3, .par 8], .rotl 3 36, .xor 3 2, .add 5 [.par 2, .par 9], .add 4 [.reg 5, .par 1],
  .rotl 5 19, .xor 5 4, .add 7 [.par 4, .lit 6], .add 6 [.reg 7, .par 3, .par 10], .rotl 7 37, .xor 7 6,
  .add 2 [.reg 1], .rotl 1 33, .xor 1 2, .add 4 [.reg 7], .rotl 7 27, .xor 7 4,
  .add 6 [.reg 5], .rotl 5 14, .xor 5 6, .add 0 [.reg 3], .rotl 3 42, .xor 3 0,
  .add 4 [.reg 1], .rotl 1 17, .xor 1 4, .add 6 [.reg 3], .rotl 3 49, .xor 3 6]

/-- `encrypt`, threefish512.go:348-467. -/
def encrypt2 : List I := [
  .add 0 [.reg 5], .rotl 5 36, .xor 5 0, .add 2 [.reg 7], .rotl 7 39, .xor 7 2,
  .add 6 [.reg 1], .rotl 1 44, .xor 1 6, .add 0 [.reg 7], .rotl 7 9, .xor 7 0,
  .add 2 [.reg 5], .rotl 5 54, .xor 5 2, .add 4 [.reg 3], .rotl 3 56, .xor 3 4,
  .add 1 [.par 8], .add 0 [.reg 1, .par 7], .rotl 1 39, .xor 1 0, .add 3 [.par 1], .add 2 [.reg 3, .par 0],
  .rotl 3 30, .xor 3 2, .add 5 [.par 3, .par 10], .add 4 [.reg 5, .par 2], .rotl 5 34, .xor 5 4,
  .add 7 [.par 5, .lit 7], .add 6 [.reg 7, .par 4, .par 11], .rotl 7 24, .xor 7 6, .add 2 [.reg 1], .rotl 1 13,
  .xor 1 2, .add 4 [.reg 7], .rotl 7 50, .xor 7 4, .add 6 [.reg 5], .rotl 5 10,
  .xor 5 6, .add 0 [.reg 3], .rotl 3 17, .xor 3 0, .add 4 [.reg 1], .rotl 1 25,
  .xor 1 4, .add 6 [.reg 3], .rotl 3 29, .xor 3 6, .add 0 [.reg 5], .rotl 5 39,
  .xor 5 0, .add 2 [.reg 7], .rotl 7 43, .xor 7 2, .add 6 [.reg 1], .rotl 1 8,
  .xor 1 6, .add 0 [.reg 7], .rotl 7 35, .xor 7 0, .add 2 [.reg 5], .rotl 5 56,
  .xor 5 2, .add 4 [.reg 3], .rotl 3 22, .xor 3 4, .add 1 [.par 0], .add 0 [.reg 1, .par 8],
  .rotl 1 46, .xor 1 0, .add 3 [.par 2], .add 2 [.reg 3, .par 1], .rotl 3 36, .xor 3 2,
  .add 5 [.par 4, .par 11], .add 4 [.reg 5, .par 3], .rotl 5 19, .xor 5 4, .add 7 [.par 6, .lit 8], .add 6 [.reg 7, .par 5, .par 9],
  .rotl 7 37, .xor 7 6, .add 2 [.reg 1], .rotl 1 33, .xor 1 2, .add 4 [.reg 7],
  .rotl 7 27, .xor 7 4, .add 6 [.reg 5], .rotl 5 14, .xor 5 6, .add 0 [.reg 3],
  .rotl 3 42, .xor 3 0, .add 4 [.reg 1], .rotl 1 17, .xor 1 4, .add 6 [.reg 3],
  .rotl 3 49, .xor 3 6, .add 0 [.reg 5], .rotl 5 36, .xor 5 0, .add 2 [.reg 7],
  .rotl 7 39, .xor 7 2, .add 6 [.reg 1], .rotl 1 44, .xor 1 6, .add 0 [.reg 7],
  .rotl 7 9, .xor 7 0, .add 2 [.reg 5], .rotl 5 54, .xor 5 2, .add 4 [.reg 3],
  .rotl 3 56, .xor 3 4, .add 1 [.par 1], .add 0 [.reg 1, .par 0], .rotl 1 39, .xor 1 0,
  .add 3 [.par 3], .add 2 [.reg 3, .par 2], .rotl 3 30, .xor 3 2, .add 5 [.par 5, .par 9], .add 4 [.reg 5, .par 4],
  .rotl 5 34, .xor 5 4, .add 7 [.par 7, .lit 9], .add 6 [.reg 7, .par 6, .par 10], .rotl 7 24, .xor 7 6,
  .add 2 [.reg 1], .rotl 1 13, .xor 1 2, .add 4 [.reg 7], .rotl 7 50, .xor 7 4,
  .add 6 [.reg 5], .rotl 5 10, .xor 5 6, .add 0 [.reg 3], .rotl 3 17, .xor 3 0,
  .add 4 [.reg 1], .rotl 1 25, .xor 1 4, .add 6 [.reg 3], .rotl 3 29, .xor 3 6,
  .add 0 [.reg 5], .rotl 5 39, .xor 5 0, .add 2 [.reg 7], .rotl 7 43, .xor 7 2,
  .add 6 [.reg 1], .rotl 1 8, .xor 1 6, .add 0 [.reg 7], .rotl 7 35, .xor 7 0,
  .add 2 [.reg 5], .rotl 5 56, .xor 5 2, .add 4 [.reg 3], .rotl 3 22, .xor 3 4]

/-- `encrypt`, threefish512.go:468-587. -/
def encrypt3 : List I := [
  .add 1 [.par 2], .add 0 [.reg 1, .par 1], .rotl 1 46, .xor 1 0, .add 3 [.par 4], .add 2 [.reg 3, .par 3],
  .rotl 3 36, .xor 3 2, .add 5 [.par 6, .par 10], .add 4 [.reg 5, .par 5], .rotl 5 19, .xor 5 4,
  .add 7 [.par 8, .lit 10], .add 6 [.reg 7, .par 7, .par 11], .rotl 7 37, .xor 7 6, .add 2 [.reg 1], .rotl 1 33,
  .xor 1 2, .add 4 [.reg 7], .rotl 7 27, .xor 7 4, .add 6 [.reg 5], .rotl 5 14,
  .xor 5 6, .add 0 [.reg 3], .rotl 3 42, .xor 3 0, .add 4 [.reg 1], .rotl 1 17,
  .xor 1 4, .add 6 [.reg 3], .rotl 3 49, .xor 3 6, .add 0 [.reg 5], .rotl 5 36,
  .xor 5 0, .add 2 [.reg 7], .rotl 7 39, .xor 7 2, .add 6 [.reg 1], .rotl 1 44,
  .xor 1 6, .add 0 [.reg 7], .rotl 7 9, .xor 7 0, .add 2 [.reg 5], .rotl 5 54,
  .xor 5 2, .add 4 [.reg 3], .rotl 3 56, .xor 3 4, .add 1 [.par 3], .add 0 [.reg 1, .par 2],
  .rotl 1 39, .xor 1 0, .add 3 [.par 5], .add 2 [.reg 3, .par 4], .rotl 3 30, .xor 3 2,
  .add 5 [.par 7, .par 11], .add 4 [.reg 5, .par 6], .rotl 5 34, .xor 5 4, .add 7 [.par 0, .lit 11], .add 6 [.reg 7, .par 8, .par 9],
  .rotl 7 24, .xor 7 6, .add 2 [.reg 1], .rotl 1 13, .xor 1 2, .add 4 [.reg 7],
  .rotl 7 50, .xor 7 4, .add 6 [.reg 5], .rotl 5 10, .xor 5 6, .add 0 [.reg 3],
  .rotl 3 17, .xor 3 0, .add 4 [.reg 1], .rotl 1 25, .xor 1 4, .add 6 [.reg 3],
  .rotl 3 29, .xor 3 6, .add 0 [.reg 5], .rotl 5 39, .xor 5 0, .add 2 [.reg 7],
  .rotl 7 43, .xor 7 2, .add 6 [.reg 1], .rotl 1 8, .xor 1 6, .add 0 [.reg 7],
  .rotl 7 35, .xor 7 0, .add 2 [.reg 5], .rotl 5 56, .xor 5 2, .add 4 [.reg 3],
  .rotl 3 22, .xor 3 4, .add 1 [.par 4], .add 0 [.reg 1, .par 3], .rotl 1 46, .xor 1 0,
  .add 3 [.par 6], .add 2 [.reg 3, .par 5], .rotl 3 36, .xor 3 2, .add 5 [.par 8, .par 9], .add 4 [.reg 5, .par 7],
  .rotl 5 19, .xor 5 4, .add 7 [.par 1, .lit 12], .add 6 [.reg 7, .par 0, .par 10], .rotl 7 37, .xor 7 6,
  .add 2 [.reg 1], .rotl 1 33, .xor 1 2, .add 4 [.reg 7], .rotl 7 27, .xor 7 4,
  .add 6 [.reg 5], .rotl 5 14, .xor 5 6, .add 0 [.reg 3], .rotl 3 42, .xor 3 0,
  .add 4 [.reg 1], .rotl 1 17, .xor 1 4, .add 6 [.reg 3], .rotl 3 49, .xor 3 6,
  .add 0 [.reg 5], .rotl 5 36, .xor 5 0, .add 2 [.reg 7], .rotl 7 39, .xor 7 2,
  .add 6 [.reg 1], .rotl 1 44, .xor 1 6, .add 0 [.reg 7], .rotl 7 9, .xor 7 0,
  .add 2 [.reg 5], .rotl 5 54, .xor 5 2, .add 4 [.reg 3], .rotl 3 56, .xor 3 4,
  .add 1 [.par 5], .add 0 [.reg 1, .par 4], .rotl 1 39, .xor 1 0, .add 3 [.par 7], .add 2 [.reg 3, .par 6],
  .rotl 3 30, .xor 3 2, .add 5 [.par 0, .par 10], .add 4 [.reg 5, .par 8], .rotl 5 34, .xor 5 4,
  .add 7 [.par 2, .lit 13], .add 6 [.reg 7, .par 1, .par 11], .rotl 7 24, .xor 7 6]

/-- `encrypt`, threefish512.go:588-707. -/
def encrypt4 : List I := [
  .add 2 [.reg 1], .rotl 1 13, .xor 1 2, .add 4 [.reg 7], .rotl 7 50, .xor 7 4,
  .add 6 [.reg 5], .rotl 5 10, .xor 5 6, .add 0 [.reg 3], .rotl 3 17, .xor 3 0,
  .add 4 [.reg 1], .rotl 1 25, .xor 1 4, .add 6 [.reg 3], .rotl 3 29, .xor 3 6,
  .add 0 [.reg 5], .rotl 5 39, .xor 5 0, .add 2 [.reg 7], .rotl 7 43, .xor 7 2,
  .add 6 [.reg 1], .rotl 1 8, .xor 1 6, .add 0 [.reg 7], .rotl 7 35, .xor 7 0,
  .add 2 [.reg 5], .rotl 5 56, .xor 5 2, .add 4 [.reg 3], .rotl 3 22, .xor 3 4,
  .add 1 [.par 6], .add 0 [.reg 1, .par 5], .rotl 1 46, .xor 1 0, .add 3 [.par 8], .add 2 [.reg 3, .par 7],
  .rotl 3 36, .xor 3 2, .add 5 [.par 1, .par 11], .add 4 [.reg 5, .par 0], .rotl 5 19, .xor 5 4,
  .add 7 [.par 3, .lit 14], .add 6 [.reg 7, .par 2, .par 9], .rotl 7 37, .xor 7 6, .add 2 [.reg 1], .rotl 1 33,
  .xor 1 2, .add 4 [.reg 7], .rotl 7 27, .xor 7 4, .add 6 [.reg 5], .rotl 5 14,
  .xor 5 6, .add 0 [.reg 3], .rotl 3 42, .xor 3 0, .add 4 [.reg 1], .rotl 1 17,
  .xor 1 4, .add 6 [.reg 3], .rotl 3 49, .xor 3 6, .add 0 [.reg 5], .rotl 5 36,
  .xor 5 0, .add 2 [.reg 7], .rotl 7 39, .xor 7 2, .add 6 [.reg 1], .rotl 1 44,
  .xor 1 6, .add 0 [.reg 7], .rotl 7 9, .xor 7 0, .add 2 [.reg 5], .rotl 5 54,
  .xor 5 2, .add 4 [.reg 3], .rotl 3 56, .xor 3 4, .add 1 [.par 7], .add 0 [.reg 1, .par 6],
  .rotl 1 39, .xor 1 0, .add 3 [.par 0], .add 2 [.reg 3, .par 8], .rotl 3 30, .xor 3 2,
  .add 5 [.par 2, .par 9], .add 4 [.reg 5, .par 1], .rotl 5 34, .xor 5 4, .add 7 [.par 4, .lit 15], .add 6 [.reg 7, .par 3, .par 10],
  .rotl 7 24, .xor 7 6, .add 2 [.reg 1], .rotl 1 13, .xor 1 2, .add 4 [.reg 7],
  .rotl 7 50, .xor 7 4, .add 6 [.reg 5], .rotl 5 10, .xor 5 6, .add 0 [.reg 3],
  .rotl 3 17, .xor 3 0, .add 4 [.reg 1], .rotl 1 25, .xor 1 4, .add 6 [.reg 3],
  .rotl 3 29, .xor 3 6, .add 0 [.reg 5], .rotl 5 39, .xor 5 0, .add 2 [.reg 7],
  .rotl 7 43, .xor 7 2, .add 6 [.reg 1], .rotl 1 8, .xor 1 6, .add 0 [.reg 7],
  .rotl 7 35, .xor 7 0, .add 2 [.reg 5], .rotl 5 56, .xor 5 2, .add 4 [.reg 3],
  .rotl 3 22, .xor 3 4, .add 1 [.par 8], .add 0 [.reg 1, .par 7], .rotl 1 46, .xor 1 0,
  .add 3 [.par 1], .add 2 [.reg 3, .par 0], .rotl 3 36, .xor 3 2, .add 5 [.par 3, .par 10], .add 4 [.reg 5, .par 2],
  .rotl 5 19, .xor 5 4, .add 7 [.par 5, .lit 16], .add 6 [.reg 7, .par 4, .par 11], .rotl 7 37, .xor 7 6,
  .add 2 [.reg 1], .rotl 1 33, .xor 1 2, .add 4 [.reg 7], .rotl 7 27, .xor 7 4,
  .add 6 [.reg 5], .rotl 5 14, .xor 5 6, .add 0 [.reg 3], .rotl 3 42, .xor 3 0,
  .add 4 [.reg 1], .rotl 1 17, .xor 1 4, .add 6 [.reg 3], .rotl 3 49, .xor 3 6]

/-- `encrypt`, threefish512.go:708-764. -/
def encrypt5 : List I := [
  .add 0 [.reg 5], .rotl 5 36, .xor 5 0, .add 2 [.reg 7], .rotl 7 39, .xor 7 2,
  .add 6 [.reg 1], .rotl 1 44, .xor 1 6, .add 0 [.reg 7], .rotl 7 9, .xor 7 0,
  .add 2 [.reg 5], .rotl 5 54, .xor 5 2, .add 4 [.reg 3], .rotl 3 56, .xor 3 4,
  .add 1 [.par 0], .add 0 [.reg 1, .par 8], .rotl 1 39, .xor 1 0, .add 3 [.par 2], .add 2 [.reg 3, .par 1],
  .rotl 3 30, .xor 3 2, .add 5 [.par 4, .par 11], .add 4 [.reg 5, .par 3], .rotl 5 34, .xor 5 4,
  .add 7 [.par 6, .lit 17], .add 6 [.reg 7, .par 5, .par 9], .rotl 7 24, .xor 7 6, .add 2 [.reg 1], .rotl 1 13,
  .xor 1 2, .add 4 [.reg 7], .rotl 7 50, .xor 7 4, .add 6 [.reg 5], .rotl 5 10,
  .xor 5 6, .add 0 [.reg 3], .rotl 3 17, .xor 3 0, .add 4 [.reg 1], .rotl 1 25,
  .xor 1 4, .add 6 [.reg 3], .rotl 3 29, .xor 3 6, .add 0 [.reg 5], .rotl 5 39,
  .xor 5 0, .add 2 [.reg 7], .rotl 7 43, .xor 7 2, .add 6 [.reg 1], .rotl 1 8,
  .xor 1 6, .add 0 [.reg 7], .rotl 7 35, .xor 7 0, .add 2 [.reg 5], .rotl 5 56,
  .xor 5 2, .add 4 [.reg 3], .rotl 3 22, .xor 3 4, .add 0 [.par 0], .add 1 [.par 1],
  .add 2 [.par 2], .add 3 [.par 3], .add 4 [.par 4], .add 5 [.par 5, .par 9], .add 6 [.par 6, .par 10], .add 7 [.par 7, .lit 18]]

/-- The body of `encrypt`, threefish512.go:83-765: the assignments between reading `input` and storing `output` (the sums stored into `output` are the last ones). -/
def encrypt : List I := encrypt0 ++ encrypt1 ++ encrypt2 ++ encrypt3 ++ encrypt4 ++ encrypt5

/-- `decrypt`, threefish512.go:794-963. -/
def decrypt0 : List I := [
  .sub 0 [.par 0], .sub 1 [.par 1], .sub 2 [.par 2], .sub 3 [.par 3], .sub 4 [.par 4], .sub 5 [.par 5, .par 9],
  .sub 6 [.par 6, .par 10], .sub 7 [.par 7, .lit 18], .xor 3 4, .rotr 3 22, .sub 4 [.reg 3], .xor 5 2,
  .rotr 5 56, .sub 2 [.reg 5], .xor 7 0, .rotr 7 35, .sub 0 [.reg 7], .xor 1 6,
  .rotr 1 8, .sub 6 [.reg 1], .xor 7 2, .rotr 7 43, .sub 2 [.reg 7], .xor 5 0,
  .rotr 5 39, .sub 0 [.reg 5], .xor 3 6, .rotr 3 29, .sub 6 [.reg 3], .xor 1 4,
  .rotr 1 25, .sub 4 [.reg 1], .xor 3 0, .rotr 3 17, .sub 0 [.reg 3], .xor 5 6,
  .rotr 5 10, .sub 6 [.reg 5], .xor 7 4, .rotr 7 50, .sub 4 [.reg 7], .xor 1 2,
  .rotr 1 13, .sub 2 [.reg 1], .xor 7 6, .rotr 7 24, .sub 6 [.reg 7, .par 5, .par 9], .sub 7 [.par 6, .lit 17],
  .xor 5 4, .rotr 5 34, .sub 4 [.reg 5, .par 3], .sub 5 [.par 4, .par 11], .xor 3 2, .rotr 3 30,
  .sub 2 [.reg 3, .par 1], .sub 3 [.par 2], .xor 1 0, .rotr 1 39, .sub 0 [.reg 1, .par 8], .sub 1 [.par 0],
  .xor 3 4, .rotr 3 56, .sub 4 [.reg 3], .xor 5 2, .rotr 5 54, .sub 2 [.reg 5],
  .xor 7 0, .rotr 7 9, .sub 0 [.reg 7], .xor 1 6, .rotr 1 44, .sub 6 [.reg 1],
  .xor 7 2, .rotr 7 39, .sub 2 [.reg 7], .xor 5 0, .rotr 5 36, .sub 0 [.reg 5],
  .xor 3 6, .rotr 3 49, .sub 6 [.reg 3], .xor 1 4, .rotr 1 17, .sub 4 [.reg 1],
  .xor 3 0, .rotr 3 42, .sub 0 [.reg 3], .xor 5 6, .rotr 5 14, .sub 6 [.reg 5],
  .xor 7 4, .rotr 7 27, .sub 4 [.reg 7], .xor 1 2, .rotr 1 33, .sub 2 [.reg 1],
  .xor 7 6, .rotr 7 37, .sub 6 [.reg 7, .par 4, .par 11], .sub 7 [.par 5, .lit 16], .xor 5 4, .rotr 5 19,
  .sub 4 [.reg 5, .par 2], .sub 5 [.par 3, .par 10], .xor 3 2, .rotr 3 36, .sub 2 [.reg 3, .par 0], .sub 3 [.par 1],
  .xor 1 0, .rotr 1 46, .sub 0 [.reg 1, .par 7], .sub 1 [.par 8], .xor 3 4, .rotr 3 22,
  .sub 4 [.reg 3], .xor 5 2, .rotr 5 56, .sub 2 [.reg 5], .xor 7 0, .rotr 7 35,
  .sub 0 [.reg 7], .xor 1 6, .rotr 1 8, .sub 6 [.reg 1], .xor 7 2, .rotr 7 43,
  .sub 2 [.reg 7], .xor 5 0, .rotr 5 39, .sub 0 [.reg 5], .xor 3 6, .rotr 3 29,
  .sub 6 [.reg 3], .xor 1 4, .rotr 1 25, .sub 4 [.reg 1], .xor 3 0, .rotr 3 17,
  .sub 0 [.reg 3], .xor 5 6, .rotr 5 10, .sub 6 [.reg 5], .xor 7 4, .rotr 7 50,
  .sub 4 [.reg 7], .xor 1 2, .rotr 1 13, .sub 2 [.reg 1], .xor 7 6, .rotr 7 24,
  .sub 6 [.reg 7, .par 3, .par 10], .sub 7 [.par 4, .lit 15], .xor 5 4, .rotr 5 34, .sub 4 [.reg 5, .par 1], .sub 5 [.par 2, .par 9],
  .xor 3 2, .rotr 3 30, .sub 2 [.reg 3, .par 8], .sub 3 [.par 0], .xor 1 0, .rotr 1 39,
  .sub 0 [.reg 1, .par 6], .sub 1 [.par 7], .xor 3 4, .rotr 3 56, .sub 4 [.reg 3], .xor 5 2,
  .rotr 5 54, .sub 2 [.reg 5]]

/-- `decrypt`, threefish512.go:965-1137. -/
def decrypt1 : List I := [
  .xor 7 0, .rotr 7 9, .sub 0 [.reg 7], .xor 1 6, .rotr 1 44, .sub 6 [.reg 1],
  .xor 7 2, .rotr 7 39, .sub 2 [.reg 7], .xor 5 0, .rotr 5 36, .sub 0 [.reg 5],
  .xor 3 6, .rotr 3 49, .sub 6 [.reg 3], .xor 1 4, .rotr 1 17, .sub 4 [.reg 1],
  .xor 3 0, .rotr 3 42, .sub 0 [.reg 3], .xor 5 6, .rotr 5 14, .sub 6 [.reg 5],
  .xor 7 4, .rotr 7 27, .sub 4 [.reg 7], .xor 1 2, .rotr 1 33, .sub 2 [.reg 1],
  .xor 7 6, .rotr 7 37, .sub 6 [.reg 7, .par 2, .par 9], .sub 7 [.par 3, .lit 14], .xor 5 4, .rotr 5 19,
  .sub 4 [.reg 5, .par 0], .sub 5 [.par 1, .par 11], .xor 3 2, .rotr 3 36, .sub 2 [.reg 3, .par 7], .sub 3 [.par 8],
  .xor 1 0, .rotr 1 46, .sub 0 [.reg 1, .par 5], .sub 1 [.par 6], .xor 3 4, .rotr 3 22,
  .sub 4 [.reg 3], .xor 5 2, .rotr 5 56, .sub 2 [.reg 5], .xor 7 0, .rotr 7 35,
  .sub 0 [.reg 7], .xor 1 6, .rotr 1 8, .sub 6 [.reg 1], .xor 7 2, .rotr 7 43,
  .sub 2 [.reg 7], .xor 5 0, .rotr 5 39, .sub 0 [.reg 5], .xor 3 6, .rotr 3 29,
  .sub 6 [.reg 3], .xor 1 4, .rotr 1 25, .sub 4 [.reg 1], .xor 3 0, .rotr 3 17,
  .sub 0 [.reg 3], .xor 5 6, .rotr 5 10, .sub 6 [.reg 5], .xor 7 4, .rotr 7 50,
  .sub 4 [.reg 7], .xor 1 2, .rotr 1 13, .sub 2 [.reg 1], .xor 7 6, .rotr 7 24,
  .sub 6 [.reg 7, .par 1, .par 11], .sub 7 [.par 2, .lit 13], .xor 5 4, .rotr 5 34, .sub 4 [.reg 5, .par 8], .sub 5 [.par 0, .par 10],
  .xor 3 2, .rotr 3 30, .sub 2 [.reg 3, .par 6], .sub 3 [.par 7], .xor 1 0, .rotr 1 39,
  .sub 0 [.reg 1, .par 4], .sub 1 [.par 5], .xor 3 4, .rotr 3 56, .sub 4 [.reg 3], .xor 5 2,
  .rotr 5 54, .sub 2 [.reg 5], .xor 7 0, .rotr 7 9, .sub 0 [.reg 7], .xor 1 6,
  .rotr 1 44, .sub 6 [.reg 1], .xor 7 2, .rotr 7 39, .sub 2 [.reg 7], .xor 5 0,
  .rotr 5 36, .sub 0 [.reg 5], .xor 3 6, .rotr 3 49, .sub 6 [.reg 3], .xor 1 4,
  .rotr 1 17, .sub 4 [.reg 1], .xor 3 0, .rotr 3 42, .sub 0 [.reg 3], .xor 5 6,
  .rotr 5 14, .sub 6 [.reg 5], .xor 7 4, .rotr 7 27, .sub 4 [.reg 7], .xor 1 2,
  .rotr 1 33, .sub 2 [.reg 1], .xor 7 6, .rotr 7 37, .sub 6 [.reg 7, .par 0, .par 10], .sub 7 [.par 1, .lit 12],
  .xor 5 4, .rotr 5 19, .sub 4 [.reg 5, .par 7], .sub 5 [.par 8, .par 9], .xor 3 2, .rotr 3 36,
  .sub 2 [.reg 3, .par 5], .sub 3 [.par 6], .xor 1 0, .rotr 1 46, .sub 0 [.reg 1, .par 3], .sub 1 [.par 4],
  .xor 3 4, .rotr 3 22, .sub 4 [.reg 3], .xor 5 2, .rotr 5 56, .sub 2 [.reg 5],
  .xor 7 0, .rotr 7 35, .sub 0 [.reg 7], .xor 1 6, .rotr 1 8, .sub 6 [.reg 1],
  .xor 7 2, .rotr 7 43, .sub 2 [.reg 7], .xor 5 0, .rotr 5 39, .sub 0 [.reg 5],
  .xor 3 6, .rotr 3 29, .sub 6 [.reg 3], .xor 1 4, .rotr 1 25, .sub 4 [.reg 1]]

/-- `decrypt`, threefish512.go:1139-1311. -/
def decrypt2 : List I := [
  .xor 3 0, .rotr 3 17, .sub 0 [.reg 3], .xor 5 6, .rotr 5 10, .sub 6 [.reg 5],
  .xor 7 4, .rotr 7 50, .sub 4 [.reg 7], .xor 1 2, .rotr 1 13, .sub 2 [.reg 1],
  .xor 7 6, .rotr 7 24, .sub 6 [.reg 7, .par 8, .par 9], .sub 7 [.par 0, .lit 11], .xor 5 4, .rotr 5 34,
  .sub 4 [.reg 5, .par 6], .sub 5 [.par 7, .par 11], .xor 3 2, .rotr 3 30, .sub 2 [.reg 3, .par 4], .sub 3 [.par 5],
  .xor 1 0, .rotr 1 39, .sub 0 [.reg 1, .par 2], .sub 1 [.par 3], .xor 3 4, .rotr 3 56,
  .sub 4 [.reg 3], .xor 5 2, .rotr 5 54, .sub 2 [.reg 5], .xor 7 0, .rotr 7 9,
  .sub 0 [.reg 7], .xor 1 6, .rotr 1 44, .sub 6 [.reg 1], .xor 7 2, .rotr 7 39,
  .sub 2 [.reg 7], .xor 5 0, .rotr 5 36, .sub 0 [.reg 5], .xor 3 6, .rotr 3 49,
  .sub 6 [.reg 3], .xor 1 4, .rotr 1 17, .sub 4 [.reg 1], .xor 3 0, .rotr 3 42,
  .sub 0 [.reg 3], .xor 5 6, .rotr 5 14, .sub 6 [.reg 5], .xor 7 4, .rotr 7 27,
  .sub 4 [.reg 7], .xor 1 2, .rotr 1 33, .sub 2 [.reg 1], .xor 7 6, .rotr 7 37,
  .sub 6 [.reg 7, .par 7, .par 11], .sub 7 [.par 8, .lit 10], .xor 5 4, .rotr 5 19, .sub 4 [.reg 5, .par 5], .sub 5 [.par 6, .par 10],
  .xor 3 2, .rotr 3 36, .sub 2 [.reg 3, .par 3], .sub 3 [.par 4], .xor 1 0, .rotr 1 46,
  .sub 0 [.reg 1, .par 1], .sub 1 [.par 2], .xor 3 4, .rotr 3 22, .sub 4 [.reg 3], .xor 5 2,
  .rotr 5 56, .sub 2 [.reg 5], .xor 7 0, .rotr 7 35, .sub 0 [.reg 7], .xor 1 6,
  .rotr 1 8, .sub 6 [.reg 1], .xor 7 2, .rotr 7 43, .sub 2 [.reg 7], .xor 5 0,
  .rotr 5 39, .sub 0 [.reg 5], .xor 3 6, .rotr 3 29, .sub 6 [.reg 3], .xor 1 4,
  .rotr 1 25, .sub 4 [.reg 1], .xor 3 0, .rotr 3 17, .sub 0 [.reg 3], .xor 5 6,
  .rotr 5 10, .sub 6 [.reg 5], .xor 7 4, .rotr 7 50, .sub 4 [.reg 7], .xor 1 2,
  .rotr 1 13, .sub 2 [.reg 1], .xor 7 6, .rotr 7 24, .sub 6 [.reg 7, .par 6, .par 10], .sub 7 [.par 7, .lit 9],
  .xor 5 4, .rotr 5 34, .sub 4 [.reg 5, .par 4], .sub 5 [.par 5, .par 9], .xor 3 2, .rotr 3 30,
  .sub 2 [.reg 3, .par 2], .sub 3 [.par 3], .xor 1 0, .rotr 1 39, .sub 0 [.reg 1, .par 0], .sub 1 [.par 1],
  .xor 3 4, .rotr 3 56, .sub 4 [.reg 3], .xor 5 2, .rotr 5 54, .sub 2 [.reg 5],
  .xor 7 0, .rotr 7 9, .sub 0 [.reg 7], .xor 1 6, .rotr 1 44, .sub 6 [.reg 1],
  .xor 7 2, .rotr 7 39, .sub 2 [.reg 7], .xor 5 0, .rotr 5 36, .sub 0 [.reg 5],
  .xor 3 6, .rotr 3 49, .sub 6 [.reg 3], .xor 1 4, .rotr 1 17, .sub 4 [.reg 1],
  .xor 3 0, .rotr 3 42, .sub 0 [.reg 3], .xor 5 6, .rotr 5 14, .sub 6 [.reg 5],
  .xor 7 4, .rotr 7 27, .sub 4 [.reg 7], .xor 1 2, .rotr 1 33, .sub 2 [.reg 1],
  .xor 7 6, .rotr 7 37, .sub 6 [.reg 7, .par 5, .par 9], .sub 7 [.par 6, .lit 8], .xor 5 4, .rotr 5 19]

/-- `decrypt`, threefish512.go:1312-1483. -/
def decrypt3 : List I := [
  .sub 4 [.reg 5, .par 3], .sub 5 [.par 4, .par 11], .xor 3 2, .rotr 3 36, .sub 2 [.reg 3, .par 1], .sub 3 [.par 2],
  .xor 1 0, .rotr 1 46, .sub 0 [.reg 1, .par 8], .sub 1 [.par 0], .xor 3 4, .rotr 3 22,
  .sub 4 [.reg 3], .xor 5 2, .rotr 5 56, .sub 2 [.reg 5], .xor 7 0, .rotr 7 35,
  .sub 0 [.reg 7], .xor 1 6, .rotr 1 8, .sub 6 [.reg 1], .xor 7 2, .rotr 7 43,
  .sub 2 [.reg 7], .xor 5 0, .rotr 5 39, .sub 0 [.reg 5], .xor 3 6, .rotr 3 29,
  .sub 6 [.reg 3], .xor 1 4, .rotr 1 25, .sub 4 [.reg 1], .xor 3 0, .rotr 3 17,
  .sub 0 [.reg 3], .xor 5 6, .rotr 5 10, .sub 6 [.reg 5], .xor 7 4, .rotr 7 50,
  .sub 4 [.reg 7], .xor 1 2, .rotr 1 13, .sub 2 [.reg 1], .xor 7 6, .rotr 7 24,
  .sub 6 [.reg 7, .par 4, .par 11], .sub 7 [.par 5, .lit 7], .xor 5 4, .rotr 5 34, .sub 4 [.reg 5, .par 2], .sub 5 [.par 3, .par 10],
  .xor 3 2, .rotr 3 30, .sub 2 [.reg 3, .par 0], .sub 3 [.par 1], .xor 1 0, .rotr 1 39,
  .sub 0 [.reg 1, .par 7], .sub 1 [.par 8], .xor 3 4, .rotr 3 56, .sub 4 [.reg 3], .xor 5 2,
  .rotr 5 54, .sub 2 [.reg 5], .xor 7 0, .rotr 7 9, .sub 0 [.reg 7], .xor 1 6,
  .rotr 1 44, .sub 6 [.reg 1], .xor 7 2, .rotr 7 39, .sub 2 [.reg 7], .xor 5 0,
  .rotr 5 36, .sub 0 [.reg 5], .xor 3 6, .rotr 3 49, .sub 6 [.reg 3], .xor 1 4,
  .rotr 1 17, .sub 4 [.reg 1], .xor 3 0, .rotr 3 42, .sub 0 [.reg 3], .xor 5 6,
  .rotr 5 14, .sub 6 [.reg 5], .xor 7 4, .rotr 7 27, .sub 4 [.reg 7], .xor 1 2,
  .rotr 1 33, .sub 2 [.reg 1], .xor 7 6, .rotr 7 37, .sub 6 [.reg 7, .par 3, .par 10], .sub 7 [.par 4, .lit 6],
  .xor 5 4, .rotr 5 19, .sub 4 [.reg 5, .par 1], .sub 5 [.par 2, .par 9], .xor 3 2, .rotr 3 36,
  .sub 2 [.reg 3, .par 8], .sub 3 [.par 0], .xor 1 0, .rotr 1 46, .sub 0 [.reg 1, .par 6], .sub 1 [.par 7],
  .xor 3 4, .rotr 3 22, .sub 4 [.reg 3], .xor 5 2, .rotr 5 56, .sub 2 [.reg 5],
  .xor 7 0, .rotr 7 35, .sub 0 [.reg 7], .xor 1 6, .rotr 1 8, .sub 6 [.reg 1],
  .xor 7 2, .rotr 7 43, .sub 2 [.reg 7], .xor 5 0, .rotr 5 39, .sub 0 [.reg 5],
  .xor 3 6, .rotr 3 29, .sub 6 [.reg 3], .xor 1 4, .rotr 1 25, .sub 4 [.reg 1],
  .xor 3 0, .rotr 3 17, .sub 0 [.reg 3], .xor 5 6, .rotr 5 10, .sub 6 [.reg 5],
  .xor 7 4, .rotr 7 50, .sub 4 [.reg 7], .xor 1 2, .rotr 1 13, .sub 2 [.reg 1],
  .xor 7 6, .rotr 7 24, .sub 6 [.reg 7, .par 2, .par 9], .sub 7 [.par 3, .lit 5], .xor 5 4, .rotr 5 34,
  .sub 4 [.reg 5, .par 0], .sub 5 [.par 1, .par 11], .xor 3 2, .rotr 3 30, .sub 2 [.reg 3, .par 7], .sub 3 [.par 8],
  .xor 1 0, .rotr 1 39, .sub 0 [.reg 1, .par 5], .sub 1 [.par 6], .xor 3 4, .rotr 3 56,
  .sub 4 [.reg 3], .xor 5 2, .rotr 5 54, .sub 2 [.reg 5]]

/-- `decrypt`, threefish512.go:1485-1657. -/
def decrypt4 : List I := [
  .xor 7 0, .rotr 7 9, .sub 0 [.reg 7], .xor 1 6, .rotr 1 44, .sub 6 [.reg 1],
  .xor 7 2, .rotr 7 39, .sub 2 [.reg 7], .xor 5 0, .rotr 5 36, .sub 0 [.reg 5],
  .xor 3 6, .rotr 3 49, .sub 6 [.reg 3], .xor 1 4, .rotr 1 17, .sub 4 [.reg 1],
  .xor 3 0, .rotr 3 42, .sub 0 [.reg 3], .xor 5 6, .rotr 5 14, .sub 6 [.reg 5],
  .xor 7 4, .rotr 7 27, .sub 4 [.reg 7], .xor 1 2, .rotr 1 33, .sub 2 [.reg 1],
  .xor 7 6, .rotr 7 37, .sub 6 [.reg 7, .par 1, .par 11], .sub 7 [.par 2, .lit 4], .xor 5 4, .rotr 5 19,
  .sub 4 [.reg 5, .par 8], .sub 5 [.par 0, .par 10], .xor 3 2, .rotr 3 36, .sub 2 [.reg 3, .par 6], .sub 3 [.par 7],
  .xor 1 0, .rotr 1 46, .sub 0 [.reg 1, .par 4], .sub 1 [.par 5], .xor 3 4, .rotr 3 22,
  .sub 4 [.reg 3], .xor 5 2, .rotr 5 56, .sub 2 [.reg 5], .xor 7 0, .rotr 7 35,
  .sub 0 [.reg 7], .xor 1 6, .rotr 1 8, .sub 6 [.reg 1], .xor 7 2, .rotr 7 43,
  .sub 2 [.reg 7], .xor 5 0, .rotr 5 39, .sub 0 [.reg 5], .xor 3 6, .rotr 3 29,
  .sub 6 [.reg 3], .xor 1 4, .rotr 1 25, .sub 4 [.reg 1], .xor 3 0, .rotr 3 17,
  .sub 0 [.reg 3], .xor 5 6, .rotr 5 10, .sub 6 [.reg 5], .xor 7 4, .rotr 7 50,
  .sub 4 [.reg 7], .xor 1 2, .rotr 1 13, .sub 2 [.reg 1], .xor 7 6, .rotr 7 24,
  .sub 6 [.reg 7, .par 0, .par 10], .sub 7 [.par 1, .lit 3], .xor 5 4, .rotr 5 34, .sub 4 [.reg 5, .par 7], .sub 5 [.par 8, .par 9],
  .xor 3 2, .rotr 3 30, .sub 2 [.reg 3, .par 5], .sub 3 [.par 6], .xor 1 0, .rotr 1 39,
  .sub 0 [.reg 1, .par 3], .sub 1 [.par 4], .xor 3 4, .rotr 3 56, .sub 4 [.reg 3], .xor 5 2,
  .rotr 5 54, .sub 2 [.reg 5], .xor 7 0, .rotr 7 9, .sub 0 [.reg 7], .xor 1 6,
  .rotr 1 44, .sub 6 [.reg 1], .xor 7 2, .rotr 7 39, .sub 2 [.reg 7], .xor 5 0,
  .rotr 5 36, .sub 0 [.reg 5], .xor 3 6, .rotr 3 49, .sub 6 [.reg 3], .xor 1 4,
  .rotr 1 17, .sub 4 [.reg 1], .xor 3 0, .rotr 3 42, .sub 0 [.reg 3], .xor 5 6,
  .rotr 5 14, .sub 6 [.reg 5], .xor 7 4, .rotr 7 27, .sub 4 [.reg 7], .xor 1 2,
  .rotr 1 33, .sub 2 [.reg 1], .xor 7 6, .rotr 7 37, .sub 6 [.reg 7, .par 8, .par 9], .sub 7 [.par 0, .lit 2],
  .xor 5 4, .rotr 5 19, .sub 4 [.reg 5, .par 6], .sub 5 [.par 7, .par 11], .xor 3 2, .rotr 3 36,
  .sub 2 [.reg 3, .par 4], .sub 3 [.par 5], .xor 1 0, .rotr 1 46, .sub 0 [.reg 1, .par 2], .sub 1 [.par 3],
  .xor 3 4, .rotr 3 22, .sub 4 [.reg 3], .xor 5 2, .rotr 5 56, .sub 2 [.reg 5],
  .xor 7 0, .rotr 7 35, .sub 0 [.reg 7], .xor 1 6, .rotr 1 8, .sub 6 [.reg 1],
  .xor 7 2, .rotr 7 43, .sub 2 [.reg 7], .xor 5 0, .rotr 5 39, .sub 0 [.reg 5],
  .xor 3 6, .rotr 3 29, .sub 6 [.reg 3], .xor 1 4, .rotr 1 25, .sub 4 [.reg 1]]

/-- `decrypt`, threefish512.go:1659-1737. -/
def decrypt5 : List I := [
  .xor 3 0, .rotr 3 17, .sub 0 [.reg 3], .xor 5 6, .rotr 5 10, .sub 6 [.reg 5],
  .xor 7 4, .rotr 7 50, .sub 4 [.reg 7], .xor 1 2, .rotr 1 13, .sub 2 [.reg 1],
  .xor 7 6, .rotr 7 24, .sub 6 [.reg 7, .par 7, .par 11], .sub 7 [.par 8, .lit 1], .xor 5 4, .rotr 5 34,
  .sub 4 [.reg 5, .par 5], .sub 5 [.par 6, .par 10], .xor 3 2, .rotr 3 30, .sub 2 [.reg 3, .par 3], .sub 3 [.par 4],
  .xor 1 0, .rotr 1 39, .sub 0 [.reg 1, .par 1], .sub 1 [.par 2], .xor 3 4, .rotr 3 56,
  .sub 4 [.reg 3], .xor 5 2, .rotr 5 54, .sub 2 [.reg 5], .xor 7 0, .rotr 7 9,
  .sub 0 [.reg 7], .xor 1 6, .rotr 1 44, .sub 6 [.reg 1], .xor 7 2, .rotr 7 39,
  .sub 2 [.reg 7], .xor 5 0, .rotr 5 36, .sub 0 [.reg 5], .xor 3 6, .rotr 3 49,
  .sub 6 [.reg 3], .xor 1 4, .rotr 1 17, .sub 4 [.reg 1], .xor 3 0, .rotr 3 42,
  .sub 0 [.reg 3], .xor 5 6, .rotr 5 14, .sub 6 [.reg 5], .xor 7 4, .rotr 7 27,
  .sub 4 [.reg 7], .xor 1 2, .rotr 1 33, .sub 2 [.reg 1], .xor 7 6, .rotr 7 37,
  .sub 6 [.reg 7, .par 6, .par 10], .sub 7 [.par 7], .xor 5 4, .rotr 5 19, .sub 4 [.reg 5, .par 4], .sub 5 [.par 5, .par 9],
  .xor 3 2, .rotr 3 36, .sub 2 [.reg 3, .par 2], .sub 3 [.par 3], .xor 1 0, .rotr 1 46,
  .sub 0 [.reg 1, .par 0], .sub 1 [.par 1]]

/-- The body of `decrypt`, threefish512.go:767-1747: the assignments between reading `input` and storing `output`. -/
def decrypt : List I := decrypt0 ++ decrypt1 ++ decrypt2 ++ decrypt3 ++ decrypt4 ++ decrypt5

end Verif.Gen.Threefish512
