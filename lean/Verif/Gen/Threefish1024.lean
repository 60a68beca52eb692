import Verif.Arx

/-! Generated by tools/gen_threefish.py from /repo/threefish/threefish1024.go: the unrolled bodies of `encrypt` and `decrypt`.
Register `i` is the local `b<i>`; parameter `j` is `k<j>` for `j <= 16`, and `t0`, `t1`, `t2` are parameters 17, 18, 19. -/

namespace Verif.Gen.Threefish1024
open Verif.Arx

abbrev I := Instr 16

/-- `encrypt`, threefish1024.go:125-244. -/
def encrypt0 : List I := [
  .add 1 [.par 1], .add 0 [.reg 1, .par 0], .rotl 1 24, .xor 1 0, .add 3 [.par 3], .add 2 [.reg 3, .par 2],
  .rotl 3 13, .xor 3 2, .add 5 [.par 5], .add 4 [.reg 5, .par 4], .rotl 5 8, .xor 5 4,
  .add 7 [.par 7], .add 6 [.reg 7, .par 6], .rotl 7 47, .xor 7 6, .add 9 [.par 9], .add 8 [.reg 9, .par 8],
  .rotl 9 8, .xor 9 8, .add 11 [.par 11], .add 10 [.reg 11, .par 10], .rotl 11 17, .xor 11 10,
  .add 13 [.par 13, .par 17], .add 12 [.reg 13, .par 12], .rotl 13 22, .xor 13 12, .add 15 [.par 15], .add 14 [.reg 15, .par 14, .par 18],
  .rotl 15 37, .xor 15 14, .add 0 [.reg 9], .rotl 9 38, .xor 9 0, .add 2 [.reg 13],
  .rotl 13 19, .xor 13 2, .add 6 [.reg 11], .rotl 11 10, .xor 11 6, .add 4 [.reg 15],
  .rotl 15 55, .xor 15 4, .add 10 [.reg 7], .rotl 7 49, .xor 7 10, .add 12 [.reg 3],
  .rotl 3 18, .xor 3 12, .add 14 [.reg 5], .rotl 5 23, .xor 5 14, .add 8 [.reg 1],
  .rotl 1 52, .xor 1 8, .add 0 [.reg 7], .rotl 7 33, .xor 7 0, .add 2 [.reg 5],
  .rotl 5 4, .xor 5 2, .add 4 [.reg 3], .rotl 3 51, .xor 3 4, .add 6 [.reg 1],
  .rotl 1 13, .xor 1 6, .add 12 [.reg 15], .rotl 15 34, .xor 15 12, .add 14 [.reg 13],
  .rotl 13 41, .xor 13 14, .add 8 [.reg 11], .rotl 11 59, .xor 11 8, .add 10 [.reg 9],
  .rotl 9 17, .xor 9 10, .add 0 [.reg 15], .rotl 15 5, .xor 15 0, .add 2 [.reg 11],
  .rotl 11 20, .xor 11 2, .add 6 [.reg 13], .rotl 13 48, .xor 13 6, .add 4 [.reg 9],
  .rotl 9 41, .xor 9 4, .add 14 [.reg 1], .rotl 1 47, .xor 1 14, .add 8 [.reg 5],
  .rotl 5 28, .xor 5 8, .add 10 [.reg 3], .rotl 3 16, .xor 3 10, .add 12 [.reg 7],
  .rotl 7 25, .xor 7 12, .add 1 [.par 2], .add 0 [.reg 1, .par 1], .rotl 1 41, .xor 1 0,
  .add 3 [.par 4], .add 2 [.reg 3, .par 3], .rotl 3 9, .xor 3 2, .add 5 [.par 6], .add 4 [.reg 5, .par 5],
  .rotl 5 37, .xor 5 4, .add 7 [.par 8], .add 6 [.reg 7, .par 7], .rotl 7 31, .xor 7 6,
  .add 9 [.par 10], .add 8 [.reg 9, .par 9], .rotl 9 12, .xor 9 8, .add 11 [.par 12], .add 10 [.reg 11, .par 11],
  .rotl 11 47, .xor 11 10, .add 13 [.par 14, .par 18], .add 12 [.reg 13, .par 13], .rotl 13 44, .xor 13 12,
  .add 15 [.par 16, .lit 1], .add 14 [.reg 15, .par 15, .par 19], .rotl 15 30, .xor 15 14, .add 0 [.reg 9], .rotl 9 16,
  .xor 9 0, .add 2 [.reg 13], .rotl 13 34, .xor 13 2, .add 6 [.reg 11], .rotl 11 56,
  .xor 11 6, .add 4 [.reg 15], .rotl 15 51, .xor 15 4, .add 10 [.reg 7], .rotl 7 4,
  .xor 7 10, .add 12 [.reg 3], .rotl 3 53, .xor 3 12, .add 14 [.reg 5], .rotl 5 42,
  .xor 5 14, .add 8 [.reg 1], .rotl 1 41, .xor 1 8, .add 0 [.reg 7], .rotl 7 31,
  .xor 7 0, .add 2 [.reg 5], .rotl 5 44, .xor 5 2, .add 4 [.reg 3], .rotl 3 47,
  .xor 3 4, .add 6 [.reg 1], .rotl 1 46, .xor 1 6]

/-- `encrypt`, threefish1024.go:245-364. -/
def encrypt1 : List I := [
  .add 12 [.reg 15], .rotl 15 19, .xor 15 12, .add 14 [.reg 13], .rotl 13 42, .xor 13 14,
  .add 8 [.reg 11], .rotl 11 44, .xor 11 8, .add 10 [.reg 9], .rotl 9 25, .xor 9 10,
  .add 0 [.reg 15], .rotl 15 9, .xor 15 0, .add 2 [.reg 11], .rotl 11 48, .xor 11 2,
  .add 6 [.reg 13], .rotl 13 35, .xor 13 6, .add 4 [.reg 9], .rotl 9 52, .xor 9 4,
  .add 14 [.reg 1], .rotl 1 23, .xor 1 14, .add 8 [.reg 5], .rotl 5 31, .xor 5 8,
  .add 10 [.reg 3], .rotl 3 37, .xor 3 10, .add 12 [.reg 7], .rotl 7 20, .xor 7 12,
  .add 1 [.par 3], .add 0 [.reg 1, .par 2], .rotl 1 24, .xor 1 0, .add 3 [.par 5], .add 2 [.reg 3, .par 4],
  .rotl 3 13, .xor 3 2, .add 5 [.par 7], .add 4 [.reg 5, .par 6], .rotl 5 8, .xor 5 4,
  .add 7 [.par 9], .add 6 [.reg 7, .par 8], .rotl 7 47, .xor 7 6, .add 9 [.par 11], .add 8 [.reg 9, .par 10],
  .rotl 9 8, .xor 9 8, .add 11 [.par 13], .add 10 [.reg 11, .par 12], .rotl 11 17, .xor 11 10,
  .add 13 [.par 15, .par 19], .add 12 [.reg 13, .par 14], .rotl 13 22, .xor 13 12, .add 15 [.par 0, .lit 2], .add 14 [.reg 15, .par 16, .par 17],
  .rotl 15 37, .xor 15 14, .add 0 [.reg 9], .rotl 9 38, .xor 9 0, .add 2 [.reg 13],
  .rotl 13 19, .xor 13 2, .add 6 [.reg 11], .rotl 11 10, .xor 11 6, .add 4 [.reg 15],
  .rotl 15 55, .xor 15 4, .add 10 [.reg 7], .rotl 7 49, .xor 7 10, .add 12 [.reg 3],
  .rotl 3 18, .xor 3 12, .add 14 [.reg 5], .rotl 5 23, .xor 5 14, .add 8 [.reg 1],
  .rotl 1 52, .xor 1 8, .add 0 [.reg 7], .rotl 7 33, .xor 7 0, .add 2 [.reg 5],
  .rotl 5 4, .xor 5 2, .add 4 [.reg 3], .rotl 3 51, .xor 3 4, .add 6 [.reg 1],
  .rotl 1 13, .xor 1 6, .add 12 [.reg 15], .rotl 15 34, .xor 15 12, .add 14 [.reg 13],
  .rotl 13 41, .xor 13 14, .add 8 [.reg 11], .rotl 11 59, .xor 11 8, .add 10 [.reg 9],
  .rotl 9 17, .xor 9 10, .add 0 [.reg 15], .rotl 15 5, .xor 15 0, .add 2 [.reg 11],
  .rotl 11 20, .xor 11 2, .add 6 [.reg 13], .rotl 13 48, .xor 13 6, .add 4 [.reg 9],
  .rotl 9 41, .xor 9 4, .add 14 [.reg 1], .rotl 1 47, .xor 1 14, .add 8 [.reg 5],
  .rotl 5 28, .xor 5 8, .add 10 [.reg 3], .rotl 3 16, .xor 3 10, .add 12 [.reg 7],
  .rotl 7 25, .xor 7 12, .add 1 [.par 4], .add 0 [.reg 1, .par 3], .rotl 1 41, .xor 1 0,
  .add 3 [.par 6], .add 2 [.reg 3, .par 5], .rotl 3 9, .xor 3 2, .add 5 [.par 8], .add 4 [.reg 5, .par 7],
  .rotl 5 37, .xor 5 4, .add 7 [.par 10], .add 6 [.reg 7, .par 9], .rotl 7 31, .xor 7 6,
  .add 9 [.par 12], .add 8 [.reg 9, .par 11], .rotl 9 12, .xor 9 8, .add 11 [.par 14], .add 10 [.reg 11, .par 13],
  .rotl 11 47, .xor 11 10, .add 13 [.par 16, .par 17], .add 12 [.reg 13, .par 15], .rotl 13 44, .xor 13 12,
  .add 15 [.par 1, .lit 3], .add 14 [.reg 15, .par 0, .par 18], .rotl 15 30, .xor 15 14]

/-- `encrypt`, threefish1024.go:365-484. -/
def encrypt2 : List I := [
  .add 0 [.reg 9], .rotl 9 16, .xor 9 0, .add 2 [.reg 13], .rotl 13 34, .xor 13 2,
  .add 6 [.reg 11], .rotl 11 56, .xor 11 6, .add 4 [.reg 15], .rotl 15 51, .xor 15 4,
  .add 10 [.reg 7], .rotl 7 4, .xor 7 10, .add 12 [.reg 3], .rotl 3 53, .xor 3 12,
  .add 14 [.reg 5], .rotl 5 42, .xor 5 14, .add 8 [.reg 1], .rotl 1 41, .xor 1 8,
  .add 0 [.reg 7], .rotl 7 31, .xor 7 0, .add 2 [.reg 5], .rotl 5 44, .xor 5 2,
  .add 4 [.reg 3], .rotl 3 47, .xor 3 4, .add 6 [.reg 1], .rotl 1 46, .xor 1 6,
  .add 12 [.reg 15], .rotl 15 19, .xor 15 12, .add 14 [.reg 13], .rotl 13 42, .xor 13 14,
  .add 8 [.reg 11], .rotl 11 44, .xor 11 8, .add 10 [.reg 9], .rotl 9 25, .xor 9 10,
  .add 0 [.reg 15], .rotl 15 9, .xor 15 0, .add 2 [.reg 11], .rotl 11 48, .xor 11 2,
  .add 6 [.reg 13], .rotl 13 35, .xor 13 6, .add 4 [.reg 9], .rotl 9 52, .xor 9 4,
  .add 14 [.reg 1], .rotl 1 23, .xor 1 14, .add 8 [.reg 5], .rotl 5 31, .xor 5 8,
  .add 10 [.reg 3], .rotl 3 37, .xor 3 10, .add 12 [.reg 7], .rotl 7 20, .xor 7 12,
  .add 1 [.par 5], .add 0 [.reg 1, .par 4], .rotl 1 24, .xor 1 0, .add 3 [.par 7], .add 2 [.reg 3, .par 6],
  .rotl 3 13, .xor 3 2, .add 5 [.par 9], .add 4 [.reg 5, .par 8], .rotl 5 8, .xor 5 4,
  .add 7 [.par 11], .add 6 [.reg 7, .par 10], .rotl 7 47, .xor 7 6, .add 9 [.par 13], .add 8 [.reg 9, .par 12],
  .rotl 9 8, .xor 9 8, .add 11 [.par 15], .add 10 [.reg 11, .par 14], .rotl 11 17, .xor 11 10,
  .add 13 [.par 0, .par 18], .add 12 [.reg 13, .par 16], .rotl 13 22, .xor 13 12, .add 15 [.par 2, .lit 4], .add 14 [.reg 15, .par 1, .par 19],
  .rotl 15 37, .xor 15 14, .add 0 [.reg 9], .rotl 9 38, .xor 9 0, .add 2 [.reg 13],
  .rotl 13 19, .xor 13 2, .add 6 [.reg 11], .rotl 11 10, .xor 11 6, .add 4 [.reg 15],
  .rotl 15 55, .xor 15 4, .add 10 [.reg 7], .rotl 7 49, .xor 7 10, .add 12 [.reg 3],
  .rotl 3 18, .xor 3 12, .add 14 [.reg 5], .rotl 5 23, .xor 5 14, .add 8 [.reg 1],
  .rotl 1 52, .xor 1 8, .add 0 [.reg 7], .rotl 7 33, .xor 7 0, .add 2 [.reg 5],
  .rotl 5 4, .xor 5 2, .add 4 [.reg 3], .rotl 3 51, .xor 3 4, .add 6 [.reg 1],
  .rotl 1 13, .xor 1 6, .add 12 [.reg 15], .rotl 15 34, .xor 15 12, .add 14 [.reg 13],
  .rotl 13 41, .xor 13 14, .add 8 [.reg 11], .rotl 11 59, .xor 11 8, .add 10 [.reg 9],
  .rotl 9 17, .xor 9 10, .add 0 [.reg 15], .rotl 15 5, .xor 15 0, .add 2 [.reg 11],
  .rotl 11 20, .xor 11 2, .add 6 [.reg 13], .rotl 13 48, .xor 13 6, .add 4 [.reg 9],
  .rotl 9 41, .xor 9 4, .add 14 [.reg 1], .rotl 1 47, .xor 1 14, .add 8 [.reg 5],
  .rotl 5 28, .xor 5 8, .add 10 [.reg 3], .rotl 3 16, .xor 3 10, .add 12 [.reg 7],
  .rotl 7 25, .xor 7 12]

/-- `encrypt`, threefish1024.go:485-604. -/
def encrypt3 : List I := [
  .add 1 [.par 6], .add 0 [.reg 1, .par 5], .rotl 1 41, .xor 1 0, .add 3 [.par 8], .add 2 [.reg 3, .par 7],
  .rotl 3 9, .xor 3 2, .add 5 [.par 10], .add 4 [.reg 5, .par 9], .rotl 5 37, .xor 5 4,
  .add 7 [.par 12], .add 6 [.reg 7, .par 11], .rotl 7 31, .xor 7 6, .add 9 [.par 14], .add 8 [.reg 9, .par 13],
  .rotl 9 12, .xor 9 8, .add 11 [.par 16], .add 10 [.reg 11, .par 15], .rotl 11 47, .xor 11 10,
  .add 13 [.par 1, .par 19], .add 12 [.reg 13, .par 0], .rotl 13 44, .xor 13 12, .add 15 [.par 3, .lit 5], .add 14 [.reg 15, .par 2, .par 17],
  .rotl 15 30, .xor 15 14, .add 0 [.reg 9], .rotl 9 16, .xor 9 0, .add 2 [.reg 13],
  .rotl 13 34, .xor 13 2, .add 6 [.reg 11], .rotl 11 56, .xor 11 6, .add 4 [.reg 15],
  .rotl 15 51, .xor 15 4, .add 10 [.reg 7], .rotl 7 4, .xor 7 10, .add 12 [.reg 3],
  .rotl 3 53, .xor 3 12, .add 14 [.reg 5], .rotl 5 42, .xor 5 14, .add 8 [.reg 1],
  .rotl 1 41, .xor 1 8, .add 0 [.reg 7], .rotl 7 31, .xor 7 0, .add 2 [.reg 5],
  .rotl 5 44, .xor 5 2, .add 4 [.reg 3], .rotl 3 47, .xor 3 4, .add 6 [.reg 1],
  .rotl 1 46, .xor 1 6, .add 12 [.reg 15], .rotl 15 19, .xor 15 12, .add 14 [.reg 13],
  .rotl 13 42, .xor 13 14, .add 8 [.reg 11], .rotl 11 44, .xor 11 8, .add 10 [.reg 9],
  .rotl 9 25, .xor 9 10, .add 0 [.reg 15], .rotl 15 9, .xor 15 0, .add 2 [.reg 11],
  .rotl 11 48, .xor 11 2, .add 6 [.reg 13], .rotl 13 35, .xor 13 6, .add 4 [.reg 9],
  .rotl 9 52, .xor 9 4, .add 14 [.reg 1], .rotl 1 23, .xor 1 14, .add 8 [.reg 5],
  .rotl 5 31, .xor 5 8, .add 10 [.reg 3], .rotl 3 37, .xor 3 10, .add 12 [.reg 7],
  .rotl 7 20, .xor 7 12, .add 1 [.par 7], .add 0 [.reg 1, .par 6], .rotl 1 24, .xor 1 0,
  .add 3 [.par 9], .add 2 [.reg 3, .par 8], .rotl 3 13, .xor 3 2, .add 5 [.par 11], .add 4 [.reg 5, .par 10],
  .rotl 5 8, .xor 5 4, .add 7 [.par 13], .add 6 [.reg 7, .par 12], .rotl 7 47, .xor 7 6,
  .add 9 [.par 15], .add 8 [.reg 9, .par 14], .rotl 9 8, .xor 9 8, .add 11 [.par 0], .add 10 [.reg 11, .par 16],
  .rotl 11 17, .xor 11 10, .add 13 [.par 2, .par 17], .add 12 [.reg 13, .par 1], .rotl 13 22, .xor 13 12,
  .add 15 [.par 4, .lit 6], .add 14 [.reg 15, .par 3, .par 18], .rotl 15 37, .xor 15 14, .add 0 [.reg 9], .rotl 9 38,
  .xor 9 0, .add 2 [.reg 13], .rotl 13 19, .xor 13 2, .add 6 [.reg 11], .rotl 11 10,
  .xor 11 6, .add 4 [.reg 15], .rotl 15 55, .xor 15 4, .add 10 [.reg 7], .rotl 7 49,
  .xor 7 10, .add 12 [.reg 3], .rotl 3 18, .xor 3 12, .add 14 [.reg 5], .rotl 5 23,
  .xor 5 14, .add 8 [.reg 1], .rotl 1 52, .xor 1 8, .add 0 [.reg 7], .rotl 7 33,
  .xor 7 0, .add 2 [.reg 5], .rotl 5 4, .xor 5 2, .add 4 [.reg 3], .rotl 3 51,
  .xor 3 4, .add 6 [.reg 1], .rotl 1 13, .xor 1 6]

/-- `encrypt`, threefish1024.go:605-724. -/
def encrypt4 : List I := [
  .add 12 [.reg 15], .rotl 15 34, .xor 15 12, .add 14 [.reg 13], .rotl 13 41, .xor 13 14,
  .add 8 [.reg 11], .rotl 11 59, .xor 11 8, .add 10 [.reg 9], .rotl 9 17, .xor 9 10,
  .add 0 [.reg 15], .rotl 15 5, .xor 15 0, .add 2 [.reg 11], .rotl 11 20, .xor 11 2,
  .add 6 [.reg 13], .rotl 13 48, .xor 13 6, .add 4 [.reg 9], .rotl 9 41, .xor 9 4,
  .add 14 [.reg 1], .rotl 1 47, .xor 1 14, .add 8 [.reg 5], .rotl 5 28, .xor 5 8,
  .add 10 [.reg 3], .rotl 3 16, .xor 3 10, .add 12 [.reg 7], .rotl 7 25, .xor 7 12,
  .add 1 [.par 8], .add 0 [.reg 1, .par 7], .rotl 1 41, .xor 1 0, .add 3 [.par 10], .add 2 [.reg 3, .par 9],
  .rotl 3 9, .xor 3 2, .add 5 [.par 12], .add 4 [.reg 5, .par 11], .rotl 5 37, .xor 5 4,
  .add 7 [.par 14], .add 6 [.reg 7, .par 13], .rotl 7 31, .xor 7 6, .add 9 [.par 16], .add 8 [.reg 9, .par 15],
  .rotl 9 12, .xor 9 8, .add 11 [.par 1], .add 10 [.reg 11, .par 0], .rotl 11 47, .xor 11 10,
  .add 13 [.par 3, .par 18], .add 12 [.reg 13, .par 2], .rotl 13 44, .xor 13 12, .add 15 [.par 5, .lit 7], .add 14 [.reg 15, .par 4, .par 19],
  .rotl 15 30, .xor 15 14, .add 0 [.reg 9], .rotl 9 16, .xor 9 0, .add 2 [.reg 13],
  .rotl 13 34, .xor 13 2, .add 6 [.reg 11], .rotl 11 56, .xor 11 6, .add 4 [.reg 15],
  .rotl 15 51, .xor 15 4, .add 10 [.reg 7], .rotl 7 4, .xor 7 10, .add 12 [.reg 3],
  .rotl 3 53, .xor 3 12, .add 14 [.reg 5], .rotl 5 42, .xor 5 14, .add 8 [.reg 1],
  .rotl 1 41, .xor 1 8, .add 0 [.reg 7], .rotl 7 31, .xor 7 0, .add 2 [.reg 5],
  .rotl 5 44, .xor 5 2, .add 4 [.reg 3], .rotl 3 47, .xor 3 4, .add 6 [.reg 1],
  .rotl 1 46, .xor 1 6, .add 12 [.reg 15], .rotl 15 19, .xor 15 12, .add 14 [.reg 13],
  .rotl 13 42, .xor 13 14, .add 8 [.reg 11], .rotl 11 44, .xor 11 8, .add 10 [.reg 9],
  .rotl 9 25, .xor 9 10, .add 0 [.reg 15], .rotl 15 9, .xor 15 0, .add 2 [.reg 11],
  .rotl 11 48, .xor 11 2, .add 6 [.reg 13], .rotl 13 35, .xor 13 6, .add 4 [.reg 9],
  .rotl 9 52, .xor 9 4, .add 14 [.reg 1], .rotl 1 23, .xor 1 14, .add 8 [.reg 5],
  .rotl 5 31, .xor 5 8, .add 10 [.reg 3], .rotl 3 37, .xor 3 10, .add 12 [.reg 7],
  .rotl 7 20, .xor 7 12, .add 1 [.par 9], .add 0 [.reg 1, .par 8], .rotl 1 24, .xor 1 0,
  .add 3 [.par 11], .add 2 [.reg 3, .par 10], .rotl 3 13, .xor 3 2, .add 5 [.par 13], .add 4 [.reg 5, .par 12],
  .rotl 5 8, .xor 5 4, .add 7 [.par 15], .add 6 [.reg 7, .par 14], .rotl 7 47, .xor 7 6,
  .add 9 [.par 0], .add 8 [.reg 9, .par 16], .rotl 9 8, .xor 9 8, .add 11 [.par 2], .add 10 [.reg 11, .par 1],
  .rotl 11 17, .xor 11 10, .add 13 [.par 4, .par 19], .add 12 [.reg 13, .par 3], .rotl 13 22, .xor 13 12,
  .add 15 [.par 6, .lit 8], .add 14 [.reg 15, .par 5, .par 17], .rotl 15 37, .xor 15 14]

/-- `encrypt`, threefish1024.go:725-844. -/
def encrypt5 : List I := [
  .add 0 [.reg 9], .rotl 9 38, .xor 9 0, .add 2 [.reg 13], .rotl 13 19, .xor 13 2,
  .add 6 [.reg 11], .rotl 11 10, .xor 11 6, .add 4 [.reg 15], .rotl 15 55, .xor 15 4,
  .add 10 [.reg 7], .rotl 7 49, .xor 7 10, .add 12 [.reg 3], .rotl 3 18, .xor 3 12,
  .add 14 [.reg 5], .rotl 5 23, .xor 5 14, .add 8 [.reg 1], .rotl 1 52, .xor 1 8,
  .add 0 [.reg 7], .rotl 7 33, .xor 7 0, .add 2 [.reg 5], .rotl 5 4, .xor 5 2,
  .add 4 [.reg 3], .rotl 3 51, .xor 3 4, .add 6 [.reg 1], .rotl 1 13, .xor 1 6,
  .add 12 [.reg 15], .rotl 15 34, .xor 15 12, .add 14 [.reg 13], .rotl 13 41, .xor 13 14,
  .add 8 [.reg 11], .rotl 11 59, .xor 11 8, .add 10 [.reg 9], .rotl 9 17, .xor 9 10,
  .add 0 [.reg 15], .rotl 15 5, .xor 15 0, .add 2 [.reg 11], .rotl 11 20, .xor 11 2,
  .add 6 [.reg 13], .rotl 13 48, .xor 13 6, .add 4 [.reg 9], .rotl 9 41, .xor 9 4,
  .add 14 [.reg 1], .rotl 1 47, .xor 1 14, .add 8 [.reg 5], .rotl 5 28, .xor 5 8,
  .add 10 [.reg 3], .rotl 3 16, .xor 3 10, .add 12 [.reg 7], .rotl 7 25, .xor 7 12,
  .add 1 [.par 10], .add 0 [.reg 1, .par 9], .rotl 1 41, .xor 1 0, .add 3 [.par 12], .add 2 [.reg 3, .par 11],
  .rotl 3 9, .xor 3 2, .add 5 [.par 14], .add 4 [.reg 5, .par 13], .rotl 5 37, .xor 5 4,
  .add 7 [.par 16], .add 6 [.reg 7, .par 15], .rotl 7 31, .xor 7 6, .add 9 [.par 1], .add 8 [.reg 9, .par 0],
  .rotl 9 12, .xor 9 8, .add 11 [.par 3], .add 10 [.reg 11, .par 2], .rotl 11 47, .xor 11 10,
  .add 13 [.par 5, .par 17], .add 12 [.reg 13, .par 4], .rotl 13 44, .xor 13 12, .add 15 [.par 7, .lit 9], .add 14 [.reg 15, .par 6, .par 18],
  .rotl 15 30, .xor 15 14, .add 0 [.reg 9], .rotl 9 16, .xor 9 0, .add 2 [.reg 13],
  .rotl 13 34, .xor 13 2, .add 6 [.reg 11], .rotl 11 56, .xor 11 6, .add 4 [.reg 15],
  .rotl 15 51, .xor 15 4, .add 10 [.reg 7], .rotl 7 4, .xor 7 10, .add 12 [.reg 3],
  .rotl 3 53, .xor 3 12, .add 14 [.reg 5], .rotl 5 42, .xor 5 14, .add 8 [.reg 1],
  .rotl 1 41, .xor 1 8, .add 0 [.reg 7], .rotl 7 31, .xor 7 0, .add 2 [.reg 5],
  .rotl 5 44, .xor 5 2, .add 4 [.reg 3], .rotl 3 47, .xor 3 4, .add 6 [.reg 1],
  .rotl 1 46, .xor 1 6, .add 12 [.reg 15], .rotl 15 19, .xor 15 12, .add 14 [.reg 13],
  .rotl 13 42, .xor 13 14, .add 8 [.reg 11], .rotl 11 44, .xor 11 8, .add 10 [.reg 9],
  .rotl 9 25, .xor 9 10, .add 0 [.reg 15], .rotl 15 9, .xor 15 0, .add 2 [.reg 11],
  .rotl 11 48, .xor 11 2, .add 6 [.reg 13], .rotl 13 35, .xor 13 6, .add 4 [.reg 9],
  .rotl 9 52, .xor 9 4, .add 14 [.reg 1], .rotl 1 23, .xor 1 14, .add 8 [.reg 5],
  .rotl 5 31, .xor 5 8, .add 10 [.reg 3], .rotl 3 37, .xor 3 10, .add 12 [.reg 7],
  .rotl 7 20, .xor 7 12]

/-- `encrypt`, threefish1024.go:845-964. -/
def encrypt6 : List I := [
  .add 1 [.par 11], .add 0 [.reg 1, .par 10], .rotl 1 24, .xor 1 0, .add 3 [.par 13], .add 2 [.reg 3, .par 12],
  .rotl 3 13, .xor 3 2, .add 5 [.par 15], .add 4 [.reg 5, .par 14], .rotl 5 8, .xor 5 4,
  .add 7 [.par 0], .add 6 [.reg 7, .par 16], .rotl 7 47, .xor 7 6, .add 9 [.par 2], .add 8 [.reg 9, .par 1],
  .rotl 9 8, .xor 9 8, .add 11 [.par 4], .add 10 [.reg 11, .par 3], .rotl 11 17, .xor 11 10,
  .add 13 [.par 6, .par 18], .add 12 [.reg 13, .par 5], .rotl 13 22, .xor 13 12, .add 15 [.par 8, .lit 10], .add 14 [.reg 15, .par 7, .par 19],
  .rotl 15 37, .xor 15 14, .add 0 [.reg 9], .rotl 9 38, .xor 9 0, .add 2 [.reg 13],
  .rotl 13 19, .xor 13 2, .add 6 [.reg 11], .rotl 11 10, .xor 11 6, .add 4 [.reg 15],
  .rotl 15 55, .xor 15 4, .add 10 [.reg 7], .rotl 7 49, .xor 7 10, .add 12 [.reg 3],
  .rotl 3 18, .xor 3 12, .add 14 [.reg 5], .rotl 5 23, .xor 5 14, .add 8 [.reg 1],
  .rotl 1 52, .xor 1 8, .add 0 [.reg 7], .rotl 7 33, .xor 7 0, .add 2 [.reg 5],
  .rotl 5 4, .xor 5 2, .add 4 [.reg 3], .rotl 3 51, .xor 3 4, .add 6 [.reg 1],
  .rotl 1 13, .xor 1 6, .add 12 [.reg 15], .rotl 15 34, .xor 15 12, .add 14 [.reg 13],
  .rotl 13 41, .xor 13 14, .add 8 [.reg 11], .rotl 11 59, .xor 11 8, .add 10 [.reg 9],
  .rotl 9 17, .xor 9 10, .add 0 [.reg 15], .rotl 15 5, .xor 15 0, .add 2 [.reg 11],
  .rotl 11 20, .xor 11 2, .add 6 [.reg 13], .rotl 13 48, .xor 13 6, .add 4 [.reg 9],
  .rotl 9 41, .xor 9 4, .add 14 [.reg 1], .rotl 1 47, .xor 1 14, .add 8 [.reg 5],
  .rotl 5 28, .xor 5 8, .add 10 [.reg 3], .rotl 3 16, .xor 3 10, .add 12 [.reg 7],
  .rotl 7 25, .xor 7 12, .add 1 [.par 12], .add 0 [.reg 1, .par 11], .rotl 1 41, .xor 1 0,
  .add 3 [.par 14], .add 2 [.reg 3, .par 13], .rotl 3 9, .xor 3 2, .add 5 [.par 16], .add 4 [.reg 5, .par 15],
  .rotl 5 37, .xor 5 4, .add 7 [.par 1], .add 6 [.reg 7, .par 0], .rotl 7 31, .xor 7 6,
  .add 9 [.par 3], .add 8 [.reg 9, .par 2], .rotl 9 12, .xor 9 8, .add 11 [.par 5], .add 10 [.reg 11, .par 4],
  .rotl 11 47, .xor 11 10, .add 13 [.par 7, .par 19], .add 12 [.reg 13, .par 6], .rotl 13 44, .xor 13 12,
  .add 15 [.par 9, .lit 11], .add 14 [.reg 15, .par 8, .par 17], .rotl 15 30, .xor 15 14, .add 0 [.reg 9], .rotl 9 16,
  .xor 9 0, .add 2 [.reg 13], .rotl 13 34, .xor 13 2, .add 6 [.reg 11], .rotl 11 56,
  .xor 11 6, .add 4 [.reg 15], .rotl 15 51, .xor 15 4, .add 10 [.reg 7], .rotl 7 4,
  .xor 7 10, .add 12 [.reg 3], .rotl 3 53, .xor 3 12, .add 14 [.reg 5], .rotl 5 42,
  .xor 5 14, .add 8 [.reg 1], .rotl 1 41, .xor 1 8, .add 0 [.reg 7], .rotl 7 31,
  .xor 7 0, .add 2 [.reg 5], .rotl 5 44, .xor 5 2, .add 4 [.reg 3], .rotl 3 47,
  .xor 3 4, .add 6 [.reg 1], .rotl 1 46, .xor 1 6]

/-- `encrypt`, threefish1024.go:965-1084. -/
def encrypt7 : List I := [
  .add 12 [.reg 15], .rotl 15 19, .xor 15 12, .add 14 [.reg 13], .rotl 13 42, .xor 13 14,
  .add 8 [.reg 11], .rotl 11 44, .xor 11 8, .add 10 [.reg 9], .rotl 9 25, .xor 9 10,
  .add 0 [.reg 15], .rotl 15 9, .xor 15 0, .add 2 [.reg 11], .rotl 11 48, .xor 11 2,
  .add 6 [.reg 13], .rotl 13 35, .xor 13 6, .add 4 [.reg 9], .rotl 9 52, .xor 9 4,
  .add 14 [.reg 1], .rotl 1 23, .xor 1 14, .add 8 [.reg 5], .rotl 5 31, .xor 5 8,
  .add 10 [.reg 3], .rotl 3 37, .xor 3 10, .add 12 [.reg 7], .rotl 7 20, .xor 7 12,
  .add 1 [.par 13], .add 0 [.reg 1, .par 12], .rotl 1 24, .xor 1 0, .add 3 [.par 15], .add 2 [.reg 3, .par 14],
  .rotl 3 13, .xor 3 2, .add 5 [.par 0], .add 4 [.reg 5, .par 16], .rotl 5 8, .xor 5 4,
  .add 7 [.par 2], .add 6 [.reg 7, .par 1], .rotl 7 47, .xor 7 6, .add 9 [.par 4], .add 8 [.reg 9, .par 3],
  .rotl 9 8, .xor 9 8, .add 11 [.par 6], .add 10 [.reg 11, .par 5], .rotl 11 17, .xor 11 10,
  .add 13 [.par 8, .par 17], .add 12 [.reg 13, .par 7], .rotl 13 22, .xor 13 12, .add 15 [.par 10, .lit 12], .add 14 [.reg 15, .par 9, .par 18],
  .rotl 15 37, .xor 15 14, .add 0 [.reg 9], .rotl 9 38, .xor 9 0, .add 2 [.reg 13],
  .rotl 13 19, .xor 13 2, .add 6 [.reg 11], .rotl 11 10, .xor 11 6, .add 4 [.reg 15],
  .rotl 15 55, .xor 15 4, .add 10 [.reg 7], .rotl 7 49, .xor 7 10, .add 12 [.reg 3],
  .rotl 3 18, .xor 3 12, .add 14 [.reg 5], .rotl 5 23, .xor 5 14, .add 8 [.reg 1],
  .rotl 1 52, .xor 1 8, .add 0 [.reg 7], .rotl 7 33, .xor 7 0, .add 2 [.reg 5],
  .rotl 5 4, .xor 5 2, .add 4 [.reg 3], .rotl 3 51, .xor 3 4, .add 6 [.reg 1],
  .rotl 1 13, .xor 1 6, .add 12 [.reg 15], .rotl 15 34, .xor 15 12, .add 14 [.reg 13],
  .rotl 13 41, .xor 13 14, .add 8 [.reg 11], .rotl 11 59, .xor 11 8, .add 10 [.reg 9],
  .rotl 9 17, .xor 9 10, .add 0 [.reg 15], .rotl 15 5, .xor 15 0, .add 2 [.reg 11],
  .rotl 11 20, .xor 11 2, .add 6 [.reg 13], .rotl 13 48, .xor 13 6, .add 4 [.reg 9],
  .rotl 9 41, .xor 9 4, .add 14 [.reg 1], .rotl 1 47, .xor 1 14, .add 8 [.reg 5],
  .rotl 5 28, .xor 5 8, .add 10 [.reg 3], .rotl 3 16, .xor 3 10, .add 12 [.reg 7],
  .rotl 7 25, .xor 7 12, .add 1 [.par 14], .add 0 [.reg 1, .par 13], .rotl 1 41, .xor 1 0,
  .add 3 [.par 16], .add 2 [.reg 3, .par 15], .rotl 3 9, .xor 3 2, .add 5 [.par 1], .add 4 [.reg 5, .par 0],
  .rotl 5 37, .xor 5 4, .add 7 [.par 3], .add 6 [.reg 7, .par 2], .rotl 7 31, .xor 7 6,
  .add 9 [.par 5], .add 8 [.reg 9, .par 4], .rotl 9 12, .xor 9 8, .add 11 [.par 7], .add 10 [.reg 11, .par 6],
  .rotl 11 47, .xor 11 10, .add 13 [.par 9, .par 18], .add 12 [.reg 13, .par 8], .rotl 13 44, .xor 13 12,
  .add 15 [.par 11, .lit 13], .add 14 [.reg 15, .par 10, .par 19], .rotl 15 30, .xor 15 14]

/-- `encrypt`, threefish1024.go:1085-1204. -/
def encrypt8 : List I := [
  .add 0 [.reg 9], .rotl 9 16, .xor 9 0, .add 2 [.reg 13], .rotl 13 34, .xor 13 2,
  .add 6 [.reg 11], .rotl 11 56, .xor 11 6, .add 4 [.reg 15], .rotl 15 51, .xor 15 4,
  .add 10 [.reg 7], .rotl 7 4, .xor 7 10, .add 12 [.reg 3], .rotl 3 53, .xor 3 12,
  .add 14 [.reg 5], .rotl 5 42, .xor 5 14, .add 8 [.reg 1], .rotl 1 41, .xor 1 8,
  .add 0 [.reg 7], .rotl 7 31, .xor 7 0, .add 2 [.reg 5], .rotl 5 44, .xor 5 2,
  .add 4 [.reg 3], .rotl 3 47, .xor 3 4, .add 6 [.reg 1], .rotl 1 46, .xor 1 6,
  .add 12 [.reg 15], .rotl 15 19, .xor 15 12, .add 14 [.reg 13], .rotl 13 42, .xor 13 14,
  .add 8 [.reg 11], .rotl 11 44, .xor 11 8, .add 10 [.reg 9], .rotl 9 25, .xor 9 10,
  .add 0 [.reg 15], .rotl 15 9, .xor 15 0, .add 2 [.reg 11], .rotl 11 48, .xor 11 2,
  .add 6 [.reg 13], .rotl 13 35, .xor 13 6, .add 4 [.reg 9], .rotl 9 52, .xor 9 4,
  .add 14 [.reg 1], .rotl 1 23, .xor 1 14, .add 8 [.reg 5], .rotl 5 31, .xor 5 8,
  .add 10 [.reg 3], .rotl 3 37, .xor 3 10, .add 12 [.reg 7], .rotl 7 20, .xor 7 12,
  .add 1 [.par 15], .add 0 [.reg 1, .par 14], .rotl 1 24, .xor 1 0, .add 3 [.par 0], .add 2 [.reg 3, .par 16],
  .rotl 3 13, .xor 3 2, .add 5 [.par 2], .add 4 [.reg 5, .par 1], .rotl 5 8, .xor 5 4,
  .add 7 [.par 4], .add 6 [.reg 7, .par 3], .rotl 7 47, .xor 7 6, .add 9 [.par 6], .add 8 [.reg 9, .par 5],
  .rotl 9 8, .xor 9 8, .add 11 [.par 8], .add 10 [.reg 11, .par 7], .rotl 11 17, .xor 11 10,
  .add 13 [.par 10, .par 19], .add 12 [.reg 13, .par 9], .rotl 13 22, .xor 13 12, .add 15 [.par 12, .lit 14], .add 14 [.reg 15, .par 11, .par 17],
  .rotl 15 37, .xor 15 14, .add 0 [.reg 9], .rotl 9 38, .xor 9 0, .add 2 [.reg 13],
  .rotl 13 19, .xor 13 2, .add 6 [.reg 11], .rotl 11 10, .xor 11 6, .add 4 [.reg 15],
  .rotl 15 55, .xor 15 4, .add 10 [.reg 7], .rotl 7 49, .xor 7 10, .add 12 [.reg 3],
  .rotl 3 18, .xor 3 12, .add 14 [.reg 5], .rotl 5 23, .xor 5 14, .add 8 [.reg 1],
  .rotl 1 52, .xor 1 8, .add 0 [.reg 7], .rotl 7 33, .xor 7 0, .add 2 [.reg 5],
  .rotl 5 4, .xor 5 2, .add 4 [.reg 3], .rotl 3 51, .xor 3 4, .add 6 [.reg 1],
  .rotl 1 13, .xor 1 6, .add 12 [.reg 15], .rotl 15 34, .xor 15 12, .add 14 [.reg 13],
  .rotl 13 41, .xor 13 14, .add 8 [.reg 11], .rotl 11 59, .xor 11 8, .add 10 [.reg 9],
  .rotl 9 17, .xor 9 10, .add 0 [.reg 15], .rotl 15 5, .xor 15 0, .add 2 [.reg 11],
  .rotl 11 20, .xor 11 2, .add 6 [.reg 13], .rotl 13 48, .xor 13 6, .add 4 [.reg 9],
  .rotl 9 41, .xor 9 4, .add 14 [.reg 1], .rotl 1 47, .xor 1 14, .add 8 [.reg 5],
  .rotl 5 28, .xor 5 8, .add 10 [.reg 3], .rotl 3 16, .xor 3 10, .add 12 [.reg 7],
  .rotl 7 25, .xor 7 12]

/-- `encrypt`, threefish1024.go:1205-1324. -/
def encrypt9 : List I := [
  .add 1 [.par 16], .add 0 [.reg 1, .par 15], .rotl 1 41, .xor 1 0, .add 3 [.par 1], .add 2 [.reg 3, .par 0],
  .rotl 3 9, .xor 3 2, .add 5 [.par 3], .add 4 [.reg 5, .par 2], .rotl 5 37, .xor 5 4,
  .add 7 [.par 5], .add 6 [.reg 7, .par 4], .rotl 7 31, .xor 7 6, .add 9 [.par 7], .add 8 [.reg 9, .par 6],
  .rotl 9 12, .xor 9 8, .add 11 [.par 9], .add 10 [.reg 11, .par 8], .rotl 11 47, .xor 11 10,
  .add 13 [.par 11, .par 17], .add 12 [.reg 13, .par 10], .rotl 13 44, .xor 13 12, .add 15 [.par 13, .lit 15], .add 14 [.reg 15, .par 12, .par 18],
  .rotl 15 30, .xor 15 14, .add 0 [.reg 9], .rotl 9 16, .xor 9 0, .add 2 [.reg 13],
  .rotl 13 34, .xor 13 2, .add 6 [.reg 11], .rotl 11 56, .xor 11 6, .add 4 [.reg 15],
  .rotl 15 51, .xor 15 4, .add 10 [.reg 7], .rotl 7 4, .xor 7 10, .add 12 [.reg 3],
  .rotl 3 53, .xor 3 12, .add 14 [.reg 5], .rotl 5 42, .xor 5 14, .add 8 [.reg 1],
  .rotl 1 41, .xor 1 8, .add 0 [.reg 7], .rotl 7 31, .xor 7 0, .add 2 [.reg 5],
  .rotl 5 44, .xor 5 2, .add 4 [.reg 3], .rotl 3 47, .xor 3 4, .add 6 [.reg 1],
  .rotl 1 46, .xor 1 6, .add 12 [.reg 15], .rotl 15 19, .xor 15 12, .add 14 [.reg 13],
  .rotl 13 42, .xor 13 14, .add 8 [.reg 11], .rotl 11 44, .xor 11 8, .add 10 [.reg 9],
  .rotl 9 25, .xor 9 10, .add 0 [.reg 15], .rotl 15 9, .xor 15 0, .add 2 [.reg 11],
  .rotl 11 48, .xor 11 2, .add 6 [.reg 13], .rotl 13 35, .xor 13 6, .add 4 [.reg 9],
  .rotl 9 52, .xor 9 4, .add 14 [.reg 1], .rotl 1 23, .xor 1 14, .add 8 [.reg 5],
  .rotl 5 31, .xor 5 8, .add 10 [.reg 3], .rotl 3 37, .xor 3 10, .add 12 [.reg 7],
  .rotl 7 20, .xor 7 12, .add 1 [.par 0], .add 0 [.reg 1, .par 16], .rotl 1 24, .xor 1 0,
  .add 3 [.par 2], .add 2 [.reg 3, .par 1], .rotl 3 13, .xor 3 2, .add 5 [.par 4], .add 4 [.reg 5, .par 3],
  .rotl 5 8, .xor 5 4, .add 7 [.par 6], .add 6 [.reg 7, .par 5], .rotl 7 47, .xor 7 6,
  .add 9 [.par 8], .add 8 [.reg 9, .par 7], .rotl 9 8, .xor 9 8, .add 11 [.par 10], .add 10 [.reg 11, .par 9],
  .rotl 11 17, .xor 11 10, .add 13 [.par 12, .par 18], .add 12 [.reg 13, .par 11], .rotl 13 22, .xor 13 12,
  .add 15 [.par 14, .lit 16], .add 14 [.reg 15, .par 13, .par 19], .rotl 15 37, .xor 15 14, .add 0 [.reg 9], .rotl 9 38,
  .xor 9 0, .add 2 [.reg 13], .rotl 13 19, .xor 13 2, .add 6 [.reg 11], .rotl 11 10,
  .xor 11 6, .add 4 [.reg 15], .rotl 15 55, .xor 15 4, .add 10 [.reg 7], .rotl 7 49,
  .xor 7 10, .add 12 [.reg 3], .rotl 3 18, .xor 3 12, .add 14 [.reg 5], .rotl 5 23,
  .xor 5 14, .add 8 [.reg 1], .rotl 1 52, .xor 1 8, .add 0 [.reg 7], .rotl 7 33,
  .xor 7 0, .add 2 [.reg 5], .rotl 5 4, .xor 5 2, .add 4 [.reg 3], .rotl 3 51,
  .xor 3 4, .add 6 [.reg 1], .rotl 1 13, .xor 1 6]

/-- `encrypt`, threefish1024.go:1325-1444. -/
def encrypt10 : List I := [
  .add 12 [.reg 15], .rotl 15 34, .xor 15 12, .add 14 [.reg 13], .rotl 13 41, .xor 13 14,
  .add 8 [.reg 11], .rotl 11 59, .xor 11 8, .add 10 [.reg 9], .rotl 9 17, .xor 9 10,
  .add 0 [.reg 15], .rotl 15 5, .xor 15 0, .add 2 [.reg 11], .rotl 11 20, .xor 11 2,
  .add 6 [.reg 13], .rotl 13 48, .xor 13 6, .add 4 [.reg 9], .rotl 9 41, .xor 9 4,
  .add 14 [.reg 1], .rotl 1 47, .xor 1 14, .add 8 [.reg 5], .rotl 5 28, .xor 5 8,
  .add 10 [.reg 3], .rotl 3 16, .xor 3 10, .add 12 [.reg 7], .rotl 7 25, .xor 7 12,
  .add 1 [.par 1], .add 0 [.reg 1, .par 0], .rotl 1 41, .xor 1 0, .add 3 [.par 3], .add 2 [.reg 3, .par 2],
  .rotl 3 9, .xor 3 2, .add 5 [.par 5], .add 4 [.reg 5, .par 4], .rotl 5 37, .xor 5 4,
  .add 7 [.par 7], .add 6 [.reg 7, .par 6], .rotl 7 31, .xor 7 6, .add 9 [.par 9], .add 8 [.reg 9, .par 8],
  .rotl 9 12, .xor 9 8, .add 11 [.par 11], .add 10 [.reg 11, .par 10], .rotl 11 47, .xor 11 10,
  .add 13 [.par 13, .par 19], .add 12 [.reg 13, .par 12], .rotl 13 44, .xor 13 12, .add 15 [.par 15, .lit 17], .add 14 [.reg 15, .par 14, .par 17],
  .rotl 15 30, .xor 15 14, .add 0 [.reg 9], .rotl 9 16, .xor 9 0, .add 2 [.reg 13],
  .rotl 13 34, .xor 13 2, .add 6 [.reg 11], .rotl 11 56, .xor 11 6, .add 4 [.reg 15],
  .rotl 15 51, .xor 15 4, .add 10 [.reg 7], .rotl 7 4, .xor 7 10, .add 12 [.reg 3],
  .rotl 3 53, .xor 3 12, .add 14 [.reg 5], .rotl 5 42, .xor 5 14, .add 8 [.reg 1],
  .rotl 1 41, .xor 1 8, .add 0 [.reg 7], .rotl 7 31, .xor 7 0, .add 2 [.reg 5],
  .rotl 5 44, .xor 5 2, .add 4 [.reg 3], .rotl 3 47, .xor 3 4, .add 6 [.reg 1],
  .rotl 1 46, .xor 1 6, .add 12 [.reg 15], .rotl 15 19, .xor 15 12, .add 14 [.reg 13],
  .rotl 13 42, .xor 13 14, .add 8 [.reg 11], .rotl 11 44, .xor 11 8, .add 10 [.reg 9],
  .rotl 9 25, .xor 9 10, .add 0 [.reg 15], .rotl 15 9, .xor 15 0, .add 2 [.reg 11],
  .rotl 11 48, .xor 11 2, .add 6 [.reg 13], .rotl 13 35, .xor 13 6, .add 4 [.reg 9],
  .rotl 9 52, .xor 9 4, .add 14 [.reg 1], .rotl 1 23, .xor 1 14, .add 8 [.reg 5],
  .rotl 5 31, .xor 5 8, .add 10 [.reg 3], .rotl 3 37, .xor 3 10, .add 12 [.reg 7],
  .rotl 7 20, .xor 7 12, .add 1 [.par 2], .add 0 [.reg 1, .par 1], .rotl 1 24, .xor 1 0,
  .add 3 [.par 4], .add 2 [.reg 3, .par 3], .rotl 3 13, .xor 3 2, .add 5 [.par 6], .add 4 [.reg 5, .par 5],
  .rotl 5 8, .xor 5 4, .add 7 [.par 8], .add 6 [.reg 7, .par 7], .rotl 7 47, .xor 7 6,
  .add 9 [.par 10], .add 8 [.reg 9, .par 9], .rotl 9 8, .xor 9 8, .add 11 [.par 12], .add 10 [.reg 11, .par 11],
  .rotl 11 17, .xor 11 10, .add 13 [.par 14, .par 17], .add 12 [.reg 13, .par 13], .rotl 13 22, .xor 13 12,
  .add 15 [.par 16, .lit 18], .add 14 [.reg 15, .par 15, .par 18], .rotl 15 37, .xor 15 14]

/-- `encrypt`, threefish1024.go:1445-1564. -/
def encrypt11 : List I := [
  .add 0 [.reg 9], .rotl 9 38, .xor 9 0, .add 2 [.reg 13], .rotl 13 19, .xor 13 2,
  .add 6 [.reg 11], .rotl 11 10, .xor 11 6, .add 4 [.reg 15], .rotl 15 55, .xor 15 4,
  .add 10 [.reg 7], .rotl 7 49, .xor 7 10, .add 12 [.reg 3], .rotl 3 18, .xor 3 12,
  .add 14 [.reg 5], .rotl 5 23, .xor 5 14, .add 8 [.reg 1], .rotl 1 52, .xor 1 8,
  .add 0 [.reg 7], .rotl 7 33, .xor 7 0, .add 2 [.reg 5], .rotl 5 4, .xor 5 2,
  .add 4 [.reg 3], .rotl 3 51, .xor 3 4, .add 6 [.reg 1], .rotl 1 13, .xor 1 6,
  .add 12 [.reg 15], .rotl 15 34, .xor 15 12, .add 14 [.reg 13], .rotl 13 41, .xor 13 14,
  .add 8 [.reg 11], .rotl 11 59, .xor 11 8, .add 10 [.reg 9], .rotl 9 17, .xor 9 10,
  .add 0 [.reg 15], .rotl 15 5, .xor 15 0, .add 2 [.reg 11], .rotl 11 20, .xor 11 2,
  .add 6 [.reg 13], .rotl 13 48, .xor 13 6, .add 4 [.reg 9], .rotl 9 41, .xor 9 4,
  .add 14 [.reg 1], .rotl 1 47, .xor 1 14, .add 8 [.reg 5], .rotl 5 28, .xor 5 8,
  .add 10 [.reg 3], .rotl 3 16, .xor 3 10, .add 12 [.reg 7], .rotl 7 25, .xor 7 12,
  .add 1 [.par 3], .add 0 [.reg 1, .par 2], .rotl 1 41, .xor 1 0, .add 3 [.par 5], .add 2 [.reg 3, .par 4],
  .rotl 3 9, .xor 3 2, .add 5 [.par 7], .add 4 [.reg 5, .par 6], .rotl 5 37, .xor 5 4,
  .add 7 [.par 9], .add 6 [.reg 7, .par 8], .rotl 7 31, .xor 7 6, .add 9 [.par 11], .add 8 [.reg 9, .par 10],
  .rotl 9 12, .xor 9 8, .add 11 [.par 13], .add 10 [.reg 11, .par 12], .rotl 11 47, .xor 11 10,
  .add 13 [.par 15, .par 18], .add 12 [.reg 13, .par 14], .rotl 13 44, .xor 13 12, .add 15 [.par 0, .lit 19], .add 14 [.reg 15, .par 16, .par 19],
  .rotl 15 30, .xor 15 14, .add 0 [.reg 9], .rotl 9 16, .xor 9 0, .add 2 [.reg 13],
  .rotl 13 34, .xor 13 2, .add 6 [.reg 11], .rotl 11 56, .xor 11 6, .add 4 [.reg 15],
  .rotl 15 51, .xor 15 4, .add 10 [.reg 7], .rotl 7 4, .xor 7 10, .add 12 [.reg 3],
  .rotl 3 53, .xor 3 12, .add 14 [.reg 5], .rotl 5 42, .xor 5 14, .add 8 [.reg 1],
  .rotl 1 41, .xor 1 8, .add 0 [.reg 7], .rotl 7 31, .xor 7 0, .add 2 [.reg 5],
  .rotl 5 44, .xor 5 2, .add 4 [.reg 3], .rotl 3 47, .xor 3 4, .add 6 [.reg 1],
  .rotl 1 46, .xor 1 6, .add 12 [.reg 15], .rotl 15 19, .xor 15 12, .add 14 [.reg 13],
  .rotl 13 42, .xor 13 14, .add 8 [.reg 11], .rotl 11 44, .xor 11 8, .add 10 [.reg 9],
  .rotl 9 25, .xor 9 10, .add 0 [.reg 15], .rotl 15 9, .xor 15 0, .add 2 [.reg 11],
  .rotl 11 48, .xor 11 2, .add 6 [.reg 13], .rotl 13 35, .xor 13 6, .add 4 [.reg 9],
  .rotl 9 52, .xor 9 4, .add 14 [.reg 1], .rotl 1 23, .xor 1 14, .add 8 [.reg 5],
  .rotl 5 31, .xor 5 8, .add 10 [.reg 3], .rotl 3 37, .xor 3 10, .add 12 [.reg 7],
  .rotl 7 20, .xor 7 12]

/-- `encrypt`, threefish1024.go:1566-1581. -/
def encrypt12 : List I := [
  .add 0 [.par 3], .add 1 [.par 4], .add 2 [.par 5], .add 3 [.par 6], .add 4 [.par 7], .add 5 [.par 8],
  .add 6 [.par 9], .add 7 [.par 10], .add 8 [.par 11], .add 9 [.par 12], .add 10 [.par 13], .add 11 [.par 14],
  .add 12 [.par 15], .add 13 [.par 16, .par 19], .add 14 [.par 0, .par 17], .add 15 [.par 1, .lit 20]]

/-- The body of `encrypt`, threefish1024.go:83-1582: the assignments between reading `input` and storing `output` (the sums stored into `output` are the last ones). -/
def encrypt : List I := encrypt0 ++ encrypt1 ++ encrypt2 ++ encrypt3 ++ encrypt4 ++ encrypt5 ++ encrypt6 ++ encrypt7 ++ encrypt8 ++ encrypt9 ++ encrypt10 ++ encrypt11 ++ encrypt12

/-- `decrypt`, threefish1024.go:1628-1795. -/
def decrypt0 : List I := [
  .sub 0 [.par 3], .sub 1 [.par 4], .sub 2 [.par 5], .sub 3 [.par 6], .sub 4 [.par 7], .sub 5 [.par 8],
  .sub 6 [.par 9], .sub 7 [.par 10], .sub 8 [.par 11], .sub 9 [.par 12], .sub 10 [.par 13], .sub 11 [.par 14],
  .sub 12 [.par 15], .sub 13 [.par 16, .par 19], .sub 14 [.par 0, .par 17], .sub 15 [.par 1, .lit 20], .xor 7 12, .rotr 7 20,
  .sub 12 [.reg 7], .xor 3 10, .rotr 3 37, .sub 10 [.reg 3], .xor 5 8, .rotr 5 31,
  .sub 8 [.reg 5], .xor 1 14, .rotr 1 23, .sub 14 [.reg 1], .xor 9 4, .rotr 9 52,
  .sub 4 [.reg 9], .xor 13 6, .rotr 13 35, .sub 6 [.reg 13], .xor 11 2, .rotr 11 48,
  .sub 2 [.reg 11], .xor 15 0, .rotr 15 9, .sub 0 [.reg 15], .xor 9 10, .rotr 9 25,
  .sub 10 [.reg 9], .xor 11 8, .rotr 11 44, .sub 8 [.reg 11], .xor 13 14, .rotr 13 42,
  .sub 14 [.reg 13], .xor 15 12, .rotr 15 19, .sub 12 [.reg 15], .xor 1 6, .rotr 1 46,
  .sub 6 [.reg 1], .xor 3 4, .rotr 3 47, .sub 4 [.reg 3], .xor 5 2, .rotr 5 44,
  .sub 2 [.reg 5], .xor 7 0, .rotr 7 31, .sub 0 [.reg 7], .xor 1 8, .rotr 1 41,
  .sub 8 [.reg 1], .xor 5 14, .rotr 5 42, .sub 14 [.reg 5], .xor 3 12, .rotr 3 53,
  .sub 12 [.reg 3], .xor 7 10, .rotr 7 4, .sub 10 [.reg 7], .xor 15 4, .rotr 15 51,
  .sub 4 [.reg 15], .xor 11 6, .rotr 11 56, .sub 6 [.reg 11], .xor 13 2, .rotr 13 34,
  .sub 2 [.reg 13], .xor 9 0, .rotr 9 16, .sub 0 [.reg 9], .xor 15 14, .rotr 15 30,
  .sub 14 [.reg 15, .par 16, .par 19], .sub 15 [.par 0, .lit 19], .xor 13 12, .rotr 13 44, .sub 12 [.reg 13, .par 14], .sub 13 [.par 15, .par 18],
  .xor 11 10, .rotr 11 47, .sub 10 [.reg 11, .par 12], .sub 11 [.par 13], .xor 9 8, .rotr 9 12,
  .sub 8 [.reg 9, .par 10], .sub 9 [.par 11], .xor 7 6, .rotr 7 31, .sub 6 [.reg 7, .par 8], .sub 7 [.par 9],
  .xor 5 4, .rotr 5 37, .sub 4 [.reg 5, .par 6], .sub 5 [.par 7], .xor 3 2, .rotr 3 9,
  .sub 2 [.reg 3, .par 4], .sub 3 [.par 5], .xor 1 0, .rotr 1 41, .sub 0 [.reg 1, .par 2], .sub 1 [.par 3],
  .xor 7 12, .rotr 7 25, .sub 12 [.reg 7], .xor 3 10, .rotr 3 16, .sub 10 [.reg 3],
  .xor 5 8, .rotr 5 28, .sub 8 [.reg 5], .xor 1 14, .rotr 1 47, .sub 14 [.reg 1],
  .xor 9 4, .rotr 9 41, .sub 4 [.reg 9], .xor 13 6, .rotr 13 48, .sub 6 [.reg 13],
  .xor 11 2, .rotr 11 20, .sub 2 [.reg 11], .xor 15 0, .rotr 15 5, .sub 0 [.reg 15],
  .xor 9 10, .rotr 9 17, .sub 10 [.reg 9], .xor 11 8, .rotr 11 59, .sub 8 [.reg 11],
  .xor 13 14, .rotr 13 41, .sub 14 [.reg 13], .xor 15 12, .rotr 15 34, .sub 12 [.reg 15],
  .xor 1 6, .rotr 1 13, .sub 6 [.reg 1], .xor 3 4, .rotr 3 51, .sub 4 [.reg 3],
  .xor 5 2, .rotr 5 4, .sub 2 [.reg 5], .xor 7 0, .rotr 7 33, .sub 0 [.reg 7]]

/-- `decrypt`, threefish1024.go:1797-1967. -/
def decrypt1 : List I := [
  .xor 1 8, .rotr 1 52, .sub 8 [.reg 1], .xor 5 14, .rotr 5 23, .sub 14 [.reg 5],
  .xor 3 12, .rotr 3 18, .sub 12 [.reg 3], .xor 7 10, .rotr 7 49, .sub 10 [.reg 7],
  .xor 15 4, .rotr 15 55, .sub 4 [.reg 15], .xor 11 6, .rotr 11 10, .sub 6 [.reg 11],
  .xor 13 2, .rotr 13 19, .sub 2 [.reg 13], .xor 9 0, .rotr 9 38, .sub 0 [.reg 9],
  .xor 15 14, .rotr 15 37, .sub 14 [.reg 15, .par 15, .par 18], .sub 15 [.par 16, .lit 18], .xor 13 12, .rotr 13 22,
  .sub 12 [.reg 13, .par 13], .sub 13 [.par 14, .par 17], .xor 11 10, .rotr 11 17, .sub 10 [.reg 11, .par 11], .sub 11 [.par 12],
  .xor 9 8, .rotr 9 8, .sub 8 [.reg 9, .par 9], .sub 9 [.par 10], .xor 7 6, .rotr 7 47,
  .sub 6 [.reg 7, .par 7], .sub 7 [.par 8], .xor 5 4, .rotr 5 8, .sub 4 [.reg 5, .par 5], .sub 5 [.par 6],
  .xor 3 2, .rotr 3 13, .sub 2 [.reg 3, .par 3], .sub 3 [.par 4], .xor 1 0, .rotr 1 24,
  .sub 0 [.reg 1, .par 1], .sub 1 [.par 2], .xor 7 12, .rotr 7 20, .sub 12 [.reg 7], .xor 3 10,
  .rotr 3 37, .sub 10 [.reg 3], .xor 5 8, .rotr 5 31, .sub 8 [.reg 5], .xor 1 14,
  .rotr 1 23, .sub 14 [.reg 1], .xor 9 4, .rotr 9 52, .sub 4 [.reg 9], .xor 13 6,
  .rotr 13 35, .sub 6 [.reg 13], .xor 11 2, .rotr 11 48, .sub 2 [.reg 11], .xor 15 0,
  .rotr 15 9, .sub 0 [.reg 15], .xor 9 10, .rotr 9 25, .sub 10 [.reg 9], .xor 11 8,
  .rotr 11 44, .sub 8 [.reg 11], .xor 13 14, .rotr 13 42, .sub 14 [.reg 13], .xor 15 12,
  .rotr 15 19, .sub 12 [.reg 15], .xor 1 6, .rotr 1 46, .sub 6 [.reg 1], .xor 3 4,
  .rotr 3 47, .sub 4 [.reg 3], .xor 5 2, .rotr 5 44, .sub 2 [.reg 5], .xor 7 0,
  .rotr 7 31, .sub 0 [.reg 7], .xor 1 8, .rotr 1 41, .sub 8 [.reg 1], .xor 5 14,
  .rotr 5 42, .sub 14 [.reg 5], .xor 3 12, .rotr 3 53, .sub 12 [.reg 3], .xor 7 10,
  .rotr 7 4, .sub 10 [.reg 7], .xor 15 4, .rotr 15 51, .sub 4 [.reg 15], .xor 11 6,
  .rotr 11 56, .sub 6 [.reg 11], .xor 13 2, .rotr 13 34, .sub 2 [.reg 13], .xor 9 0,
  .rotr 9 16, .sub 0 [.reg 9], .xor 15 14, .rotr 15 30, .sub 14 [.reg 15, .par 14, .par 17], .sub 15 [.par 15, .lit 17],
  .xor 13 12, .rotr 13 44, .sub 12 [.reg 13, .par 12], .sub 13 [.par 13, .par 19], .xor 11 10, .rotr 11 47,
  .sub 10 [.reg 11, .par 10], .sub 11 [.par 11], .xor 9 8, .rotr 9 12, .sub 8 [.reg 9, .par 8], .sub 9 [.par 9],
  .xor 7 6, .rotr 7 31, .sub 6 [.reg 7, .par 6], .sub 7 [.par 7], .xor 5 4, .rotr 5 37,
  .sub 4 [.reg 5, .par 4], .sub 5 [.par 5], .xor 3 2, .rotr 3 9, .sub 2 [.reg 3, .par 2], .sub 3 [.par 3],
  .xor 1 0, .rotr 1 41, .sub 0 [.reg 1, .par 0], .sub 1 [.par 1], .xor 7 12, .rotr 7 25,
  .sub 12 [.reg 7], .xor 3 10, .rotr 3 16, .sub 10 [.reg 3], .xor 5 8, .rotr 5 28,
  .sub 8 [.reg 5], .xor 1 14, .rotr 1 47, .sub 14 [.reg 1]]

/-- `decrypt`, threefish1024.go:1969-2142. -/
def decrypt2 : List I := [
  .xor 9 4, .rotr 9 41, .sub 4 [.reg 9], .xor 13 6, .rotr 13 48, .sub 6 [.reg 13],
  .xor 11 2, .rotr 11 20, .sub 2 [.reg 11], .xor 15 0, .rotr 15 5, .sub 0 [.reg 15],
  .xor 9 10, .rotr 9 17, .sub 10 [.reg 9], .xor 11 8, .rotr 11 59, .sub 8 [.reg 11],
  .xor 13 14, .rotr 13 41, .sub 14 [.reg 13], .xor 15 12, .rotr 15 34, .sub 12 [.reg 15],
  .xor 1 6, .rotr 1 13, .sub 6 [.reg 1], .xor 3 4, .rotr 3 51, .sub 4 [.reg 3],
  .xor 5 2, .rotr 5 4, .sub 2 [.reg 5], .xor 7 0, .rotr 7 33, .sub 0 [.reg 7],
  .xor 1 8, .rotr 1 52, .sub 8 [.reg 1], .xor 5 14, .rotr 5 23, .sub 14 [.reg 5],
  .xor 3 12, .rotr 3 18, .sub 12 [.reg 3], .xor 7 10, .rotr 7 49, .sub 10 [.reg 7],
  .xor 15 4, .rotr 15 55, .sub 4 [.reg 15], .xor 11 6, .rotr 11 10, .sub 6 [.reg 11],
  .xor 13 2, .rotr 13 19, .sub 2 [.reg 13], .xor 9 0, .rotr 9 38, .sub 0 [.reg 9],
  .xor 15 14, .rotr 15 37, .sub 14 [.reg 15, .par 13, .par 19], .sub 15 [.par 14, .lit 16], .xor 13 12, .rotr 13 22,
  .sub 12 [.reg 13, .par 11], .sub 13 [.par 12, .par 18], .xor 11 10, .rotr 11 17, .sub 10 [.reg 11, .par 9], .sub 11 [.par 10],
  .xor 9 8, .rotr 9 8, .sub 8 [.reg 9, .par 7], .sub 9 [.par 8], .xor 7 6, .rotr 7 47,
  .sub 6 [.reg 7, .par 5], .sub 7 [.par 6], .xor 5 4, .rotr 5 8, .sub 4 [.reg 5, .par 3], .sub 5 [.par 4],
  .xor 3 2, .rotr 3 13, .sub 2 [.reg 3, .par 1], .sub 3 [.par 2], .xor 1 0, .rotr 1 24,
  .sub 0 [.reg 1, .par 16], .sub 1 [.par 0], .xor 7 12, .rotr 7 20, .sub 12 [.reg 7], .xor 3 10,
  .rotr 3 37, .sub 10 [.reg 3], .xor 5 8, .rotr 5 31, .sub 8 [.reg 5], .xor 1 14,
  .rotr 1 23, .sub 14 [.reg 1], .xor 9 4, .rotr 9 52, .sub 4 [.reg 9], .xor 13 6,
  .rotr 13 35, .sub 6 [.reg 13], .xor 11 2, .rotr 11 48, .sub 2 [.reg 11], .xor 15 0,
  .rotr 15 9, .sub 0 [.reg 15], .xor 9 10, .rotr 9 25, .sub 10 [.reg 9], .xor 11 8,
  .rotr 11 44, .sub 8 [.reg 11], .xor 13 14, .rotr 13 42, .sub 14 [.reg 13], .xor 15 12,
  .rotr 15 19, .sub 12 [.reg 15], .xor 1 6, .rotr 1 46, .sub 6 [.reg 1], .xor 3 4,
  .rotr 3 47, .sub 4 [.reg 3], .xor 5 2, .rotr 5 44, .sub 2 [.reg 5], .xor 7 0,
  .rotr 7 31, .sub 0 [.reg 7], .xor 1 8, .rotr 1 41, .sub 8 [.reg 1], .xor 5 14,
  .rotr 5 42, .sub 14 [.reg 5], .xor 3 12, .rotr 3 53, .sub 12 [.reg 3], .xor 7 10,
  .rotr 7 4, .sub 10 [.reg 7], .xor 15 4, .rotr 15 51, .sub 4 [.reg 15], .xor 11 6,
  .rotr 11 56, .sub 6 [.reg 11], .xor 13 2, .rotr 13 34, .sub 2 [.reg 13], .xor 9 0,
  .rotr 9 16, .sub 0 [.reg 9], .xor 15 14, .rotr 15 30, .sub 14 [.reg 15, .par 12, .par 18], .sub 15 [.par 13, .lit 15],
  .xor 13 12, .rotr 13 44, .sub 12 [.reg 13, .par 10], .sub 13 [.par 11, .par 17], .xor 11 10, .rotr 11 47,
  .sub 10 [.reg 11, .par 8]]

/-- `decrypt`, threefish1024.go:2143-2315. -/
def decrypt3 : List I := [
  .sub 11 [.par 9], .xor 9 8, .rotr 9 12, .sub 8 [.reg 9, .par 6], .sub 9 [.par 7], .xor 7 6,
  .rotr 7 31, .sub 6 [.reg 7, .par 4], .sub 7 [.par 5], .xor 5 4, .rotr 5 37, .sub 4 [.reg 5, .par 2],
  .sub 5 [.par 3], .xor 3 2, .rotr 3 9, .sub 2 [.reg 3, .par 0], .sub 3 [.par 1], .xor 1 0,
  .rotr 1 41, .sub 0 [.reg 1, .par 15], .sub 1 [.par 16], .xor 7 12, .rotr 7 25, .sub 12 [.reg 7],
  .xor 3 10, .rotr 3 16, .sub 10 [.reg 3], .xor 5 8, .rotr 5 28, .sub 8 [.reg 5],
  .xor 1 14, .rotr 1 47, .sub 14 [.reg 1], .xor 9 4, .rotr 9 41, .sub 4 [.reg 9],
  .xor 13 6, .rotr 13 48, .sub 6 [.reg 13], .xor 11 2, .rotr 11 20, .sub 2 [.reg 11],
  .xor 15 0, .rotr 15 5, .sub 0 [.reg 15], .xor 9 10, .rotr 9 17, .sub 10 [.reg 9],
  .xor 11 8, .rotr 11 59, .sub 8 [.reg 11], .xor 13 14, .rotr 13 41, .sub 14 [.reg 13],
  .xor 15 12, .rotr 15 34, .sub 12 [.reg 15], .xor 1 6, .rotr 1 13, .sub 6 [.reg 1],
  .xor 3 4, .rotr 3 51, .sub 4 [.reg 3], .xor 5 2, .rotr 5 4, .sub 2 [.reg 5],
  .xor 7 0, .rotr 7 33, .sub 0 [.reg 7], .xor 1 8, .rotr 1 52, .sub 8 [.reg 1],
  .xor 5 14, .rotr 5 23, .sub 14 [.reg 5], .xor 3 12, .rotr 3 18, .sub 12 [.reg 3],
  .xor 7 10, .rotr 7 49, .sub 10 [.reg 7], .xor 15 4, .rotr 15 55, .sub 4 [.reg 15],
  .xor 11 6, .rotr 11 10, .sub 6 [.reg 11], .xor 13 2, .rotr 13 19, .sub 2 [.reg 13],
  .xor 9 0, .rotr 9 38, .sub 0 [.reg 9], .xor 15 14, .rotr 15 37, .sub 14 [.reg 15, .par 11, .par 17],
  .sub 15 [.par 12, .lit 14], .xor 13 12, .rotr 13 22, .sub 12 [.reg 13, .par 9], .sub 13 [.par 10, .par 19], .xor 11 10,
  .rotr 11 17, .sub 10 [.reg 11, .par 7], .sub 11 [.par 8], .xor 9 8, .rotr 9 8, .sub 8 [.reg 9, .par 5],
  .sub 9 [.par 6], .xor 7 6, .rotr 7 47, .sub 6 [.reg 7, .par 3], .sub 7 [.par 4], .xor 5 4,
  .rotr 5 8, .sub 4 [.reg 5, .par 1], .sub 5 [.par 2], .xor 3 2, .rotr 3 13, .sub 2 [.reg 3, .par 16],
  .sub 3 [.par 0], .xor 1 0, .rotr 1 24, .sub 0 [.reg 1, .par 14], .sub 1 [.par 15], .xor 7 12,
  .rotr 7 20, .sub 12 [.reg 7], .xor 3 10, .rotr 3 37, .sub 10 [.reg 3], .xor 5 8,
  .rotr 5 31, .sub 8 [.reg 5], .xor 1 14, .rotr 1 23, .sub 14 [.reg 1], .xor 9 4,
  .rotr 9 52, .sub 4 [.reg 9], .xor 13 6, .rotr 13 35, .sub 6 [.reg 13], .xor 11 2,
  .rotr 11 48, .sub 2 [.reg 11], .xor 15 0, .rotr 15 9, .sub 0 [.reg 15], .xor 9 10,
  .rotr 9 25, .sub 10 [.reg 9], .xor 11 8, .rotr 11 44, .sub 8 [.reg 11], .xor 13 14,
  .rotr 13 42, .sub 14 [.reg 13], .xor 15 12, .rotr 15 19, .sub 12 [.reg 15], .xor 1 6,
  .rotr 1 46, .sub 6 [.reg 1], .xor 3 4, .rotr 3 47, .sub 4 [.reg 3], .xor 5 2,
  .rotr 5 44, .sub 2 [.reg 5], .xor 7 0, .rotr 7 31, .sub 0 [.reg 7]]

/-- `decrypt`, threefish1024.go:2317-2487. -/
def decrypt4 : List I := [
  .xor 1 8, .rotr 1 41, .sub 8 [.reg 1], .xor 5 14, .rotr 5 42, .sub 14 [.reg 5],
  .xor 3 12, .rotr 3 53, .sub 12 [.reg 3], .xor 7 10, .rotr 7 4, .sub 10 [.reg 7],
  .xor 15 4, .rotr 15 51, .sub 4 [.reg 15], .xor 11 6, .rotr 11 56, .sub 6 [.reg 11],
  .xor 13 2, .rotr 13 34, .sub 2 [.reg 13], .xor 9 0, .rotr 9 16, .sub 0 [.reg 9],
  .xor 15 14, .rotr 15 30, .sub 14 [.reg 15, .par 10, .par 19], .sub 15 [.par 11, .lit 13], .xor 13 12, .rotr 13 44,
  .sub 12 [.reg 13, .par 8], .sub 13 [.par 9, .par 18], .xor 11 10, .rotr 11 47, .sub 10 [.reg 11, .par 6], .sub 11 [.par 7],
  .xor 9 8, .rotr 9 12, .sub 8 [.reg 9, .par 4], .sub 9 [.par 5], .xor 7 6, .rotr 7 31,
  .sub 6 [.reg 7, .par 2], .sub 7 [.par 3], .xor 5 4, .rotr 5 37, .sub 4 [.reg 5, .par 0], .sub 5 [.par 1],
  .xor 3 2, .rotr 3 9, .sub 2 [.reg 3, .par 15], .sub 3 [.par 16], .xor 1 0, .rotr 1 41,
  .sub 0 [.reg 1, .par 13], .sub 1 [.par 14], .xor 7 12, .rotr 7 25, .sub 12 [.reg 7], .xor 3 10,
  .rotr 3 16, .sub 10 [.reg 3], .xor 5 8, .rotr 5 28, .sub 8 [.reg 5], .xor 1 14,
  .rotr 1 47, .sub 14 [.reg 1], .xor 9 4, .rotr 9 41, .sub 4 [.reg 9], .xor 13 6,
  .rotr 13 48, .sub 6 [.reg 13], .xor 11 2, .rotr 11 20, .sub 2 [.reg 11], .xor 15 0,
  .rotr 15 5, .sub 0 [.reg 15], .xor 9 10, .rotr 9 17, .sub 10 [.reg 9], .xor 11 8,
  .rotr 11 59, .sub 8 [.reg 11], .xor 13 14, .rotr 13 41, .sub 14 [.reg 13], .xor 15 12,
  .rotr 15 34, .sub 12 [.reg 15], .xor 1 6, .rotr 1 13, .sub 6 [.reg 1], .xor 3 4,
  .rotr 3 51, .sub 4 [.reg 3], .xor 5 2, .rotr 5 4, .sub 2 [.reg 5], .xor 7 0,
  .rotr 7 33, .sub 0 [.reg 7], .xor 1 8, .rotr 1 52, .sub 8 [.reg 1], .xor 5 14,
  .rotr 5 23, .sub 14 [.reg 5], .xor 3 12, .rotr 3 18, .sub 12 [.reg 3], .xor 7 10,
  .rotr 7 49, .sub 10 [.reg 7], .xor 15 4, .rotr 15 55, .sub 4 [.reg 15], .xor 11 6,
  .rotr 11 10, .sub 6 [.reg 11], .xor 13 2, .rotr 13 19, .sub 2 [.reg 13], .xor 9 0,
  .rotr 9 38, .sub 0 [.reg 9], .xor 15 14, .rotr 15 37, .sub 14 [.reg 15, .par 9, .par 18], .sub 15 [.par 10, .lit 12],
  .xor 13 12, .rotr 13 22, .sub 12 [.reg 13, .par 7], .sub 13 [.par 8, .par 17], .xor 11 10, .rotr 11 17,
  .sub 10 [.reg 11, .par 5], .sub 11 [.par 6], .xor 9 8, .rotr 9 8, .sub 8 [.reg 9, .par 3], .sub 9 [.par 4],
  .xor 7 6, .rotr 7 47, .sub 6 [.reg 7, .par 1], .sub 7 [.par 2], .xor 5 4, .rotr 5 8,
  .sub 4 [.reg 5, .par 16], .sub 5 [.par 0], .xor 3 2, .rotr 3 13, .sub 2 [.reg 3, .par 14], .sub 3 [.par 15],
  .xor 1 0, .rotr 1 24, .sub 0 [.reg 1, .par 12], .sub 1 [.par 13], .xor 7 12, .rotr 7 20,
  .sub 12 [.reg 7], .xor 3 10, .rotr 3 37, .sub 10 [.reg 3], .xor 5 8, .rotr 5 31,
  .sub 8 [.reg 5], .xor 1 14, .rotr 1 23, .sub 14 [.reg 1]]

/-- `decrypt`, threefish1024.go:2489-2662. -/
def decrypt5 : List I := [
  .xor 9 4, .rotr 9 52, .sub 4 [.reg 9], .xor 13 6, .rotr 13 35, .sub 6 [.reg 13],
  .xor 11 2, .rotr 11 48, .sub 2 [.reg 11], .xor 15 0, .rotr 15 9, .sub 0 [.reg 15],
  .xor 9 10, .rotr 9 25, .sub 10 [.reg 9], .xor 11 8, .rotr 11 44, .sub 8 [.reg 11],
  .xor 13 14, .rotr 13 42, .sub 14 [.reg 13], .xor 15 12, .rotr 15 19, .sub 12 [.reg 15],
  .xor 1 6, .rotr 1 46, .sub 6 [.reg 1], .xor 3 4, .rotr 3 47, .sub 4 [.reg 3],
  .xor 5 2, .rotr 5 44, .sub 2 [.reg 5], .xor 7 0, .rotr 7 31, .sub 0 [.reg 7],
  .xor 1 8, .rotr 1 41, .sub 8 [.reg 1], .xor 5 14, .rotr 5 42, .sub 14 [.reg 5],
  .xor 3 12, .rotr 3 53, .sub 12 [.reg 3], .xor 7 10, .rotr 7 4, .sub 10 [.reg 7],
  .xor 15 4, .rotr 15 51, .sub 4 [.reg 15], .xor 11 6, .rotr 11 56, .sub 6 [.reg 11],
  .xor 13 2, .rotr 13 34, .sub 2 [.reg 13], .xor 9 0, .rotr 9 16, .sub 0 [.reg 9],
  .xor 15 14, .rotr 15 30, .sub 14 [.reg 15, .par 8, .par 17], .sub 15 [.par 9, .lit 11], .xor 13 12, .rotr 13 44,
  .sub 12 [.reg 13, .par 6], .sub 13 [.par 7, .par 19], .xor 11 10, .rotr 11 47, .sub 10 [.reg 11, .par 4], .sub 11 [.par 5],
  .xor 9 8, .rotr 9 12, .sub 8 [.reg 9, .par 2], .sub 9 [.par 3], .xor 7 6, .rotr 7 31,
  .sub 6 [.reg 7, .par 0], .sub 7 [.par 1], .xor 5 4, .rotr 5 37, .sub 4 [.reg 5, .par 15], .sub 5 [.par 16],
  .xor 3 2, .rotr 3 9, .sub 2 [.reg 3, .par 13], .sub 3 [.par 14], .xor 1 0, .rotr 1 41,
  .sub 0 [.reg 1, .par 11], .sub 1 [.par 12], .xor 7 12, .rotr 7 25, .sub 12 [.reg 7], .xor 3 10,
  .rotr 3 16, .sub 10 [.reg 3], .xor 5 8, .rotr 5 28, .sub 8 [.reg 5], .xor 1 14,
  .rotr 1 47, .sub 14 [.reg 1], .xor 9 4, .rotr 9 41, .sub 4 [.reg 9], .xor 13 6,
  .rotr 13 48, .sub 6 [.reg 13], .xor 11 2, .rotr 11 20, .sub 2 [.reg 11], .xor 15 0,
  .rotr 15 5, .sub 0 [.reg 15], .xor 9 10, .rotr 9 17, .sub 10 [.reg 9], .xor 11 8,
  .rotr 11 59, .sub 8 [.reg 11], .xor 13 14, .rotr 13 41, .sub 14 [.reg 13], .xor 15 12,
  .rotr 15 34, .sub 12 [.reg 15], .xor 1 6, .rotr 1 13, .sub 6 [.reg 1], .xor 3 4,
  .rotr 3 51, .sub 4 [.reg 3], .xor 5 2, .rotr 5 4, .sub 2 [.reg 5], .xor 7 0,
  .rotr 7 33, .sub 0 [.reg 7], .xor 1 8, .rotr 1 52, .sub 8 [.reg 1], .xor 5 14,
  .rotr 5 23, .sub 14 [.reg 5], .xor 3 12, .rotr 3 18, .sub 12 [.reg 3], .xor 7 10,
  .rotr 7 49, .sub 10 [.reg 7], .xor 15 4, .rotr 15 55, .sub 4 [.reg 15], .xor 11 6,
  .rotr 11 10, .sub 6 [.reg 11], .xor 13 2, .rotr 13 19, .sub 2 [.reg 13], .xor 9 0,
  .rotr 9 38, .sub 0 [.reg 9], .xor 15 14, .rotr 15 37, .sub 14 [.reg 15, .par 7, .par 19], .sub 15 [.par 8, .lit 10],
  .xor 13 12, .rotr 13 22, .sub 12 [.reg 13, .par 5], .sub 13 [.par 6, .par 18], .xor 11 10, .rotr 11 17,
  .sub 10 [.reg 11, .par 3]]

/-- `decrypt`, threefish1024.go:2663-2835. -/
def decrypt6 : List I := [
  .sub 11 [.par 4], .xor 9 8, .rotr 9 8, .sub 8 [.reg 9, .par 1], .sub 9 [.par 2], .xor 7 6,
  .rotr 7 47, .sub 6 [.reg 7, .par 16], .sub 7 [.par 0], .xor 5 4, .rotr 5 8, .sub 4 [.reg 5, .par 14],
  .sub 5 [.par 15], .xor 3 2, .rotr 3 13, .sub 2 [.reg 3, .par 12], .sub 3 [.par 13], .xor 1 0,
  .rotr 1 24, .sub 0 [.reg 1, .par 10], .sub 1 [.par 11], .xor 7 12, .rotr 7 20, .sub 12 [.reg 7],
  .xor 3 10, .rotr 3 37, .sub 10 [.reg 3], .xor 5 8, .rotr 5 31, .sub 8 [.reg 5],
  .xor 1 14, .rotr 1 23, .sub 14 [.reg 1], .xor 9 4, .rotr 9 52, .sub 4 [.reg 9],
  .xor 13 6, .rotr 13 35, .sub 6 [.reg 13], .xor 11 2, .rotr 11 48, .sub 2 [.reg 11],
  .xor 15 0, .rotr 15 9, .sub 0 [.reg 15], .xor 9 10, .rotr 9 25, .sub 10 [.reg 9],
  .xor 11 8, .rotr 11 44, .sub 8 [.reg 11], .xor 13 14, .rotr 13 42, .sub 14 [.reg 13],
  .xor 15 12, .rotr 15 19, .sub 12 [.reg 15], .xor 1 6, .rotr 1 46, .sub 6 [.reg 1],
  .xor 3 4, .rotr 3 47, .sub 4 [.reg 3], .xor 5 2, .rotr 5 44, .sub 2 [.reg 5],
  .xor 7 0, .rotr 7 31, .sub 0 [.reg 7], .xor 1 8, .rotr 1 41, .sub 8 [.reg 1],
  .xor 5 14, .rotr 5 42, .sub 14 [.reg 5], .xor 3 12, .rotr 3 53, .sub 12 [.reg 3],
  .xor 7 10, .rotr 7 4, .sub 10 [.reg 7], .xor 15 4, .rotr 15 51, .sub 4 [.reg 15],
  .xor 11 6, .rotr 11 56, .sub 6 [.reg 11], .xor 13 2, .rotr 13 34, .sub 2 [.reg 13],
  .xor 9 0, .rotr 9 16, .sub 0 [.reg 9], .xor 15 14, .rotr 15 30, .sub 14 [.reg 15, .par 6, .par 18],
  .sub 15 [.par 7, .lit 9], .xor 13 12, .rotr 13 44, .sub 12 [.reg 13, .par 4], .sub 13 [.par 5, .par 17], .xor 11 10,
  .rotr 11 47, .sub 10 [.reg 11, .par 2], .sub 11 [.par 3], .xor 9 8, .rotr 9 12, .sub 8 [.reg 9, .par 0],
  .sub 9 [.par 1], .xor 7 6, .rotr 7 31, .sub 6 [.reg 7, .par 15], .sub 7 [.par 16], .xor 5 4,
  .rotr 5 37, .sub 4 [.reg 5, .par 13], .sub 5 [.par 14], .xor 3 2, .rotr 3 9, .sub 2 [.reg 3, .par 11],
  .sub 3 [.par 12], .xor 1 0, .rotr 1 41, .sub 0 [.reg 1, .par 9], .sub 1 [.par 10], .xor 7 12,
  .rotr 7 25, .sub 12 [.reg 7], .xor 3 10, .rotr 3 16, .sub 10 [.reg 3], .xor 5 8,
  .rotr 5 28, .sub 8 [.reg 5], .xor 1 14, .rotr 1 47, .sub 14 [.reg 1], .xor 9 4,
  .rotr 9 41, .sub 4 [.reg 9], .xor 13 6, .rotr 13 48, .sub 6 [.reg 13], .xor 11 2,
  .rotr 11 20, .sub 2 [.reg 11], .xor 15 0, .rotr 15 5, .sub 0 [.reg 15], .xor 9 10,
  .rotr 9 17, .sub 10 [.reg 9], .xor 11 8, .rotr 11 59, .sub 8 [.reg 11], .xor 13 14,
  .rotr 13 41, .sub 14 [.reg 13], .xor 15 12, .rotr 15 34, .sub 12 [.reg 15], .xor 1 6,
  .rotr 1 13, .sub 6 [.reg 1], .xor 3 4, .rotr 3 51, .sub 4 [.reg 3], .xor 5 2,
  .rotr 5 4, .sub 2 [.reg 5], .xor 7 0, .rotr 7 33, .sub 0 [.reg 7]]

/-- `decrypt`, threefish1024.go:2837-3007. -/
def decrypt7 : List I := [
  .xor 1 8, .rotr 1 52, .sub 8 [.reg 1], .xor 5 14, .rotr 5 23, .sub 14 [.reg 5],
  .xor 3 12, .rotr 3 18, .sub 12 [.reg 3], .xor 7 10, .rotr 7 49, .sub 10 [.reg 7],
  .xor 15 4, .rotr 15 55, .sub 4 [.reg 15], .xor 11 6, .rotr 11 10, .sub 6 [.reg 11],
  .xor 13 2, .rotr 13 19, .sub 2 [.reg 13], .xor 9 0, .rotr 9 38, .sub 0 [.reg 9],
  .xor 15 14, .rotr 15 37, .sub 14 [.reg 15, .par 5, .par 17], .sub 15 [.par 6, .lit 8], .xor 13 12, .rotr 13 22,
  .sub 12 [.reg 13, .par 3], .sub 13 [.par 4, .par 19], .xor 11 10, .rotr 11 17, .sub 10 [.reg 11, .par 1], .sub 11 [.par 2],
  .xor 9 8, .rotr 9 8, .sub 8 [.reg 9, .par 16], .sub 9 [.par 0], .xor 7 6, .rotr 7 47,
  .sub 6 [.reg 7, .par 14], .sub 7 [.par 15], .xor 5 4, .rotr 5 8, .sub 4 [.reg 5, .par 12], .sub 5 [.par 13],
  .xor 3 2, .rotr 3 13, .sub 2 [.reg 3, .par 10], .sub 3 [.par 11], .xor 1 0, .rotr 1 24,
  .sub 0 [.reg 1, .par 8], .sub 1 [.par 9], .xor 7 12, .rotr 7 20, .sub 12 [.reg 7], .xor 3 10,
  .rotr 3 37, .sub 10 [.reg 3], .xor 5 8, .rotr 5 31, .sub 8 [.reg 5], .xor 1 14,
  .rotr 1 23, .sub 14 [.reg 1], .xor 9 4, .rotr 9 52, .sub 4 [.reg 9], .xor 13 6,
  .rotr 13 35, .sub 6 [.reg 13], .xor 11 2, .rotr 11 48, .sub 2 [.reg 11], .xor 15 0,
  .rotr 15 9, .sub 0 [.reg 15], .xor 9 10, .rotr 9 25, .sub 10 [.reg 9], .xor 11 8,
  .rotr 11 44, .sub 8 [.reg 11], .xor 13 14, .rotr 13 42, .sub 14 [.reg 13], .xor 15 12,
  .rotr 15 19, .sub 12 [.reg 15], .xor 1 6, .rotr 1 46, .sub 6 [.reg 1], .xor 3 4,
  .rotr 3 47, .sub 4 [.reg 3], .xor 5 2, .rotr 5 44, .sub 2 [.reg 5], .xor 7 0,
  .rotr 7 31, .sub 0 [.reg 7], .xor 1 8, .rotr 1 41, .sub 8 [.reg 1], .xor 5 14,
  .rotr 5 42, .sub 14 [.reg 5], .xor 3 12, .rotr 3 53, .sub 12 [.reg 3], .xor 7 10,
  .rotr 7 4, .sub 10 [.reg 7], .xor 15 4, .rotr 15 51, .sub 4 [.reg 15], .xor 11 6,
  .rotr 11 56, .sub 6 [.reg 11], .xor 13 2, .rotr 13 34, .sub 2 [.reg 13], .xor 9 0,
  .rotr 9 16, .sub 0 [.reg 9], .xor 15 14, .rotr 15 30, .sub 14 [.reg 15, .par 4, .par 19], .sub 15 [.par 5, .lit 7],
  .xor 13 12, .rotr 13 44, .sub 12 [.reg 13, .par 2], .sub 13 [.par 3, .par 18], .xor 11 10, .rotr 11 47,
  .sub 10 [.reg 11, .par 0], .sub 11 [.par 1], .xor 9 8, .rotr 9 12, .sub 8 [.reg 9, .par 15], .sub 9 [.par 16],
  .xor 7 6, .rotr 7 31, .sub 6 [.reg 7, .par 13], .sub 7 [.par 14], .xor 5 4, .rotr 5 37,
  .sub 4 [.reg 5, .par 11], .sub 5 [.par 12], .xor 3 2, .rotr 3 9, .sub 2 [.reg 3, .par 9], .sub 3 [.par 10],
  .xor 1 0, .rotr 1 41, .sub 0 [.reg 1, .par 7], .sub 1 [.par 8], .xor 7 12, .rotr 7 25,
  .sub 12 [.reg 7], .xor 3 10, .rotr 3 16, .sub 10 [.reg 3], .xor 5 8, .rotr 5 28,
  .sub 8 [.reg 5], .xor 1 14, .rotr 1 47, .sub 14 [.reg 1]]

/-- `decrypt`, threefish1024.go:3009-3182. -/
def decrypt8 : List I := [
  .xor 9 4, .rotr 9 41, .sub 4 [.reg 9], .xor 13 6, .rotr 13 48, .sub 6 [.reg 13],
  .xor 11 2, .rotr 11 20, .sub 2 [.reg 11], .xor 15 0, .rotr 15 5, .sub 0 [.reg 15],
  .xor 9 10, .rotr 9 17, .sub 10 [.reg 9], .xor 11 8, .rotr 11 59, .sub 8 [.reg 11],
  .xor 13 14, .rotr 13 41, .sub 14 [.reg 13], .xor 15 12, .rotr 15 34, .sub 12 [.reg 15],
  .xor 1 6, .rotr 1 13, .sub 6 [.reg 1], .xor 3 4, .rotr 3 51, .sub 4 [.reg 3],
  .xor 5 2, .rotr 5 4, .sub 2 [.reg 5], .xor 7 0, .rotr 7 33, .sub 0 [.reg 7],
  .xor 1 8, .rotr 1 52, .sub 8 [.reg 1], .xor 5 14, .rotr 5 23, .sub 14 [.reg 5],
  .xor 3 12, .rotr 3 18, .sub 12 [.reg 3], .xor 7 10, .rotr 7 49, .sub 10 [.reg 7],
  .xor 15 4, .rotr 15 55, .sub 4 [.reg 15], .xor 11 6, .rotr 11 10, .sub 6 [.reg 11],
  .xor 13 2, .rotr 13 19, .sub 2 [.reg 13], .xor 9 0, .rotr 9 38, .sub 0 [.reg 9],
  .xor 15 14, .rotr 15 37, .sub 14 [.reg 15, .par 3, .par 18], .sub 15 [.par 4, .lit 6], .xor 13 12, .rotr 13 22,
  .sub 12 [.reg 13, .par 1], .sub 13 [.par 2, .par 17], .xor 11 10, .rotr 11 17, .sub 10 [.reg 11, .par 16], .sub 11 [.par 0],
  .xor 9 8, .rotr 9 8, .sub 8 [.reg 9, .par 14], .sub 9 [.par 15], .xor 7 6, .rotr 7 47,
  .sub 6 [.reg 7, .par 12], .sub 7 [.par 13], .xor 5 4, .rotr 5 8, .sub 4 [.reg 5, .par 10], .sub 5 [.par 11],
  .xor 3 2, .rotr 3 13, .sub 2 [.reg 3, .par 8], .sub 3 [.par 9], .xor 1 0, .rotr 1 24,
  .sub 0 [.reg 1, .par 6], .sub 1 [.par 7], .xor 7 12, .rotr 7 20, .sub 12 [.reg 7], .xor 3 10,
  .rotr 3 37, .sub 10 [.reg 3], .xor 5 8, .rotr 5 31, .sub 8 [.reg 5], .xor 1 14,
  .rotr 1 23, .sub 14 [.reg 1], .xor 9 4, .rotr 9 52, .sub 4 [.reg 9], .xor 13 6,
  .rotr 13 35, .sub 6 [.reg 13], .xor 11 2, .rotr 11 48, .sub 2 [.reg 11], .xor 15 0,
  .rotr 15 9, .sub 0 [.reg 15], .xor 9 10, .rotr 9 25, .sub 10 [.reg 9], .xor 11 8,
  .rotr 11 44, .sub 8 [.reg 11], .xor 13 14, .rotr 13 42, .sub 14 [.reg 13], .xor 15 12,
  .rotr 15 19, .sub 12 [.reg 15], .xor 1 6, .rotr 1 46, .sub 6 [.reg 1], .xor 3 4,
  .rotr 3 47, .sub 4 [.reg 3], .xor 5 2, .rotr 5 44, .sub 2 [.reg 5], .xor 7 0,
  .rotr 7 31, .sub 0 [.reg 7], .xor 1 8, .rotr 1 41, .sub 8 [.reg 1], .xor 5 14,
  .rotr 5 42, .sub 14 [.reg 5], .xor 3 12, .rotr 3 53, .sub 12 [.reg 3], .xor 7 10,
  .rotr 7 4, .sub 10 [.reg 7], .xor 15 4, .rotr 15 51, .sub 4 [.reg 15], .xor 11 6,
  .rotr 11 56, .sub 6 [.reg 11], .xor 13 2, .rotr 13 34, .sub 2 [.reg 13], .xor 9 0,
  .rotr 9 16, .sub 0 [.reg 9], .xor 15 14, .rotr 15 30, .sub 14 [.reg 15, .par 2, .par 17], .sub 15 [.par 3, .lit 5],
  .xor 13 12, .rotr 13 44, .sub 12 [.reg 13, .par 0], .sub 13 [.par 1, .par 19], .xor 11 10, .rotr 11 47,
  .sub 10 [.reg 11, .par 15]]

/-- `decrypt`, threefish1024.go:3183-3355. -/
def decrypt9 : List I := [
  .sub 11 [.par 16], .xor 9 8, .rotr 9 12, .sub 8 [.reg 9, .par 13], .sub 9 [.par 14], .xor 7 6,
  .rotr 7 31, .sub 6 [.reg 7, .par 11], .sub 7 [.par 12], .xor 5 4, .rotr 5 37, .sub 4 [.reg 5, .par 9],
  .sub 5 [.par 10], .xor 3 2, .rotr 3 9, .sub 2 [.reg 3, .par 7], .sub 3 [.par 8], .xor 1 0,
  .rotr 1 41, .sub 0 [.reg 1, .par 5], .sub 1 [.par 6], .xor 7 12, .rotr 7 25, .sub 12 [.reg 7],
  .xor 3 10, .rotr 3 16, .sub 10 [.reg 3], .xor 5 8, .rotr 5 28, .sub 8 [.reg 5],
  .xor 1 14, .rotr 1 47, .sub 14 [.reg 1], .xor 9 4, .rotr 9 41, .sub 4 [.reg 9],
  .xor 13 6, .rotr 13 48, .sub 6 [.reg 13], .xor 11 2, .rotr 11 20, .sub 2 [.reg 11],
  .xor 15 0, .rotr 15 5, .sub 0 [.reg 15], .xor 9 10, .rotr 9 17, .sub 10 [.reg 9],
  .xor 11 8, .rotr 11 59, .sub 8 [.reg 11], .xor 13 14, .rotr 13 41, .sub 14 [.reg 13],
  .xor 15 12, .rotr 15 34, .sub 12 [.reg 15], .xor 1 6, .rotr 1 13, .sub 6 [.reg 1],
  .xor 3 4, .rotr 3 51, .sub 4 [.reg 3], .xor 5 2, .rotr 5 4, .sub 2 [.reg 5],
  .xor 7 0, .rotr 7 33, .sub 0 [.reg 7], .xor 1 8, .rotr 1 52, .sub 8 [.reg 1],
  .xor 5 14, .rotr 5 23, .sub 14 [.reg 5], .xor 3 12, .rotr 3 18, .sub 12 [.reg 3],
  .xor 7 10, .rotr 7 49, .sub 10 [.reg 7], .xor 15 4, .rotr 15 55, .sub 4 [.reg 15],
  .xor 11 6, .rotr 11 10, .sub 6 [.reg 11], .xor 13 2, .rotr 13 19, .sub 2 [.reg 13],
  .xor 9 0, .rotr 9 38, .sub 0 [.reg 9], .xor 15 14, .rotr 15 37, .sub 14 [.reg 15, .par 1, .par 19],
  .sub 15 [.par 2, .lit 4], .xor 13 12, .rotr 13 22, .sub 12 [.reg 13, .par 16], .sub 13 [.par 0, .par 18], .xor 11 10,
  .rotr 11 17, .sub 10 [.reg 11, .par 14], .sub 11 [.par 15], .xor 9 8, .rotr 9 8, .sub 8 [.reg 9, .par 12],
  .sub 9 [.par 13], .xor 7 6, .rotr 7 47, .sub 6 [.reg 7, .par 10], .sub 7 [.par 11], .xor 5 4,
  .rotr 5 8, .sub 4 [.reg 5, .par 8], .sub 5 [.par 9], .xor 3 2, .rotr 3 13, .sub 2 [.reg 3, .par 6],
  .sub 3 [.par 7], .xor 1 0, .rotr 1 24, .sub 0 [.reg 1, .par 4], .sub 1 [.par 5], .xor 7 12,
  .rotr 7 20, .sub 12 [.reg 7], .xor 3 10, .rotr 3 37, .sub 10 [.reg 3], .xor 5 8,
  .rotr 5 31, .sub 8 [.reg 5], .xor 1 14, .rotr 1 23, .sub 14 [.reg 1], .xor 9 4,
  .rotr 9 52, .sub 4 [.reg 9], .xor 13 6, .rotr 13 35, .sub 6 [.reg 13], .xor 11 2,
  .rotr 11 48, .sub 2 [.reg 11], .xor 15 0, .rotr 15 9, .sub 0 [.reg 15], .xor 9 10,
  .rotr 9 25, .sub 10 [.reg 9], .xor 11 8, .rotr 11 44, .sub 8 [.reg 11], .xor 13 14,
  .rotr 13 42, .sub 14 [.reg 13], .xor 15 12, .rotr 15 19, .sub 12 [.reg 15], .xor 1 6,
  .rotr 1 46, .sub 6 [.reg 1], .xor 3 4, .rotr 3 47, .sub 4 [.reg 3], .xor 5 2,
  .rotr 5 44, .sub 2 [.reg 5], .xor 7 0, .rotr 7 31, .sub 0 [.reg 7]]

/-- `decrypt`, threefish1024.go:3357-3527. -/
def decrypt10 : List I := [
  .xor 1 8, .rotr 1 41, .sub 8 [.reg 1], .xor 5 14, .rotr 5 42, .sub 14 [.reg 5],
  .xor 3 12, .rotr 3 53, .sub 12 [.reg 3], .xor 7 10, .rotr 7 4, .sub 10 [.reg 7],
  .xor 15 4, .rotr 15 51, .sub 4 [.reg 15], .xor 11 6, .rotr 11 56, .sub 6 [.reg 11],
  .xor 13 2, .rotr 13 34, .sub 2 [.reg 13], .xor 9 0, .rotr 9 16, .sub 0 [.reg 9],
  .xor 15 14, .rotr 15 30, .sub 14 [.reg 15, .par 0, .par 18], .sub 15 [.par 1, .lit 3], .xor 13 12, .rotr 13 44,
  .sub 12 [.reg 13, .par 15], .sub 13 [.par 16, .par 17], .xor 11 10, .rotr 11 47, .sub 10 [.reg 11, .par 13], .sub 11 [.par 14],
  .xor 9 8, .rotr 9 12, .sub 8 [.reg 9, .par 11], .sub 9 [.par 12], .xor 7 6, .rotr 7 31,
  .sub 6 [.reg 7, .par 9], .sub 7 [.par 10], .xor 5 4, .rotr 5 37, .sub 4 [.reg 5, .par 7], .sub 5 [.par 8],
  .xor 3 2, .rotr 3 9, .sub 2 [.reg 3, .par 5], .sub 3 [.par 6], .xor 1 0, .rotr 1 41,
  .sub 0 [.reg 1, .par 3], .sub 1 [.par 4], .xor 7 12, .rotr 7 25, .sub 12 [.reg 7], .xor 3 10,
  .rotr 3 16, .sub 10 [.reg 3], .xor 5 8, .rotr 5 28, .sub 8 [.reg 5], .xor 1 14,
  .rotr 1 47, .sub 14 [.reg 1], .xor 9 4, .rotr 9 41, .sub 4 [.reg 9], .xor 13 6,
  .rotr 13 48, .sub 6 [.reg 13], .xor 11 2, .rotr 11 20, .sub 2 [.reg 11], .xor 15 0,
  .rotr 15 5, .sub 0 [.reg 15], .xor 9 10, .rotr 9 17, .sub 10 [.reg 9], .xor 11 8,
  .rotr 11 59, .sub 8 [.reg 11], .xor 13 14, .rotr 13 41, .sub 14 [.reg 13], .xor 15 12,
  .rotr 15 34, .sub 12 [.reg 15], .xor 1 6, .rotr 1 13, .sub 6 [.reg 1], .xor 3 4,
  .rotr 3 51, .sub 4 [.reg 3], .xor 5 2, .rotr 5 4, .sub 2 [.reg 5], .xor 7 0,
  .rotr 7 33, .sub 0 [.reg 7], .xor 1 8, .rotr 1 52, .sub 8 [.reg 1], .xor 5 14,
  .rotr 5 23, .sub 14 [.reg 5], .xor 3 12, .rotr 3 18, .sub 12 [.reg 3], .xor 7 10,
  .rotr 7 49, .sub 10 [.reg 7], .xor 15 4, .rotr 15 55, .sub 4 [.reg 15], .xor 11 6,
  .rotr 11 10, .sub 6 [.reg 11], .xor 13 2, .rotr 13 19, .sub 2 [.reg 13], .xor 9 0,
  .rotr 9 38, .sub 0 [.reg 9], .xor 15 14, .rotr 15 37, .sub 14 [.reg 15, .par 16, .par 17], .sub 15 [.par 0, .lit 2],
  .xor 13 12, .rotr 13 22, .sub 12 [.reg 13, .par 14], .sub 13 [.par 15, .par 19], .xor 11 10, .rotr 11 17,
  .sub 10 [.reg 11, .par 12], .sub 11 [.par 13], .xor 9 8, .rotr 9 8, .sub 8 [.reg 9, .par 10], .sub 9 [.par 11],
  .xor 7 6, .rotr 7 47, .sub 6 [.reg 7, .par 8], .sub 7 [.par 9], .xor 5 4, .rotr 5 8,
  .sub 4 [.reg 5, .par 6], .sub 5 [.par 7], .xor 3 2, .rotr 3 13, .sub 2 [.reg 3, .par 4], .sub 3 [.par 5],
  .xor 1 0, .rotr 1 24, .sub 0 [.reg 1, .par 2], .sub 1 [.par 3], .xor 7 12, .rotr 7 20,
  .sub 12 [.reg 7], .xor 3 10, .rotr 3 37, .sub 10 [.reg 3], .xor 5 8, .rotr 5 31,
  .sub 8 [.reg 5], .xor 1 14, .rotr 1 23, .sub 14 [.reg 1]]

/-- `decrypt`, threefish1024.go:3529-3702. -/
def decrypt11 : List I := [
  .xor 9 4, .rotr 9 52, .sub 4 [.reg 9], .xor 13 6, .rotr 13 35, .sub 6 [.reg 13],
  .xor 11 2, .rotr 11 48, .sub 2 [.reg 11], .xor 15 0, .rotr 15 9, .sub 0 [.reg 15],
  .xor 9 10, .rotr 9 25, .sub 10 [.reg 9], .xor 11 8, .rotr 11 44, .sub 8 [.reg 11],
  .xor 13 14, .rotr 13 42, .sub 14 [.reg 13], .xor 15 12, .rotr 15 19, .sub 12 [.reg 15],
  .xor 1 6, .rotr 1 46, .sub 6 [.reg 1], .xor 3 4, .rotr 3 47, .sub 4 [.reg 3],
  .xor 5 2, .rotr 5 44, .sub 2 [.reg 5], .xor 7 0, .rotr 7 31, .sub 0 [.reg 7],
  .xor 1 8, .rotr 1 41, .sub 8 [.reg 1], .xor 5 14, .rotr 5 42, .sub 14 [.reg 5],
  .xor 3 12, .rotr 3 53, .sub 12 [.reg 3], .xor 7 10, .rotr 7 4, .sub 10 [.reg 7],
  .xor 15 4, .rotr 15 51, .sub 4 [.reg 15], .xor 11 6, .rotr 11 56, .sub 6 [.reg 11],
  .xor 13 2, .rotr 13 34, .sub 2 [.reg 13], .xor 9 0, .rotr 9 16, .sub 0 [.reg 9],
  .xor 15 14, .rotr 15 30, .sub 14 [.reg 15, .par 15, .par 19], .sub 15 [.par 16, .lit 1], .xor 13 12, .rotr 13 44,
  .sub 12 [.reg 13, .par 13], .sub 13 [.par 14, .par 18], .xor 11 10, .rotr 11 47, .sub 10 [.reg 11, .par 11], .sub 11 [.par 12],
  .xor 9 8, .rotr 9 12, .sub 8 [.reg 9, .par 9], .sub 9 [.par 10], .xor 7 6, .rotr 7 31,
  .sub 6 [.reg 7, .par 7], .sub 7 [.par 8], .xor 5 4, .rotr 5 37, .sub 4 [.reg 5, .par 5], .sub 5 [.par 6],
  .xor 3 2, .rotr 3 9, .sub 2 [.reg 3, .par 3], .sub 3 [.par 4], .xor 1 0, .rotr 1 41,
  .sub 0 [.reg 1, .par 1], .sub 1 [.par 2], .xor 7 12, .rotr 7 25, .sub 12 [.reg 7], .xor 3 10,
  .rotr 3 16, .sub 10 [.reg 3], .xor 5 8, .rotr 5 28, .sub 8 [.reg 5], .xor 1 14,
  .rotr 1 47, .sub 14 [.reg 1], .xor 9 4, .rotr 9 41, .sub 4 [.reg 9], .xor 13 6,
  .rotr 13 48, .sub 6 [.reg 13], .xor 11 2, .rotr 11 20, .sub 2 [.reg 11], .xor 15 0,
  .rotr 15 5, .sub 0 [.reg 15], .xor 9 10, .rotr 9 17, .sub 10 [.reg 9], .xor 11 8,
  .rotr 11 59, .sub 8 [.reg 11], .xor 13 14, .rotr 13 41, .sub 14 [.reg 13], .xor 15 12,
  .rotr 15 34, .sub 12 [.reg 15], .xor 1 6, .rotr 1 13, .sub 6 [.reg 1], .xor 3 4,
  .rotr 3 51, .sub 4 [.reg 3], .xor 5 2, .rotr 5 4, .sub 2 [.reg 5], .xor 7 0,
  .rotr 7 33, .sub 0 [.reg 7], .xor 1 8, .rotr 1 52, .sub 8 [.reg 1], .xor 5 14,
  .rotr 5 23, .sub 14 [.reg 5], .xor 3 12, .rotr 3 18, .sub 12 [.reg 3], .xor 7 10,
  .rotr 7 49, .sub 10 [.reg 7], .xor 15 4, .rotr 15 55, .sub 4 [.reg 15], .xor 11 6,
  .rotr 11 10, .sub 6 [.reg 11], .xor 13 2, .rotr 13 19, .sub 2 [.reg 13], .xor 9 0,
  .rotr 9 38, .sub 0 [.reg 9], .xor 15 14, .rotr 15 37, .sub 14 [.reg 15, .par 14, .par 18], .sub 15 [.par 15],
  .xor 13 12, .rotr 13 22, .sub 12 [.reg 13, .par 12], .sub 13 [.par 13, .par 17], .xor 11 10, .rotr 11 17,
  .sub 10 [.reg 11, .par 10]]

/-- `decrypt`, threefish1024.go:3703-3723. -/
def decrypt12 : List I := [
  .sub 11 [.par 11], .xor 9 8, .rotr 9 8, .sub 8 [.reg 9, .par 8], .sub 9 [.par 9], .xor 7 6,
  .rotr 7 47, .sub 6 [.reg 7, .par 6], .sub 7 [.par 7], .xor 5 4, .rotr 5 8, .sub 4 [.reg 5, .par 4],
  .sub 5 [.par 5], .xor 3 2, .rotr 3 13, .sub 2 [.reg 3, .par 2], .sub 3 [.par 3], .xor 1 0,
  .rotr 1 24, .sub 0 [.reg 1, .par 0], .sub 1 [.par 1]]

/-- The body of `decrypt`, threefish1024.go:1584-3741: the assignments between reading `input` and storing `output`. -/
def decrypt : List I := decrypt0 ++ decrypt1 ++ decrypt2 ++ decrypt3 ++ decrypt4 ++ decrypt5 ++ decrypt6 ++ decrypt7 ++ decrypt8 ++ decrypt9 ++ decrypt10 ++ decrypt11 ++ decrypt12

end Verif.Gen.Threefish1024
