import Verif.Model.X86

/-! Generated by tools/gen_sipasm.py from /repo/siphash/hash_amd64.s and hash128_amd64.s; one entry per
source instruction, with its line number and text. Do not edit. -/

namespace Verif.Gen.SipAsm
open Verif.Model.X86

/-- `Hash`, siphash/hash_amd64.s:6-200. -/
def hash64 : List Ins := [
  .movArg .k0 .CX, -- 0: line 6: MOVQ k0+0(FP),CX
  .movImm 0x736f6d6570736575#64 .R9, -- 1: line 7: MOVQ $0x736F6D6570736575,R9
  .movArg .k1 .DI, -- 2: line 8: MOVQ k1+8(FP),DI
  .movImm 0x6c7967656e657261#64 .BX, -- 3: line 9: MOVQ $0x6C7967656E657261,BX
  .movImm 0x646f72616e646f6d#64 .AX, -- 4: line 10: MOVQ $0x646F72616E646F6D,AX
  .movArg .len .DX, -- 5: line 11: MOVQ b_len+24(FP),DX
  .mov .DX .R11, -- 6: line 12: MOVQ DX,R11
  .mov .DX .R10, -- 7: line 13: MOVQ DX,R10
  .xor .CX .R9, -- 8: line 14: XORQ CX,R9
  .xor .CX .BX, -- 9: line 15: XORQ CX,BX
  .movImm 0x7465646279746573#64 .CX, -- 10: line 16: MOVQ $0x7465646279746573,CX
  .xor .DI .AX, -- 11: line 17: XORQ DI,AX
  .xor .DI .CX, -- 12: line 18: XORQ DI,CX
  .shl 56 .R11, -- 13: line 19: SHLQ $0x38,R11
  .xor .DI .DI, -- 14: line 20: XORQ DI,DI
  .movArg .base .SI, -- 15: line 21: MOVQ b_base+16(FP),SI
  .andI 0xfffffffffffffff8#64 .R10, -- 16: line 22: ANDQ $0xFFFFFFFFFFFFFFF8,R10
  .je 53, -- 17: line 23: JE afterLoop
  .nop, -- 18: line 24: XCHGQ AX,AX
  .load64 0 .SI .DI .R8, -- 19: line 26: MOVQ 0(SI)(DI*1),R8
  .add .AX .R9, -- 20: line 27: ADDQ AX,R9
  .ror 51 .AX, -- 21: line 28: RORQ $0x33,AX
  .xor .R9 .AX, -- 22: line 29: XORQ R9,AX
  .ror 32 .R9, -- 23: line 30: RORQ $0x20,R9
  .addI 0x8#64 .DI, -- 24: line 31: ADDQ $0x8,DI
  .xor .R8 .CX, -- 25: line 32: XORQ R8,CX
  .add .CX .BX, -- 26: line 33: ADDQ CX,BX
  .ror 48 .CX, -- 27: line 34: RORQ $0x30,CX
  .xor .BX .CX, -- 28: line 35: XORQ BX,CX
  .add .AX .BX, -- 29: line 36: ADDQ AX,BX
  .ror 47 .AX, -- 30: line 37: RORQ $0x2F,AX
  .add .CX .R9, -- 31: line 38: ADDQ CX,R9
  .ror 43 .CX, -- 32: line 39: RORQ $0x2B,CX
  .xor .BX .AX, -- 33: line 40: XORQ BX,AX
  .xor .R9 .CX, -- 34: line 41: XORQ R9,CX
  .ror 32 .BX, -- 35: line 42: RORQ $0x20,BX
  .add .AX .R9, -- 36: line 43: ADDQ AX,R9
  .add .CX .BX, -- 37: line 44: ADDQ CX,BX
  .ror 51 .AX, -- 38: line 45: RORQ $0x33,AX
  .ror 48 .CX, -- 39: line 46: RORQ $0x30,CX
  .xor .R9 .AX, -- 40: line 47: XORQ R9,AX
  .xor .BX .CX, -- 41: line 48: XORQ BX,CX
  .ror 32 .R9, -- 42: line 49: RORQ $0x20,R9
  .add .AX .BX, -- 43: line 50: ADDQ AX,BX
  .add .CX .R9, -- 44: line 51: ADDQ CX,R9
  .ror 47 .AX, -- 45: line 52: RORQ $0x2F,AX
  .ror 43 .CX, -- 46: line 53: RORQ $0x2B,CX
  .xor .BX .AX, -- 47: line 54: XORQ BX,AX
  .ror 32 .BX, -- 48: line 55: RORQ $0x20,BX
  .xor .R9 .CX, -- 49: line 56: XORQ R9,CX
  .xor .R8 .R9, -- 50: line 57: XORQ R8,R9
  .cmp .R10 .DI, -- 51: line 58: CMPQ R10,DI
  .ja 19, -- 52: line 59: JA loopBody
  .sub .R10 .DX, -- 53: line 61: SUBQ R10,DX
  .cmpI .DX 0x7#64, -- 54: line 63: CMPQ DX,$0x7
  .ja 91, -- 55: line 64: JA afterSwitch
  .cmpI .DX 0x7#64, -- 56: line 68: CMPQ DX,$0x7
  .je 71, -- 57: line 69: JE sw7
  .cmpI .DX 0x6#64, -- 58: line 71: CMPQ DX,$0x6
  .je 74, -- 59: line 72: JE sw6
  .cmpI .DX 0x5#64, -- 60: line 74: CMPQ DX,$0x5
  .je 77, -- 61: line 75: JE sw5
  .cmpI .DX 0x4#64, -- 62: line 77: CMPQ DX,$0x4
  .je 80, -- 63: line 78: JE sw4
  .cmpI .DX 0x3#64, -- 64: line 80: CMPQ DX,$0x3
  .je 83, -- 65: line 81: JE sw3
  .cmpI .DX 0x2#64, -- 66: line 83: CMPQ DX,$0x2
  .je 86, -- 67: line 84: JE sw2
  .cmpI .DX 0x1#64, -- 68: line 86: CMPQ DX,$0x1
  .je 89, -- 69: line 87: JE sw1
  .jmp 91, -- 70: line 89: JMP afterSwitch
  .load8 6 .SI .DI .DX, -- 71: line 91: MOVBQZX 6(SI)(DI*1),DX
  .shl 48 .DX, -- 72: line 92: SHLQ $0x30,DX
  .or .DX .R11, -- 73: line 93: ORQ DX,R11
  .load8 5 .SI .DI .DX, -- 74: line 94: MOVBQZX 0x5(SI)(DI*1),DX
  .shl 40 .DX, -- 75: line 95: SHLQ $0x28,DX
  .or .DX .R11, -- 76: line 96: ORQ DX,R11
  .load8 4 .SI .DI .DX, -- 77: line 97: MOVBQZX 0x4(SI)(DI*1),DX
  .shl 32 .DX, -- 78: line 98: SHLQ $0x20,DX
  .or .DX .R11, -- 79: line 99: ORQ DX,R11
  .load8 3 .SI .DI .DX, -- 80: line 100: MOVBQZX 0x3(SI)(DI*1),DX
  .shl 24 .DX, -- 81: line 101: SHLQ $0x18,DX
  .or .DX .R11, -- 82: line 102: ORQ DX,R11
  .load8 2 .SI .DI .DX, -- 83: line 103: MOVBQZX 0x2(SI)(DI*1),DX
  .shl 16 .DX, -- 84: line 104: SHLQ $0x10,DX
  .or .DX .R11, -- 85: line 105: ORQ DX,R11
  .load8 1 .SI .DI .DX, -- 86: line 106: MOVBQZX 0x1(SI)(DI*1),DX
  .shl 8 .DX, -- 87: line 107: SHLQ $0x8,DX
  .or .DX .R11, -- 88: line 108: ORQ DX,R11
  .load8 0 .SI .DI .DX, -- 89: line 109: MOVBQZX 0(SI)(DI*1),DX
  .or .DX .R11, -- 90: line 110: ORQ DX,R11
  .lea 0 .AX .R9 .SI, -- 91: line 112: LEAQ (AX)(R9*1),SI
  .xor .R11 .CX, -- 92: line 113: XORQ R11,CX
  .ror 51 .AX, -- 93: line 114: RORQ $0x33,AX
  .add .CX .BX, -- 94: line 115: ADDQ CX,BX
  .mov .CX .DX, -- 95: line 116: MOVQ CX,DX
  .xor .SI .AX, -- 96: line 117: XORQ SI,AX
  .ror 48 .DX, -- 97: line 118: RORQ $0x30,DX
  .ror 32 .SI, -- 98: line 119: RORQ $0x20,SI
  .lea 0 .BX .AX .CX, -- 99: line 120: LEAQ 0(BX)(AX*1),CX
  .xor .BX .DX, -- 100: line 121: XORQ BX,DX
  .ror 47 .AX, -- 101: line 122: RORQ $0x2F,AX
  .add .DX .SI, -- 102: line 123: ADDQ DX,SI
  .ror 43 .DX, -- 103: line 124: RORQ $0x2B,DX
  .xor .CX .AX, -- 104: line 125: XORQ CX,AX
  .xor .SI .DX, -- 105: line 126: XORQ SI,DX
  .ror 32 .CX, -- 106: line 127: RORQ $0x20,CX
  .add .AX .SI, -- 107: line 128: ADDQ AX,SI
  .ror 51 .AX, -- 108: line 129: RORQ $0x33,AX
  .add .DX .CX, -- 109: line 130: ADDQ DX,CX
  .xor .SI .AX, -- 110: line 131: XORQ SI,AX
  .ror 48 .DX, -- 111: line 132: RORQ $0x30,DX
  .ror 32 .SI, -- 112: line 133: RORQ $0x20,SI
  .xor .CX .DX, -- 113: line 134: XORQ CX,DX
  .add .AX .CX, -- 114: line 135: ADDQ AX,CX
  .ror 47 .AX, -- 115: line 136: RORQ $0x2F,AX
  .add .DX .SI, -- 116: line 137: ADDQ DX,SI
  .xor .CX .AX, -- 117: line 138: XORQ CX,AX
  .ror 43 .DX, -- 118: line 139: RORQ $0x2B,DX
  .ror 32 .CX, -- 119: line 140: RORQ $0x20,CX
  .xor .SI .DX, -- 120: line 141: XORQ SI,DX
  .xor .R11 .SI, -- 121: line 142: XORQ R11,SI
  .xorbI 0xff#8 .CX, -- 122: line 143: XORB $0xFF,CL
  .add .AX .SI, -- 123: line 144: ADDQ AX,SI
  .ror 51 .AX, -- 124: line 145: RORQ $0x33,AX
  .add .DX .CX, -- 125: line 146: ADDQ DX,CX
  .ror 48 .DX, -- 126: line 147: RORQ $0x30,DX
  .xor .SI .AX, -- 127: line 148: XORQ SI,AX
  .xor .CX .DX, -- 128: line 149: XORQ CX,DX
  .ror 32 .SI, -- 129: line 150: RORQ $0x20,SI
  .add .AX .CX, -- 130: line 151: ADDQ AX,CX
  .add .DX .SI, -- 131: line 152: ADDQ DX,SI
  .ror 47 .AX, -- 132: line 153: RORQ $0x2F,AX
  .ror 43 .DX, -- 133: line 154: RORQ $0x2B,DX
  .xor .CX .AX, -- 134: line 155: XORQ CX,AX
  .xor .SI .DX, -- 135: line 156: XORQ SI,DX
  .ror 32 .CX, -- 136: line 157: RORQ $0x20,CX
  .add .AX .SI, -- 137: line 158: ADDQ AX,SI
  .add .DX .CX, -- 138: line 159: ADDQ DX,CX
  .ror 51 .AX, -- 139: line 160: RORQ $0x33,AX
  .ror 48 .DX, -- 140: line 161: RORQ $0x30,DX
  .xor .SI .AX, -- 141: line 162: XORQ SI,AX
  .ror 32 .SI, -- 142: line 163: RORQ $0x20,SI
  .xor .CX .DX, -- 143: line 164: XORQ CX,DX
  .add .AX .CX, -- 144: line 165: ADDQ AX,CX
  .ror 47 .AX, -- 145: line 166: RORQ $0x2F,AX
  .add .DX .SI, -- 146: line 167: ADDQ DX,SI
  .ror 43 .DX, -- 147: line 168: RORQ $0x2B,DX
  .xor .CX .AX, -- 148: line 169: XORQ CX,AX
  .xor .SI .DX, -- 149: line 170: XORQ SI,DX
  .ror 32 .CX, -- 150: line 171: RORQ $0x20,CX
  .add .AX .SI, -- 151: line 172: ADDQ AX,SI
  .add .DX .CX, -- 152: line 173: ADDQ DX,CX
  .ror 51 .AX, -- 153: line 174: RORQ $0x33,AX
  .ror 48 .DX, -- 154: line 175: RORQ $0x30,DX
  .xor .CX .DX, -- 155: line 176: XORQ CX,DX
  .xor .SI .AX, -- 156: line 177: XORQ SI,AX
  .ror 32 .SI, -- 157: line 178: RORQ $0x20,SI
  .add .DX .SI, -- 158: line 179: ADDQ DX,SI
  .add .AX .CX, -- 159: line 180: ADDQ AX,CX
  .ror 47 .AX, -- 160: line 181: RORQ $0x2F,AX
  .xor .CX .AX, -- 161: line 182: XORQ CX,AX
  .ror 43 .DX, -- 162: line 183: RORQ $0x2B,DX
  .ror 32 .CX, -- 163: line 184: RORQ $0x20,CX
  .xor .SI .DX, -- 164: line 185: XORQ SI,DX
  .add .AX .SI, -- 165: line 186: ADDQ AX,SI
  .ror 51 .AX, -- 166: line 187: RORQ $0x33,AX
  .add .DX .CX, -- 167: line 188: ADDQ DX,CX
  .xor .SI .AX, -- 168: line 189: XORQ SI,AX
  .ror 48 .DX, -- 169: line 190: RORQ $0x30,DX
  .xor .CX .DX, -- 170: line 191: XORQ CX,DX
  .add .AX .CX, -- 171: line 192: ADDQ AX,CX
  .ror 47 .AX, -- 172: line 193: RORQ $0x2F,AX
  .xor .CX .AX, -- 173: line 194: XORQ CX,AX
  .ror 43 .DX, -- 174: line 195: RORQ $0x2B,DX
  .ror 32 .CX, -- 175: line 196: RORQ $0x20,CX
  .xor .DX .AX, -- 176: line 197: XORQ DX,AX
  .xor .CX .AX, -- 177: line 198: XORQ CX,AX
  .movRet .AX 0, -- 178: line 199: MOVQ AX,ret+40(FP)
  .ret] -- 179: line 200: RET

/-- `Hash128`, siphash/hash128_amd64.s:13-290. -/
def hash128 : List Ins := [
  .movArg .k0 .CX, -- 0: line 13: MOVQ k0+0(FP),CX
  .movImm 0x736f6d6570736575#64 .R9, -- 1: line 14: MOVQ $0x736F6D6570736575,R9
  .movArg .k1 .DI, -- 2: line 15: MOVQ k1+8(FP),DI
  .movImm 0x6c7967656e657261#64 .BX, -- 3: line 16: MOVQ $0x6C7967656E657261,BX
  .movImm 0x646f72616e646f6d#64 .AX, -- 4: line 17: MOVQ $0x646F72616E646F6D,AX
  .movArg .len .DX, -- 5: line 18: MOVQ b_len+24(FP),DX
  .xorI 0xee#64 .AX, -- 6: line 19: XORQ $0xEE,AX
  .mov .DX .R11, -- 7: line 20: MOVQ DX,R11
  .mov .DX .R10, -- 8: line 21: MOVQ DX,R10
  .xor .CX .R9, -- 9: line 22: XORQ CX,R9
  .xor .CX .BX, -- 10: line 23: XORQ CX,BX
  .movImm 0x7465646279746573#64 .CX, -- 11: line 24: MOVQ $0x7465646279746573,CX
  .xor .DI .AX, -- 12: line 25: XORQ DI,AX
  .xor .DI .CX, -- 13: line 26: XORQ DI,CX
  .shl 56 .R11, -- 14: line 27: SHLQ $0x38,R11
  .xor .DI .DI, -- 15: line 28: XORQ DI,DI
  .movArg .base .SI, -- 16: line 29: MOVQ b_base+16(FP),SI
  .andI 0xfffffffffffffff8#64 .R10, -- 17: line 30: ANDQ $0xFFFFFFFFFFFFFFF8,R10
  .je 54, -- 18: line 31: JE afterLoop
  .nop, -- 19: line 32: XCHGQ AX,AX
  .load64 0 .SI .DI .R8, -- 20: line 34: MOVQ 0(SI)(DI*1),R8
  .add .AX .R9, -- 21: line 35: ADDQ AX,R9
  .ror 51 .AX, -- 22: line 36: RORQ $0x33,AX
  .xor .R9 .AX, -- 23: line 37: XORQ R9,AX
  .ror 32 .R9, -- 24: line 38: RORQ $0x20,R9
  .addI 0x8#64 .DI, -- 25: line 39: ADDQ $0x8,DI
  .xor .R8 .CX, -- 26: line 40: XORQ R8,CX
  .add .CX .BX, -- 27: line 41: ADDQ CX,BX
  .ror 48 .CX, -- 28: line 42: RORQ $0x30,CX
  .xor .BX .CX, -- 29: line 43: XORQ BX,CX
  .add .AX .BX, -- 30: line 44: ADDQ AX,BX
  .ror 47 .AX, -- 31: line 45: RORQ $0x2F,AX
  .add .CX .R9, -- 32: line 46: ADDQ CX,R9
  .ror 43 .CX, -- 33: line 47: RORQ $0x2B,CX
  .xor .BX .AX, -- 34: line 48: XORQ BX,AX
  .xor .R9 .CX, -- 35: line 49: XORQ R9,CX
  .ror 32 .BX, -- 36: line 50: RORQ $0x20,BX
  .add .AX .R9, -- 37: line 51: ADDQ AX,R9
  .add .CX .BX, -- 38: line 52: ADDQ CX,BX
  .ror 51 .AX, -- 39: line 53: RORQ $0x33,AX
  .ror 48 .CX, -- 40: line 54: RORQ $0x30,CX
  .xor .R9 .AX, -- 41: line 55: XORQ R9,AX
  .xor .BX .CX, -- 42: line 56: XORQ BX,CX
  .ror 32 .R9, -- 43: line 57: RORQ $0x20,R9
  .add .AX .BX, -- 44: line 58: ADDQ AX,BX
  .add .CX .R9, -- 45: line 59: ADDQ CX,R9
  .ror 47 .AX, -- 46: line 60: RORQ $0x2F,AX
  .ror 43 .CX, -- 47: line 61: RORQ $0x2B,CX
  .xor .BX .AX, -- 48: line 62: XORQ BX,AX
  .ror 32 .BX, -- 49: line 63: RORQ $0x20,BX
  .xor .R9 .CX, -- 50: line 64: XORQ R9,CX
  .xor .R8 .R9, -- 51: line 65: XORQ R8,R9
  .cmp .R10 .DI, -- 52: line 66: CMPQ R10,DI
  .ja 20, -- 53: line 67: JA loopBody
  .sub .R10 .DX, -- 54: line 69: SUBQ R10,DX
  .cmpI .DX 0x7#64, -- 55: line 71: CMPQ DX,$0x7
  .ja 92, -- 56: line 72: JA afterSwitch
  .cmpI .DX 0x7#64, -- 57: line 76: CMPQ DX,$0x7
  .je 72, -- 58: line 77: JE sw7
  .cmpI .DX 0x6#64, -- 59: line 79: CMPQ DX,$0x6
  .je 75, -- 60: line 80: JE sw6
  .cmpI .DX 0x5#64, -- 61: line 82: CMPQ DX,$0x5
  .je 78, -- 62: line 83: JE sw5
  .cmpI .DX 0x4#64, -- 63: line 85: CMPQ DX,$0x4
  .je 81, -- 64: line 86: JE sw4
  .cmpI .DX 0x3#64, -- 65: line 88: CMPQ DX,$0x3
  .je 84, -- 66: line 89: JE sw3
  .cmpI .DX 0x2#64, -- 67: line 91: CMPQ DX,$0x2
  .je 87, -- 68: line 92: JE sw2
  .cmpI .DX 0x1#64, -- 69: line 94: CMPQ DX,$0x1
  .je 90, -- 70: line 95: JE sw1
  .jmp 92, -- 71: line 97: JMP afterSwitch
  .load8 6 .SI .DI .DX, -- 72: line 99: MOVBQZX 6(SI)(DI*1),DX
  .shl 48 .DX, -- 73: line 100: SHLQ $0x30,DX
  .or .DX .R11, -- 74: line 101: ORQ DX,R11
  .load8 5 .SI .DI .DX, -- 75: line 102: MOVBQZX 0x5(SI)(DI*1),DX
  .shl 40 .DX, -- 76: line 103: SHLQ $0x28,DX
  .or .DX .R11, -- 77: line 104: ORQ DX,R11
  .load8 4 .SI .DI .DX, -- 78: line 105: MOVBQZX 0x4(SI)(DI*1),DX
  .shl 32 .DX, -- 79: line 106: SHLQ $0x20,DX
  .or .DX .R11, -- 80: line 107: ORQ DX,R11
  .load8 3 .SI .DI .DX, -- 81: line 108: MOVBQZX 0x3(SI)(DI*1),DX
  .shl 24 .DX, -- 82: line 109: SHLQ $0x18,DX
  .or .DX .R11, -- 83: line 110: ORQ DX,R11
  .load8 2 .SI .DI .DX, -- 84: line 111: MOVBQZX 0x2(SI)(DI*1),DX
  .shl 16 .DX, -- 85: line 112: SHLQ $0x10,DX
  .or .DX .R11, -- 86: line 113: ORQ DX,R11
  .load8 1 .SI .DI .DX, -- 87: line 114: MOVBQZX 0x1(SI)(DI*1),DX
  .shl 8 .DX, -- 88: line 115: SHLQ $0x8,DX
  .or .DX .R11, -- 89: line 116: ORQ DX,R11
  .load8 0 .SI .DI .DX, -- 90: line 117: MOVBQZX 0(SI)(DI*1),DX
  .or .DX .R11, -- 91: line 118: ORQ DX,R11
  .lea 0 .AX .R9 .SI, -- 92: line 120: LEAQ (AX)(R9*1),SI
  .xor .R11 .CX, -- 93: line 121: XORQ R11,CX
  .ror 51 .AX, -- 94: line 122: RORQ $0x33,AX
  .add .CX .BX, -- 95: line 123: ADDQ CX,BX
  .mov .CX .DX, -- 96: line 124: MOVQ CX,DX
  .xor .SI .AX, -- 97: line 125: XORQ SI,AX
  .ror 48 .DX, -- 98: line 126: RORQ $0x30,DX
  .ror 32 .SI, -- 99: line 127: RORQ $0x20,SI
  .lea 0 .BX .AX .CX, -- 100: line 128: LEAQ 0(BX)(AX*1),CX
  .xor .BX .DX, -- 101: line 129: XORQ BX,DX
  .ror 47 .AX, -- 102: line 130: RORQ $0x2F,AX
  .add .DX .SI, -- 103: line 131: ADDQ DX,SI
  .ror 43 .DX, -- 104: line 132: RORQ $0x2B,DX
  .xor .CX .AX, -- 105: line 133: XORQ CX,AX
  .xor .SI .DX, -- 106: line 134: XORQ SI,DX
  .ror 32 .CX, -- 107: line 135: RORQ $0x20,CX
  .add .AX .SI, -- 108: line 136: ADDQ AX,SI
  .ror 51 .AX, -- 109: line 137: RORQ $0x33,AX
  .add .DX .CX, -- 110: line 138: ADDQ DX,CX
  .xor .SI .AX, -- 111: line 139: XORQ SI,AX
  .ror 48 .DX, -- 112: line 140: RORQ $0x30,DX
  .ror 32 .SI, -- 113: line 141: RORQ $0x20,SI
  .xor .CX .DX, -- 114: line 142: XORQ CX,DX
  .add .AX .CX, -- 115: line 143: ADDQ AX,CX
  .ror 47 .AX, -- 116: line 144: RORQ $0x2F,AX
  .add .DX .SI, -- 117: line 145: ADDQ DX,SI
  .xor .CX .AX, -- 118: line 146: XORQ CX,AX
  .ror 43 .DX, -- 119: line 147: RORQ $0x2B,DX
  .ror 32 .CX, -- 120: line 148: RORQ $0x20,CX
  .xor .SI .DX, -- 121: line 149: XORQ SI,DX
  .xor .R11 .SI, -- 122: line 150: XORQ R11,SI
  .xorbI 0xee#8 .CX, -- 123: line 151: XORB $0xEE,CL
  .add .AX .SI, -- 124: line 152: ADDQ AX,SI
  .ror 51 .AX, -- 125: line 153: RORQ $0x33,AX
  .add .DX .CX, -- 126: line 154: ADDQ DX,CX
  .ror 48 .DX, -- 127: line 155: RORQ $0x30,DX
  .xor .SI .AX, -- 128: line 156: XORQ SI,AX
  .xor .CX .DX, -- 129: line 157: XORQ CX,DX
  .ror 32 .SI, -- 130: line 158: RORQ $0x20,SI
  .add .AX .CX, -- 131: line 159: ADDQ AX,CX
  .add .DX .SI, -- 132: line 160: ADDQ DX,SI
  .ror 47 .AX, -- 133: line 161: RORQ $0x2F,AX
  .ror 43 .DX, -- 134: line 162: RORQ $0x2B,DX
  .xor .CX .AX, -- 135: line 163: XORQ CX,AX
  .xor .SI .DX, -- 136: line 164: XORQ SI,DX
  .ror 32 .CX, -- 137: line 165: RORQ $0x20,CX
  .add .AX .SI, -- 138: line 166: ADDQ AX,SI
  .add .DX .CX, -- 139: line 167: ADDQ DX,CX
  .ror 51 .AX, -- 140: line 168: RORQ $0x33,AX
  .ror 48 .DX, -- 141: line 169: RORQ $0x30,DX
  .xor .SI .AX, -- 142: line 170: XORQ SI,AX
  .ror 32 .SI, -- 143: line 171: RORQ $0x20,SI
  .xor .CX .DX, -- 144: line 172: XORQ CX,DX
  .add .AX .CX, -- 145: line 173: ADDQ AX,CX
  .ror 47 .AX, -- 146: line 174: RORQ $0x2F,AX
  .add .DX .SI, -- 147: line 175: ADDQ DX,SI
  .ror 43 .DX, -- 148: line 176: RORQ $0x2B,DX
  .xor .CX .AX, -- 149: line 177: XORQ CX,AX
  .xor .SI .DX, -- 150: line 178: XORQ SI,DX
  .ror 32 .CX, -- 151: line 179: RORQ $0x20,CX
  .add .AX .SI, -- 152: line 180: ADDQ AX,SI
  .add .DX .CX, -- 153: line 181: ADDQ DX,CX
  .ror 51 .AX, -- 154: line 182: RORQ $0x33,AX
  .ror 48 .DX, -- 155: line 183: RORQ $0x30,DX
  .xor .CX .DX, -- 156: line 184: XORQ CX,DX
  .xor .SI .AX, -- 157: line 185: XORQ SI,AX
  .ror 32 .SI, -- 158: line 186: RORQ $0x20,SI
  .add .DX .SI, -- 159: line 187: ADDQ DX,SI
  .add .AX .CX, -- 160: line 188: ADDQ AX,CX
  .ror 47 .AX, -- 161: line 189: RORQ $0x2F,AX
  .xor .CX .AX, -- 162: line 190: XORQ CX,AX
  .ror 43 .DX, -- 163: line 191: RORQ $0x2B,DX
  .ror 32 .CX, -- 164: line 192: RORQ $0x20,CX
  .xor .SI .DX, -- 165: line 193: XORQ SI,DX
  .add .AX .SI, -- 166: line 200: ADDQ AX,SI
  .ror 51 .AX, -- 167: line 201: RORQ $0x33,AX
  .add .DX .CX, -- 168: line 202: ADDQ DX,CX
  .ror 48 .DX, -- 169: line 203: RORQ $0x30,DX
  .xor .SI .AX, -- 170: line 204: XORQ SI,AX
  .xor .CX .DX, -- 171: line 205: XORQ CX,DX
  .ror 32 .SI, -- 172: line 206: RORQ $0x20,SI
  .add .AX .CX, -- 173: line 207: ADDQ AX,CX
  .add .DX .SI, -- 174: line 208: ADDQ DX,SI
  .ror 47 .AX, -- 175: line 209: RORQ $0x2F,AX
  .ror 43 .DX, -- 176: line 210: RORQ $0x2B,DX
  .xor .CX .AX, -- 177: line 211: XORQ CX,AX
  .xor .SI .DX, -- 178: line 212: XORQ SI,DX
  .ror 32 .CX, -- 179: line 213: RORQ $0x20,CX
  .mov .SI .BX, -- 180: line 217: MOVQ SI,BX
  .xor .AX .BX, -- 181: line 218: XORQ AX,BX
  .xor .DX .BX, -- 182: line 219: XORQ DX,BX
  .xor .CX .BX, -- 183: line 220: XORQ CX,BX
  .movRet .BX 0, -- 184: line 221: MOVQ BX,r0+40(FP)
  .xorbI 0xdd#8 .AX, -- 185: line 225: XORB $0xDD,AL
  .add .AX .SI, -- 186: line 226: ADDQ AX,SI
  .ror 51 .AX, -- 187: line 227: RORQ $0x33,AX
  .add .DX .CX, -- 188: line 228: ADDQ DX,CX
  .ror 48 .DX, -- 189: line 229: RORQ $0x30,DX
  .xor .SI .AX, -- 190: line 230: XORQ SI,AX
  .xor .CX .DX, -- 191: line 231: XORQ CX,DX
  .ror 32 .SI, -- 192: line 232: RORQ $0x20,SI
  .add .AX .CX, -- 193: line 233: ADDQ AX,CX
  .add .DX .SI, -- 194: line 234: ADDQ DX,SI
  .ror 47 .AX, -- 195: line 235: RORQ $0x2F,AX
  .ror 43 .DX, -- 196: line 236: RORQ $0x2B,DX
  .xor .CX .AX, -- 197: line 237: XORQ CX,AX
  .xor .SI .DX, -- 198: line 238: XORQ SI,DX
  .ror 32 .CX, -- 199: line 239: RORQ $0x20,CX
  .add .AX .SI, -- 200: line 240: ADDQ AX,SI
  .add .DX .CX, -- 201: line 241: ADDQ DX,CX
  .ror 51 .AX, -- 202: line 242: RORQ $0x33,AX
  .ror 48 .DX, -- 203: line 243: RORQ $0x30,DX
  .xor .SI .AX, -- 204: line 244: XORQ SI,AX
  .ror 32 .SI, -- 205: line 245: RORQ $0x20,SI
  .xor .CX .DX, -- 206: line 246: XORQ CX,DX
  .add .AX .CX, -- 207: line 247: ADDQ AX,CX
  .ror 47 .AX, -- 208: line 248: RORQ $0x2F,AX
  .add .DX .SI, -- 209: line 249: ADDQ DX,SI
  .ror 43 .DX, -- 210: line 250: RORQ $0x2B,DX
  .xor .CX .AX, -- 211: line 251: XORQ CX,AX
  .xor .SI .DX, -- 212: line 252: XORQ SI,DX
  .ror 32 .CX, -- 213: line 253: RORQ $0x20,CX
  .add .AX .SI, -- 214: line 254: ADDQ AX,SI
  .add .DX .CX, -- 215: line 255: ADDQ DX,CX
  .ror 51 .AX, -- 216: line 256: RORQ $0x33,AX
  .ror 48 .DX, -- 217: line 257: RORQ $0x30,DX
  .xor .CX .DX, -- 218: line 258: XORQ CX,DX
  .xor .SI .AX, -- 219: line 259: XORQ SI,AX
  .ror 32 .SI, -- 220: line 260: RORQ $0x20,SI
  .add .DX .SI, -- 221: line 261: ADDQ DX,SI
  .add .AX .CX, -- 222: line 262: ADDQ AX,CX
  .ror 47 .AX, -- 223: line 263: RORQ $0x2F,AX
  .xor .CX .AX, -- 224: line 264: XORQ CX,AX
  .ror 43 .DX, -- 225: line 265: RORQ $0x2B,DX
  .ror 32 .CX, -- 226: line 266: RORQ $0x20,CX
  .xor .SI .DX, -- 227: line 267: XORQ SI,DX
  .add .AX .SI, -- 228: line 269: ADDQ AX,SI
  .ror 51 .AX, -- 229: line 270: RORQ $0x33,AX
  .add .DX .CX, -- 230: line 271: ADDQ DX,CX
  .ror 48 .DX, -- 231: line 272: RORQ $0x30,DX
  .xor .SI .AX, -- 232: line 273: XORQ SI,AX
  .xor .CX .DX, -- 233: line 274: XORQ CX,DX
  .ror 32 .SI, -- 234: line 275: RORQ $0x20,SI
  .add .AX .CX, -- 235: line 276: ADDQ AX,CX
  .add .DX .SI, -- 236: line 277: ADDQ DX,SI
  .ror 47 .AX, -- 237: line 278: RORQ $0x2F,AX
  .ror 43 .DX, -- 238: line 279: RORQ $0x2B,DX
  .xor .CX .AX, -- 239: line 280: XORQ CX,AX
  .xor .SI .DX, -- 240: line 281: XORQ SI,DX
  .ror 32 .CX, -- 241: line 282: RORQ $0x20,CX
  .mov .SI .BX, -- 242: line 284: MOVQ SI,BX
  .xor .AX .BX, -- 243: line 285: XORQ AX,BX
  .xor .DX .BX, -- 244: line 286: XORQ DX,BX
  .xor .CX .BX, -- 245: line 287: XORQ CX,BX
  .movRet .BX 1, -- 246: line 288: MOVQ BX,r1+48(FP)
  .ret] -- 247: line 290: RET

end Verif.Gen.SipAsm
