"""Translate the unrolled bodies of encrypt/decrypt of /repo/threefish/threefish{256,512,1024}.go into instruction lists.
One Go statement becomes the instruction(s) that mean exactly the same; anything not recognised aborts."""
import re
for n in (256, 512, 1024):
    nw = n // 64
    src = open(f'/repo/threefish/threefish{n}.go').read().split('\n')
    par = {f'k{j}': j for j in range(nw + 1)}
    par.update({f't{j}': nw + 1 + j for j in range(3)})
    def operand(x):
        x = x.strip()
        if re.fullmatch(r'b\d+', x): return f'.reg {x[1:]}'
        if x in par: return f'.par {par[x]}'
        assert re.fullmatch(r'\d+', x), x
        return f'.lit {x}'
    out = [f'import Verif.Arx', '', f'/-! Generated by tools/gen_threefish.py from /repo/threefish/threefish{n}.go: the unrolled bodies of `encrypt` and `decrypt`.',
           f'Register `i` is the local `b<i>`; parameter `j` is `k<j>` for `j <= {nw}`, and `t0`, `t1`, `t2` are parameters {nw+1}, {nw+2}, {nw+3}. -/', '',
           f'namespace Verif.Gen.Threefish{n}', 'open Verif.Arx', '', f'abbrev I := Instr {nw}', '']
    for fn in ('encrypt', 'decrypt'):
        start = next(i for i, l in enumerate(src) if l.startswith(f'func (tf *threefish{n}) {fn}(input, output []uint64)'))
        end = next(i for i in range(start, len(src)) if src[i] == '}')
        head = []       # b_i := input[i] etc.
        instrs = []     # (line, [instr])
        tmp = None
        outs = {}
        for i in range(start + 1, end):
            l = re.sub(r'//.*', '', src[i]).strip()
            if not l or l == 'var tmp uint64': continue
            m = re.fullmatch(r'b(\d+) := input\[(\d+)\]', l)
            if m: assert m[1] == m[2]; head.append(l); assert not instrs; continue
            m = re.fullmatch(r'k(\d+) := tf\.expanedKey\[(\d+)\]', l)
            if m: assert m[1] == m[2]; head.append(l); assert not instrs; continue
            m = re.fullmatch(r't(\d+) := tf\.expanedTweak\[(\d+)\]', l)
            if m: assert m[1] == m[2]; head.append(l); assert not instrs; continue
            m = re.fullmatch(r'b(\d+) (\+|-)= (.*)', l)
            if m:
                assert tmp is None and not outs
                instrs.append((i + 1, ['.%s %s [%s]' % ('add' if m[2] == '+' else 'sub', m[1], ', '.join(operand(x) for x in m[3].split('+')))])); continue
            m = re.fullmatch(r'b(\d+) = \(\(b(\d+) << (\d+)\) \| \(b(\d+) >> \(64 - (\d+)\)\)\) \^ b(\d+)', l)
            if m:
                assert m[1] == m[2] == m[4] and m[3] == m[5] and m[6] != m[1] and not outs
                instrs.append((i + 1, [f'.rotl {m[1]} {m[3]}', f'.xor {m[1]} {m[6]}'])); continue
            m = re.fullmatch(r'tmp = b(\d+) \^ b(\d+)', l)
            if m: assert tmp is None; tmp = (m[1], m[2]); continue
            m = re.fullmatch(r'b(\d+) = \(tmp >> (\d+)\) \| \(tmp << \(64 - (\d+)\)\)', l)
            if m:
                assert tmp is not None and m[2] == m[3] and m[1] == tmp[0] != tmp[1] and not outs
                instrs.append((i + 1, [f'.xor {m[1]} {tmp[1]}', f'.rotr {m[1]} {m[2]}'])); tmp = None; continue
            m = re.fullmatch(r'output\[(\d+)\] = b(\d+)((?: \+ \w+)*)', l)
            if m:
                assert m[1] == m[2] and int(m[1]) not in outs and tmp is None
                outs[int(m[1])] = True
                if m[3]: instrs.append((i + 1, ['.add %s [%s]' % (m[1], ', '.join(operand(x) for x in m[3].split('+')[1:]))]))
                continue
            raise SystemExit(f'{n} {fn} line {i+1}: {l}')
        assert len(head) == nw + nw + 1 + 3 and len(outs) == nw
        chunks = [instrs[i:i + 120] for i in range(0, len(instrs), 120)]
        for c, ch in enumerate(chunks):
            out.append(f'/-- `{fn}`, threefish{n}.go:{ch[0][0]}-{ch[-1][0]}. -/')
            out.append(f'def {fn}{c} : List I := [')
            flat = [x for _, xs in ch for x in xs]
            out.append(',\n'.join('  ' + ', '.join(flat[j:j + 6]) for j in range(0, len(flat), 6)) + ']')
            out.append('')
        out.append(f'/-- The body of `{fn}`, threefish{n}.go:{start+1}-{end+1}: the assignments between reading `input` and storing `output`' +
                   (' (the sums stored into `output` are the last ones).' if fn == 'encrypt' else '.') + ' -/')
        out.append(f'def {fn} : List I := ' + ' ++ '.join(f'{fn}{c}' for c in range(len(chunks))))
        out.append('')
    out.append(f'end Verif.Gen.Threefish{n}')
    open(f'/verif/lean/Verif/Gen/Threefish{n}.lean', 'w').write('\n'.join(out) + '\n')
    print(n, len(chunks))
