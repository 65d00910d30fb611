#!/usr/bin/env python3
"""Extracts the `__asm` blocks of core_arch_ops_msvc_x86.hpp and extra_ops_msvc_x86.hpp and writes them as Lean
definitions (lean/Verif/Asm/MsvcCode.lean) with their proofs (MsvcProofs.lean).  Usage: msvcgen.py OUTDIR."""
import re, sys
import asmgen
from asmgen import DETAIL, preprocess, functions, camel, wrap, uses_a

CORE, EXTRA = 'core_arch_ops_msvc_x86.hpp', 'extra_ops_msvc_x86.hpp'

def cond(expr, defs):
    fp = 2 if '_M_IX86_FP' in defs else 0
    e = re.sub(r'defined\s*\(\s*(\w+)\s*\)', lambda m: str(m.group(1) in defs), expr)
    e = re.sub(r'\b_M_IX86_FP\b', str(fp), e)
    e = e.replace('&&', ' and ').replace('||', ' or ').replace('!', ' not ').replace(' not =', ' !=')
    e = re.sub(r'\b(BOOST_\w+|_M_\w+|__\w+)\b', '0', e)
    return bool(eval(e))

asmgen.cond = cond

REG = {}
for i, r in enumerate(['a', 'c', 'd', 'b']):
    for w, n in ((32, f'e{r}x'), (16, f'{r}x'), (8, f'{r}l')): REG[n] = (40 + i, w)
REG.update(esi=(46, 32), edi=(47, 32))
VARS = dict(storage=0, p=0, v=1, bit_number=1, expected=1, desired=2, old_val=3, new_val=3, result=3, success=3, value=3, backup=4)
PTR = {'byte': 8, 'word': 16, 'dword': 32, 'qword': 64}

class Block:
    """The blocks of a function, as lists of instructions."""

def asm_blocks(src, f):
    ls = [(n, t.strip()) for n, t in src if f.line <= n <= f.end]
    res, k = [], 0
    while k < len(ls):
        if ls[k][1] == '__asm':
            a = ls[k][0]; k += 2; body = []
            while ls[k][1] != '};': body.append(ls[k][1]); k += 1
            res.append((a, ls[k][0], [l for l in body if l]))
        k += 1
    return res

def instructions(body, N):
    """Lean instructions with the source text; the operands used and written."""
    points = {}          # register -> variable whose address (or the object) it points to
    lines = [l for l in body if not l.startswith('align')]
    out = []
    used, written = set(), set()
    wide = lambda v: N == 64 and v in ('v', 'desired', 'expected', 'value')
    def mem(s):
        """[reg], [reg + 4], [var], [var + 4] -> ('object', register, hi) or ('var', slot)"""
        m = re.match(r'(?:(byte|word|dword|qword) ptr )?\[(\w+)(?: \+ (4))?\]$', s)
        if not m: return None
        w, b, hi = PTR.get(m.group(1)), m.group(2), bool(m.group(3))
        if b in REG:
            t = points[b]
            if t in ('storage', 'p'): return ('object', REG[b][0], hi, w)
            assert t == 'expected'
            b = t
        s = VARS[b] + (20 if hi else 0)
        assert w is None or w == min(N, 32)
        return ('var', s, hi, w)
    def place(s):
        """A register or a variable: slot and width."""
        if s in REG: return REG[s]
        if s in VARS:
            return VARS[s], None
        m = mem(s)
        assert m and m[0] == 'var', s
        return m[1], m[3]
    labels = {l[:-1]: i for i, l in enumerate(lines) if l.endswith(':')}
    assert len(labels) <= 1
    for l in lines:
        if l.endswith(':'): out.append(('.label 1', l)); continue
        t = l
        if t.startswith('lock '): t = t[5:]
        mn, _, rest = t.partition(' ')
        a = [x.strip() for x in rest.split(',')] if rest else []
        R, W = [], []
        if mn == 'jne': x = f'jne {labels[a[0]]} 1 false'
        elif mn == 'mov' and a[1] in ('storage', 'p'):
            points[a[0]] = a[1]; x = f'movw 32 0 {REG[a[0]][0]}'; R, W = [0], [REG[a[0]][0]]
        elif mn == 'mov' and a[1] == 'expected':
            points[a[0]] = 'expected'; x = f'.havoc [{REG[a[0]][0]}]'; W = [REG[a[0]][0]]
        elif mn in ('mov', 'movzx'):
            m = mem(a[1])
            if m and m[0] == 'object':
                d = REG[a[0]]; assert d[1] == 32 and m[3] == min(N, 32)
                x = f"{'ldhi' if m[2] else 'ldlo'} {m[1]} {d[0]}" if N == 64 else f'ldz {m[1]} {d[0]}'
                R, W = [m[1]], [d[0]]
            else:
                (d, dw), (s, sw) = place(a[0]), place(a[1])
                if mn == 'movzx':
                    assert dw == 32 and N < 32; x = f'movz {N} {s} {d}'
                elif a[1] == 'v' and N == 32 and a[0] in REG: x = f'movz 32 {s} {d}'
                else:
                    w = dw or sw; assert w and (sw in (None, w)) and (dw in (None, w))
                    x = f'movw {w} {s} {d}'
                R, W = [s], [d]
            assert not (a[0] in points)
        elif mn in ('and', 'or', 'xor') and not mem(a[0]):
            (d, dw), (s, sw) = REG[a[0]], REG[a[1]]; assert dw == sw
            x = f'{mn} {dw} {s} {d}'; R, W = [s, d], [d]
        elif mn == 'test':
            (d, dw), (s, sw) = REG[a[0]], REG[a[1]]; assert dw == sw == N
            x = f'testr {dw} {s} {d}'; R = [s, d]
        elif mn in ('neg', 'not') and not mem(a[0]):
            d, dw = REG[a[0]]; assert dw == N; x = f'{mn} {dw} {d}'; R, W = [d], [d]
        elif mn in ('sete', 'setnz', 'setc'):
            x = f'{mn} {VARS[a[0]]}'; W = [VARS[a[0]]]
        elif mn == 'cmpxchg8b':
            o = mem(a[0]); assert o[0] == 'object' and o[3] == 64 and l.startswith('lock')
            x = f'cmpxchg2 40 42 43 41 {o[1]}'; R, W = [40, 42, 43, 41, o[1]], [40, 42]
        elif mn in ('xadd', 'xchg', 'cmpxchg', 'add', 'sub', 'and', 'or', 'xor', 'neg', 'not', 'bts', 'btr', 'btc'):
            o = mem(a[0]); assert o[0] == 'object' and o[3] == N and (l.startswith('lock') or mn == 'xchg')
            s = [REG[y] for y in a[1:]]; assert all(w == N for _, w in s)
            n = mn + ('m' if mn in ('add', 'sub', 'and', 'or', 'xor', 'neg', 'not') else '')
            acc = ' 40' if mn == 'cmpxchg' else ''
            x = f"{n} {N}{acc} {' '.join(str(r) for r, _ in s)} {o[1]}".replace('  ', ' ')
            R = [r for r, _ in s] + [o[1]] + ([40] if acc else [])
            W = [40] if acc else [s[0][0]] if mn in ('xadd', 'xchg') else []
        elif mn in ('movq', 'vmovq', 'fild', 'fistp'):
            if mn == 'fild': a = ['xmm4', a[0]]
            if mn == 'fistp': a = [a[0], 'xmm4']
            if a[0] == 'xmm4':
                o = mem(a[1])
                if o: assert o[0] == 'object' and o[3] == 64; x = f'ldx {o[1]} 50 51'; R, W = [o[1]], [50, 51]
                else: s = VARS[a[1]]; x = f'mov2 {s} {s + 20} 50 51'; R, W = [s, s + 20], [50, 51]
            else:
                assert a[1] == 'xmm4'
                o = mem(a[0])
                if o: assert o[0] == 'object' and o[3] == 64; x = f'stx 50 51 {o[1]}'; R, W = [50, 51, o[1]], []
                else: s = VARS[a[0]]; x = f'mov2 50 51 {s} {s + 20}'; R, W = [50, 51], [s, s + 20]
        else: raise Exception(l)
        used |= set(R) | set(W); written |= set(W)
        out.append((x, l))
    first = {}
    return out, used, written

def emit(f, blk, N, name, file, note=''):
    la, lb, body = blk
    prog, used, written = instructions(body, N)
    cas = 'compare_exchange' in f.name
    opn = []
    uninit = {3, 23, 4}
    for s in sorted(used):
        if s == 43: k = '.reserved'
        elif s >= 40: k = '.outEarly'
        elif s in written: k = '.outEarly' if s in uninit else '.inoutEarly'
        else: k = '.input'
        opn.append((s, k))
    fixed = [(s, s - 40) for s in sorted(used) if 40 <= s < 48]
    pair = N == 64
    # arguments
    has_v = bool(re.search(r'storage_type v,', f.params)); has_b = 'bit_number' in f.params
    A = f'BitVec {N} × BitVec {N}' if cas else f'BitVec {N}' if has_v else f'Fin {N}' if has_b else 'Unit'
    def arg(s, a): return f'x {s} = lower 32 {a} ∧ x {s + 20} = upper 32 {a}' if pair else f'(x {s}).setWidth {N} = {a}'
    pre = [arg(1, 'a.1'), arg(2, 'a.2')] if cas else [arg(1, 'a')] if has_v else ['x 1 = BitVec.ofNat 32 a'] if has_b else []
    # result
    def val(s): return f'(joined 64 (r {s + 20}) (r {s}))' if pair else f'((r {s}).setWidth {N})'
    def both(s): return [s, s + 20] if pair else [s]
    text = ' '.join(t.strip() for n, t in SRC[file, note_defs(note)] if f.line <= n <= f.end)
    ret = re.search(r'return (\w+);', text)
    if cas:
        assert ret.group(1) in ('success', 'result')
        r, results = f'bool8 (r 3) (.cas · {val(1)})', both(1) + [3]
    elif f.ret == 'void': r, results = '.unit', []
    elif f.ret == 'bool': assert ret.group(1) == 'result'; r, results = 'bool8 (r 3) .flag', [3]
    else:
        s = VARS[ret.group(1)]; r, results = f'.val {val(s)}', both(s)
    if 43 in written: results = results + [43]
    doc = f'`{f.name}`, {file} {f.line}–{f.end} (block {la}–{lb}{note}).'
    names = sorted({(VARS[w], w) for l in body for w in re.findall(r'\w+', l) if w in VARS})
    doc += '  Variables: ' + ', '.join(f'{i} `{w}`' for i, w in names) + '.'
    o = '\n'.join(wrap(f'/-- {doc} -/')) + '\n'
    o += f'def {name} : Fn 32 {N} ({A}) (Integral.Ret {N}) where\n  block := {{\n    prog := [\n'
    o += '\n'.join(f"      {x}{',' if k + 1 < len(prog) else ']'}".ljust(46) + f'-- {l}' for k, (x, l) in enumerate(prog)) + '\n'
    o += '    opnds := [' + ', '.join(f'({s}, {k})' for s, k in opn) + ']\n'
    o += '    fixed := [' + ', '.join(f'({s}, {k})' for s, k in fixed) + ']\n'
    o += '    addr := [0]\n    results := [' + ', '.join(map(str, results)) + '] }\n'
    o += f"  args {'a' if pre else '_'} {'x' if pre else '_'} := {' ∧ '.join(pre) if pre else 'True'}\n"
    o += f"  ret _ {'r' if results and f.ret != 'void' else '_'} := {r}\n"
    return o, dict(name=name, cas=cas, v=has_v, b=has_b, ret=f.ret, written=written, used=used, n=len(prog), prog=prog, results=results)

SRC = {}
def note_defs(note): return tuple(re.findall(r'`(\w+)`', note))
def load(file, note, extra=()):
    k = (file, note_defs(note))
    if k not in SRC:
        SRC[k] = preprocess('/repo/' + DETAIL + file, {'_M_IX86', 'BOOST_ATOMIC_DETAIL_X86_HAS_CMPXCHG8B'} | set(note_defs(note)))
    return SRC[k]

SIZE = {'1u': 8, '2u': 16, '4u': 32}

def op_of(n):
    n = {'compare_exchange_strong': 'cas_strong'}.get(n, n)
    return '.' + camel(n)

def shape(f, i):
    n, g = f.name, None
    def sp(x): return f'(fun _ _ _ _ => {x})'
    F = dict(add='(· + ·)', sub='(· - ·)', negate='(- ·)', complement='(~~~ ·)')
    F.update({'and': '(· &&& ·)', 'or': '(· ||| ·)', 'xor': '(· ^^^ ·)'})
    b = re.sub(r'^(fetch|bitwise|opaque)_|_and_test$', '', n)
    if n == 'fetch_add': return 'msvc_xadd (by decide)'
    if n == 'exchange': return 'msvc_xchg (by decide)'
    if n == 'compare_exchange_strong': return 'msvc_cas (by decide)'
    if n.startswith('bit_test'):
        k, l = {'set': ('(· ||| ·)', 'or'), 'reset': ('(fun m k => m &&& ~~~ k)', 'reset'), 'complement': ('(· ^^^ ·)', 'xor')}[n.split('_')[-1]]
        return f'msvc_bit (by decide) {k} (fun m b => ⟨Integral.setsBit_{l} m b, rfl⟩)'
    lock = any('lock cmpxchg' in l for _, l in i['prog']) is False
    h = sp('Iff.rfl')
    if lock:
        if n.endswith('_and_test'): return f'msvc_test2 (by decide) {F[b]} {h}'
        if i['v']: return f'msvc_opaque2 (by decide) {F[b]} {h}'
        return f'msvc_lock1 {F[b]} {h}'
    if i['v']: return f"msvc_{'fetch' if n.startswith('fetch') else 'new'}2 (by decide) {F[b]} {h}"
    k = 'fetch1' if n.startswith('fetch') else 'test1' if n.endswith('_test') else 'opaque1' if n.startswith('opaque') else 'new1'
    return f'msvc_{k} (by decide) {F[b]} {h}'

def main(out):
    code = ('import Verif.Asm.Tactic\nimport Verif.Asm.IsaMsvc\n\n/-\nThe `__asm` blocks of core_arch_ops_msvc_x86.hpp and extra_ops_msvc_x86.hpp '
            '(32-bit x86).\nWritten by tools/msvcgen.py from the source text.\n-/\n\nset_option linter.unusedVariables false\n\nnamespace Verif.Asm\nopen X86\n\n')
    pr = ('import Verif.Asm.MsvcShape\nimport Verif.Asm.X86Pair\nimport Verif.Asm.MsvcCode\n\n/-\nThe functions with `__asm` blocks are correct.\n'
          'Written by tools/msvcgen.py.\n-/\n\nset_option linter.unusedSimpArgs false\nset_option linter.unusedVariables false\n\nnamespace Verif.Asm\nopen X86\n\n')
    fs = {8: [], 16: [], 32: []}
    for file in (CORE, EXTRA):
        src = load(file, '')
        for f in functions(src):
            m = re.search(r'< ?(?:Base, )?(\du),', f.struct)
            bs = asm_blocks(src, f)
            if not bs or not m: continue
            assert len(bs) == 1
            fs[SIZE[m.group(1)]].append((file, f, bs[0]))
    for N in (8, 16, 32):
        ns = f'Msvc{N // 8}'
        code += f'namespace {ns}\n\n'; pr += f'namespace {ns}\n\n'
        seen = set()
        for file, f, b in fs[N]:
            name = camel(f.name)
            if name in seen: name += 'Lock'
            seen.add(name)
            t, i = emit(f, b, N, name, file)
            code += t + '\n'
            op = op_of(f.name)
            op = f'(fun a => {op} a.1 a.2)' if i['cas'] else op if i['v'] or i['b'] else f'(fun _ => {op})'
            pr += f'theorem {name}_ok :\n    {name}.Implements Integral.spec {op} :=\n  {shape(f, i)}\n\n'
        code += f'end {ns}\n\n'; pr += f'end {ns}\n\n'
    # 8 bytes
    code += 'namespace Msvc8\n\n'; pr += 'namespace Msvc8\n\n'
    for name, fn, j, note in (('storeAvx', 'store', 0, ', with `_M_IX86_FP`, `__AVX__`'), ('storeSse2', 'store', 0, ', with `_M_IX86_FP`'),
            ('storeX87', 'store', 0, ''), ('storeLoop', 'store', 1, ''),
            ('loadAvx', 'load', 0, ', with `_M_IX86_FP`, `__AVX__`'), ('loadSse2', 'load', 0, ', with `_M_IX86_FP`'),
            ('loadX87', 'load', 0, ''), ('loadCas', 'load', 1, ''),
            ('cas', 'compare_exchange_strong', 0, ''), ('exchange', 'exchange', 0, '')):
        src = load(CORE, note)
        f = [f for f in functions(src) if f.struct == 'msvc_dcas_x86' and f.name == fn][0]
        t, i = emit(f, asm_blocks(src, f)[j], 64, name, CORE, note)
        code += t + '\n'
        op = {'store': '.store', 'load': '(fun _ => .load)', 'compare_exchange_strong': '(fun a => .casStrong a.1 a.2)', 'exchange': '.exchange'}[fn]
        labels = [k for k, (x, _) in enumerate(i['prog']) if x == '.label 1']
        ins = [s for s in (0, 1, 21, 2, 22) if s in i['used']]
        inv = ' ∧ '.join(f'r {s} = x {s}' for s in ins + ([43] if 43 in i['used'] else []))
        if labels:
            inv = f'if pc = 0 then {inv} else r 47 = x 0 ∧ r 4 = x 43 ∧ r 43 = x 1 ∧ r 41 = x 21'
        inv = f"(fun {'pc' if labels else '_'} x r => {inv})"
        pr += (f"theorem {name}_ok :\n    {name}.Implements Integral.spec {op} := by\n  {'rintro ⟨e, d⟩' if i['cas'] else 'intro a'}\n"
               f"  asm_pair [{name}, put_whole] half64 {[0] + labels} {inv} {[43] if 43 in i['written'] else []} {2 * i['n']}\n\n")
    code += 'end Msvc8\n\n'; pr += 'end Msvc8\n\n'
    open(out + '/MsvcCode.lean', 'w').write(code + 'end Verif.Asm\n')
    open(out + '/MsvcProofs.lean', 'w').write(pr + 'end Verif.Asm\n')

if __name__ == '__main__': main(sys.argv[1])
