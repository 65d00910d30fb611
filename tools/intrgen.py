#!/usr/bin/env python3
"""Extracts the macros of interlocked.hpp for all compilers, and their uses in core_arch_ops_msvc_arm.hpp,
core_arch_ops_msvc_x86.hpp, core_ops_windows.hpp, extra_ops_msvc_arm.hpp and extra_ops_msvc_x86.hpp
(lean/Verif/Asm/InterlockedCode.lean).  Usage: intrgen.py OUTDIR."""
import re, sys
import asmgen
from asmgen import DETAIL, preprocess, functions, camel, wrap

def cond(expr, defs):
    e = re.sub(r'defined\s*\(\s*(\w+)\s*\)', lambda m: str(m.group(1) in defs), expr)
    e = e.replace('&&', ' and ').replace('||', ' or ').replace('!', ' not ').replace(' not =', ' !=')
    e = re.sub(r'\b(_\w+|BOOST_\w+)\b', lambda m: str(defs.get(m.group(1), 0)), e)
    return bool(eval(e))
asmgen.cond = cond

ARCH = dict(x86=['_M_IX86'], amd64=['_M_AMD64'], arm=['_M_ARM'], arm64=['_M_ARM64'], arm64ec=['_M_ARM64EC', '_M_AMD64'])
ERAS = [1310, 1400, 1500, 1600, 1700, 1800, 1900]
PRIM = dict(EXCHANGE_ADD='exchangeAdd', EXCHANGE='exchange', COMPARE_EXCHANGE='compareExchange', AND='and', OR='or', XOR='xor', BTS='bts', BTR='btr')
FPRIM = dict(InterlockedExchangeAdd='exchangeAdd', InterlockedExchange='exchange', InterlockedCompareExchange='compareExchange',
             InterlockedAnd='and', InterlockedOr='or', InterlockedXor='xor', interlockedbittestandset='bts', interlockedbittestandreset='btr')
CAST = {'char': 8, 'short': 16, 'long': 32, '__int64': 64}

def macro_name(s):
    m = re.match(r'BOOST_ATOMIC_INTERLOCKED_(EXCHANGE_ADD|COMPARE_EXCHANGE|EXCHANGE|AND|OR|XOR|BTS|BTR)(8|16|64|128)?(?:_(RELAXED|ACQUIRE|RELEASE))?$', s)
    return m and f"⟨.{PRIM[m.group(1)]}, {m.group(2) or 32}, .{(m.group(3) or 'full').lower()}⟩"
def fn_name(s):
    m = re.match(r'_?((?:Interlocked|interlocked)[A-Za-z]+?)(8|16|64|128)?(?:_(nf|acq|rel))?$', s)
    return f"⟨.{FPRIM[m.group(1)]}, {m.group(2) or 32}, .{dict(nf='relaxed', acq='acquire', rel='release').get(m.group(3), 'full')}⟩"

def split_args(s):
    out, d, cur = [], 0, ''
    for c in s:
        if c in '([': d += 1
        if c in ')]': d -= 1
        if c == ',' and d == 0: out.append(cur.strip()); cur = ''
        else: cur += c
    return out + [cur.strip()]

def table(defs):
    src = preprocess('/repo/' + DETAIL + 'interlocked.hpp', defs)
    text, k = [], 0
    while k < len(src):
        n, t = src[k]
        while t.endswith('\\'): k += 1; t = t[:-1] + src[k][1].strip()
        text.append(t); k += 1
    res, seen = [], {}
    raw = {}
    for t in text:
        m = re.match(r'#define (BOOST_ATOMIC_INTERLOCKED_\w+)\(([^)]*)\)\s+(.*)$', t)
        if not m or not macro_name(m.group(1)): continue
        assert m.group(1) not in raw, m.group(1)
        raw[m.group(1)] = ([p.strip() for p in m.group(2).split(',')], m.group(3).strip())
    def call(name):
        params, body = raw[name]
        m = re.match(r'(?:boost::atomics::detail::)?(\w+)\((.*)\)$', body)
        if m.group(1) in raw:
            assert split_args(m.group(2)) == params
            return call(m.group(1))
        fn = fn_name(m.group(1))
        w = int(re.search(r', (\d+),', fn).group(1))
        args = []
        for a in split_args(m.group(2)):
            x = re.match(r'\((\w+)(\**)\)\((\w+)\)$', a)
            y = re.match(r'\(\(const __int64\*\)\(&(\w+)\)\)\[(\d)\]$', a)
            if x: args.append(f'.param {params.index(x.group(3))} {CAST[x.group(1)]}')
            elif y: args.append(f'.part {params.index(y.group(1))} {y.group(2)}')
            else: args.append(f'.param {params.index(a)} {w}')      # converted to the type of the parameter
        return f"⟨{fn}, [{', '.join(args)}]⟩"
    return [(macro_name(n), call(n)) for n in raw]

VARS = dict(storage=0, v=1, bit_number=1, expected=1, desired=2, previous=3, value=1)
ORDER = dict(relaxed=0, consume=1, acquire=2, release=4, acq_rel=6, seq_cst=14)

def use(call, fn=''):
    m = re.match(r'(BOOST_ATOMIC_INTERLOCKED_\w+)\((.*)\)$', call)
    args = [2 if fn == 'store' and a == 'v' else VARS[a.lstrip('&')] for a in split_args(m.group(2))]
    return f"some ⟨{macro_name(m.group(1))}, {args}⟩"

def calls(t):
    """Uses of macros in a text, with balanced parentheses."""
    for m in re.finditer(r'BOOST_ATOMIC_INTERLOCKED_\w+(?=\()', t):
        d, k = 0, m.end()
        while True:
            d += (t[k] == '(') - (t[k] == ')'); k += 1
            if d == 0: break
        yield m.start(), t[m.start():k]

def selections(file, defs):
    """struct size -> function -> either a use or a list of (order values, use)."""
    src = preprocess('/repo/' + DETAIL + file, defs)
    res = {}
    for f in functions(src):
        m = re.search(r'< ?(?:Base, )?(\d+)u,|(msvc_dcas_x86_64)', f.struct)
        if not m: continue
        N = 128 if m.group(2) else 8 * int(m.group(1))
        text = ' '.join(t.strip() for n, t in src if f.line <= n <= f.end)
        if '__asm' in text or not list(calls(text)): continue
        sw = re.search(r'switch \((.*?)\) \{(.*)$', text)
        if sw:
            on = sw.group(1)
            assert on in ('order', 'base_type::cas_common_order(success_order, failure_order)'), on
            cases = []
            for c in sw.group(2).split('break;')[:-1]:
                cs = [ORDER[o] for o in re.findall(r'case memory_order_(\w+):', c)]
                u = [x for _, x in calls(c)]; assert len(u) == 1
                cases.append((cs, 'default:' in c, use(u[0])))
            res.setdefault(f.name, {})[N] = (f, cases)
        else:
            u = [x for _, x in calls(text)]
            assert len({use(x, f.name) for x in u}) == 1, (f.name, u)
            res.setdefault(f.name, {})[N] = (f, use(u[0], f.name))
    return res

def emit_select(ns, file, defs, only=None, doc=''):
    o = f'namespace {ns}\n\n'
    for name, by in selections(file, defs).items():
        if only and not only(name): continue
        lines = ', '.join(f'{f.line}–{f.end}' for N, (f, _) in sorted(by.items()))
        sw = any(isinstance(c, list) for _, c in by.values())
        d = f"`{name}`, {file} {lines}{doc}: the macro used for objects of `N` bits" + (', given the value of the memory order.' if sw else '.')
        o += '\n'.join(wrap(f'/-- {d} -/')) + '\n'
        o += f"def {camel(name)} : Nat → {'Nat → ' if sw else ''}Option Use\n"
        for N, (f, c) in sorted(by.items()):
            if isinstance(c, list):
                for cs, dflt, u in c:
                    for v in cs: o += f'  | {N}, {v} => {u}\n'
                    if dflt: o += f'  | {N}, _ => {u}\n'
            else: o += f'  | {N} => {c}\n'
        o += f"  | _{', _' if sw else ''} => none\n\n"
    return o + f'end {ns}\n\n'

def main(out):
    o = ('import Verif.Asm.Interlocked\n\n/-\nThe macros of interlocked.hpp and their uses.  Written by tools/intrgen.py from the source text.\n-/\n\n'
         'namespace Verif.Asm.Interlocked\n\n')
    tabs, names = [], {}
    def tab(defs):
        t = tuple(table(defs))
        if t not in names:
            names[t] = f'table{len(names)}'
            tabs.append((names[t], t))
        return names[t]
    msvc = {(a, e): tab(dict({k: 600 for k in ARCH[a]}, _MSC_VER=e)) for a in ARCH for e in ERAS}
    wce = [tab(dict(_WIN32_WCE=v, _MSC_VER=1400)) for v in (0x500, 0x600)]
    wh = [tab(dict(BOOST_USE_WINDOWS_H=1, **({'_WIN64': 1} if w else {}))) for w in (0, 1)]
    de = [tab(dict(**({'_WIN64': 1} if w else {}))) for w in (0, 1)]
    for n, t in tabs:
        o += f'/-- Macros defined by interlocked.hpp. -/\ndef {n} : List (Name × Call) := [\n'
        o += ',\n'.join(f'  ({a}, {c})' for a, c in t) + ']\n\n'
    o += '/-- What interlocked.hpp 53–487 defines for Microsoft\'s compilers. -/\ndef msvcTable : Arch → Era → List (Name × Call)\n'
    for (a, e), n in msvc.items(): o += f'  | .{a}, .v{e} => {n}\n'
    o += '\n/-- What interlocked.hpp defines: 17–51, 53–487, 491–517, 519–581. -/\ndef Compiler.table : Compiler → List (Name × Call)\n'
    o += f'  | .wce ver => if 0x600 ≤ ver then {wce[1]} else {wce[0]}\n  | .msvc arch ver => msvcTable arch (era ver)\n'
    o += f'  | .windowsH win64 => if win64 then {wh[1]} else {wh[0]}\n  | .declared win64 => if win64 then {de[1]} else {de[0]}\n\n'
    o += '/-! ### Uses -/\n\n'
    allx = {'_MSC_VER': 1900, '_M_AMD64': 1, 'BOOST_ATOMIC_DETAIL_X86_HAS_CMPXCHG16B': 1}
    for m in ('AND', 'OR', 'XOR', 'COMPARE_EXCHANGE8', 'COMPARE_EXCHANGE16', 'BTS', 'BTR', 'BTS64', 'BTR64'): allx['BOOST_ATOMIC_INTERLOCKED_' + m] = 1
    arm = dict(allx)
    for m in ('BTS', 'BTR'):
        for s in ('RELAXED', 'ACQUIRE', 'RELEASE'): arm[f'BOOST_ATOMIC_INTERLOCKED_{m}_{s}'] = 1
    o += emit_select('Arm', 'core_arch_ops_msvc_arm.hpp', arm)
    o += emit_select('ArmExtra', 'extra_ops_msvc_arm.hpp', arm)
    o += emit_select('X86', 'core_arch_ops_msvc_x86.hpp', allx)
    o += emit_select('X86Extra', 'extra_ops_msvc_x86.hpp', allx)
    o += emit_select('Windows', 'core_ops_windows.hpp', allx)
    open(out + '/InterlockedCode.lean', 'w').write(o + 'end Verif.Asm.Interlocked\n')

if __name__ == '__main__': main(sys.argv[1])
