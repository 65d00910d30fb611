#!/usr/bin/env python3
"""Extracts the inline assembly blocks of Boost.Atomic from the source text and writes them as Lean
definitions (lean/Verif/Asm/Code*.lean).  Usage: asmgen.py REPO OUTDIR."""
import re, sys

DETAIL = 'include/boost/atomic/detail/'

# ---------------------------------------------------------------- preprocessing

def strip_comments(line):
    out, i, ins = '', 0, False
    while i < len(line):
        c = line[i]
        if ins:
            out += c
            if c == '\\':
                out += line[i+1]; i += 1
            elif c == '"': ins = False
        elif c == '"': out += c; ins = True
        elif line.startswith('//', i): break
        else: out += c
        i += 1
    return out

def cond(expr, defs):
    e = re.sub(r'defined\s*\(\s*(\w+)\s*\)', lambda m: str(m.group(1) in defs), expr)
    e = e.replace('&&', ' and ').replace('||', ' or ').replace('!', ' not ').replace(' not =', ' !=')
    e = re.sub(r'\b(BOOST_\w+|__\w+)\b', '0', e)
    return bool(eval(e))

def preprocess(path, defs):
    """Lines (number, text) that remain active; #define of function-like macros are kept."""
    out, stack, comment = [], [], False
    lines = open(path).read().split('\n')
    n = 0
    while n < len(lines):
        l = lines[n]
        if comment:
            if '*/' in l: comment = False
            n += 1; continue
        if l.lstrip().startswith('/*'):
            if '*/' not in l: comment = True
            n += 1; continue
        t = strip_comments(l).strip()
        # a directive may be continued
        if t.startswith('#') and not t.startswith('#define'):
            while t.endswith('\\'):
                n += 1; t = t[:-1] + strip_comments(lines[n]).strip()
        if re.match(r'#\s*ifdef\s+(\w+)', t):
            stack.append([re.match(r'#\s*ifdef\s+(\w+)', t).group(1) in defs, False]); stack[-1][1] = stack[-1][0]
        elif re.match(r'#\s*ifndef\s+(\w+)', t):
            stack.append([re.match(r'#\s*ifndef\s+(\w+)', t).group(1) not in defs, False]); stack[-1][1] = stack[-1][0]
        elif re.match(r'#\s*if\b', t):
            v = cond(re.sub(r'^#\s*if', '', t), defs); stack.append([v, v])
        elif re.match(r'#\s*elif\b', t):
            if stack[-1][1]: stack[-1][0] = False
            else:
                v = cond(re.sub(r'^#\s*elif', '', t), defs); stack[-1] = [v, v]
        elif re.match(r'#\s*else\b', t):
            stack[-1][0] = not stack[-1][1]
        elif re.match(r'#\s*endif\b', t): stack.pop()
        elif all(s[0] for s in stack):
            out.append((n + 1, strip_comments(l).rstrip()))
        n += 1
    return out

# ---------------------------------------------------------------- functions and blocks

def tokenise(src):
    """[(line, text)] -> list of (line, char)"""
    return [(n, c) for n, t in src for c in t + '\n']

class Fn: pass

def functions(src):
    """Yield functions with struct name, name, params, body text with line numbers, macros in force."""
    macros, struct = {}, None
    i = 0
    res = []
    # fold #define continuation
    items = []
    k = 0
    while k < len(src):
        n, t = src[k]
        if t.lstrip().startswith('#define'):
            body = [(n, t)]
            while t.endswith('\\'):
                body[-1] = (n, t[:-1]); k += 1; n, t = src[k]; body.append((n, t))
            items.append(('define', body))
        elif t.lstrip().startswith('#undef'):
            items.append(('undef', t.split()[1]))
        elif t.lstrip().startswith('#'):
            pass
        else: items.append(('text', (n, t)))
        k += 1
    # walk
    k = 0
    pend = []
    while k < len(items):
        kind, x = items[k]
        if kind == 'define': define(macros, x); k += 1; continue
        if kind == 'undef': macros.pop(x, None); k += 1; continue
        n, t = x
        m = re.match(r'\s*struct\s+(\w+(?:<[^:]*>)?)', t)
        if m: struct = (n, re.sub(r'\s+', ' ', m.group(1)).strip())
        m = re.match(r'\s*static\s+(?:BOOST_FORCEINLINE|inline)\s+(.*)$', t)
        if m:
            # header until '{'
            head, f = '', Fn()
            f.line = n; f.struct = struct[1] if struct else ''
            while '{' not in items[k][1][1] if items[k][0] == 'text' else True:
                head += ' ' + items[k][1][1]; k += 1
            f.head = re.sub(r'\s+', ' ', head).strip()
            depth, body = 0, []
            while True:
                kind, x = items[k]
                if kind == 'define': define(macros, x)
                elif kind == 'undef': macros.pop(x, None)
                else:
                    n, t = x
                    for c in expand(n, t, macros):
                        body.append(c)
                    depth += t.count('{') - t.count('}')
                    f.end = n
                    if depth == 0 and '}' in t: break
                k += 1
            f.body = body
            m = re.match(r'static (?:BOOST_FORCEINLINE|inline) ([\w ]+?) (\w+)\s*\((.*)\) noexcept', f.head)
            if m:
                f.ret, f.name, f.params = m.group(1), m.group(2), m.group(3)
                res.append(f)
        k += 1
    return res

def define(macros, body):
    n, t = body[0]
    m = re.match(r'\s*#define\s+(\w+)\(([^)]*)\)(.*)$', t)
    if not m: return
    macros[m.group(1)] = ([p.strip() for p in m.group(2).split(',')], [(n, m.group(3))] + body[1:])

def args_of(s):
    """split arguments at depth 0; s starts after '('; returns (args, rest)"""
    depth, cur, args, ins, i = 0, '', [], False, 0
    while i < len(s):
        c = s[i]
        if ins:
            cur += c
            if c == '\\': cur += s[i+1]; i += 1
            elif c == '"': ins = False
        elif c == '"': ins = True; cur += c
        elif c in '([': depth += 1; cur += c
        elif c == ')' and depth == 0: args.append(cur.strip()); return args, s[i+1:]
        elif c in ')]': depth -= 1; cur += c
        elif c == ',' and depth == 0: args.append(cur.strip()); cur = ''
        else: cur += c
        i += 1
    raise Exception('unbalanced ' + s)

def expand(n, t, macros):
    """Expand the macros that produce asm blocks; everything else is left."""
    m = re.search(r'\b(BOOST_ATOMIC_DETAIL_CAS_LOOP|BOOST_ATOMIC_DETAIL_AARCH(?:64|32)_MO_SWITCH)\s*\(', t)
    if not m: return [(n, t)]
    name = m.group(1)
    args, rest = args_of(t[m.end():])
    if name.endswith('MO_SWITCH'):
        name = name.replace('SWITCH', 'INSN'); args = ['""', '""']
    ps, body = macros[name]
    out = [(n, t[:m.start()])]
    for ln, bt in body:
        for p, a in zip(ps, args):
            bt = re.sub(r'(?<![\w%\[])' + p + r'(?![\w\]])', lambda _: a, bt) if not p.endswith('_mo') else \
                 re.sub(r'\b' + p + r'\b', lambda _: a, bt)
        out.append((ln, bt))
    out.append((n, rest))
    return out

def blocks(f):
    """asm statements of a function: list of (pos, line, [template, outputs, inputs, clobbers])"""
    text, lines = '', []
    for n, t in f.body:
        text += t + '\n'; lines += [n] * (len(t) + 1)
    f.text = text
    res = []
    for m in re.finditer(r'__asm__(?:\s+__volatile__)?\s*\(', text):
        i, depth, ins, secs, cur = m.end(), 0, False, [], ''
        while True:
            c = text[i]
            if ins:
                cur += c
                if c == '\\': cur += text[i+1]; i += 1
                elif c == '"': ins = False
            elif c == '"': ins = True; cur += c
            elif c in '([': depth += 1; cur += c
            elif c == ')' and depth == 0: break
            elif c in ')]': depth -= 1; cur += c
            elif c == ':' and text[i+1] == ':' and depth > 0: cur += '::'; i += 1
            elif c == ':' and depth == 0: secs.append(cur); cur = ''
            else: cur += c
            i += 1
        secs.append(cur)
        res.append((m.start(), i, lines[m.start()], lines[i], [s.strip() for s in secs] + [''] * (4 - len(secs))))
    return res

def operands(s):
    res = []
    while s.strip():
        s = s.strip()
        m = re.match(r'(?:\[(\w+)\]\s*)?((?:"[^"]*"\s*|BOOST_\w+\s*)+)\(', s)
        if not m: raise Exception('operand ' + s)
        args, rest = args_of(s[m.end():])
        res.append((m.group(1), m.group(2).strip(), ', '.join(args)))
        rest = rest.strip()
        if rest.startswith(','): rest = rest[1:]
        s = rest
    return res


# ---------------------------------------------------------------- emission

OPS = {}
for n, l, k in [
    ('load', '.load', 'u'), ('store', '.store', 'v'), ('exchange', '.exchange', 'v'),
    ('compare_exchange_weak', '.casWeak', 'c'), ('compare_exchange_strong', '.casStrong', 'c'),
    ('fetch_add', '.fetchAdd', 'v'), ('fetch_sub', '.fetchSub', 'v'), ('fetch_and', '.fetchAnd', 'v'),
    ('fetch_or', '.fetchOr', 'v'), ('fetch_xor', '.fetchXor', 'v'), ('fetch_negate', '.fetchNegate', 'u'),
    ('fetch_complement', '.fetchComplement', 'u'), ('add', '.add', 'v'), ('sub', '.sub', 'v'),
    ('negate', '.negate', 'u'), ('bitwise_and', '.bitwiseAnd', 'v'), ('bitwise_or', '.bitwiseOr', 'v'),
    ('bitwise_xor', '.bitwiseXor', 'v'), ('bitwise_complement', '.bitwiseComplement', 'u'),
    ('opaque_add', '.opaqueAdd', 'v'), ('opaque_sub', '.opaqueSub', 'v'), ('opaque_negate', '.opaqueNegate', 'u'),
    ('opaque_and', '.opaqueAnd', 'v'), ('opaque_or', '.opaqueOr', 'v'), ('opaque_xor', '.opaqueXor', 'v'),
    ('opaque_complement', '.opaqueComplement', 'u'), ('add_and_test', '.addAndTest', 'v'),
    ('sub_and_test', '.subAndTest', 'v'), ('and_and_test', '.andAndTest', 'v'), ('or_and_test', '.orAndTest', 'v'),
    ('xor_and_test', '.xorAndTest', 'v'), ('bit_test_and_set', '.bitTestAndSet', 'b'),
    ('bit_test_and_reset', '.bitTestAndReset', 'b'), ('bit_test_and_complement', '.bitTestAndComplement', 'b')]:
    OPS[n] = (l, k)

def camel(n):
    p = n.split('_')
    r = p[0] + ''.join(x.capitalize() for x in p[1:])
    return r + '_' if r in ('add', 'sub', 'load', 'store') else r

class Op:
    """A register operand: index, symbolic name, constraint, C++ expression, input or output."""
    def __init__(s, i, name, con, expr, out):
        s.i, s.name, s.con, s.expr, s.out = i, name, con, expr, out
        s.mem = any(c in con for c in 'mQZ') or False
        s.early = '&' in con; s.inout = '+' in con
        s.flag = '@cc' in con
    def kind(s):
        if s.mem: return '.input'
        if not s.out: return '.input'
        return '.' + ('inout' if s.inout else 'out') + ('Early' if s.early else '')

def template(t, isa):
    """The instruction lines of a template, with macros replaced by pseudo lines."""
    s, out = t, ''
    while s:
        s = s.lstrip()
        if not s: break
        if s[0] == '"':
            m = re.match(r'"((?:[^"\\]|\\.)*)"', s)
            out += m.group(1).replace('\\n', '\n').replace('\\t', ''); s = s[m.end():]
        else:
            m = re.match(r'(\w+)\s*(\()?', s)
            if m.group(2):
                args, rest = args_of(s[m.end():]); out += isa.macro(m.group(1), args); s = rest
            else:
                out += isa.macro(m.group(1), []); s = s[m.end():]
    lines = []
    for l in out.split('\n'):
        l = re.sub(r'\s+', ' ', l).strip()
        m = re.match(r'(\d+):(.*)$', l)
        while m:
            lines.append(m.group(1) + ':'); l = m.group(2).strip(); m = re.match(r'(\d+):(.*)$', l)
        if l: lines.append(l)
    return lines

def resolve(lines):
    """Targets of local labels."""
    labs = [(int(l[:-1]), k) for k, l in enumerate(lines) if re.match(r'\d+:$', l)]
    def target(ref, k):
        n, d = int(ref[:-1]), ref[-1]
        c = [p for m, p in labs if m == n and (p > k if d == 'f' else p < k)]
        return min(c) if d == 'f' else max(c)
    return target

class Isa:
    params, regs = '', 32
    def macro(s, name, args): raise Exception('macro ' + name)
    def slot(s, tok, ops):
        """Slot number of an operand as written."""
        m = re.match(r'\(?%([a-zA-Z]?)(?:(\d+)|\[(\w+)\])\)?$', tok)
        if not m: raise Exception('operand ' + tok)
        if m.group(2): o = [o for o in ops if o.i == int(m.group(2))][0]
        else: o = [o for o in ops if o.name == m.group(3)][0]
        return str(o.i + (20 if m.group(1) == 'H' else 0)), m.group(1)

def emit_block(isa, f, blk, size, N, name, opts):
    """Lean text of one function made of one block."""
    _, _, la, lb, secs = blk
    ops, i = [], 0
    for out, sec in ((True, secs[1]), (False, secs[2])):
        for nm, con, ex in operands(sec):
            con = isa.constraint(con)
            ops.append(Op(i, nm, con, ex, out)); i += 1
    lines = template(secs[0], isa)
    lines = isa.adjust(lines, ops, f)
    target = resolve(lines)
    prog = []
    for k, l in enumerate(lines):
        m = re.match(r'(\d+):$', l)
        prog.append((f'.label {m.group(1)}' if m else isa.ins(l, k, ops, target, size), l))
    lean_op, kind = OPS[f.name]
    if opts.get('one'): kind = 'u'
    pair = isa.pair(size)
    slots = lambda o: [o.i, o.i + 20] if (pair and not o.mem and isa.wide(o)) else [o.i]
    regops = [o for o in ops if not o.flag]
    opn = []
    for o in regops:
        for s in slots(o): opn.append((s, o.kind(), o))
    # arguments
    A = {'u': 'Unit', 'v': f'BitVec {N}', 'c': f'BitVec {N} × BitVec {N}', 'b': f'Fin {N}'}[kind]
    argv = {'v': {'v': 'a'}, 'c': {'expected': 'a.1', 'desired': 'a.2'}, 'u': {}, 'b': {'bit_number': 'a'}}[kind]
    pre = []
    for o in regops:
        if o.mem: continue
        if o.out and not o.inout: continue
        e = isa.arg(o, argv, f, N, pair)
        if e: pre.append(e)
    pre += opts.get('pre', [])
    # result
    ret, results = isa.result(f, ops, kind, N, pair, slots, opts)
    addr = [o.i for o in ops if o.mem] + opts.get('addr', [])
    w = [len(p) for p, _ in prog]
    body = []
    for k, (p, l) in enumerate(prog):
        body.append(f"      {p}{',' if k + 1 < len(prog) else ']'}".ljust(46) + f'-- {l}')
    doc = f"`{f.name}`, {opts['file']} {f.line}–{f.end} (assembly block {la}–{lb}{opts.get('note', '')})."
    cons = '; '.join((f'[{o.name}] ' if o.name else f'%{o.i} ') + o.con + f' ({o.expr})' for o in ops)
    out = [f'/-- {doc}  Operands, in this order: {cons}. -/']
    out = ['\n'.join(wrap(out[0]))]
    params = opts.get('params', isa.params)
    out.append(f'def {name}{params} : Fn {isa.regs} {size} ({A}) (Integral.Ret {opts.get("retN", N)}) where')
    out.append('  block := {\n    prog := [\n' + '\n'.join(body))
    opnl = isa.opnds(opn)
    out.append('    opnds := ' + opnl)
    fx = isa.fixed(regops)
    if fx: out.append('    fixed := [' + ', '.join(f'({a}, {b})' for a, b in fx) + ']')
    if opts.get('differ'): out.append('    differ := [' + ', '.join(f'({a}, {b})' for a, b in opts['differ']) + ']')
    out.append('    addr := [' + ', '.join(map(str, addr)) + ']')
    out.append('    results := [' + ', '.join(map(str, results)) + '] }')
    out.append(f"  args {'a' if uses_a(' '.join(pre)) else '_'} {'x' if pre else '_'} := " + (' ∧ '.join(pre) if pre else 'True'))
    out.append(f"  ret {'a' if uses_a(ret) else '_'} {'r' if results else '_'} := {ret}")
    text = '\n'.join(out) + '\n'
    # proof data
    backs = sorted({int(m.group(1)) for p, _ in prog for m in [re.match(r'\w+.* (\d+) \d+ false(?: |$)', p)] if m} |
                   {0} | set(opts.get('cuts', [])))
    written = isa.written(prog)
    keep = [s for s, k, o in opn if (k == '.input' and s not in written) or o.expr == 'success' and o.inout]
    keep += opts.get('addr', [])
    info = dict(name=name, op=(lean_op if kind in 'vb' else f'fun _ => {lean_op}' if kind == 'u' else
                f'fun a => {lean_op} a.1 a.2'), cuts=backs, keep=sorted(set(keep)), n=opts.get('n', len(prog)), params=params,
                file=opts['file'], line=f.line)
    return text, info

def uses_a(s): return re.search(r'(?<![.\w])a\b', s)

def wrap(s, width=100):
    out, cur = [], ''
    for w in s.split(' '):
        if cur and len(cur) + 1 + len(w) > width: out.append(cur); cur = w
        else: cur = cur + ' ' + w if cur else w
    return out + [cur]

class Arm(Isa):
    params, regs, ns = ' (thumb : Bool)', 32, 'Arm'
    def pair(s, size): return size == 64
    def constraint(s, c):
        return '"=&l"' if c.startswith('BOOST_ATOMIC_DETAIL_ARM_ASM_TMPREG_CONSTRAINT') else c
    def macro(s, name, args):
        if name.endswith('ASM_START') or name.endswith('ASM_END'): return f'@mode {args[0]}\n'
        if name.endswith('ARG_LO'): return f'%L{args[0]}'
        if name.endswith('ARG_HI'): return f'%U{args[0]}'
        raise Exception(name)
    def adjust(s, lines, ops, f): return lines
    def wide(s, o): return o.expr not in ('tmp', 'success')
    def slot(s, tok, ops):
        m = re.match(r'%([LU])(\d+)$', tok)
        if m:
            i = int(m.group(2))
            return (f'(lo be {i})' if m.group(1) == 'L' else f'(hi be {i})'), ''
        return super().slot(tok, ops)
    def ins(s, l, k, ops, target, size):
        m = re.match(r'(\S+)\s*(.*)$', l)
        mn, args = m.group(1), [a.strip() for a in m.group(2).split(',')] if m.group(2) else []
        if mn == '@mode': return 'mode thumb ' + s.slot(args[0], ops)[0]
        if mn in ('it', 'itt'): return 'nop'
        if mn in ('bne', 'beq'):
            return f"{mn} {target(args[0], k)} {args[0][:-1]} {'true' if args[0][-1] == 'f' else 'false'}"
        mn = {'ldaexd': 'ldrexd', 'stlexd': 'strexd'}.get(mn, mn)
        mn = re.sub(r'^ldex', 'ldrex', re.sub(r'^stex', 'strex', mn))
        imm = args and args[-1].startswith('#')
        if len(args) == 2 and mn in ('add', 'sub', 'and', 'orr', 'eor', 'rsb', 'adds', 'adc', 'subs', 'sbc'):
            args = [args[0]] + args
        a = [x[1:] if x.startswith('#') else s.slot(x, ops)[0] for x in args]
        if mn in ('ldrexd', 'strexd'): a = ['be'] + a
        return ' '.join([mn + ('I' if imm else '')] + a)
    def arg(s, o, argv, f, N, pair):
        e = o.expr
        m = re.match(r'atomics::detail::zero_extend< extended_storage_type >\((\w+)\)$', e)
        if m: return f'x {o.i} = {argv[m.group(1)]}.setWidth 32'
        if e == 'success': return f'x {o.i} = 0'
        if pair: return f'unwords be (x {o.i}) (x {o.i + 20}) = {argv[e]}'
        if s.word: return f'x {o.i} = {s.word} {argv[e]}'
        if N == 32: return f'x {o.i} = {argv[e]}'
        return f'(x {o.i}).setWidth {N} = {argv[e]}'
    word = None
    def value(s, o, N, pair):
        if pair: return f'(unwords be (r {o.i}) (r {o.i + 20}))'
        if s.word or N == s.regs: return f'(r {o.i})'
        return f'((r {o.i}).setWidth {N})'
    def result(s, f, ops, kind, N, pair, slots, opts):
        tail = f.text
        if kind == 'c':
            m = re.search(r'expected = (?:static_cast< storage_type >\()?(\w+)(?:\.as_storage)?\)?;', tail)
            o = [o for o in ops if o.expr == m.group(1)][0]
            b = [o for o in ops if o.expr == 'success'][0]
            return f'bool8 (r {b.i}) (.cas · {s.value(o, N, pair)})', slots(o) + [b.i]
        m = re.search(r'return (?:static_cast< storage_type >\()?(\w+)(?:\.as_storage)?\)?;', tail)
        if not m: return '.unit', []
        o = [o for o in ops if o.expr == m.group(1)][0]
        return f'.val {s.value(o, N, pair)}', slots(o)
    def opnds(s, opn):
        plain = [f'({a}, {k})' for a, k, o in opn if not (o.expr == 'tmp' and s.optional_tmp)]
        tmp = [f'({a}, {k})' for a, k, o in opn if (o.expr == 'tmp' and s.optional_tmp)]
        r = '[' + ', '.join(plain) + ']'
        if tmp: r = f"(if thumb then [{', '.join(tmp)}] else []) ++\n      " + r
        return r
    optional_tmp = False
    def fixed(s, ops): return []
    def written(s, prog):
        r = set()
        for p, _ in prog:
            w = p.split()
            if w[0] in ('uxtb', 'uxth'): r.add(int(w[1]))
        return r

HEAD = """import Verif.Asm.Tactic
import Verif.Asm.{imp}

/-
{doc}
Written by tools/asmgen.py from the source text.
-/

set_option linter.unusedVariables false

namespace Verif.Asm

"""

def size_of(f):
    m = re.search(r'<(?: Base,)? (\d+)u', f.struct)
    return int(m.group(1)) * 8

def gather(files, sel=lambda f: True):
    """Functions with assembly, of (file, defines) pairs."""
    out = []
    for fn, defs in files:
        for f in functions(preprocess('/repo/' + DETAIL + fn, set(defs))):
            f.file = fn
            f.blks = blocks(f)
            if f.blks and sel(f): out.append(f)
    return out

def proof_simple(i, tac, binders, cases):
    c = (' <;> '.join(f'cases {b}' for b in cases) + ' <;> ') if cases else ''
    app = i['name'] + ''.join(' ' + b for b in binders)
    if binders: app = f'({app})'
    lead = ' '.join(f'({b} : Bool)' for b in binders)
    return (f"theorem {i['name']}_ok{' ' + lead if lead else ''} : {app}.Implements Integral.spec "
            f"{paren(i['op'])} := by\n  {intro(i)}\n  {c}{tac} [{i['name']}] {i['cuts']} {i['keep']} [] {i['n']}\n")

def proof_inv(i, tac, bs, wr, inv):
    """As proof_simple, with some operands declared as written, and with the given assertion."""
    c = (' <;> '.join(f'cases {b}' for b in bs) + ' <;> ') if bs else ''
    app = i['name'] + ''.join(' ' + b for b in bs)
    if bs: app = f'({app})'
    for w in wr: app = f'({app}.writes {w})'
    lead = ' '.join(f'({b} : Bool)' for b in bs)
    u = f"[{i['name']}, Fn.writes]" if wr else f"[{i['name']}]"
    keep = inv or str(sorted(set(i['keep'] + wr)))
    return (f"theorem {i['name']}_ok{' ' + lead if lead else ''} : {app}.Implements Integral.spec "
            f"{paren(i['op'])} := by\n  {intro(i)}\n  {c}{tac} {u} {i['cuts']} {keep} [] {i['n']}\n")

def intro(i): return 'rintro ⟨e, d⟩' if 'compare' in i['name'] else 'intro a'

def paren(s): return f'({s})' if ' ' in s else s

def arm(out):
    B = ['BOOST_ATOMIC_DETAIL_ARM_HAS_LDREXB_STREXB', 'BOOST_ATOMIC_DETAIL_ARM_HAS_LDREXH_STREXH',
         'BOOST_ATOMIC_DETAIL_ARM_HAS_LDREXD_STREXD']
    fs = gather([('core_arch_ops_gcc_arm.hpp', B), ('extra_ops_gcc_arm.hpp', B)])
    fs += [f for f in gather([('core_arch_ops_gcc_arm.hpp', B + ['BOOST_ATOMIC_DETAIL_ARM_ASM_TMPREG_UNUSED'])])
           if f.name == 'load']
    code = HEAD.format(imp='IsaArm', doc='The assembly blocks of core_arch_ops_gcc_arm.hpp and extra_ops_gcc_arm.hpp.')
    infos = {}
    seen = set()
    for N in (8, 16, 32, 64):
        code += f'namespace Arm{N // 8}\nopen Arm\n\n'
        infos[N] = []
        for f in fs:
            if size_of(f) != N: continue
            isa = Arm()
            for b in f.blks:
                name = camel(f.name)
                if f.name == 'load' and 'ASM_START' in b[4][0]: name = 'loadThumb'
                isa.optional_tmp = '"=&l" (tmp)' in b[4][1] and 'compare' in f.name and N < 64
                par = ' (thumb be : Bool)' if N == 64 else isa.params
                t, i = emit_block(isa, f, b, N, N, name, dict(file=f.file, params=par))
                code += t + '\n'
                infos[N].append(i)
        code += f'end Arm{N // 8}\n\n'
    # one word, narrow value
    fs = gather([('core_arch_ops_gcc_arm.hpp', [])], lambda f: size_of(f) < 32)
    winfos = []
    code += 'namespace ArmWord\nopen Arm\n\n'
    for f in fs:
        isa = Arm(); sg = ' true' in f.struct; N = size_of(f)
        isa.word = f'(BitVec.{"signExtend" if sg else "setWidth"} 32)'
        name = camel(f.name) + f'{N // 8}' + ('s' if sg else 'u')
        t, i = emit_block(isa, f, f.blks[0], 32, N, name, dict(file=f.file, retN=32))
        i['N'], i['sg'] = N, sg
        code += t + '\n'; winfos.append(i)
    code += 'end ArmWord\n\nend Verif.Asm\n'
    open(out + '/ArmCode.lean', 'w').write(code)
    return infos, winfos


PROOF = """import Verif.Asm.{imp}

/-
Proofs for the functions in {imp}.lean.  Written by tools/asmgen.py.
-/

set_option linter.unusedSimpArgs false
set_option linter.unusedVariables false

namespace Verif.Asm.{ns}

"""

def arm_proofs(out, infos, winfos):
    for N in infos:
        ns = f'Arm{N // 8}'
        t = PROOF.format(imp='ArmCode', ns=ns) + 'open Arm\n\n'
        bs = ['thumb', 'be'] if N == 64 else ['thumb']
        for i in infos[N]:
            if 'compare' not in i['name']:
                t += proof_simple(i, 'asm_exec2' if N == 64 else 'asm_exec', bs, bs) + '\n'
                continue
            strong = 'Strong' in i['name']
            app = f"({i['name']} {' '.join(bs)})"
            lead = f"({' '.join(bs)} : Bool)"
            su, ad, ex, de = (1, 3, [4], [5]) if N < 64 else (2, 3, [4, 24], [5, 25])
            dif = [(su, ad)] + [(su, d) for d in de]
            cond = 'a.2 ≠ 0' if N < 64 else 'lower 32 a.2 ≠ 0 ∧ upper 32 a.2 ≠ 0'
            if N == 64 and strong: t += 'set_option maxHeartbeats 2000000 in\n'
            t += f"theorem {i['name']}_ok {lead} :\n    {app}.ImplementsFor (fun a => {cond}) Integral.spec {paren(i['op'])} := by\n  rintro ⟨e, d⟩ hd\n"
            run = lambda keep: f"asm_exec{'2' if N == 64 else ''} [{i['name']}] {i['cuts']} {keep} [] {i['n']}"
            c = ' <;> '.join(f'cases {b}' for b in bs)
            t += f"  {c}\n  all_goals\n"
            t += f"    refine correct_differ [{', '.join(map(str, dif))}] ?_ ?_\n"
            t += f"    · cas_differ [{i['name']}]\n"
            keep = i['keep']
            if not strong: t += f"    · {run(keep)}\n"
            else:
                def shares(k, done, ind):
                    r = ''
                    if k == len(ex):
                        if not done: return ' ' * ind + '· ' + run(keep) + '\n'
                        r += ' ' * ind + '· '
                        if N < 64:
                            r += f"refine correct_assume (by rfl) (e = 0) (by cas_zero [{i['name']}]) ?_\n" + ' ' * ind + '  rintro rfl\n' + ' ' * ind + '  '
                        r += f"cas_merge [{i['name']}]\n"
                        return r + ' ' * ind + f"  asm_exec{'2' if N == 64 else ''} [rd] {i['cuts']} {[x for x in keep if x not in done]} [] {i['n']}\n"
                    r += ' ' * ind + f'· refine correct_share {su} {ex[k]} ?_ ?_\n'
                    r += shares(k + 1, done, ind + 2) + shares(k + 1, done + [ex[k]], ind + 2)
                    return r
                t += shares(0, [], 4)
            t += '\n'
        t += f'end Verif.Asm.{ns}\n'
        open(f'{out}/{ns}Proofs.lean', 'w').write(t)

    t = PROOF.format(imp='ArmCode', ns='ArmWord').replace('import Verif.Asm.ArmCode', 'import Verif.Asm.ArmCode\nimport Verif.Asm.Word') + 'open Arm\n\n'
    for i in winfos:
        t += (f"theorem {i['name']}_ok (thumb : Bool) : ({i['name']} thumb).Implements "
              f"(inWord ({'BitVec.signExtend' if i['sg'] else 'BitVec.setWidth'} 32)) (.{i['name'][:-2]} (N := {i['N']})) := by\n"
              f"  intro a\n  cases thumb <;> asm_word [{i['name']}] {i['cuts']} {i['keep']} {i['n']}\n\n")
    open(f'{out}/ArmWordProofs.lean', 'w').write(t + 'end Verif.Asm.ArmWord\n')

class AArch32(Arm):
    params = ''

def names(fs):
    """Names of the functions; blocks of a function with several are numbered."""
    for f in fs:
        for k, b in enumerate(f.blks):
            yield f, b, camel(f.name) + (str(k + 1) if len(f.blks) > 1 else '')

def aarch32(out):
    fs = gather([('core_arch_ops_gcc_aarch32.hpp', []), ('extra_ops_gcc_aarch32.hpp', [])])
    code = HEAD.format(imp='IsaArm', doc='The assembly blocks of core_arch_ops_gcc_aarch32.hpp and extra_ops_gcc_aarch32.hpp.')
    for N in (8, 16, 32, 64):
        ns = f'AArch32x{N // 8}'
        code += f'namespace {ns}\nopen Arm\n\n'
        bs = ['be'] if N == 64 else []
        p = PROOF.format(imp='AArch32Code', ns=ns) + 'open Arm\n\n'
        for f, b, name in names([f for f in fs if size_of(f) == N]):
            t, i = emit_block(AArch32(), f, b, N, N, name, dict(file=f.file, params=' (be : Bool)' if N == 64 else ''))
            code += t + '\n'
            tac = 'asm_exec2' if N == 64 else 'asm_exec'
            if 'compare' not in name: p += proof_simple(i, tac, bs, bs) + '\n'
            elif 'Weak' in name: p += proof_inv(i, 'asm_exec', bs, [3] if N < 32 else [], None) + '\n' if N < 64 else proof_simple(i, tac, bs, bs) + '\n'
            else:
                # at the label, success is 0 and expected has been extended
                inv = ' ∧ '.join(f'r {k} = x {k}' for k in i['keep'])
                if N < 32: inv += f' ∧ (pc = 0 → r 3 = x 3)'
                at = i['cuts'][1]
                inv += f' ∧ (pc = {at} → r 1 = 0' + (f' ∧ r 3 = ((x 3).setWidth {N}).setWidth 32' if N < 32 else '') + ')'
                p += proof_inv(i, 'asm_inv2' if N == 64 else 'asm_inv', bs, [3] if N < 32 else [], f'(fun pc x r => {inv})') + '\n'
        code += f'end {ns}\n\n'
        open(f'{out}/{ns}Proofs.lean', 'w').write(p + f'end Verif.Asm.{ns}\n')
    open(out + '/AArch32Code.lean', 'w').write(code + 'end Verif.Asm\n')

def stated(out, file, ns=None):
    """(name, binders, statement) of the theorems in a file of proofs (in namespace `ns`)."""
    t = open(f'{out}/{file}.lean').read()
    if ns: t = re.search(rf'^namespace {ns}\n.*?^end {ns}$', t, re.M | re.S).group(0)
    r = []
    for m in re.finditer(r'^theorem (\w+)_ok((?: [({][^)}]*[)}])*) :\s+(.*?) := by$', t, re.M | re.S):
        r.append((m.group(1), m.group(2).strip(), re.sub(r'\s+', ' ', m.group(3))))
    return r

FIELDS = [('load', 0), ('store', 1), ('exchange', 1), ('casWeak', 2), ('casStrong', 2)] + \
    [(x, 1) for x in ('fetchAdd', 'fetchSub', 'fetchAnd', 'fetchOr', 'fetchXor')] + \
    [('fetchNegate', 0), ('fetchComplement', 0), ('add', 1), ('sub', 1), ('negate', 0), ('bitwiseAnd', 1),
     ('bitwiseOr', 1), ('bitwiseXor', 1), ('bitwiseComplement', 0)]
FNAME = dict(casWeak='compareExchangeWeak', casStrong='compareExchangeStrong', add='add_', sub='sub_', load='load_', store='store_')

def bytes_(n): return '1 byte' if n == 1 else f'{n} bytes'

class Table:
    """A table of functions of one back end and size.  `plain`: loads and stores are plain accesses;
    `sub`: field -> (code, proof) for functions that differ."""
    def __init__(s, ns, R, N, key, doc, binders=(), cond=None, via=False, partial=False, writes=None, sub=None, proofs=None, loose=False, zext=None, reg=None):
        s.ns, s.R, s.N, s.key, s.doc, s.binders, s.cond, s.via, s.partial, s.writes = ns, R, N, key, doc, list(binders), cond, via, partial, writes
        s.sub = sub or {}
        s.proofs = (proofs, ns) if proofs else (ns + 'Proofs',)
        s.loose = loose
        s.zext, s.reg = zext, reg

def tables(out, file, imports, props_imports, doc, ts, more=''):
    o = ''.join(f'import Verif.Asm.{i}\n' for i in imports) + f'import Verif.Asm.Ops\n\n/-\n{doc}\nWritten by tools/asmgen.py.\n-/\n\n'
    o += 'set_option linter.unusedVariables false\n\nnamespace Verif.Asm\n\n'
    q = ''.join(f'import Verif.Asm.{i}\n' for i in [file + 'Ops', 'OpsLemmas'] + props_imports)
    q += (f'\n/-\n{doc}\nWhat is proved about them: `C48_*`, that each function does what its operation prescribes, for all '
          'arguments,\nall register assignments the compiler may choose and all interference; `C49_*`, that an object on which any '
          'number\nof cores execute these functions is linearizable.  Written by tools/asmgen.py.\n-/\n\nnamespace Verif.Asm\n\n')
    for t in ts:
        bs = ''.join(' ' + b for b in t.binders)
        lead = f"({' '.join(t.binders)} : Bool) " if t.binders else ''
        plead, pbs = lead, bs
        if t.reg: lead, bs, plead, pbs = '(R : Nat) ', ' R', '{R : Nat} (hR : ' + t.reg + ') ', ' hR'
        o += '\n'.join(wrap(f'/-- {t.doc} -/')) + '\n'
        o += f'def {t.ns}.prims {lead}(ordered : Bool) : Prims {t.R} {t.N} where\n'
        pf = []
        for f, n in FIELDS:
            if f in t.sub: code, proof = t.sub[f]
            else:
                g = FNAME.get(f, f)
                code = f'{t.ns}.{g}{bs}'
                if n == 2 and t.writes is not None: code = f'({code}).writes {t.writes}'
                if f == 'casStrong' and t.zext is not None: code = f'({code}).zext {t.zext}'
                proof = f'{t.ns}.{g}_ok{pbs}'
                args = ['()', 'v', '(e, d)'][n]
                code = f'({code}).code {args}'
                proof = [f'{proof} ()', f'fun v => {proof} v', f'fun e d ' + ('h' if t.cond else '_') + f' => {proof} (e, d)' + (' h' if t.cond else '')][n]
            if n == 2 and t.loose: proof = 'fun _ _ h => h.elim'
            lam = ['', 'fun v => ', 'fun e d => '][n]
            o += f'  {f} := {lam}{code}\n'
            pf.append(f'  {f} := {proof}')
        o += '\n'
        P = '(fun _ _ => False)' if t.loose else t.cond or 'anyCas'
        q += f'theorem {t.ns}.prims_ok {plead}(ordered : Bool) : ({t.ns}.prims{bs} ordered).Ok {P} where\n' + '\n'.join(pf) + '\n\n'
        rows = stated(out, *t.proofs)
        names = [r[0] for r in rows]
        suf = '_partial' if t.partial else ''
        def q_(x, nm): return re.sub(r'(?<![\w.])' + nm + r'(?![\w])', f'{t.ns}.{nm}', x, count=1)
        full = [r for r in rows if '.writes' not in r[2] and '.zext' not in r[2] and 'ImplementsFor' not in r[2] and 'looseSpec' not in r[2]]
        part = [r for r in rows if r not in full]
        for rs, sf, what in ((full, '', 'each function does what its operation prescribes'), (part, '_partial', t.partial)):
            if not rs: continue
            q += '\n'.join(wrap(f'/-- {t.key[1]}: {what}. -/')) + '\n'
            q += f"theorem C48_{t.key[0]}{sf} {plead}:\n" + ' ∧\n'.join('    ' + q_(r[2], r[0]) for r in rs) + ' :=\n  '
            oks = ',\n    '.join(f'{t.ns}.{r[0]}_ok' + (pbs if r[1] else '') for r in rs)
            q += (oks if len(rs) == 1 else f'⟨{oks}⟩') + '\n\n'
        q += '\n'.join(wrap(f'/-- {t.key[1]}: concurrent calls of all operations are linearizable'
             + (f' ({t.partial})' if t.partial else '') + '. -/')) + '\n'
        if t.loose:
            q += f"theorem C49_{t.key[0]}{suf} {lead}: LooseAtomic ({t.ns}.prims{bs}) {'true' if t.via else 'false'} :=\n"
            q += (f'  looseAtomic_of_ok ({t.ns}.prims_ok{bs}) (fun _ e d => {t.ns}.compareExchangeWeak_ok{bs} (e, d))\n'
                  f'    (fun _ e d => {t.ns}.compareExchangeStrong_ok{bs} (e, d)) {"true" if t.via else "false"}\n\n')
            continue
        q += f"theorem C49_{t.key[0]}{suf} {plead}: Atomic ({t.ns}.prims{bs}) {'true' if t.via else 'false'} {P} :=\n"
        q += f'  atomic_of_ok ({t.ns}.prims_ok{pbs}) {"true" if t.via else "false"}\n\n'
    open(f'{out}/{file}Ops.lean', 'w').write(o + 'end Verif.Asm\n')
    open(f'{out}/{file}Props.lean', 'w').write(q + more + 'end Verif.Asm\n')

def conj(out, th, lead, bs, ns, proofs, doc, within=None):
    rs = stated(out, proofs, within)
    t = '\n'.join(wrap(f'/-- {doc} -/')) + f'\ntheorem {th} {lead}:\n'
    t += ' ∧\n'.join('    ' + re.sub(r'(?<![\w.])' + r[0] + r'(?![\w])', f'{ns}.{r[0]}', r[2], count=1) for r in rs) + ' :=\n  ⟨'
    return t + ',\n    '.join(f'{ns}.{r[0]}_ok' + (bs if r[1] else '') for r in rs) + '⟩\n\n'

def arm_tables(out):
    ts = []
    for N in (8, 16, 32, 64):
        n = N // 8; W = 32
        if N < 64:
            sub = dict(load=(f'(plainLoad {W} {N}).code ()', 'plainLoad_ok (by decide) ()'),
                       store=(f'(plainStore {W} {N}).code v', 'plainStore_ok'))
            doc = (f'Objects of {bytes_(n)}, core_arch_ops_gcc_arm.hpp {dict([(8, "325–586"), (16, "719–980"), (32, "60–320")])[N]} and extra_ops_gcc_arm.hpp; '
                   'loads and stores are plain accesses.')
            ts.append(Table(f'Arm{n}', W, N, (f'arm_{n}', f'ARM, objects of {bytes_(n)}'), doc, ['thumb'], '(fun _ d => d ≠ 0)', True,
                            'compare-and-exchange only if the desired value is not 0, see `Verif.Asm.Findings`', sub=sub))
        else:
            # load depends on whether the compiler generates Thumb code, store is an exchange
            sub = dict(load=('(if thumb then Arm8.loadThumb thumb be else Arm8.load_ thumb be).code ()',
                             'match thumb with | false => Arm8.load__ok false be () | true => Arm8.loadThumb_ok true be ()'),
                       store=('((Arm8.exchange thumb be).code v).map discard',
                              'fun v => Code.Does.store (c := (Arm8.exchange thumb be).code v) (Arm8.exchange_ok thumb be v)'))
            ts.append(Table('Arm8', W, N, ('arm_8', 'ARM, objects of 8 bytes'),
                'Objects of 8 bytes, core_arch_ops_gcc_arm.hpp 1124–1407 and extra_ops_gcc_arm.hpp; `store` is `exchange` (1135–1138), and `load` (1140–1165) has two variants.',
                ['thumb', 'be'], '(fun _ d => lower 32 d ≠ 0 ∧ upper 32 d ≠ 0)', True,
                'compare-and-exchange only if no half of the desired value is 0, see `Verif.Asm.Findings`', sub=sub))
    tables(out, 'Arm', ['ArmCode'], ['Arm1Proofs', 'Arm2Proofs', 'Arm4Proofs', 'Arm8Proofs', 'ArmWordProofs'], 'Atomic objects on ARM (ARMv6 and ARMv7).', ts,
        conj(out, 'C48_arm_word', '(thumb : Bool) ', ' thumb', 'ArmWord', 'ArmWordProofs',
             'ARM without instructions for narrow objects, values of 1 or 2 bytes kept extended in words: `fetch_add` and `fetch_sub` do what '
             'they should, and leave an extended value in the word.'))

def two(ns, bs):
    """load and store have a block for each of two classes of orders"""
    r = {}
    for f, g, n in (('load', 'load_', '()'), ('store', 'store_', 'v')):
        code = f'(if ordered then {ns}.{g}1{bs} else {ns}.{g}2{bs}).code {n}'
        lam = '' if f == 'load' else 'fun v => '
        proof = f'{lam}match ordered with | false => {ns}.{g}2_ok{bs} {n} | true => {ns}.{g}1_ok{bs} {n}'
        r[f] = (code, proof)
    return r

def aarch32_tables(out):
    ts = []
    for N, lines in ((8, '53–332'), (16, '335–614'), (32, '617–894'), (64, '914–1220')):
        n = N // 8; ns = f'AArch32x{n}'; bs = ['be'] if N == 64 else []
        ts.append(Table(ns, 32, N, (f'aarch32_{n}', f'AArch32, objects of {bytes_(n)}'),
            f'Objects of {bytes_(n)}, core_arch_ops_gcc_aarch32.hpp {lines} and extra_ops_gcc_aarch32.hpp; `load` and `store` have a variant with acquire or release semantics (the same block, except for 8 bytes).'
            + (' The operand `expected` of compare-and-exchange, which the block changes, is declared as changed here.' if N < 32 else ''), bs, None, False,
            'compare-and-exchange with the operand `expected` declared as changed, see `Verif.Asm.Findings`' if N < 32 else False,
            writes=3 if N < 32 else None, sub=two(ns, ''.join(' ' + b for b in bs)) if N == 64 else None))
    tables(out, 'AArch32', ['AArch32Code'], [f'AArch32x{n}Proofs' for n in (1, 2, 4, 8)], 'Atomic objects on AArch32 (32-bit ARMv8).', ts)

class A64(Arm):
    """AArch64; the suffix of a mnemonic tells whether its first register operand is a `%w` or a `%x`."""
    params, regs, ns = '', 64, 'A64'
    def macro(s, name, args): return {'LO': '@LO', 'HI': '@HI'}[name[-2:]]
    def pair(s, size): return False
    def slot(s, tok, ops):
        m = re.match(r'%x\[(\w+)_@(LO|HI)\]$', tok)
        if m:
            i = [o.i for o in ops if o.name == m.group(1) + '_0'][0]
            return f'({m.group(2).lower()} be {i})', 'x'
        return super().slot(tok, ops)
    def adjust(s, lines, ops, f):
        out = []
        for l in lines:
            m = re.match(r'lda?xp (\S+), (\S+), (\S+)$', l)
            if m: out += [f'ldxp1 {m.group(1)}, {m.group(3)}', f'ldxp2 {m.group(2)}, {m.group(3)}']
            else: out.append(l)
        return out
    def ins(s, l, k, ops, target, size):
        m = re.match(r'(\S+)\s*(.*)$', l)
        mn, args = m.group(1), [a.strip() for a in m.group(2).split(',')] if m.group(2) else []
        if mn in ('b.ne', 'cbnz'):
            lab = args[-1]
            t = f"{target(lab, k)} {lab[:-1]} {'true' if lab[-1] == 'f' else 'false'}"
            if mn == 'b.ne': return 'bne ' + t
            assert args[0].startswith('%w')
            return f'cbnzw {s.slot(args[0], ops)[0]} {t}'
        if mn == 'cset':
            assert args[1] == 'eq' and args[0].startswith('%w')
            return 'cseteqw ' + s.slot(args[0], ops)[0]
        if mn == 'ccmp':
            assert args[2:] == ['#0', 'eq'] and args[0].startswith('%x')
            return 'ccmpxEq0 ' + ' '.join(s.slot(a, ops)[0] for a in args[:2])
        mn = re.sub(r'^lda(p?)r', 'ldar', re.sub(r'^stlx', 'stx', re.sub(r'^ldax', 'ldx', mn)))
        regs = [a for a in args if not a.startswith('#') and a != 'xzr']
        sl = [s.slot(a, ops) for a in regs]
        by = {(o.i): o for o in ops}
        mods = [m for (i, m) in sl if not (i.isdigit() and by[int(i)].mem)]
        width = mods[0]
        if mn.startswith('stx') and mn != 'stxp':
            assert mods[0] == 'w'; width = mods[1]; mods = mods[1:]
        assert width in 'wx' and width and (mn == 'stxp' or all(m == width for m in mods)), l
        a = [x for x, _ in sl]
        if mn in ('ldxp1', 'ldxp2', 'stxp'):
            return ' '.join([mn, 'be'] + a)
        m = re.match(r'(swp|ldadd|ldclr|ldset|ldeor|cas)(b|h|)$', mn)
        if m:
            n = {'b': 8, 'h': 16, '': 32 if width == 'w' else 64}[m.group(2)]
            return f"{m.group(1)} (M := {n}) {' '.join(a)}"
        mn += width
        if args[-1].startswith('#'): return ' '.join([mn + 'I'] + a + [args[-1][1:]])
        if args[-1] == 'xzr': return ' '.join([mn + 'Zero'] + a)
        return ' '.join([mn] + a)
    def arg(s, o, argv, f, N, pair):
        e = o.expr
        m = re.match(r'(\w+)\.as_uint64\[(\d)u\]$', e)
        if m:
            if m.group(2) == '1': return None
            v = {'value': 'v', 'e': 'expected', 'd': 'desired'}[m.group(1)]
            return f'pair be (x {o.i}) (x {o.i + 1}) = {argv[v]}'
        if e == 'original': e = re.search(r'original = (\w+);', f.text).group(1)
        a = argv[e]
        m = re.search(r'\bv = ([-~])v;', f.text)
        if m and e == 'v': a = {'-': '-', '~': '~~~ '}[m.group(1)] + a
        return f'(x {o.i}).setWidth {N} = {a}'
    def result(s, f, ops, kind, N, pair, slots, opts):
        def val(n):
            o = [o for o in ops if o.expr == n]
            if o: return f'((r {o[0].i}).setWidth {N})', [o[0].i]
            o = [o for o in ops if o.expr.startswith(n + '.as_uint64')]
            return f'(pair be (r {o[0].i}) (r {o[1].i}))', [o[0].i, o[1].i]
        if kind == 'c':
            m = re.search(r'expected = (\w+)(?:\.as_storage)?;', f.text)
            v, r = val(m.group(1))
            if re.search(r'bool success = original == expected;', f.text):
                return f'.cas (decide ({v[1:-1]} = a.1)) {v}', r
            b = [o for o in ops if o.expr == 'success'][0]
            return f'bool8 (r {b.i}) (.cas · {v})', r + [b.i]
        m = re.search(r'return (\w+)(?:\.as_storage)?;', f.text)
        if not m: return '.unit', []
        v, r = val(m.group(1))
        return f'.val {v}', r
    def written(s, prog):
        return {int(p.split()[1]) for p, _ in prog if p.split()[0] in ('uxtbw', 'uxthw')}

def aarch64(out):
    fs = gather([('core_arch_ops_gcc_aarch64.hpp', []), ('extra_ops_gcc_aarch64.hpp', [])])
    L = ['BOOST_ATOMIC_DETAIL_AARCH64_HAS_LSE', 'BOOST_ATOMIC_DETAIL_AARCH64_HAS_RCPC']
    ls = [f for f in gather([('core_arch_ops_gcc_aarch64.hpp', L), ('extra_ops_gcc_aarch64.hpp', L)])
          if size_of(f) < 128 and (f.name == 'load' or f.file.startswith('core') and f.name != 'store')]
    code = HEAD.format(imp='IsaA64', doc='The assembly blocks of core_arch_ops_gcc_aarch64.hpp and extra_ops_gcc_aarch64.hpp.')
    for N in (8, 16, 32, 64, 128):
        for fam, sel, doc in (('A64x', fs, ''), ('A64Lse', ls, ', with the extensions LSE and RCPC')):
            sel = [f for f in sel if size_of(f) == N]
            if not sel: continue
            ns = f'{fam}{N // 8}'
            code += f'namespace {ns}\nopen A64\n\n'
            for f, b, name in names(sel):
                t, i = emit_block(A64(), f, b, N, N, name, dict(file=f.file, params=' (be : Bool)' if N == 128 else '', note=doc))
                code += t + '\n'
            code += f'end {ns}\n\n'
    open(out + '/A64Code.lean', 'w').write(code + 'end Verif.Asm\n')

A64FUN = {'Add': '(· + ·)', 'Sub': '(· - ·)', 'And': '(· &&& ·)', 'Or': '(· ||| ·)', 'Xor': '(· ^^^ ·)', 'Negate': '(- ·)', 'Complement': '(~~~ ·)'}
NEW = dict(add_='Add', sub_='Sub', bitwiseAnd='And', bitwiseOr='Or', bitwiseXor='Xor', negate='Negate', bitwiseComplement='Complement')
PLAIN = dict(add_='add', sub_='sub', load_='load', store_='store')

def a64_statement(name, wr, spec='Integral.spec', bs='', zext=None):
    """The statement that a function implements its operation."""
    base = re.sub(r'_[12]$', '_', name)
    kind = 'Unit' if base in ('load_',) or base.endswith(('egate', 'omplement')) else 'pair' if 'compare' in base else 'one'
    op = PLAIN.get(base, base)
    o = {'compareExchangeWeak': '(fun a => .casWeak a.1 a.2)', 'compareExchangeStrong': '(fun a => .casStrong a.1 a.2)'}.get(base) or \
        (f'(fun _ => .{op})' if kind == 'Unit' else f'.{op}')
    f = f'({name}{bs})' if bs else name
    if wr is not None: f = f'({f}.writes {wr})'
    if zext is not None: f = f'({f}.zext {zext})'
    return f'{f}.Implements {spec} {o}'

def a64_kind(name):
    """(shape, operation) of a function."""
    if name in NEW: return 'new', NEW[name]
    if name.startswith('fetch'): return 'fetch', name[5:]
    return None, name

def a64_proofs(out):
    p = 'import Verif.Asm.A64Shape\nimport Verif.Asm.A64Shape16\nimport Verif.Asm.A64Code\n\n/-\nThe AArch64 functions are correct.\nWritten by tools/asmgen.py.\n-/\n\nset_option linter.unusedSimpArgs false\n\nnamespace Verif.Asm\nopen A64\n\n'
    code = open(out + '/A64Code.lean').read()
    for m in re.finditer(r'^namespace (A64(x|Lse)(\d+))\n(.*?)^end \1', code, re.M | re.S):
        ns, fam, n = m.group(1), m.group(2), int(m.group(3)); N = 8 * n
        p += f'namespace {ns}\n\n'
        for name in re.findall(r'^def (\w+)', m.group(4), re.M):
            kind, what = a64_kind(name)
            cas = 'compare' in name
            le = '(by decide)'
            if n == 16:
                st = a64_statement(name, None, 'looseSpec' if cas else 'Integral.spec', ' be')
                if cas: pr = f"exact {'weak' if 'Weak' in name else 'strong'}16_shape be"
                elif kind is None: pr = f"exact {re.sub('_[12]?$', '', name)}16_shape be"
                elif what in ('Negate', 'Complement'):
                    pr = f'intro a\n  cases be <;> asm_exec2 [{name}, first, second, pair] [0] [1] [] ' + ('9' if what == 'Negate' else '7')
                elif what in ('Add', 'Sub'):
                    def one(d, b): return f'exact {kind}2_{d}_shape {b} {A64FUN[what]} (fun _ _ _ _ => Iff.rfl) (by simp [asm, asm_bv, pair, first, second])'
                    pr = 'cases be\n  · ' + one('up', 'false') + '\n  · ' + one('down', 'true')
                else:
                    pr = f'exact {kind}2_up_shape be {A64FUN[what]} (fun _ _ _ _ => Iff.rfl) (by cases be <;> simp [asm, asm_bv, pair, first, second])'
                p += f'theorem {name}_ok (be : Bool) :\n    {st} := by\n  {pr}\n\n'
                continue
            wr = 4 if cas and fam == 'x' and N < 32 else None
            st = a64_statement(name, wr)
            if fam == 'Lse':
                if cas: pr = f"exact lse_{'weak' if 'Weak' in name else 'strong'}_shape {le}"
                elif name.startswith('load'): pr = f'exact load_shape {le}'
                elif name == 'exchange': pr = f'exact lse_shape {le} (fun _ v => v) (fun _ _ _ _ => Iff.rfl) id (fun _ _ => rfl)'
                else:
                    k = {'Sub': '(- ·)', 'And': '(~~~ ·)'}.get(what, 'id')
                    pr = f'exact lse_shape {le} {A64FUN[what]} (fun _ _ _ _ => Iff.rfl) {k} (by simp [BitVec.sub_eq_add_neg])'
            elif cas:
                k = 'weak' if 'Weak' in name else 'strong'
                if N < 32: pr = f'exact {k}_narrow_shape {le}'
                else: pr = f'exact {k}_shape (N := {N}) (cmp := eq{N}) {le} cmp{N}'
            elif name == 'store_': pr = 'exact store_shape'
            elif kind is None: pr = f'exact {name.rstrip("_")}_shape {le}'
            else:
                ar = '1' if what in ('Negate', 'Complement') else '2'
                us = '_ _ _' if ar == '1' else '_ _ _ _'
                pr = f'exact {kind}{ar}_shape {le} {A64FUN[what]} (fun {us} => Iff.rfl) (by simp [w1, w2, asm_bv])'
            p += f'theorem {name}_ok :\n    {st} := by\n  {pr}\n\n'
        p += f'end {ns}\n\n'
    open(out + '/A64Proofs.lean', 'w').write(p + 'end Verif.Asm\n')

def a64_tables(out):
    ts = []
    for N, lines in ((8, '48–452'), (16, '454–858'), (32, '860–1262'), (64, '1264–1666')):
        n = N // 8; ns = f'A64x{n}'; ls = f'A64Lse{n}'
        def plain(ns, ld):
            return dict(load=(f'(if ordered then {ns}.{ld} else plainLoad 64 {N}).code ()',
                              f'match ordered with | false => plainLoad_ok (by decide) () | true => {ns}.{ld}_ok ()'),
                        store=(f'(if ordered then A64x{n}.store_ else plainStore 64 {N}).code v',
                               f'fun v => match ordered with | false => plainStore_ok v | true => A64x{n}.store__ok v'))
        ts.append(Table(ns, 64, N, (f'aarch64_{n}', f'AArch64, objects of {bytes_(n)}'),
            f'Objects of {bytes_(n)}, core_arch_ops_gcc_aarch64.hpp {lines} and extra_ops_gcc_aarch64.hpp, without the extension LSE; loads without acquire and stores without release semantics are plain accesses.'
            + (' The operand `expected` of compare-and-exchange, which the block changes, is declared as changed here.' if N < 32 else ''), [], None, False,
            'compare-and-exchange with the operand `expected` declared as changed, see `Verif.Asm.Findings`' if N < 32 else False,
            writes=4 if N < 32 else None, sub=plain(ns, 'load_'), proofs='A64Proofs'))
        sub = plain(ls, 'load_1')
        for f, g, op in (('add', 'fetchAdd', '+'), ('sub', 'fetchSub', '-'), ('bitwiseAnd', 'fetchAnd', '&&&'), ('bitwiseOr', 'fetchOr', '|||'), ('bitwiseXor', 'fetchXor', '^^^')):
            sub[f] = (f'({ls}.{g}.code v).map (newVal (· {op} v))', f'fun v => Code.Does.map (c := {ls}.{g}.code v) ({ls}.{g}_ok v) fun _ _ _ hs => ⟨hs.1, by simp [newVal, value, hs.1, hs.2]⟩')
        sub['fetchNegate'] = (f'A64x{n}.fetchNegate.code ()', f'A64x{n}.fetchNegate_ok ()')
        sub['negate'] = (f'A64x{n}.negate.code ()', f'A64x{n}.negate_ok ()')
        ones = f'(BitVec.allOnes {N})'
        sub['fetchComplement'] = (f'{ls}.fetchXor.code {ones}', f'Code.Does.complement ({ls}.fetchXor_ok {ones})')
        sub['bitwiseComplement'] = (f'({ls}.fetchXor.code {ones}).map (newVal (· ^^^ {ones}))',
            f'Code.Does.map (c := {ls}.fetchXor.code {ones}) ({ls}.fetchXor_ok {ones}) fun _ _ _ hs => ⟨by rw [hs.1, BitVec.xor_allOnes], by simp [newVal, value, hs.1, hs.2]⟩')
        ts.append(Table(ls, 64, N, (f'aarch64_lse_{n}', f'AArch64 with the extensions LSE and RCPC, objects of {bytes_(n)}'),
            f'Objects of {bytes_(n)} with the extensions LSE and RCPC.  `negate` and `fetch_negate` are the same as without (extra_ops_gcc_aarch64.hpp), the other functions are those of extra_ops_generic.hpp 65–101.  '
            'The two instructions for loads with acquire semantics (`ldapr`, `ldar`) do the same here.', [], None, False, False,
            sub=sub, proofs='A64Proofs'))
    ts.append(Table('A64x16', 64, 128, ('aarch64_16', 'AArch64, objects of 16 bytes'),
        'Objects of 16 bytes, core_arch_ops_gcc_aarch64.hpp 1683–2030 and extra_ops_gcc_aarch64.hpp 1126–1405.', ['be'], None, False,
        'a failing compare-and-exchange may report a value the object never had, see `Verif.Asm.Findings`', sub=two('A64x16', ' be'), proofs='A64Proofs', loose=True))
    tables(out, 'A64', ['A64Code'], ['A64Proofs'], 'Atomic objects on AArch64.', ts)

class Ppc(Arm):
    """PowerPC; registers have `R` bits, except for objects of 8 bytes."""
    ns = 'Ppc'
    def __init__(s, size): s.params, s.regs = ('', 64) if size == 64 else (' (R : Nat)', 'R')
    def pair(s, size): return False
    def constraint(s, c): return c
    def macro(s, name, args):
        if name.endswith('ASM_LABEL'): return eval(args[0]) + ':\n'
        if name.endswith('ASM_JUMP'): return ' '.join(eval(a) for a in args) + '\n'
        raise Exception(name)
    def ins(s, l, k, ops, target, size):
        m = re.match(r'(\S+)\s*(.*)$', l)
        mn, args = m.group(1), [a.strip() for a in m.group(2).split(',')] if m.group(2) else []
        if mn == 'bne-':
            lab, off = m.group(2).split()
            off = int(off)
            return f"bne {target(lab, k)} {lab[:-1]} {'true' if lab[-1] == 'f' else 'false'} {off if off >= 0 else f'({off})'}"
        if mn == 'isync': return mn
        if mn == 'li': return f'li {s.slot(args[0], ops)[0]} {args[1]}'
        if mn == 'rlwinm':
            assert args[2] == '0'
            return f'rlwinm0 {s.slot(args[0], ops)[0]} {s.slot(args[1], ops)[0]} {args[3]}'
        mn = {'stbcx.': 'stbcx', 'sthcx.': 'sthcx', 'stwcx.': 'stwcx', 'stdcx.': 'stdcx', 'ld': 'ldd'}.get(mn, mn)
        return ' '.join([mn] + [s.slot(a, ops)[0] for a in args])
    def arg(s, o, argv, f, N, pair):
        if s.word: return f'(x {o.i}).setWidth 32 = {s.word} {argv[o.expr]}'
        return f'(x {o.i}).setWidth {N} = {argv[o.expr]}'
    def value(s, o, N): return f'((r {o.i}).setWidth {32 if s.word else N})'
    def result(s, f, ops, kind, N, pair, slots, opts):
        if kind == 'c':
            o = [o for o in ops if o.out and o.expr == 'expected'][0]
            b = [o for o in ops if o.expr == 'success'][0]
            return f'bool8 (r {b.i}) (.cas · {s.value(o, N)})', [o.i, b.i]
        m = re.search(r'return (\w+);', f.text)
        if not m: return '.unit', []
        o = [o for o in ops if o.out and o.expr == m.group(1)][0]
        return f'.val {s.value(o, N)}', [o.i]
    def written(s, prog): return set()

def ppc(out):
    D = ['BOOST_ATOMIC_DETAIL_PPC_HAS_LBARX_STBCX', 'BOOST_ATOMIC_DETAIL_PPC_HAS_LHARX_STHCX', 'BOOST_ATOMIC_DETAIL_PPC_HAS_LDARX_STDCX']
    fs = gather([('core_arch_ops_gcc_ppc.hpp', D), ('extra_ops_gcc_ppc.hpp', D)])
    ws = gather([('core_arch_ops_gcc_ppc.hpp', [])], lambda f: size_of(f) < 32)
    for f in fs + ws: f.blks = [b for b in f.blks if b[4][1].strip()]    # no barriers
    code = HEAD.format(imp="IsaPpc\nimport Verif.Asm.Assume", doc='The assembly blocks of core_arch_ops_gcc_ppc.hpp and extra_ops_gcc_ppc.hpp.')
    p = 'import Verif.Asm.PpcShape\nimport Verif.Asm.PpcCode\n\n/-\nThe PowerPC functions are correct.\nWritten by tools/asmgen.py.\n-/\n\nset_option linter.unusedSimpArgs false\nset_option linter.unusedVariables false\n\nnamespace Verif.Asm\nopen Ppc\n\n'
    for N in (8, 16, 32, 64):
        ns = f'Ppc{N // 8}'
        code += f'namespace {ns}\nopen Ppc\n\n'
        p += f'namespace {ns}\n\n'
        lead, bs = ('', '') if N == 64 else (' {R : Nat} (hR : 32 ≤ R)', ' R')
        le = '(by decide)' if N == 64 else 'hR' if N == 32 else '(Nat.le_trans (by decide) hR)'
        for f, b, name in names([f for f in fs if size_of(f) == N]):
            t, i = emit_block(Ppc(N), f, b, N, N, name, dict(file=f.file))
            code += t + '\n'
            kind, what = a64_kind(name)
            st = a64_statement(name, None, 'Integral.spec', bs, 3 if 'Strong' in name and N < 32 else None)
            c = 'eqd' if N == 64 else 'eqw'
            pre = '' if N == 64 else f'have hN : {N} ≤ R := by omega\n  '
            if 'compare' in name:
                k = 'weak' if 'Weak' in name else 'strong'
                h1, h2 = ('(by decide)', 'eqd_64') if N == 64 else ('hN', 'eqw_32 hR' if N == 32 else 'eqw_narrow hR (by decide)')
                one = '(by decide)' if N == 64 else '(li_one (by omega))'
                if N < 32 and k == 'weak': pr = f'exact weak_narrow_shape (cmp := eqw) {h1} {one} (eqw_le hR (by decide))'
                elif N < 32: pr = f'exact zext_assoc ({k}_shape (cmp := eqw) {h1} {one} _ ({h2}))'
                else: pr = f'exact {k}_shape (cmp := {c}) {h1} {one} _ ({h2})'
            elif name == 'store_': pre, pr = '', 'exact store_shape'
            else:
                h1 = '(by decide)' if N == 64 else 'hN'
                if name == 'load_1': pr = f'exact load_acquire_shape (cmp := {c}) {h1} {c}_self'
                elif kind is None: pr = f'exact {name.rstrip("_2")}_shape {h1}'
                elif what == 'Complement': pr = f'exact {kind}Self_shape {h1} (f := fun x y => ~~~ (x ||| y)) (~~~ ·) (fun _ _ _ => Iff.rfl) (by simp [asm_bv{", hN" if N < 64 else ""}])'
                else:
                    ar = '1' if what == 'Negate' else '2'
                    us = '_ _ _' if ar == '1' else '_ _ _ _'
                    pr = f'exact {kind}{ar}_shape {h1} {A64FUN[what]} (fun {us} => Iff.rfl) (by simp [asm_bv{", hN" if N < 64 else ""}])'
            p += f'theorem {name}_ok{lead} :\n    {st} := by\n  {pre}{pr}\n\n'
        code += f'end {ns}\n\n'
        p += f'end {ns}\n\n'
    code += 'namespace PpcWord\nopen Ppc\n\n'
    p += 'namespace PpcWord\n\n'
    for f in ws:
        isa = Ppc(32); sg = ' true' in f.struct; N = size_of(f)
        isa.word = f'(BitVec.{"signExtend" if sg else "setWidth"} 32)'
        name = camel(f.name) + f'{N // 8}' + ('s' if sg else 'u')
        t, i = emit_block(isa, f, f.blks[0], 32, N, name, dict(file=f.file, retN=32))
        code += t + '\n'
        op, sym = ('add', '+') if 'Add' in name else ('sub', '-')
        enc = f"BitVec.{'signExtend' if sg else 'setWidth'} 32"
        p += (f'theorem {name}_ok {{R : Nat}} (hR : 32 ≤ R) :\n    ({name} R).Implements (inWord ({enc})) (.{name[:-2]} (N := {N})) := by\n'
              f'  exact word_shape hR (enc := {enc}) (fun m y => ((m {sym} y).setWidth {N}).{"signExtend" if sg else "setWidth"} 32)\n'
              f'    (fun a m => inWord_{"sext" if sg else "zext"}_{op} (by decide) a m) ({"sext" if sg else "zext"}{N}_{op} hR)\n\n')
    open(out + '/PpcCode.lean', 'w').write(code + 'end PpcWord\n\nend Verif.Asm\n')
    open(out + '/PpcProofs.lean', 'w').write(p + 'end PpcWord\n\nend Verif.Asm\n')

def ppc_tables(out):
    ts = []
    for N, lines in ((8, '346–590'), (16, '714–958'), (32, '86–330'), (64, '1082–1327')):
        n = N // 8; ns = f'Ppc{n}'
        R = '' if N == 64 else ' R'; h = '' if N == 64 else ' hR'
        sub = dict(load=(f'(if ordered then {ns}.load_1{R} else {ns}.load_2{R}).code ()',
                         f'match ordered with | false => {ns}.load_2_ok{h} () | true => {ns}.load_1_ok{h} ()'))
        ts.append(Table(ns, 64 if N == 64 else 'R', N, (f'ppc_{n}', f'PowerPC, objects of {bytes_(n)}'),
            f'Objects of {bytes_(n)}, core_arch_ops_gcc_ppc.hpp {lines} and extra_ops_gcc_ppc.hpp; `load` has a variant with acquire semantics.'
            + (' The operand `expected` of strong compare-and-exchange is assumed to be zero-extended.' if N < 32 else ''), [], None, True,
            'strong compare-and-exchange if the operand `expected` is held zero-extended, see `Verif.Asm.Findings`' if N < 32 else False,
            zext=3 if N < 32 else None, sub=sub, proofs='PpcProofs', reg=None if N == 64 else '32 ≤ R'))
    tables(out, 'Ppc', ['PpcCode'], ['PpcProofs'], 'Atomic objects on PowerPC.', ts,
        conj(out, 'C48_ppc_word', '{R : Nat} (hR : 32 ≤ R) ', ' hR', 'PpcWord', 'PpcProofs',
             'PowerPC without instructions for narrow objects, values of 1 or 2 bytes kept extended in words: `fetch_add` and `fetch_sub` do what '
             'they should, and leave an extended value in the word.', 'PpcWord'))

class Alpha(Arm):
    """Alpha; registers have 64 bits."""
    ns, params, regs = 'Alpha', '', 64
    def pair(s, size): return False
    def constraint(s, c): return c
    def macro(s, name, args): raise Exception(name)
    def adjust(s, lines, ops, f):
        """Code of another section comes after the end of the block, with a jump around it."""
        if '.subsection 2' not in lines: return lines
        a, b = lines.index('.subsection 2'), lines.index('.previous')
        return lines[:a] + lines[b + 1:] + ['skip 900f'] + lines[a + 1:b] + ['900:']
    def ins(s, l, k, ops, target, size):
        mn, rest = l.split(' ', 1)
        args = [a.strip() for a in rest.split(',')]
        if mn == 'skip': return f'skip {target(args[0], k)}'
        if mn in ('beq', 'br'):
            lab = args[-1]
            return ' '.join([mn] + [s.slot(a, ops)[0] for a in args[:-1]] + [str(target(lab, k)), lab[:-1], 'true' if lab[-1] == 'f' else 'false'])
        if mn == 'zapnot': mn, args = mn + args[1], [args[0], args[2]]
        return ' '.join([mn] + [s.slot(a, ops)[0] for a in args])
    word = None
    def arg(s, o, argv, f, N, pair):
        if s.word: return f'(x {o.i}).setWidth 32 = {s.word} {argv[o.expr]}'
        return f'(x {o.i}).setWidth {N} = {argv[o.expr]}'
    def value(s, o, N): return f'((r {o.i}).setWidth {32 if s.word else N})'
    def result(s, f, ops, kind, N, pair, slots, opts):
        if kind == 'c':
            o = [o for o in ops if o.out and o.expr == 'expected'][0]
            b = [o for o in ops if o.expr == 'success'][0]
            assert re.search(r'int success;', f.text)
            return f'.cas (!(r {b.i}).setWidth 32 == 0) {s.value(o, N)}', [o.i, b.i]
        m = re.search(r'return (\w+);', f.text)
        o = [o for o in ops if o.out and o.expr == m.group(1)][0]
        return f'.val {s.value(o, N)}', [o.i]
    def written(s, prog): return set()

def alpha(out):
    fs = gather([('core_arch_ops_gcc_alpha.hpp', [])], lambda f: 'fence' not in f.name)
    code = HEAD.format(imp="IsaAlpha\nimport Verif.Asm.Assume", doc='The assembly blocks of core_arch_ops_gcc_alpha.hpp.')
    p = ('import Verif.Asm.AlphaShape\nimport Verif.Asm.AlphaCode\n\n/-\nThe Alpha functions are correct.\nWritten by tools/asmgen.py.\n-/\n\nset_option linter.unusedSimpArgs false\n\n'
         'namespace Verif.Asm\nopen Alpha\n\n')
    for N in (32, 64):
        ns = f'Alpha{N // 8}'
        code += f'namespace {ns}\nopen Alpha\n\n'
        p += f'namespace {ns}\n\n'
        for f, b, name in names([f for f in fs if size_of(f) == N]):
            t, i = emit_block(Alpha(), f, b, N, N, name, dict(file=f.file))
            code += t + '\n'
            kind, what = a64_kind(name)
            sx = 0 if 'Strong' in name and N == 32 else None
            st = a64_statement(name, None, 'Integral.spec', '', sx).replace('.zext', '.sext')
            if 'Weak' in name: pr = 'exact weak_shape (by decide)'
            elif 'Strong' in name: pr = 'exact sext_of (by decide) (strong_shape (by decide))' if N == 32 else 'exact sext_64 (strong_shape (by decide))'
            elif name == 'exchange': pr = 'exact exchange_shape (by decide)'
            else: pr = f'exact fetch2_shape (by decide) {A64FUN[what]} (fun _ _ _ _ => Iff.rfl) (by simp [asm_bv, setWidth_signExtend])'
            p += f'theorem {name}_ok :\n    {st} := by\n  {pr}\n\n'
        code += f'end {ns}\n\n'
        p += f'end {ns}\n\n'
    code += 'namespace AlphaWord\nopen Alpha\n\n'
    p += 'namespace AlphaWord\n\n'
    for f in [f for f in fs if size_of(f) < 32]:
        isa = Alpha(); sg = ' true' in f.struct; N = size_of(f)
        isa.word = f'(BitVec.{"signExtend" if sg else "setWidth"} 32)'
        name = camel(f.name) + f'{N // 8}' + ('s' if sg else 'u')
        t, i = emit_block(isa, f, f.blks[0], 32, N, name, dict(file=f.file, retN=32))
        code += t + '\n'
        op, sym = ('add', '+') if 'Add' in name else ('sub', '-')
        enc = f"BitVec.{'signExtend' if sg else 'setWidth'} 32"
        p += (f'theorem {name}_ok :\n    {name}.Implements (inWord ({enc})) (.{name[:-2]} (N := {N})) := by\n'
              f'  exact word_shape (enc := {enc}) (fun m y => ((m {sym} y).setWidth {N}).{"signExtend" if sg else "setWidth"} 32)\n'
              f'    (fun a m => inWord_{"sext" if sg else "zext"}_{op} (by decide) a m) {"sext" if sg else "zext"}{N}_{op}\n\n')
    open(out + '/AlphaCode.lean', 'w').write(code + 'end AlphaWord\n\nend Verif.Asm\n')
    open(out + '/AlphaProofs.lean', 'w').write(p + 'end AlphaWord\n\nend Verif.Asm\n')

def core_tables(out, file, imports, proofs, doc, key, ts, cas, more=''):
    """Tables of functions on which the generic code builds (Verif.Asm.Loop).  `ts`: (namespace, size, doc, table, proof, partial)."""
    o = ''.join(f'import Verif.Asm.{i}\n' for i in imports) + f'import Verif.Asm.Loop\n\n/-\n{doc}\nWritten by tools/asmgen.py.\n-/\n\nnamespace Verif.Asm\n\n'
    q = ''.join(f'import Verif.Asm.{i}\n' for i in [file + 'Ops', 'LoopLemmas', proofs])
    q += (f'\n/-\n{doc}\nWhat is proved about them: `C48_*`, that each function does what its operation prescribes, for all '
          'arguments,\nall register assignments the compiler may choose and all interference; `C49_*`, that an object on which any '
          'number\nof cores execute all operations is linearizable.  Written by tools/asmgen.py.\n-/\n\nnamespace Verif.Asm\n\n')
    for ns, N, d, table, proof, partial in ts:
        n = N // 8
        o += '\n'.join(wrap(f'/-- {d} -/')) + f'\ndef {ns}.core : Core 64 {N} {table}\n\n'
        q += f'theorem {ns}.core_ok : {ns}.core.Ok {proof}\n\n'
        rows = stated(out, proofs, ns)
        def q_(x, nm): return re.sub(r'(?<![\w.])' + nm + r'(?![\w])', f'{ns}.{nm}', x, count=1)
        part = [r for r in rows if '.sext' in r[2]]
        full = [r for r in rows if r not in part]
        for rs, sf, what in ((full, '', 'each function does what its operation prescribes'), (part, '_partial', partial)):
            if not rs: continue
            q += '\n'.join(wrap(f'/-- {key[1]}, objects of {bytes_(n)}: {what}. -/')) + '\n'
            q += f'theorem C48_{key[0]}_{n}{sf} :\n' + ' ∧\n'.join('    ' + q_(r[2], r[0]) for r in rs) + ' :=\n  '
            oks = ',\n    '.join(f'{ns}.{r[0]}_ok' for r in rs)
            q += (oks if len(rs) == 1 else f'⟨{oks}⟩') + '\n\n'
        q += '\n'.join(wrap(f'/-- {key[1]}, objects of {bytes_(n)}: concurrent calls of all operations are linearizable' + (f' ({partial})' if part else '') + '. -/'))
        q += f"\ntheorem C49_{key[0]}_{n}{'_partial' if part else ''} : AtomicByLoops {ns}.core {cas} :=\n  atomicByLoops_of_ok {ns}.core_ok {cas}\n\n"
    open(f'{out}/{file}Ops.lean', 'w').write(o + 'end Verif.Asm\n')
    open(f'{out}/{file}Props.lean', 'w').write(q + more + 'end Verif.Asm\n')

def alpha_tables(out):
    ts = []
    for N, lines in ((32, '90–348'), (64, '601–859')):
        ns = f'Alpha{N // 8}'
        strong = f'({ns}.compareExchangeStrong.sext 0)' if N == 32 else f'{ns}.compareExchangeStrong'
        t, p = 'where\n', 'where\n'
        for f, code, proof in [('load', f'.once ((plainLoad 64 {N}).code ())', 'Code.Does.once (plainLoad_ok (by decide) ())'),
                ('store v', f'.once ((plainStore 64 {N}).code v)', 'Code.Does.once (plainStore_ok v)'),
                ('exchange v', f'.once ({ns}.exchange.code v)', f'Code.Does.once ({ns}.exchange_ok v)'),
                ('casWeak e d', f'{ns}.compareExchangeWeak.code (e, d)', f'{ns}.compareExchangeWeak_ok (e, d)'),
                ('casStrong e d', f'{strong}.code (e, d)', f'{ns}.compareExchangeStrong_ok (e, d)')] + \
                [(f'fetch{x} v', f'.once ({ns}.fetch{x}.code v)', f'Code.Does.once ({ns}.fetch{x}_ok v)') for x in ('Add', 'Sub', 'And', 'Or', 'Xor')]:
            t += f'  {f} := {code}\n'
            p += f'  {f} := {proof}\n'
        ts.append((ns, N, f'Objects of {N // 8} bytes, core_arch_ops_gcc_alpha.hpp {lines}; loads and stores are plain accesses.'
                   + (' The operand `expected` of strong compare-and-exchange is assumed to be sign-extended.' if N == 32 else ''), t.rstrip(), p.rstrip(),
                   'strong compare-and-exchange if the operand `expected` is held sign-extended, see `Verif.Asm.Findings`'))
    core_tables(out, 'Alpha', ['AlphaCode'], 'AlphaProofs', 'Atomic objects on Alpha.', ('alpha', 'Alpha'), ts, 'false',
        conj(out, 'C48_alpha_word', '', '', 'AlphaWord', 'AlphaProofs',
             'Alpha, values of 1 or 2 bytes kept extended in words: `fetch_add` and `fetch_sub` do what '
             'they should, and leave an extended value in the word.', 'AlphaWord'))

class Sparc(Arm):
    """SPARC; registers have 64 bits."""
    ns, params, regs = 'Sparc', '', 64
    def pair(s, size): return False
    def constraint(s, c): return c
    def ins(s, l, k, ops, target, size):
        mn, rest = l.split(' ', 1)
        return ' '.join([mn] + [s.slot(a.strip().strip('[]'), ops)[0] for a in rest.split(',')])
    def arg(s, o, argv, f, N, pair):
        if o.expr == '&storage': return None
        w = '' if N == 64 else f'.setWidth {N}'
        return f"(x {o.i}){w} = {argv[{'previous': 'expected'}.get(o.expr, o.expr)]}"
    def result(s, f, ops, kind, N, pair, slots, opts):
        if kind == 'c':
            assert 'previous = expected;' in f.text and 'success = (desired == previous);' in f.text and 'expected = desired;' in f.text
            w = '' if N == 64 else f'.setWidth {N}'
            return f'.cas ((r 0){w} == a.1) ((r 0){w})', [0]
        assert 'return v;' in f.text
        return f'.val ((r 0).setWidth {N})', [0]
    def written(s, prog): return set()

def sparc(out):
    fs = gather([('core_arch_ops_gcc_sparc.hpp', [])], lambda f: 'fence' not in f.name)
    code = HEAD.format(imp='IsaSparc\nimport Verif.Asm.Tactic', doc='The assembly blocks of core_arch_ops_gcc_sparc.hpp.')
    p = ('import Verif.Asm.SparcCode\n\n/-\nThe SPARC functions are correct.\nWritten by tools/asmgen.py.\n-/\n\n'
         'set_option linter.unusedSimpArgs false\n\nnamespace Verif.Asm\nopen Sparc\n\n')
    for N in (32, 64):
        ns = f'Sparc{N // 8}'
        code += f'namespace {ns}\nopen Sparc\n\n'
        p += f'namespace {ns}\n\n'
        for f in [f for f in fs if f'cas{N}' in f.struct]:
            name = camel(f.name)
            addr = 1
            t, i = emit_block(Sparc(), f, f.blks[0], N, N, name, dict(file=f.file, addr=[addr]))
            code += t + '\n'
            keep = '[0, 1, 2]' if 'compare' in name else '[0, 1]'
            p += (f"theorem {name}_ok :\n    {a64_statement(name, None)} := by\n  {'rintro ⟨e, d⟩' if 'compare' in name else 'intro a'}\n"
                  f"  asm_exec [{name}] [0] {keep} [] 1\n\n")
        code += f'end {ns}\n\n'
        p += f'end {ns}\n\n'
    open(out + '/SparcCode.lean', 'w').write(code + 'end Verif.Asm\n')
    open(out + '/SparcProofs.lean', 'w').write(p + 'end Verif.Asm\n')

def sparc_tables(out):
    ts = []
    for N, lines in ((32, '65–137'), (64, '151–210')):
        ns = f'Sparc{N // 8}'
        cas = f'(fun e d => {ns}.compareExchangeStrong.code (e, d))'
        casok = f'(fun e d => {ns}.compareExchangeStrong_ok (e, d))'
        ex, exok = (f'(fun v => .once ({ns}.exchange.code v))', f'(fun v => Code.Does.once ({ns}.exchange_ok v))') if N == 32 else (f'(casExchange {cas})', f'(casExchange_ok {casok})')
        t = f':=\n  casBased (.once ((plainLoad 64 {N}).code ())) (fun v => .once ((plainStore 64 {N}).code v))\n    {ex}\n    {cas}'
        p = f':=\n  casBased_ok (Code.Does.once (plainLoad_ok (by decide) ())) (fun v => Code.Does.once (plainStore_ok v))\n    {exok}\n    {casok}'
        ts.append((ns, N, f'Objects of {N // 8} bytes, core_arch_ops_gcc_sparc.hpp {lines} and core_ops_cas_based.hpp; loads and stores are plain accesses.', t, p, None))
    core_tables(out, 'Sparc', ['SparcCode'], 'SparcProofs', 'Atomic objects on SPARC V9 (in 64-bit mode, for objects of 8 bytes).', ('sparc', 'SPARC'), ts, 'true')

class X86(Arm):
    """x86; registers have `R` bits, except for objects of 8 bytes."""
    ns = 'X86'
    def __init__(s, size): s.params, s.regs = ('', 64) if size == 64 else (' (R : Nat)', 'R')
    def pair(s, size): return False
    def constraint(s, c): return c
    def macro(s, name, args): raise Exception(name)
    def adjust(s, lines, ops, f):
        """Alignment is dropped; an operand that is a flag is set after the block."""
        lines = [l for l in lines if not l.startswith('.align')]
        for o in ops:
            if o.flag:
                o.flag = False
                lines.append(f"set{re.search(r'@cc(n?[zc])', o.con).group(1)} %{o.i}".replace('setz', 'sete'))
        return lines
    REG = {'al': 8, 'ax': 16, 'eax': 32, 'rax': 64}
    def slot(s, tok, ops):
        m = re.match(r'%%(\w+)$', tok)
        if m: return str([o for o in ops if 'a' in o.con][0].i), {8: 'b', 16: 'w', 32: 'k', 64: 'q'}[s.REG[m.group(1)]]
        return super().slot(tok, ops)
    def ins(s, l, k, ops, target, size):
        lock = l.startswith('lock; ')
        if lock: l = l[6:]
        mn, rest = l.split(' ', 1)
        args = [a.strip() for a in rest.split(',')]
        if mn == 'jne': return f"jne {target(args[0], k)} {args[0][:-1]} {'true' if args[0][-1] == 'f' else 'false'}"
        sl = [s.slot(a, ops) for a in args]
        a = [x[0] for x in sl]
        mem = any(o.mem and str(o.i) == a[-1] for o in ops)
        if mn in ('sete', 'setnz', 'setc'): return f'{mn} {a[0]}'
        if mn == 'mov': return ' '.join(['mov', str(max(32, size))] + a)
        if mn in ('movzbl', 'movzwl'): return ' '.join(['movz', {'b': '8', 'w': '16'}[mn[4]]] + a)
        w = {'b': 8, 'w': 16, 'l': 32, 'q': 64}[mn[-1]]; mn = mn[:-1]
        for x in sl: assert x[1] in ('', {8: 'b', 16: 'w', 32: 'k', 64: 'q'}[w]), l
        assert w == size and mem == (lock or mn == 'xchg'), l
        if mn == 'cmpxchg': a = [str([o for o in ops if 'a' in o.con][0].i)] + a
        elif mem and mn not in ('xadd', 'xchg', 'bts', 'btr', 'btc'): mn += 'm'
        return ' '.join([mn, str(w)] + a)
    def fixed(s, ops): return [(o.i, 0) for o in ops if 'a' in o.con]
    def arg(s, o, argv, f, N, pair):
        e = re.sub(r'^\((?:temp_storage_type|std::uint\d+_t)\)', '', o.expr)
        if e == 'bit_number': return f'(x {o.i}).setWidth {N} = BitVec.ofNat {N} a'
        if o.inout and re.search(rf'storage_type {e} = storage;', f.text): return None      # a volatile read
        if e == 'previous' and 'storage_type previous = expected;' in f.text: e = 'expected'
        return f'(x {o.i}).setWidth {N} = {argv[e]}'
    def value(s, o, N): return f'((r {o.i}).setWidth {N})'
    def result(s, f, ops, kind, N, pair, slots, opts):
        if kind == 'c':
            assert 'expected = previous;' in f.text and 'return success;' in f.text
            o = [o for o in ops if o.expr == 'previous'][0]
            b = [o for o in ops if o.expr == 'success'][0]
            return f'bool8 (r {b.i}) (.cas · {s.value(o, N)})', [o.i, b.i]
        m = re.search(r'return (?:static_cast< storage_type >\()?(\w+)\)?;', f.text)
        if not m: return '.unit', []
        o = [o for o in ops if o.out and o.expr == m.group(1)][0]
        if f.ret == 'bool': return f'bool8 (r {o.i}) .flag', [o.i]
        return f'.val {s.value(o, N)}', [o.i]
    def written(s, prog): return set()

X86FUN = dict(And='(fun v m => v &&& m)', Or='(fun v m => v ||| m)', Xor='(fun v m => v ^^^ m)', Negate='(- ·)', Complement='(~~~ ·)')
X86LOCK = dict(Add='(· + ·)', Sub='(· - ·)', And='(· &&& ·)', Or='(· ||| ·)', Xor='(· ^^^ ·)')

def x86_names(fs):
    """Blocks of a function with two are the variant for the constant 1, and the other one."""
    for f in fs:
        for k, b in enumerate(f.blks):
            one = len(f.blks) > 1 and k == 0
            if len(f.blks) > 1:
                assert len(f.blks) == 2 and re.search(r'if \(BOOST_ATOMIC_DETAIL_IS_CONSTANT\(v\) && v == 1\)\s*\{\s*__asm__', f.text), f.name
            yield f, b, camel(f.name) + ('One' if one else ''), one

def x86(out):
    D = ['__x86_64__']
    F = 'BOOST_ATOMIC_DETAIL_ASM_HAS_FLAG_OUTPUTS'
    files = ('core_arch_ops_gcc_x86.hpp', 'extra_ops_gcc_x86.hpp')
    sel = lambda f: 'fence' not in f.name and 'dcas' not in f.struct
    fs = gather([(x, D + [F]) for x in files], sel)
    gs = gather([(x, D) for x in files], sel)
    code = HEAD.format(imp='IsaX86', doc='The assembly blocks of core_arch_ops_gcc_x86.hpp and extra_ops_gcc_x86.hpp for objects of one register.')
    p = ('import Verif.Asm.X86Shape\nimport Verif.Asm.X86Code\n\n/-\nThe x86 functions are correct.\nWritten by tools/asmgen.py.\n-/\n\nset_option linter.unusedVariables false\n\n'
         'namespace Verif.Asm\nopen X86\n\n')
    for N in (8, 16, 32, 64):
        ns = f'X86x{N // 8}'
        code += f'namespace {ns}\nopen X86\n\n'
        p += f'namespace {ns}\n\n'
        lead, bs = ('', '') if N == 64 else (' {R : Nat} (hR : 32 ≤ R)', ' R')
        le = '(by decide)' if N == 64 else '(by omega)'
        for kind_, fl in (('', fs), ('Set', gs)):
            for f, b, name, one in x86_names([f for f in fl if size_of(f) == N]):
                if kind_ and 'set' not in b[4][0]: continue
                name += kind_
                lean_op, kind = OPS[f.name]
                opts = dict(file=f.file)
                if 'jne' in b[4][0]: opts['differ'] = [(0, 1)] + ([(0, 3)] if kind == 'v' else [])
                if one: opts['one'] = True
                if kind_: opts['note'] = ', without operands that are flags'
                t, i = emit_block(X86(N), f, b, N, N, name, opts)
                code += t + '\n'
                op = ('(fun _ => ' + lean_op + ' 1)' if one else '(fun a => .casStrong a.1 a.2)' if kind == 'c' else lean_op if kind in 'vb' else f'(fun _ => {lean_op})')
                fn = f'({name}{bs})' if bs else name
                st = f'{fn}.Implements Integral.spec {op}'
                n = f.name
                m = re.match(r'(fetch|bitwise|opaque)_(and|or|xor|negate|complement|add|sub)$|(negate)$', n)
                t_ = re.match(r'(add|sub|and|or|xor)_and_test$', n)
                b_ = re.match(r'bit_test_and_(set|reset|complement)$', n)
                if n == 'fetch_add': pr = f'exact xadd_shape {le}'
                elif n == 'exchange': pr = f'exact xchg_shape {le}'
                elif kind == 'c': pr = f'exact cmpxchg_shape {le} {le}'
                elif n.startswith('opaque'):
                    what = n.split('_')[1].capitalize()
                    if one: pr = f"exact opaque1_shape (fun m => m {'+' if what == 'Add' else '-'} 1#{N}) (fun _ _ _ _ => Iff.rfl)"
                    elif kind == 'u': pr = f'exact opaque1_shape {X86FUN[what]} (fun _ _ _ _ => Iff.rfl)'
                    else: pr = f'exact opaque2_shape {X86LOCK[what]} (fun _ _ _ _ => Iff.rfl)'
                elif t_:
                    what = t_.group(1).capitalize()
                    if one: pr = f"exact test1_shape {le} (fun m => m {'+' if what == 'Add' else '-'} 1#{N}) (fun _ _ => rfl) (fun _ _ _ _ => Iff.rfl)"
                    else: pr = f'exact test2_shape {le} {X86LOCK[what]} (fun _ _ _ _ => Iff.rfl)'
                elif b_:
                    g, lem = dict(set=('(· ||| ·)', 'or'), reset=('(fun m k => m &&& ~~~ k)', 'reset'), complement=('(· ^^^ ·)', 'xor'))[b_.group(1)]
                    pr = f'exact bit_shape {le} {g} (fun m b => ⟨Integral.setsBit_{lem} m b, rfl⟩)'
                else:
                    what = (m.group(2) or 'negate').capitalize()
                    shape = 'fetch' if n.startswith('fetch') else 'new'
                    if kind == 'u': pr = f'exact {shape}1_shape {le} {X86FUN[what]} (fun _ _ _ _ => Iff.rfl)'
                    else:
                        c = dict(And='and', Or='or', Xor='xor')[what]
                        pr = f'exact {shape}2_shape {le} (w := {max(N, 32)}) (by decide) {"(by decide)" if N == 64 else "hR"} {X86FUN[what]} (fun _ _ _ _ => by simp only [Integral.spec, BitVec.{c}_comm])'
                p += f'theorem {name}_ok{lead} :\n    {st} := by\n  {pr}\n\n'
        code += f'end {ns}\n\n'
        p += f'end {ns}\n\n'
    open(out + '/X86Code.lean', 'w').write(code + 'end Verif.Asm\n')
    open(out + '/X86Proofs.lean', 'w').write(p + 'end Verif.Asm\n')

def x86_tables(out):
    o = '''import Verif.Asm.X86Code
import Verif.Asm.X86Call

/-
Atomic objects on x86 of the size of a register.
Written by tools/asmgen.py.
-/

set_option linter.unusedVariables false

namespace Verif.Asm

'''
    q = '''import Verif.Asm.X86Ops
import Verif.Asm.LoopLemmas
import Verif.Asm.X86Proofs

/-
Atomic objects on x86 of the size of a register.
What is proved about them: `C48_*`, that each function does what its operation prescribes, for all arguments,
all register assignments the compiler may choose and all interference; `C49_*`, that an object on which any number
of cores execute these functions is linearizable.  Written by tools/asmgen.py.
-/

namespace Verif.Asm

'''
    for N, lines, elines in ((8, '114–222', '34–450'), (16, '223–331', '454–950'), (32, '332–439', '952–1447'), (64, '806–915', '1451–1946')):
        n = N // 8; ns = f'X86x{n}'
        R, h = ('', '') if N == 64 else (' R', ' hR')
        Rn = 64 if N == 64 else 'R'
        lead, plead = ('', '') if N == 64 else ('(R : Nat) ', '{R : Nat} (hR : 32 ≤ R) ')
        fn = lambda f, a: f'({ns}.{f}{R}).code {a}'
        ok = lambda f, a: f'{ns}.{f}_ok{h} {a}'
        le = '(by decide)' if N == 64 else '(by omega)'
        does = lambda f, a: f'(show ({fn(f, a)}).Does (.{f} {a}) from {ok(f, a)})'.replace(' ()) from', ') from')
        rows = []
        def row(op, code, proof): rows.append((op, code, proof))
        def sel(f, a): return f'(if set then {ns}.{f}Set{R} else {ns}.{f}{R}).code {a}', f'by exact match set with | false => {ok(f, a)} | true => {ok(f + "Set", a)}'
        row('.load', f'(plainLoad {Rn} {N}).code ()', f'plainLoad_ok {le} ()')
        row('.store v', f'if c.seqCst then ({fn("exchange", "v")}).map discard else (plainStore {Rn} {N}).code v',
            f'match seqCst with\n    | true => Code.Does.store {does("exchange", "v")}\n    | false => plainStore_ok v')
        row('.exchange v', fn('exchange', 'v'), ok('exchange', 'v'))
        row('.casWeak e d', *[sel('compareExchangeStrong', '(e, d)')[0],
            f'by\n    refine Code.Does.weak (e := e) (d := d) ?_\n    exact match set with | false => {ok("compareExchangeStrong", "(e, d)")} | true => {ok("compareExchangeStrongSet", "(e, d)")}'])
        row('.casStrong e d', *sel('compareExchangeStrong', '(e, d)'))
        row('.fetchAdd v', fn('fetchAdd', 'v'), ok('fetchAdd', 'v'))
        row('.fetchSub v', fn('fetchAdd', '(-v)'), f'Code.Does.minus {does("fetchAdd", "(-v)")}')
        for x in ('And', 'Or', 'Xor'): row(f'.fetch{x} v', fn(f'fetch{x}', 'v'), ok(f'fetch{x}', 'v'))
        for x in ('fetchNegate', 'fetchComplement'): row(f'.{x}', fn(x, '()'), ok(x, '()'))
        row('.add v', f'({fn("fetchAdd", "v")}).map (newVal (· + v))', f'Code.Does.map {does("fetchAdd", "v")} fun _ _ _ hs => ⟨hs.1, by simp [newVal, value, hs.1, hs.2]⟩')
        row('.sub v', f'({fn("fetchAdd", "(-v)")}).map (newVal (· - v))', f'Code.Does.map (Code.Does.minus {does("fetchAdd", "(-v)")}) fun _ _ _ hs => ⟨hs.1, by simp [newVal, value, hs.1, hs.2]⟩')
        row('.negate', fn('negate', '()'), ok('negate', '()'))
        for x in ('And', 'Or', 'Xor'): row(f'.bitwise{x} v', fn(f'bitwise{x}', 'v'), ok(f'bitwise{x}', 'v'))
        row('.bitwiseComplement', fn('bitwiseComplement', '()'), ok('bitwiseComplement', '()'))
        for x in ('Add', 'Sub'):
            row(f'.opaque{x} v', f'if c.const ∧ v = 1 then {fn(f"opaque{x}One", "()")} else {fn(f"opaque{x}", "v")}',
                f'by\n    split\n    · rename_i h; rw [h.2]; exact {ok(f"opaque{x}One", "()")}\n    · exact {ok(f"opaque{x}", "v")}')
        row('.opaqueNegate', fn('opaqueNegate', '()'), ok('opaqueNegate', '()'))
        for x in ('And', 'Or', 'Xor'): row(f'.opaque{x} v', fn(f'opaque{x}', 'v'), ok(f'opaque{x}', 'v'))
        row('.opaqueComplement', fn('opaqueComplement', '()'), ok('opaqueComplement', '()'))
        for x in ('add', 'sub'):
            c1, p1 = sel(f'{x}AndTestOne', '()'); c2, p2 = sel(f'{x}AndTest', 'v')
            row(f'.{x}AndTest v', f'if c.const ∧ v = 1 then {c1} else {c2}',
                f'by\n    split\n    · rename_i h; rw [h.2]; {p1[3:]}\n    · {p2[3:]}')
        row('.negateAndTest', f'({fn("negate", "()")}).map test', f'Code.Does.map {does("negate", "()")} fun _ _ _ hs => ⟨hs.1, by rw [hs.2]; simp [test, value]; rfl⟩')
        for x in ('and', 'or', 'xor'): row(f'.{x}AndTest v', *sel(f'{x}AndTest', 'v'))
        row('.complementAndTest', f'({fn("bitwiseComplement", "()")}).map test', f'Code.Does.map {does("bitwiseComplement", "()")} fun _ _ _ hs => ⟨hs.1, by rw [hs.2]; simp [test, value]; rfl⟩')
        if N == 8:
            for x, g, m, lem in (('Set', 'fetchOr', '(bit b)', 'or'), ('Reset', 'fetchAnd', '(~~~ bit b)', 'reset'), ('Complement', 'fetchXor', '(bit b)', 'xor')):
                row(f'.bitTestAnd{x} b', f'({fn(g, m)}).map (testBit (bit b))',
                    f'Code.Does.map {does(g, m)} fun m _ _ hs => ⟨by rw [hs.1]; exact Integral.setsBit_{lem} m b, by\n      rw [hs.2]; simp only [testBit, value, bit, bit_and]⟩')
        else:
            for x in ('Set', 'Reset', 'Complement'): row(f'.bitTestAnd{x} b', *sel(f'bitTestAnd{x}', 'b'))
        d = (f'Objects of {bytes_(n)}: core_arch_ops_gcc_x86.hpp 58–112, {lines} and extra_ops_gcc_x86.hpp {elines}; `add` and `sub`'
             + (', and the `bit_test_and_*` functions,' if N == 8 else '') + ' are those of extra_ops_generic.hpp 65–75'
             + (', 173–196' if N == 8 else '') + '.  `set`: the compiler has no operands that are flags (`BOOST_ATOMIC_DETAIL_ASM_HAS_FLAG_OUTPUTS` is not defined).')
        o += '\n'.join(wrap(f'/-- {d} -/')) + f'\ndef {ns}.code {lead}(set : Bool) (c : X86.Call {N}) : Code {Rn} {N} (Integral.Ret {N}) :=\n  match c.op with\n'
        o += '\n'.join(f'  | {a} => {b}' for a, b, _ in rows) + '\n\n'
        q += f'theorem {ns}.code_ok {plead}(set : Bool) : ∀ c : X86.Call {N}, ({ns}.code{R} set c).Does c.op\n'
        for a, _, pf in rows:
            args = a.split(' ', 1)
            cst = '⟨' + a + ', const, seqCst⟩'
            q += f'  | {cst} => by\n    simp only [{ns}.code]\n    ' + (pf[3:].lstrip().replace('\n    ', '\n    ') if pf.startswith('by') else 'exact ' + pf.replace('\n    ', '\n      ')) + '\n'
        q += '\n'
        st = stated(out, 'X86Proofs', ns)
        q += f'/-- x86, objects of {bytes_(n)}: each function does what its operation prescribes. -/\n'
        q += f'theorem C48_x86_{n} {plead}:\n' + ' ∧\n'.join('    ' + re.sub(r'(?<![\w.])' + r[0] + r'(?![\w])', f'{ns}.{r[0]}', r[2], count=1) for r in st) + ' :=\n  ⟨'
        q += ',\n    '.join(f'{ns}.{r[0]}_ok{h}' for r in st) + '⟩\n\n'
        q += f'/-- x86, objects of {bytes_(n)}: concurrent calls of all operations are linearizable. -/\n'
        q += f'theorem C49_x86_{n} {plead}(set : Bool) : X86.Atomic ({ns}.code{R} set) := by\n  intro base v₀ hb\n  refine linearizable_of_correct (fun c => ?_) hb v₀\n  have := {ns}.code_ok{h} set c\n  exact ⟨this.labels, this.sound, this.ends⟩\n\n'
    open(out + '/X86Ops.lean', 'w').write(o + 'end Verif.Asm\n')
    open(out + '/X86Props.lean', 'w').write(q + 'end Verif.Asm\n')

class X86D(X86):
    """x86, objects of two registers."""
    def __init__(s, size, clobbers, preserve):
        s.regs, s.params, s.clobbers, s.preserve = size // 2, '', clobbers, preserve
    LET = {'a': 0, 'c': 1, 'd': 2, 'b': 3, 'S': 6, 'D': 7}
    NAM = {'ax': 0, 'cx': 1, 'dx': 2, 'bx': 3, 'si': 6, 'di': 7}
    def pair(s, size): return True
    def wide(s, o): return 'A' in o.con or 'x' in o.con or (o.con in ('"m"', '"=m"') and not s.object(o))
    def object(s, o): return 'storage' in o.expr
    def reg(s, o):
        l = re.sub(r'[^A-Za-z]', '', o.con)
        return s.LET.get(l)
    def adjust(s, lines, ops, f):
        lines = super().adjust(lines, ops, f)
        for o in ops: o.mem = s.object(o)
        s.prepare(ops)
        return lines
    def prepare(s, ops):
        """The slots of the named registers."""
        s.byreg, s.extra = {}, []
        for o in ops:
            r = s.reg(o)
            if 'A' in o.con: s.byreg[0], s.byreg[2] = o.i, o.i + 20
            elif r is not None: s.byreg[r] = o.i
        for c in re.findall(r'"(?:e|r)(\w\w)"', s.clobbers):
            r = s.NAM[c]; s.byreg[r] = 40 + r; s.extra.append((40 + r, '.outEarly', r))
        if s.preserve: s.byreg[3] = 43; s.extra.append((43, '.reserved', 3))
    def named_slot(s, tok):
        r = s.NAM[tok[3:]]
        if r not in s.byreg: s.byreg[r] = 40 + r; s.extra.append((40 + r, None, r))
        return str(s.byreg[r])
    def find(s, tok, ops):
        m = re.match(r'(4|8)?\(?%\[(\w+)\]\)?$', tok)
        return [o for o in ops if o.name == m.group(2)][0], m.group(1)
    def ins(s, l, k, ops, target, size):
        lock = l.startswith('lock; ')
        if lock: l = l[6:]
        mn, rest = l.split(' ', 1)
        args = [a.strip() for a in rest.split(',')]
        if mn == 'jne': return f"jne {target(args[0], k)} {args[0][:-1]} {'true' if args[0][-1] == 'f' else 'false'}"
        if mn in ('sete',): return f'{mn} {s.slot(args[0], ops)[0]}'
        if mn == 'xchgl': return f'xchgr {s.named_slot(args[0])} {s.named_slot(args[1])}'
        if mn in ('cmpxchg8b', 'cmpxchg16b'):
            assert lock and mn == f'cmpxchg{size // 8}b'
            return 'cmpxchg2 ' + ' '.join(s.named_slot('%%e' + r) for r in ('ax', 'dx', 'bx', 'cx')) + f' {s.find(args[0], ops)[0].i}'
        if mn in ('fildll', 'fistpll'):
            o, _ = s.find(args[0], ops)
            if (50, '.outEarly', None) not in s.extra: s.extra += [(50, '.outEarly', None), (51, '.outEarly', None)]
            if mn == 'fildll': return f'ldx {o.i} 50 51' if o.mem else f'mov2 {o.i} {o.i + 20} 50 51'
            return f'stx 50 51 {o.i}' if o.mem else f'mov2 50 51 {o.i} {o.i + 20}'
        if mn == 'xorps':
            o, _ = s.find(args[0], ops); assert args[0] == args[1]
            return f'xorps {o.i} {o.i + 20}'
        if args[0].startswith('%%'): return f'mov {s.regs} {s.named_slot(args[0])} {s.named_slot(args[1])}'
        o, off = s.find(args[0], ops)
        if args[1].startswith('%%'):
            assert mn == {32: 'movl', 64: 'movq'}[s.regs] and off in (None, str(s.regs // 8))
            return f"{'ldhi' if off or o.name == 'dest_hi' else 'ldlo'} {o.i} {s.named_slot(args[1])}"
        p, _ = s.find(args[1], ops)
        assert mn in ({64: ('vmovq', 'movq', 'movlps'), 128: ('vmovdqa',)}[size])
        if p.mem: return f'stx {o.i} {o.i + 20} {p.i}'
        return f'ldx {o.i} {p.i} {p.i + 20}'
    def fixed(s, ops):
        r = []
        for o in ops:
            if 'A' in o.con: r += [(o.i, 0), (o.i + 20, 2)]
            elif s.reg(o) is not None: r.append((o.i, s.reg(o)))
        return r + [(a, b) for a, _, b in s.extra if b is not None]
    def opnds(s, opn):
        s.inouts = [a for a, k, _ in opn if k == '.inout']
        return '[' + ', '.join([f'({a}, {k})' for a, k, _ in opn] + [f'({a}, {k})' for a, k, _ in s.extra if k]) + ']'
    HALF = [(r'^\(std::uint32_t\)(\w+)$', 'lower'), (r'^\(std::uint32_t\)\((\w+) >> 32u\)$', 'upper'),
            (r'^reinterpret_cast< (?:const )?aliasing_uint64_t\* >\(&(\w+)\)\[0\]$', 'lower'),
            (r'^reinterpret_cast< (?:const )?aliasing_uint64_t\* >\(&(\w+)\)\[1\]$', 'upper')]
    def arg(s, o, argv, f, N, pair):
        if s.object(o): return None
        for p, h in s.HALF:
            m = re.match(p, o.expr)
            if m: return f'x {o.i} = {h} {s.regs} {argv[m.group(1)]}'
        e = o.expr
        if e == 'value':
            assert 'xmm_t value' in f.text; e = 'v'
        return f'x {o.i} = lower {s.regs} {argv[e]} ∧ x {o.i + 20} = upper {s.regs} {argv[e]}'
    def result(s, f, ops, kind, N, pair, slots, opts):
        out = [o for o in ops if o.out and not s.object(o) and o.expr != 'success']
        rest = opts.get('restored', [])
        if f.name == 'store': return '.unit', rest
        if len(out) == 1: lo, hi = out[0].i, out[0].i + 20
        else: (lo, hi) = [o.i for o in out]; assert out[0].expr.endswith('[0]') and out[1].expr.endswith('[1]')
        v = f'(joined {N} (r {hi}) (r {lo}))'
        if kind == 'c':
            b = [o for o in ops if o.expr == 'success'][0]
            assert 'return success;' in f.text
            return f'bool8 (r {b.i}) (.cas · {v})', [lo, hi, b.i] + rest
        return f'.val {v}', [lo, hi] + rest

def x86_dcas(out):
    C = 'core_arch_ops_gcc_x86.hpp'
    SSE, SSE2, AVX, PIC, BITS, FL = '__SSE__', '__SSE2__', '__AVX__', 'BOOST_ATOMIC_DETAIL_X86_ASM_PRESERVE_EBX', 'BOOST_ATOMIC_DETAIL_X86_NO_ASM_AX_DX_PAIRS', 'BOOST_ATOMIC_DETAIL_ASM_HAS_FLAG_OUTPUTS'
    cfg = {64: [('store', 0, 'storeAvx', [SSE, SSE2, AVX]), ('store', 0, 'storeSse2', [SSE, SSE2]), ('store', 0, 'storeSse', [SSE]), ('store', 0, 'storeX87', []),
                ('store', 1, 'storeLoop', []), ('store', 1, 'storePic', [PIC]),
                ('load', 0, 'loadAvx', [SSE, SSE2, AVX]), ('load', 0, 'loadSse2', [SSE, SSE2]), ('load', 0, 'loadSse', [SSE]), ('load', 0, 'loadX87', []),
                ('load', 1, 'loadCas', []), ('load', 1, 'loadCasBits', [BITS]),
                ('compare_exchange_strong', 0, 'cas', [FL]), ('compare_exchange_strong', 0, 'casSet', []),
                ('compare_exchange_strong', 0, 'casPic', [PIC, FL]), ('compare_exchange_strong', 0, 'casPicSet', [PIC]),
                ('exchange', 0, 'exchange', []), ('exchange', 0, 'exchangeBits', [BITS]), ('exchange', 0, 'exchangeMinGw', ['__MINGW32__']),
                ('exchange', 0, 'exchangePic', [PIC]), ('exchange', 0, 'exchangePicBits', [PIC, BITS])],
           128: [('store', 0, 'storeAvx', [AVX]), ('store', 1, 'storeLoop', [AVX]), ('load', 0, 'loadAvx', [AVX]), ('load', 1, 'loadCas', [AVX]),
                 ('load', 1, 'loadCasBits', [AVX, BITS]),
                 ('compare_exchange_strong', 0, 'cas', [FL]), ('compare_exchange_strong', 0, 'casSet', []), ('compare_exchange_strong', 0, 'casBits', [BITS]),
                 ('exchange', 0, 'exchange', []), ('exchange', 0, 'exchangeBits', [BITS])]}
    base = {64: ('gcc_dcas_x86', 'BOOST_ATOMIC_DETAIL_X86_HAS_CMPXCHG8B'), 128: ('gcc_dcas_x86_64', 'BOOST_ATOMIC_DETAIL_X86_HAS_CMPXCHG16B')}
    code = HEAD.format(imp='IsaX86', doc='The assembly blocks of core_arch_ops_gcc_x86.hpp for objects of two registers.')
    p = ('import Verif.Asm.X86Pair\nimport Verif.Asm.X86DcasCode\n\n/-\nThe x86 functions for objects of two registers are correct.\nWritten by tools/asmgen.py.\n-/\n\nset_option linter.unusedSimpArgs false\nset_option linter.unusedVariables false\n\n'
         'namespace Verif.Asm\nopen X86\n\n')
    for N in (64, 128):
        ns = f'X86d{N // 8}'
        st, has = base[N]
        code += f'namespace {ns}\nopen X86\n\n'
        p += f'namespace {ns}\n\n'
        for fname, k, name, defs in cfg[N]:
            f = [f for f in gather([(C, [has] + defs)]) if f.struct == st and f.name == fname][0]
            b = f.blks[k]
            pic = PIC in defs; isa = X86D(N, b[4][3], pic)
            opts = dict(file=C, restored=[])
            if defs: opts['note'] = ', with ' + ', '.join(f'`{d}`' for d in defs)
            if name == 'loadSse': opts['differ'] = [(0, 1), (20, 1)]
            if name.startswith('casPic'): opts['differ'] = [(1, 2)]
            if pic and name != 'storePic': opts['restored'] = [43]
            if pic and name.startswith('casPic'): opts['restored'] += [2]
            if name == 'exchangePic': opts['restored'] += [1]
            if name == 'exchangePicBits': opts['restored'] += [2]
            t, i = emit_block(isa, f, b, N, N, name, opts)
            code += t + '\n'
            if name == 'storePic': continue
            op = {'store': '.store', 'load': '(fun _ => .load)', 'compare_exchange_strong': '(fun a => .casStrong a.1 a.2)', 'exchange': '.exchange'}[fname]
            r, loop = opts['restored'], len(i['cuts']) > 1
            keep = [k for k in i['keep'] if not (loop and k in r)]
            if not loop: keep += r + [k for k in isa.inouts]
            inv = ' ∧ '.join(f'r {k} = x {k}' for k in sorted(set(keep)))
            if loop and r:
                k, l = r
                inv += f' ∧ if pc = 0 then r {k} = x {k} ∧ r {l} = x {l} else r {k} = x {l} ∧ r {l} = x {k}'
            inv = f"(fun {'pc' if loop and r else '_'} x r => {inv})"
            p += (f"theorem {name}_ok :\n    {name}.Implements Integral.spec {op} := by\n  {'rintro ⟨e, d⟩' if 'compare' in fname else 'intro a'}\n"
                  f"  asm_pair [{name}] half{N} {i['cuts']} {inv} {opts['restored']} {i['n']}\n\n")
        code += f'end {ns}\n\n'
        p += f'end {ns}\n\n'
    open(out + '/X86DcasCode.lean', 'w').write(code + 'end Verif.Asm\n')
    open(out + '/X86DcasProofs.lean', 'w').write(p + 'end Verif.Asm\n')

if __name__ == '__main__' and len(sys.argv) > 2 and sys.argv[1] == 'list':
    import os
    for spec in sys.argv[2:]:
        f, _, d = spec.partition(':')
        src = preprocess('/repo/' + DETAIL + f, set(d.split(',')) if d else set())
        for fn in functions(src):
            bs = blocks(fn)
            if not bs: continue
            print('==', fn.struct, fn.ret, fn.name, fn.params, fn.line, fn.end)
            for p, e, a, b, secs in bs:
                print('  --', a, b, secs[0])
                print('     O', operands(secs[1])); print('     I', operands(secs[2])); print('     C', secs[3])
            print('  ..', re.sub(r'\s+', ' ', fn.text[bs[-1][1]:])[:200])

if __name__ == '__main__' and len(sys.argv) == 2:
    out = sys.argv[1]
    arm_proofs(out, *arm(out))
    arm_tables(out)
    aarch32(out)
    aarch32_tables(out)
    aarch64(out)
    a64_proofs(out)
    a64_tables(out)
    ppc(out)
    ppc_tables(out)
    alpha(out)
    alpha_tables(out)
    sparc(out)
    sparc_tables(out)
    x86(out)
    x86_tables(out)
    x86_dcas(out)
