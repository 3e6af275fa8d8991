#!/usr/bin/env python3
"""Extract the control skeleton of /repo/library/*.c with respect to the working buffers:
allocation, release, use, branches, loops, calls and returns. Output: a Lean file.

Usage: skeleton.py > lean/Verif/MemSkeleton.lean
       skeleton.py --wipe > lean/Verif/WipeSkeleton.lean

The second form also keeps what was wiped, whether a function succeeded, and what was returned.
"""
import re, sys

WIPE = '--wipe' in sys.argv

FILES = ['edhoc.c', 'edhoc_common.c', 'edhoc_exporter.c', 'edhoc_message_1.c', 'edhoc_message_2.c',
         'edhoc_message_3.c', 'edhoc_message_4.c', 'edhoc_message_error.c']
TOK = re.compile(r'[A-Za-z_]\w*|\d\w*|"(?:\\.|[^"\\])*"|\'(?:\\.|[^\'\\])*\'|->|\+\+|--|<<=?|>>=?|[<>=!+\-*/%&|^]=|&&|\|\||.', re.S)

def clean(t):
    # comments, preprocessor lines, keeping line numbers
    t = re.sub(r'/\*.*?\*/', lambda m: '\n' * m.group(0).count('\n'), t, flags=re.S)
    t = re.sub(r'//[^\n]*', '', t)
    t = re.sub(r'^[ \t]*#(?:[^\n\\]|\\\n|\\.)*', lambda m: '\n' * m.group(0).count('\n'), t, flags=re.M)
    return t

def lex(t):
    out, line = [], 1
    for m in TOK.finditer(t):
        s = m.group(0)
        if s.isspace():
            line += s.count('\n'); continue
        out.append((s, line)); line += s.count('\n')
    return out

class P:
    def __init__(s, toks): s.t = toks; s.i = 0
    def peek(s, k=0): return s.t[s.i + k][0] if s.i + k < len(s.t) else None
    def line(s): return s.t[s.i][1]
    def next(s):
        x = s.t[s.i]; s.i += 1; return x[0]
    def expect(s, x):
        y = s.next()
        assert y == x, (y, x, s.t[s.i - 1])
    def paren(s):
        s.expect('('); d, out = 1, []
        while True:
            x = s.next()
            if x == '(': d += 1
            if x == ')':
                d -= 1
                if d == 0: return out
            out.append(x)
    def upto(s, end):
        d, out = 0, []
        while True:
            x = s.next()
            if x in '([{': d += 1
            if x in ')]}': d -= 1
            if d == 0 and x == end: return out
            out.append(x)
    def block(s):
        s.expect('{'); out = []
        while s.peek() != '}': out.append(s.stmt())
        s.next(); return out
    def body(s):
        return s.block() if s.peek() == '{' else [s.stmt()]
    def stmt(s):
        l, k = s.line(), s.peek()
        if k == '{': return ('block', l, s.block())
        if k == ';': s.next(); return ('expr', l, [])
        if k == 'if':
            s.next(); c = s.paren(); a = s.body(); b = []
            if s.peek() == 'else': s.next(); b = s.body()
            return ('if', l, c, a, b)
        if k == 'for':
            s.next(); c = s.paren(); return ('loop', l, c, s.body())
        if k == 'while':
            s.next(); c = s.paren(); return ('loop', l, c, s.body())
        if k == 'do':
            s.next(); b = s.body(); s.expect('while'); c = s.paren(); s.expect(';')
            return ('loop', l, c, b)
        if k == 'switch':
            s.next(); c = s.paren(); s.expect('{'); cases, cur, default = [], None, False
            while s.peek() != '}':
                if s.peek() == 'case':
                    s.next(); s.upto(':')
                    if cur is None or cur != []: cur = []; cases.append(cur)
                elif s.peek() == 'default':
                    s.next(); s.expect(':'); default = True
                    if cur is None or cur != []: cur = []; cases.append(cur)
                else: cur.append(s.stmt())
            s.next(); return ('switch', l, c, cases, default)
        if k == 'return':
            s.next(); return ('return', l, s.upto(';'))
        if k == 'break': s.next(); s.expect(';'); return ('break', l)
        if k in ('goto', 'continue'): raise SystemExit('unsupported %s at %d' % (k, l))
        return ('expr', l, s.upto(';'))

def functions(path):
    toks = lex(clean(open(path).read())); i, d, out, start = 0, 0, [], 0
    while i < len(toks):
        x = toks[i][0]
        if x == '{' and d == 0:
            head = toks[start:i]
            isf = head and head[-1][0] == ')'
            p = P(toks); p.i = i
            if isf:
                k = 0
                while head[k][0] != '(': k += 1
                name = head[k - 1][0]
                b = p.block(); out.append((name, head[k - 1][1], toks[p.i - 1][1], b)); i = p.i; start = i; continue
            else:
                dd = 0
                while True:
                    if toks[i][0] == '{': dd += 1
                    if toks[i][0] == '}': dd -= 1
                    i += 1
                    if dd == 0: break
                continue
        if x == ';' and d == 0: start = i + 1
        i += 1
    return out

ALLF = []
for f in FILES:
    for (n, a, b, body) in functions('/repo/library/' + f): ALLF.append((f, n, a, b, body))
NAMES = {n for (_, n, _, _, _) in ALLF}
assert len(NAMES) == len(ALLF), 'static names clash'

def strip_size(e):
    # EDHOC_MEM_ALLOC_SIZE(x), EDHOC_MEM_ALLOC_SIZEOF(x), sizeof(x): no access to the buffer
    out, i = [], 0
    while i < len(e):
        if e[i] in ('EDHOC_MEM_ALLOC_SIZE', 'EDHOC_MEM_ALLOC_SIZEOF', 'sizeof') and i + 1 < len(e) and e[i + 1] == '(':
            d, i = 1, i + 2
            while d:
                if e[i] == '(': d += 1
                if e[i] == ')': d -= 1
                i += 1
        else: out.append(e[i]); i += 1
    return out

def mentions(b, word):
    return any(mentions(x, word) if isinstance(x, (list, tuple)) else x == word for x in b)
# functions that read the EAD tokens of the context, directly or through a callee
READS_EAD = {n for (_, n, _, _, b) in ALLF if mentions(b, 'ead_token')}
while True:
    more = {n for (_, n, _, _, b) in ALLF if n not in READS_EAD and any(mentions(b, m) for m in READS_EAD)}
    if not more: break
    READS_EAD |= more
# In these functions the parsed plaintext and the EAD tokens of the context point into this buffer
INTO = {'edhoc_message_2_process': 'ciphertext_2', 'edhoc_message_3_process': 'ptxt', 'edhoc_message_4_process': 'ptxt'}

class Tr:
    def __init__(s, name, body):
        s.bufs, s.alias, s.into = [], {}, INTO.get(name)
        s.parsed = False
        s.scan(body)
    def scan(s, b):
        for st in b:
            if st[0] == 'expr':
                e = st[2]
                if e[:1] == ['EDHOC_MEM_ALLOC'] and e[4] not in s.bufs: s.bufs.append(e[4])
            for x in st:
                if isinstance(x, list) and x and isinstance(x[0], tuple): s.scan(x)
                if isinstance(x, list) and x and isinstance(x[0], list):
                    for y in x: s.scan([z for z in y if isinstance(z, tuple)])
    def idents(s, e):
        e = strip_size(e); out = []
        for i, x in enumerate(e):
            if i > 0 and e[i - 1] in ('.', '->', 'struct'): continue
            y = s.alias.get(x, x)
            if y in s.bufs and y not in out: out.append(y)
        if s.into:
            far = e[:1] != ['memset'] and ('parsed_ptxt' in e or 'ead_token' in e or any(c in READS_EAD for c in s.calls(e)))
            if any(x.startswith('parse_plaintext') for x in e): s.parsed = True
            elif far and s.parsed and s.into not in out: out.append(s.into)
        return out
    def calls(s, e):
        return [x for i, x in enumerate(e[:-1]) if x in NAMES and e[i + 1] == '(']
    def use(s, e):
        if e[:1] and e[0].startswith('EDHOC_LOG'): pass
        r = [('call', c) for c in s.calls(e)]
        if WIPE:
            i = next((i for i in range(len(e) - 1) if e[i] == 'ret' and e[i + 1] == '='), None)
            if i is not None:
                assert not s.calls(e[:i])
                if r and e[i + 2] == r[0][1]: r[0] = ('callRet', r[0][1])
                else: r = r + [('set',)]
        u = s.idents(e)
        if u: r = [('use', x) for x in u] + r
        return r
    def seq(s, b):
        out = []
        for st in b: out += s.st(st)
        return out
    def st(s, st):
        k = st[0]
        if k == 'block': return s.seq(st[2])
        if k == 'expr':
            e = st[2]
            if e[:1] == ['EDHOC_MEM_ALLOC']:
                r = s.use(e[6:-1]); return r + [('alloc', e[4])]
            if e[:1] == ['EDHOC_MEM_FREE']:
                assert e[2] in s.bufs, e
                return [('free', e[2])]
            if WIPE and e[:1] == ['memset'] and e[2] in s.bufs:
                assert e[3:] == [',', '0', ',', 'EDHOC_MEM_ALLOC_SIZEOF', '(', e[2], ')', ')'], e
                return [('wipe', e[2])]
            if '=' in e and e.count('=') == 1:
                i = e.index('='); rhs = [x for x in e[i + 1:] if x not in ('(', ')', 'void', '*')]
                if len(rhs) == 1 and rhs[0] in s.bufs and '*' in e[:i]:
                    s.alias[e[i - 1]] = rhs[0]; return []
            return s.use(e)
        if k == 'if':
            c = st[2]
            if len(c) == 3 and c[0] == 'NULL' and c[1] == '==' and c[2] in s.bufs and not st[4]:
                return [('ifNull', c[2], s.seq(st[3]))]
            a, b = s.seq(st[3]), s.seq(st[4]); pre = s.use(c)
            if only_set(a) and only_set(b): return pre + dedup(a + b)
            if WIPE and c[:3] == ['EDHOC_SUCCESS', '!=', 'ret'] and (len(c) == 3 or c[3] == '||') and not b:
                return pre + [('onFail' if len(c) == 3 else 'onFailOr', a)]
            return pre + [('alt', [a, b])]
        if k == 'loop':
            b = s.use(st[2]) + s.seq(st[3])
            return dedup(b) if only_set(b) else [('loop', b)]
        if k == 'switch':
            # a case ends with break or return, other than the last one
            pre, outs = s.use(st[2]), []
            for ci, c in enumerate(st[3]):
                assert ends(c) or ci == len(st[3]) - 1, ('fallthrough', st[1])
                r = s.seq(c)
                if r and r[-1] == ('brk',): r = r[:-1]
                outs.append(r)
            if not st[4]: outs.append([])
            if all(map(only_set, outs)): return pre + dedup(sum(outs, []))
            return pre + [('scope', [('alt', outs)]) if any(map(has_brk, outs)) else ('alt', outs)]
        if k == 'return' and WIPE:
            e, r = st[2], s.use(st[2])
            if e == ['EDHOC_SUCCESS']: return r + [('ret', 'ok')]
            if len(e) == 1 and e[0].startswith('EDHOC_ERROR_'): return r + [('ret', 'err')]
            if e == ['ret']: return r + [('ret', 'var')]
            if e and e[0] in NAMES and e[1] == '(' and len([x for x in r if x[0] == 'call']) == 1:
                return [('callRet', x[1]) if x[0] == 'call' else x for x in r] + [('ret', 'var')]
            return r + [('ret', 'any')]
        if k == 'return': return s.use(st[2]) + [('ret',)]
        if k == 'break':
            return [('brk',)]
        raise SystemExit(k)
def only_set(r):
    return all(x == ('set',) for x in r)
def dedup(r):
    return r[:1]
def has_brk(r):
    return any(x[0] == 'brk' or (x[0] in ('ifNull',) and has_brk(x[2])) or
               (x[0] in ('onFail', 'onFailOr') and has_brk(x[1])) or
               (x[0] == 'alt' and any(map(has_brk, x[1]))) for x in r)
def ends(b):
    if not b: return False
    x = b[-1]
    if x[0] in ('return', 'break'): return True
    if x[0] == 'block': return ends(x[2])
    if x[0] == 'if': return ends(x[3]) and ends(x[4])
    if x[0] == 'switch': return x[4] and all(ends(c) for c in x[3])
    return False


def declared(b):
    """number of declarations of a variable named ret"""
    n = 0
    for x in b:
        if isinstance(x, tuple) and x[0] == 'expr' and 'ret' in x[2] and x[2].index('ret') > 0 and x[2][x[2].index('ret') - 1] == 'int': n += 1
        elif isinstance(x, (list, tuple)): n += declared(x)
    return n

RES = {'info': 'info', 'key': 'key', 'iv': 'iv'}
def buf(x): return '.' + x
def show(r, ind):
    """Lean text of a statement list"""
    pad = ' ' * ind
    def one(x):
        k = x[0]
        if k == 'ret' and WIPE: return '.ret .' + x[1]
        if k in ('ret', 'brk', 'set'): return '.' + k
        if k in ('onFail', 'onFailOr'): return '.%s (%s)' % (k, show(x[1], ind + 2))
        if k == 'scope': return '.scope (%s)' % show(x[1], ind + 2)
        if k in ('alloc', 'free', 'use', 'wipe'): return '.%s .%s' % (k, x[1])
        if k in ('call', 'callRet'): return '.%s .%s' % (k, x[1])
        if k == 'ifNull': return '.ifNull .%s (%s)' % (x[1], show(x[2], ind + 2))
        if k == 'loop': return '.loop (%s)' % show(x[1], ind + 2)
        if k == 'alt': return 'alt [%s]' % (', '.join(show(y, ind + 2) for y in x[1]))
    return 'seq [\n    %s]' % ((',\n' + pad).join(one(x) for x in r)) if ind == 4 else 'seq [%s]' % (', '.join(one(x) for x in r))

if __name__ == '__main__':
    sks, bufs = [], []
    for (f, n, a, b, body) in ALLF:
        t = Tr(n, body); r = t.seq(body)
        if not ends(body): r.append(('ret', 'any') if WIPE else ('ret',))
        if WIPE: assert declared(body) <= 1, ('several variables ret', n)
        for x in t.bufs:
            if x not in bufs: bufs.append(x)
        sks.append((f, n, a, b, r))
    import textwrap
    def enum(xs):
        return '\n'.join(textwrap.wrap(' '.join('| ' + x for x in xs), 98, initial_indent='  ', subsequent_indent='  ')).replace('|\n  ', '\n  | ')
    if WIPE:
        print("""/-
Control skeletons of the C functions with respect to wiping their working buffers.

Generated by `tools/skeleton.py --wipe` from /repo/library/*.c; do not edit. They are those of
MemSkeleton.lean (`Verif.Wipe.erase_code` proves it) with this added: which accesses set a whole buffer to
zero, which calls and statements assign the variable `ret`, which branches are taken if `ret` is not
EDHOC_SUCCESS, and whether a `return` returns EDHOC_SUCCESS, an error code, `ret`, or something else.
-/
import Verif.Wipe

namespace Verif.Wipe

open Verif.Mem (Buf Fn)
""")
        for (f, n, a, b, r) in sks:
            print('/-- library/%s:%d-%d -/' % (f, a, b))
            print('def code_%s : Stm :=\n  %s\n' % (n, show(r, 4)))
        print('/-- The body of each function. -/')
        print('def code : Fn → Stm')
        for (f, n, a, b, r) in sks: print('  | .%s => code_%s' % (n, n))
        print('\nend Verif.Wipe')
        sys.exit()
    print("""/-
Control skeletons of the C functions with respect to their working buffers.

Generated by tools/skeleton.py from /repo/library/*.c; do not edit. Every function definition of those
files has a skeleton. All of its EDHOC_MEM_ALLOC, EDHOC_MEM_FREE, accesses to a working buffer, calls to
functions of the library, branches, loops and returns are kept, in their order; everything else is
dropped. Conditions are dropped too, other than the test of a buffer against NULL: an `alt` may take
either way. Log statements count as accesses. EDHOC_MEM_ALLOC_SIZE(x) reads no buffer.
-/
import Verif.Mem

namespace Verif.Mem
""")
    print('/-- Names of the working buffers: second argument of EDHOC_MEM_ALLOC in /repo/library/*.c. -/')
    print('inductive Buf where\n' + enum(bufs) + '\n  deriving DecidableEq, Repr\n')
    print('/-- The functions defined in /repo/library/*.c. -/')
    print('inductive Fn where\n' + enum([n for (_, n, _, _, _) in sks]) + '\n  deriving DecidableEq, Repr\n')
    for (f, n, a, b, r) in sks:
        print('/-- library/%s:%d-%d -/' % (f, a, b))
        txt = show(r, 4)
        print('def %s : Stm Buf Fn :=\n  %s\n' % (n + "'" if False else 'code_' + n, txt))
    print('/-- The body of each function. -/')
    print('def code : Fn → Stm Buf Fn')
    for (f, n, a, b, r) in sks: print('  | .%s => code_%s' % (n, n))
    print('\n/-- Every function of the library. -/\ndef Fn.all : List Fn :=\n' +
      '\n'.join(textwrap.wrap('[' + ', '.join('.' + n for (_, n, _, _, _) in sks) + ']', 98, initial_indent='  ', subsequent_indent='   ')))
    print('\nend Verif.Mem')
