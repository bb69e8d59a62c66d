"""Writes lean/Verif/LibNames.lean, LibPrelude.lean and LibBoot.lean: the names known to the C code and the expressions of prelude.min and boot.min
as expressions of the intermediate language.  Usage: python3 gen_code.py REPO OUTDIR"""
import re, sys

REPO, OUT = sys.argv[1], sys.argv[2]
DELIM = ' \t\n\r()[]"\';'

def tokens(s):
    i, n, line, out = 0, len(s), 1, []
    while i < n:
        c = s[i]
        if c == '\n': line += 1; i += 1
        elif c in ' \t\r': i += 1
        elif c == ';':
            while i < n and s[i] != '\n': i += 1
        elif c in '([': out.append(('(', None, line)); i += 1
        elif c in ')]': out.append((')', None, line)); i += 1
        elif s.startswith('#\\', i):
            j = i + 3
            while j < n and s[j] not in DELIM: j += 1
            out.append(('lit', s[i:j], line)); i = j
        elif s.startswith('#(', i): out.append(('#', None, line)); i += 1
        elif c == "'": out.append(("'", None, line)); i += 1
        elif c == '"':
            j = i + 1
            while s[j] != '"': j += 2 if s[j] == '\\' else 1
            out.append(('lit', s[i:j + 1], line)); line += s[i:j].count('\n'); i = j + 1
        else:
            j = i
            while j < n and s[j] not in DELIM: j += 1
            t = s[i:j]
            assert t[0] not in '`,|' and not (t[0] == '#' and t not in ('#t', '#f')), t
            if t == '.' and s[j] in ' \t\n\r':  # is_cons_dot, read.c:47-54
                out.append(('.', None, line)); i = j; continue
            out.append(('lit' if t in ('#t', '#f') or re.fullmatch(r'[-+]?\d+', t) else 'sym', t, line)); i = j
    return out

class Pair(list):
    """A list; `tail` is None for a proper list."""
    tail = None

def parse(s):
    ts, pos, out = tokens(s), 0, []
    def rd():
        nonlocal pos
        k, t, ln = ts[pos]; pos += 1
        if k == '(':
            l = Pair(); l.line = ln
            while ts[pos][0] != ')':
                if ts[pos][0] == '.':
                    pos += 1; l.tail = rd(); assert ts[pos][0] == ')'
                else: l.append(rd())
            l.end = ts[pos][2]; pos += 1
            return l
        if k == "'":
            l = Pair([('sym', 'quote'), rd()]); l.line = ln
            return l
        if k == '#': return ('lit', '#' + show(rd()))
        return (k, t)
    while pos < len(ts): out.append(rd())
    return out

def show(x):
    if isinstance(x, Pair):
        return '(' + ' '.join(map(show, x)) + ('' if x.tail is None else ' . ' + show(x.tail)) + ')'
    return x[1]

SPECIAL = {'values': '.values', 'call-with-values': '.callWithValues'}
KEYWORDS = {'define-values': '.defineValues', 'let-values': '.letValues', 'letrec-values': '.letrecValues', 'quote': '.quote', 'quote-syntax': '.quoteSyntax',
            'set!': '.setb', 'if': '.ifS', 'lambda': '.lambda', 'case-lambda': '.caseLambda', 'begin': '.begin'}
used, lits = {}, {}

def sym(n):
    if n in SPECIAL: return SPECIAL[n]
    assert n not in KEYWORDS, n
    used.setdefault(n, None)
    return '«%s»' % n

def lit(t):
    if t == '#t': return '.tru'
    if t == '#f': return '.fls'
    return '(.const %d)' % lits.setdefault(t, len(lits))

def datum(x):
    if isinstance(x, Pair):
        r = '.null' if x.tail is None else datum(x.tail)
        for y in reversed(x): r = '(.cons %s %s)' % (datum(y), r)
        return r
    if x[0] == 'lit': return '(.lit %s)' % lit(x[1])
    return '(.sym %s)' % (KEYWORDS[x[1]] if x[1] in KEYWORDS else sym(x[1]))

def ids(l): return '[' + ', '.join(sym(x[1]) for x in l) + ']'

def formals(f):
    if not isinstance(f, Pair): return '⟨[], some %s⟩' % sym(f[1])
    return '⟨%s, %s⟩' % (ids(f), 'none' if f.tail is None else 'some ' + sym(f.tail[1]))

def exprs(l): return '[' + ', '.join(map(expr, l)) + ']'

def binds(l): return '[' + ', '.join('.mk %s %s' % (ids(b[0]), expr(b[1])) for b in l) + ']'

def expr(x):
    if not isinstance(x, Pair):
        return '(.lit %s)' % lit(x[1]) if x[0] == 'lit' else '(.var %s)' % sym(x[1])
    assert x.tail is None and x, x
    h = x[0][1] if not isinstance(x[0], Pair) else None
    if h == 'quote': return '(.quote %s)' % datum(x[1])
    if h == 'quote-syntax': return '(.quoteSyntax %s)' % datum(x[1])
    if h == 'define-values': return '(.define %s %s)' % (ids(x[1]), expr(x[2]))
    if h == 'set!': return '(.set %s %s)' % (sym(x[1][1]), expr(x[2]))
    if h == 'if':
        assert len(x) == 4
        return '(.ite %s %s %s)' % tuple(map(expr, x[1:]))
    if h == 'let-values': return '(.letv %s %s)' % (binds(x[1]), exprs(x[2:]))
    if h == 'letrec-values': return '(.letrecv %s %s)' % (binds(x[1]), exprs(x[2:]))
    if h == 'lambda': return '(.lam %s %s)' % (formals(x[1]), exprs(x[2:]))
    if h == 'case-lambda': return '(.clam [%s])' % ', '.join('.mk %s %s' % (formals(c[0]), exprs(c[1:])) for c in x[1:])
    if h == 'begin': return '(.begin %s)' % exprs(x[1:])
    assert h not in KEYWORDS, x
    return '(.app %s %s)' % (expr(x[0]), exprs(x[1:]))

def wrap(s, width=160):
    out, cur = [], ''
    for w in s.split(' '):
        if len(cur) + len(w) + 1 > width:
            out.append(cur); cur = '  ' + w
        else: cur = cur + ' ' + w if cur else w
    return '\n'.join(out + [cur])

prim = open(REPO + '/src/core/c/prim.c').read()
env = open(REPO + '/src/core/c/env.c').read()
line = lambda s, i: s.count('\n', 0, i) + 1
known = [(m[1], 'env.c:%d' % line(env, m.start())) for m in re.finditer(r'add_value\(base_env, "([^"]+)"', env)]
prims = [(m[1], m[2], line(prim, m.start())) for m in re.finditer(r'^ *add_procedure\("([^"]+)", *\w+, *(\d+)\)', prim, re.M)]
cprocs = [(m[1], line(prim, m.start())) for m in re.finditer(r'^ *add_cprocedure\("([^"]+)"', prim, re.M)]
known += [(n, 'prim.c:%d' % l) for n, _, l in prims] + [(n, 'prim.c:%d' % l) for n, l in cprocs]

files = {}
for mod, path in (('Prelude', 'src/core/s/prelude.min'), ('Boot', 'src/boot/s/boot.min')):
    forms = parse(open(REPO + '/' + path).read())
    files[mod] = (path, forms, [expr(f) for f in forms])

defined = {}
for mod in files:
    path, forms, _ = files[mod]
    for f in forms:
        if not isinstance(f[0], Pair) and f[0][1] == 'define-values':
            for x in f[1]: defined.setdefault(x[1], '%s:%d' % (path.split('/')[-1], f.line))

order = []
for n, w in known:
    if n not in SPECIAL and n not in [a for a, _ in order]: order.append((n, w))
NK = len(order)
arity = {n: a for n, a, _ in prims}
for n, w in defined.items():
    if w.startswith('boot') : continue
    if n not in SPECIAL and n not in [a for a, _ in order]: order.append((n, w))
NP = len(order)
for n, w in defined.items():
    if n not in SPECIAL and n not in [a for a, _ in order]: order.append((n, w))
seen = {n for n, _ in order}
NG = len(order)
for n in used:
    if n not in seen: order.append((n, 'local'))

# arities of the procedures that are values of global variables, as far as one can see
ar = {n: ((int(a), False),) for n, a, _ in prims}
ar['apply'] = ((2, True),)
ar['values'] = ((0, True),)

def ids_of(bs): return [x[1] for b in bs for x in b[0]]

def arf(f):
    if not isinstance(f, Pair): return (0, True)
    return (len(f), f.tail is not None)

def shapes(x, loc):
    """The arities of the values, or None."""
    if not isinstance(x, Pair):
        return None if x[0] == 'lit' else [None if x[1] in loc else ar.get(x[1])]
    h = x[0][1] if not isinstance(x[0], Pair) else None
    if h in ('let-values', 'letrec-values'): return shapes(x[-1], loc | set(ids_of(x[1])))
    if h == 'begin': return shapes(x[-1], loc)
    if h == 'lambda': return [(arf(x[1]),)]
    if h == 'case-lambda': return [tuple(arf(c[0]) for c in x[1:])]
    if h == 'if':
        a, b = shapes(x[2], loc), shapes(x[3], loc)
        return a if a == b else None
    if h == 'values' and h not in loc:
        r = []
        for y in x[1:]:
            s = shapes(y, loc)
            r.append(s[0] if s is not None and len(s) == 1 else None)
        return r
    return None

dead = set()
def bind(n, s):
    if n in dead: return
    if s is None or (n in ar and ar[n] != s):
        dead.add(n); ar.pop(n, None)
    else: ar[n] = s

def note(x, loc):
    """Definitions and assignments of global variables."""
    if not isinstance(x, Pair) or not x: return
    h = x[0][1] if not isinstance(x[0], Pair) else None
    if h in ('quote', 'quote-syntax'): return
    if h == 'define-values':
        s = shapes(x[2], loc) or []
        for k, y in enumerate(x[1]): bind(y[1], s[k] if k < len(s) else None)
        note(x[2], loc)
    elif h == 'set!':
        if x[1][1] not in loc:
            s = shapes(x[2], loc)
            bind(x[1][1], s[0] if s is not None and len(s) == 1 else None)
        note(x[2], loc)
    elif h in ('let-values', 'letrec-values'):
        l = loc | set(ids_of(x[1]))
        for b in x[1]: note(b[1], l if h == 'letrec-values' else loc)
        for y in x[2:]: note(y, l)
    elif h == 'lambda':
        f = x[1]
        l = loc | ({y[1] for y in f} | ({f.tail[1]} if f.tail is not None else set()) if isinstance(f, Pair) else {f[1]})
        for y in x[2:]: note(y, l)
    elif h == 'case-lambda':
        for c in x[1:]: note(Pair([('sym', 'lambda')] + list(c)), loc)
    else:
        for y in x: note(y, loc)

while True:
    before = len(dead)
    for mod in files:
        for f in files[mod][1]: note(f, set())
    if len(dead) == before: break
print('arity known for', len([n for n, _ in order[:NG] if n in ar]), 'of', NG, sorted(n for n, _ in order[:NG] if n not in ar))

def arity_lean(n):
    if n not in ar: return 'none'
    return 'some [' + ', '.join('(%d, %s)' % (k, 'true' if r else 'false') for k, r in ar[n]) + ']'

with open(OUT + '/LibNames.lean', 'w') as o:
    o.write('''import Verif.Core

/-!
# Names in the library code (C104)

Written by `tools/gen_code.py` from prim.c, env.c, prelude.min and boot.min.  Numbers below `kernel` are names bound by the C code, numbers below `preludeGlobals` are
names bound by it or defined in prelude.min, numbers below `globals` are names bound by it or defined in prelude.min or boot.min, the others are names of local variables and of nothing.
-/

set_option autoImplicit false

namespace Minim.Lib

open Minim.Sx Minim.Core

/-- The number of names the C code binds (`init_envs`, env.c:186-194; `init_prims`, prim.c:17-229), without `values`. -/
def kernel : Nat := %d

/-- The number of names bound by the C code or defined in prelude.min, without `values` and `call-with-values`. -/
def preludeGlobals : Nat := %d

/-- The number of names bound by the C code or defined in prelude.min or boot.min, without `values` and `call-with-values`. -/
def globals : Nat := %d

/-- The number of arguments of the C functions with numbers below `kernel` (`add_procedure`); `none` for the names bound otherwise. -/
%s

''' % (NK, NP, NG, wrap('def arities : List (Option Nat) := [' + ', '.join('some ' + arity[n] if n in arity else 'none' for n, _ in order[:NK]) + ']')))
    o.write('/-- The arities of the procedures that are values of global variables, as far as one can see: for each clause, the number of required arguments, and whether more are\naccepted.  That this is right is checked in LibCallsProps.lean. -/\n')
    o.write(wrap('def globalArities : List (Option (List (Nat × Bool))) := [' + ', '.join(arity_lean(n) for n, _ in order[:NG]) + ']') + '\n\n')
    o.write('namespace S\n\n')
    for i, (n, w) in enumerate(order):
        if w == 'local': o.write('/-- the name of no global -/\n')
        else: o.write('/-- %s -/\n' % w)
        o.write('abbrev «%s» : Sym := .user %d\n' % (n, i))
    o.write('\nend S\n\nend Minim.Lib\n')

for mod in files:
    path, forms, es = files[mod]
    base = path.split('/')[-1]
    with open(OUT + '/Lib%s.lean' % mod, 'w') as o:
        o.write('''import Verif.LibNames

/-!
# The code of %s (C104)

Written by `tools/gen_code.py`: the expressions of the file, in order.  Literals are numbered:
''' % base)
        text = '\n'.join(es)
        mine = [(t, i) for t, i in lits.items() if '(.const %d)' % i in text]
        o.write(wrap('; '.join('%d is %s' % (i, t.replace('\n', '\\n').replace('-/', '- /')) for t, i in mine)))
        o.write('''
-/

set_option autoImplicit false
set_option maxRecDepth 4000

namespace Minim.Lib

open Minim.Sx Minim.Core S

''')
        names = []
        for k, (f, e) in enumerate(zip(forms, es)):
            nm = '%s_%d' % (mod.lower(), k + 1)
            names.append(nm)
            h = f[0][1]
            what = 'define ' + ' '.join(x[1] for x in f[1]) if h == 'define-values' else 'set! ' + f[1][1] if h == 'set!' else 'call of ' + h
            o.write('/-- %s (%s:%d-%d) -/\n' % (what, base, f.line, f.end))
            o.write(wrap('def %s : E := %s' % (nm, e)) + '\n\n')
        o.write('/-- The expressions of %s, in order. -/\n' % base)
        o.write(wrap('def %s : List E := [%s]' % (mod.lower(), ', '.join(names))) + '\n\nend Minim.Lib\n')
print(NK, NG, len(order), {m: len(files[m][1]) for m in files})
