#!/usr/bin/env python3
"""Write the forms of addresses for the grammars in /repo/data/sample, the grammars with numbers for names, and classes that the words
of expressions must not have.

Run from /verif: python3 tools/forms.py.  Each form is a list of words, with the class it is taken in, the class it is given and the
classes it must not have.  These are as few as this script finds.  The kernel checks the forms, not this script."""
import glob, os, re

PREF = """QUAD QUINT DOUBLE SINGLE WORD TYPE ROAD DIRECT PROV CITY NATION QUALIF UNITH UNITT BUILDH BUILDT PLACEN RR BOXH STOPWORD ORD
MILE NUMBER MIXED PCT PCH FRACT STOP DASH AMPERS PUNCT SPACE EMDASH SLASH ATSIGN COMMA BADTOKEN""".split()
LIMIT = 300  # of steps to find the readings
# Further classes a word with the class always has, and may have, by its shape
NEEDED = {'QUAD': 'NUMBER', 'QUINT': 'NUMBER', 'DOUBLE': 'WORD', 'SINGLE': 'WORD', 'PCH': 'MIXED', 'PCT': 'MIXED'}
USUAL = {'WORD': 'DOUBLE SINGLE', 'NUMBER': 'QUAD QUINT', 'MIXED': 'PCH PCT'}
OUT = set("BLDNG HOUSE PREDIR QUALIF PRETYP STREET SUFTYP SUFDIR RR EXTRA CITY PROV NATION POSTAL BOXH BOXT UNITH UNITT BADTOKEN STOP IGNORE".split())


def read(path):
    secs, cur = {}, None
    for l in open(path, encoding='ascii').read().split('\n'):
        l = l.strip()
        if not l or l[0] == '#':
            continue
        m = re.match(r'\[([^\]]+)\]', l)
        if m:
            cur = m.group(1)
            secs.setdefault(cur, [])
        else:
            secs[cur].append(l)
    metas = [(s, [[w.lstrip('@') for w in l.split()] for l in ls]) for s, ls in secs.items() if ls and '@' in ls[0]]
    rules = []
    for s, ls in secs.items():
        if ls and '@' not in ls[0]:
            p = [[x.split() for x in l.split('->')] for l in ls]
            rules.append((s, [(a, [o if o in OUT else 'BADTOKEN' for o in b], c[0]) for a, b, c in p]))
    return metas, rules


def readings(g, without):
    """The readings (classes taken and given, sum of scores, number of rules) and the number of steps to find them."""
    ms, rs = dict(g[0]), dict(g[1])
    n, memo = len(without), {}

    def rec(ss, i):
        if not ss:
            return ({((), (), 0, 0)} if i == n else set()), 1
        if len(ss) > n - i:
            return set(), 1
        if (ss, i) not in memo:
            res, steps, s, rest = set(), 1, ss[0], ss[1:]
            for refs in ms.get(s, []):
                r, k = rec(tuple(refs) + rest, i)
                res, steps = res | r, steps + k
            for a, b, score in rs.get(s, []):
                if i + len(a) <= n and all(c not in without[i + j] for j, c in enumerate(a)):
                    r, k = rec(rest, i + len(a))
                    res |= {(tuple(a) + c, tuple(b) + d, int(score[2:]) + u, v + 1) for c, d, u, v in r}
                    steps += k
            memo[ss, i] = res, steps
        return memo[ss, i]

    return rec(('ADDRESS',), 0)


def check(g, x):
    """The steps to find the readings, if the form is the best."""
    res, steps = readings(g, [w for _, _, w in x])
    form = tuple(a for a, _, _ in x), tuple(b for _, b, _ in x)
    for y in res:
        if y[:2] == form and all(z[2] * y[3] < y[2] * z[3] or z[:2] == form for z in res):
            return steps


def grow(g, x):
    used = {c for _, v in g[1] for r in v for c in r[0]}
    x = [(a, b, w & used) for a, b, w in x]
    for cs in [lambda a: NEEDED.get(a, ''), lambda a: USUAL.get(a, ''), lambda a: ' '.join(PREF)]:
        for c in PREF:
            for i, (a, b, w) in enumerate(x):
                if c in w and c in cs(a).split():
                    y = x[:i] + [(a, b, w - {c})] + x[i + 1:]
                    if (check(g, y) or LIMIT) < LIMIT:
                        x = y
    if any(c in w for a, _, w in x for c in NEEDED.get(a, '').split()):
        return None
    return [(a, b, [c for c in PREF if c in w]) for a, b, w in x]


APART_LIMIT = 250  # of steps to find the readings of a form with an expression taken apart


def apart(g, x, i, k):
    """Classes the words must not have so that the form, with the word at a place taken as several words, is read with a worse average."""
    used = {c for _, v in g[1] for r in v for c in r[0]}
    form = tuple(a for a, _, _ in x)
    y = max((z for z in readings(g, [w for _, _, w in x])[0] if z[0] == form), key=lambda z: z[2] / z[3])

    def outdone(ws):
        res, steps = readings(g, ws)
        return steps < APART_LIMIT and all(z[2] * y[3] < y[2] * z[3] for z in res)

    at = [a for a, _, _ in x]
    given = [set(w) for _, _, w in x]
    ws = [{c for c in used if c not in (a, NEEDED.get(a))} for a in at[:i] + ['WORD'] * k + at[i + 1:]]
    given = given[:i] + [set()] * k + given[i + 1:]
    if not outdone(ws):
        return None
    order = list(range(i, i + k)) + [j for j in range(len(ws)) if not i <= j < i + k]
    for cs in [['WORD'], PREF]:
        for j in order:
            for c in cs:
                if c in ws[j] - given[j]:
                    v = ws[:j] + [ws[j] - {c}] + ws[j + 1:]
                    if outdone(v):
                        ws = v
    return [[c for c in PREF if c in w] for w in ws]


W, T, T1, H = ('WORD', 'STREET'), ('TYPE', 'SUFTYP'), ('TYPE', 'PRETYP'), ('NUMBER', 'HOUSE')
B, U = [('BOXH', 'BOXH'), ('NUMBER', 'BOXT')], [('UNITH', 'UNITH'), ('NUMBER', 'UNITT')]
C, N, CC, P = ('WORD', 'CITY'), ('NATION', 'NATION'), ('CITY', 'CITY'), ('PROV', 'PROV')


def postal(*a):
    return [(c, 'POSTAL') for c in a]


CANDIDATES = []
for q in [postal('QUAD'), postal('QUINT'), postal('QUAD', 'DOUBLE')]:
    for f in [[W, H], [W, T, H], [T1, W, H], [H, T1, W]]:
        CANDIDATES += [f + q + [C], f + q + [CC], f + q + [C, C], f + q + [C, N]]
    for f in [B, [W, W, H], [W, H] + U, [T1, W, W, H], [W, W, T, H], [H, T1, W, W]]:
        CANDIDATES.append(f + q + [C])
for e in [[], [P], [P] + postal('QUAD'), [P] + postal('QUINT'), [P] + postal('MIXED', 'MIXED'), [P] + postal('PCH', 'PCT'),
          postal('MIXED', 'MIXED')]:
    CANDIDATES += [[H, W, T, C] + e, [H, W, T, CC] + e, [H, W, T, C, C] + e, [H, W, T, C] + e + [N]]
    for f in [[H, ('DIRECT', 'PREDIR'), W, T], [H, W, T] + U, [H, ('ORD', 'STREET'), T], B, [H, W], [H, W, W, T], U + [H, W, T], [H, T1, W]]:
        CANDIDATES.append(f + [C] + e)


def run(n):
    out = []
    for l in CANDIDATES:
        x = [(a, b, frozenset(PREF) - {a}) for a, b in l]
        y = check(G[n], x) and grow(G[n], x)
        if y:
            out.append(y)
    return out


def name(path):
    return ''.join(w.capitalize() for w in os.path.basename(path)[:-4].split('_'))


def low(n):
    return n[0].lower() + n[1:]


def wrap(start, items, end):
    lines = [start + items[0]]
    for q in items[1:]:
        if len(lines[-1]) + 2 + len(q) > 132:
            lines[-1] += ','
            lines.append('    ' + q)
        else:
            lines[-1] += ', ' + q
    return '\n'.join(lines) + end


def dots(l):
    return '[' + ', '.join('.' + c for c in l) + ']'


G = {name(p): read(p) for p in sorted(glob.glob('/repo/data/sample/*.gmr'))}

out = ["""import Verif.Spec.Forms
/-
Forms of addresses for the grammars that come with the sources: streets with or without a type before or behind the name, post
office boxes, units, directions, names of one or two words, postcodes, provinces and countries, as far as the grammar reads them so.
For each word: the class it is taken in, the class it is given, the classes it must not have. Written by tools/forms.py.
-/
namespace AS.FormTable
"""]
FORMS = {n: run(n) for n in G}
for n in G:
    fs = []
    for x in FORMS[n]:
        fs.append(wrap('  [', ['⟨.' + a + ', .' + b + ', ' + dots(w) + '⟩' for a, b, w in x], ']'))
    out.append('def ' + low(n) + ' : List Form := [\n' + ',\n'.join(fs) + ']\n')
out.append('end AS.FormTable\n')
open('lean/Verif/Spec/FormTable.lean', 'w').write('\n'.join(out))

out = ["""import Verif.Lemmas.Forms
/-
The grammars that come with the sources, with numbers in place of the names of sections. Written by tools/forms.py.
-/
namespace AS.FormData
"""]
for n, (ms, rs) in G.items():
    num = {}
    for s, _ in ms + rs:
        assert s not in num
        num[s] = len(num)
    out.append('def ' + low(n) + ' : Coded where\n  metas := [')
    out.append(',\n'.join(wrap('    (c!"' + s + '", [', ['[' + ', '.join(str(num[r]) for r in a) + ']' for a in v], '])') for s, v in ms) + ']')
    out.append('  rules := [')
    out.append(',\n'.join('    (c!"' + s + '", [\n' + ',\n'.join('      ⟨' + dots(a) + ', ' + dots(b) + ', c!"' + c + '"⟩' for a, b, c in v) + '])'
                          for s, v in rs) + ']\n')
out.append('end AS.FormData\n')
open('lean/Verif/Lemmas/FormData.lean', 'w').write('\n'.join(out))

out = ["""import Verif.Lemmas.FormData
import Verif.Spec.FormTable
/-
The checks of the forms. Written by tools/forms.py.
-/
namespace AS.FormChecks
set_option maxRecDepth 100000
"""]
for n in G:
    d = low(n)
    out.append('theorem %s : codes Sample.%s.sample FormData.%s = true ∧ checkForms FormData.%s FormTable.%s = true :=\n  ⟨by decide +kernel, by decide +kernel⟩\n'
               % (d, n, d, d, d))
out.append('end AS.FormChecks\n')
open('lean/Verif/Lemmas/FormChecks.lean', 'w').write('\n'.join(out))

out = ["""import Verif.Spec.Forms
/-
Forms of addresses with a province, a country, a town, or the words for a post office box or a unit, that is an expression of two or
three words: for each the number of the form in the list of forms and, for all words when the expression is taken as its words, the
classes they must not have. Written by tools/forms.py.
-/
namespace AS.ApartTable
"""]
for n in G:
    fs = []
    for j, x in enumerate(FORMS[n]):
        for i, (a, _, _) in enumerate(x):
            if a in ('PROV', 'NATION', 'CITY', 'BOXH', 'UNITH'):
                for k in (2, 3):
                    ws = apart(G[n], x, i, k)
                    if ws:
                        fs.append(wrap('  (%d, [' % j, [dots(w) for w in ws], '])'))
    out.append('def ' + low(n) + ' : List (Nat × List (List InType)) := [' + ('\n' if fs else '') + ',\n'.join(dict.fromkeys(fs)) + ']\n')
out.append('end AS.ApartTable\n')
open('lean/Verif/Spec/ApartTable.lean', 'w').write('\n'.join(out))

out = ["""import Verif.Lemmas.FormData
import Verif.Spec.FormTable
import Verif.Spec.ApartTable
/-
The checks of the forms with an expression. Written by tools/forms.py.
-/
namespace AS.ApartChecks
set_option maxRecDepth 100000
"""]
for n in G:
    d = low(n)
    out.append('theorem %s : checkApart FormData.%s FormTable.%s ApartTable.%s = true := by decide +kernel\n' % (d, d, d, d))
out.append('end AS.ApartChecks\n')
open('lean/Verif/Lemmas/ApartChecks.lean', 'w').write('\n'.join(out))
