#!/usr/bin/env python3
"""Write one Lean module per lexicon in /repo/data/sample, with its text, the claims about it and what shows them, and what of
the grammar beside it cannot match with it.

Run from /verif: python3 tools/lexicons.py.  The claims are checked by the kernel, not by this script."""
import glob, os, re, sys
sys.path.insert(0, os.path.dirname(os.path.abspath(__file__)))
from samples import SRC, DST, FIELDS, ORDER, read, closure, wrap

CHUNK = 50
SHAPES = set('NUMBER QUAD QUINT ATSIGN SLASH FRACT MIXED PCH PCT WORD DOUBLE SINGLE EMDASH DASH AMPERS SPACE PUNCT'.split())
# the languages in the headers that InClass knows
LANGS = set('CAT DAN DUT ENG FIN FRE GER ITA NOR POR SPA SWE'.split())


def lean(s):
    out = ''
    for c in s:
        if c == '\t':
            out += '\\t'
        elif c == '\r':
            out += '\\r'
        elif c in '"\\':
            out += '\\' + c
        else:
            assert ord(c) >= 32 and c != '\x7f', c
            out += c
    return 'c!"%s"' % out


def dead_parts(lines, metas, rules, listed):
    used = {c for rs in rules.values() for i, _ in rs for c in i}
    dead = sorted(c for c in used if c not in SHAPES and c not in listed)
    left = {s: [r for r in rs if not set(r[0]) & set(dead)] for s, rs in rules.items()}
    barren = {s for s in left if not left[s]}
    while True:
        new = {s for s in metas if all(set(r) & barren for r in metas[s])} - barren
        if not new:
            break
        barren |= new
    m = {s: [r for r in rs if not set(r) & barren] for s, rs in metas.items() if s not in barren}
    reach = closure(m)
    filled = {FIELDS[o] for s in reach for _, os_ in left.get(s, []) for o in os_ if o in FIELDS}
    drop, cur = [], None
    for l in lines:
        t = l.strip()
        h = re.match(r'\[([^\]]+)\]', t)
        if not t or t[0] == '#':
            continue
        if h:
            cur = h.group(1)
            if cur in barren:
                drop.append(l)
        elif cur in barren:
            drop.append(l)
        elif cur in metas:
            if {w.lstrip('@') for w in t.split()} & barren:
                drop.append(l)
        elif set(t.split('->')[0].split()) & set(dead):
            drop.append(l)
    uniq = []
    for l in drop:
        if l not in uniq:
            uniq.append(l)
    assert sum(l in uniq for l in lines) == len(drop)
    return dead, sorted(barren), uniq, [f for f in ORDER if f not in filled], reach


def main():
    only = sys.argv[1:]
    for path in sorted(glob.glob(SRC + '/*.lex')):
        base = os.path.basename(path)[:-4]
        if only and base not in only:
            continue
        name = ''.join(w.capitalize() for w in base.split('_'))
        text = open(path, encoding='utf-8', newline='\n').read()
        assert text.endswith('\n')
        lines = text[:-1].split('\n')
        header, body = lines[0], lines[1:]
        h = header.split('\t')
        classes, witness = [], []
        for i, l in enumerate(body):
            for c in l.split('\t')[3].replace(' ', ',').split(','):
                if c and c not in classes:
                    classes.append(c)
                    witness.append(i)
        lang = h[2] if len(h) > 2 else h[-1]
        locale = h[3] if len(h) > 3 else ''
        glines, metas, rules = read(SRC + '/' + base + '.gmr')
        dead, barren, drop, null, reach = dead_parts(glines, metas, rules, classes)
        o = []
        o.append('import Verif.Lemmas.LexCheck\nimport Verif.Lemmas.PairCheck\nimport Verif.Sample.%s' % name)
        o.append('/-\nThe lexicon data/sample/%s.lex (all %d lines), and what of %s.gmr cannot match with it. Written by\ntools/lexicons.py.\n-/' % (base, len(lines), base))
        o.append('namespace AS.Sample.%s\n' % name)
        chunks = [body[i:i + CHUNK] for i in range(0, len(body), CHUNK)]
        for k, ch in enumerate(chunks):
            o.append('/-- data/sample/%s.lex:%d-%d -/' % (base, 2 + k * CHUNK, 1 + k * CHUNK + len(ch)))
            o.append('def entries%d : List Str := [' % k)
            o.append(',\n'.join('  ' + lean(l) for l in ch) + ']\n')
        o.append('/-- The text, and what is claimed of it. -/')
        o.append('def lexicon : LexSample where')
        o.append('  header := ' + lean(header))
        o.append('  body := ' + wrap2(['entries%d' % k for k in range(len(chunks))]))
        o.append('  lang := .%s' % (lang if lang in LANGS else 'UNKNOWN'))
        o.append('  locale := ' + lean(locale))
        o.append('  classes := [\n' + wrap(['.' + c for c in classes]) + ']\n')
        o.append('set_option maxRecDepth 1000000 in')
        o.append('theorem lexicon_checked : checkLex lexicon [%s] = true := by decide +kernel\n' % ', '.join(map(str, witness)))
        o.append('/-- What of the grammar cannot match. -/')
        o.append('def pair : Pair where')
        o.append('  sample := sample')
        o.append('  lexicon := lexicon')
        o.append('  idle := [' + (',\n    '.join([''] + [lean(l) for l in drop])[1:] if drop else '') + ']')
        o.append('  null := [%s]\n' % ', '.join('.' + f for f in null))
        o.append('/-- What shows it. -/')
        o.append('def pairCert : PairCert where')
        o.append('  dead := [%s]' % ', '.join('.' + c for c in dead))
        o.append('  barren := [%s]' % ', '.join('c!"%s"' % s for s in barren))
        o.append('  reach := [\n' + wrap(['c!"%s"' % s for s in reach]) + ']\n')
        o.append('set_option maxRecDepth 100000 in')
        o.append('theorem pair_checked : checkPair pair pairCert = true := by decide +kernel\n')
        o.append('end AS.Sample.%s' % name)
        open('%s/Lex%s.lean' % (DST, name), 'w').write('\n'.join(o) + '\n')
        print(name, len(lines), lang, locale, 'classes', len(classes), 'dead', dead, 'idle', len(drop), 'null', null)


def wrap2(items):
    out, cur = [], ''
    for x in items:
        if len(cur) + len(x) > 100:
            out.append(cur)
            cur = ''
        cur += (' ++ ' if cur or out else '') + x
    out.append(cur)
    return '\n    '.join(out)


if __name__ == "__main__":
    main()
