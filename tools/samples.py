#!/usr/bin/env python3
"""Write one Lean module per grammar in /repo/data/sample, with its text, the claims about it and what shows them.

Run from /verif: python3 tools/samples.py.  The claims are checked by the kernel, not by this script."""
import glob, os, re

SRC = '/repo/data/sample'
DST = 'lean/Verif/Sample'
FIELDS = {'BLDNG': 'building', 'HOUSE': 'houseNum', 'PREDIR': 'predir', 'QUALIF': 'qual', 'PRETYP': 'pretype',
          'STREET': 'name', 'SUFTYP': 'suftype', 'SUFDIR': 'sufdir', 'RR': 'ruralroute', 'EXTRA': 'extra',
          'CITY': 'city', 'PROV': 'prov', 'NATION': 'country', 'POSTAL': 'postcode', 'BOXH': 'box', 'BOXT': 'box',
          'UNITH': 'unit', 'UNITT': 'unit', 'BADTOKEN': 'extra'}
ORDER = ['building', 'houseNum', 'predir', 'qual', 'pretype', 'name', 'suftype', 'sufdir', 'ruralroute', 'extra',
         'city', 'prov', 'country', 'postcode', 'box', 'unit']
OUT = set(FIELDS) | {'STOP', 'IGNORE'}


def read(path):
    text = open(path, encoding='ascii').read()
    assert text.endswith('\n')
    lines = text[:-1].split('\n')
    secs, cur = {}, None
    for l in lines:
        l = l.strip()
        if not l or l[0] == '#':
            continue
        m = re.match(r'\[([^\]]+)\]', l)
        if m:
            cur = m.group(1)
            secs.setdefault(cur, [])
        else:
            secs[cur].append(l)
    metas = {s: [[w.lstrip('@') for w in l.split()] for l in ls] for s, ls in secs.items() if ls and '@' in ls[0]}
    rules = {}
    for s, ls in secs.items():
        if ls and s not in metas:
            rules[s] = []
            for l in ls:
                p = [x.split() for x in l.split('->')]
                rules[s].append((p[0], [o if o in OUT else 'BADTOKEN' for o in p[1]]))
    return lines, metas, rules


def bounds(metas, rules):
    e = {s: -10**6 for s in metas}
    e.update({s: max(-len(i) for i, _ in rs) for s, rs in rules.items()})
    for _ in range(500):
        old = dict(e)
        for s, rs in metas.items():
            e[s] = max([e[s]] + [1 + sum(e[n] for n in r) for r in rs])
        if old == e:
            return e
    raise SystemExit('no bound')


def closure(metas):
    seen, todo = [], ['ADDRESS']
    while todo:
        s = todo.pop(0)
        if s in seen:
            continue
        seen.append(s)
        todo += [n for r in metas.get(s, []) for n in r]
    return seen


def unavoidable(metas, rules, f):
    must = {s for s in rules if all(any(FIELDS.get(o) == f for o in outs) for _, outs in rules[s])} | set(metas)
    while True:
        drop = {s for s in must if s in metas and any(not (set(r) & must) for r in metas[s])}
        if not drop:
            return must
        must -= drop


def strs(l):
    return '[' + ', '.join('c!"%s"' % x for x in l) + ']'


def wrap(items, indent='    ', width=110):
    out, cur = [], indent
    for i, x in enumerate(items):
        x = x + (',' if i < len(items) - 1 else '')
        if len(cur) + len(x) + 1 > width and cur.strip():
            out.append(cur.rstrip())
            cur = indent
        cur += x + ' '
    out.append(cur.rstrip())
    return '\n'.join(out)


def main():
    os.makedirs(DST, exist_ok=True)
    for path in sorted(glob.glob(SRC + '/*.gmr')):
        base = os.path.basename(path)[:-4]
        name = ''.join(w.capitalize() for w in base.split('_'))
        lines, metas, rules = read(path)
        e = bounds(metas, rules)
        reach = closure(metas)
        outs = {FIELDS[o] for s in reach for _, os_ in rules.get(s, []) for o in os_ if o in FIELDS}
        never = [f for f in ORDER if f not in outs]
        always, must = [], []
        for f in ORDER:
            m = unavoidable(metas, rules, f)
            if 'ADDRESS' in m:
                always.append(f)
                must.append([s for s in reach if s in m])
        odd = [(i, o) for rs in rules.values() for i, o in rs if 'BADTOKEN' in o]
        origin = []
        for f in ORDER:
            ins = []
            for q in reach:
                for i, o in rules.get(q, []):
                    for x, y in zip(i, o):
                        if FIELDS.get(y) == f and x not in ins:
                            ins.append(x)
            if ins:
                origin.append((f, ins))
        used = {n for rs in metas.values() for r in rs for n in r}
        warns = any(s not in used and s != 'ADDRESS' for s in list(metas) + list(rules))
        o = []
        o.append('import Verif.Lemmas.SampleCheck')
        o.append('/-\nThe grammar data/sample/%s.gmr (all %d lines). Written by tools/samples.py.\n-/' % (base, len(lines)))
        o.append('namespace AS.Sample.%s\n' % name)
        o.append('/-- The text (data/sample/%s.gmr:1-%d), and what is claimed of it. -/' % (base, len(lines)))
        o.append('def sample : Sample where')
        o.append('  lines := [')
        o.append(',\n'.join('    c!"%s"' % l.replace('\\', '\\\\').replace('"', '\\"') for l in lines) + ']')
        o.append('  warns := %s' % str(warns).lower())
        o.append('  odd := [' + ', '.join('([%s], [%s])' % (', '.join('.' + x for x in i), ', '.join('.' + x for x in q)) for i, q in odd) + ']')
        o.append('  never := [' + ', '.join('.' + f for f in never) + ']')
        o.append('  always := [' + ', '.join('.' + f for f in always) + ']')
        o.append('  origin := [\n' + ',\n'.join('    (.%s, [%s])' % (f, ', '.join('.' + x for x in i)) for f, i in origin) + ']\n')
        o.append('/-- What shows it. -/')
        o.append('def cert : Cert where')
        o.append('  excess := [\n' + wrap(['(c!"%s", %d)' % (s, v) for s, v in e.items() if v != -1]) + ']')
        o.append('  reach := [\n' + wrap(['c!"%s"' % s for s in reach]) + ']')
        o.append('  must := [' + ',\n    '.join(strs(m) for m in must) + ']\n')
        o.append('set_option maxRecDepth 100000 in')
        o.append('theorem checked : checkSample sample cert = true := by decide +kernel\n')
        o.append('end AS.Sample.%s' % name)
        open('%s/%s.lean' % (DST, name), 'w').write('\n'.join(o) + '\n')
        print(name, len(lines), 'ADDRESS', e['ADDRESS'], 'warns', warns, 'odd', len(odd), 'never', never, 'always', always)


if __name__ == "__main__":
    main()
