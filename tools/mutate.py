#!/usr/bin/env python3
"""Run wrong versions of the model against the theorems.

usage: mutate.py MUTATIONS.json SCRATCH OUT.jsonl

MUTATIONS.json is a list of objects with the keys `id`, `file` (below lean/Verif), `old`, `new`,
`definition`, `edit`, `claim`.  For each, a copy of the project in SCRATCH is edited and built.
Declarations that fail are replaced by `sorry` and the build is repeated, so that everything that
depends on a failed proof is found.  A theorem counts as failed if it depends on `sorryAx`.
"""
import json, os, re, shutil, subprocess, sys

SRC = os.environ.get("SRC", "/verif/lean")
START = re.compile(r"^(?:@\[[^\]]*\]\s*)?(?:private |protected |noncomputable )*(theorem|lemma|example|def|instance|structure|inductive|abbrev|macro|syntax|namespace|end|section|open|variable|mutual|set_option|/--|/-)")
DECL = re.compile(r"^(?:@\[[^\]]*\]\s*)?(?:private |protected |noncomputable )*(theorem|lemma|example|def|instance|structure|inductive|abbrev)\s*([^\s:({\[]*)")


def build(scratch):
    p = subprocess.run(["lake", "build"], cwd=scratch, capture_output=True, text=True, timeout=3600)
    return p.returncode, p.stdout + p.stderr


def find_decl(lines, n):
    """Start and end (exclusive) of the declaration around line n (0-based)."""
    s = n
    while s >= 0 and not DECL.match(lines[s]):
        s -= 1
    if s < 0:
        return None
    e = s + 1
    while e < len(lines) and not START.match(lines[e]):
        e += 1
    return s, e


def proof_starts(text):
    """Offsets where the proof of a theorem may start."""
    res = []
    depth = 0
    i = 0
    while i < len(text):
        c = text[i]
        if c in "([{⟨":
            depth += 1
        elif c in ")]}⟩":
            depth -= 1
        elif c == "\"":
            i += 1
            while i < len(text) and text[i] != "\"":
                if text[i] == "\\":
                    i += 1
                i += 1
        elif c == "'" and i + 2 < len(text) and (text[i + 2] == "'" or (text[i + 1] == "\\" and "'" in text[i + 2:i + 8])):
            j = text.index("'", i + 2)
            i = j
        elif depth == 0 and text.startswith(":=", i):
            res.append(i)
        elif depth == 0 and c == "\n" and re.match(r"\n\s+\| ", text[i:]):
            res.append(i)
        i += 1
    return res


TRIED = {}


def patch(scratch, out):
    """Replace failed declarations by sorry.  Returns names, or None if that is not possible."""
    errs = {}
    for m in re.finditer(r"^error: (Verif/\S+\.lean):(\d+):\d+: (.*)$", out, re.M):
        errs.setdefault(m.group(1), set()).add(int(m.group(2)) - 1)
    if not errs:
        return None, "no error position found:\n" + out[-2000:]
    names = []
    for f, ns in errs.items():
        path = os.path.join(scratch, f)
        lines = open(path).read().split("\n")
        spans = {}
        for n in ns:
            d = find_decl(lines, min(n, len(lines) - 1))
            if d is None:
                return None, f"no declaration at {f}:{n+1}"
            spans[d] = n
        for (s, e) in sorted(spans, reverse=True):
            kind, name = DECL.match(lines[s]).groups()
            text = "\n".join(lines[s:e])
            if kind in ("theorem", "lemma"):
                # first the most likely place; if the result does not compile the next one; at last
                # the theorem is removed
                orig, k = TRIED.get((f, name), (text, -1))
                k += 1
                TRIED[(f, name)] = (orig, k)
                offs = proof_starts(orig)
                if k < len(offs):
                    new = orig[:offs[k]].rstrip() + " := sorry\n"
                else:
                    new = "\n"
            elif kind == "example":
                new = "example : True := trivial\n"
                name = f"example {f}:{s+1}"
            else:
                return None, f"{kind} {name} in {f} does not compile:\n" + "\n".join(
                    l for l in out.split("\n") if l.startswith("error"))
            names.append(name if kind != "example" else name)
            lines[s:e] = new.split("\n")
        open(path, "w").write("\n".join(lines))
    return names, None


def props(scratch):
    res = []
    for f in sorted(os.listdir(os.path.join(SRC, "Verif/Props"))):
        t = open(os.path.join(SRC, "Verif/Props", f)).read()
        res += re.findall(r"^theorem (C\d\d\w*)", t, re.M)
    return res


def failed(scratch):
    ps = props(scratch)
    t = "import Verif\nopen AS.Props\n" + "".join(f"#print axioms AS.Props.{p}\n" for p in ps)
    open(os.path.join(scratch, "AxCheck.lean"), "w").write(t)
    p = subprocess.run(["lake", "env", "lean", "AxCheck.lean"], cwd=scratch, capture_output=True, text=True)
    out = p.stdout + p.stderr
    bad = []
    for m in re.finditer(r"'AS\.Props\.(\w+)' depends on axioms: \[([^\]]*)\]", out):
        if "sorryAx" in m.group(2):
            bad.append(m.group(1))
    for m in re.finditer(r"unknown constant '?`?AS\.Props\.(\w+)", out, re.I):
        bad.append(m.group(1))
    return bad


def reset(scratch):
    shutil.rmtree(scratch, ignore_errors=True)
    subprocess.run(["cp", "-a", SRC, scratch], check=True)


def main():
    muts = json.load(open(sys.argv[1]))
    scratch, outp = sys.argv[2], sys.argv[3]
    done = set()
    if os.path.exists(outp):
        done = {json.loads(l)["id"] for l in open(outp)}
    for m in muts:
        if m["id"] in done:
            continue
        reset(scratch)
        path = os.path.join(scratch, "Verif", m["file"])
        s = open(path).read()
        res = {"id": m["id"], "definition": m["definition"], "edit": m["edit"], "claim": m["claim"]}
        if s.count(m["old"]) != 1:
            res["problem"] = f"old text occurs {s.count(m['old'])} times"
        else:
            open(path, "w").write(s.replace(m["old"], m["new"]))
            names = []
            TRIED.clear()
            for it in range(60):
                rc, out = build(scratch)
                if rc == 0:
                    break
                ns, err = patch(scratch, out)
                if ns is None:
                    res["problem"] = err
                    break
                names += ns
            else:
                res["problem"] = "too many rounds"
            res["broken"] = list(dict.fromkeys(names))
            res["failed"] = failed(scratch) if "problem" not in res else []
        with open(outp, "a") as f:
            f.write(json.dumps(res, ensure_ascii=False) + "\n")
        print(m["id"], res.get("problem", "")[:1500], "failed:", res.get("failed"), flush=True)


main()
