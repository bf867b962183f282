#!/usr/bin/env python3
"""Test the theorems against wrong programs.

usage: mutate.py MUTANTS.json OUT.jsonl

For each mutant (file, old, new: a textual edit of the model) take a scratch copy of the Lake project, apply
the edit and rebuild.  A proof that breaks is replaced by `sorry` and the build repeated, so that later modules are
still checked; a manifest theorem "fails" if in the end it depends on `sorryAx`.  What remains survives.

A mutant with a list of "targets" (modules) is built only as far as these; theorems elsewhere are then not reported.
"""
import json, os, re, shutil, subprocess, sys
SRC = os.environ.get("MUT_SRC", "/verif/lean"); W = os.environ.get("MUT_DIR", "/tmp/mut") + "/lean"
DECL = re.compile(r"^(?:@\[[^\]]*\]\s*)?(?:private |protected |noncomputable )*(theorem|lemma|example|def|abbrev|instance|structure|inductive)\b\s*(\S+)?")
def sh(cmd, **k): return subprocess.run(cmd, shell=True, capture_output=True, text=True, **k)

def reset():
    sh(f"rm -rf {W} && mkdir -p {W} && rmdir {W} && cp -a {SRC} {W}")

def block(lines, ln):
    """(start, end) of the declaration containing 0-based line ln; a declaration ends at the next line that starts
    in column 0 with something that begins a new command."""
    s = ln
    while s >= 0 and not DECL.match(lines[s]): s -= 1
    if s < 0: return None
    e = s + 1
    while e < len(lines) and not re.match(r"^(theorem|lemma|example|def|abbrev|instance|structure|inductive|end\b|namespace|section|open|variable|/-|@\[|private|protected|set_option|attribute|local|--|deriving|mutual|noncomputable|#)", lines[e]): e += 1
    return s, e

def closure(targets):
    seen, todo = set(), list(targets)
    while todo:
        m = todo.pop()
        if m in seen or not m.startswith("Verif"): continue
        seen.add(m)
        todo += re.findall(r"^import (\S+)", open(f"{W}/{m.replace('.', '/')}.lean").read(), re.M)
    return seen

def axioms_of(targets):
    """Ask for the axioms of the manifest's theorems that lie in the targets or in what they import."""
    text = "\n".join(open(f"{W}/{m.replace('.', '/')}.lean").read() for m in closure(targets))
    names = [t for c in json.load(open("/verif/MANIFEST.json"))["claims"] for t in c["theorems"]]
    have = set(re.findall(r"^theorem (\S+)", text, re.M))
    f = f"{W}/../axioms.lean"
    open(f, "w").write("".join(f"import {t}\n" for t in targets) + "".join(f"#print axioms {n}\n" for n in names if n.split(".")[-1] in have or ".".join(n.split(".")[-2:]) in have))
    return f

def sorry_out(path, linenos):
    lines = open(path).read().split("\n"); done = []
    blocks = {block(lines, l - 1) for l in linenos}
    for b in sorted((b for b in blocks if b), reverse=True):
        s, e = b
        m = DECL.match(lines[s]); kind, name = m.group(1), m.group(2)
        if kind == "example":
            done.append("example@%d" % (s + 1)); lines[s:e] = ["example : True := trivial"] + [""] * (e - s - 1); continue
        if kind not in ("theorem", "lemma"):
            return None, f"{kind} {name} broke"
        text = "\n".join(lines[s:e]); depth = 0; cut = None
        for i, c in enumerate(text):
            if c in "([{⟨": depth += 1
            elif c in ")]}⟩": depth -= 1
            elif depth == 0 and text.startswith(":=", i):
                if re.search(r"\b(let|have)\b[^\n]*$", text[:i]): continue
                cut = i; break
            elif depth == 0 and text.startswith(" where\n", i):
                cut = i + 1; break
            elif depth == 0 and text.startswith("\n  | ", i) and cut is None:
                cut = i; break
        if cut is None or text.endswith("sorry"): return None, f"cannot cut {name}"
        new = text[:cut] + ":= by sorry"
        lines[s:e] = new.split("\n") + [""] * (e - s - new.count("\n") - 1)
        done.append(name)
    open(path, "w").write("\n".join(lines))
    return done, None

def run(m):
    reset()
    p = f"{W}/{m['file']}"; t = open(p).read()
    if t.count(m["old"]) != m.get("count", 1): return {"error": f"pattern occurs {t.count(m['old'])} times"}
    open(p, "w").write(t.replace(m["old"], m["new"]))
    broken = []; targets = m.get("targets", [])
    for it in range(40):
        r = sh(f"cd {W} && lake build {' '.join(targets)} 2>&1"); out = r.stdout
        errs = {}
        for f, l in re.findall(r"^error: (\S+\.lean):(\d+):\d+:", out, re.M): errs.setdefault(f, set()).add(int(l))
        if r.returncode == 0: break
        if not errs:
            # an example that no longer evaluates can use up the memory: leave out the examples of that file
            mods = re.findall(r"^- (Verif\.\S+)$", out, re.M)
            if not mods: return {"error": "no located error", "out": out[-1500:], "broken": broken}
            for mod in mods:
                fp = f"{W}/{mod.replace('.', '/')}.lean"
                ex = [i + 1 for i, l in enumerate(open(fp).read().split("\n")) if l.startswith("example") and l != "example : True := trivial"]
                if not ex: return {"error": "no located error", "out": out[-1500:], "broken": broken}
                done, e = sorry_out(fp, ex); broken += done
            continue
        for f, ls in errs.items():
            fp = f if f.startswith("/") else f"{W}/{f}"
            if f.endswith(m["file"].split("Verif/")[-1]) and "/Model/" in f: return {"error": "model does not compile", "out": out[-1500:]}
            done, e = sorry_out(fp, ls)
            if e: return {"error": e, "broken": broken, "out": out[-1500:]}
            broken += done
    else: return {"error": "too many rounds", "broken": broken}
    ax = sh(f"cd {W} && lake env lean {axioms_of(targets) if targets else '/tmp/axioms.lean'} 2>&1").stdout
    failed, ok = [], []
    for n, a in re.findall(r"'([^']+)' (depends on axioms: \[[^\]]*\]|does not depend on any axioms)", ax, re.S):
        (failed if "sorryAx" in a else ok).append(n)
    return {"broken": broken, "failed": failed, "survived": ok}

if __name__ == "__main__":
    muts = json.load(open(sys.argv[1])); outp = sys.argv[2]
    seen = {json.loads(l)["id"] for l in open(outp)} if os.path.exists(outp) else set()
    for m in muts:
        if m["id"] in seen: continue
        r = run(m); r["id"] = m["id"]
        if "survived" in r:
            pr = m["property"] if isinstance(m["property"], list) else [m["property"]]
            r["prop_failed"] = [n for n in r["failed"] if any(q + "_" in n for q in pr)]
            r["prop_survived"] = [n for n in r["survived"] if any(q + "_" in n for q in pr)]
            r.pop("survived")
        open(outp, "a").write(json.dumps(r) + "\n")
        print(m["id"], r.get("error") or (len(r["failed"]), r["prop_failed"], "SURVIVED", r["prop_survived"]), flush=True)
