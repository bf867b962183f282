#!/usr/bin/env python3
"""Show that a statement is false of a wrong program.

usage: refute.py BATCH.json REFUTE.txt OUT.jsonl

`mutate.py` says which proofs break.  This says more: in a copy of the project in which every proof of `Verif/Proofs` and
`Verif/Props` is left out, apply the edit and check a Lean script that derives `False` from the theorem as stated.
REFUTE.txt has blocks `== mutant theorem` followed by the tactic script.
"""
import json, os, re, shutil, subprocess, sys
sys.path.insert(0, os.path.dirname(os.path.abspath(__file__)))
import mutate
SRC = os.environ.get("MUT_SRC", "/verif/lean"); SK = "/tmp/ref/skeleton"; W = "/tmp/ref/lean"
def sh(cmd): return subprocess.run(cmd, shell=True, capture_output=True, text=True)

def skeleton():
    sh(f"rm -rf {SK} && cp -a {SRC} {SK}")
    for d in ("Proofs", "Props"):
        for f in sorted(os.listdir(f"{SK}/Verif/{d}")):
            p = f"{SK}/Verif/{d}/{f}"
            lines = open(p).read().split("\n")
            nums = [i + 1 for i, l in enumerate(lines) if (m := mutate.DECL.match(l)) and m.group(1) in ("theorem", "lemma", "example")]
            done, e = mutate.sorry_out(p, nums)
            if e: print(f, e)
    r = sh(f"cd {SK} && lake build 2>&1")
    errs = re.findall(r"^error: .*", r.stdout, re.M)
    print("skeleton:", r.returncode, errs[:10])
    return r.returncode == 0

if __name__ == "__main__":
    if sys.argv[1] == "skeleton": sys.exit(0 if skeleton() else 1)
    muts = {x["id"]: x for x in json.load(open(sys.argv[1]))}
    blocks = re.findall(r"^== (\S+) (\S+)\n(.*?)(?=^== |\Z)", open(sys.argv[2]).read(), re.M | re.S)
    seen = {(d["id"], d["theorem"]) for d in map(json.loads, open(sys.argv[3]))} if os.path.exists(sys.argv[3]) else set()
    last = None
    for mid, thm, script in blocks:
        if (mid, thm) in seen or mid not in muts: continue
        m = muts[mid]
        if last != mid:
            sh(f"rm -rf {W} && cp -a {SK} {W}")
            p = f"{W}/{m['file']}"; t = open(p).read()
            assert t.count(m["old"]) == m.get("count", 1), mid
            open(p, "w").write(t.replace(m["old"], m["new"]))
            r = sh(f"cd {W} && lake build 2>&1")
            if r.returncode: print(mid, "build", re.findall(r"^error: .*", r.stdout, re.M)[:4])
            last = mid
        open(f"{W}/R.lean", "w").write("import Verif\n" + script)
        r = sh(f"cd {W} && lake env lean R.lean 2>&1")
        ok = r.returncode == 0
        print(mid, thm, "refuted" if ok else "NOT refuted:\n" + "\n".join(r.stdout.split("\n")[:40]), flush=True)
        if ok: open(sys.argv[3], "a").write(json.dumps({"id": mid, "theorem": thm}) + "\n")
