#!/usr/bin/env python3
"""Look for parts of the model no theorem depends on.

usage: automutate.py OUT.jsonl [FILE ...]     (FILE: Verif/Model/X.lean; default: all)

Applies small textual edits to the model, one at a time, each in a scratch copy of the Lake project, and builds until the
first error outside the model.  Records per mutant: `invalid` (the model does not compile), `killed` (with the first
declaration that broke) or `survived` (everything still proves: an equivalent edit, or a gap).
"""
import json, os, re, signal, subprocess, sys, glob
SRC = os.environ.get("MUT_SRC", "/verif/lean"); W = os.environ.get("AM_DIR", "/tmp/am") + "/lean"
DECL = re.compile(r"^(?:@\[[^\]]*\]\s*)?(?:private |protected |noncomputable )*(theorem|lemma|example|def|abbrev|instance|structure|inductive)\b\s*(\S+)?")
# (name, pattern, replacement)
OPS = [
  ("eq->ne", r"(?<![:<>=!≠]) = (?=[^>])", " ≠ "), ("ne->eq", r" ≠ ", " = "),
  ("in->notin", r" ∈ ", " ∉ "), ("notin->in", r" ∉ ", " ∈ "), ("not->id", r"¬ ", ""),
  ("lt->le", r" < ", " ≤ "), ("le->lt", r" ≤ ", " < "), ("gt->ge", r" > ", " ≥ "), ("ge->gt", r" ≥ ", " > "),
  ("and->or", r" ∧ ", " ∨ "), ("or->and", r" ∨ ", " ∧ "), ("&&->||", r" && ", " || "), ("||->&&", r" \|\| ", " && "),
  ("true->false", r"\btrue\b", "false"), ("false->true", r"\bfalse\b", "true"),
  ("some->none", r"\bsome (\w+|\([^()]*\)|⟨[^⟨⟩]*⟩)", "none"),
  ("num+1", r"(?<![\w.\"])(\d+)(?![\w.\"])", lambda m: str(int(m.group(1)) + 1)),
  ("+->-", r" \+ ", " - "), ("-->+", r" - ", " + "), ("++->first", r" \+\+ (\w+|\([^()]*\)|\[[^\[\]]*\])", ""),
  ("set->id", r"\b(\w+(?:\.\w+)*)\.set (\([^()]*\)|\S+) (\([^()]*\)|[^\s)]+)", r"\1"),
  ("del->id", r"\b(\w+(?:\.\w+)*)\.del (\([^()]*\)|[^\s})]+)", r"\1"),
  ("swap-callee-caller", r"\bcalleeId\b", "callerId"), ("swap-caller-callee", r"\bcallerId\b", "calleeId"),
  ("args->none", r"args := m\.args", "args := none"), ("kwargs->none", r"kwargs := m\.kwargs", "kwargs := none"),
  ("ok->err", r"\.ok \(\)", ".error .keyError"),
  ("str", r"\"(\w[\w.]*)\"", r'"\1_"'),
  ("keyError->valueError", r"\.keyError", '(.valueError "")'),
  ("if-then", r"\bif ([^\n]*?) then", r"if ¬(\1) then"),
]
def sh(c): return subprocess.run(c, shell=True, capture_output=True, text=True)
def mutants(files):
    for f in files:
        lines = open(f"{SRC}/{f}").read().split("\n"); decl = None; comment = False
        for i, l in enumerate(lines):
            if l.lstrip().startswith("/-"): comment = True
            if comment:
                if "-/" in l: comment = False
                continue
            m = DECL.match(l)
            if m: decl = m.group(2) or m.group(1)
            if decl is None or l.startswith(("import", "namespace", "open", "end")) or "deriving" in l: continue
            if decl.startswith("Value.decEq"): continue
            code = l.find(" -- ") if " -- " in l else len(l)
            for name, pat, rep in OPS:
                for k, mm in enumerate(re.finditer(pat, l)):
                    if mm.start() >= code: continue
                    # definitional `:=` and error texts are not interesting
                    new = l[:mm.start()] + (rep(mm) if callable(rep) else mm.expand(rep)) + l[mm.end():]
                    if name == "str" and re.search(r"(valueError|protocolError|Error)", l[:mm.start()].split("(")[-1]): continue
                    if new != l: yield dict(id=f"{os.path.basename(f)}:{i+1}:{name}:{k}", file=f, line=i, decl=decl, old=l.strip(), new=new.strip(), _new=new)
def build():
    p = subprocess.Popen(["lake", "build"], cwd=W, stdout=subprocess.PIPE, stderr=subprocess.STDOUT, text=True, start_new_session=True)
    err = None
    for line in p.stdout:
        m = re.match(r"^error: (?:\S*/)?(Verif/\S+\.lean):(\d+):\d+:", line)
        if m:
            err = (m.group(1), int(m.group(2))); os.killpg(p.pid, signal.SIGKILL); break
    p.wait()
    return err, p.returncode
def declat(f, ln):
    lines = open(f"{W}/{f}").read().split("\n"); s = ln - 1
    while s >= 0 and not DECL.match(lines[s]): s -= 1
    return DECL.match(lines[s]).group(2) if s >= 0 else None
if __name__ == "__main__":
    outp = sys.argv[1]; files = sys.argv[2:] or sorted("Verif/Model/" + os.path.basename(f) for f in glob.glob(SRC + "/Verif/Model/*.lean"))
    seen = {json.loads(l)["id"] for l in open(outp)} if os.path.exists(outp) else set()
    for m in mutants(files):
        if m["id"] in seen: continue
        # the model file alone first: most edits that do not type-check stop here
        sh(f"rm -rf {W} && cp -a {SRC} {W}")
        p = f"{W}/{m['file']}"; lines = open(p).read().split("\n"); lines[m["line"]] = m.pop("_new"); open(p, "w").write("\n".join(lines))
        err, rc = build()
        if err and "/Model/" in err[0]: m["result"] = "invalid"
        elif err: m["result"] = "killed"; m["by"] = f"{err[0]}: {declat(*err)}"
        else: m["result"] = "survived" if rc == 0 else "error"
        open(outp, "a").write(json.dumps(m) + "\n")
        print(m["id"], m["result"], m.get("by", ""), flush=True)
