#!/usr/bin/env python3
"""Write INDEX.md: where each theorem of the manifest is, and what each module is about."""
import glob, json, os, re
here = os.path.dirname(os.path.abspath(__file__)); root = os.path.join(here, "..")
where, head = {}, {}
for f in sorted(glob.glob(root + "/lean/Verif/*/*.lean")):
    rel = os.path.relpath(f, root); text = open(f).read(); ns = []
    m = re.search(r"/-!\s*#\s*(.*?)\s*(?:-/|\n)", text)
    m = m or re.search(r"/-!\s*(.*?)\s*(?:-/|\n)", text)
    head[rel] = m.group(1) if m else ""
    for i, line in enumerate(text.split("\n"), 1):
        if m := re.match(r"(?:noncomputable )?(namespace|section|mutual|end)\b\s*(\S*)", line):
            if m.group(1) != "end": ns.append(m.group(2) if m.group(1) == "namespace" else "")
            elif ns: ns.pop()
        elif m := re.match(r"(?:@\[[^\]]*\]\s*)?theorem (\S+)", line):
            where[".".join([x for x in ns if x] + [m.group(1)])] = f"{rel}:{i}"
titles = {p["id"]: p["title"] for p in map(json.loads, open(root + "/properties.jsonl"))}
out = ["# Index", "", "Generated by `tools/gen_index.py`.", "", "## Theorems", "", "| property | status | theorem | where |", "|---|---|---|---|"]
missing = []
for c in json.load(open(root + "/MANIFEST.json"))["claims"]:
    first = f"{c['property']} {titles[c['property']]}"
    for t in c["theorems"]:
        if t not in where: missing.append(t)
        out.append(f"| {first} | {c['status'] if first else ''} | `{t}` | {where.get(t, '')} |"); first = ""
out += ["", "## Modules", "", "| module | about |", "|---|---|"] + [f"| {f} | {h} |" for f, h in head.items()]
open(root + "/INDEX.md", "w").write("\n".join(out) + "\n")
print("index: not found:", missing)
