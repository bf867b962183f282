#!/bin/sh
# Writes AXIOMS.txt and prints the manifest theorems that depend on anything but propext, Classical.choice, Quot.sound (or do not exist).
cd "$(dirname "$0")/.." && python3 tools/gen_manifest.py && cd lean && lake env lean /tmp/axioms.lean 2>&1 | python3 -c "
import sys,re
t=re.sub(r'\s+',' ',sys.stdin.read())
n=0
f=open('../AXIOMS.txt','w')
for m in re.finditer(r\"'([^']+)' (does not depend on any axioms|depends on axioms: \[([^\]]*)\])\",t):
    n+=1
    ax=set(x.strip() for x in (m.group(3) or '').split(',') if x.strip())
    print(m.group(1)+': '+(', '.join(sorted(ax)) or 'none'),file=f)
    if ax-{'propext','Classical.choice','Quot.sound'}: print('BAD',m.group(1),ax)
for m in re.finditer(r'[^ ]*error[: ].{0,200}',t): print(m.group(0))
print(n,'theorems checked')
import json
if n != sum(len(c['theorems']) for c in json.load(open('../MANIFEST.json'))['claims']): print('MISSING THEOREMS'); sys.exit(1)
"
