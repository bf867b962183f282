"""log_mutants.py MUTANTS.json OUT.jsonl [...]: rewrite seeded/LOG.jsonl from the results of mutate.py.

A mutant may carry "tightened" (list of theorems) and "note"."""
import json, os, sys
root = os.path.join(os.path.dirname(os.path.abspath(__file__)), '..')
lines = []
for m, o in zip(sys.argv[1::2], sys.argv[2::2]):
    res = {}
    for l in open(o):
        r = json.loads(l)
        res[r['id']] = r
    for x in json.load(open(m)):
        r = res.get(x['id'])
        if not r or r.get('error'):
            continue
        d = {'definition': x['definition'] + ' (' + x['file'] + ')', 'edit': x['edit'], 'claim': x['claim'],
             'property': x['property'], 'failed': r['failed'], 'survived_for_property': r['prop_survived'],
             'tightened': x.get('tightened', [])}
        if x.get('note'):
            d['note'] = x['note']
        lines.append(json.dumps(d, ensure_ascii=False))
open(os.path.join(root, 'seeded', 'LOG.jsonl'), 'w').write(''.join(l + '\n' for l in lines))
print(len(lines), 'lines')
