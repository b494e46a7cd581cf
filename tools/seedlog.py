"""Append finished mutation runs (JSON lines written by the scratch runner) to seeded/LOG.jsonl.

Usage: seedlog.py OUT.jsonl...   Attempts already logged are skipped.
`theorems_failed` lists the theorems whose proof broke directly. `not_rebuilt` lists the property
theorems in modules that could not be built because a module they import failed: these were not
checked on their own against the edit.
"""
import json, sys, pathlib
log = pathlib.Path(__file__).resolve().parent.parent / 'seeded' / 'LOG.jsonl'
seen = set()
if log.exists():
    seen = {(r['definition'], r['edit']) for r in map(json.loads, filter(str.strip, log.open()))}
with log.open('a') as f:
    for name in sys.argv[1:]:
        for r in map(json.loads, filter(str.strip, open(name))):
            k = (r['definition'], r['edit'])
            if k in seen:
                continue
            seen.add(k)
            f.write(json.dumps({'definition': r['definition'], 'edit': r['edit'],
                'claim_broken': r['claim_broken'], 'theorems_failed': r['failed'],
                'not_rebuilt': r['property_theorems_not_rebuilt'], 'build': r['build'],
                'theorems_tightened': []}) + '\n')
