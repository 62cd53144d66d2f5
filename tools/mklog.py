#!/usr/bin/env python3
"""Converts the results of mutation campaigns (tools/mutate.py) into seeded/LOG.jsonl.

usage: mklog.py CAMPAIGN...   reads /tmp/mut/CAMPAIGN.json and /tmp/mut/res_CAMPAIGN.jsonl; entries already
logged are kept, so the log only grows.  Notes on survivors come from tools/mutant_notes.json.
"""
import json, os, sys
ROOT = os.path.dirname(os.path.dirname(os.path.abspath(__file__)))
LOG = ROOT + '/seeded/LOG.jsonl'
notes = json.load(open(ROOT + '/tools/mutant_notes.json'))
have = {}
if os.path.exists(LOG):
    for l in open(LOG):
        r = json.loads(l); have[r['id']] = r
for c in sys.argv[1:]:
    muts = {m['id']: m for m in json.load(open(f'/tmp/mut/{c}.json'))}
    for l in open(f'/tmp/mut/res_{c}.jsonl'):
        r = json.loads(l); m = muts[r['id']]
        if r['invalid'] and r['id'] not in notes: continue   # the edited model did not compile: no test
        n = notes.get(r['id'], {})
        props = [p.replace('Dis.', '') for p in r['properties']]
        have[r['id']] = {
            'id': r['id'], 'definition': r['definition'], 'file': r['file'], 'edit': r['edit'],
            **({'edits': m['edits']} if 'edits' in m else {'old': m['old'], 'new': m['new']}), 'claim_broken': r['claim'],
            'result': n.get('result', 'killed' if r['rc'] else 'survived'),
            'theorems_failed': [f.replace('Dis.', '') for f in r['failed']],
            'property_theorems_blocked': props[:20], 'n_property_theorems_blocked': len(props),
            'theorems_tightened': n.get('tightened', []), 'note': n.get('note', '')}
open(LOG, 'w').write(''.join(json.dumps(r) + '\n' for r in have.values()))
print(len(have), 'entries;', sum(r['result'] == 'survived' for r in have.values()), 'survived;',
      [r['id'] for r in have.values() if r['result'] == 'survived' and not r['note']])
