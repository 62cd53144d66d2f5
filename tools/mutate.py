#!/usr/bin/env python3
"""Mutation test of the theorems (instruction 5).

usage: mutate.py MUTANTS.json RESULTS.jsonl

MUTANTS.json: list of {id, file (under lean/), definition, edit, claim, old, new[, count]}.
For each mutant a scratch copy of lean/ (outside /verif) is edited (the `old` text, which must occur
exactly once, or `count`-th occurrence, is replaced by `new`; or each entry of a list `edits` of {file, old, new}, for a wrong program
whose specification helpers were written to match) and rebuilt; the declarations in which the build
reports errors are recorded, together with the property theorems whose proofs rest on them (from
DEPS, the output of a dump of proof dependencies of the unedited build).
"""
import json, os, subprocess, sys
import mutate_lib
SRC = '/verif/lean'
PRISTINE = os.environ.get('MUT_PRISTINE', '/tmp/mut/pristine')
WORK = os.environ.get('MUT_WORK', '/tmp/mut/work')

def main():
    muts = json.load(open(sys.argv[1])); out = sys.argv[2]
    done = set()
    if os.path.exists(out):
        done = {json.loads(l)['id'] for l in open(out)}
    for m in muts:
        if m['id'] in done: continue
        subprocess.run('rm -rf %s && cp -a %s %s' % (WORK, PRISTINE, WORK), shell=True, check=True)
        bad = False
        for e in m.get('edits') or [m]:
            path = os.path.join(WORK, e.get('file', m['file']))
            s = open(path).read()
            n = s.count(e['old'])
            if n == 0 or (n > 1 and 'count' not in e):
                print(m['id'], 'BAD PATTERN', n, e['old'], flush=True); bad = True; break
            if n > 1:
                parts = s.split(e['old']); c = e['count']
                s = e['old'].join(parts[:c+1]) + e['new'] + e['old'].join(parts[c+1:])
            else:
                s = s.replace(e['old'], e['new'])
            open(path, 'w').write(s)
        if bad: continue
        res = mutate_lib.build_and_map(m, WORK)
        modelerr, failed, blocked = res['invalid'], res['failed'], res['properties']
        open(out, 'a').write(json.dumps(res) + '\n')
        print(m['id'], 'INVALID' if modelerr else ('SURVIVED' if res['rc'] == 0 else 'killed'), m['definition'], '|', m['edit'],
              '|', failed[:3], '|', len(blocked), res['secs'], 's', flush=True)
main()
