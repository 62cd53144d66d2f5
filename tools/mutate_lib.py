"""Rebuild of an edited scratch copy, and which theorems fail (used by mutate.py and rustmut.py)."""
import re, subprocess, collections, time
DEPS = '/tmp/cov/deps.txt'

def load_deps():
    ranges = collections.defaultdict(list); deps = {}
    for l in open(DEPS):
        p = l.rstrip('\n').split('\t')
        if p[0] == 'R':
            ranges[p[2]].append((int(p[3]), int(p[4]), p[1]))
        elif p[0] == 'D':
            deps[p[1]] = set(p[2].split())
    return ranges, deps

CACHE = []
def build_and_map(m, work):
    if not CACHE: CACHE.extend(load_deps())
    ranges, deps = CACHE
    t = time.time()
    r = subprocess.run(['lake', 'build'], cwd=work, capture_output=True, text=True)
    o = r.stdout + r.stderr
    failed = []; modelerr = False
    for mm in re.finditer(r'error: (?:\./)?(Verif/\S+?)\.lean:(\d+):(\d+)', o):
        mod = mm.group(1).replace('/', '.'); line = int(mm.group(2))
        if mod.startswith('Verif.Model') or mod.startswith('Verif.Core'): modelerr = True
        hit = [(b - a, nme) for a, b, nme in ranges.get(mod, []) if a <= line <= b]
        if hit:
            w = min(hit)[0]
            for ww, nme in hit:
                if ww == w and nme not in failed: failed.append(nme)
        else:
            x = f'{mod}:{line}'
            if x not in failed: failed.append(x)
    fs = set(failed)
    blocked = sorted(p for p, d in deps.items() if (d & fs) or p in fs)
    res = dict(id=m['id'], file=m['file'], definition=m['definition'], edit=m['edit'], claim=m.get('claim', ''),
               rc=r.returncode, invalid=modelerr, failed=failed[:12], n_failed=len(failed), properties=blocked,
               secs=round(time.time() - t))
    if r.returncode != 0 and not failed: res['tail'] = o[-500:]
    return res
