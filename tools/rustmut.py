#!/usr/bin/env python3
"""Seeded bugs in the Rust source itself: a scratch copy of the crate is edited, the generated parts of the model
(with the generated helper specifications and proofs, but not the layout, SISO, default, octet-count and
constructor tables the properties are stated with) are regenerated from it in a scratch copy of /verif, and the
whole is rebuilt.  Since the helper specification follows the edited program, this tests the statements of the
properties, not just the proofs.

usage: rustmut.py SEED N RESULTS.jsonl
needs /tmp/mut/pristine (a built copy of lean/) and /tmp/cov/deps.txt, see mutate.py.
"""
import re, random, json, sys, os, glob, subprocess, time, importlib.util
ROOT = '/tmp/rm'
PRISTINE = '/tmp/mut/pristine'
spec = importlib.util.spec_from_file_location('mutate_lib', os.path.join(os.path.dirname(os.path.abspath(__file__)), 'mutate_lib.py'))
lib = importlib.util.module_from_spec(spec); spec.loader.exec_module(lib)

def swap_lines(s, a, b):
    i, j = s.index(a), s.index(b)
    assert i < j
    return s[:i] + b + s[i + len(a):j] + a + s[j + len(b):]

def candidates():
    out = []
    def add(kind, f, name, edit, old, new, claim): out.append(dict(kind=kind, file=f, definition=name, edit=edit, edits=[dict(file=f, old=old, new=new)], claim=claim))
    for p in sorted(glob.glob('/repo/src/common/data_types/*.rs')):
        f = os.path.relpath(p, '/repo'); s = open(p).read()
        cut = s.find('#[cfg(test)]'); s = s if cut < 0 else s[:cut]
        ms = re.search(r'    pub fn serialize\(&self, buf: &mut BytesMut\) \{\n(.*?)\n    \}', s, re.S)
        md = re.search(r'    pub fn deserialize<B: Buf>\(buf: &mut B\) -> Self \{\n        Self \{\n(.*?)\n        \}\n    \}', s, re.S)
        mt = re.search(r'pub struct (\w+) \{\n(.*?)\n\}', s, re.S)
        if not (ms and mt): continue
        name = mt.group(1)
        sl = ms.group(1).split('\n')
        simple = [i for i, l in enumerate(sl) if re.fullmatch(r'        (buf\.put_\w+\(self\.\w+( as \w+)?\);|self\.\w+\.serialize\(buf\);)', l)]
        for i in simple:
            if i + 1 in simple:
                n = sl[:]; n[i], n[i+1] = sl[i+1], sl[i]
                nser = ms.group(0).replace(ms.group(1), '\n'.join(n))
                add('rec-swap-ser', f, name + '::serialize', f'swaps `{sl[i].strip()}` and `{sl[i+1].strip()}`', ms.group(0), nser, f'{name} is decoded as encoded, every field in its place')
                a = re.search(r'self\.(\w+)', sl[i]).group(1); b = re.search(r'self\.(\w+)', sl[i+1]).group(1)
                if md:
                    la = [l for l in md.group(1).split('\n') if l.strip().startswith(a + ':') and l.endswith(',')]
                    lb = [l for l in md.group(1).split('\n') if l.strip().startswith(b + ':') and l.endswith(',')]
                    ta = [l for l in mt.group(2).split('\n') if re.match(r'    (pub )?%s:' % a, l)]
                    tb = [l for l in mt.group(2).split('\n') if re.match(r'    (pub )?%s:' % b, l)]
                    if la and lb and ta and tb:
                        try:
                            nd = swap_lines(md.group(0), la[0], lb[0]); nt = swap_lines(mt.group(0), ta[0], tb[0])
                        except (AssertionError, ValueError): continue
                        out.append(dict(kind='rec-swap-both', file=f, definition=name, edit=f'{a} and {b} exchanged in the declaration, the serializer and the deserializer',
                            edits=[dict(file=f, old=ms.group(0), new=nser), dict(file=f, old=md.group(0), new=nd), dict(file=f, old=mt.group(0), new=nt)],
                            claim=f'{name} has its fields at the standard\'s offsets'))
            if len(simple) > 1:
                n = sl[:i] + sl[i+1:]
                add('rec-drop-ser', f, name + '::serialize', f'omits `{sl[i].strip()}`', ms.group(0), ms.group(0).replace(ms.group(1), '\n'.join(n)), f'{name} is encoded whole')
        if md:
            dl = md.group(1).split('\n')
            ok = [i for i, l in enumerate(dl) if re.fullmatch(r'            \w+: (buf\.get_\w+\(\)|\w+::deserialize\(buf\)),', l)]
            for i in ok:
                if i + 1 in ok:
                    n = dl[:]; n[i], n[i+1] = dl[i+1], dl[i]
                    add('rec-swap-de', f, name + '::deserialize', f'swaps `{dl[i].strip()}` and `{dl[i+1].strip()}`', md.group(0), md.group(0).replace(md.group(1), '\n'.join(n)), f'{name} is decoded as encoded')
        for m in re.finditer(r'const LENGTH: usize = ([^;]*);', s):
            add('rec-length', f, name + '::LENGTH', 'one too many', m.group(0), f'const LENGTH: usize = {m.group(1)} + 1;', f'the length of {name} is the number of octets written')
        m = re.search(r'fn field_len\(&self\) -> usize \{\n(.*?)\n    \}', s, re.S)
        if m and ' + ' in m.group(1).replace('\n', ' ') and '::LENGTH' not in m.group(1):
            terms = re.split(r'\n?\s*\+ ', m.group(1).strip())
            i = random.randrange(len(terms))
            add('rec-len', f, name + '::field_len', f'omits {terms[i].strip()}', m.group(1), '        ' + ' + '.join(terms[:i] + terms[i+1:]), f'the length of {name} is the number of octets written')
        mn = re.search(r'(pub (?:const )?fn new\(.*?\) -> Self \{\n        Self \{\n)(.*?)(\n        \}\n    \})', s, re.S)
        if mn:
            nl = mn.group(2).split('\n')
            ok = [i for i, l in enumerate(nl) if re.fullmatch(r'            \w+,', l)]
            tys = dict(re.findall(r'(\w+): (\w+)', mn.group(1)))
            for i in ok:
                if i + 1 in ok:
                    a, b = nl[i].strip()[:-1], nl[i+1].strip()[:-1]
                    if tys.get(a) == tys.get(b):
                        n = nl[:]; n[i] = f'            {a}: {b},'; n[i+1] = f'            {b}: {a},'
                        add('rec-new', f, name + '::new', f'{a} and {b} exchanged', mn.group(0), mn.group(1) + '\n'.join(n) + mn.group(3), f'{name}::new puts each argument in its field')
    for p in sorted(glob.glob('/repo/src/*.rs')):
        f = os.path.relpath(p, '/repo'); s = open(p).read()
        if f.endswith('pdu_macro.rs'): continue
        for m in re.finditer(r'define_pdu! \{.*?\n\}\n', s, re.S):
            blk = m.group(0); name = re.search(r'pub struct (\w+)', blk).group(1)
            fl = [l for l in blk.split('\n') if re.match(r'            (pub )?\w+: ', l)]
            allf = blk.split('\n')
            for a, b in zip(fl, fl[1:]):
                ia = allf.index(a)
                if allf[ia+1] != b: continue
                n = allf[:]; n[ia], n[ia+1] = b, a
                add('pdu-swap', f, name, f'fields exchanged: `{a.strip()}` `{b.strip()}`', blk, '\n'.join(n), f'{name} has its fields at the standard\'s offsets')
            for a in fl:
                mm = re.search(r': (u8|u16|u32|i16|f32|f64),$', a)
                if mm:
                    t2 = {'u8': 'u16', 'u16': 'u8', 'u32': 'u16', 'i16': 'u16', 'f32': 'f64', 'f64': 'f32'}[mm.group(1)]
                    add('pdu-width', f, name, f'`{a.strip()}` becomes {t2}', blk, blk.replace(a, a.replace(mm.group(0), f': {t2},')), f'{name} has its fields at the standard\'s offsets and sizes')
                if 'padding' in a:
                    add('pdu-drop-pad', f, name, f'omits `{a.strip()}`', blk, blk.replace(a + '\n', ''), f'{name} has its fields at the standard\'s offsets')
                mm = re.search(r': EntityId,$', a)
                if mm:
                    add('pdu-type', f, name, f'`{a.strip()}` becomes EventId', blk, blk.replace(a, a.replace('EntityId', 'EventId')), f'{name} has the declared record in {a.strip()}')
            mm = re.search(r'PduType::(\w+),', blk)
            other = random.choice(['Fire', 'Collision', 'Acknowledge', 'Minefield', 'Designator'])
            if other != mm.group(1):
                add('pdu-kind', f, name, f'type becomes {other}', blk, blk.replace(mm.group(0), f'PduType::{other},'), f'{name} carries its type code')
            mm = re.search(r'ProtocolFamily::(\w+),', blk)
            other = random.choice(['Warfare', 'Logistics', 'Minefield', 'EntityInformationInteraction'])
            if other != mm.group(1):
                add('pdu-family', f, name, f'family becomes {other}', blk, blk.replace(mm.group(0), f'ProtocolFamily::{other},'), f'{name} carries its family code')
    s = open('/repo/src/common/enums.rs').read(); f = 'src/common/enums.rs'
    for m in re.finditer(r'pub enum (\w+) \{\n(.*?)\n\}', s, re.S):
        vl = m.group(2).split('\n')
        ok = [i for i, l in enumerate(vl) if re.fullmatch(r'    \w+ = \d+,', l)]
        if len(ok) < 3: continue
        i = random.choice(ok[:-1])
        if i + 1 in ok:
            a, ca = re.match(r'    (\w+) = (\d+)', vl[i]).groups(); b, cb = re.match(r'    (\w+) = (\d+)', vl[i+1]).groups()
            n = vl[:]; n[i] = f'    {b} = {ca},'; n[i+1] = f'    {a} = {cb},'
            add('enum-swap', f, m.group(1), f'codes of {a} and {b} exchanged', m.group(0), f'pub enum {m.group(1)} {{\n' + '\n'.join(n) + '\n}', f'{m.group(1)} has the codes of SISO-REF-010')
        i = random.choice(ok)
        a, ca = re.match(r'    (\w+) = (\d+)', vl[i]).groups()
        n = vl[:i] + vl[i+1:]
        add('enum-drop', f, m.group(1), f'{a} missing', m.group(0), f'pub enum {m.group(1)} {{\n' + '\n'.join(n) + '\n}', f'every code of {m.group(1)} is read back')
        d = [i for i, l in enumerate(vl) if l.strip() == '#[default]']
        if d and d[0] + 2 in ok:
            j = d[0]; n = vl[:]; n[j], n[j+1] = vl[j+1], vl[j]
            add('enum-default', f, m.group(1), 'default moved to the next variant', m.group(0), f'pub enum {m.group(1)} {{\n' + '\n'.join(n) + '\n}', f'unknown codes of {m.group(1)} are read as its default')
    for m in re.finditer(r'impl (\w+) \{\n    #\[must_use\]\n    pub fn deserialize<B: Buf>\(buf: &mut B\) -> Self \{\n        Self::from_(u8|u16)\(buf\.get_\2\(\)\).*?\n    \}', s, re.S):
        w2 = 'u16' if m.group(2) == 'u8' else 'u8'
        add('enum-width', f, m.group(1) + '::deserialize', f'reads {w2}', m.group(0), m.group(0).replace('from_' + m.group(2), 'from_' + w2).replace('get_' + m.group(2), 'get_' + w2), f'{m.group(1)} is read at the width it is written')
    return out

def main():
    seed, N, res = sys.argv[1], int(sys.argv[2]), sys.argv[3]
    random.seed(int(seed))
    c = candidates(); by = {}
    for x in c: by.setdefault(x['kind'], []).append(x)
    print({k: len(v) for k, v in by.items()}, flush=True)
    kinds = sorted(by); chosen = []
    while len(chosen) < N:
        x = random.choice(by[random.choice(kinds)])
        if x not in chosen: chosen.append(x)
    for i, x in enumerate(chosen): x['id'] = f'rust{seed}-{i}'
    json.dump(chosen, open(f'/tmp/mut/rust{seed}.json', 'w'), indent=1)
    done = {json.loads(l)['id'] for l in open(res)} if os.path.exists(res) else set()
    for m in chosen:
        if m['id'] in done: continue
        subprocess.run(f'rm -rf {ROOT}/repo {ROOT}/verif && mkdir -p {ROOT}/verif && cp -a /repo {ROOT}/repo && cp -a {PRISTINE} {ROOT}/verif/lean && cp -a /verif/tools {ROOT}/verif/tools', shell=True, check=True)
        for e in m['edits']:
            p = f'{ROOT}/repo/{e["file"]}'; s = open(p).read()
            assert s.count(e['old']) == 1, (m['id'], e['old'][:200], s.count(e['old']))
            open(p, 'w').write(s.replace(e['old'], e['new']))
        bad = None
        for g in ('gen_enums', 'gen_records', 'gen_pdus', 'gen_definitions', 'gen_constructors_model'):
            args = ['python3', (g if g != 'gen_constructors_model' else 'gen_constructors') + '.py']
            r = subprocess.run(args, cwd=f'{ROOT}/verif/tools', env=dict(os.environ, REPO=f'{ROOT}/repo', MODEL_ONLY='1'), capture_output=True, text=True)
            if r.returncode: bad = g + ': ' + r.stderr.strip().split('\n')[-1]; break
        if bad:
            rec = dict(id=m['id'], file=m['file'], definition=m['definition'], edit=m['edit'], claim=m['claim'], rc=1, invalid=True, failed=[], n_failed=0, properties=[], tail='translator: ' + bad)
            open(res, 'a').write(json.dumps(rec) + '\n'); print(m['id'], 'TRANSLATOR REJECTS', m['kind'], m['definition'], '|', m['edit'], '|', bad[:150], flush=True); continue
        rec = lib.build_and_map(m, f'{ROOT}/verif/lean')
        open(res, 'a').write(json.dumps(rec) + '\n')
        print(m['id'], 'SURVIVED' if rec['rc'] == 0 else 'killed', m['kind'], m['definition'], '|', m['edit'], '|', rec['failed'][:3], '|', rec['n_properties'] if 'n_properties' in rec else len(rec['properties']), rec['secs'], 's', flush=True)
main()
