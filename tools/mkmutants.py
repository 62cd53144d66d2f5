#!/usr/bin/env python3
"""Random realistic bugs in the generated parts of the model (records, PDUs).
usage: mkmutants.py SEED N > mutants.json"""
import re, random, json, sys
random.seed(int(sys.argv[1])); N = int(sys.argv[2])
ROOT = '/verif/lean/'
FILES = ['Verif/Model/Records.lean', 'Verif/Model/Pdus1.lean', 'Verif/Model/Pdus2.lean', 'Verif/Model/Pdus3.lean', 'Verif/Model/Pdus4.lean', 'Verif/Model/Irregular.lean']
cands = []
for f in FILES:
    txt = open(ROOT + f).read()
    # split in declarations
    for m in re.finditer(r'^(def (\S+?)\b.*?(?=^/--|^def|^instance|^structure|^end|^inductive|\Z))', txt, re.S | re.M):
        decl = m.group(1).rstrip('\n'); name = re.match(r'def (\S+)', decl).group(1)
        lines = decl.split('\n')
        body = lines[1:]
        if name.endswith('serialize') or name.endswith('serializeBody'):
            if name.endswith('deserialize') or name.endswith('deserializeBody'):
                idx = [i for i, l in enumerate(body) if re.match(r'  let \w+ ←', l)]
                for i in idx:
                    if i + 1 in idx:
                        # swap two reads
                        a, b = body[i], body[i+1]
                        if a.split('←')[1].strip() != b.split('←')[1].strip() or True:
                            nb = body[:]; nb[i], nb[i+1] = b, a
                            va, vb = re.match(r'  let (\w+)', a).group(1), re.match(r'  let (\w+)', b).group(1)
                            if not re.search(r'\b%s\b' % va, b.split('←')[1]):
                                cands.append(('swap-read', f, name, f'reads {vb} before {va}', decl, '\n'.join([lines[0]] + nb),
                                      f'decoding {name} recovers {va} and {vb} from their own octets'))
                    # wrong width
                    for w, w2 in (('getU16', 'getU8'), ('getU8', 'getU16'), ('getU32', 'getU16'), ('getF32', 'getU32'), ('Get UInt16', 'Get UInt8'), ('Get UInt8)', 'Get UInt16)')):
                        pass
            else:
                idx = [i for i, l in enumerate(body) if re.match(r'  (put|serialize_field|self\.|for|match)', l)]
                for i in idx:
                    if not body[i].startswith('  match') and len(idx) > 1:
                        nb = body[:i] + body[i+1:]
                        cands.append(('drop-write', f, name, f'omits `{body[i].strip()}`', decl, '\n'.join([lines[0]] + nb),
                              f'{name} writes every field'))
                    if i + 1 in idx and body[i] != body[i+1] and not body[i+1].startswith('  match'):
                        nb = body[:]; nb[i], nb[i+1] = body[i+1], body[i]
                        cands.append(('swap-write', f, name, f'writes `{body[i+1].strip()}` before `{body[i].strip()}`', decl, '\n'.join([lines[0]] + nb),
                              f'{name} writes the fields in declaration order'))
        if name.endswith('fieldsLen'):
            idx = [i for i, l in enumerate(body) if 'field_len' in l]
            for i in idx[:-1]:
                nb = body[:i] + body[i+1:]
                cands.append(('drop-len', f, name, f'omits `{body[i].strip()}`', decl, '\n'.join([lines[0]] + nb),
                      f'the declared length counts every field'))
    for m in re.finditer(r'^instance : FieldLen (\w+) := ⟨fun (\w+) => (.*)⟩$', txt, re.M):
        full = m.group(0)
        k = re.findall(r'\b\d+\b', m.group(3))
        if k:
            n = k[-1]
            new = full[:full.rindex(n)] + str(int(n) + 1) + full[full.rindex(n) + len(n):]
            cands.append(('len-const', f, f'FieldLen {m.group(1)}', f'{n} becomes {int(n)+1}', full, new, f'field_len of {m.group(1)} is the number of octets written'))
        elif ' + ' in m.group(3):
            parts = m.group(3).split(' + ')
            i = random.randrange(len(parts))
            new = full.replace(m.group(3), ' + '.join(parts[:i] + parts[i+1:]))
            cands.append(('len-drop', f, f'FieldLen {m.group(1)}', f'omits `{parts[i]}`', full, new, f'field_len of {m.group(1)} is the number of octets written'))
    for m in re.finditer(r'instance : PduBody (\w+) where\n  pduType := ⟨(\d+), by decide⟩\n  family := ⟨(\d+), by decide⟩', txt):
        full = m.group(0)
        t = int(m.group(2)); fa = int(m.group(3))
        cands.append(('type', f, f'PduBody {m.group(1)}', f'pduType {t} becomes {t+1 if t < 72 else t-1}', full, full.replace(f'pduType := ⟨{t},', f'pduType := ⟨{t+1 if t < 72 else t-1},'), 'messages carry the kind\'s type code'))
        cands.append(('family', f, f'PduBody {m.group(1)}', f'family {fa} becomes {fa % 13 + 1}', full, full.replace(f'family := ⟨{fa},', f'family := ⟨{fa % 13 + 1},'), 'messages carry the kind\'s family code'))
by = {}
for c in cands: by.setdefault(c[0], []).append(c)
out = []
kinds = sorted(by)
while len(out) < N:
    k = random.choice(kinds)
    c = random.choice(by[k])
    if any(o['old'] == c[4] and o['new'] == c[5] for o in out): continue
    out.append(dict(id=f'auto{sys.argv[1]}-{len(out)}', file=c[1], definition=c[2], edit=c[3], old=c[4], new=c[5], claim=c[6]))
json.dump(out, sys.stdout, indent=1)
sys.stderr.write(str({k: len(v) for k, v in by.items()}) + '\n')
