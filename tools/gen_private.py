#!/usr/bin/env python3
"""Writes lean/Verif/Spec/PrivateFields.lean: the private fields of each PDU kind, from the layout tables and /repo."""
import re,os
R=os.path.dirname(os.path.dirname(os.path.abspath(__file__)))
tab={}
for i in (1,2,3,4):
    cur=None
    for l in open(f"{R}/lean/Verif/Spec/PduLayout{i}.lean"):
        m=re.match(r"def (\w+)\.layout",l)
        if m: cur=m.group(1)
        m=re.search(r"(Slot\.u\d+ \d+ \(·\.(padding\d?)\))",l)
        if m: tab.setdefault(cur,[]).append((m.group(1),m.group(2)))
cites={}
for l in open(f"{R}/lean/Verif/Model/Visibility.lean"):
    m=re.match(r"/-- (src/[\w.]+:[\d, ]+): assigning .* leaves (.*)\. -/",l)
    if m: last=(m.group(1),re.findall(r"`(\w+)`",m.group(2)))
    m=re.match(r"def (\w+)\.assign ",l)
    if m and m.group(1).endswith("Pdu"): cites[m.group(1)]=last
for k,(c,fs) in cites.items():
    if k=="AggregateStatePdu": assert k not in tab; continue
    assert [f for _,f in tab[k]]==fs,(k,fs,tab[k])
assert set(tab)|{"AggregateStatePdu"}==set(cites)
o=["""import Verif.Spec.PduLayout
/-
The fields of the PDU kinds that no program outside the crate can assign: those written without `pub`.  They are the padding
fields.  Written by tools/gen_private.py.
-/
namespace Dis

/-- The private fields of a kind that hold one number, each with the octet it has in the message.  Missing is only the
private field of the aggregate state PDU, a list of octets: src/entity_management.rs:54. -/
def PduKind.privateFields : (k : PduKind) → List (Slot k.Body)"""]
def body(k): return k[:-3]
for k,(c,fs) in cites.items():
    if k=="AggregateStatePdu": continue
    o.append(f"  -- {c}")
    o.append(f"  | .{body(k)} => [{', '.join(s.replace('(·.','('+k+'.').replace(')',')') for s,_ in tab[k])}]")
o.append("  | _ => []\n\nend Dis")
open(f"{R}/lean/Verif/Spec/PrivateFields.lean","w").write("\n".join(o)+"\n")
print(sum(map(len,tab.values())))
