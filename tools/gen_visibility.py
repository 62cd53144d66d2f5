"""Writes lean/Verif/Model/Visibility.lean: which fields of the 66 PDUs lack `pub`.  Stops on anything it does not
recognise.  Run from tools/."""
import re, glob, os
from rustparse import REPO, strip_comments, match_brace, line_of
OUT = "../lean/Verif/Model/Visibility.lean"
pd = []
for p in sorted(glob.glob(REPO + "/src/*.rs")):
    rel = os.path.relpath(p, REPO)
    if rel.endswith("pdu_macro.rs"): continue
    src = strip_comments(open(p).read()); src = src[:src.find("#[cfg(test)]")]
    for m in re.finditer(r"define_pdu!\s*\{", src):
        o = m.end() - 1; e = match_brace(src, o); body = src[o + 1:e]
        h = re.search(r"pub struct (\w+) \{\s*header: PduHeader,\s*pdu_type: PduType::\w+,\s*protocol_family: ProtocolFamily::\w+,\s*fields: \{(.*)\}\s*\}\s*$", body, re.S)
        assert h
        rest = h.group(2); base = o + 1 + h.start(2); pos = 0; priv = []; alltypes = []
        while rest[pos:].strip():
            f = re.compile(r"\s*(?:#\[len = (\w+)\]\s*)?(pub )?(\w+)\s*:\s*([\w<>]+),").match(rest, pos)
            assert f, rest[pos:pos+60]
            if not f.group(2): priv.append((f.group(3), f.group(4), line_of(src, base + f.start(3))))
            alltypes.append(f.group(4)); pos = f.end()
        pd.append((h.group(1), rel, priv, alltypes))
assert len(pd) == 66
# the only types with unreachable values occur in the transmitter PDU only
for d, _, fs in os.walk(REPO + "/src/common/data_types"):
    for f in fs:
        s = strip_comments(open(os.path.join(d, f)).read())
        if f not in ("modulation_parameters.rs", "antenna_pattern.rs", "mod.rs"):
            assert "ModulationParameters" not in s and "AntennaPattern" not in re.sub("TransmitterAntennaPattern", "", s), f
for n, _, _, ts in pd:
    assert n == "TransmitterPdu" or not any(t in ("Option<ModulationParameters>", "Option<AntennaPattern>") for t in ts)
    assert not any(t in ("Vec<ModulationParameters>", "Vec<AntennaPattern>", "ModulationParameters", "AntennaPattern") for t in ts)
L = ['''import Verif.Model.PduKind
import Verif.Model.Constructors
/-
Visibility: what a program that uses the crate can do to a PDU it holds.  The struct that `define_pdu!` writes has a
private header (src/pdu_macro.rs:233, reached through `header_mut`) and gives each field the visibility written before it
(src/pdu_macro.rs:235).  Written by tools/gen_visibility.py.
-/
namespace Dis
''']
for n, rel, priv, _ in pd:
    if not priv: continue
    for f, t, _ in priv: assert t in ("u8", "u16", "u32", "Vec<u8>"), t
    L.append("/-- " + rel + ":" + ", ".join(str(l) for _, _, l in priv) + f": assigning the public fields of `self` from `c` leaves "
             + ", ".join(f"`{f}`" for f, _, _ in priv) + ". -/")
    L.append(f"def {n}.assign (self c : {n}) : {n} :=\n  {{ c with " + ", ".join(f"{f} := self.{f}" for f, _, _ in priv) + " }")
L.append('''
/-- Assigning all public fields of a PDU's body `self` from `c`; src/pdu_macro.rs:232-237.  Where no case is given, all
fields are public. -/
def PduKind.assign : (k : PduKind) → k.Body → k.Body → k.Body''')
for n, rel, priv, _ in pd:
    if priv: L.append(f"  | .{n[:-3]}, b, c => {n}.assign b c")
L.append("  | _, _, c => c")
L.append('''
/-- The ways to come by a `ModulationParameters`, whose only field is private
(src/common/data_types/modulation_parameters.rs:12): the constructor, `Default`, the decoders, by itself or as a field of a
transmitter PDU. -/
inductive ModulationParameters.Obtainable : ModulationParameters → Prop
  /-- src/common/data_types/modulation_parameters.rs:17-21 -/
  | new : Obtainable ModulationParameters.new
  /-- src/common/data_types/modulation_parameters.rs:10 -/
  | default : Obtainable dflt
  /-- src/common/data_types/modulation_parameters.rs:29-42 -/
  | deserialize {n : UInt8} {prof : Profile} {b : Bytes} {x rest} :
      ModulationParameters.deserialize n prof b = .ok (some x, rest) → Obtainable x
  /-- src/common/data_types/modulation_parameters.rs:51-56 -/
  | deserializeField {prof : Profile} {b : Bytes} {x rest} :
      (deserialize_field : Get ModulationParameters) prof b = .ok (x, rest) → Obtainable x
  /-- src/common/data_types/modulation_parameters.rs:58-64 -/
  | withLen {n : Nat} {prof : Profile} {b : Bytes} {x rest} :
      (deserialize_with_len n : Get ModulationParameters) prof b = .ok (x, rest) → Obtainable x
  /-- src/pdu_macro.rs:35-48 -/
  | optWithLen {n : Nat} {prof : Profile} {b : Bytes} {x rest} :
      (deserialize_with_len n : Get (Option ModulationParameters)) prof b = .ok (some x, rest) → Obtainable x
  /-- src/pdu_macro.rs:326-343 and the public field at src/radio_communications.rs:60 -/
  | ofPdu {prof : Profile} {b : Bytes} {p : Pdu TransmitterPdu} {x rest} :
      (Pdu.deserialize : Get (Except DISError (Pdu TransmitterPdu))) prof b = .ok (.ok p, rest) →
      p.body.modulation_parameters = some x → Obtainable x
  /-- src/pdu_macro.rs:345-350 and the public field at src/radio_communications.rs:60 -/
  | ofBody {prof : Profile} {b : Bytes} {hd : PduHeader} {p : Pdu TransmitterPdu} {x rest} :
      (Pdu.deserialize_without_header hd : Get (Except DISError (Pdu TransmitterPdu))) prof b = .ok (.ok p, rest) →
      p.body.modulation_parameters = some x → Obtainable x

/-- The ways to come by an `AntennaPattern`, whose only field is private (src/common/data_types/antenna_pattern.rs:10).  No
decoded PDU contains one (C48_transmitter_decode). -/
inductive AntennaPattern.Obtainable : AntennaPattern → Prop
  /-- src/common/data_types/antenna_pattern.rs:40-44 -/
  | new : Obtainable AntennaPattern.new
  /-- src/common/data_types/antenna_pattern.rs:8 -/
  | default : Obtainable dflt
  /-- src/common/data_types/antenna_pattern.rs:52-65 -/
  | deserialize {n : UInt16} {prof : Profile} {b : Bytes} {x rest} :
      AntennaPattern.deserialize n prof b = .ok (some x, rest) → Obtainable x
  /-- src/common/data_types/antenna_pattern.rs:19-23 -/
  | deserializeField {prof : Profile} {b : Bytes} {x rest} :
      (deserialize_field : Get AntennaPattern) prof b = .ok (x, rest) → Obtainable x
  /-- src/common/data_types/antenna_pattern.rs:25-30 -/
  | withLen {n : Nat} {prof : Profile} {b : Bytes} {x rest} :
      (deserialize_with_len n : Get AntennaPattern) prof b = .ok (x, rest) → Obtainable x
  /-- src/pdu_macro.rs:35-48 -/
  | optWithLen {n : Nat} {prof : Profile} {b : Bytes} {x rest} :
      (deserialize_with_len n : Get (Option AntennaPattern)) prof b = .ok (some x, rest) → Obtainable x

/-- The values that a program can put into the public fields of a PDU of kind `k`: any, but that modulation parameters and
antenna patterns have to be come by; those two types occur in the transmitter PDU only (src/radio_communications.rs:60-61). -/
def PduKind.Assignable : (k : PduKind) → k.Body → Prop
  | .Transmitter, (c : TransmitterPdu) =>
    (∀ x, c.modulation_parameters = some x → x.Obtainable) ∧ ∀ x, c.antenna_pattern = some x → x.Obtainable
  | _, _ => True

/-- The PDUs of kind `k` that a program can come by: from the constructors and decoders, by assigning public fields, by
assigning through `header_mut` (every header can be come by: it is decoded from its octets, C01), by `finalize` and by
`serialize`, whatever its outcome. -/
inductive PduKind.Obtainable (k : PduKind) : Pdu k.Body → Prop
  /-- src/pdu_macro.rs:360-366 -/
  | new (now : UInt32) : Obtainable k (Pdu.new now)
  /-- src/pdu_macro.rs:240-249 -/
  | default (now : UInt32) : Obtainable k (Pdu.default now)
  /-- src/pdu_macro.rs:326-343 -/
  | deserialize {prof : Profile} {b : Bytes} {p rest} :
      (Pdu.deserialize : Get (Except DISError (Pdu k.Body))) prof b = .ok (.ok p, rest) → Obtainable k p
  /-- src/pdu_macro.rs:345-350 -/
  | deserializeBody {prof : Profile} {b : Bytes} {hd : PduHeader} {p rest} :
      (Pdu.deserialize_without_header hd : Get (Except DISError (Pdu k.Body))) prof b = .ok (.ok p, rest) → Obtainable k p
  /-- src/pdu_macro.rs:235 -/
  | assign {p : Pdu k.Body} (c : k.Body) : Obtainable k p → k.Assignable c → Obtainable k ⟨p.header, k.assign p.body c⟩
  /-- src/pdu_macro.rs:297-299 -/
  | headerMut {p : Pdu k.Body} (hd : PduHeader) : Obtainable k p → Obtainable k ⟨hd, p.body⟩
  /-- src/common/pdu.rs:24-27 -/
  | finalize {p : Pdu k.Body} : Obtainable k p → Obtainable k p.finalize
  /-- src/pdu_macro.rs:301-324 -/
  | serialize {p : Pdu k.Body} : Obtainable k p → Obtainable k p.assigned.1

end Dis''')
open(OUT, "w").write("\n".join(L) + "\n")
