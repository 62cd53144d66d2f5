"""Generates the model, wire specification and law proofs of the 66 PDU bodies declared with
`define_pdu!` in src/*.rs.  Stops on anything it does not recognise."""
import os, re, glob
import gen_records as G
from rustparse import REPO, strip_comments, match_brace, line_of
BASE = G.BASE
ENUMS = G.ENUMS
G.main()
RECS, T = G.RECS, G.T

class P: pass
def load():
    out = []
    for p in sorted(glob.glob(REPO + "/src/*.rs")):
        rel = os.path.relpath(p, REPO)
        if rel.endswith("pdu_macro.rs"): continue
        raw = open(p).read(); src = strip_comments(raw)
        cut = src.find("#[cfg(test)]"); tests = src[cut:]; src = src[:cut]
        sizes = {}
        for m in re.finditer(r"const DEFAULT_LENGTH: u16 = (\d+) / (?:8|BITS_PER_BYTE);\s*let (?:mut )?(\w+) = (\w+)::new\(\);\s*assert_eq!\((\w+)\.header\(\)\.length, DEFAULT_LENGTH\);", tests):
            assert m.group(2) == m.group(4); assert int(m.group(1)) % 8 == 0
            sizes[m.group(3)] = int(m.group(1)) // 8
        for m in re.finditer(r"define_pdu!\s*\{", src):
            o = m.end() - 1; e = match_brace(src, o); body = src[o + 1:e]
            h = re.search(r"pub struct (\w+) \{\s*header: PduHeader,\s*pdu_type: PduType::(\w+),\s*protocol_family: ProtocolFamily::(\w+),\s*fields: \{(.*)\}\s*\}\s*$", body, re.S)
            assert h, body
            q = P(); q.name, q.pt, q.fam = h.group(1), h.group(2), h.group(3)
            q.path = rel; q.l0 = line_of(src, m.start()); q.l1 = line_of(src, e)
            q.fields = []; rest = h.group(4)
            base = o + 1 + h.start(4)
            pos = 0
            while rest[pos:].strip():
                f = re.compile(r"\s*(?:#\[len = (\w+)\]\s*)?(?:pub )?(\w+)\s*:\s*([\w<>]+),").match(rest, pos)
                assert f, rest[pos:pos + 80]
                q.fields.append((f.group(2), f.group(3), f.group(1), line_of(src, base + f.start(2))))
                pos = f.end()
            q.size = sizes[q.name]
            out.append(q)
    return out
PD = load()
assert len(PD) == 66

SURPLUS = {"EntityMarking", "VariableDatumRecord", "RecordSpecification", "GridDataRecord"}
SENTT = set(G.SENT)
DECCOND = {"FrozenBehavior", "ObjectStateAppearanceGeneral", "RecordSpecification", "StandardVariableSpecification"}
def base(ty):
    while True:
        m = re.fullmatch(r"(?:Vec|Option)<(.*)>", ty)
        if not m: return ty
        ty = m.group(1)
def islist(ty): return ty.startswith(("Vec<", "Option<"))
KW = G.KW
def fsize(ty):
    if islist(ty): return 0
    if ty in G.SIZE: return G.SIZE[ty]
    if ty in ENUMS: return ENUMS[ty]["get"]
    if ty in G.FLAGS: return G.FLAGS[ty]
    if ty == "EntityMarking": return 1
    return G.SIZES.get(ty)
for q in PD:
    q.kind = q.name[:-3]
    q.lists = [f for f in q.fields if islist(f[1])]
    i = len(q.fields)
    while i and islist(q.fields[i - 1][1]): i -= 1
    q.trailing = q.fields[i:]
    q.mid = [f for f in q.lists if f not in q.trailing]
    q.varsize = any(f[2] for f in q.fields) or any(fsize(f[1]) is None for f in q.fields)
    q.fixsize = None if q.varsize else sum(fsize(f[1]) for f in q.fields)
    q.irregular = any(base(f[1]) in SURPLUS | SENTT for f in q.fields)
    q.surp = [f for f in q.fields if base(f[1]) in SURPLUS]
    q.sentf = [f for f in q.fields if base(f[1]) in SURPLUS | SENTT]
    q.cond = [f for f in q.fields if f[1] in DECCOND]
    q.encc = [f for f in q.fields if base(f[1]) == "RecordSpecification"]
    assert not q.mid or q.name in ("AggregateStatePdu", "TransmitterPdu") , q.name
    q.layout = not q.lists and not q.irregular and not q.varsize
    q.badmark = any(f[1] == "EntityMarking" for f in q.fields)

def model(q):
    o = []
    n = q.name
    o.append(f"/-- {q.path}:{q.l0}-{q.l1}: the fields after the header -/\nstructure {n} where")
    for f, ty, _, _ in q.fields: o.append(f"  {f} : {G.lt(ty)}")
    o.append("  deriving DecidableEq")
    cite = f"{q.path}:{q.fields[0][3]}-{q.fields[-1][3]}"
    o.append(f"/-- src/pdu_macro.rs:283-285 with the fields of {cite} -/")
    o.append(f"def {n}.fieldsLen (self : {n}) : Nat :=\n  " + " +\n  ".join(f"field_len self.{f}" for f, _, _, _ in q.fields))
    o.append(f"/-- src/pdu_macro.rs:319-321 with the fields of {cite} -/")
    o.append(f"def {n}.serializeBody (self : {n}) : Put := do")
    for f, _, _, _ in q.fields: o.append(f"  serialize_field self.{f}")
    o.append(f"/-- src/pdu_macro.rs:257-272 with the fields of {cite} -/")
    o.append(f"def {n}.deserializeBody : Get {n} := do")
    prep = "id"
    for f, ty, ln, l in q.fields:
        if ln:
            o.append(f"  -- {q.path}:{l - 1}-{l}, src/pdu_macro.rs:94-99: the length-annotated field")
            o.append(f"  let {f} ← (deserialize_with_len {ln}.toNat : Get {G.leanty(ty)})")
            prep = f"{n}.prep"
        else: o.append(f"  let {f} ← (deserialize_field : Get {G.leanty(ty)})")
    o.append("  return { " + ", ".join(f for f, _, _, _ in q.fields) + " }")
    for f, ty, ln, l in q.fields:
        if ln:
            o.append(f"/-- src/pdu_macro.rs:61-67 for {q.path}:{l - 1}-{l}.  (The `Option<$inner>` arm at lines 55-59 cannot match:\nthe type was captured as a `ty` fragment before being passed on.) -/")
            o.append(f"def {n}.prep (self : {n}) : {n} :=\n  let n := field_len self.{f}\n  {{ self with {ln} := if n < 256 then UInt8.ofNat n else 0 }}")
    pc = dict(ENUMS["PduType"]["variants"])[q.pt]; fc = dict(ENUMS["ProtocolFamily"]["variants"])[q.fam]
    o.append(f"/-- {q.path}:{q.l0}-{q.l1} (`PduType::{q.pt}`, `ProtocolFamily::{q.fam}`) -/")
    o.append(f"instance : PduBody {n} where\n  pduType := ⟨{pc}, by decide⟩\n  family := ⟨{fc}, by decide⟩")
    o.append("  default := { " + ", ".join(f"{f} := dflt" for f, _, _, _ in q.fields) + " }")
    o.append(f"  fieldsLen := {n}.fieldsLen\n  prep := {prep}\n  serializeBody := {n}.serializeBody\n  deserializeBody := {n}.deserializeBody")
    return "\n".join(o) + "\n"

def spec(q):
    n = q.name; o = []
    o.append(f"/-- the fields of {q.path}:{q.l0}-{q.l1} in declaration order -/")
    o.append(f"instance : Wire {n} := ⟨fun x =>\n  " + " ▹ ".join(f"wire x.{f}" for f, _, _, _ in q.fields) + "⟩")
    if not q.irregular: o.append(f"instance : Enc {n} := .exact _")
    else:
        enc = " ∧ ".join(f"encodable x.{f[0]}" for f in q.encc); v = "x" if enc else "_"
        sp = " + ".join(f"surplus x.{f[0]}" for f in q.surp); w = "x" if sp else "_"
        o.append(f"instance : Enc {n} :=\n  ⟨fun {v} => {enc or 'True'}, fun x => {{ x with " + ", ".join(f"{f[0]} := sent x.{f[0]}" for f in q.sentf) + f" }},\n   fun {w} => {sp or '0'}⟩")
    # Dec
    conds = [f"decodable x.{f[0]}" for f in q.cond]
    doc = ""
    if q.badmark:
        conds = ["False"]; doc = "/-- nothing is promised: the marking text is never recovered (see Properties.EntityState) -/\n"
    if n == "AggregateStatePdu":
        conds += [f"x.{f[0]} = []" for f in q.mid]; doc = "/-- recovered only when the lists in the middle are empty -/\n"
    if n == "TransmitterPdu":
        f = [f for f in q.fields if f[2]][0]
        conds += [f"x.{f[2]}.toNat = (wire x.{f[0]}).length", f"x.{f[0]} ≠ some ⟨[]⟩"]
        doc = "/-- the annotated length agrees with the parameters, which are absent or not empty -/\n"
    lost = [f for f in q.lists if not f[2] and f not in (q.mid if n == "AggregateStatePdu" else [])]
    kept = "id" if not lost else "fun x => { x with " + ", ".join(f"{f[0]} := " + ("[]" if f[1].startswith("Vec") else "none") for f in lost) + " }"
    q.lost = lost
    v = "x" if conds and conds != ["False"] else "_"
    if conds or lost: o.append(f"{doc}instance : Dec {n} :=\n  ⟨fun {v} => {' ∧ '.join(conds) or 'True'}, {kept}⟩")
    else: o.append(f"instance : Dec {n} := .exact _")
    q.exactdec = not conds and not lost
    tail = " ▹ ".join(f"wire x.{f[0]}" for f in lost)
    o.append(f"instance : Tail {n} := ⟨fun {'x' if tail else '_'} => {tail or '[]'}⟩")
    return "\n".join(o) + "\n"

def wlaw(q, f):
    name, ty, _, _ = f
    if f not in q.sentf: return f"writes_exact x.{name}"
    if base(ty) == "RecordSpecification": return f"LawfulEnc.writes x.{name} h"
    return f"LawfulEnc.writes x.{name} ({triv(ty)})"
def triv(ty):
    return "fun _ _ => trivial" if islist(ty) else "trivial"

def chain(op, laws, end=None, sep=" <|\n    "):
    if len(laws) == 1 and end is None: return laws[0]
    if not laws: return end
    return f"{op} ({laws[0]}){sep}{chain(op, laws[1:], end, sep)}"

def rlaw(q, f):
    name, ty, ln, _ = f
    if ln: return f"ModulationParameters.reads_with_len {HY[q.name]}"
    if islist(ty): return "Reads.ret _"
    if f in q.cond:
        i = q.cond.index(f); return f"LawfulDec.reads x.{name} h" if len(q.cond) == 1 else f"LawfulDec.reads x.{name} h.{i+1}"
    return f"reads_exact x.{name}"
HY = {"TransmitterPdu": "x.modulation_parameters h.1 h.2"}

def proofs(q):
    n = q.name; o = []
    o.append(f"theorem {n}.writes (x : {n}) {'(h : encodable x) ' if q.encc else ''}: Writes x.serializeBody (wire (sent x)) :=\n    " + chain("Writes.seq", [wlaw(q, f) for f in q.fields]))
    rows = []
    for f in q.fields:
        if f in q.surp:
            rows.append(f"  have h_{f[0]} : ((wire (sent x.{f[0]})).length : Int) = field_len x.{f[0]} + surplus x.{f[0]} := LawfulEnc.len x.{f[0]}")
        elif f in q.sentf:
            rows.append(f"  have h_{f[0]} : ((wire (sent x.{f[0]})).length : Int) = field_len x.{f[0]} + 0 := LawfulEnc.len x.{f[0]}")
        else: rows.append(f"  have h_{f[0]} := len_exact x.{f[0]}")
    ws = [f"wire (sent x.{f[0]})" if f in q.sentf else f"wire x.{f[0]}" for f in q.fields]
    sp = " + ".join(f"surplus x.{f[0]}" for f in q.surp) or "(0 : Int)"
    o.append(("set_option maxHeartbeats 1000000 in\n" if n == "AggregateStatePdu" else "") + f"theorem {n}.len (x : {n}) : ((wire (sent x)).length : Int) = (x.fieldsLen : Nat) + surplus x := by\n  show ((" + " ++ (".join(ws) + ")" * len(ws) + f".length : Int) = (x.fieldsLen : Nat) + ({sp})\n  simp only [List.length_append, {n}.fieldsLen]\n" + "\n".join(rows) + "\n" + (("  simp only [" + ", ".join(f"h_{f[0]}" for f in q.fields if f not in q.sentf) + "]\n  clear " + " ".join(f"h_{f[0]}" for f in q.fields if f not in q.sentf) + "\n  revert h_variable_datum_list\n" + "".join(f"  generalize (wire x.{f[0]}).length = n_{f[0]}\n" for f in q.fields if f not in q.sentf) + "  generalize field_len x.variable_datum_list = a\n  generalize surplus x.variable_datum_list = b\n  generalize (wire (sent x.variable_datum_list)).length = c\n  intro h_variable_datum_list\n  simp only [Int.natCast_add, h_variable_datum_list]\n  ac_rfl") if n == "AggregateStatePdu" else "  omega"))
    o.append(f"theorem {n}.appends (x : {n}) : Appends x.serializeBody :=\n    " + chain("Appends.seq", [f"LawfulEnc.appends x.{f[0]}" for f in q.fields]))
    o.append(f"theorem {n}.ifOk (x : {n}) : WritesIfOk x.serializeBody (wire (sent x)) :=\n    " + (chain("WritesIfOk.seq", [f"LawfulEnc.ok x.{f[0]}" if f in q.sentf else f"(writes_exact x.{f[0]}).ifOk" for f in q.fields]) if q.encc else f"({n}.writes x).ifOk"))
    # deserializer
    if not q.badmark:
        hh = "(h : decodable x) " if not q.exactdec and (q.cond or n == "TransmitterPdu" or n == "AggregateStatePdu") else ""
        if n == "AggregateStatePdu":
            o.append(AGG_READS)
        else:
            o.append(f"theorem {n}.reads (x : {n}) {hh}: Reads {n}.deserializeBody (wire (kept x)) (kept x) :=\n    " + chain("Reads.bind", [rlaw(q, f) for f in q.fields[:-1]], end=f"Reads.last ({rlaw(q, q.fields[-1])}) (Reads.ret _)"))
        q.hh = hh
    if q.fixsize is not None and not q.badmark:
        o.append(f"theorem {n}.fixed : Fixed {n}.deserializeBody {q.fixsize} := Fixed.congr (\n    " + chain("Fixed.bind", ["FixedDec.fixed" for f in q.fields], end="Fixed.ret _", sep=" fun _ =>\n    ") + ") rfl")
    pre = "Consumes" if q.badmark else "Local"
    cls = "ConsumesDec.consumes" if q.badmark else "LocalDec.loc"
    def ll(f): return "ModulationParameters.with_len_local _" if f[2] else cls
    o.append(f"theorem {n}.{'consumes' if q.badmark else 'loc'} : {pre} {n}.deserializeBody :=\n    " + chain(f"{pre}.bind", [ll(f) for f in q.fields], end=f"{pre}.ret _", sep=" fun _ =>\n    "))
    if not q.encc:
        def lu(f): return "ModulationParameters.with_len_under _ (UInt8.toNat_lt _)" if f[2] else "UnderflowDec.under"
        o.append(f"theorem {n}.under : OnlyUnderflow {n}.deserializeBody :=\n    " + chain("OnlyUnderflow.bind", [lu(f) for f in q.fields], end="OnlyUnderflow.ret _", sep=" fun _ =>\n    "))
    # tail
    if n == "AggregateStatePdu": o.append(AGG_TAIL)
    elif not q.lost: o.append(f"theorem {n}.split (x : {n}) : wire x = wire (kept x) ++ tail x := (List.append_nil _).symm")
    else:
        ws = [f"wire x.{f[0]}" for f in q.fields]; ks = [f"wire (kept x).{f[0]}" if f in q.lost else f"wire x.{f[0]}" for f in q.fields]
        es = [("[]" if f in q.lost else f"wire x.{f[0]}") for f in q.fields]
        ts = [f"wire x.{f[0]}" for f in q.lost]
        o.append(f"theorem {n}.split (x : {n}) : wire x = wire (kept x) ++ tail x := by\n  show " + " ++ (".join(ws) + ")" * (len(ws) - 1) + "\n    = (" + " ++ (".join(es) + ")" * len(es) + "\n      ++ (" + " ++ (".join(ts) + ")" * len(ts) + "\n  simp only [List.append_assoc, List.append_nil, List.nil_append]")
    return "\n".join(o) + "\n"

AGG_READS = """theorem AggregateStatePdu.reads (x : AggregateStatePdu) (h : decodable x) :
    Reads AggregateStatePdu.deserializeBody (wire (kept x)) (kept x) := by
  obtain ⟨h1, h2, h3, h4, h5⟩ := h
  have e : kept x = { x with aggregate_id_list := [], entity_id_list := [], padding := [], silent_aggregate_system_list := [], silent_entity_system_list := [], variable_datum_list := [] } := by
    show { x with variable_datum_list := [] } = _
    simp only [h1, h2, h3, h4, h5]
  rw [e]
  exact %s
"""
AGG_TAIL = """theorem AggregateStatePdu.split (x : AggregateStatePdu) : wire x = wire (kept x) ++ tail x := by
  show %s
    = (%s
      ++ wire x.variable_datum_list
  simp only [List.append_assoc, List.append_nil, List.nil_append]"""
for q in PD:
    if q.name == "AggregateStatePdu":
        AGG_READS = AGG_READS % chain("Reads.bind", [rlaw(q, f) for f in q.fields[:-1]], end=f"Reads.last ({rlaw(q, q.fields[-1])}) (Reads.ret _)")
        ws = [f"wire x.{f[0]}" for f in q.fields]
        AGG_TAIL = AGG_TAIL % (" ++ (".join(ws) + ")" * (len(ws) - 1), " ++ (".join(ws[:-1] + ["[]"]) + ")" * len(ws))

def main():
    files = sorted(set(q.path for q in PD))
    N = 4
    parts = [PD[i::N] for i in range(N)]
    bounds = [0, 16, 33, 50, 66]
    parts = [PD[bounds[i]:bounds[i + 1]] for i in range(4)]
    for i, ps in enumerate(parts, 1):
        with open(f"{BASE}/Model/Pdus{i}.lean", "w") as f:
            f.write("import Verif.Model.PduCore\nimport Verif.Model.Records\n/- Generated by tools/gen_pdus.py from the `define_pdu!` blocks of /repo/src. -/\nset_option maxRecDepth 4000\nnamespace Dis\n\n")
            f.write("\n".join(model(q) for q in ps)); f.write("\nend Dis\n")
        with open(f"{BASE}/Spec/PduWire{i}.lean", "w") as f:
            f.write(f"import Verif.Model.Pdus{i}\nimport Verif.Spec.RecordWire\nimport Verif.Spec.PduCommon\n/-\nGenerated by tools/gen_pdus.py from the `define_pdu!` field lists of /repo/src: a PDU body's wire image\nis the concatenation of its fields' images in declaration order.\n-/\nset_option maxRecDepth 4000\nnamespace Dis\n\n")
            f.write("\n".join(spec(q) for q in ps)); f.write("\nend Dis\n")
        with open(f"{BASE}/Proofs/Pdus{i}.lean", "w") as f:
            f.write(f"import Verif.Spec.PduWire{i}\nimport Verif.Proofs.Records\n/- Generated by tools/gen_pdus.py. -/\nset_option linter.unusedSimpArgs false\nset_option maxRecDepth 8000\nnamespace Dis\n\n")
            f.write("\n".join(proofs(q) for q in ps)); f.write("\nend Dis\n")
if __name__ == "__main__":
    main()
    for q in PD:
        print(q.kind, q.pt, q.size, q.fixsize and q.fixsize + 12, "LAYOUT" if q.layout else "", "IRR" if q.irregular else "", "VAR" if q.varsize else "", [f[0] for f in q.cond])

# ---- the kinds
def alt(pred): return " ".join(f"| .{q.kind}" for q in PD if pred(q))
def wrap(s, w=100):
    out, cur = [], ""
    for tok in s.split(" | "):
        t = tok if not out and not cur else "| " + tok
        if len(cur) + len(t) > w: out.append(cur); cur = "  " + t
        else: cur = (cur + " " + t) if cur else "  " + t
    return "\n".join(out + [cur])
def pat(pred): return wrap(" | ".join(f".{q.kind}" for q in PD if pred(q))).replace("  .", "  | .", 1)

def kinds():
    with open(f"{BASE}/Model/PduKind.lean", "w") as f:
        f.write("import Verif.Model.Pdus1\nimport Verif.Model.Pdus2\nimport Verif.Model.Pdus3\nimport Verif.Model.Pdus4\n/- Generated by tools/gen_pdus.py: the index of the 66 `define_pdu!` blocks of /repo/src. -/\nnamespace Dis\n\n")
        f.write("/-- The PDU kinds of the crate, one per `define_pdu!` block (cited at the structures below). -/\ninductive PduKind where\n")
        f.write("".join(f"  | {q.kind}\n" for q in PD)); f.write("  deriving DecidableEq, Repr\n\n")
        f.write("/-- The structure (without header) declared for the kind. -/\n@[reducible] def PduKind.Body : PduKind → Type\n" + "".join(f"  | .{q.kind} => {q.name}\n" for q in PD))
        f.write("\n/-- The code the macro generates for the kind. -/\ninstance PduKind.instPduBody : (k : PduKind) → PduBody k.Body\n" + "".join(f"  | .{q.kind} => inferInstanceAs (PduBody {q.name})\n" for q in PD))
        f.write("\n/-- All kinds. -/\ndef PduKind.all : List PduKind := [\n" + ",\n".join(f"  .{q.kind}" for q in PD) + "]\n")
        f.write("\n/-- Comparison of the members, for the concrete examples only (PDUs have no `==`). -/\ninstance PduKind.instDecidableEq : (k : PduKind) → DecidableEq k.Body\n" + "".join(f"  | .{q.kind} => inferInstanceAs (DecidableEq {q.name})\n" for q in PD))
        f.write("\nend Dis\n")
    with open(f"{BASE}/Spec/PduKindWire.lean", "w") as f:
        f.write("import Verif.Model.PduKind\nimport Verif.Spec.PduWire1\nimport Verif.Spec.PduWire2\nimport Verif.Spec.PduWire3\nimport Verif.Spec.PduWire4\n/- Generated by tools/gen_pdus.py: the wire specifications collected by kind. -/\nnamespace Dis\n\n")
        for c in ["Wire", "Enc", "Dec", "Tail"]:
            f.write(f"instance PduKind.inst{c} : (k : PduKind) → {c} k.Body\n" + "".join(f"  | .{q.kind} => inferInstanceAs ({c} {q.name})\n" for q in PD) + "\n")
        f.write("/-- Size in octets, header included, of the kind's fixed part: the number of bits asserted in the\ncrate's own tests (after IEEE 1278.1) divided by 8. -/\ndef PduKind.ieeeOctets : PduKind → Nat\n" + "".join(f"  | .{q.kind} => {q.size * 8} / 8\n" for q in PD) + "\n")
        f.write("/-- Kinds all of whose fields have a fixed layout: no list, no optional field, none of the irregular\nrecords. -/\ndef PduKind.fixedLayout : PduKind → Bool\n" + pat(lambda q: q.layout) + " => true\n  | _ => false\n\n")
        f.write("/-- Kinds without an entity marking, variable datum records, record sets or grid data: those whose\nencoder transmits every field and claims the exact length. -/\ndef PduKind.exactLength : PduKind → Bool\n" + pat(lambda q: q.surp) + " => false\n  | _ => true\n\n")
        f.write("/-- Kinds whose decoder reads a number of octets that depends on the octets (a length or count\nfield governs a list). -/\ndef PduKind.variableDecoder : PduKind → Bool\n" + pat(lambda q: q.varsize) + " => true\n  | _ => false\n\n")
        f.write("/-- Kinds holding record sets, whose length × count product can overflow. -/\ndef PduKind.hasRecordSets : PduKind → Bool\n" + pat(lambda q: q.encc) + " => true\n  | _ => false\n\n")
        f.write("/-- Kinds holding dead-reckoning parameters or a simulation identifier, some of whose octets are always\nwritten as zero. -/\ndef PduKind.zeroesFields : PduKind → Bool\n" + pat(lambda q: any(base(x[1]) in SENTT for x in q.fields)) + " => true\n  | _ => false\n\n")
        f.write("end Dis\n")
    with open(f"{BASE}/Proofs/PduKind.lean", "w") as f:
        f.write("import Verif.Spec.PduKindWire\nimport Verif.Proofs.PduLaws\nimport Verif.Proofs.Pdus1\nimport Verif.Proofs.Pdus2\nimport Verif.Proofs.Pdus3\nimport Verif.Proofs.Pdus4\n/- Generated by tools/gen_pdus.py. -/\nset_option maxRecDepth 4000\nnamespace Dis\n\n")
        for q in PD:
            n = q.name
            w = f"{n}.writes x h" if q.encc else f"{n}.writes x"
            if q.badmark: r = "fun _ h => h.elim"
            else: r = f"fun x " + ("h" if q.hh else "_") + f" => {n}.reads x" + (" h" if q.hh else "")
            split = f"{n}.split"
            cons = f"{n}.consumes" if q.badmark else f"{n}.loc.consumes"
            if n == "TransmitterPdu":
                prep = "fun _ => rfl, fun _ => rfl, fun _ => rfl, fun _ => rfl"
            else: prep = "fun _ => rfl, fun _ => rfl, fun _ => rfl, fun _ => rfl"
            f.write(f"instance : LawfulBody {n} :=\n  ⟨fun x {'h' if q.encc else '_'} => {w}, {n}.ifOk, {n}.len, {n}.appends, {r}, {split}, {cons},\n   {prep}⟩\n")
        f.write("\ninstance PduKind.instLawful : (k : PduKind) → LawfulBody k.Body\n" + "".join(f"  | .{q.kind} => inferInstanceAs (LawfulBody {q.name})\n" for q in PD) + "\n")
        f.write("theorem PduKind.local : (k : PduKind) → k ≠ .EntityState → Local (PduBody.deserializeBody : Get k.Body)\n" + "".join(f"  | .{q.kind}, {'h' if q.badmark else '_'} => {'(h rfl).elim' if q.badmark else q.name + '.loc'}\n" for q in PD) + "\n")
        f.write("theorem PduKind.under : (k : PduKind) → k.hasRecordSets = false → OnlyUnderflow (PduBody.deserializeBody : Get k.Body)\n" + "".join(f"  | .{q.kind}, {'h' if q.encc else '_'} => " + ("by cases h" if q.encc else q.name + '.under') + "\n" for q in PD) + "\n")
        f.write("theorem PduKind.fixed : (k : PduKind) → k.variableDecoder = false → k ≠ .EntityState →\n    Fixed (PduBody.deserializeBody : Get k.Body) (k.ieeeOctets - 12)\n" + "".join(f"  | .{q.kind}, {'h' if q.varsize else '_'}, {'h' if q.badmark else '_'} => " + ("by cases h" if q.varsize else "(h rfl).elim" if q.badmark else q.name + '.fixed') + "\n" for q in PD) + "\n")
        f.write("theorem PduKind.enc_exact : (k : PduKind) → k.exactLength = true → ∀ x : k.Body, encodable x ∧ surplus x = 0\n" + "".join(f"  | .{q.kind}, {'h' if q.surp else '_'} => " + ("by cases h" if q.surp else 'fun _ => ⟨trivial, rfl⟩') + "\n" for q in PD) + "\n")
        f.write("theorem PduKind.encodable : (k : PduKind) → k.hasRecordSets = false → ∀ x : k.Body, encodable x\n" + "".join(f"  | .{q.kind}, {'h' if q.encc else '_'} => " + ("by cases h" if q.encc else 'fun _ => trivial') + "\n" for q in PD) + "\n")
        f.write("theorem PduKind.sent_id : (k : PduKind) → k.exactLength = true → k.zeroesFields = false → ∀ x : k.Body, sent x = x\n" + "".join(f"  | .{q.kind}, {'h' if q.surp else '_'}, {'_' if q.surp or not q.irregular else 'h'} => " + ("by cases h" if q.irregular else 'fun _ => rfl') + "\n" for q in PD) + "\n")
        f.write("theorem PduKind.layout : (k : PduKind) → k.fixedLayout = true → ∀ x : k.Body, kept x = x ∧ tail x = [] ∧ sent x = x ∧ PduBody.prep x = x\n" + "".join(f"  | .{q.kind}, {'_' if q.layout else 'h'} => " + ("fun _ => ⟨rfl, rfl, rfl, rfl⟩" if q.layout else 'by cases h') + "\n" for q in PD) + "\n")
        f.write("end Dis\n")
if __name__ == "__main__":
    kinds()
