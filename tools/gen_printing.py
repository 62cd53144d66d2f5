"""Generates the model of the derived `Debug` of the records and PDUs (Verif.Model.PrintedRecords, .PrintedPdus), the
specification `calm` of what printing shows (Verif.Spec.CalmRecords) and the proofs that the texts can be read back
(Verif.Proofs.LegibleRecords, .LegiblePdus*)."""
import os, re
import gen_pdus as GP
G = GP.G
BASE, T, PD, ENUMS = G.BASE, G.T, GP.PD, G.ENUMS
HEAD = {"PduHeader": [("protocol_version", "ProtocolVersion"), ("exercise_id", "u8"), ("pdu_type", "PduType"),
          ("protocol_family", "ProtocolFamily"), ("timestamp", "u32"), ("length", "u16"),
          ("status_record", "PduStatusRecord"), ("padding", "u8")],
        "LiveEntityPduHeader": [("protocol_version", "ProtocolVersion"), ("exercise_id", "u8"), ("pdu_type", "PduType"),
          ("protocol_family", "ProtocolFamily"), ("timestamp", "u32"), ("length", "u16"),
          ("subprotocol_number", "DISLiveEntitySubprotocolNumber"), ("padding", "u8")]}
for n, t in T.items():
    assert any("Debug" in d for d in t.derives), n
for q in PD:
    src = open(os.path.join(G.REPO, q.path)).read().split("\n")
    assert any(re.search(r"derive\(.*\bDebug\b", l) for l in src[q.l0 - 1:q.l1]), q.name
FL = lambda n: [(f, ty) for f, ty, *_ in (T[n].fields if n in T else [])]
STRUCTS = {n: [(f, ty) for f, ty, _ in t.fields] for n, t in T.items()}

def parts(ty):
    m = re.fullmatch(r"(?:Vec|Option)<(.*)>", ty)
    if m: return [m.group(1)]
    m = re.fullmatch(r"\[(\w+); \d+\]", ty)
    if m: return [m.group(1)]
    return []
def flat(ty): return not parts(ty)
def floats(ty):
    if parts(ty): return floats(parts(ty)[0])
    if ty in ("f32", "f64", "GridAxisType", "DataRepresentationType"): return True
    if ty in STRUCTS: return any(floats(t) for _, t in STRUCTS[ty])
    assert ty in G.PRIM or ty in ENUMS or ty in G.FLAGS, ty
    return False
# fields whose `calm` is not the identity by definition
def moved(ty):
    if parts(ty): return True
    if ty in ("f32", "f64", "GridAxisType", "DataRepresentationType"): return True
    if ty in STRUCTS: return any(moved(t) for _, t in STRUCTS[ty])
    return False
order = []
def visit(n):
    if n in order: return
    for _, ty in STRUCTS[n]:
        while parts(ty): ty = parts(ty)[0]
        if ty in STRUCTS: visit(ty)
    order.append(n)
for n in T: visit(n)

def wrap(items, ind="  ", width=116):
    lines, cur = [], ind
    for i, it in enumerate(items):
        s = it + ("," if i + 1 < len(items) else "")
        if len(cur) + len(s) + 1 > width and cur.strip():
            lines.append(cur.rstrip()); cur = ind
        cur += s + " "
    lines.append(cur.rstrip())
    return "\n".join(lines)
def pairs(fields, x, calm=False):
    return wrap([f'("{f}", text σ ' + (f"(calm {x}.{f})" if calm else f"{x}.{f}") + ")" for f, _ in fields])
def calmfields(fields):
    fs = [f for f, ty in fields if moved(ty)]
    return None if not fs else wrap([f"{f} := calm x.{f}" for f in fs], "    ")

def write(path, text):
    with open(os.path.join(BASE, path), "w") as f: f.write(text)

# --- model of the records
o = ["import Verif.Model.Printing", "import Verif.Model.Records",
     "/- Generated by tools/gen_printing.py: the derived `Debug` of the records of src/common/data_types. -/",
     "namespace Dis", ""]
for n in order:
    t = T[n]
    src = open(os.path.join(G.REPO, t.path)).read().split("\n")
    l0 = t.l0
    while not src[l0 - 1].startswith(f"pub struct {n}"): l0 += 1
    l1 = l0
    while src[l1 - 1] != "}": l1 += 1
    o.append(f"/-- {t.path}:{l0}-{l1} (derived) -/")
    o.append(f'instance : RDebug {n} := ⟨fun σ x => structText σ "{n}" [\n{pairs(STRUCTS[n], "x")}]⟩')
o += ["", "end Dis", ""]
write("Model/PrintedRecords.lean", "\n".join(o))

# --- model of the PDUs
o = ["import Verif.Model.PrintedRecords", "import Verif.Model.PduKind",
     "/- Generated by tools/gen_printing.py: the derived `Debug` of the 66 PDUs. -/", "namespace Dis", "",
     "/-- The part of a PDU's derived `Debug` that depends on its `define_pdu!` block. -/",
     "class PduDebug (B : Type) where",
     "  /-- the name of the structure -/", "  name : String",
     "  /-- the fields after the header, with their texts -/", "  fields : Fmt → B → List (String × Text)", "",
     "/-- src/pdu_macro.rs:231-237 (the `derive(Debug)` handed on by line 231): the header is the first field. -/",
     "instance {B : Type} [PduDebug B] : RDebug (Pdu B) := ⟨fun σ p =>",
     '  structText σ (PduDebug.name B) (("header", text σ p.header) :: PduDebug.fields σ p.body)⟩', ""]
for q in PD:
    fs = [(f, ty) for f, ty, _, _ in q.fields]
    o.append(f"/-- {q.path}:{q.l0}-{q.l1} (derived) -/")
    o.append(f'instance : PduDebug {q.name} where\n  name := "{q.name}"\n  fields σ x := [\n' + pairs(fs, "x").replace("\n  ", "\n    ").replace("  (", "    (", 1) + "]")
o += ["", "/-- the derived `Debug` of each kind -/",
      "instance PduKind.debugBody : (k : PduKind) → PduDebug k.Body"]
for q in PD: o.append(f"  | .{q.kind} => inferInstanceAs (PduDebug {q.name})")
o += ["", "end Dis", ""]
write("Model/PrintedPdus.lean", "\n".join(o))

# --- spec
o = ["import Verif.Spec.Printing", "import Verif.Model.PrintedRecords", "import Verif.Model.PduKind",
     "/-",
     "Generated by tools/gen_printing.py: `calm` for records and PDUs, member by member.  (Members that hold no number with",
     "a fraction and no list are not mentioned: they are kept.)", "-/", "namespace Dis", ""]
def calminst(n, fields):
    c = calmfields(fields)
    if c is None: return f"instance : Calm {n} := ⟨id⟩"
    s = f"instance : Calm {n} := ⟨fun x => {{ x with {c.strip()} }}⟩"
    if len(s) <= 118 and "\n" not in s: return s
    return f"instance : Calm {n} := ⟨fun x => {{ x with\n{c} }}⟩"
for n in order: o.append(calminst(n, STRUCTS[n]))
o.append("")
for q in PD: o.append(calminst(q.name, [(f, ty) for f, ty, _, _ in q.fields]))
o += ["", "/-- a PDU: its header and its fields -/",
      "instance {B : Type} [Calm B] : Calm (Pdu B) := ⟨fun p => ⟨calm p.header, calm p.body⟩⟩", "",
      "/-- `calm` of each kind -/", "instance PduKind.calmBody : (k : PduKind) → Calm k.Body"]
for q in PD: o.append(f"  | .{q.kind} => inferInstanceAs (Calm {q.name})")
o += ["", "/-- Kinds with a floating-point member. -/", "def PduKind.hasFloats : PduKind → Bool"]
hf = [q for q in PD if any(floats(ty) for _, ty, _, _ in q.fields)]
nf = [q for q in PD if q not in hf]
o.append(GP.wrap(" | ".join(f".{q.kind}" for q in nf)).replace("  .", "  | .", 1) + " => false\n  | _ => true")
o += ["", "/-- a type of the crate that is printed -/", "structure Printed where", "  {α : Type}", "  [debug : RDebug α]", "  [calm : Calm α]", "",
      "/-- The flags, headers and records of the crate (all public structures and enumerations with data that are not PDUs). -/",
      "def allPrinted : List Printed := ["]
o.append(",\n".join(f"  ⟨α := {n}⟩".replace("⟨α := ", "{ α := ").replace("⟩", " }") for n in ["FrozenBehavior", "ObjectStateAppearanceGeneral", "LandPlatformAppearance", "PduState", "PduStatusRecord", "PduHeader", "LiveEntityPduHeader", "GridAxisType", "DataRepresentationType"] + order) + "]")
o += ["", "end Dis", ""]
write("Spec/CalmRecords.lean", "\n".join(o))

# --- proofs
al = open(os.path.join(BASE, "Model/Enums/All.lean")).read()
al = re.findall(r"^  (\w+)\.spec", al[:al.index("def fieldEnums")], re.M)
used = []
def use(ty):
    while parts(ty): ty = parts(ty)[0]
    if ty in ENUMS and ty not in used: used.append(ty)
for fs in list(HEAD.values()) + [STRUCTS[n] for n in order] + [[(f, ty) for f, ty, _, _ in q.fields] for q in PD]:
    for _, ty in fs: use(ty)

def lines(fields, close="no_field_line"):
    return "".join(f"\n    field_line (by decide +kernel) (Legible.line hσ ha x.{f}) <|" for f, _ in fields) + "\n    " + close
def steps(fields, first, ind="    "):
    s = []
    for i, (f, _) in enumerate(fields):
        fn = "read_first" if first and i == 0 else "read_next"
        s.append(f"{ind}obtain ⟨h{i + 1}, h⟩ := {fn} hσ (x := x.{f}) (y := y.{f}) h")
    return "\n".join(s)
def mk(n, fields, x): return f"{n}.mk " + " ".join(f"(calm {x}.{f})" for f, _ in fields)
def eqs(fields): return ", ".join(f"h{i + 1}" for i in range(len(fields)))
def breakline(s, ind, width=118):
    out, cur = [], "   "
    for w in s.split():
        if len(cur) + len(w) + 1 > width: out.append(cur); cur = ind + w
        else: cur = (cur + " " + w) if cur else w
    out.append(cur)
    return "\n".join(out)
def legible(n, fields):
    o = [f"instance : Legible {n} where", "  starts _ _ := structText_starts (by decide +kernel) _",
         "  line hσ ha x := structText_line ha (by decide +kernel) <|" + lines(fields)]
    if any(moved(ty) for _, ty in fields) or n == "PduHeader":
        o += [f'  same {{σ}} hσ x := by', f'    show structText σ "{n}" [\n    {pairs(fields, "x", True).strip()}] =\n      structText σ "{n}" [\n    {pairs(fields, "x").strip()}]',
              "    simp only [Legible.same hσ]"]
    else: o.append("  same _ _ := rfl")
    o += ["  reads {σ} hσ {x y r r'} _ _ h := by",
          f'    have h : structText σ "{n}" [\n    {pairs(fields, "x").strip()}] ++ r =\n      structText σ "{n}" [\n    {pairs(fields, "y").strip()}] ++ r\' := h',
          steps(fields, True), "    refine ⟨?_, read_end h⟩",
          breakline(f"    show {mk(n, fields, 'x')} = {mk(n, fields, 'y')}", "      "), breakline(f"    rw [{eqs(fields)}]", "      ")]
    return "\n".join(o)
o = ["import Verif.Proofs.LegibleHeaders", "import Verif.Model.PrintedRecords", "import Verif.Spec.CalmRecords",
     "/- Generated by tools/gen_printing.py: the texts of the headers and records can be read back. -/",
     "set_option maxRecDepth 4000", "namespace Dis", ""]
for e in used:
    if e not in ("TransferredEntityIndicator", "LVCIndicator", "CoupledExtensionIndicator"):
        o.append(f"instance : Named {e}.spec := named_of_mem (List.mem_of_getElem? (i := {al.index(e)}) rfl)")
o.append("")
for n in HEAD: o.append(legible(n, HEAD[n]))
for n in order: o.append(legible(n, STRUCTS[n]))
o += ["", "end Dis", ""]
write("Proofs/LegibleRecords.lean", "\n".join(o))

def legbody(q):
    n = q.name; fields = [(f, ty) for f, ty, _, _ in q.fields]
    o = [f"instance : LegibleBody {n} where", "  named := by decide +kernel",
         "  line hσ ha x :=" + lines(fields)]
    if any(moved(ty) for _, ty in fields):
        o += [f'  same {{σ}} hσ x := by', f'    show [\n    {pairs(fields, "x", True).strip()}] = [\n    {pairs(fields, "x").strip()}]',
              "    simp only [Legible.same hσ]"]
    else: o.append("  same _ _ := rfl")
    o += ["  reads {σ} hσ {x y r r'} h := by",
          f'    have h : fieldsText σ [\n    {pairs(fields, "x").strip()}] ++ r =\n      fieldsText σ [\n    {pairs(fields, "y").strip()}] ++ r\' := h',
          steps(fields, False), "    refine ⟨?_, read_end h⟩",
          breakline(f"    show {mk(n, fields, 'x')} = {mk(n, fields, 'y')}", "      "), breakline(f"    rw [{eqs(fields)}]", "      ")]
    return "\n".join(o)
k = 3
for i in range(k):
    o = ["import Verif.Proofs.LegibleBody",
         "/- Generated by tools/gen_printing.py: the texts of the PDUs can be read back. -/", "set_option maxRecDepth 4000",
         "namespace Dis", ""] + [legbody(q) for q in PD[i * 22:(i + 1) * 22]] + ["", "end Dis", ""]
    write(f"Proofs/LegiblePdus{i + 1}.lean", "\n".join(o))
o = [f"import Verif.Proofs.LegiblePdus{i + 1}" for i in range(k)] + [
     "/- Generated by tools/gen_printing.py: every kind. -/", "namespace Dis", "",
     "instance PduKind.legibleBody : (k : PduKind) → LegibleBody k.Body"]
for q in PD: o.append(f"  | .{q.kind} => inferInstanceAs (LegibleBody {q.name})")
o.append("")
pl = [n for n in order if not floats(n)]
for n in pl:
    fs = [f for f, ty in STRUCTS[n] if moved(ty)]
    o.append(f"instance : Plain {n} := ⟨fun x => by" + (f"\n  show ({{ x with {', '.join(f'{f} := calm x.{f}' for f in fs)} }} : {n}) = x\n  rw [{', '.join(f'Plain.eq x.{f}' for f in fs)}]⟩" if fs else " rfl⟩"))
for q in nf:
    fs = [f for f, ty, _, _ in q.fields if moved(ty)]
    o.append(f"instance : Plain {q.name} := ⟨fun x => by" + (f"\n  show ({{ x with {', '.join(f'{f} := calm x.{f}' for f in fs)} }} : {q.name}) = x\n  rw [{', '.join(f'Plain.eq x.{f}' for f in fs)}]⟩" if fs else " rfl⟩"))
o += ["", "theorem PduKind.plain (k : PduKind) (hk : k.hasFloats = false) (b : k.Body) : calm b = b := by", "  cases k"]
for q in nf: o.append(f"  case {q.kind} => exact Plain.eq (α := {q.name}) b")
o += ["  all_goals exact absurd hk (by decide)", "", "end Dis", ""]
write("Proofs/LegibleKinds.lean", "\n".join(o))
print(len(order), "records", len(PD), "PDUs", len(nf), "without floats", len(used), "enumerations")
