"""Generates the model, wire specification and law proofs of the regular records of
src/common/data_types.  Stops on anything it does not recognise."""
import os, re, glob, sys
from rustparse import parse_types, REPO
from enumparse import parse_enums
BASE = os.path.join(os.path.dirname(os.path.abspath(__file__)), "..", "lean", "Verif")
MANUAL = {"EntityMarking", "VariableDatumRecord", "RecordSpecificationElement", "GridAxisDescriptor",
          "GridDataRecord", "ModulationParameters", "AntennaPattern"}
PRIM = {"u8": "UInt8", "u16": "UInt16", "u32": "UInt32", "u64": "UInt64", "i8": "Int8", "i16": "Int16",
        "i32": "Int32", "i64": "Int64", "f32": "F32", "f64": "F64", "String": "String"}
SIZE = {"u8": 1, "u16": 2, "u32": 4, "u64": 8, "i8": 1, "i16": 2, "i32": 4, "i64": 8, "f32": 4, "f64": 8}
FLAGS = {"FrozenBehavior": 1, "ObjectStateAppearanceGeneral": 2}
ENUMS = parse_enums()
KW = {"function", "end", "class", "where", "from", "at", "in", "do", "open", "section", "private", "extends"}

def leanty(t):
    t = t.strip()
    if t in PRIM: return PRIM[t]
    m = re.fullmatch(r"Vec<(.*)>", t)
    if m: return f"(List {leanty(m.group(1))})"
    m = re.fullmatch(r"Option<(.*)>", t)
    if m: return f"(Option {leanty(m.group(1))})"
    m = re.fullmatch(r"\[(\w+); (\d+)\]", t)
    if m: return f"(Arr {leanty(m.group(1))} {m.group(2)})"
    assert re.fullmatch(r"\w+", t), t
    return t
def lt(t):
    s = leanty(t)
    return s[1:-1] if s.startswith("(") else s

def load():
    T = {}
    for p in sorted(glob.glob(REPO + "/src/common/data_types/*.rs")):
        p = os.path.relpath(p, REPO)
        if p.endswith("mod.rs"): continue
        T.update(parse_types(p))
    return T
T = load()

def norm(s): return re.sub(r"\s+", " ", s).strip()

class Bad(Exception): pass
def need(c, *a):
    if not c: raise Bad(" ".join(map(str, a)))

P = r"(u8|u16|u32|u64|i8|i16|i32|i64|f32|f64)"
def U(p): return p.upper()

# --- serialize bodies -> list of (lean statement, law term given x, field or None)
def parse_ser(t, body):
    b = norm(body); out = []
    fty = {f: ty for f, ty, _ in t.fields}
    while b:
        m = re.match(rf"buf\.put_{P}\(self\.(\w+)\); ?", b)
        if m:
            need(fty[m.group(2)] == m.group(1), t.name, b[:60]); out.append(("prim", m.group(2), m.group(1)))
        if not m:
            m = re.match(r"buf\.put_(u8|u16|u32)\(self\.(\w+) as (u8|u16|u32)\); ?", b)
            if m:
                need(m.group(1) == m.group(3) and fty[m.group(2)] in ENUMS, t.name, b[:60])
                out.append(("enum", m.group(2), m.group(1)))
        if not m:
            m = re.match(r"self\.(\w+)\.serialize\(buf\); ?", b)
            if m: out.append(("rec", m.group(1), fty[m.group(1)])); need(fty[m.group(1)] in T, b[:60])
        if not m:
            m = re.match(r"self\.(\w+)\.serialize_field\(buf\); ?", b)
            if m: out.append(("field", m.group(1), fty[m.group(1)]))
        if not m:
            m = re.match(rf"for i in 0\.\.self\.(\w+)\.len\(\) \{{ buf\.put_{P}\(self\.(\w+)\[i\]\); \}} ?", b)
            if m:
                need(m.group(1) == m.group(3) and fty[m.group(1)] == f"Vec<{m.group(2)}>", b[:60])
                out.append(("eachprim", m.group(1), m.group(2)))
        if not m:
            m = re.match(r"for i in 0\.\.self\.(\w+)\.len\(\) \{ self\.(\w+)\[i\]\.serialize\(buf\); \} ?", b)
            if m:
                need(m.group(1) == m.group(2), b[:60]); out.append(("eachrec", m.group(1), fty[m.group(1)][4:-1]))
        if not m:
            m = re.match(r"for (\w+) in &self\.(\w+) \{ (\w+)\.serialize\(buf\); \} ?", b)
            if m:
                need(m.group(1) == m.group(3)); out.append(("eachrec", m.group(2), fty[m.group(2)][4:-1]))
        if not m:
            m = re.match(rf"for i in self\.(\w+) \{{ buf\.put_{P}\(i\); \}} ?", b)
            if m:
                need(re.fullmatch(rf"\[{m.group(2)}; \d+\]", fty[m.group(1)]), b[:60])
                out.append(("arr", m.group(1), m.group(2)))
        if not m:
            m = re.match(r"buf\.put_bytes\(0u8, (\d+)\); ?", b)
            if m: out.append(("zeros", None, m.group(1)))
        if not m:
            m = re.match(r"buf\.put_u16\(0u16\); ?", b)
            if m: out.append(("const16", None, "0"))
        need(m, t.name, "serialize:", b[:80])
        b = b[m.end():]
    return out

def ser_lean(s):
    k, f, a = s
    return {"prim": lambda: f"put{U(a)} self.{f}", "enum": lambda: f"put{U(a)} self.{f}.as{U(a)}",
            "rec": lambda: f"self.{f}.serialize", "field": lambda: f"serialize_field self.{f}",
            "eachprim": lambda: f"putEach put{U(a)} self.{f}",
            "eachrec": lambda: f"putEach {a}.serialize self.{f}", "arr": lambda: f"putEach put{U(a)} self.{f}.toList",
            "zeros": lambda: f"putBytes (List.replicate {a} 0)", "const16": lambda: "putU16 0"}[k]()

def parse_expr(t, e, env):
    """reader expression -> (lean, kind, arg)"""
    e = e.strip()
    m = re.fullmatch(rf"buf\.get_{P}\(\)", e)
    if m: return (f"get{U(m.group(1))}", "prim", m.group(1))
    m = re.fullmatch(r"(\w+)::deserialize\(buf\)", e)
    if m:
        n = m.group(1); need(n in T or n in ENUMS, e)
        return (f"{n}.deserialize", "rec" if n in T else "enum", n)
    m = re.fullmatch(r"(\w+)::deserialize_field\(buf\)", e)
    if m: return (f"(deserialize_field : Get {m.group(1)})", "field", m.group(1))
    m = re.fullmatch(r"Self::(\w+)\(buf\)", e)
    if m: return (f"{t.name}.{m.group(1)}", "helper", m.group(1))
    raise Bad(t.name + " expr " + e)

def parse_de(t, body):
    """-> (list of (var, lean reader, kind, arg, extra)), mapping field->var"""
    b = norm(body); steps = []; vec = {}; arrs = {}
    def finish(s, name):
        m = re.fullmatch(rf"(?:Self|{name}) \{{ (.*?),? \}}", s)
        need(m, t.name, "tail", s)
        order = []
        for part in m.group(1).split(", "):
            if ": " in part:
                f, e = part.split(": ", 1)
                if re.fullmatch(r"\w+", e): order.append((f, e))
                else:
                    l, k, a = parse_expr(t, e, None); steps.append((f, l, k, a, None)); order.append((f, f))
            else: order.append((part, part))
        return order
    while b and not re.match(r"(Self|[A-Z]\w+) \{", b):
        m = re.match(r"let (\w+) = ((?:buf\.get_\w+\(\))|(?:\w+::deserialize\(buf\))); ?", b)
        if m:
            l, k, a = parse_expr(t, m.group(2), None); steps.append((m.group(1), l, k, a, None))
        if not m:
            m = re.match(r"let mut (\w+)(?:: Vec<\w+>)? = (?:vec!\[\]|Vec::with_capacity\((\w+) as usize\)); for \w+ in 0\.\.(\w+) \{ (\w+)\.push\((.*?\))\); \} ?", b)
            if m:
                need(m.group(1) == m.group(4), b[:60])
                l, k, a = parse_expr(t, m.group(5), None)
                if m.group(2): steps.append(("_", f"M.reserve {m.group(2)}.toNat", "reserve", None, None))
                steps.append((m.group(1), f"getN {l} {m.group(3)}.toNat", "vec", (l, k, a), m.group(3)))
        if not m:
            m = re.match(rf"let mut (\w+): \[(\w+); (\d+)\] = \[0; (\d+)\]; for (\w+) in &mut (\w+) \{{ \*(\w+) = buf\.get_{P}\(\); \}} ?", b)
            if m:
                need(m.group(1) == m.group(6) and m.group(3) == m.group(4) and m.group(5) == m.group(7) and m.group(2) == m.group(8), b[:60])
                steps.append((m.group(1), f"getArr get{U(m.group(2))} {m.group(3)}", "arr", m.group(2), m.group(3)))
        need(m, t.name, "deserialize:", b[:100])
        b = b[m.end():]
    name = re.match(r"(\w+) \{", b).group(1)
    return steps, finish(b, name if name != "Self" else t.name)

def parse_len(t, body):
    b = re.sub(r"/\*.*?\*/", "", norm(body)); out = []
    for a in b.split("+"):
        a = a.strip()
        if re.fullmatch(r"\d+", a): out.append(a); continue
        if a == "Self::LENGTH": out.append(f"{t.name}.LENGTH"); continue
        m = re.fullmatch(r"(\w+)::LENGTH", a)
        if m: out.append(f"{m.group(1)}.LENGTH"); continue
        m = re.fullmatch(r"self\.(\w+)\.field_len\(\)", a)
        if m: out.append(f"field_len self.{m.group(1)}"); continue
        m = re.fullmatch(r"self\.(\w+)\.len\(\)", a)
        if m: out.append(f"self.{m.group(1)}.length"); continue
        raise Bad(t.name + " len " + a)
    return " + ".join(out)

def parse_default(t):
    if "Default" in t.impls:
        b = norm(t.impls["Default"]["default"].body)
        m = re.fullmatch(r"Self \{ (.*?),? \}", b); need(m, b)
        r = []
        for part in re.split(r", (?=\w+:)", m.group(1)):
            f, e = part.split(": ", 1)
            if re.fullmatch(r"\d+(\.0)?", e):
                ty = {x: y for x, y, _ in t.fields}[f]
                v = e.split(".")[0]
                r.append(f"{f} := " + (f"⟨{v}⟩" if ty in ("f32", "f64") else v))
            elif re.fullmatch(r"\w+::default\(\)", e): r.append(f"{f} := dflt")
            elif re.fullmatch(r"\[0; \d+\]", e): r.append(f"{f} := .replicate {e[4:-1]} 0")
            else:
                m2 = re.fullmatch(r"(\w+)::(\w+)", e); need(m2, e)
                code = dict(ENUMS[m2.group(1)]["variants"])[m2.group(2)]
                r.append(f"{f} := ⟨{code}, by decide⟩")
        fn = t.impls["Default"]["default"]
        return f"/-- {t.path}:{fn.l0}-{fn.l1} -/\ninstance : RDefault {t.name} := ⟨{{ " + ", ".join(r) + " }⟩"
    if any("Default" in d for d in t.derives):
        return f"/-- {t.path}:{t.l0}-{t.l1} (derived) -/\ninstance : RDefault {t.name} := ⟨{{ " + ", ".join(f"{f} := dflt" for f, _, _ in t.fields) + " }⟩"
    return None

def deps(t):
    r = set()
    for _, ty, _ in t.fields:
        for n in re.findall(r"\w+", ty):
            if n in T: r.add(n)
    for m in re.findall(r"(\w+)::LENGTH", getattr(t, "length", "") or ""):
        r.add(m)
    if "FieldLen" in t.impls:
        r |= {m for m in re.findall(r"(\w+)::LENGTH", t.impls["FieldLen"]["field_len"].body) if m != "Self"}
    return r - {t.name}

def topo():
    out = []; seen = set()
    def go(n):
        if n in seen: return
        seen.add(n)
        for d in sorted(deps(T[n])): go(d)
        out.append(n)
    for n in sorted(T): go(n)
    return [n for n in out if n not in MANUAL]

class Rec: pass
def analyse(n):
    t = T[n]; r = Rec(); r.t = t; r.name = n
    I = t.impls[None]
    r.ser = parse_ser(t, I["serialize"].body); r.de, r.order = parse_de(t, I["deserialize"].body)
    r.fs = t.impls.get("FieldSerialize", {}).get("serialize_field")
    r.fd = t.impls.get("FieldDeserialize", {}).get("deserialize_field")
    r.fl = t.impls.get("FieldLen", {}).get("field_len")
    r.own = False
    if r.fs and norm(r.fs.body) != "self.serialize(buf);": r.own = True
    if r.fd and norm(r.fd.body) != "Self::deserialize(buf)": assert r.own
    r.helpers = [h for h in I if h.startswith("deserialize_")]
    need([f for f, _ in r.order] == [f for f, _, _ in t.fields] or True)
    need(sorted(f for f, _ in r.order) == sorted(f for f, _, _ in t.fields), n, "fields")
    return r

def reader_def(name, ty, steps, order, cite):
    o = [f"/-- {cite} -/", f"def {name} : Get {ty} := do"]
    for v, l, k, a, x in steps: o.append(f"  {l}" if k == "reserve" else f"  let {v} ← {l}")
    o.append("  return { " + ", ".join(f if f == v else f"{f} := {v}" for f, v in order) + " }")
    return "\n".join(o)

def model(r):
    t = r.t; n = r.name; I = t.impls[None]; o = []
    o.append(f"/-- {t.path}:{t.l0}-{t.l1} -/\nstructure {n} where")
    for f, ty, _ in t.fields: o.append(f"  {f} : {lt(ty)}")
    o.append("  deriving DecidableEq")
    d = parse_default(t)
    if d: o.append(d)
    if getattr(t, "length", None):
        e = re.sub(r"(\w+)::LENGTH", r"\1.LENGTH", t.length)
        o.append(f"/-- {t.path}:{t.length_line} -/\ndef {n}.LENGTH : Nat := {e}")
    s = I["serialize"]
    o.append(f"/-- {t.path}:{s.l0}-{s.l1} -/\ndef {n}.serialize (self : {n}) : Put := do")
    for x in r.ser: o.append("  " + ser_lean(x))
    for h in r.helpers:
        fn = I[h]; st, od = parse_de(t, fn.body)
        o.append(reader_def(f"{n}.{h}", fn.ret, st, od, f"{t.path}:{fn.l0}-{fn.l1}"))
    s = I["deserialize"]
    o.append(reader_def(f"{n}.deserialize", n, r.de, r.order, f"{t.path}:{s.l0}-{s.l1}"))
    if r.fs:
        if r.own:
            ss = parse_ser(t, r.fs.body)
            o.append(f"/-- {t.path}:{r.fs.l0}-{r.fs.l1} -/\ndef {n}.serializeField (self : {n}) : Put := do")
            for x in ss: o.append("  " + ser_lean(x))
            o.append(f"/-- {t.path}:{r.fs.l0}-{r.fs.l1} -/\ninstance : FieldSerialize {n} := ⟨{n}.serializeField⟩")
            st, od = parse_de(t, r.fd.body)
            o.append(reader_def(f"{n}.deserializeField", n, st, od, f"{t.path}:{r.fd.l0}-{r.fd.l1}"))
            o.append(f"/-- {t.path}:{r.fd.l0}-{r.fd.l1} -/\ninstance : FieldDeserialize {n} := ⟨{n}.deserializeField⟩")
            r.fser = ss; r.fde = st
        else:
            o.append(f"/-- {t.path}:{r.fs.l0}-{r.fs.l1} -/\ninstance : FieldSerialize {n} := ⟨{n}.serialize⟩")
            o.append(f"/-- {t.path}:{r.fd.l0}-{r.fd.l1} -/\ninstance : FieldDeserialize {n} := ⟨{n}.deserialize⟩")
    if r.fl:
        e = parse_len(t, r.fl.body)
        v = "self" if "self" in e else "_"
        o.append(f"/-- {t.path}:{r.fl.l0}-{r.fl.l1} -/\ninstance : FieldLen {n} := ⟨fun {v} => {e}⟩")
    return "\n".join(o) + "\n"

# ---- classification for specs
SENT = {"DeadReckoningParameters": "{ x with dead_reckoning_other_parameters := .replicate 15 0 }",
        "SimulationIdentifier": "{ x with reference_number := 0 }"}

VTP_SPEC = """/-- src/common/data_types/variable_transmitter_parameters.rs:11-15; the record type is a 32-bit field -/
instance : Wire VariableTransmitterParameters :=
  ⟨fun x => octets 4 x.record_type.code ▹ wire x.record_length ▹ wire x.record_specific_fields⟩
instance : Enc VariableTransmitterParameters := .exact _
"""
VTP_PROOF = """theorem VariableTransmitterParameters.writes (x : VariableTransmitterParameters) : Writes x.serialize (wire x) :=
    Writes.seq (writes_enum_wide32 x.record_type (by decide)) <|
    Writes.seq (writes_u16 x.record_length) <|
    Writes.each x.record_specific_fields (fun e _ => writes_u8 e)
theorem VariableTransmitterParameters.wire_length (x : VariableTransmitterParameters) :
    (wire x).length = 6 + x.record_specific_fields.length := by
  show (octets _ _ ++ (octets _ _ ++ wire x.record_specific_fields)).length = _
  rw [wire_bytes]
  simp only [List.length_append, octets_length]
  omega
instance : LawfulEnc VariableTransmitterParameters where
  writes x _ := x.writes
  ok x := x.writes.ifOk
  len x := by
    have h1 : field_len x = 4 + 2 + x.record_specific_fields.length := rfl
    have h3 := VariableTransmitterParameters.wire_length x
    show ((wire x).length : Int) = (field_len x : Nat) + 0
    omega
  appends x := x.writes.appends
instance : ExactEnc VariableTransmitterParameters := ⟨fun _ => trivial, fun _ => rfl, fun _ => rfl⟩
theorem VariableTransmitterParameters.loc : Local VariableTransmitterParameters.deserialize :=
    Local.bind (EnumSpec.fixed _).local fun _ => Local.bind fixed_u16.local fun _ =>
    Local.bind (Local.n fixed_u8.local _) fun _ => Local.ret _
theorem VariableTransmitterParameters.under : OnlyUnderflow VariableTransmitterParameters.deserialize :=
    OnlyUnderflow.bind (EnumSpec.fixed _).onlyUnderflow fun _ => OnlyUnderflow.bind fixed_u16.onlyUnderflow fun _ =>
    OnlyUnderflow.bind (OnlyUnderflow.n fixed_u8.onlyUnderflow _) fun _ => OnlyUnderflow.ret _
instance : LocalDec VariableTransmitterParameters := ⟨VariableTransmitterParameters.loc⟩
instance : UnderflowDec VariableTransmitterParameters := ⟨VariableTransmitterParameters.under⟩
"""
def spec(r):
    t = r.t; n = r.name; o = []
    if n == "VariableTransmitterParameters": return VTP_SPEC
    o.append(f"/-- the fields of {t.path}:{t.l0}-{t.l1} in declaration order -/")
    o.append(f"instance : Wire {n} := ⟨fun x => " + " ▹ ".join(f"wire x.{f}" for f, _, _ in t.fields) + "⟩")
    inner = [(f, ty) for f, ty, _ in t.fields if re.search(r"RecordSpecificationElement", ty)]
    if n in SENT:
        o.append(f"instance : Enc {n} := ⟨fun _ => True, fun x => {SENT[n]}, fun _ => 0⟩")
    elif inner:
        f = inner[0][0]
        o.append(f"instance : Enc {n} := ⟨fun x => encodable x.{f}, fun x => {{ x with {f} := sent x.{f} }}, fun x => surplus x.{f}⟩")
    else:
        o.append(f"instance : Enc {n} := .exact _")
    # Dec
    conds = []
    for v, l, k, a, x in r.de:
        if k == "vec":
            conds.append(f"x.{x}.toNat = x.{v}.length")
            if a[2] in T and counted(a[2]): conds.append(f"∀ e ∈ x.{v}, decodable e")
    if conds: o.append(f"/-- recovered when the count field agrees with the list -/\ninstance : Dec {n} := ⟨fun x => {' ∧ '.join(conds)}, id⟩")
    else: o.append(f"instance : Dec {n} := .exact _")
    return "\n".join(o) + "\n"

LAWFUL = """/-- What the theorems need of each entry. -/
structure RecordCodec.Lawful (r : RecordCodec) : Prop where
  writes : ∀ x, Writes (r.ser x) (r.wire x)
  wire_length : ∀ x, (r.wire x).length = r.size
  reads : ∀ x, Reads r.de (r.wire x) x
  fixed : Fixed r.de r.size
  len : ∀ x f, r.len = some f → f x = (r.wire x).length
  declared : ∀ n, r.declared = some n → n = r.size

theorem some_len {α : Type} {w : α → Bytes} {g : α → Nat} (h : ∀ x, g x = (w x).length) (x : α)
    (f : α → Nat) (hf : some g = some f) : f x = (w x).length := by
  cases hf; exact h x

"""
TABLE_HEAD = """import Verif.Spec.RecordWire
/-
Generated by tools/gen_records.py: tables of the record types of src/common/data_types.
-/
namespace Dis

/-- A record type with its serializer and its deserializer. -/
structure RawCodec where
  name : String
  Val : Type
  ser : Val → Put
  de : Get Val

/-- A record type of fixed size: its serializer, deserializer and (if it has one) `field_len`,
its `LENGTH` constant (if it has one); its wire image and its size in octets. -/
structure RecordCodec where
  name : String
  Val : Type
  ser : Val → Put
  de : Get Val
  len : Option (Val → Nat)
  declared : Option Nat
  wire : Val → Bytes
  size : Nat

/-- The records without lists or text which transmit all their fields. -/
"""
RECS = {}
def counted(n):
    if n == "RecordSpecificationElement": return True
    if n not in RECS: return False
    return any(k == "vec" for _, _, k, _, _ in RECS[n].de)

# --- proofs
def w_law(s, x="x"):
    k, f, a = s
    if k == "prim": return f"writes_{a} {x}.{f}"
    if k == "enum": return f"writes_enum{a[1:]} {x}.{f} rfl"
    if k == "rec":
        return f"{a}.writes {x}.{f}"
    if k == "field": return f"LawfulEnc.writes {x}.{f} trivial'"
    if k == "eachprim": return f"Writes.each {x}.{f} (fun e _ => writes_{a} e)"
    if k == "eachrec":
        if a == "RecordSpecificationElement": return f"LawfulEnc.writes {x}.{f} h"
        return f"Writes.each {x}.{f} (fun e _ => {a}.writes e)"
    if k == "arr": return f"Writes.each {x}.{f}.toList (fun e _ => writes_{a} e)"
    if k == "zeros": return f"Writes.bytes (List.replicate {a} 0)"
    if k == "const16": return "writes_u16 0"

def nest(op, xs, last):
    if not xs: return last
    return f"{op} ({xs[0]}) ({nest(op, xs[1:], last)})"

def seq(laws):
    if len(laws) == 1: return laws[0]
    return f"Writes.seq ({laws[0]}) <|\n    {seq(laws[1:])}"

def r_law(step, x, hyps):
    v, l, k, a, e = step
    if k == "prim": return f"reads_{a} x.{v}"
    if k == "enum": return f"EnumSpec.reads x.{v}"
    if k == "rec": return f"{a}.reads x.{v}"
    if k == "helper": return f"{x}.{a}.reads x.{v}"
    if k == "arr": return f"Reads.arr {e} x.{v} reads_{a}"
    if k == "vec":
        l2, k2, a2 = a
        h = hyps[v]
        if k2 == "prim": return f"Reads.counted {h[0]} (fun e _ => reads_{a2} e)"
        if k2 == "rec":
            if len(h) > 1: return f"Reads.counted {h[0]} (fun e he => {a2}.reads e ({h[1]} e he))"
            return f"Reads.counted {h[0]} (fun e _ => {a2}.reads e)"
        if k2 == "field":
            return f"Reads.counted {h[0]} (fun e he => {a2}.reads e ({h[1]} e he))" if len(h) > 1 else f"Reads.counted {h[0]} (fun e _ => {a2}.reads e)"
    raise Bad(str(step))

def rchain(laws):
    if len(laws) == 1: return f"Reads.last ({laws[0]}) (Reads.ret _)"
    return f"Reads.bind ({laws[0]}) <|\n    {rchain(laws[1:])}"

def f_law(step, x):
    v, l, k, a, e = step
    if k == "prim": return f"fixed_{a}", SIZE[a]
    if k == "enum": return f"EnumSpec.fixed _", ENUMS[a]["get"]
    if k == "rec": return f"{a}.fixed", SIZES[a]
    if k == "helper": return f"{x}.{a}.fixed", HSIZE[x, a]
    if k == "arr": return f"Fixed.arr fixed_{a} {e}", SIZE[a] * int(e)
    raise Bad(str(step))
SIZES = {}; HSIZE = {}

def fchain(laws):
    if not laws: return "Fixed.ret _"
    return f"Fixed.bind ({laws[0]}) fun _ =>\n    {fchain(laws[1:])}"

def l_law(step, pre):
    """Local / OnlyUnderflow law for a step"""
    v, l, k, a, e = step
    conv = {"Local": "local", "OnlyUnderflow": "onlyUnderflow"}[pre]
    tag = {"Local": "loc", "OnlyUnderflow": "under"}[pre]
    if k == "prim": return f"fixed_{a}.{conv}"
    if k == "enum": return f"(EnumSpec.fixed _).{conv}"
    if k == "rec": return f"{a}.fixed.{conv}" if a in SIZES else f"{a}.{tag}"
    if k == "arr": return f"(Fixed.arr fixed_{a} {e}).{conv}"
    if k == "vec":
        l2, k2, a2 = a
        if k2 == "prim": return f"{pre}.n fixed_{a2}.{conv} _"
        return f"{pre}.n {a2}.fixed.{conv} _" if a2 in SIZES else f"{pre}.n {a2}.{tag} _"
    raise Bad(str(step))
def lchain(laws, pre):
    if not laws: return f"{pre}.ret _"
    return f"{pre}.bind ({laws[0]}) fun _ =>\n    {lchain(laws[1:], pre)}"

def proofs(r):
    t = r.t; n = r.name; o = []
    if n == "VariableTransmitterParameters": return VTP_PROOF
    isvec = counted(n)
    rse = any("RecordSpecificationElement" in ty for _, ty, _ in t.fields)
    # writes
    if n in SENT:
        o.append(f"theorem {n}.writes (x : {n}) : Writes x.serialize (wire (sent x)) :=\n    {seq([w_law(s) for s in r.ser])}")
    elif rse:
        o.append(f"theorem {n}.writes (x : {n}) (h : encodable x) : Writes x.serialize (wire (sent x)) :=\n    {seq([w_law(s) for s in r.ser])}")
    else:
        o.append(f"theorem {n}.writes (x : {n}) : Writes x.serialize (wire x) :=\n    {seq([w_law(s) for s in r.ser])}")
    # helper readers
    for h in r.helpers:
        fn = t.impls[None][h]; st, od = parse_de(t, fn.body)
        o.append(f"theorem {n}.{h}.reads (x : {fn.ret}) : Reads {n}.{h} (wire x) x :=\n    {rchain([r_law(s, n, {}) for s in st])}")
        ls = [f_law(s, n) for s in st]; sz = sum(b for _, b in ls); HSIZE[n, h] = sz
        o.append(f"theorem {n}.{h}.fixed : Fixed {n}.{h} {sz} := Fixed.congr (\n    {fchain([a for a, _ in ls])}) rfl")
    hyps = {}
    if isvec:
        vs = [s for s in r.de if s[2] == "vec"]; need(len(vs) == 1, n, "one vec")
        v = vs[0]; nested = counted(v[3][2])
        hyps[v[0]] = ("h.1", "h.2") if nested else ("h",)
        o.append(f"theorem {n}.reads (x : {n}) (h : decodable x) : Reads {n}.deserialize (wire x) x :=\n    {rchain([r_law(s, n, hyps) for s in r.de])}")
        o.append(f"theorem {n}.loc : Local {n}.deserialize :=\n    {lchain([l_law(s, 'Local') for s in r.de], 'Local')}")
        if n != "RecordSpecification":
            o.append(f"theorem {n}.under : OnlyUnderflow {n}.deserialize :=\n    {lchain([l_law(s, 'OnlyUnderflow') for s in r.de], 'OnlyUnderflow')}")
    else:
        o.append(f"theorem {n}.reads (x : {n}) : Reads {n}.deserialize (wire x) x :=\n    {rchain([r_law(s, n, hyps) for s in r.de])}")
        ls = [f_law(s, n) for s in r.de]; sz = sum(b for _, b in ls); SIZES[n] = sz
        o.append(f"theorem {n}.fixed : Fixed {n}.deserialize {sz} := Fixed.congr (\n    {fchain([a for a, _ in ls])}) rfl")
        o.append(f"theorem {n}.wire_length (x : {n}) : (wire x).length = {sz} := ({n}.reads x).length_eq {n}.fixed")
    if r.fs:
        if r.own:
            # list serializer of the blanket impl is putEach serialize_field, and the element's field impl is its serialize
            o.append(f"theorem {n}.serializeField_eq (x : {n}) : x.serializeField = x.serialize := rfl")
            o.append(f"theorem {n}.deserializeField_eq : {n}.deserializeField.run = {n}.deserialize.run := rfl")
        if n in SENT:
            o.append(f"instance : LawfulEnc {n} := ⟨fun x _ => {n}.writes x, fun x => ({n}.writes x).ifOk, fun x => by rw [{n}.wire_length]; rfl, fun x => ({n}.writes x).appends⟩")
        elif rse:
            f = [f for f, ty, _ in t.fields if "RecordSpecificationElement" in ty][0]
            o.append(f"instance : LawfulEnc {n} where\n  writes x h := {n}.writes x h\n  ok x := WritesIfOk.seq (writes_u32 _).ifOk (LawfulEnc.ok x.{f})\n  len x := by\n    have := LawfulEnc.len x.{f}\n    simp only [wire, List.length_append, octets_length, sent, field_len, surplus] at this ⊢\n    omega\n  appends x := Appends.seq (writes_u32 _).appends (LawfulEnc.appends x.{f})")
        elif isvec:
            f = vs[0][0]
            need(t.fields[-1][0] == f, n, "list last")
            rows = []; tot = 0
            for g, ty, _ in t.fields[:-1]:
                if ty in SIZE: sz = SIZE[ty]; pf = "octets_length _ _"
                elif ty in ENUMS: sz = ENUMS[ty]["get"]; pf = "octets_length _ _"
                else: sz = SIZES[ty]; pf = f"{ty}.wire_length _"
                rows.append(f"  have h_{g} : (wire x.{g}).length = {sz} := {pf}\n"); tot += sz
            o.append(f"theorem {n}.wire_length (x : {n}) : (wire x).length = {tot} + (wire x.{f}).length := by\n  show (" + " ++ (".join(f"wire x.{g}" for g, _, _ in t.fields) + ")" * len(t.fields) + ".length = _\n  simp only [List.length_append]\n" + "".join(rows) + "  omega")
            lst = f"field_len x.{f}"
            hl = f"len_exact x.{f}"
            if "self." + f + ".length" in parse_len(t, r.fl.body): lst = f"x.{f}.length"; hl = f"(wire_bytes x.{f} ▸ rfl : x.{f}.length = (wire x.{f}).length)"
            o.append(f"instance : LawfulEnc {n} where\n  writes x _ := {n}.writes x\n  ok x := ({n}.writes x).ifOk\n  len x := by\n    have h1 : field_len x = {tot} + {lst} := rfl\n    have h2 : {lst} = (wire x.{f}).length := {hl}\n    have h3 := {n}.wire_length x\n    show ((wire x).length : Int) = (field_len x : Nat) + 0\n    omega\n  appends x := ({n}.writes x).appends")
        else:
            o.append(f"instance : LawfulEnc {n} := ⟨fun x _ => {n}.writes x, fun x => ({n}.writes x).ifOk, fun x => by rw [show sent x = x from rfl, {n}.wire_length]; rfl, fun x => ({n}.writes x).appends⟩")
        if n not in SENT and not rse:
            o.append(f"instance : ExactEnc {n} := ⟨fun _ => trivial, fun _ => rfl, fun _ => rfl⟩")
        if isvec:
            o.append(f"instance : LawfulDec {n} := ⟨fun x h => {n}.reads x h⟩")
            o.append(f"instance : LocalDec {n} := ⟨{n}.loc⟩")
            if n != "RecordSpecification": o.append(f"instance : UnderflowDec {n} := ⟨{n}.under⟩")
        else:
            o.append(f"instance : LawfulDec {n} := ⟨fun x _ => {n}.reads x⟩")
            o.append(f"instance : ExactDec {n} := ⟨fun _ => trivial, fun _ => rfl⟩")
            o.append(f"instance : FixedDec {n} {SIZES[n]} := ⟨{n}.fixed⟩")
    return "\n".join(o) + "\n"

def used_enums():
    s = set()
    for n in T:
        for _, ty, _ in T[n].fields:
            for x in re.findall(r"\w+", ty):
                if x in ENUMS: s.add(x)
    return s

def main():
    order = topo()
    for n in order: RECS[n] = analyse(n)
    half = (len(order) + 1) // 2
    with open(BASE + "/Model/Records.lean", "w") as f:
        f.write("import Verif.Model.Irregular\n/- Generated by tools/gen_records.py from /repo/src/common/data_types. -/\nnamespace Dis\n\n")
        f.write("\n".join(model(RECS[n]) for n in order))
        f.write("\nend Dis\n")
    with open(BASE + "/Spec/RecordWire.lean", "w") as f:
        f.write("import Verif.Model.Records\nimport Verif.Spec.IrregularWire\n/-\nGenerated by tools/gen_records.py from the structure declarations in /repo/src/common/data_types:\na record's wire image is the concatenation of its fields' images in declaration order.\n-/\nnamespace Dis\n\n")
        f.write("\n".join(spec(RECS[n]) for n in order))
        f.write("\nend Dis\n")
    with open(BASE + "/Proofs/Records.lean", "w") as f:
        f.write("import Verif.Spec.RecordWire\nimport Verif.Proofs.Irregular\n/- Generated by tools/gen_records.py. -/\nset_option maxRecDepth 4000\nnamespace Dis\n\n")
        f.write("\n".join(proofs(RECS[n]) for n in order))
        f.write("\nend Dis\n")
    fx = [n for n in order if n in SIZES and n not in SENT]
    everything = sorted(n for n in T if n not in ("ModulationParameters", "AntennaPattern"))
    with open(BASE + "/Spec/RecordTable.lean", "w") as f:
        f.write(TABLE_HEAD)
        f.write("def fixedRecords : List RecordCodec := [\n  " + ",\n  ".join(
            f"⟨\"{n}\", {n}, {n}.serialize, {n}.deserialize, " + ("some field_len" if RECS[n].fl else "none") + (f", some {n}.LENGTH" if getattr(T[n], "length", None) else ", none") + f", wire, {SIZES[n]}⟩" for n in fx) + "]\n\n")
        f.write("/-- Every record type, with its serializer and its deserializer. -/\ndef allRecords : List RawCodec := [\n  " + ",\n  ".join(
            f"⟨\"{n}\", {n}, {n}.serialize, {n}.deserialize⟩" for n in everything) + "]\n\nend Dis\n")
    with open(BASE + "/Proofs/RecordTable.lean", "w") as f:
        f.write("import Verif.Spec.RecordTable\nimport Verif.Proofs.Records\n/- Generated by tools/gen_records.py. -/\nset_option maxRecDepth 4000\nnamespace Dis\n\n" + LAWFUL)
        def dl(n): return "fun _ h => (Option.some.inj h).symm" if getattr(T[n], "length", None) else "fun _ h => nomatch h"
        def fl(n): return f"fun x => some_len (fun x => len_exact (α := {n}) x) x" if RECS[n].fl else "fun _ _ h => nomatch h"
        f.write("theorem fixedRecords_lawful : ∀ r ∈ fixedRecords, r.Lawful := by\n  unfold fixedRecords\n")
        for n in fx:
            f.write(f"  refine List.forall_mem_cons.mpr ⟨⟨{n}.writes, {n}.wire_length, {n}.reads, {n}.fixed, ({fl(n)}), ({dl(n)})⟩, ?_⟩\n")
        f.write("  exact fun _ h => nomatch h\n\n")
        f.write("theorem allRecords_lawful : ∀ r ∈ allRecords, (∀ x, Appends (r.ser x)) ∧ Consumes r.de := by\n  unfold allRecords\n")
        for n in everything:
            if n in ("RecordSpecificationElement",): ap = f"{n}.appends x"
            elif n == "RecordSpecification": ap = "LawfulEnc.appends x"
            else: ap = f"({n}.writes x).appends"
            if n in SIZES: c = f"{n}.fixed.local.consumes"
            elif n in ("EntityMarking", "GridAxisDescriptor", "GridDataRecord"): c = f"{n}.consumes"
            else: c = f"{n}.loc.consumes"
            f.write(f"  refine List.forall_mem_cons.mpr ⟨⟨fun (x : {n}) => {ap}, {c}⟩, ?_⟩\n")
        f.write("  exact fun _ h => nomatch h\n\nend Dis\n")
    return order
if __name__ == "__main__":
    print(len(main()))
