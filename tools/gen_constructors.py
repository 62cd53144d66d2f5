"""Generates the model of the record constructors (`new`) of src/common/data_types, the table of those whose
arguments are all transmitted, and the proofs about that table.  Stops on anything it does not recognise."""
import re, os
from gen_records import T, leanty, lt, BASE, norm, need, KW
MODEL_ONLY = 'MODEL_ONLY' in os.environ
SKIP = {"Vector3Float"}   # in Model/Vector3.lean
LIT = r"0_?u(?:8|16|32)"
def q(n): return n + "_" if n in KW else n
model = []; table = []; arity = {}; other = []
for n, t in T.items():
    f = t.impls.get(None, {}).get("new")
    if not f: continue
    body = norm(f.body)
    ps = [tuple(x.strip() for x in p.split(":", 1)) for p in norm(f.params).split(", ") if p.strip(" ,")]
    ps = [(a, b.rstrip(",").strip()) for a, b in ps]
    names = [a for a, _ in ps]
    cite = f"{t.path}:{f.l0}-{f.l1}"
    sig = "".join(f" ({q(a)} : {lt(b)})" for a, b in ps)
    oct_ = []; plain = True
    if body == "Self::default()":
        rhs = "dflt"; need(not ps)
    else:
        m = re.fullmatch(r"Self \{ (.*?),? \}", body); need(m, n, body)
        parts = re.split(r", (?![^(\[]*[)\]])", m.group(1))
        need(len(parts) == len(t.fields), n, parts)
        got = {}
        for p in parts:
            mm = re.fullmatch(r"(\w+)(?:: (.*))?", p); need(mm, n, p)
            fld, e = mm.group(1), mm.group(2) or mm.group(1)
            if e in names: got[fld] = (q(e), f"wire {q(e)}")
            elif re.fullmatch(LIT, e): got[fld] = ("0", "octets %d 0" % {"8": 1, "16": 2, "32": 4}[re.search(r"u(\d+)", e).group(1)])
            elif e == "[0u8; 15]": got[fld] = (".replicate 15 0", "List.replicate 15 0")
            elif e == "vec![]": got[fld] = ("[]", "[]")
            elif re.fullmatch(r"\w+::default\(\)", e): got[fld] = ("dflt", None)
            else:
                mm = re.fullmatch(r"SimulationAddress::new\((\w+), (\w+)\)", e); need(mm, n, p)
                a, b = mm.groups(); need(a in names and b in names)
                got[fld] = (f".new {a} {b}", f"wire {a} ▹ wire {b}")
        fl = [x for x, _, _ in t.fields]
        need(set(got) == set(fl), n)
        rhs = "{ " + ", ".join(f"{x} := {got[x][0]}" for x in fl) + " }"
        oct_ = [got[x][1] for x in fl]
    if n not in SKIP:
        model.append((n, f"/-- {cite} -/\ndef {n}.new{sig} : {n} := {rhs}"))
    vec = any("Vec<" in b or b == "String" for _, b in ps) or n in ("GridAxisDescriptor", "GridDataRecord")
    if ps and not vec:
        # argument order is transmission order
        seen = re.findall(r"wire (\w+)", " ".join(oct_)); need(MODEL_ONLY or seen == [q(a) for a in names], n, "argument order", seen)
        tup = ", ".join(q(a) for a in names)
        ty = " × ".join(lt(b) for _, b in ps)
        pat = f"({tup})" if len(ps) > 1 else tup
        arity[n] = len(ps)
        table.append((n, f"  ⟨\"{n}\", {ty}, {n}, fun {pat} => .new {' '.join(q(a) for a in names)}, {n}.serialize, {n}.deserialize,\n    fun {pat} => {' ▹ '.join(oct_)}⟩"))
    else: other.append(n)
# SimulationAddress first
model.sort(key=lambda x: (x[0] != "SimulationAddress"))
with open(BASE + "/Model/Constructors.lean", "w") as f:
    f.write("import Verif.Model.Records\n/- Generated by tools/gen_constructors.py: the constructors of the records of /repo/src/common/data_types.\n(`Vector3Float::new` is in Verif.Model.Vector3.) -/\nnamespace Dis\n\n" + "\n".join(x for _, x in model) + "\n\nend Dis\n")
if MODEL_ONLY: raise SystemExit(0)   # rustmut.py: the tables stay as they are
with open(BASE + "/Spec/ConstructorTable.lean", "w") as f:
    f.write('''import Verif.Model.Constructors
import Verif.Model.Vector3
import Verif.Spec.RecordWire
/-
Generated by tools/gen_constructors.py: the record constructors that take their whole content from arguments
of fixed size, with the octets a record made from these arguments is expected to have: the arguments in order,
zeros for the fields that are not arguments.
-/
namespace Dis

structure Constructor where
  name : String
  Args : Type
  Val : Type
  make : Args → Val
  ser : Val → Put
  de : Get Val
  octets : Args → Bytes

def constructors : List Constructor := [
''' + ",\n".join(x for _, x in table) + "]\n\nend Dis\n")
with open(BASE + "/Proofs/ConstructorTable.lean", "w") as f:
    f.write('''import Verif.Spec.ConstructorTable
import Verif.Proofs.Records
/- Generated by tools/gen_constructors.py. -/
set_option maxRecDepth 4000
namespace Dis

theorem made {α : Type} {p : Put} {g : Get α} {w w' : Bytes} {x : α} (h1 : Writes p w) (h2 : Reads g w x)
    (h : w = w') : Writes p w' ∧ Reads g w' x := h ▸ ⟨h1, h2⟩

theorem constructors_lawful : ∀ c ∈ constructors, ∀ a : c.Args,
    Writes (c.ser (c.make a)) (c.octets a) ∧ Reads c.de (c.octets a) (c.make a) := by
  unfold constructors
''')
    for n, _ in table:
        vs = ", ".join(f"a{i}" for i in range(arity[n])); w = " ".join(f"a{i}" for i in range(arity[n]))
        eq = "rfl" if n not in ("EntityId", "EventId", "DeadReckoningParameters") else f"by simp [wire, {n}.new, SimulationAddress.new, sent] <;> rfl"
        f.write(f"  refine List.forall_mem_cons.mpr ⟨fun ⟨{vs}⟩ => made ({n}.writes ({n}.new {w})) ({n}.reads ({n}.new {w})) ({eq}), ?_⟩\n")
    f.write("  exact fun _ h => nomatch h\n\nend Dis\n")
print(len(model), len(table), other)
