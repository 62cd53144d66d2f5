"""Generates lean/Verif/Model/Enums/*.lean from src/common/enums.rs."""
import os
from enumparse import parse_enums, PATH
OUT = os.path.join(os.path.dirname(os.path.abspath(__file__)), "..", "lean", "Verif", "Model", "Enums")
R = {1: "u8", 2: "u16", 4: "u32"}

def emit(E):
    o = []
    n = E["name"]; l = f"{PATH}:{E['l0']}-{E['l1']}"
    if not E["variants"]:
        o.append(f"/-- {l}: an enumeration without variants; {PATH}:{E['getl'][0]}-{E['getl'][1]}: `unimplemented!()`. -/")
        o.append(f"def {n}.deserialize : Get Empty := M.panic .unimplemented")
        return "\n".join(o) + "\n"
    vs = []; line = "   "
    for (v, d) in E["variants"]:
        t = f' ("{v}", {d}),'
        if len(line) + len(t) > 110: vs.append(line); line = "   "
        line += t
    vs.append(line.rstrip(","))
    vs[-1] = vs[-1].rstrip(",")
    o.append(f"/-- {l} (default variant `{E['default'][0]}`) -/")
    o.append(f"def {n}.spec : EnumSpec where\n  name := \"{n}\"\n  repr := .{R[E['get']]}\n  default := {E['default'][1]}\n  variants := [")
    o += vs
    o.append("  ]")
    o.append(f"/-- {l} -/\nabbrev {n} := EnumVal {n}.spec")
    o.append(f"/-- {PATH}:{E['getl'][0]}-{E['getl'][1]} -/\nabbrev {n}.deserialize : Get {n} := {n}.spec.deserialize")
    if E["put"] is not None:
        U = {1: "U8", 2: "U16", 4: "U32"}[E["put"]]
        o.append(f"/-- {PATH}:{E['putl'][0]}-{E['putl'][1]} -/\ninstance : FieldSerialize {n} := ⟨fun x => put{U} x.as{U}⟩")
        o.append(f"/-- {PATH}:{E['fd'][0]}-{E['fd'][1]} -/\ninstance : FieldDeserialize {n} := ⟨{n}.deserialize⟩")
        o.append(f"/-- {PATH}:{E['lenl'][0]}-{E['lenl'][1]} -/\ninstance : FieldLen {n} := ⟨fun _ => {E['len']}⟩")
    return "\n".join(o) + "\n"

def main():
    os.makedirs(OUT, exist_ok=True)
    for f in os.listdir(OUT): os.remove(os.path.join(OUT, f))
    E = list(parse_enums().values())
    parts = [[]]; cnt = 0
    for e in E:
        if cnt > 1100 and len(parts) < 12: parts.append([]); cnt = 0
        parts[-1].append(e); cnt += len(e["variants"])
    for i, p in enumerate(parts, 1):
        with open(os.path.join(OUT, f"Part{i}.lean"), "w") as f:
            f.write("import Verif.Model.EnumCore\n/- Generated by tools/gen_enums.py from /repo/src/common/enums.rs. -/\nset_option maxRecDepth 20000\nnamespace Dis\n\n")
            f.write("\n".join(emit(e) for e in p))
            f.write("\nend Dis\n")
    ne = [e for e in E if e["variants"]]
    with open(os.path.join(OUT, "All.lean"), "w") as f:
        for i in range(1, len(parts) + 1): f.write(f"import Verif.Model.Enums.Part{i}\n")
        f.write("/- Generated by tools/gen_enums.py. -/\nset_option maxRecDepth 20000\nnamespace Dis\n\n")
        f.write(f"/-- The {len(ne)} enumerations with variants of {PATH}, in source order. -/\ndef allEnums : List EnumSpec := [\n")
        f.write(",\n".join("  " + e["name"] + ".spec" for e in ne))
        f.write("]\n\n")
        tr = [e for e in ne if e["put"] is not None]
        f.write("/-- An enumeration together with its three field-trait implementations. -/\nstructure FieldEnum where\n  spec : EnumSpec\n  ser : EnumVal spec → Put\n  de : Get (EnumVal spec)\n  len : EnumVal spec → Nat\n\n")
        f.write("/-- Package the trait implementations found for an enumeration. -/\ndef FieldEnum.of (s : EnumSpec) [FieldSerialize (EnumVal s)] [FieldDeserialize (EnumVal s)] [FieldLen (EnumVal s)] : FieldEnum :=\n  ⟨s, serialize_field, deserialize_field, field_len⟩\n\n")
        f.write(f"/-- The {len(tr)} enumerations that implement the field traits (they are the ones usable as PDU fields). -/\n")
        f.write("def fieldEnums : List FieldEnum := [\n")
        f.write(",\n".join(f"  .of {e['name']}.spec" for e in tr))
        f.write("]\n\nend Dis\n")
    with open(os.path.join(OUT, "..", "..", "Proofs", "EnumLaws.lean"), "w") as f:
        f.write("import Verif.Model.Enums.All\nimport Verif.Proofs.Laws\n/- Generated by tools/gen_enums.py: every code fits its width (checked by the kernel on the whole\ntable), and the laws of the enumerations that implement the field traits. -/\nset_option maxRecDepth 20000\nnamespace Dis\n\nlocal macro \"enum_enc\" w:ident : term => `(⟨fun x _ => $w x rfl, fun x => ($w x rfl).ifOk, fun x => by\n  show ((octets _ x.code).length : Int) = _\n  rw [octets_length]; rfl, fun x => ($w x rfl).appends⟩)\n\n")
        for e in ne:
            f.write(f"instance : EnumFits {e['name']}.spec := .of_all (by decide +kernel)\n")
        f.write("\n")
        for e in tr:
            n = e["name"]; w = {1: 8, 2: 16, 4: 32}[e["put"]]
            f.write(f"instance : LawfulEnc {n} := enum_enc writes_enum{w}\n")
            f.write(f"instance : LawfulDec {n} := ⟨fun x _ => EnumSpec.reads x⟩\n")
            f.write(f"instance : FixedDec {n} {e['get']} := ⟨EnumSpec.fixed {n}.spec⟩\n")
        f.write("\nend Dis\n")
    return E
if __name__ == "__main__":
    main()
