"""Generates the 66 `define_pdu!` blocks of /repo/src as values of `Definition` (Model/CrateDefinitions.lean) and the proofs
that the structures of Model/Pdus1-4 with their code are what the macro makes of them (Proofs/CrateDefinitions<i>.lean)."""
import gen_pdus as Q
G, PD, BASE, ENUMS = Q.G, Q.PD, Q.BASE, Q.ENUMS

def fdef(q, f):
    name, ty, ln, _ = f
    if ln:
        ref = [g[0] for g in q.fields].index(ln)
        return f".ofLen {G.leanty(ty)} {ref}"
    if ty == "u8": return ".byte"
    return f".of {G.leanty(ty)}"

def model(q):
    n = q.name; o = []
    pc = dict(ENUMS["PduType"]["variants"])[q.pt]; fc = dict(ENUMS["ProtocolFamily"]["variants"])[q.fam]
    o.append(f"/-- {q.path}:{q.l0}-{q.l1}: one entry per field line ({', '.join(f[0] for f in q.fields)}) -/")
    o.append(f"def {n}.definition : Definition where\n  type := ⟨{pc}, by decide⟩\n  family := ⟨{fc}, by decide⟩")
    o.append("  fields := [" + ",\n    ".join(fdef(q, f) for f in q.fields) + "]")
    res = "⟨rfl, trivial⟩" if any(f[2] for f in q.fields) else "trivial"
    o.append(f"  resolved := {res}")
    o.append(f"/-- the structure of {q.path}:{q.l0}-{q.l1} from its fields in order -/")
    o.append(f"def {n}.ofFields : {n}.definition.Body → {n} :=\n  fun ({', '.join('x%d' % i for i in range(len(q.fields)))}, ()) => ⟨{', '.join('x%d' % i for i in range(len(q.fields)))}⟩")
    o.append(f"/-- the fields of {q.path}:{q.l0}-{q.l1} in order -/")
    o.append(f"def {n}.toFields (x : {n}) : {n}.definition.Body :=\n  ({', '.join('x.' + f[0] for f in q.fields)}, ())")
    return "\n".join(o) + "\n"

def proof(q):
    n = q.name
    return f"""theorem {n}.asDefined : AsDefined {n}.definition {n}.ofFields {n}.toFields where
  of_to _ := rfl
  to_of _ := rfl
  type := rfl
  family := rfl
  default := rfl
  len y := (Fields.len_eq _ y).trans rfl
  prep _ := rfl
  ser y := (Fields.ser_eq _ y).trans rfl
  de := (Fields.de_eq _ _ _).trans rfl
"""

def main():
    with open(f"{BASE}/Model/CrateDefinitions.lean", "w") as f:
        f.write("import Verif.Model.DefinePdu\nimport Verif.Model.PduKind\n/- Generated by tools/gen_definitions.py from the `define_pdu!` blocks of /repo/src. -/\nset_option maxRecDepth 4000\nnamespace Dis\n\n")
        for q in PD: f.write(model(q) + "\n")
        f.write("namespace PduKind\n")
        f.write("/-- the `define_pdu!` block of each kind (cited at the definitions above) -/\ndef definition : PduKind → Definition\n")
        for q in PD: f.write(f"  | .{q.kind} => {q.name}.definition\n")
        f.write("/-- the structure of each kind from its fields in order (cited above) -/\ndef ofFields : (k : PduKind) → k.definition.Body → k.Body\n")
        for q in PD: f.write(f"  | .{q.kind} => {q.name}.ofFields\n")
        f.write("/-- the fields of each kind in order (cited above) -/\ndef toFields : (k : PduKind) → k.Body → k.definition.Body\n")
        for q in PD: f.write(f"  | .{q.kind} => {q.name}.toFields\n")
        f.write("end PduKind\nend Dis\n")
    with open(f"{BASE}/Proofs/CrateDefinitions.lean", "w") as f:
        f.write("import Verif.Model.CrateDefinitions\nimport Verif.Proofs.DefinePdu\n/- Generated by tools/gen_definitions.py. -/\nset_option maxRecDepth 8000\nnamespace Dis\n\n")
        for q in PD: f.write(proof(q) + "\n")
        f.write("theorem PduKind.asDefined (k : PduKind) : AsDefined k.definition k.ofFields k.toFields := by\n  cases k\n")
        for q in PD: f.write(f"  · exact {q.name}.asDefined\n")
        f.write("end Dis\n")

if __name__ == "__main__": main()
