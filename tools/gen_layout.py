#!/usr/bin/env python3
"""Generates the layout tables (Spec/RecordLayout, Spec/PduLayout*) and their proofs (Proofs/LayoutRecords,
Proofs/LayoutPdus*)."""
import io, contextlib, re
with contextlib.redirect_stdout(io.StringIO()):
    import gen_pdus as P
import gen_records as G
BASE = G.BASE
ENUMS, T, RECS, SIZES = G.ENUMS, G.T, G.RECS, G.SIZES
FLAGB = {"FrozenBehavior": "[0, 1, 2]", "ObjectStateAppearanceGeneral": "[0, 8, 10, 11, 12, 13, 14]"}
ZEROED = {("DeadReckoningParameters", "dead_reckoning_other_parameters"), ("SimulationIdentifier", "reference_number")}
HEADS = {"EntityMarking": [("entity_marking_character_set", "EntityMarkingCharacterSet")],
         "VariableDatumRecord": [("datum_id", "u32"), ("length_bits", "u32")],
         "RecordSpecificationElement": [("record_id", "u32"), ("record_set_serial_number", "u32"), ("record_length", "u16"), ("record_count", "u16")],
         }
def arr(ty): return re.fullmatch(r"\[(\w+); (\d+)\]", ty)
def size(ty):
    """size in octets, or None when not fixed"""
    if ty in G.SIZE: return G.SIZE[ty]
    if ty in ENUMS: return ENUMS[ty]["get"]
    if ty in G.FLAGS: return G.FLAGS[ty]
    m = arr(ty)
    if m: return int(m.group(2))
    return SIZES.get(ty)
def islist(ty): return ty.startswith(("Vec<", "Option<"))
def rows(ty, off, path, zero=False):
    """explicit table rows of a field of type ty at offset off"""
    f = "(·" + path + ")" if path else "id"
    z = ".zeroed" if zero else ""
    def w(s): return f"({s}).zeroed" if zero else s
    if ty in G.SIZE: return [w(f"Slot.{ty} {off} {f}")]
    if ty in ENUMS: return [w(f"Slot.enum {off} {ENUMS[ty]['get']} {f}")]
    if ty in FLAGB: return [w(f"Slot.flags {off} {G.FLAGS[ty]} {FLAGB[ty]} (·{path}.bits.toNat)")]
    m = arr(ty)
    if m: return [w(f"Slot.{'octets' if m.group(1) == 'u8' else 'signedOctets'} {off} {m.group(2)} {f}")]
    out = []
    for g, gt in fields(ty):
        out += rows(gt, off, path + "." + g, (ty, g) in ZEROED)
        s = size(gt)
        if s is None: break
        off += s
    return out
def fields(n):
    """the fields of a record up to (excluding) the first list"""
    if n in HEADS: return HEADS[n]
    out = []
    for f, ty, _ in T[n].fields:
        if islist(ty): break
        out.append((f, ty))
    return out
def leaf(ty, zero=False):
    if ty in G.SIZE: s = f"[Slot.{ty} 0 id]"
    elif ty in ENUMS: s = f"[Slot.enum 0 {ENUMS[ty]['get']} id]"
    elif arr(ty):
        m = arr(ty); s = f"[Slot.{'octets' if m.group(1) == 'u8' else 'signedOctets'} 0 {m.group(2)} id]"
    else: s = f"{ty}.slots"
    if zero: s = s[:1] + "(" + s[1:-1] + ").zeroed]"
    return s
def wlaw(n, f, ty):
    if (n, f) in ZEROED: return f"written_zeroed{'_octets' if arr(ty) else '_u16'} x.{f}"
    if ty in G.SIZE: return f"written_{ty} x.{f}"
    if ty in ENUMS: return f"written_enum rfl x.{f}"
    if arr(ty): return f"written_{'octets' if arr(ty).group(1) == 'u8' else 'signedOctets'} x.{f}"
    return f"{ty}.written x.{f}"
def wlen(n, f, ty):
    if ty in G.SIZE or ty in ENUMS or ty in FLAGB: return "octets_length _ _"
    if arr(ty): return f"arr_wire_length{'' if arr(ty).group(1) == 'u8' else '_i8'} _"
    return f"{ty}.wire_length _"
def flaw(n, f, ty):
    if ty in G.SIZE: r = f"finds_{ty}"
    elif ty in ENUMS: r = "EnumSpec.finds _ rfl"
    elif arr(ty): r = f"finds_{'octets' if arr(ty).group(1) == 'u8' else 'signedOctets'} _"
    else: r = f"{ty}.finds"
    return f"Finds.zeroed ({r})" if (n, f) in ZEROED else r
def fixlaw(ty):
    if ty in G.SIZE: return f"fixed_{ty}"
    if ty in ENUMS: return "EnumSpec.fixed _"
    if arr(ty): return f"Fixed.arr fixed_{arr(ty).group(1)} {arr(ty).group(2)}"
    if ty in FLAGB: return "FixedDec.fixed"
    return f"{ty}.fixed"
def agree(ty):
    if ty in G.SIZE: return f"agree_{ty}"
    if ty in ENUMS: return "agree_enum"
    if arr(ty): return f"agree_{'octets' if arr(ty).group(1) == 'u8' else 'signedOctets'}"
    return f"{ty}.agree"

def slots(n, fs):
    s = "[]"
    for f, ty in reversed(fs):
        k = size(ty)
        s = f"Slot.cons (·.{f}) {leaf(ty, (n, f) in ZEROED)} {k if k is not None else 0} <|\n  {s}"
    return f"def {n}.slots : List (Slot {n}) :=\n  {s}"

def written(n, fs, rest, arg):
    """rest: are there fields after fs?"""
    def go(i):
        f, ty = fs[i]; last = i == len(fs) - 1
        if size(ty) is None:
            assert last; return f"Written.head ({wlaw(n, f, ty)})" if rest else f"Written.only ({wlaw(n, f, ty)})"
        if last and not rest: return f"Written.last ({wlaw(n, f, ty)})"
        nxt = "Written.nil _ _" if last else go(i + 1)
        return f"Written.cons ({wlaw(n, f, ty)}) ({wlen(n, f, ty)}) <|\n    {nxt}"
    return f"theorem {n}.written (x : {n}) : Written {n}.slots x (wire (sent x)) :=\n    {go(0)}"

def finds(n, fs, nrest, de, name=None):
    """nrest: decoder steps after those of fs"""
    c = "trivial"
    for _ in fs: c = f"⟨{c}, rfl⟩"
    s = f"FindsAt.ret {c}"
    for _ in range(nrest): s = f"FindsAt.skip fun _ =>\n    {s}"
    for f, ty in reversed(fs):
        if size(ty) is None: s = f"FindsAt.head (π := fun x : {n} => x.{f}) ({flaw(n, f, ty)}) fun _ =>\n    {s}"
        else: s = f"FindsAt.cons (π := fun x : {n} => x.{f}) ({fixlaw(ty)}) ({flaw(n, f, ty)}) fun _ =>\n    {s}"
    return f"theorem {name or n + '.finds'} : Finds {de} (ReadFrom {n}.slots) := FindsAt.finds <|\n    {s}"

def agreethm(n, fs):
    o = [f"theorem {n}.agree {{x y : {n}}} (h : Agree {n}.slots x y) : x = y := by", "  have h0 := h"]
    for i, (f, ty) in enumerate(fs):
        l = f"(Agree.left h{i})"
        if (n, f) in ZEROED: l = f"(agree_zeroed {l})"
        o.append(f"  have e{i} : x.{f} = y.{f} := {agree(ty)} {l}")
        if i < len(fs) - 1: o.append(f"  have h{i+1} := Agree.right h{i}")
    o.append("  cases x; cases y")
    o.append("  dsimp only at " + " ".join(f"e{i}" for i in range(len(fs))))
    o.append("  subst " + " ".join(f"e{i}" for i in range(len(fs))))
    o.append("  rfl")
    return "\n".join(o)

order = [n for n in G.topo() if n != "VariableTransmitterParameters"]
def recdecl(n):
    r = RECS[n]; fs = fields(n); allf = [f for f, _, _ in T[n].fields]
    o = [slots(n, fs)]
    o.append(written(n, fs, len(fs) < len(allf), None))
    # decoder steps
    v2f = {v: f for f, v in r.order}
    assert [v2f[s[0]] for s in r.de][:len(fs)] == [f for f, _ in fs], n
    for h in r.helpers:
        fn = T[n].impls[None][h]
        st, od = G.parse_de(T[n], fn.body)
        o.append(finds(fn.ret, fields(fn.ret), 0, f"{n}.{h}", f"{n}.{h}.finds"))
    # helper steps use the helper's law
    global flaw, fixlaw
    of, ox = flaw, fixlaw
    hl = {v2f[s[0]]: s[3] for s in r.de if s[2] == "helper"}
    body = finds(n, fs, len(allf) - len(fs), f"{n}.deserialize")
    for f, h in hl.items():
        ty = dict(fs)[f]
        body = body.replace(f"FindsAt.cons (π := fun x : {n} => x.{f}) ({ty}.fixed) ({ty}.finds)", f"FindsAt.cons (π := fun x : {n} => x.{f}) ({n}.{h}.fixed) ({n}.{h}.finds)")
    o.append(body)
    if n in SIZES: o.append(agreethm(n, fs))
    return "\n".join(o) + "\n"

def table(name, n, rs, doc):
    return f"/-- {doc} -/\ndef {name} : List (Slot {n}) := [\n  " + ",\n  ".join(rs) + "]\n"

def pdufields(q):
    out = []
    for f, ty, ln, _ in q.fields:
        if islist(ty) or ln: break
        out.append((f, ty))
        if size(ty) is None: break
    return out

def elems(q):
    """(field, element type, start as linear form (const, [(coef, field)]), skips, kind, last) per list with known positions"""
    out = []; const = 12; lens = []; skips = []
    nf = len(q.fields); heads = len(pdufields(q))
    for j, (f, ty, ln, _) in enumerate(q.fields):
        last = j == nf - 1
        m = re.fullmatch(r"Vec<(\w+)>", ty)
        if ln: break
        if m:
            e = m.group(1)
            if e == "VariableDatumRecord":
                out.append((f, e, const, list(lens), list(skips), "vdr", last)); break
            n = size(e)
            if n is None: break
            out.append((f, e, const, list(lens), list(skips), "list", last, n))
            lens.append((n, f)); skips.append((f"{n} * x.{f}.length", f"flatMap_len (enc := wire) ({elen(e)}) x.{f}"))
        elif islist(ty): break
        else:
            if ty == "EntityMarking":
                const += 1; lens.append((1, "strBytes x.entity_marking.entity_marking_string"))
                skips.append(("1 + (strBytes x.entity_marking.entity_marking_string).length", "EntityMarking.wire_length x.entity_marking")); continue
            n = size(ty)
            if n is None: break
            if j >= heads: out.append((f, ty, const, list(lens), list(skips), "one", last))
            const += n; skips.append((n, wlen(q.name, f, ty)))
    return out
def elen(e):
    if e in G.SIZE or e in ENUMS: return "fun _ => octets_length _ _"
    return f"{e}.wire_length"
def eslots(e):
    return leaf(e)
def elayout(e):
    return leaf(e) if (e in G.SIZE or e in ENUMS) else f"{e}.layout"
def ewritten(e):
    if e in G.SIZE: return f"written_{e}"
    if e in ENUMS: return "written_enum rfl"
    return f"{e}.written"
def lean_ty(e): return G.LTY[e] if e in getattr(G, "LTY", {}) else {"u8": "UInt8", "u16": "UInt16", "u32": "UInt32", "u64": "UInt64"}.get(e, e)
def startexpr(const, lens):
    s = str(const)
    for c, f in lens:
        v = f"({f}).length" if f.startswith("strBytes") else f"x.{f}.length"
        s += f" + {v}" if c == 1 else f" + {c} * {v}"
    return s
def gen_elements():
    rows_ = []
    with open(f"{BASE}/Spec/PduElements.lean", "w") as f:
        f.write("import Verif.Spec.PduLayout\nimport Verif.Spec.RecordLayout\nimport Verif.Spec.Elements\n/-\nPlaces of the list elements, and of single fields after a list or text, by kind.  Drafted by\ntools/gen_layout.py from the field lists and read through by hand.\n-/\nnamespace Dis\n\ndef PduKind.elements : (k : PduKind) → List (Elements k.Body)\n")
        for q in P.PD:
            es = elems(q)
            if not es: continue
            rs = []
            for e in es:
                fld, ty, const, lens, skips, kind = e[:6]
                st = startexpr(const, lens); xv = "x" if "x." in st else "_"
                T_ = lean_ty(ty)
                if kind == "list":
                    n = e[7]; step = "i" if n == 1 else f"{n} * i"
                    rs.append(f"⟨{T_}, (·.{fld}), fun {xv} i => {st} + {step}, {elayout(ty)}⟩")
                elif kind == "vdr":
                    rs.append(f"⟨{T_}, (·.{fld}), fun x i => {st} + VariableDatumRecord.octetsOf (x.{fld}.take i), {elayout(ty)}⟩")
                else:
                    rs.append(f"⟨{T_}, fun x => [x.{fld}], fun {xv} _ => {st}, {elayout(ty)}⟩")
            f.write(f"  | .{q.kind} => [\n      " + ",\n      ".join(rs) + "]\n")
            rows_.append((q, es))
        f.write("  | _ => []\n\nend Dis\n")
    with open(f"{BASE}/Proofs/ElementsPdus.lean", "w") as f:
        f.write("import Verif.Spec.PduElements\nimport Verif.Proofs.Elements\nimport Verif.Proofs.LayoutRecords\nimport Verif.Proofs.Pdus1\nimport Verif.Proofs.Pdus2\nimport Verif.Proofs.Pdus3\nimport Verif.Proofs.Pdus4\n/- Generated by tools/gen_layout.py. -/\nset_option maxRecDepth 8000\nset_option linter.unusedSimpArgs false\nnamespace Dis\n\n")
        for q, es in rows_:
            for j, e in enumerate(es):
                fld, ty, const, lens, skips, kind, last = e[:7]
                if kind == "vdr": core = f"VariableDatumRecord.items x.{fld}"
                elif kind == "one": core = f"ItemsAt.one (S := {eslots(ty)}) ({ewritten(ty)} x.{fld})"
                else: core = f"ItemsAt.{'last' if last else 'here'} (S := {eslots(ty)}) (enc := wire) (n := {e[7]}) ({elen(ty)}) ({ewritten(ty)})"
                t = core
                for k in reversed(skips): t = f"ItemsAt.skip (a := {k[0]}) ({k[1]}) <|\n    {t}"
                its = f"[x.{fld}]" if kind == "one" else f"x.{fld}"
                st = startexpr(const, lens)
                n = e[7] if kind == "list" else 0
                st += (" + i" if n == 1 else f" + {n} * i") if kind == "list" else f" + VariableDatumRecord.octetsOf (x.{fld}.take i)" if kind == "vdr" else ""
                f.write(f"theorem {q.name}.placed_{fld} (x : {q.name}) (hd : Bytes) (hh : hd.length = 12) :\n    ItemsAt {elayout(ty)} {its} (hd ++ wire (sent x)) (fun {'_' if kind == 'one' else 'i'} => {st}) :=\n  ItemsAt.at (ItemsAt.skip hh <|\n    {t}) (fun i => by simp only [← Nat.add_assoc, Nat.reduceAdd, Nat.one_mul] <;> omega)\n")
            f.write(f"theorem {q.name}.placed (x : {q.name}) (hd : Bytes) (hh : hd.length = 12) :\n    ∀ t ∈ PduKind.elements .{q.kind}, t.Placed x (hd ++ wire (sent x)) := by\n  show ∀ t ∈ [_" + ", _" * (len(es) - 1) + "], _\n")
            for e in es:
                f.write(f"  refine List.forall_mem_cons.mpr ⟨{q.name}.placed_{e[0]} x hd hh, ?_⟩\n")
            f.write("  exact fun _ h => nomatch h\n\n")
        f.write("theorem PduKind.placed : (k : PduKind) → ∀ (x : k.Body) (hd : Bytes), hd.length = 12 →\n    ∀ t ∈ k.elements, t.Placed x (hd ++ wire (sent x))\n")
        with_ = {q.kind for q, _ in rows_}
        for q in P.PD:
            f.write(f"  | .{q.kind} => " + (f"{q.name}.placed" if q.kind in with_ else "fun _ _ _ _ h => nomatch h") + "\n")
        f.write("\nend Dis\n")
def gen_message():
    """Proofs/MessagePdus: the end of every message is Spec/Message's `rest`."""
    have = {"TrackJamTarget"}
    o = []
    def spelt(e):
        if e in G.SIZE: return f"spelt_{e}s"
        if e in ENUMS: return f"spelt_enums (s := {e}.spec) (n := {size(e)}) rfl"
        if e in ("VariableDatumRecord", "RecordSpecificationElement", "GridDataRecord"): return f"spelt_sent {e}.spelt"
        return f"spelt_list {e}.spelt"
    def need(e):
        if e in SIZES and e not in have:
            have.add(e)
            o.append(f"theorem {e}.spelt (x : {e}) : Field.octetsOf (fieldsOf {e}.layout x) = wire x :=\n  spelt_fixed (T := {e}.layout) (n := {SIZES[e]}) (by decide) ({e}.written x) ({e}.wire_length x)\n")
    SPEC = {"RecordSpecification": ("4", "RecordSpecificationElement"), "StandardVariableSpecification": ("2", "StandardVariableRecords")}
    total = {}
    for q in P.PD:
        fs = pdufields(q); n = q.name; skips = []; lems = []
        tot = 12
        i = 0
        for i, (f, ty) in enumerate(fs):
            if ty in SPEC:
                skips.append((SPEC[ty][0], "octets_length _ _")); tot += int(SPEC[ty][0]); continue
            if ty == "EntityMarking":
                tot += 1; skips.append(("1", "into")); continue
            skips.append((size(ty), wlen(n, f, ty))); tot += size(ty)
        tailf = q.fields[len(fs):]
        total[q.kind] = tot
        ems = any(ty == "EntityMarking" for _, ty in fs)
        specs = [ty for _, ty in fs if ty in SPEC]
        if not tailf and not specs and not ems:
            body = f"EndsIn.last ({skips[-1][1]})"
            for k in reversed(skips[:-1]): body = f"EndsIn.skip (a := {k[0]}) ({k[1]}) <|\n    {body}"
            rest = "[]"
            o.append(f"theorem {n}.ends (x : {n}) : EndsIn (wire (sent x)) {tot - 12} [] :=\n    {body}\n")
            continue
        for f, ty, ln, _ in tailf:
            m = re.fullmatch(r"Vec<(\w+)>", ty); m2 = re.fullmatch(r"Vec<Option<(.+)>>", ty); m3 = re.fullmatch(r"Option<(\w+)>", ty)
            if m:
                need(m.group(1)); lems.append(spelt(m.group(1)))
            elif m2:
                e = m2.group(1)
                if e.startswith("Vec"):
                    e = e[4:-1]; need(e); lems.append(f"spelt_present (spelt_list {e}.spelt)")
                else:
                    need(e)
                    lems.append(f"spelt_present_{e}" if e in G.SIZE else f"spelt_present {e}.spelt")
            elif m3: lems.append(f"spelt_present (α := {m3.group(1)}) (fun v => (spelt_u8s v.record_specific_fields :))")
        for ty in specs: lems.append(spelt(SPEC[ty][1]))
        if ems: lems += ["spelt_u8s", "flatMap_wire_u8", "List.nil_append"]
        if n == "TransmitterPdu": lems += ["List.flatMap_cons", "List.flatMap_nil", "List.append_nil"]
        lems = list(dict.fromkeys(lems))
        r = f"{n}.rest"
        isd = any(f == "fixed_datum_records" for f, *_ in tailf)
        rest = f"datums x.fixed_datum_records x.variable_datum_records" if isd else f"x.rest"
        t = f"EndsIn.here (by\n      simp only [{'datums' if isd else n + '.rest'}, octetsOf_append, octetsOf_cons, octetsOf_nil, List.append_assoc, {', '.join(lems)}]\n      rfl)"
        for k in reversed(skips): t = f"EndsIn.skip (a := {k[0]}) ({k[1]}) <|\n    {t}" if k[1] != "into" else f"EndsIn.into (a := 1) (octets_length _ _) <|\n    {t}"
        o.append(f"theorem {n}.ends (x : {n}) : EndsIn (wire (sent x)) {tot - 12} ({rest}) :=\n    {t}\n")
    with open(f"{BASE}/Proofs/MessagePdus.lean", "w") as f:
        f.write("import Verif.Proofs.Message\nimport Verif.Proofs.Pdus1\nimport Verif.Proofs.Pdus2\nimport Verif.Proofs.Pdus3\nimport Verif.Proofs.Pdus4\n/- Generated by tools/gen_layout.py. -/\nset_option maxRecDepth 8000\nset_option linter.unusedSimpArgs false\nnamespace Dis\n\n")
        f.write("\n".join(o))
        f.write("\n/-- octets of the part of a message in the layout table -/\ndef PduKind.headOctets : PduKind → Nat\n" + "".join(f"  | .{q.kind} => {total[q.kind] - 12}\n" for q in P.PD))
        f.write("theorem PduKind.ends : (k : PduKind) → ∀ x : k.Body, EndsIn (wire (sent x)) k.headOctets (k.rest x)\n" + "".join(f"  | .{q.kind} => {q.name}.ends\n" for q in P.PD))
        f.write("\nend Dis\n")
def main():
    fx = [n for n in order if n in SIZES]
    hd = [n for n in order if n not in SIZES and fields(n)]
    with open(BASE + "/Spec/RecordLayout.lean", "w") as f:
        f.write("import Verif.Model.Records\nimport Verif.Spec.Layout\n/-\nLayout tables of the records of src/common/data_types.  Drafted by tools/gen_layout.py from the structure\ndeclarations and read through by hand (the text of IEEE 1278.1 is not in the sandbox).\n-/\nnamespace Dis\n\n")
        for n in order:
            t = T[n]
            if fields(n):
                f.write(table(f"{n}.layout", n, [x for x in rows(n, 0, "")], f"{t.path}:{t.l0}-{t.l1}" + ("" if n in SIZES else " (up to the list)")) + "\n")
        for n in HEADS:
            t = T[n]
            f.write(table(f"{n}.layout", n, rows(n, 0, ""), f"{t.path}:{t.l0}-{t.l1} (the fixed part)") + "\n")
        f.write("""/-- A record type with its serializer and deserializer, and the layout of its fixed part. -/
structure LaidOut where
  name : String
  Val : Type
  ser : Val → Put
  de : Get Val
  layout : List (Slot Val)
  octets : Nat

/-- Records with a fixed number of octets. -/
def fixedLayouts : List LaidOut := [
""")
        f.write(",\n".join(f"  ⟨\"{n}\", {n}, {n}.serialize, {n}.deserialize, {n}.layout, {SIZES[n]}⟩" for n in fx) + "]\n\n")
        f.write("/-- Records that end in a list or text: the layout of what comes before it. -/\ndef headLayouts : List LaidOut := [\n")
        f.write(",\n".join(f"  ⟨\"{n}\", {n}, {n}.serialize, {n}.deserialize, {n}.layout, {sum(size(ty) for _, ty in fields(n))}⟩" for n in hd + list(HEADS)) + "]\n\nend Dis\n")
    with open(BASE + "/Proofs/LayoutRecords.lean", "w") as f:
        f.write("import Verif.Spec.RecordLayout\nimport Verif.Proofs.Layout\nimport Verif.Proofs.LayoutHeads\n/- Generated by tools/gen_layout.py. -/\nset_option maxRecDepth 4000\nnamespace Dis\n\n")
        f.write("\n".join(recdecl(n) for n in order if fields(n)))
        f.write("\ntheorem fixedLayouts_lawful : ∀ r ∈ fixedLayouts, r.Lawful ∧ r.Whole := by\n  unfold fixedLayouts\n")
        for n in fx:
            f.write(f"  refine List.forall_mem_cons.mpr ⟨⟨LaidOut.lawful _ {n}.slots rfl (fun x => ⟨_, ({n}.writes x).ifOk, {n}.written x⟩) {n}.finds (by decide), ⟨{n}.wire_length, fun x => ({n}.writes x).ifOk, {n}.fixed⟩, fun _ _ h => {n}.agree h⟩, ?_⟩\n".replace(f"⟨{n}.wire_length, fun x => ({n}.writes x).ifOk, {n}.fixed⟩, fun _ _ h => {n}.agree h⟩", f"LaidOut.whole _ {n}.fixed (fun _ _ h => {n}.agree h)⟩"))
        f.write("  exact fun _ h => nomatch h\n\n")
        f.write("theorem headLayouts_lawful : ∀ r ∈ headLayouts, r.Lawful := by\n  unfold headLayouts\n")
        for n in hd + list(HEADS):
            w = f"{n}.ifOk x" if n == "RecordSpecificationElement" else "LawfulEnc.ok x" if n == "RecordSpecification" else f"({n}.writes x).ifOk"
            f.write(f"  refine List.forall_mem_cons.mpr ⟨LaidOut.lawful _ {n}.slots rfl (fun x => ⟨_, {w}, {n}.written x⟩) {n}.finds (by decide), ?_⟩\n")
        f.write("  exact fun _ h => nomatch h\n\nend Dis\n")
    bounds = [0, 16, 33, 50, 66]
    for i in range(4):
        ps = P.PD[bounds[i]:bounds[i + 1]]
        with open(f"{BASE}/Spec/PduLayout{i+1}.lean", "w") as f:
            f.write(f"import Verif.Model.Pdus{i+1}\nimport Verif.Spec.Layout\n/-\nLayout tables of the PDU kinds: the octets, counted from the beginning of the message (the header occupies\noctets 0 to 11), of every field up to the first list.  Drafted by tools/gen_layout.py from the field\nlists and read through by hand; the totals are compared with those of IEEE 1278.1 in C48_complete.  Known\ndeviations of the crate from the standard are listed in DESIGN.md.\n-/\nset_option maxRecDepth 4000\nnamespace Dis\n\n")
            for q in ps:
                rs = []; off = 12
                for fn, ty in pdufields(q):
                    rs += rows(ty, off, "." + fn)
                    off += size(ty) or 0
                f.write(table(f"{q.name}.layout", q.name, rs, f"{q.path}:{q.l0}-{q.l1}") + "\n")
            f.write("end Dis\n")
        with open(f"{BASE}/Proofs/LayoutPdus{i+1}.lean", "w") as f:
            f.write(f"import Verif.Spec.PduLayout{i+1}\nimport Verif.Proofs.LayoutRecords\nimport Verif.Proofs.Pdus{i+1}\n/- Generated by tools/gen_layout.py. -/\nset_option maxRecDepth 8000\nnamespace Dis\n\n")
            for q in ps:
                n = q.name; fs = pdufields(q)
                f.write(slots(n, fs) + "\n")
                f.write(f"theorem {n}.layout_eq : {n}.layout = {n}.slots.map (Slot.shift 12) := (rfl)\n")
                f.write(written(n, fs, len(fs) < len(q.fields), None) + "\n")
                f.write(finds(n, fs, len(q.fields) - len(fs), f"{n}.deserializeBody") + "\n")
                if q.layout or (len(fs) == len(q.fields) and all(size(ty) for _, ty in fs)): f.write(agreethm(n, fs) + "\n"); q.agree = True
                else: q.agree = False
                f.write("\n")
            f.write("end Dis\n")
    with open(f"{BASE}/Spec/PduLayout.lean", "w") as f:
        f.write("import Verif.Spec.PduLayout1\nimport Verif.Spec.PduLayout2\nimport Verif.Spec.PduLayout3\nimport Verif.Spec.PduLayout4\nimport Verif.Model.PduKind\n/- The layout tables by kind. -/\nnamespace Dis\n\n/-- The layout table of the kind. -/\ndef PduKind.layoutTable : (k : PduKind) → List (Slot k.Body)\n")
        f.write("".join(f"  | .{q.kind} => {q.name}.layout\n" for q in P.PD) + "\nend Dis\n")
    with open(f"{BASE}/Proofs/LayoutKinds.lean", "w") as f:
        f.write("import Verif.Spec.PduLayout\nimport Verif.Spec.PduKindWire\nimport Verif.Proofs.LayoutPdus1\nimport Verif.Proofs.LayoutPdus2\nimport Verif.Proofs.LayoutPdus3\nimport Verif.Proofs.LayoutPdus4\n/- Generated by tools/gen_layout.py. -/\nset_option maxRecDepth 8000\nnamespace Dis\n\n")
        f.write("def PduKind.slots : (k : PduKind) → List (Slot k.Body)\n" + "".join(f"  | .{q.kind} => {q.name}.slots\n" for q in P.PD))
        f.write("theorem PduKind.layout_eq : (k : PduKind) → k.layoutTable = k.slots.map (Slot.shift 12)\n" + "".join(f"  | .{q.kind} => {q.name}.layout_eq\n" for q in P.PD))
        f.write("theorem PduKind.written : (k : PduKind) → ∀ x : k.Body, Written k.slots x (wire (sent x))\n" + "".join(f"  | .{q.kind} => {q.name}.written\n" for q in P.PD))
        f.write("theorem PduKind.finds : (k : PduKind) → Finds (PduBody.deserializeBody : Get k.Body) (ReadFrom k.slots)\n" + "".join(f"  | .{q.kind} => {q.name}.finds\n" for q in P.PD))
        f.write("theorem PduKind.agree : (k : PduKind) → k.variableDecoder = false → k.noLists = true → ∀ x y : k.Body, Agree k.slots x y → x = y\n".replace("k.variableDecoder = false → k.noLists = true", "k.fixedLayout = true") + "".join(f"  | .{q.kind}, {'_' if q.agree else 'h'} => " + (f"fun _ _ h => {q.name}.agree h" if q.agree else "nomatch h") + "\n" for q in P.PD))
        f.write("\nend Dis\n")
    gen_elements()
    gen_message()
    ag = [q for q in P.PD if q.agree]
    print(len(fx), len(hd), len(ag), [q.name for q in P.PD if q.agree and not q.layout])
    return ag
if __name__ == "__main__":
    main()
