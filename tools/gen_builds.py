#!/usr/bin/env python3
"""Generates lean/Verif/Proofs/BuildsRecords.lean and BuildsPdus.lean: the instances of Builds for every record,
enumeration and PDU body of the model (read from lean/Verif/Model).  Run from tools/."""
import re, glob
M = "../lean/Verif/Model/"
SETS = {"RecordSpecificationElement", "RecordSpecification", "TransferOwnershipPdu", "SetRecordReliablePdu"}
HEAD = "/- Generated by tools/gen_builds.py. -/\nset_option synthInstance.maxSize 1000\nset_option synthInstance.maxHeartbeats 400000\nset_option maxRecDepth 4000\nnamespace Dis\nvariable {exact : Bool}\n"
def src(p): return open(p).read()
def ex(T): return "false" if T in SETS else "exact"
out = ["import Verif.Proofs.Builds\n" + HEAD]
for t in ("U8","U16","U32","U64","I8","I16","I32","I64","F32","F64"):
    out.append(f"instance : Builds exact get{t} := by unfold get{t}; infer_instance\ninstance (x) : Builds exact (put{t} x) := by unfold put{t}; infer_instance")
out.append("instance (s : EnumSpec) : Builds exact s.deserialize := by unfold EnumSpec.deserialize; cases s.repr <;> infer_instance")
for T, S in [("UInt8","U8"),("UInt16","U16"),("UInt32","U32"),("UInt64","U64"),("Int8","I8"),("Int16","I16"),("Int32","I32"),("Int64","I64"),("F32","F32"),("F64","F64")]:
    out.append(f"instance : Builds exact (deserialize_field : Get {T}) := inferInstanceAs (Builds exact get{S})\ninstance (x : {T}) : Builds exact (serialize_field x) := inferInstanceAs (Builds exact (put{S} x))")
out.append("""
instance : Builds exact (deserialize_field : Get String) := inferInstanceAs (Builds exact (Pure.pure "" : M String))
instance (x : String) : Builds exact (serialize_field x) := inferInstanceAs (Builds exact (putBytes (strBytes x)))
instance {α : Type} [FieldDeserialize α] : Builds exact (deserialize_field : Get (List α)) :=
  inferInstanceAs (Builds exact (Pure.pure [] : M (List α)))
instance {α : Type} [FieldSerialize α] [∀ x : α, Builds exact (serialize_field x)] (x : List α) : Builds exact (serialize_field x) :=
  inferInstanceAs (Builds exact (putEach serialize_field x))
instance {α : Type} [FieldDeserialize α] : Builds exact (deserialize_field : Get (Option α)) :=
  inferInstanceAs (Builds exact (Pure.pure none : M (Option α)))
instance {α : Type} [FieldSerialize α] [h : ∀ x : α, Builds exact (serialize_field x)] : (x : Option α) → Builds exact (serialize_field x)
  | none => inferInstanceAs (Builds exact (Pure.pure ()))
  | some x => h x
instance {α : Type} [FieldDeserializeWithLen α] (n : Nat) [Builds exact (deserialize_with_len n : Get α)] :
    Builds exact (deserialize_with_len n : Get (Option α)) :=
  inferInstanceAs (Builds exact (if n = 0 then Pure.pure none else (deserialize_with_len n : Get α) >>= fun x => Pure.pure (some x)))
instance (xs : Bytes) (i : Nat) : Builds exact (putIndex xs i) := by unfold putIndex; split <;> infer_instance
""")
files = sorted(glob.glob(M + "Enums/Part*.lean")) + [M + f for f in ("Flags.lean","Irregular.lean","Records.lean")]
for f in files:
    s = src(f)
    for m in re.finditer(r"^def (\w+)\.(\w*[sS]erialize\w*) ?(.*?) : (Get \(?[\w ]+\)?|Put)( :=|$)|^instance : (FieldSerialize|FieldDeserialize|FieldDeserializeWithLen) (\w+) := (.*)$", s, re.M):
        if m.group(1):
            n = f"{m.group(1)}.{m.group(2)}"; args = m.group(3); e = ex(m.group(1))
            names = " ".join(re.findall(r"\((\w+) :", args)); a = (" " + args) if args else ""
            app = f"({n} {names})" if names else n
            if m.group(4) == "Put":
                pf = f"unfold {n}; builds"
                if "match" in s[m.end():].split("\n/--")[0]:
                    pf = f"unfold {n}; cases self.data <;> dsimp only <;> builds"
            else: pf = f"unfold {n}; infer_instance"
            out.append(f"instance{a} : Builds {e} {app} := by {pf}")
        else:
            tr, T, body = m.group(6), m.group(7), m.group(8); e = ex(T)
            mm = re.match(r"⟨(\w+\.\w+)⟩", body)
            a, t = {"FieldSerialize": (f" (x : {T})", "serialize_field x"), "FieldDeserialize": ("", f"deserialize_field : Get {T}"),
                    "FieldDeserializeWithLen": (" (n : Nat)", f"deserialize_with_len n : Get {T}")}[tr]
            if mm and tr != "FieldDeserializeWithLen":
                g = f"({mm.group(1)} x)" if tr == "FieldSerialize" else mm.group(1)
                out.append(f"instance{a} : Builds {e} ({t}) := inferInstanceAs (Builds {e} {g})")
            else:
                out.append(f"instance{a} : Builds {e} ({t}) := by dsimp only [{t.split()[0]}]; infer_instance")
for h in ("PduHeader", "LiveEntityPduHeader"):
    out.append(f"instance (x : {h}) : Builds exact x.serialize := by unfold {h}.serialize; builds")
    out.append(f"instance : Builds exact {h}.deserialize := by unfold {h}.deserialize; infer_instance")
out.append("instance (x : PduHeader) : Builds exact (serialize_field x) := inferInstanceAs (Builds exact x.serialize)")
out.append("instance : Builds exact (deserialize_field : Get PduHeader) := inferInstanceAs (Builds exact PduHeader.deserialize)")
out.append("\nend Dis")
open("../lean/Verif/Proofs/BuildsRecords.lean","w").write("\n".join(out) + "\n")
out = ["import Verif.Proofs.BuildsRecords\n" + HEAD]
for f in sorted(glob.glob(M + "Pdus*.lean")):
    s = src(f)
    for n in re.findall(r"^structure (\w+) where", s, re.M):
        if f"def {n}.deserializeBody" not in s: continue
        out.append(f"instance (x : {n}) : Builds {ex(n)} x.serializeBody := by unfold {n}.serializeBody; builds")
        out.append(f"instance : Builds {ex(n)} {n}.deserializeBody := by unfold {n}.deserializeBody; infer_instance")
kb = re.findall(r"\| \.(\w+) => (\w+)", src(M + "PduKind.lean").split("def PduKind.Body")[1].split("\n\n")[0]) if "def PduKind.Body" in src(M + "PduKind.lean") else re.findall(r"\| \.(\w+) => (\w+Pdu)", src(M + "PduKind.lean"))
kb = list(dict.fromkeys(kb))
out.append("\n/-- The kinds whose messages contain record sets; every other kind has the same behaviour in both builds. -/\ndef PduKind.buildsExact : PduKind → Bool\n  | .TransferOwnership | .SetRecordReliable => false\n  | _ => true")
out.append("\ntheorem PduKind.builds_ser : (k : PduKind) → (x : k.Body) → Builds k.buildsExact (PduBody.serializeBody x)\n" + "\n".join(f"  | .{k}, x => inferInstanceAs (Builds {'false' if b in SETS else 'true'} ({b}.serializeBody x))" for k, b in kb))
out.append("\ntheorem PduKind.builds_de : (k : PduKind) → Builds k.buildsExact (PduBody.deserializeBody : Get k.Body)\n" + "\n".join(f"  | .{k} => inferInstanceAs (Builds {'false' if b in SETS else 'true'} {b}.deserializeBody)" for k, b in kb))
out.append("\nend Dis")
open("../lean/Verif/Proofs/BuildsPdus.lean","w").write("\n".join(out) + "\n")
print(len(kb))
