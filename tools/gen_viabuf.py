#!/usr/bin/env python3
"""Generates lean/Verif/Proofs/ViaBufRecords.lean and ViaBufPdus.lean: the instances of ViaBuf for the decoders of every
record, enumeration and PDU body of the model (read from lean/Verif/Model).  Run from tools/."""
import re, glob
M = "../lean/Verif/Model/"
HEAD = "/- Generated by tools/gen_viabuf.py. -/\nset_option synthInstance.maxSize 1000\nset_option synthInstance.maxHeartbeats 400000\nset_option maxRecDepth 4000\nnamespace Dis\n"
def src(p): return open(p).read()
out = ["import Verif.Proofs.ViaBuf\n" + HEAD]
PR = [("UInt8","U8"),("UInt16","U16"),("UInt32","U32"),("UInt64","U64"),("Int8","I8"),("Int16","I16"),("Int32","I32"),("Int64","I64"),("F32","F32"),("F64","F64")]
for _, t in PR:
    out.append(f"instance : ViaBuf get{t} := by unfold get{t}; infer_instance")
out.append("instance (s : EnumSpec) : ViaBuf s.deserialize := by unfold EnumSpec.deserialize; cases s.repr <;> infer_instance")
for T, S in PR:
    out.append(f"instance : ViaBuf (deserialize_field : Get {T}) := inferInstanceAs (ViaBuf get{S})")
out.append("""
instance : ViaBuf (deserialize_field : Get String) := inferInstanceAs (ViaBuf (Pure.pure "" : M String))
instance {α : Type} [FieldDeserialize α] : ViaBuf (deserialize_field : Get (List α)) :=
  inferInstanceAs (ViaBuf (Pure.pure [] : M (List α)))
instance {α : Type} [FieldDeserialize α] : ViaBuf (deserialize_field : Get (Option α)) :=
  inferInstanceAs (ViaBuf (Pure.pure none : M (Option α)))
instance {α : Type} [FieldDeserializeWithLen α] (n : Nat) [ViaBuf (deserialize_with_len n : Get α)] :
    ViaBuf (deserialize_with_len n : Get (Option α)) :=
  inferInstanceAs (ViaBuf (if n = 0 then Pure.pure none else (deserialize_with_len n : Get α) >>= fun x => Pure.pure (some x)))
""")
files = sorted(glob.glob(M + "Enums/Part*.lean")) + [M + f for f in ("Flags.lean","Irregular.lean","Records.lean")]
for f in files:
    s = src(f)
    for m in re.finditer(r"^def (\w+)\.(\w*[sS]erialize\w*) ?(.*?) : (Get \(?[\w ]+\)?)( :=|$)|^instance : (FieldDeserialize|FieldDeserializeWithLen) (\w+) := (.*)$", s, re.M):
        if m.group(1):
            n = f"{m.group(1)}.{m.group(2)}"; args = m.group(3)
            names = " ".join(re.findall(r"\((\w+) :", args)); a = (" " + args) if args else ""
            app = f"({n} {names})" if names else n
            out.append(f"instance{a} : ViaBuf {app} := by unfold {n}; infer_instance")
        else:
            tr, T, body = m.group(6), m.group(7), m.group(8)
            mm = re.match(r"⟨(\w+\.\w+)⟩", body)
            a, t = {"FieldDeserialize": ("", f"deserialize_field : Get {T}"),
                    "FieldDeserializeWithLen": (" (n : Nat)", f"deserialize_with_len n : Get {T}")}[tr]
            if mm and tr != "FieldDeserializeWithLen":
                out.append(f"instance{a} : ViaBuf ({t}) := inferInstanceAs (ViaBuf {mm.group(1)})")
            else:
                out.append(f"instance{a} : ViaBuf ({t}) := by dsimp only [{t.split()[0]}]; infer_instance")
for h in ("PduHeader", "LiveEntityPduHeader"):
    out.append(f"instance : ViaBuf {h}.deserialize := by unfold {h}.deserialize; infer_instance")
out.append("instance : ViaBuf (deserialize_field : Get PduHeader) := inferInstanceAs (ViaBuf PduHeader.deserialize)")
out.append("\nend Dis")
open("../lean/Verif/Proofs/ViaBufRecords.lean","w").write("\n".join(out) + "\n")
out = ["import Verif.Proofs.ViaBufRecords\n" + HEAD]
for f in sorted(glob.glob(M + "Pdus*.lean")):
    s = src(f)
    for n in re.findall(r"^structure (\w+) where", s, re.M):
        if f"def {n}.deserializeBody" not in s: continue
        out.append(f"instance : ViaBuf {n}.deserializeBody := by unfold {n}.deserializeBody; infer_instance")
kb = re.findall(r"\| \.(\w+) => (\w+)", src(M + "PduKind.lean").split("def PduKind.Body")[1].split("\n\n")[0]) if "def PduKind.Body" in src(M + "PduKind.lean") else re.findall(r"\| \.(\w+) => (\w+Pdu)", src(M + "PduKind.lean"))
kb = list(dict.fromkeys(kb))
out.append("\ntheorem PduKind.viaBuf : (k : PduKind) → ViaBuf (PduBody.deserializeBody : Get k.Body)\n" + "\n".join(f"  | .{k} => inferInstanceAs (ViaBuf {b}.deserializeBody)" for k, b in kb))
out.append("\nend Dis")
open("../lean/Verif/Proofs/ViaBufPdus.lean","w").write("\n".join(out) + "\n")
print(len(kb))
