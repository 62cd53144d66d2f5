#!/usr/bin/env python3
"""Generates lean/Verif/Proofs/StepsRecords.lean and StepsPdus.lean: the instances of Steps, Reserves and Puts for every
record, enumeration and PDU body of the model (read from lean/Verif/Model)."""
import re, glob
M = "../lean/Verif/Model/"
RES = {"VariableDatumRecord.deserialize", "StandardVariableSpecification.deserializeField"}
def src(p): return open(p).read()
out = ["import Verif.Proofs.Steps\n/- Generated by tools/gen_steps.py. -/\nset_option synthInstance.maxSize 1000\nset_option synthInstance.maxHeartbeats 200000\nset_option maxRecDepth 4000\nnamespace Dis\n"]
for t, w in [("U8",0),("U16",0),("U32",0),("U64",0),("I8",1),("I16",1),("I32",1),("I64",1),("F32",1),("F64",1)]:
    out.append(f"instance : Steps get{t} := by unfold get{t}; infer_instance\ninstance : Reserves 0 get{t} := by unfold get{t}; infer_instance\ninstance (x) : Puts (put{t} x) := by unfold put{t}; infer_instance")
out.append("""
instance (s : EnumSpec) : Steps s.deserialize := by unfold EnumSpec.deserialize; cases s.repr <;> infer_instance
instance (s : EnumSpec) : Reserves 0 s.deserialize := by unfold EnumSpec.deserialize; cases s.repr <;> infer_instance
""")
P = {"u8":("UInt8","U8"),"u16":("UInt16","U16"),"u32":("UInt32","U32"),"u64":("UInt64","U64"),"i8":("Int8","I8"),"i16":("Int16","I16"),"i32":("Int32","I32"),"i64":("Int64","I64"),"f32":("F32","F32"),"f64":("F64","F64")}
for T, S in P.values():
    out.append(f"instance : Steps (deserialize_field : Get {T}) := inferInstanceAs (Steps get{S})\ninstance : Reserves 0 (deserialize_field : Get {T}) := inferInstanceAs (Reserves 0 get{S})\ninstance (x : {T}) : Puts (serialize_field x) := inferInstanceAs (Puts (put{S} x))")
out.append("""
instance : Steps (deserialize_field : Get String) := inferInstanceAs (Steps (Pure.pure "" : M String))
instance : Reserves 0 (deserialize_field : Get String) := inferInstanceAs (Reserves 0 (Pure.pure "" : M String))
instance (x : String) : Puts (serialize_field x) := inferInstanceAs (Puts (putBytes (strBytes x)))
instance {α : Type} [FieldDeserialize α] : Steps (deserialize_field : Get (List α)) :=
  inferInstanceAs (Steps (Pure.pure [] : M (List α)))
instance {α : Type} [FieldDeserialize α] : Reserves 0 (deserialize_field : Get (List α)) :=
  inferInstanceAs (Reserves 0 (Pure.pure [] : M (List α)))
instance {α : Type} [FieldSerialize α] [∀ x : α, Puts (serialize_field x)] (x : List α) : Puts (serialize_field x) :=
  inferInstanceAs (Puts (putEach serialize_field x))
instance {α : Type} [FieldDeserialize α] : Steps (deserialize_field : Get (Option α)) :=
  inferInstanceAs (Steps (Pure.pure none : M (Option α)))
instance {α : Type} [FieldDeserialize α] : Reserves 0 (deserialize_field : Get (Option α)) :=
  inferInstanceAs (Reserves 0 (Pure.pure none : M (Option α)))
instance {α : Type} [FieldSerialize α] [h : ∀ x : α, Puts (serialize_field x)] : (x : Option α) → Puts (serialize_field x)
  | none => inferInstanceAs (Puts (Pure.pure ()))
  | some x => h x
instance {α : Type} [FieldDeserializeWithLen α] (n : Nat) [Steps (deserialize_with_len n : Get α)] :
    Steps (deserialize_with_len n : Get (Option α)) :=
  inferInstanceAs (Steps (if n = 0 then Pure.pure none else (deserialize_with_len n : Get α) >>= fun x => Pure.pure (some x)))
instance {α : Type} [FieldDeserializeWithLen α] (n : Nat) [Reserves 0 (deserialize_with_len n : Get α)] :
    Reserves 0 (deserialize_with_len n : Get (Option α)) :=
  inferInstanceAs (Reserves 0 (if n = 0 then Pure.pure none else (deserialize_with_len n : Get α) >>= fun x => Pure.pure (some x)))
instance (xs : Bytes) (i : Nat) : Puts (putIndex xs i) := by unfold putIndex; split <;> infer_instance
""")
files = sorted(glob.glob(M + "Enums/Part*.lean")) + [M + f for f in ("Flags.lean","Irregular.lean","Records.lean")]
for f in files:
    s = src(f)
    for m in re.finditer(r"^def (\w+)\.(\w*[sS]erialize\w*) ?(.*?) : (Get \(?[\w ]+\)?|Put)( :=|$)|^instance : (FieldSerialize|FieldDeserialize|FieldDeserializeWithLen) (\w+) := (.*)$", s, re.M):
        if m.group(1):
            n = f"{m.group(1)}.{m.group(2)}"; args = m.group(3)
            names = " ".join(re.findall(r"\((\w+) :", args)); a = (" " + args) if args else ""
            app = f"({n} {names})" if names else n
            if m.group(4) == "Put":
                pf = f"unfold {n}; puts"
                if "match" in s[m.end():].split("\n/--")[0]:
                    pf = f"unfold {n}; have : ∀ x, Puts ((fun d : _ => d) x) := fun _ => inferInstance" if False else f"unfold {n}; cases self.data <;> dsimp only <;> puts"
                out.append(f"instance{a} : Puts {app} := by {pf}")
            else:
                out.append(f"instance{a} : Steps {app} := by unfold {n}; infer_instance")
                if n == "VariableDatumRecord.deserialize":
                    out.append("""theorem VariableDatumRecord.reserves : Reserves (2 ^ 29) VariableDatumRecord.deserialize := by
  unfold VariableDatumRecord.deserialize
  have h : ∀ n : UInt32, Reserves (2 ^ 29) (M.reserve (VariableDatumRecord.bytes_count n)) := fun n =>
    Reserves.reserve (by have := n.toNat_lt; unfold VariableDatumRecord.bytes_count; omega)
  have h2 := fun n (f : Unit → Get VariableDatumRecord) => Reserves.last _ f (h n)
  refine @instReservesBind _ _ _ _ _ inferInstance fun _ => @instReservesBind _ _ _ _ _ inferInstance fun n => h2 n _ fun _ => inferInstance""".replace("@instReservesBind", "@Reserves.bind0"))
                elif n == "StandardVariableSpecification.deserializeField":
                    out.append("""instance : Reserves 65535 StandardVariableSpecification.deserializeField := by
  unfold StandardVariableSpecification.deserializeField
  refine @Reserves.bind0 _ _ _ _ _ inferInstance fun n => Reserves.last _ _ (Reserves.reserve ?_) fun _ => inferInstance
  have := n.toNat_lt
  omega""")
                else:
                    out.append(f"instance{a} : Reserves 0 {app} := by unfold {n}; infer_instance")
        else:
            tr, T, body = m.group(6), m.group(7), m.group(8)
            mm = re.match(r"⟨(\w+\.\w+)⟩", body)
            if tr == "FieldSerialize":
                app = mm.group(1) if mm else None
                if app: out.append(f"instance (x : {T}) : Puts (serialize_field x) := inferInstanceAs (Puts ({app} x))")
                else: out.append(f"instance (x : {T}) : Puts (serialize_field x) := by unfold serialize_field; exact inferInstance" if False else f"instance (x : {T}) : Puts (serialize_field x) := by dsimp only [serialize_field]; infer_instance")
            elif tr == "FieldDeserialize":
                if mm:
                    out.append(f"instance : Steps (deserialize_field : Get {T}) := inferInstanceAs (Steps {mm.group(1)})")
                    r = "65535" if mm.group(1) == "StandardVariableSpecification.deserializeField" else "0"
                    if mm.group(1) != "VariableDatumRecord.deserialize":
                        out.append(f"instance : Reserves {r} (deserialize_field : Get {T}) := inferInstanceAs (Reserves {r} {mm.group(1)})")
                else:
                    for c in ("Steps", "Reserves 0"):
                        out.append(f"instance : {c} (deserialize_field : Get {T}) := by dsimp only [deserialize_field]; infer_instance")
            else:
                for c in ("Steps", "Reserves 0"):
                    out.append(f"instance (n : Nat) : {c} (deserialize_with_len n : Get {T}) := by dsimp only [deserialize_with_len]; infer_instance")
for h in ("PduHeader", "LiveEntityPduHeader"):
    out.append(f"instance (x : {h}) : Puts x.serialize := by unfold {h}.serialize; puts")
    for c in ("Steps", "Reserves 0"):
        out.append(f"instance : {c} {h}.deserialize := by unfold {h}.deserialize; infer_instance")
        if h == "PduHeader": out.append(f"instance : {c} (deserialize_field : Get {h}) := inferInstanceAs ({c} {h}.deserialize)")
    if h == "PduHeader": out.append(f"instance (x : {h}) : Puts (serialize_field x) := inferInstanceAs (Puts x.serialize)")
out.append("\nend Dis")
open("../lean/Verif/Proofs/StepsRecords.lean","w").write("\n".join(out) + "\n")
out = ["import Verif.Proofs.StepsRecords\n/- Generated by tools/gen_steps.py. -/\nset_option synthInstance.maxSize 1000\nset_option synthInstance.maxHeartbeats 400000\nset_option maxRecDepth 4000\nnamespace Dis\n"]
kinds = re.findall(r"^  \| (\w+)$", src(M + "PduKind.lean").split("inductive PduKind where")[1].split("\n\n")[0].split("deriving")[0], re.M)
bodies = {}
for f in sorted(glob.glob(M + "Pdus*.lean")):
    s = src(f)
    for n in re.findall(r"^structure (\w+) where", s, re.M):
        if f"def {n}.deserializeBody" not in s: continue
        out.append(f"instance (x : {n}) : Puts x.serializeBody := by unfold {n}.serializeBody; puts")
        out.append(f"instance : Steps {n}.deserializeBody := by unfold {n}.deserializeBody; infer_instance")
        if not n.startswith("InformationOperations"):
            out.append(f"instance : Reserves 0 {n}.deserializeBody := by unfold {n}.deserializeBody; infer_instance")
        bodies[n] = 1
kb = re.findall(r"\| \.(\w+) => (\w+)", src(M + "PduKind.lean").split("def PduKind.Body")[1].split("\n\n")[0]) if "def PduKind.Body" in src(M + "PduKind.lean") else re.findall(r"\| \.(\w+) => (\w+Pdu)", src(M + "PduKind.lean"))
kb = list(dict.fromkeys(kb))
out.append("\ntheorem PduKind.puts : (k : PduKind) → (x : k.Body) → Puts (PduBody.serializeBody x)\n" + "\n".join(f"  | .{k}, x => inferInstanceAs (Puts ({b}.serializeBody x))" for k, b in kb))
out.append("\ntheorem PduKind.steps : (k : PduKind) → Steps (PduBody.deserializeBody : Get k.Body)\n" + "\n".join(f"  | .{k} => inferInstanceAs (Steps {b}.deserializeBody)" for k, b in kb))
out.append("\nend Dis")
open("../lean/Verif/Proofs/StepsPdus.lean","w").write("\n".join(out) + "\n")
print(len(kb), len(bodies), len(kinds))
