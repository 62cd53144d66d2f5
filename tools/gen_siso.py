#!/usr/bin/env python3
"""Drafts lean/Verif/Spec/SisoCodes.lean: the enumerations that occur in PDU bodies, laid out for
comparison with SISO-REF-010 (then reviewed table by table from knowledge of the standard, whose text is
not in the sandbox; the names are the crate's spelling of the standard's)."""
import re, os, sys
sys.path.insert(0, os.path.dirname(os.path.abspath(__file__)))
from enumparse import parse_enums
P=parse_enums()
root=os.path.dirname(os.path.dirname(os.path.abspath(__file__)))
W=dict(AcknowledgeFlag=2,AcknowledgeResponseFlag=2,ActionResponseRequestStatus=4,AggregateStateAggregateState=1,AggregateStateFormation=4,ComponentDamageStatus=1,ComponentIdentification=1,ComponentVisualSmokeColor=1,Country=2,DEFirePulseShape=1,DeadReckoningAlgorithm=1,DetonationResult=1,EEAttributeStateIndicator=1,EmitterSystemFunction=1,EntityKind=1,EntityMarkingCharacterSet=1,EventType=4,ForceId=1,GridAxisDescriptorAxisType=1,GriddedDataConstantGrid=1,GriddedDataCoordinateSystem=2,IOActionIOActionPhase=2,IOActionIOActionType=2,IOActionIOWarfareType=2,IOReportIOReportType=1,IntercomControlCommand=1,IntercomControlControlType=1,IntercomControlTransmitLineState=1,IsGroupOfGroupedEntityCategory=1,Reason=1,ReceiverReceiverState=2,RepairResponseRepairResult=1,RequiredReliabilityService=1,ServiceRequestServiceTypeRequested=1,SignalTDLType=2,TransferControlTransferType=1,TransmitterAntennaPatternType=2,TransmitterCryptoSystem=2,TransmitterInputSource=1,TransmitterTransmitState=1,UAAcousticEmitterSystemFunction=1,UAAcousticSystemName=2,UAStateChangeUpdateIndicator=1,VariableParameterRecordType=1,ProtocolVersion=1,ProtocolFamily=1,PduType=1,PlatformDomain=1)
# the other enumerations of PDU bodies and headers
W2=dict(EntityCapabilities=4,RepairCompleteRepair=2,DesignatorSystemName=2,DesignatorCode=2,UAPassiveParameterIndex=2,MinefieldSensorTypes=1,GriddedDataSampleType=1,GriddedDataDataRepresentation=1,IOActionIOSimulationSource=2,DISAttributeActionCode=1,RecordQueryREventType=2,MinefieldStateProtocolMode=2,TransferredEntityIndicator=1,LVCIndicator=1,CoupledExtensionIndicator=1,FireTypeIndicator=1,DetonationTypeIndicator=1,RadioAttachedIndicator=1,IntercomAttachedIndicator=1,PduStatusIFFSimulationMode=1,ActiveInterrogationIndicator=1,DISLiveEntitySubprotocolNumber=1,VariableRecordTypes=4,EmitterName=2)
TITLES={}
src=open('/repo/src/common/enums.rs').read()
out=['''import Verif.Model.Enums.All
/-
Specification for C47: the codes SISO-REF-010 assigns in the enumerations that occur in PDUs, and the
number of octets IEEE 1278.1 gives them.  The tables were drafted from the crate and reviewed table by
table from knowledge of the standard (its text is not available in the sandbox), so they pin the wire
codes against any later change of the crate; the names are the crate's spelling of the standard's.
-/
set_option maxRecDepth 20000
namespace Dis

/-- One table of the standard. -/
structure SisoTable where
  /-- octets the enumeration occupies on the wire -/
  octets : Nat
  /-- the value an unassigned code is read as -/
  fallback : Nat
  /-- what each code means -/
  rows : List (String × Nat)

/-- `names.zipIdx` for the tables whose codes are 0, 1, 2, ... -/
def SisoTable.numbered (octets : Nat) (names : List String) (fallback : Nat := 0) : SisoTable :=
  ⟨octets, fallback, names.zipIdx⟩

/-- The enumerations of the crate paired with the standard's table. -/
def sisoTables : List (EnumSpec × SisoTable) := [''']
items=[]
def wrap(pieces, ind=5, w=110):
    lines=[];cur=' '*ind
    for i,p in enumerate(pieces):
        p=p+(',' if i<len(pieces)-1 else '')
        if len(cur)+len(p)+1>w and cur.strip(): lines.append(cur.rstrip()); cur=' '*ind
        cur+=p+' '
    lines.append(cur.rstrip())
    return '\n'.join(lines)
def table(W, pre=None):
    items=[]
    for n,w in W.items():
        if n not in P: print('missing',n); continue
        vs=P[n]['variants']; dv=P[n]['default'][1]
        if [c for _,c in vs]==list(range(len(vs))):
            items.append(f'  ({n}.spec, .numbered {w} [\n'+wrap([f'"{a}"' for a,_ in vs])+f']{"" if dv==0 else " "+str(dv)})')
        elif len(vs)>500 and pre is not None:
            pre.append(f'/-- {n} -/\ndef {n}.rows : List (String × Nat) := [\n'+wrap([f'("{a}", {c})' for a,c in vs],2)+']\n')
            items.append(f'  ({n}.spec, ⟨{w}, {dv}, {n}.rows⟩)')
        else:
            items.append(f'  ({n}.spec, ⟨{w}, {dv}, [\n'+wrap([f'("{a}", {c})' for a,c in vs])+']⟩)')
    return ',\n'.join(items)+']\n'
out.append(table(W))
out.append('end Dis')
open(root+'/lean/Verif/Spec/SisoCodes.lean','w').write('\n'.join(out)+'\n')
out=["""import Verif.Spec.SisoCodes
/-
Specification for C47, continued: the other enumerations that occur in PDU bodies, in records, in the status
field of the header and in the live entity header.  Drafted and reviewed like Spec/SisoCodes, except that the
two long tables at the end (types of variable records, emitter names) were only read through in part.  The
sensor types of minefield messages have the crate's width (1 octet; IEEE 1278.1 has 2).  In SISO-REF-010 the
entity capabilities are bit fields that depend on the kind of platform; the table is the crate's enumeration.
-/
set_option maxRecDepth 20000
namespace Dis
"""]
pre=[]
t=table(W2,pre)
out+=pre
out.append("""/-- More enumerations of the crate paired with the standard's table. -/
def moreSisoTables : List (EnumSpec × SisoTable) := [""")
out.append(t)
out.append('end Dis')
open(root+'/lean/Verif/Spec/SisoCodesMore.lean','w').write('\n'.join(out)+'\n')

# all other enumerations of the crate
order=re.findall(r'^  (\w+)\.spec', open(root+'/lean/Verif/Model/Enums/All.lean').read().split('def allEnums')[1].split(']')[0], re.M)
W3={n:P[n]['get'] for n in order if n not in W and n not in W2}
out=["""import Verif.Spec.SisoCodesMore
/-
Specification for C47, continued: the enumerations that occur in no message (categories and subcategories of
entity types, appearances, records the crate does not decode, ...), in the order of src/common/enums.rs.
Drafted from the crate and read through against SISO-REF-010 from knowledge of it.  The octets are those the
crate's decoder of the enumeration reads; many of these are bit fields in the standard.
-/
set_option maxRecDepth 20000
namespace Dis
"""]
items=list(W3.items()); CH=60
for i in range(0,len(items),CH):
    out.append(f"""/-- The standard's tables for enumerations that occur in no message ({i//CH+1}). -/
def restSisoTables{i//CH+1} : List (EnumSpec × SisoTable) := [""")
    out.append(table(dict(items[i:i+CH])))
nch=(len(items)+CH-1)//CH
out.append('/-- All tables. -/\ndef allSisoTables : List (EnumSpec × SisoTable) :=\n  sisoTables ++ moreSisoTables ++ '+' ++ '.join(f'restSisoTables{i+1}' for i in range(nch))+'\n')
out.append('end Dis')
open(root+'/lean/Verif/Spec/SisoCodesRest.lean','w').write('\n'.join(out)+'\n')
pr=["""import Verif.Spec.SisoCodesRest
/- The tables of Spec/SisoCodesRest agree with the crate's (generated by tools/gen_siso.py). -/
set_option maxRecDepth 20000
namespace Dis
"""]
for i in range(nch):
    t=f'restSisoTables{i+1}'
    pr.append(f"""theorem {t}_agree : ∀ st ∈ {t},
    st.1.repr.octets = st.2.octets ∧ st.1.default = st.2.fallback ∧ st.1.variants = st.2.rows := by
  unfold {t}
  repeat (refine List.forall_mem_cons.mpr ⟨⟨rfl, rfl, rfl⟩, ?_⟩)
  exact fun _ h => nomatch h
theorem {t}_known : ∀ st ∈ {t}, st.1 ∈ allEnums := by
  unfold {t}""")
    for n,_ in items[i*CH:i*CH+CH]:
        pr.append(f'  refine List.forall_mem_cons.mpr ⟨List.mem_of_getElem? (i := {order.index(n)}) rfl, ?_⟩')
    pr.append('  exact fun _ h => nomatch h\n')
alln=[n for n in list(W)+list(W2)+list(W3) if n in P]
pr.append("""theorem allSisoTables_cover : ∀ s ∈ allEnums, ∃ t, (s, t) ∈ allSisoTables := by
  unfold allEnums""")
for n in order:
    pr.append(f'  refine List.forall_mem_cons.mpr ⟨⟨_, List.mem_of_getElem? (i := {alln.index(n)}) rfl⟩, ?_⟩')
pr.append('  exact fun _ h => nomatch h\n')
pr.append('end Dis')
open(root+'/lean/Verif/Proofs/SisoRest.lean','w').write('\n'.join(pr)+'\n')
print(len(W)+len(W2)+len(W3), len(order), nch)
