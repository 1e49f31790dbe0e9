import re,glob
src={}
for f in glob.glob('/verif/lean/Verif/V2/Ies/*.lean'):
    s=open(f).read()
    for m in re.finditer(r'^namespace (\w+)\n(.*?)^end \1$',s,re.M|re.S):
        src.setdefault(m.group(1),m.group(2))
# kind: (type, [(idx,mask,[exprs in V])])
K={
'Cause':(2,[(5,0x07,['bitOn V 2','bitOn V 1','(V &&& 1 == 1)'])]),
'Ebi':(73,[(4,0x0f,['V &&& 0x0f'])]),
'BearerQos':(80,[(4,0x7d,['(V >>> (6 : UInt8)) &&& (0x01 : UInt8)','(V >>> (2 : UInt8)) &&& (0x0f : UInt8)','V &&& 0x01'])]),
'S1udf':(91,[(4,0x0f,['V &&& 0x0f'])]),
'BearerFlags':(97,[(4,0x0f,['hasBits V 0x08','hasBits V 0x04','hasBits V 0x02','hasBits V 0x01'])]),
'PduNumbers':(110,[(4,0x0f,['V &&& 0x0f'])]),
'UeTimeZone':(114,[(5,0x03,['V &&& 0x03'])]),
'Fcause':(119,[(4,0x0f,['V &&& 0x0f'])]),
'PacketFlowId':(123,[(4,0x0f,['V &&& 0x0f'])]),
'SelectionMode':(128,[(4,0x03,['V &&& 0x03'])]),
'TransactionIdentifier':(137,[(4,0xf0,['V >>> 7','(V >>> (4 : UInt8)) &&& (0x07 : UInt8)'])]),
'MbmsDistributionAck':(143,[(4,0x03,['V &&& 0x03'])]),
'CSGInformationReportingAction':(146,[(4,0x07,['V &&& 0x07'])]),
'AdditionalFlagsSrvcc':(160,[(4,0x03,['bitOn V 0','bitOn V 1'])]),
'ChangeToReportFlags':(167,[(4,0x03,['bitOn V 0','bitOn V 1'])]),
'ActionIndication':(168,[(4,0x07,['V &&& 0x07'])]),
'MbmsFlags':(171,[(4,0x03,['bitOn V 0','bitOn V 1'])]),
'Twmi':(174,[(4,0x03,['bitOn V 0','bitOn V 1'])]),
'WlanOffloadIndication':(185,[(4,0x03,['bitOn V 0','bitOn V 1'])]),
'CIoTOptimizationSupportIndication':(194,[(4,0x0f,['bitOn V 0','bitOn V 1','bitOn V 2','bitOn V 3'])]),
'HeaderCompressionConfiguration':(196,[(4,0x7f,['HeaderCompressionConfiguration.profilesOf V']),(5,0,[])]),
'SecondaryRatUsageDataReport':(201,[(4,0x07,['V &&& 0x03','V &&& 0x04']),(6,0x0f,['V &&& 0x0f'])]),
'MaxPacketLossRate':(203,[(4,0x03,['V &&& 0x03'])]),
'RemoteUserId':(192,[(4,0x03,['V &&& 0x03'])]),
'PC5QosFlow':(212,[(4,0x01,['V &&& 0x01'])]),
'SgiPtpTunnelAddress':(213,[(4,0x07,['V &&& 0x03','V &&& 0x04'])]),
'UpSecurityPolicy':(218,[(4,0x03,['V &&& 0x03'])]),
}
out='''import Verif.V2.SpareBase

/-!
# Decoders that ignore the spare bits of their information element

Expanded by `scripts/gen_spare.py`.
-/

namespace Gtp.V2
set_option linter.unusedSimpArgs false
set_option linter.unusedVariables false

variable {m : Mode} {u : Nat → UInt8} {b : Bytes}

'''
for k,(t,ms) in K.items():
    d=re.search(r'^def unmarshal.*?(?=^\S|\Z)',src[k],re.M|re.S).group(0)
    idx=[i for i,_,_ in ms]
    hy='(hu : ∀ k, '+' → '.join(f'k ≠ {i}' for i in idx)+' → u k = 255) '+' '.join(f'(h{i} : u {i} = {v})' for i,v,_ in ms)
    o=f'theorem {k}.spare {hy} :\n    {k}.unmarshal m (cut u b) = {k}.unmarshal m b := by\n'
    keys=[];n=0
    for i,v,es in ms:
        for e in es:
            n+=1
            o+=f'  have k{n} : ∀ v : UInt8, {e.replace("V",f"(v &&& ({v} : UInt8))").strip()} = {e.replace("V","v")} := by decide +kernel\n'
            keys.append(f'k{n}')
    inst=[]
    for fn,i in dict.fromkeys(re.findall(r'\b(rd24|rd32|rd40|rd64|rdIp6|sl) b (\d+)',d)):
        inst.append(f'{fn}_keep ({"i" if fn=="sl" else "j"} := {i}) (fun k hk => hu k{" (by omega)"*len(idx)})')
    for i in dict.fromkeys(re.findall(r'rd16 b (\d+)',d)):
        a=' (by decide)'*len(idx)
        inst.append(f'rd16_keep (j := {i}) (hu {i}{a}) (hu {int(i)+1}{a})')
    if k=='RemoteUserId':
        inst.append('e1'); inst.append('e2')
        o+='''  have e1 : ∀ (l : Nat) (e : Err), rdStr (cut u b) (6 + l + 1) e = rdStr b (6 + l + 1) e := fun l e => rdStr_keep fun k hk => hu k (by omega)
  have e2 : ∀ (l n : Nat) (e : Err), rdStr (cut u b) (6 + l + 1 + n + 1) e = rdStr b (6 + l + 1 + n + 1) e := fun l n e =>
    rdStr_keep fun k hk => hu k (by omega)
'''
    o+=f'  simp only [{k}.unmarshal, bind_def, cut_length, checkTliv_cut, {", ".join(inst)}]\n' if inst else f'  simp only [{k}.unmarshal, bind_def, cut_length, checkTliv_cut]\n'
    o+=f'  simp [rd_cut, rbind_assoc, rbind_ok, hu, and_ff, {", ".join(f"h{i}" for i in idx)}, {", ".join(keys)}]\n\n'
    out+=o
out+=open('/verif/scripts/gen_spare_manual.txt').read()
out+='end Gtp.V2\n'
open('/verif/lean/Verif/V2/Spare.lean','w').write(out)
