"""Generates lean/Verif/V2/WrapCrash.lean, WrapKinds.lean and WrapArm.lean: for every kind of GTPv2-C information element what
its decoder does in a release build with a declared length of 65532 or more, where the sum `length + 4` wraps: the conditions on
the octets for a panic and for an advance by 0 octets, and the proof that they are exact."""
import re, glob
s = open('/verif/lean/Verif/V2/IESafe.lean').read()
i = s.index('def Kind.Cond'); j = s.index('def Kind.robust')
conds = re.findall(r'\| \.(\w+) => (.*)', s[i:j])
ie = open('/verif/lean/Verif/V2/IE.lean').read()
k = ie.index('def unmKind')
arms = dict(re.findall(r'\| \.(\w+) => do let x ← (\w+)\.unmarshal m b', ie[k:]))
src = ''.join(open(f).read() for f in sorted(glob.glob('/verif/lean/Verif/V2/Ies/*.lean')))
groups = [g for g, c in conds if 'b ≠ []' in c and g not in ('Unknown', 'MmContext')]

def get(ns, d):
    t = re.search(r'^namespace ' + ns + r'$(.*?)^end ' + ns + '$', src, re.S | re.M).group(1)
    return re.search(r'def ' + d + r' (.*?)\n\n', t, re.S).group(1)

# kind: (a panic, an advance by 0 octets with a declared length of 65532)
def cut(n): return f'{n} ≤ b.length ∧ b.length < declN b + 4'
lab=lambda p: f'4 ≤ b.length ∧ (b.length < declN b + 4 ∨ ¬ Labels ((b.take (4 + declN b)).drop {p}))'
T = {
'Imsi':(cut(5),None),
'Cause':('False',None),
'StnSr':('4 ≤ b.length',None),
'Apn':(lab(4),'65536 ≤ b.length ∧ Labels ((b.take 65536).drop 4)'),
'IpAddress':('False',None),
'Mei':('4 ≤ b.length',None),'Msisdn':('4 ≤ b.length',None),'Pco':('4 ≤ b.length',None),
'PdnAddressAllocation':('5 ≤ b.length ∧ (octAt b 4 = 1 ∧ b.length < 9 ∨ octAt b 4 = 2 ∧ b.length < 22 ∨ octAt b 4 = 3 ∧ b.length < 26)',None),
'BearerTft':(cut(4),None),'TrafficAggregateDescription':(cut(4),None),
'Uli':('4 ≤ b.length ∧ (b.length = 4 ∨ b.getD 4 0 &&& 4 = 4 ∧ 8 ≤ octAt b 4 ∧ b.length = 11 + 7 * (octAt b 4 % 2) + 7 * (octAt b 4 / 2 % 2))',None),
'Fteid':('4 ≤ b.length ∧ b.length < Fteid.need (b.getD 4 0)','64 ≤ octAt b 4 ∧ Fteid.need (b.getD 4 0) ≤ b.length'),
'S103pdf':('4 ≤ b.length ∧ (b.length = 4 ∨ octAt b 4 = 4 ∧ b.length < 14 ∨ octAt b 4 = 16 ∧ (b.length = 25 ∨ 25 < b.length ∧ b.length = 25 + octAt b 25))',None),
'S1udf':('4 ≤ b.length ∧ (b.length < 6 ∨ octAt b 5 = 4 ∧ b.length < 14 ∨ octAt b 5 = 16 ∧ 22 ≤ b.length ∧ b.length < 26)',None),
'CompleteRequestMessage':('5 ≤ b.length ∧ octAt b 4 < 2 ∧ b.length < declN b + 4','5 ≤ b.length ∧ (2 ≤ octAt b 4 ∨ 65536 ≤ b.length)'),
'Fcontainer':('5 ≤ b.length ∧ octAt b 4 ≠ 0 ∧ b.length < declN b + 4','5 ≤ b.length ∧ (octAt b 4 = 0 ∨ 65536 ≤ b.length)'),
'Fcause':(cut(5),None),
'SrcRncPdcpCtxInfo':('4 ≤ b.length',None),
'Fqcsid':('False','5 ≤ b.length ∧ (octAt b 4 / 16 = 0 ∧ 9 + 2 * (octAt b 4 % 16) ≤ b.length ∨ octAt b 4 / 16 = 1 ∧ 21 + 2 * (octAt b 4 % 16) ≤ b.length ∨ octAt b 4 / 16 = 2 ∧ 9 + 2 * (octAt b 4 % 16) ≤ b.length)'),
'Fqdn':(lab(4),'65536 ≤ b.length ∧ Labels ((b.take 65536).drop 4)'),
'MbmsSa':('b.length = 4',None),
'MbmsIpMulticastDistribution':('8 ≤ b.length ∧ ¬ checksIp b 8 fun c => checksIp b c fun c => c ≠ b.length',None),
'Ldn':(cut(4),'65536 ≤ b.length'),
'Apco':(cut(4),None),
'RanNasCause':('False',None),
'NodeNumber':('5 ≤ b.length ∧ (octAt b 4 = 0 ∨ b.length < octAt b 4 + 5)',None),
'NodeIdentifier':('False',None),
'PresenceReportingAreaAction':('4 ≤ b.length ∧ (b.length < 14 ∨ PresenceReportingAreaAction.extPos b = b.length)',None),
'ApnRelativeCapacity':(lab(5),None),
'IntegerNumber':(cut(4),None),
'RemoteUeIpInformation':('5 ≤ b.length ∧ (octAt b 4 = 1 ∧ b.length < 9 ∨ octAt b 4 = 2 ∧ b.length < 13)',
   '5 ≤ b.length ∧ (octAt b 4 = 0 ∨ octAt b 4 = 1 ∧ 9 ≤ b.length ∨ octAt b 4 = 2 ∧ 13 ≤ b.length)'),
'Epco':('4 ≤ b.length',None),
'MaxPacketLossRate':('False',None),
'ExtendedTraceInformation':('11 ≤ b.length ∧ ¬ checksLv b 10 fun c => checksLv b c fun c => c < b.length → checksLv b (c + 1) fun c => c < b.length',
   '11 ≤ b.length ∧ ExtendedTraceInformation.Whole b'),
'MonitoringEventExtensionInfo':('4 ≤ b.length ∧ (b.length < 10 ∨ b.length = 9 + octAt b 9)',None),
'PC5QosFlow':('4 ≤ b.length ∧ (b.length < 14 ∨ b.getD 4 0 &&& 1 = 1 ∧ b.length < 15)',None),
'SgiPtpTunnelAddress':('False',None),
'PgwFqdn':(lab(4),None),
'GroupId':(cut(4),None),'AlternativeImsi':(cut(5),None),
'SpecialIEWithTypeExt':(cut(5),None),
'PrivateExtension':('7 ≤ b.length',None),
}

# the kinds whose decoder or size depends on the build
modal = [k for k, _ in conds if arms.get(k) and k not in ('MmContext', 'Unknown')
         and re.findall(r'(\w+) m\b', get(arms[k], 'unmarshal') + get(arms[k], 'len'))]
assert set(modal) == set(T), set(modal) ^ set(T)
HARD = 'Apn ApnRelativeCapacity ExtendedTraceInformation Fcontainer Fqcsid Fqdn Fteid MaxPacketLossRate MbmsIpMulticastDistribution MonitoringEventExtensionInfo NodeNumber PgwFqdn PresenceReportingAreaAction Uli'.split()
SAME = {
 'Fqcsid': """  have h1 : ∀ x : UInt8, (UInt16.ofNat (9 + 2 * (x &&& 15).toNat - 4)).toNat < 65532 := by decide +kernel
  have h2 : ∀ x : UInt8, (UInt16.ofNat (21 + 2 * (x &&& 15).toNat - 4)).toNat < 65532 := by decide +kernel
  simp only [Fqcsid.unmarshal, checkTliv_same (h1 _), checkTliv_same (h2 _)]
  same_mode0 b, h
""",
 'MaxPacketLossRate': """  have h1 : (3 : UInt16).toNat < 65532 := by decide
  have h2 : (5 : UInt16).toNat < 65532 := by decide
  simp only [MaxPacketLossRate.unmarshal, checkTliv_same h1, checkTliv_same h2]
""",
}
def has_mode(k): return re.search(r'\b\w+ m\b', get(arms[k], 'unmarshal'))

# --- the table
out = """import Verif.V2.WrapHard
import Verif.V2.Crash

/-!
# The octets on which a release build panics or does not advance

Expanded by `scripts/gen_wrap.py`.
-/

namespace Gtp.V2

/-- The octets on which the decoder of a kind panics in a release build, if the declared length is 65532 or more. For the kinds
that do not add 4 to the length as `u16` they are those of a debug build. -/
def Kind.WrapCrash (b : Bytes) : Kind → Prop
"""
for k, _ in conds:
    if k in groups or k == 'Unknown': out += f'  | .{k} => 4 ≤ b.length\n'
    elif k in T: out += f'  | .{k} => {T[k][0]}\n'
out += """  | k => k.Crash b

/-- The octets on which the decoder of a kind panics in a release build, for a grouped kind without the octets of the members. -/
def Kind.CrashR (b : Bytes) (k : Kind) : Prop := declN b < 65532 ∧ k.Crash b ∨ 65532 ≤ declN b ∧ k.WrapCrash b

/-- The octets which in a release build are decoded as an IE of the kind whose size is 0 octets. -/
def Kind.Spin (b : Bytes) : Kind → Prop
"""
for k, _ in conds:
    if k in T and T[k][1]: out += f'  | .{k} => declN b = 65532 ∧ {T[k][1]}\n'
out += '  | _ => False\n\nend Gtp.V2\n'
open('/verif/lean/Verif/V2/WrapCrash.lean', 'w').write(out)

# --- the kinds
out = """import Verif.V2.WrapHard

/-!
# The decoders of the kinds in a release build

`same`: for a declared length below 65532 as in a debug build. `wrap`: for the other lengths, the conditions of `Kind.WrapCrash` and
`Kind.Spin`. Expanded by `scripts/gen_wrap.py`.
-/

namespace Gtp.V2

set_option linter.unusedSimpArgs false
set_option linter.unusedVariables false

variable {b : Bytes} {z : Prop}

"""
for k in modal:
    if not has_mode(k): continue
    ns = arms[k]
    out += f'theorem {ns}.same (h : declN b < 65532) : {ns}.unmarshal .release b = {ns}.unmarshal .debug b := by\n'
    out += SAME.get(k, f'  same_mode b, {ns}.unmarshal, h\n') + '\n'
for k in modal:
    if k in HARD: continue
    ns = arms[k]; c, s = T[k]
    out += f"""theorem {ns}.wrap (h : 65532 ≤ declN b) :
    (({ns}.unmarshal .release b).Safe fun x => ({ns}.len .release x).Safe fun n => z → n ≠ 0) ↔
      ¬ ({c}) ∧ (z → ¬ {'(declN b = 65532 ∧ ' + s + ')' if s else 'False'}) := by
  have h1 := (declLen b).toNat_lt
  crash_unfold
  safe_simp [{ns}.unmarshal, {ns}.len, Safe_checkTliv_wrap h, Safe_ieLen16_wrap h, Safe_slBody16_wrap h, Safe_add4_wrap, wrap4 h, ieLenU, size_ne, ← UInt8.toNat_inj, ← UInt16.toNat_inj, UInt8.reduceToNat, UInt16.reduceToNat]
  by_cases hz : z
  · simp only [hz, decide_eq_true_eq, ne_eq, and_false, not_false_eq_true, implies_true, and_true, imp_false, true_implies, false_and, not_true, true_and, iff_true, or_false, false_or]
    try omega
  · simp only [hz, false_implies, implies_true, and_true, imp_false, decide_eq_true_eq, not_false_eq_true, true_and, iff_true, or_false, false_or]
    try omega

"""
out += 'end Gtp.V2\n'
open('/verif/lean/Verif/V2/WrapKinds.lean', 'w').write(out)

# --- the arms
out = open('/verif/lean/Verif/V2/WrapArm.lean').read()
def section(name, body):
    global out
    a = out.index(f'-- begin {name}\n') + len(f'-- begin {name}\n'); b = out.index(f'-- end {name}\n')
    out = out[:a] + body + out[b:]
t = ''
for k, _ in conds:
    if k in groups: t += f'  | {k} => simp only [unmKind, groupUnm_same h]\n'
    elif k == 'Unknown': t += '  | Unknown => simp only [unmKind, Unknown.same h]\n'
    elif k in modal and has_mode(k): t += f'  | {k} => simp only [unmKind, {arms[k]}.same h]\n'
    else: t += f'  | {k} => rfl\n'
section('same', t)
t = ''
for k, _ in conds:
    if k in groups: t += f'  | {k} => cases hk\n'
    elif k == 'Unknown': t += '  | Unknown => exact arm_wrap (fun _ => rfl) (Unknown.wrap hb h)\n'
    elif k in modal: t += f'  | {k} => exact arm_wrap (fun _ => rfl) ({arms[k]}.wrap h)\n'
    elif k == 'MmContext': t += '  | MmContext => exact arm_indep (k := .MmContext) (x := fun m => MmContext.unmarshal m b) rfl rfl (fun x => by cases x <;> rfl) (fun hs => hs) (unmKind_quiet (dec := dec) (k := .MmContext) hb)\n'
    else: t += f'  | {k} => exact arm_indep (k := .{k}) (x := fun m => {arms[k]}.unmarshal m b) rfl rfl (fun _ => rfl) (fun hs => hs) (unmKind_quiet (dec := dec) (k := .{k}) hb)\n'
section('wrap', t)
open('/verif/lean/Verif/V2/WrapArm.lean', 'w').write(out)
