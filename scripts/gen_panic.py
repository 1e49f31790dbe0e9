"""Generates lean/Verif/V2/Crash.lean and lean/Verif/V2/Panic.lean: for every kind of GTPv2-C information element the
condition on the octets under which its decoder panics in a debug build, and the proof that it is exact."""
import re, glob
s = open('/verif/lean/Verif/V2/IESafe.lean').read()
i = s.index('def Kind.Cond'); j = s.index('def Kind.robust')
conds = re.findall(r'\| \.(\w+) => (.*)', s[i:j])
ie = open('/verif/lean/Verif/V2/IE.lean').read()
k = ie.index('def unmKind')
arms = dict(re.findall(r'\| \.(\w+) => do let x ← (\w+)\.unmarshal m b', ie[k:]))
src = ''.join(open(f).read() for f in sorted(glob.glob('/verif/lean/Verif/V2/Ies/*.lean')))
groups = [g for g, c in conds if 'b ≠ []' in c and g not in ('Unknown', 'MmContext')]

def body(ns):
    t = re.search(r'^namespace ' + ns + r'$(.*?)^end ' + ns + '$', src, re.S | re.M).group(1)
    return re.search(r'def unmarshal (.*?)\n\n', t, re.S).group(1)

# the conditions of the kinds with more than the overflow of the length
HARD = {
 'Apn': 'Over 4 b ∨ Full b ∧ ¬ Labels ((b.take (4 + declN b)).drop 4)',
 'Fqdn': 'Over 4 b ∨ Full b ∧ ¬ Labels ((b.take (4 + declN b)).drop 4)',
 'PgwFqdn': 'Over 4 b ∨ Full b ∧ ¬ Labels ((b.take (4 + declN b)).drop 4)',
 'ApnRelativeCapacity': 'Over 4 b ∨ Full b ∧ ¬ Labels ((b.take (4 + declN b)).drop 5)',
 'Indication': '4 ≤ b.length ∧ b.length < declN b + 4',
 'Uli': 'Over 4 b ∨ Full b ∧ b.getD 4 0 &&& 4 = 4 ∧ 8 ≤ octAt b 4 ∧ b.length = 11 + 7 * (octAt b 4 % 2) + 7 * (octAt b 4 / 2 % 2)',
 'Fteid': 'Over 4 b ∨ Full b ∧ b.length < Fteid.need (b.getD 4 0)',
 'S103pdf': 'Over 4 b ∨ Full b ∧ (octAt b 4 = 4 ∧ b.length < 14 ∨ octAt b 4 = 16 ∧ (b.length = 25 ∨ 25 < b.length ∧ b.length = 25 + octAt b 25))',
 'S1udf': 'Over 4 b ∨ Full b ∧ (b.length < 6 ∨ octAt b 5 = 4 ∧ b.length < 14 ∨ octAt b 5 = 16 ∧ 22 ≤ b.length ∧ b.length < 26)',
 'SourceIdentification': '13 ≤ b.length ∧ b.length < 18 ∧ octAt b 12 = 1',
 'MbmsIpMulticastDistribution': 'Over 8 b ∨ 8 ≤ b.length ∧ Full b ∧ ¬ checksIp b 8 fun c => checksIp b c fun c => c ≠ b.length',
 'AdditionalMmContextForSrvcc': '5 ≤ b.length ∧ ¬ checksLv0 b 1 4 fun c => checksLv0 b 1 c fun c => c < b.length',
 'MdtConfiguration': '15 ≤ b.length ∧ ¬ takesLv b 14 fun p => p < b.length ∧ maybe8 b (b.getD p 0 &&& 1 == 1) (p + 1) fun c =>\n      maybe8 b (b.getD p 0 >>> 1 &&& 1 == 1) c fun c => maybe8 b (b.getD p 0 >>> 2 &&& 1 == 1) c fun c =>\n      octAt b p / 8 = 1 → c < b.length',
 'TwanId': '6 ≤ b.length ∧ ¬ takesLv b 5 fun c => flagged (b.getD 4 0 &&& 1 == 1) (takes b 6) c fun c =>\n      flagged (b.getD 4 0 >>> 1 &&& 1 == 1) (guarded b (takesLv b)) c fun c => flagged (b.getD 4 0 >>> 2 &&& 1 == 1) (takes b 3) c fun c =>\n      flagged (b.getD 4 0 >>> 3 &&& 1 == 1) (guarded b (takesText b)) c fun c =>\n      b.getD 4 0 >>> 4 &&& 1 = 1 → c < b.length → checksLv b (c + 1) fun c => c ≠ b.length',
 'NodeNumber': 'Over 5 b ∨ 5 ≤ b.length ∧ Full b ∧ (octAt b 4 = 0 ∨ b.length < octAt b 4 + 5)',
 'PresenceReportingAreaAction': 'Over 4 b ∨ Full b ∧ (b.length < 14 ∨ PresenceReportingAreaAction.extPos b = b.length)',
 'PagingServiceInfo': 'b.length = 6 ∧ octAt b 5 = 1',
 'RemoteUserId': '6 ≤ b.length ∧ b.length < 6 + octAt b 5',
 'ExtendedTraceInformation': '11 ≤ b.length ∧ ¬ checksLv b 10 fun c => checksLv b c fun c => c < b.length → checksLv b (c + 1) fun c =>\n      c < b.length ∧ (octAt b c = 4 → c + 5 ≤ b.length → declN b < 65532) ∧ (octAt b c = 16 → c + 17 ≤ b.length → declN b < 65532)',
 'MonitoringEventExtensionInfo': 'Over 4 b ∨ Full b ∧ (b.length < 10 ∨ b.length = 9 + octAt b 9)',
 'PC5QosFlow': 'Over 4 b ∨ Full b ∧ (b.length < 14 ∨ b.getD 4 0 &&& 1 = 1 ∧ b.length < 15)',
 'SpecialIEWithTypeExt': '5 ≤ b.length ∧ (b.length = 5 ∨ 65532 ≤ declN b ∨ declN b = 1)',
 'PrivateExtension': '7 ≤ b.length ∧ (65532 ≤ declN b ∨ declN b = 1)',
}
# the kinds that panic exactly when the length overflows
OVER = '''AlternativeImsi Apco BearerTft CompleteRequestMessage Epco Fcause Fcontainer Fqcsid GroupId Imsi IntegerNumber IpAddress Ldn
MbmsServiceArea Mei Msisdn NodeIdentifier Pco PdnAddressAllocation RanNasCause RemoteUeIpInformation SgiPtpTunnelAddress
SourceRncPdcpContextInfo StnSr TrafficAggregateDescription'''.split()
CHECKS = ', Safe_checkTliv_debug, Safe_add4_debug, Safe_ieLen16_debug, Safe_slBody16_debug'

SPECIAL = {
'EcgiList': '''  unfold Quiet
  safe_simp [EcgiList.unmarshal]
  refine fun _ => ⟨by omega, by omega, by omega, by omega, by omega, fun _ => trivial, fun _ hn => ?_⟩
  exact rdElems_safe' Ecgi.elem_safe 7 _ b _ 6 _ (by omega) fun l _ => trivial''',
'MaxPacketLossRate': '''  have h3 : (3 : UInt16).toNat = 3 := rfl
  have h5 : (5 : UInt16).toNat = 5 := rfl
  unfold Quiet
  safe_simp [MaxPacketLossRate.unmarshal, MaxPacketLossRate.len, Safe_checkTliv_debug, h3, h5]
  safe_fin''',
}
NAMES = '''  by_cases hl : declN b < 65532
  · crash_unfold
    safe_simp [NS.unmarshal, NS.len CHECKS, hl, Safe_decName]
    by_cases hb : Labels ((b.take (4 + (of16 (b.getD 1 0) (b.getD 2 0)).toNat)).drop DROP)
    · simp only [hb, not_true, and_false, or_false, and_true]
      omega
    · simp only [hb, not_false_eq_true, and_true, and_false, imp_false]
      omega
  · crash_unfold
    safe_simp [NS.unmarshal, NS.len CHECKS, hl, false_and, and_false, imp_false, or_false]
    omega'''.replace(' CHECKS', CHECKS)
PLAINH = '''  crash_unfold
  have h4 : (4 : UInt16).toNat = 4 := rfl
  safe_simp [NS.unmarshal, NS.len CHECKS, ← UInt8.toNat_inj, UInt8.reduceToNat, UInt16.toNat_add, h4, List.length_drop, List.length_take]
  FIN'''.replace(' CHECKS', CHECKS)
for n in ('Apn', 'Fqdn', 'PgwFqdn'):
    SPECIAL[n] = NAMES.replace('NS', n).replace('DROP', '4')
SPECIAL['ApnRelativeCapacity'] = NAMES.replace('NS', 'ApnRelativeCapacity').replace('DROP', '5')
for n in ('Indication', 'SpecialIEWithTypeExt', 'PrivateExtension', 'NodeNumber', 'PC5QosFlow', 'S1udf', 'S103pdf', 'PagingServiceInfo'):
    SPECIAL[n] = PLAINH.replace('NS', n).replace('FIN', 'omega')

def minlen(ns):
    u = body(ns)
    m = re.search(r'if (\d+) ≤ b\.length then', u)
    m2 = re.search(r'if b\.length < (\d+) then', u)
    return m.group(1) if m else (m2.group(1) if m2 else '4')

# the arguments of the theorem `K.safe` of each kind
args = dict(re.findall(r'\| (\w+) => exact safe_arm \(\w+\.safe m b ?(.*?)\) fun _ => rfl', s))

TEMPL = CHECKS + ', hl, false_and, and_false, imp_false, or_false'
crash, thms, final = [], [], []
for k, c in conds:
    if k in groups or k == 'Unknown':
        crash.append((k, 'Over 4 b'))
        continue
    ns = arms[k]
    if k == 'MmContext':
        crash.append((k, 'MmCrash b'))
    elif k in HARD:
        crash.append((k, HARD[k]))
        if k in SPECIAL:
            thms.append(f'theorem {ns}.quiet (b : Bytes) : Quiet {ns}.unmarshal {ns}.len b ↔\n    ¬ ({HARD[k]}) := by\n{SPECIAL[k]}\n')
        final.append((k, f'exact arm_quiet rfl (fun _ => rfl) ({ns}.quiet b)'))
    elif c == 'True':
        crash.append((k, 'False'))
        final.append((k, f'exact arm_never rfl (fun _ => rfl) (quiet_of ({ns}.safe .debug b {args[k]}))'.replace(' ))', '))')))
    elif ns in OVER:
        n = minlen(ns)
        crash.append((k, f'Over {n} b'))
        a = re.sub(r'\bh\b', 'hl', args[k])
        thms.append(f'''theorem {ns}.quiet (b : Bytes) : Quiet {ns}.unmarshal {ns}.len b ↔ ¬ Over {n} b := by
  by_cases hl : (declLen b).toNat < 65532
  · exact iff_of_true (quiet_of ({ns}.safe .debug b {a})) fun h => absurd hl (Nat.not_lt.mpr h.2)
  · crash_unfold
    safe_simp [{ns}.unmarshal, {ns}.len{TEMPL}]
    omega
''')
        final.append((k, f'exact arm_quiet rfl (fun _ => rfl) ({ns}.quiet b)'))
    else:
        crash.append((k, 'False'))
        a = re.sub(r'\bh\b', 'hl', args[k])
        if k in SPECIAL:
            pr = SPECIAL[k]
        else:
            pr = f'''  by_cases hl : (declLen b).toNat < 65532
  · exact quiet_of ({ns}.safe .debug b {a})
  · unfold declLen at *
    unfold Quiet
    safe_simp [{ns}.unmarshal, {ns}.len{TEMPL}]
    first | omega | safe_fin'''
        thms.append(f'theorem {ns}.quiet (b : Bytes) : Quiet {ns}.unmarshal {ns}.len b := by\n{pr}\n')
        final.append((k, f'exact arm_never rfl (fun _ => rfl) ({ns}.quiet b)'))
final = dict(final)
for g in groups:
    if g in ('OverloadControlInfo', 'LoadControlInfo'):
        final[g] = 'exact group_list_quiet rfl (fun _ => trivial) (groupUnm_quiet hb)'
    elif g == 'PC5QosParameters':
        final[g] = 'exact group_flows_quiet (groupUnm_quiet hb)'
    else:
        final[g] = 'exact group_quiet rfl (fun _ => trivial) (groupUnm_quiet hb)'
final['Unknown'] = 'exact arm_quiet rfl (fun _ => rfl) (Unknown.quiet hb)'
final['MmContext'] = 'exact arm_quiet rfl (fun _ => rfl) (MmContext.quiet b)'

HEAD = '''import Verif.V2.%s

/-!
# %s

Expanded by `scripts/gen_panic.py`.
-/

namespace Gtp.V2

'''
out = HEAD % ('PanicMm', 'The octets on which the decoder of an information element panics in a debug build') + '''/-- The kinds that have members. -/
def Kind.grouped : Kind → Bool
''' + '\n'.join(f'  | .{g} => true' for g in groups) + '''
  | _ => false

/-- The kinds whose decoder panics on no octets at all, in a debug build. -/
def Kind.calm : Kind → Bool
''' + '\n'.join(f'  | .{k} => true' for k, c in crash if c == 'False') + '''
  | _ => false

/-- The octets from which the decoder cannot make an IE of the kind without panicking, in a debug build; for a grouped kind
without the octets of the members. -/
def Kind.Crash (b : Bytes) : Kind → Prop
''' + '\n'.join(f'  | .{k} => {c}' for k, c in crash) + '\n\nend Gtp.V2\n'
open('/verif/lean/Verif/V2/Crash.lean', 'w').write(out)
out = HEAD % ('PanicHard', 'When the decoder of an information element panics: the kinds without a cursor') + '''set_option linter.unusedSimpArgs false

''' + '\n'.join(thms) + '\nend Gtp.V2\n'
open('/verif/lean/Verif/V2/PanicKinds.lean', 'w').write(out)
out = open('/verif/lean/Verif/V2/PanicArm.lean').read()
i = out.index('  cases k with\n')
out = out[:i] + '  cases k with\n' + '\n'.join(f'  | {k} => {final[k]}' for k, _ in conds) + '\n\nend Gtp.V2\n'
open('/verif/lean/Verif/V2/PanicArm.lean', 'w').write(out)
