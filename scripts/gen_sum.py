#!/usr/bin/env python3
"""Generates the GTPv2-C grouped IEs, the sum type of all IEs and its dispatch functions.

Writes lean/Verif/V2/Group.lean and lean/Verif/V2/IE.lean from the tables below.
"""
import os
import re

ROOT = os.path.dirname(os.path.dirname(os.path.abspath(__file__)))
V2 = os.path.join(ROOT, 'lean', 'Verif', 'V2')

# constructor of InformationElement, struct, types decoded as it (ie.rs:174-321, 483-1525)
KINDS = []
for line in '''Imsi 1;Cause 2;Recovery 3;StnSr 51;SrvccCause 56;Apn 71;ApnAmbr:Ambr 72;Ebi 73;IpAddress 74;Mei 75;Msisdn 76;
Indication 77;Pco 78;PdnAddressAllocation 79;BearerQos 80;FlowQos 81;RatType 82;ServingNetwork 83;BearerTft 84;
TrafficAggregateDescription 85;Uli 86;Fteid 87;Tmsi 88;GlobalCnId 89;S103pdf 90;S1udf 91;DelayValue 92;BearerContext 93;
ChargingId 94;ChargingCharacteristics 95;TraceInformation 96;BearerFlags 97;PdnType 99;Pti 100;
MmContext 103,104,105,106,107,108;PdnConnections 109;PduNumbers 110;Ptmsi 111;PtmsiSignature 112;HopCounter 113;
UeTimeZone 114;TraceReference 115;CompleteRequestMessage 116;Guti 117;Fcontainer 118;Fcause 119;PlmnId 120;
TargetIdentification 121;PacketFlowId 123;RabContext 124;SrcRncPdcpCtxInfo:SourceRncPdcpContextInfo 125;PortNumber 126;
ApnRestriction 127;SelectionMode 128;SourceIdentification 129;ChangeReportingAction 131;Fqcsid 132;ChannelNeeded 133;
EmlppPriority 134;NodeType 135;Fqdn 136;TransactionIdentifier 137;MbmsSa:MbmsServiceArea 139;MbmsSd:MbmsSessionDuration 138;
MbmsSessionId 140;MbmsFlowId 141;MbmsIpMulticastDistribution 142;MbmsDistributionAck 143;RfspIndex 144;Uci 145;
CSGInformationReportingAction 146;CsgId 147;CsgMembershipIndication 148;ServiceIndicator 149;DetachType 150;Ldn 151;
NodeFeatures 152;MbmsTimeToDataTransfer 153;Throttling 154;Arp 155;EpcTimer 156;Spi 157;Tmgi 158;
AdditionalMmContextForSrvcc 159;AdditionalFlagsSrvcc 160;MdtConfiguration 162;Apco 163;AbsoluteTimeMbmsDataTransfer 164;
HenbInfoReporting 165;Ip4Cp 166;ChangeToReportFlags 167;ActionIndication 168,169;TwanId -;UliTimestamp 170;MbmsFlags 171;
RanNasCause 172;CnOperatorSelectionEntity 173;Twmi 174;NodeNumber 175;NodeIdentifier 176;PresenceReportingAreaAction 177;
PresenceReportingAreaInformation 178;TwanIdTimeStamp 179;OverloadControlInfo 180;LoadControlInfo:LoadControl 181;Metric 182;
Sqn 183;ApnRelativeCapacity 184;WlanOffloadIndication 185;PagingServiceInfo 186;IntegerNumber 187;MilliSecondTimeStamp 188;
MonitoringEventInformation 189;EcgiList 190;RemoteUeContext 191;RemoteUserId 192;RemoteUeIpInformation 193;
CIoTOptimizationSupportIndication 194;ScefPdnConnections 195;HeaderCompressionConfiguration 196;Epco 197;
ServingPlmnRateControl 198;Counter 199;MappedUeUsageType 200;SecondaryRatUsageDataReport 201;
UpFunctionSelectionIndicationFlags 202;MaxPacketLossRate 203;ApnRateControlStatus 204;ExtendedTraceInformation 205;
MonitoringEventExtensionInfo 206;AdditionalRrmPolicyIndex 207;V2xInformation 208;PC5QosParameters 209;ServicesAuthorized 210;
BitRate 211;PC5QosFlow 212;SgiPtpTunnelAddress 213;PgwChangeInfo 214;PgwFqdn 215;GroupId 216;PSCellId 217;
UpSecurityPolicy 218;AlternativeImsi 219;SpecialIEWithTypeExt 254;PrivateExtension 255;Unknown *'''.replace('\n', '').split(';'):
    n, ts = line.split(' ')
    c, s = n.split(':') if ':' in n else (n, n)
    KINDS.append((c, s, [int(x) for x in ts.split(',')] if ts not in '-*' else ts))


def check_table():
    """Compare the table with the source when it is available."""
    p = '/repo/src/gtpv2/messages/ies/ie.rs'
    if not os.path.exists(p):
        return
    src = open(p).read()
    en = re.search(r'pub enum InformationElement \{(.*?)\n\}', src, re.S).group(1)
    assert [(c, s) for c, s, _ in KINDS] == re.findall(r'(\w+)\((?:Box<)?(\w+)>?\)', en)
    arms = re.findall(r'^                (\S+) => (?:\{\n *//.*\n *)?match (\w+)::unmarshal', src, re.M)
    want = []
    for a, s in arms:
        if '..=' in a:
            lo, hi = a.split('..=')
            want += [(i, s) for i in range(int(lo), int(hi) + 1)]
        elif a != '_':
            want.append((int(a), s))
    assert sorted((t, s) for _, s, ts in KINDS if isinstance(ts, list) for t in ts) == sorted(want)


check_table()
CTOR = {s: c for c, s, _ in KINDS}

# grouped IEs: struct, type, file, (struct lines, from lines, to_vec lines), fields (name, slot kind, struct, instance condition), to_vec order
#   man1: mandatory, first one wins (flag); manL: the last one wins; opt: first one wins; optL: the last one wins;
#   lastL: `Some(vec![last])`; vec: all; gone: never read back
G = []


def group(name, ty, file, lines, fields, order, check='', dlen=0):
    G.append((name, ty, file, lines, [tuple(f.split()) for f in fields.strip().split('\n')], order.split(), check, dlen))


group('BearerContext', 93, 'bearercontext.rs', ('9-28', '65-138', '171-224'), '''
ebi man1 Ebi =0
cause opt Cause =0
tft opt BearerTft =0
fteids vec Fteid *
bearer_qos opt BearerQos =0
charging_id opt ChargingId =0
bearer_flags opt BearerFlags =0
pco opt Pco =0
apco opt Apco =0
epco opt Epco =0
max_packet_loss opt MaxPacketLossRate =0
ran_nas_cause opt RanNasCause =0
bss_container opt Fcontainer =0
transaction_id opt TransactionIdentifier =0''',
      'cause ebi tft fteids bearer_qos charging_id bearer_flags pco apco epco max_packet_loss ran_nas_cause')
group('LoadControl', 181, 'loadcontrolinfo.rs', ('9-17', '43-61', '97-109'), '''
sqn manL Sqn *
load_metric manL Metric *
list lastL ApnRelativeCapacity *''', 'sqn load_metric list')
group('OverloadControlInfo', 180, 'overloadcontrolinfo.rs', ('9-18', '45-64', '100-113'), '''
sqn manL Sqn *
metric manL Metric *
validity manL EpcTimer *
list lastL Apn *''', 'sqn metric validity list')
group('RemoteUeContext', 191, 'remoteuecontext.rs', ('9-16', '41-54', '85-94'), '''
user_id manL RemoteUserId *
ue_ip optL RemoteUeIpInformation *''', 'user_id ue_ip')
group('ScefPdnConnections', 195, 'scefpdnconnections.rs', ('9-17', '43-69', '100-108'), '''
apn manL Apn =0
default_ebi manL Ebi =0
scef_id manL NodeIdentifier =0''', 'apn default_ebi scef_id')
group('PC5QosParameters', 209, 'pc5qosparameters.rs', ('9-16', '41-62', '97-108'), '''
pc5_qos_flows vec PC5QosFlow =0
pc5_link_abrs opt BitRate =0''', 'pc5_qos_flows pc5_link_abrs', check='nonempty')
group('PgwChangeInfo', 214, 'pgwchangeinfo.rs', ('9-18', '45-76', '107-120'), '''
pgw_fqdns vec PgwFqdn <2
sgw_pgw_smf_ips vec IpAddress <4
pgw_smf_fqcsid vec Fqcsid =0
groupids vec GroupId <2''', 'sgw_pgw_smf_ips pgw_fqdns pgw_smf_fqcsid groupids')
group('PdnConnections', 109, 'pdnconnections.rs', ('9-39', '87-211', '242-332'), '''
apn manL Apn =0
apn_restriction opt ApnRestriction =0
selection_mode opt SelectionMode =0
ipv4 opt IpAddress =0
ipv6 opt IpAddress =1
linked_ebi manL Ebi =0
pgw_addr_control manL Fteid =0
pgw_node_name opt Fqdn =0
bearer_ctxs vec BearerContext =0
apn_ambr manL Ambr =0
charging_char opt ChargingCharacteristics =0
change_reporting_action opt ChangeReportingAction =0
csg_info_reporting_action opt CSGInformationReportingAction =0
henb_info_reporting opt HenbInfoReporting =0
indication opt Indication =0
signalling_priority_indication opt Spi =0
change_to_report_flags opt ChangeToReportFlags =0
local_home_network_id opt Fqdn =1
praa opt PresenceReportingAreaAction =0
wlan_offloadability opt WlanOffloadIndication =0
remote_ue_ctxs vec RemoteUeContext =0
pdn_type opt PdnType =0
hdr_compr_config opt HeaderCompressionConfiguration =0
pgw_change_info gone PgwChangeInfo *
up_security_policy gone UpSecurityPolicy *''',
      '''apn apn_restriction selection_mode ipv4 ipv6 linked_ebi pgw_addr_control pgw_node_name bearer_ctxs apn_ambr charging_char
change_reporting_action csg_info_reporting_action henb_info_reporting indication signalling_priority_indication
change_to_report_flags local_home_network_id praa wlan_offloadability remote_ue_ctxs pdn_type hdr_compr_config''')
group('V2xInformation', 208, 'v2xinformation.rs', ('9-17', '43-69', '100-114'), '''
services_auth vec ServicesAuthorized <2
sidelink_max_brs vec BitRate <2
pc5_qos_params opt PC5QosParameters =0''', 'services_auth sidelink_max_brs pc5_qos_params')
GN = [g[0] for g in G]
DEFAULTS = {'Ebi': '⟨73, 1, 0, 0⟩', 'Sqn': '⟨183, 4, 0, 0⟩', 'Metric': '⟨182, 1, 0, 0⟩', 'EpcTimer': '⟨156, 1, 0, 0, 0⟩',
            'RemoteUserId': '⟨192, 0, 0, [], none, none⟩', 'Apn': '⟨71, 0, 0, []⟩', 'NodeIdentifier': '⟨176, 0, 0, [], []⟩',
            'Fteid': '⟨87, 9, 0, 0, 0, some (ip4 0 0 0 0), none⟩', 'Ambr': '⟨72, 8, 0, 0, 0⟩'}
DLINES = {'Ebi': 'ebi.rs:23-32', 'Sqn': 'sqn.rs:24-33', 'Metric': 'metric.rs:24-33', 'EpcTimer': 'epctimer.rs:25-35',
          'RemoteUserId': 'remoteuserid.rs:25-36', 'Apn': 'apn.rs:23-32', 'NodeIdentifier': 'nodeidentifier.rs:24-34',
          'Fteid': 'fteid.rs:70-82', 'Ambr': 'ambr.rs:25-35'}


def ftype(k, s):
    return {'man1': s, 'manL': s, 'opt': 'Option ' + s, 'optL': 'Option ' + s, 'gone': 'Option ' + s,
            'lastL': 'Option (List %s)' % s, 'vec': 'List ' + s}[k]


def fdef(k, s):
    return {'man1': s + '.dflt', 'manL': s + '.dflt', 'vec': '[]'}.get(k, 'none')


def cond(c, v='k'):
    return {'*': None, '=': '%s.ins = %s' % (v, c[1:]), '<': '%s.ins < %s' % (v, c[1:])}[c[0]]


def gen_group():
    o = ['''import Verif.V2.Ies.Numeric1
import Verif.V2.Ies.Numeric2
import Verif.V2.Ies.Enums
import Verif.V2.Ies.Flags
import Verif.V2.Ies.Plmn
import Verif.V2.Ies.Octets
import Verif.V2.Ies.Strings
import Verif.V2.Ies.Bits
import Verif.V2.Ies.Var1
import Verif.V2.Ies.Var2
import Verif.V2.Ies.Names
import Verif.V2.Ies.Loc
import Verif.V2.Ies.Var3
import Verif.V2.Ies.Var4
import Verif.V2.Ies.Var5
import Verif.V2.Ies.MmCtx

/-!
# Grouped IEs and the sum of all IEs

Generated by `scripts/gen_sum.py`. The structures of the grouped IEs and
`enum InformationElement` (src/gtpv2/messages/ies/ie.rs:174-321). `Box` is dropped.
-/

namespace Gtp.V2
''']
    for s in DEFAULTS:
        o.append('/-- `%s::default()` (%s). -/\ndef %s.dflt : %s := %s\n' % (s, DLINES[s], s, s, DEFAULTS[s]))
    for (n, ty, f, ln, fs, order, chk, dl) in G:
        o.append('/-- `struct %s` (%s:%s). -/\nstructure %s where\n  t : UInt8\n  length : UInt16\n  ins : UInt8\n%s\nderiving DecidableEq, Repr\n' % (
            n, f, ln[0], n, '\n'.join('  %s : %s' % (x[0], ftype(x[1], x[2])) for x in fs)))
    o.append('''/-- `struct Unknown` (unknown.rs:11-17). -/
structure Unknown where
  t : UInt8
  length : UInt16
  ins : UInt8
  value : Bytes
deriving DecidableEq, Repr

/-- `enum InformationElement` (ie.rs:174-321). -/
inductive IE where
%s
deriving DecidableEq, Repr

/-- The arms of the decoder's `match` (ie.rs:493-1522), named after the IE they produce. -/
inductive Kind where
%s
deriving DecidableEq, Repr

end Gtp.V2''' % ('\n'.join('  | %s (v : V2.%s)' % (c, s) for c, s, _ in KINDS),
                '\n'.join('  | %s' % c for c, _, _ in KINDS)))
    return '\n'.join(o) + '\n'


def seg(f):
    """Segment of to_vec produced by one field."""
    n, k, st = f[0], f[1], f[2]
    c = '.' + CTOR[st]
    if k in ('man1', 'manL'):
        return '[%s x.%s]' % (c, n)
    if k in ('opt', 'optL'):
        return 'optV %s x.%s' % (c, n)
    if k == 'lastL':
        return '(x.%s.getD []).map %s' % (n, c)
    return 'x.%s.map %s' % (n, c)


def gen_ie():
    o = ["""import Verif.V2.Group

/-!
# Encoder and decoder of IE sequences (src/gtpv2/messages/ies/ie.rs, groupedie.rs and the grouped IEs)

Generated by `scripts/gen_sum.py`.

The Rust functions are mutually recursive through the grouped IEs: `InformationElement::marshal` calls
`BearerContext::marshal`, which calls `InformationElement::encoder` on the members. The recursion is opened here:
`IE.marshalWith enc` and `unmKind dec` take the recursive call as a parameter. For encoding the knot is tied by iterating
three times, which is enough as the static types allow no deeper nesting (`IE.marshal_eq` shows that the result is a fixed
point). For decoding it is tied by `decodeF` with fuel; `decodeF_fuel` shows that the result does not depend on the fuel.
-/

namespace Gtp.V2

/-- `if let Some(i) = x { v.push(i.into()) }`. -/
def optV {α : Type} (f : α → IE) (o : Option α) : List IE := o.toList.map f
"""]
    for (n, ty, f, ln, fs, order, chk, dl) in G:
        d = {x[0]: x for x in fs}
        o.append('namespace %s\n' % n)
        o.append('/-- `%s::default()` with the header fields set (%s:%s). -/' % (n, f, ln[1]))
        o.append('def init (t : UInt8) (length : UInt16) (ins : UInt8) : %s :=\n  { t, length, ins, %s }\n' % (
            n, ', '.join('%s := %s' % (x[0], fdef(x[1], x[2])) for x in fs)))
        man1 = [x for x in fs if x[1] == 'man1']
        st = '%s × Bool' % n if man1 else n
        x_ = 's.1' if man1 else 's'

        def upd(u):
            return '({ s.1 with %s }, s.2)' % u if man1 else '{ s with %s }' % u
        arms = {}
        for a in fs:
            fn, k, sn, c = a
            cs = []
            if cond(c):
                cs.append(cond(c))
            if k == 'man1':
                cs.append('s.2 = false')
                val = '({ s.1 with %s := k }, true)' % fn
            elif k == 'manL':
                val = upd('%s := k' % fn)
            elif k == 'opt':
                cs.append('%s.%s = none' % (x_, fn))
                val = upd('%s := some k' % fn)
            elif k == 'optL':
                val = upd('%s := some k' % fn)
            elif k == 'lastL':
                val = upd('%s := some [k]' % fn)
            elif k == 'vec':
                val = upd('%s := %s.%s ++ [k]' % (fn, x_, fn))
            else:
                continue
            arms.setdefault(sn, []).append((' ∧ '.join(cs), val))
        o.append('/-- One turn of the loop over the members (%s:%s). -/\ndef step (s : %s) : IE → %s' % (f, ln[1], st, st))
        for sn, l in arms.items():
            e = ''
            for c, v in l:
                e += 'if %s then %s else ' % (c, v) if c else v
            if l[-1][0]:
                e += 's'
            o.append('  | .%s k => %s' % (CTOR[sn], e))
        o.append('  | _ => s\n')
        o.append('/-- `From<GroupedIe> for %s` (%s:%s). -/' % (n, f, ln[1]))
        if man1:
            o.append('def ofGroup (t : UInt8) (length : UInt16) (ins : UInt8) (l : List IE) : %s :=\n  (l.foldl step (init t length ins, false)).1\n' % n)
        else:
            o.append('def ofGroup (t : UInt8) (length : UInt16) (ins : UInt8) (l : List IE) : %s :=\n  l.foldl step (init t length ins)\n' % n)
        o.append('/-- `to_vec` (%s:%s). -/\ndef toVec (x : %s) : List IE :=\n  %s\n' % (f, ln[2], n, ' ++ (\n  '.join(seg(d[y]) for y in order) + ')' * (len(order) - 1)))
        o.append('end %s\n' % n)
    o.append("""namespace IE

/-- `GroupedIe::marshal` (groupedie.rs:27-35) on the members, given the encoder of one IE. -/
def groupMar (enc : IE → Bytes) (ty : UInt8) (length : UInt16) (ins : UInt8) (l : List IE) : Bytes :=
  tliv ty length ins (l.flatMap enc)

/-- `InformationElement::marshal` (ie.rs:324-473), given the encoder used for the members of grouped IEs. For grouped IEs
this is `GroupedIe::from(self.clone()).marshal(buffer)`; for `Unknown` unknown.rs:26-34. -/
def marshalWith (enc : IE → Bytes) : IE → Bytes
%s

/-- `InformationElement::marshal` (ie.rs:324-473): the octets appended to the buffer. -/
def marshal : IE → Bytes := marshalWith (marshalWith (marshalWith fun _ => []))

/-- `InformationElement::encoder` (ie.rs:475-479). -/
def encoder (l : List IE) : Bytes := l.flatMap marshal

/-- `i.len()` as used by the decoder. -/
def len (m : Mode) : IE → R Err Nat
%s

/-- The field `ins`. -/
def ins : IE → UInt8
%s

/-- The field `t`. -/
def t : IE → UInt8
%s

/-- The field `length`. -/
def length : IE → UInt16
%s

/-- The arm of the decoder that produces an IE of this constructor. -/
def kind : IE → Kind
%s

end IE

/-- The decoder's `match buffer[cursor]` (ie.rs:492-1522): pattern and arm; the last arm is `_`. -/
def kindTable : List (UInt8 × Kind) :=
  [%s]

/-- The arm taken for a type octet. -/
def kindOf (t : UInt8) : Kind := (kindTable.lookup t).getD .Unknown

/-- `GroupedIe::unmarshal` (groupedie.rs:37-58), given the decoder of IE sequences. -/
def groupUnm {α : Type} (dec : Bytes → R Err (List IE)) (mk : UInt8 → UInt16 → UInt8 → List IE → α) (m : Mode) (b : Bytes) :
    R Err α := do
  if 4 ≤ b.length then
    let t ← rd b 0
    let length ← rd16 b 1
    let ins ← rd b 3
    let ok ← checkTliv m length b
    if ok then
      let body ← slBody16 m b length
      let l ← dec body
      return mk t length ins l
    else .err (.ieInvalidLength t)
  else
    let t ← rd b 0
    .err (.ieInvalidLength t)

/-- `Unknown::unmarshal` (unknown.rs:36-53): the type is not kept. -/
def Unknown.unmarshal (m : Mode) (b : Bytes) : R Err Unknown := do
  if 4 ≤ b.length then
    let length ← rd16 b 1
    let ins ← rd b 3
    let ok ← checkTliv m length b
    if ok then
      let value ← slBody16 m b length
      return { t := 0, length, ins, value }
    else .err (.ieInvalidLength 0)
  else
    let t ← rd b 0
    .err (.ieInvalidLength t)

/-- `if let Some(i) = data.list { if i.len() > 10 { return Err(IEIncorrect(ty)) } }` (loadcontrolinfo.rs:74-78,
overloadcontrolinfo.rs:77-81). -/
def listCheck {α β : Type} (ty : UInt8) (l : α → Option (List β)) (x : α) : R Err α :=
  match l x with
  | some v => if 10 < v.length then .err (.ieIncorrect ty) else .ok x
  | none => .ok x

/-- `X::unmarshal(&buffer[cursor..])` of the arm (ie.rs:493-1522), given the decoder used for the members of grouped IEs. -/
def unmKind (dec : Bytes → R Err (List IE)) (m : Mode) (b : Bytes) : Kind → R Err IE
%s

/-- One turn of the decoder's loop (ie.rs:492-1523) on `&buffer[cursor..]`: the IE and the number of octets by which the
cursor advances. -/
def decodeOne (dec : Bytes → R Err (List IE)) (m : Mode) (b : Bytes) : R Err (IE × Nat) := do
  let t ← rd b 0
  let x ← unmKind dec m b (kindOf t)
  let n ← x.len m
  return (x, n)

/-- `InformationElement::decoder` (ie.rs:481-1525). `buffer[cursor..]` is the argument; a turn that does not advance the
cursor is repeated forever. The first argument bounds the recursion. -/
def decodeF : Nat → Mode → Bytes → R Err (List IE)
  | 0, _, _ => .diverge
  | f + 1, m, b =>
    if b = [] then .ok []
    else do
      let (x, n) ← decodeOne (decodeF f m) m b
      if n = 0 then .diverge
      else
        let l ← decodeF f m (b.drop n)
        return x :: l

/-- `InformationElement::decoder` (ie.rs:481-1525). -/
def decoder (m : Mode) (b : Bytes) : R Err (List IE) := decodeF (b.length + 1) m b

end Gtp.V2""")
    mar, ln_, ins, tt, lg, kd, unm = [], [], [], [], [], [], []
    for c, s, ts in KINDS:
        g = [x for x in G if x[0] == s]
        if g:
            mar.append('  | .%s x => groupMar enc %d x.length x.ins x.toVec' % (c, g[0][1]))
            ln_.append('  | .%s x => ieLenU x.length' % c)
            mk = 'groupUnm dec %s.ofGroup m b' % s
            if s in ('LoadControl', 'OverloadControlInfo'):
                u = 'do let x ← %s; let x ← listCheck %d %s.list x; return .%s x' % (mk, g[0][1], s, c)
            elif s == 'PC5QosParameters':
                u = 'do\n      let x ← %s\n      if x.pc5_qos_flows = [] then .err (.ieIncorrect 209) else return .%s x' % (mk, c)
            else:
                u = 'do let x ← %s; return .%s x' % (mk, c)
            unm.append('  | .%s => %s' % (c, u))
        elif s == 'Unknown':
            mar.append('  | .%s x => tliv x.t x.length x.ins x.value' % c)
            ln_.append('  | .%s x => ieLenU x.length' % c)
            unm.append('  | .%s => do let x ← Unknown.unmarshal m b; return .%s x' % (c, c))
        else:
            mar.append('  | .%s x => x.marshal' % c)
            ln_.append('  | .%s x => x.len m' % c)
            unm.append('  | .%s => do let x ← %s.unmarshal m b; return .%s x' % (c, s, c))
        ins.append('  | .%s x => x.ins' % c)
        tt.append('  | .%s x => x.t' % c)
        lg.append('  | .%s x => x.length' % c)
        kd.append('  | .%s _ => .%s' % (c, c))
    disp = sorted((t, c) for c, _, ts in KINDS if isinstance(ts, list) for t in ts)
    k = ',\n   '.join(', '.join('(%d, .%s)' % x for x in disp[i:i + 4]) for i in range(0, len(disp), 4))
    return '\n'.join(o) % tuple('\n'.join(x) if isinstance(x, list) else x for x in (mar, ln_, ins, tt, lg, kd, k, unm)) + '\n'


LEVEL = {g[0]: 1 for g in G}
LEVEL['PdnConnections'] = 2
LEVEL['V2xInformation'] = 2
BAD = ['TraceReference', 'TwanId']


def slots(g):
    """Conditions under which the members of a grouped IE are read back."""
    (n, ty, f, ln, fs, order, chk, dl) = g
    out = []
    for a in fs:
        fn, k, sn, c = a
        if fn not in order:
            out.append(('h_' + fn, 'x.%s = none' % fn))
        elif k in ('man1', 'manL'):
            if cond(c):
                out.append(('h_' + fn, cond(c, 'x.' + fn)))
        elif k == 'lastL':
            out.append(('h_' + fn, 'x.%s = none ∨ (x.%s.getD []).length = 1' % (fn, fn)))
        elif cond(c):
            out.append(('h_' + fn, '∀ k ∈ x.%s, %s' % (fn, cond(c))))
    if chk == 'nonempty':
        out.append(('h_ne', 'x.%s ≠ []' % fs[0][0]))
    return out


def gen_thm():
    o = ["""import Verif.V2.IE

/-!
# Facts about the encoder and decoder of IE sequences

Generated by `scripts/gen_sum.py`.
-/

namespace Gtp.V2

theorem flatMap_ext {α β : Type} {f g : α → List β} : {l : List α} → (∀ x ∈ l, f x = g x) → l.flatMap f = l.flatMap g
  | [], _ => rfl
  | x :: l, h => by
    rw [List.flatMap_cons, List.flatMap_cons, h x List.mem_cons_self,
      flatMap_ext fun y hy => h y (List.mem_cons_of_mem _ hy)]

theorem mem_optV {α : Type} {f : α → IE} {o : Option α} {e : IE} : e ∈ optV f o ↔ ∃ k, o = some k ∧ e = f k := by
  cases o <;> simp [optV, eq_comm]

theorem foldl_optV {σ α : Type} (step : σ → IE → σ) (f : α → IE) (s : σ) (o : Option α) :
    (optV f o).foldl step s = match o with | none => s | some k => step s (f k) := by
  cases o <;> rfl
"""]
    for g in G:
        (n, ty, f, ln, fs, order, chk, dl) = g
        d = {x[0]: x for x in fs}
        man1 = any(x[1] == 'man1' for x in fs)
        x_ = 's.1' if man1 else 's'

        def upd(u):
            return '({ s.1 with %s }, s.2)' % u if man1 else '{ s with %s }' % u
        sl = slots(g)
        o.append('namespace %s\n' % n)
        o.append('/-- The members are of the kinds and instances that the decoder keeps. -/\ndef Slots (x : %s) : Prop :=\n  %s\n' % (n, ' ∧\n  '.join('(%s)' % c for _, c in sl) or 'True'))
        o.append('instance (x : %s) : Decidable x.Slots := by unfold Slots; infer_instance\n' % n)
        o.append('section\nvariable (s : %s)\n' % ('%s × Bool' % n if man1 else n))
        for fn in order:
            _, k, sn, c = d[fn]
            ct = '.' + CTOR[sn]
            if k in ('opt', 'optL'):
                o.append('theorem seg_%s {o : Option %s}%s%s :\n    (optV %s o).foldl step s = %s := by' % (
                    fn, sn, ' (hs : %s.%s = none)' % (x_, fn),
                    ' (h : ∀ k ∈ o, %s)' % cond(c) if cond(c) else '', ct, upd('%s := o' % fn)))
                o.append('  cases o with\n  | none => simp only [optV, Option.toList_none, List.map_nil, List.foldl_nil]; rw [← hs]\n  | some k => simp [optV, step, hs%s]\n' % (', h k rfl' if cond(c) else ''))
            elif k == 'vec':
                o.append('theorem seg_%s {l : List %s}%s :\n    (l.map %s).foldl step s = %s := by' % (
                    fn, sn, ' (h : ∀ k ∈ l, %s)' % cond(c) if cond(c) else '', ct, upd('%s := %s.%s ++ l' % (fn, x_, fn))))
                o.append('  induction l generalizing s with\n  | nil => simp\n  | cons k l ih =>\n    simp only [List.map_cons, List.foldl_cons]\n    rw [ih _%s]\n    simp [step%s]\n' % (
                    ' (fun k hk => h k (List.mem_cons_of_mem _ hk))' if cond(c) else '', ', h k List.mem_cons_self' if cond(c) else ''))
            elif k == 'lastL':
                o.append('theorem seg_%s {o : Option (List %s)} (hs : s.%s = none) (h : o = none ∨ (o.getD []).length = 1) :\n    ((o.getD []).map %s).foldl step s = { s with %s := o } := by' % (fn, sn, fn, ct, fn))
                o.append('  match o, h with\n  | none, _ => simp only [Option.getD_none, List.map_nil, List.foldl_nil]; rw [← hs]\n  | some [k], _ => rfl\n  | some [], h => simp at h\n  | some (_ :: _ :: _), h => simp at h\n')
            elif k == 'manL':
                o.append('theorem seg_%s {k : %s}%s : [%s k].foldl step s = { s with %s := k } := by\n  simp [step%s]\n' % (
                    fn, sn, ' (h : %s)' % cond(c) if cond(c) else '', 'IE' + ct, fn, ', h' if cond(c) else ''))
            else:
                o.append('theorem seg_%s {k : %s} (hs : s.2 = false) (h : %s) : [%s k].foldl step s = ({ s.1 with %s := k }, true) := by\n  simp [step, h, hs]\n' % (
                    fn, sn, cond(c), 'IE' + ct, fn))
        o.append('end\n')
        hn = dict(sl)
        o.append('theorem ofGroup_toVec {x : %s} (h : x.Slots) : ofGroup x.t x.length x.ins x.toVec = x := by' % n)
        o.append('  obtain ⟨%s⟩ := x' % ', '.join(['t', 'length', 'ins'] + [x[0] for x in fs]))
        if sl:
            o.append('  obtain ⟨%s⟩ := h' % ', '.join(h for h, _ in sl) if len(sl) > 1 else '  have %s := h\n  unfold Slots at %s' % (sl[0][0], sl[0][0]))
            o.append('  simp only at %s' % ' '.join(h for h, _ in sl))
        gone = ['h_' + x[0] for x in fs if x[0] not in order]
        if gone:
            o.append('  subst %s' % ' '.join(gone))
        o.append('  simp only [ofGroup, toVec, List.foldl_append, init]')
        rws = []
        for fn in order:
            _, k, sn, c = d[fn]
            a = 'seg_%s _' % fn
            if k in ('opt', 'optL', 'lastL', 'man1'):
                a += ' (by rfl)'
            if 'h_' + fn in hn:
                a += ' h_' + fn
            rws.append(a)
        for a in rws:
            o.append('  rw [%s]' % a)
        o.append('  %s\n' % ('simp' if any(x[1] == 'vec' for x in fs) else ''))
        o.append('end %s\n' % n)
    groups = [(c, s, [g for g in G if g[0] == s][0]) for c, s, _ in KINDS if s in GN]
    plain = [(c, s) for c, s, _ in KINDS if s not in GN]
    o.append("""namespace IE

/-- The members of a grouped IE. -/
def members : IE → List IE
%s
  | _ => []

/-- Nesting depth. -/
def depth : IE → Nat
%s
  | _ => 0
""" % ('\n'.join('  | .%s x => x.toVec' % c for c, s, g in groups), '\n'.join('  | .%s _ => %d' % (c, LEVEL[s]) for c, s, g in groups)))
    o.append("theorem depth_members {e y : IE} (h : y ∈ e.members) : y.depth < e.depth := by\n  cases e with")
    for c, s, g in groups:
        k = len(g[5])
        o.append('  | %s x =>\n    simp only [members, %s.toVec, List.mem_append, mem_optV, List.mem_singleton, List.mem_map] at h' % (c, s))
        pats = []
        dd = {x[0]: x for x in g[4]}
        for fn in g[5]:
            kk = dd[fn][1]
            pats.append('rfl' if kk in ('man1', 'manL') else '⟨_, _, rfl⟩')
        o.append('    rcases h with %s <;> simp [depth]' % ' | '.join(pats))
    o.append("  | _ => simp [members] at h\n")
    o.append("""theorem marshalWith_congr {f g : IE → Bytes} {e : IE} (h : ∀ y ∈ e.members, f y = g y) :
    marshalWith f e = marshalWith g e := by
  cases e with""")
    for c, s, g in groups:
        o.append('  | %s x => exact congrArg (tliv _ _ _) (flatMap_ext (l := x.toVec) h)' % c)
    o.append("""  | _ => rfl

/-- The encoder as a fixed point: the equation of the Rust code. -/
theorem marshal_eq (e : IE) : e.marshal = marshalWith marshal e := by
  unfold marshal
  refine marshalWith_congr fun y hy => marshalWith_congr fun z hz => ?_
  have h1 := depth_members hy
  have h2 := depth_members hz
  have h3 : e.depth ≤ 2 := by cases e <;> simp [depth]
  refine marshalWith_congr fun w hw => ?_
  have h4 := depth_members hw
  omega

/-- The type octet written for an IE. -/
def wireType : IE → UInt8
%s

theorem marshal_tliv (e : IE) : ∃ l i body, e.marshal = tliv e.wireType l i body := by
  rw [marshal_eq]
  cases e with
%s
""" % ('\n'.join('  | .%s x => %s' % (c, wire(s)) for c, s, _ in KINDS),
       '\n'.join('  | %s x => exact ⟨_, _, _, rfl⟩' % c for c, s, _ in KINDS if s not in ('MmContext', 'Fcontainer', 'Uli')) + '\n  | MmContext x => cases x <;> exact ⟨_, _, _, rfl⟩' +
       '\n  | Fcontainer x => exact ⟨_, _, _, rfl⟩\n  | Uli x => exact ⟨_, _, _, rfl⟩'))
    # well-formedness
    wf = []
    for c, s, _ in KINDS:
        if s in GN:
            g = [g for g in G if g[0] == s][0]
            wf.append('  | .%s x => GroupWF wf %d x.t x.length x.toVec ∧ x.Slots' % (c, g[1]))
        elif s in BAD:
            wf.append('  | .%s _ => False' % c)
        elif s == 'Unknown':
            wf.append('  | .%s x => x.t = 0 ∧ x.length.toNat = x.value.length ∧ 0 < x.length.toNat ∧ x.length.toNat < 65532' % c)
        else:
            wf.append('  | .%s x => x.WF' % c)
    o.append("""/-- A grouped IE with the type, the length and the members `l`. -/
def GroupWF (wf : IE → Prop) (ty t : UInt8) (length : UInt16) (l : List IE) : Prop :=
  t = ty ∧ length.toNat = (encoder l).length ∧ 0 < length.toNat ∧ length.toNat < 65532 ∧ ∀ e ∈ l, wf e

instance (wf : IE → Prop) [DecidablePred wf] (ty t : UInt8) (length : UInt16) (l : List IE) :
    Decidable (GroupWF wf ty t length l) := by unfold GroupWF; infer_instance

/-- Well-formed IEs: the per-kind conditions, and for grouped IEs those on the members. Two kinds are excluded as a whole:
the decoder never produces them from their own encoding (`TraceReference` is written with type 83, `TwanId` with type 169,
which is decoded as `ActionIndication`); an unknown IE loses its type. -/
def WFWith (wf : IE → Prop) : IE → Prop
%s

instance (wf : IE → Prop) [DecidablePred wf] : DecidablePred (WFWith wf) := fun e => by
  cases e <;> unfold WFWith <;> infer_instance

/-- Well-formed IEs. -/
def WF : IE → Prop := WFWith (WFWith (WFWith fun _ => False))

instance : DecidablePred WF := by unfold WF; infer_instance

theorem WFWith_congr {f g : IE → Prop} {e : IE} (h : ∀ y ∈ e.members, f y → g y) (he : WFWith f e) : WFWith g e := by
  cases e with
%s
  | _ => exact he

theorem WF_eq {e : IE} (he : WF e) : WFWith WF e := by
  refine WFWith_congr (fun y hy h => WFWith_congr (fun z hz h => WFWith_congr (fun w hw _ => ?_) h) h) he
  have h1 := depth_members hy
  have h2 := depth_members hz
  have h4 := depth_members hw
  have h3 : e.depth ≤ 2 := by cases e <;> simp [depth]
  omega

theorem WF_members {e y : IE} (he : WF e) (hy : y ∈ e.members) : WF y := by
  have h := WF_eq he
  cases e with
%s
  | _ => simp [members] at hy

end IE
""" % ('\n'.join(wf),
       '\n'.join('  | %s x => exact ⟨⟨he.1.1, he.1.2.1, he.1.2.2.1, he.1.2.2.2.1, fun y hy => h y hy (he.1.2.2.2.2 y hy)⟩, he.2⟩' % c for c, s, g in groups),
       '\n'.join('  | %s x => exact h.1.2.2.2.2 y hy' % c for c, s, g in groups)))
    o.append("""theorem groupUnm_rt {α : Type} {dec : Bytes → R Err (List IE)} {mk : UInt8 → UInt16 → UInt8 → List IE → α} {m : Mode}
    {t ty : UInt8} {l : UInt16} {ins : UInt8} {els : List IE} {tail : Bytes} {wf : IE → Prop}
    (h : IE.GroupWF wf ty t l els) (hd : dec (IE.encoder els) = .ok els) :
    groupUnm dec mk m (IE.groupMar IE.marshal ty l ins els ++ tail) = .ok (mk t l ins els) := by
  obtain ⟨rfl, h1, h2, h3, -⟩ := h
  have hs := sl_body t (hi16 l) (lo16 l) ins (IE.encoder els) tail _ h1
  have hc : (checkTliv m l (t :: hi16 l :: lo16 l :: ins :: (IE.encoder els ++ tail)) : R Err Bool) = .ok true := by
    rw [checkTliv_ok h3]
    simp [h2, h1]
    omega
  have e : IE.groupMar IE.marshal t l ins els ++ tail = t :: hi16 l :: lo16 l :: ins :: (IE.encoder els ++ tail) := by
    show tliv t l ins (IE.encoder els) ++ tail = _
    rw [tliv_wf h1]
    rfl
  have hb : slBody16 m (t :: hi16 l :: lo16 l :: ins :: (IE.encoder els ++ tail)) l = .ok (IE.encoder els) := by
    rw [slBody16_ok h3, hs]
  rw [e]
  unfold groupUnm
  rt_simp [hc, hd, hb]

theorem Unknown.unmarshal_rt {m : Mode} {t : UInt8} {l : UInt16} {ins : UInt8} {v tail : Bytes}
    (h1 : l.toNat = v.length) (h2 : 0 < l.toNat) (h3 : l.toNat < 65532) :
    Unknown.unmarshal m (tliv t l ins v ++ tail) = .ok ⟨0, l, ins, v⟩ := by
  have hs := sl_body t (hi16 l) (lo16 l) ins v tail _ h1
  have hc : (checkTliv m l (t :: hi16 l :: lo16 l :: ins :: (v ++ tail)) : R Err Bool) = .ok true := by
    rw [checkTliv_ok h3]
    simp [h2, h1]
    omega
  rw [tliv_wf h1]
  simp only [List.cons_append]
  have hb : slBody16 m (t :: hi16 l :: lo16 l :: ins :: (v ++ tail)) l = .ok v := by
    rw [slBody16_ok h3, hs]
  unfold Unknown.unmarshal
  rt_simp [hc, hb]

/-- Every arm of the decoder reads back the IEs it is for, provided that the members of grouped IEs are read back. -/
theorem unmKind_rt {dec : Bytes → R Err (List IE)} {m : Mode} {e : IE} {tail : Bytes} (h : e.WF)
    (hd : dec (IE.encoder e.members) = .ok e.members) : unmKind dec m (e.marshal ++ tail) e.kind = .ok e := by
  rw [IE.marshal_eq]
  have h := IE.WF_eq h
  cases e with""")
    for c, s, _ in KINDS:
        if s in GN:
            o.append('  | %s x =>\n    simp only [IE.marshalWith, IE.kind, unmKind]\n    rw [groupUnm_rt h.1 hd]\n    simp only [R.ok_bind, %s.ofGroup_toVec h.2]' % (c, s))
            if s in ('LoadControl', 'OverloadControlInfo'):
                o.append('    have hc : listCheck %d %s.list x = .ok x := by\n      obtain ⟨-, h⟩ := h\n      unfold %s.Slots at h\n      unfold listCheck\n      cases hl : x.list with\n      | none => rfl\n      | some v => rw [hl] at h; simp at h; simp [h]\n    rw [hc]; rfl' % (
                    [g for g in G if g[0] == s][0][1], s, s))
            elif s == 'PC5QosParameters':
                o.append('    rw [if_neg h.2.2.2]; rfl')
            else:
                o.append('    rfl')
        elif s in BAD:
            o.append('  | %s x => exact h.elim' % c)
        elif s == 'Unknown':
            o.append('  | Unknown x =>\n    obtain ⟨t, l, ins, v⟩ := x\n    obtain ⟨rfl, h1, h2, h3⟩ := h\n    simp only [IE.marshalWith, IE.kind, unmKind]\n    rw [Unknown.unmarshal_rt h1 h2 h3]; rfl')
        else:
            o.append('  | %s x => simp only [IE.marshalWith, IE.kind, unmKind]; rw [%s.rt m x tail h]; rfl' % (c, s))
    o.append("""
theorem kindOf_wireType {e : IE} (h : e.WF) : kindOf e.wireType = e.kind := by
  have h := IE.WF_eq h
  cases e with
  | MmContext x => cases x <;> rfl
  | TraceReference x => exact h.elim
  | TwanId x => exact h.elim
  | Unknown x => simp only [IE.wireType]; rw [h.1]; rfl
  | Uli x => simp only [IE.wireType]; rw [h.1]; rfl
  | _ => rfl

theorem IE.len_ok {m : Mode} {e : IE} (h : e.WF) : e.len m = .ok e.marshal.length := by
  rw [IE.marshal_eq]
  have h := IE.WF_eq h
  cases e with""")
    for c, s, _ in KINDS:
        if s in GN:
            o.append('  | %s x =>\n    simp only [IE.len, ieLenU, IE.marshalWith, IE.groupMar, tliv_eq, List.length_cons]\n    rw [h.1.2.1]; rfl' % c)
        elif s in BAD:
            o.append('  | %s x => exact h.elim' % c)
        elif s == 'Unknown':
            o.append('  | Unknown x => simp only [IE.len, ieLenU, IE.marshalWith, tliv_eq, List.length_cons]; rw [h.2.1]')
        else:
            o.append('  | %s x => exact %s.len_ok m x h' % (c, s))
    o.append('\nend Gtp.V2')
    return '\n'.join(o) + '\n'


def wire(s):
    if s in GN:
        return str([g for g in G if g[0] == s][0][1])
    if s == 'Unknown':
        return 'x.t'
    if s in ('MmContext', 'Uli'):
        return 'x.t'
    if s == 'TraceReference':
        return '83'
    if s == 'TwanId':
        return '169'
    ts = [k[2] for k in KINDS if k[1] == s][0]
    return str(ts[0])


def safe_table():
    """struct -> (statement, argument list) read off the generated modules."""
    import glob
    out = {}
    for f in sorted(glob.glob(os.path.join(V2, 'Ies', '*.lean'))):
        ns = None
        txt = open(f).read()
        for m in re.finditer(r'^namespace (\w+)|^theorem safe :\s+(.*?) := by', txt, re.M | re.S):
            if m.group(1):
                ns = m.group(1)
            else:
                out[ns] = re.sub(r'\s+', ' ', m.group(2))
    return out


def parse_safe(st):
    """(kind, number, condition)"""
    m = re.match(r'(ExactSafe|FixedSafe|ConstSafe|SafeIf|LooseSafe|OwnSafe|OwnLoose)\b(.*) unmarshal len$', st)
    k, a = m.group(1), m.group(2).strip()
    n = None
    if k in ('FixedSafe', 'ConstSafe'):
        return k, int(a), None
    if k in ('OwnSafe', 'OwnLoose'):
        n, a = a.split(' ', 1)
        n = int(n)
    if k == 'ExactSafe':
        return k, None, None
    c = re.match(r'\(fun (\w+) => (.*)\)$', a)
    if c.group(1) == '_':
        return k, n, None
    assert c.group(1) == 'b'
    return k, n, c.group(2)


def gen_safe():
    tab = safe_table()
    info = {}
    for c, s, _ in KINDS:
        if s in tab:
            info[s] = parse_safe(tab[s])
        else:
            assert s in GN or s == 'Unknown', s
            info[s] = ('Group', None, None)
    exact = [c for c, s, _ in KINDS if info[s][0] in ('ExactSafe', 'SafeIf', 'LooseSafe', 'Group')]
    fixed = [(c, info[s][1]) for c, s, _ in KINDS if info[s][0] in ('FixedSafe', 'ConstSafe')]
    inside = [c for c, s, _ in KINDS if info[s][0] in ('ExactSafe', 'SafeIf', 'FixedSafe', 'OwnSafe', 'Group')]
    o = ["""import Verif.V2.PostLen

/-!
# Panics and consumed octets, for the arms of the IE decoder

Generated by `scripts/gen_sum.py`.
-/

namespace Gtp.V2
"""]
    # post
    for c, s, _ in KINDS:
        if s in GN:
            g = [g for g in G if g[0] == s][0]
            man1 = any(x[1] == 'man1' for x in g[4])
            x_ = '.1' if man1 else ''
            arms = []
            for a in g[4]:
                if a[1] != 'gone' and a[2] not in arms:
                    arms.append(a[2])
            o.append("""theorem %(s)s.step_length (s : %(st)s) (e : IE) : (%(s)s.step s e)%(x)s.length = s%(x)s.length := by
  unfold %(s)s.step
  split <;> (repeat' split) <;> rfl

theorem %(s)s.foldl_length (s : %(st)s) (l : List IE) : (l.foldl %(s)s.step s)%(x)s.length = s%(x)s.length := by
  induction l generalizing s with
  | nil => rfl
  | cons e l ih => rw [List.foldl_cons, ih, %(s)s.step_length]

theorem %(s)s.ofGroup_length (t : UInt8) (n : UInt16) (i : UInt8) (l : List IE) : (%(s)s.ofGroup t n i l).length = n := by
  rw [%(s)s.ofGroup, %(s)s.foldl_length]
  rfl
""" % {'s': s, 'st': s + ' × Bool' if man1 else s, 'x': x_})
        elif s == 'MmContext':
            for k in MM:
                o.append('theorem %s.post (m : Mode) (b : Bytes) : (%s.unmarshal m b).Post fun x => x.length = declLen b := by\n  unfold %s.unmarshal\n  post_len\n' % (k[0], k[0], k[0]))
            o.append("""theorem MmContext.post (m : Mode) (b : Bytes) : (MmContext.unmarshal m b).Post fun x => x.length = declLen b := by
  unfold MmContext.unmarshal
  refine Post_bind_any fun t => ?_
%s  exact Post_err'
""" % ''.join('  refine Post_ite_any (by rw [Post_bind]; exact Post.mono (%s.post m b) fun _ h => h) ?_\n' % k[0] for k in MM))
        else:
            o.append('theorem %s.post (m : Mode) (b : Bytes) : (%s.unmarshal m b).Post fun x => x.length = declLen b := by\n  unfold %s.unmarshal\n  post_len\n' % (s, s, s))
    o.append("""theorem groupUnm_post {α : Type} {dec : Bytes → R Err (List IE)} {mk : UInt8 → UInt16 → UInt8 → List IE → α} {m : Mode}
    {b : Bytes} {P : α → Prop} (h : ∀ t i l, P (mk t (declLen b) i l)) : (groupUnm dec mk m b).Post P := by
  unfold groupUnm
  refine Post_ite_any ?_ (Post_bind_any fun _ => Post_err')
  refine Post_bind_any fun t => Post_bind_len <| Post_bind_any fun i => Post_bind_any fun ok => Post_ite_any ?_ Post_err'
  exact Post_bind_any fun _ => Post_bind_any fun l => h t i l

/-- The length field of a decoded IE is the one found in the buffer. -/
theorem unmKind_length (dec : Bytes → R Err (List IE)) (m : Mode) (b : Bytes) (k : Kind) :
    (unmKind dec m b k).Post fun x => x.length = declLen b := by
  cases k with""")
    for c, s, _ in KINDS:
        if s in ('LoadControl', 'OverloadControlInfo'):
            o.append('  | %s =>\n    simp only [unmKind]\n    rw [Post_bind]\n    refine groupUnm_post fun t i l => ?_\n    have h := %s.ofGroup_length t (declLen b) i l\n    generalize %s.ofGroup t (declLen b) i l = x at h\n    unfold listCheck\n    split\n    · split\n      · trivial\n      · exact h\n    · exact h' % (c, s, s))
        elif s == 'PC5QosParameters':
            o.append('  | %s =>\n    simp only [unmKind]\n    rw [Post_bind]\n    exact groupUnm_post fun t i l => Post_ite_any Post_err\' (%s.ofGroup_length t (declLen b) i l)' % (c, s))
        elif s in GN:
            o.append('  | %s =>\n    simp only [unmKind]\n    rw [Post_bind]\n    exact groupUnm_post fun t i l => %s.ofGroup_length t (declLen b) i l' % (c, s))
        else:
            o.append('  | %s => simp only [unmKind]; rw [Post_bind]; exact Post.mono (%s.post m b) fun _ h => h' % (c, s))
    o.append("""
/-- The constructor of a decoded IE is that of the arm. -/
theorem unmKind_kind (dec : Bytes → R Err (List IE)) (m : Mode) (b : Bytes) (k : Kind) :
    (unmKind dec m b k).Post fun x => x.kind = k := by
  cases k with
  | LoadControlInfo => exact Post_bind_any fun _ => Post_bind_any fun _ => rfl
  | OverloadControlInfo => exact Post_bind_any fun _ => Post_bind_any fun _ => rfl
  | PC5QosParameters => exact Post_bind_any fun _ => Post_ite_any Post_err' rfl
  | _ => exact Post_bind_any fun _ => rfl
""")
    o.append("""/-- The kinds that are accounted with their declared length plus 4. -/
def Kind.exact : Kind → Bool
%s
  | _ => false

/-- The kinds that are accounted with a constant number of octets. -/
def Kind.fixed : Kind → Option Nat
%s
  | _ => none

/-- The kinds of which the decoder checks that they lie inside the buffer. -/
def Kind.inside : Kind → Bool
%s
  | _ => false

theorem IE.len_exact {m : Mode} {e : IE} (hk : e.kind.exact = true) (hm : m = .debug ∨ e.length.toNat < 65532) {n : Nat}
    (h : e.len m = .ok n) : n = e.length.toNat + 4 := by
  have h16 : ∀ l : UInt16, (m = .debug ∨ l.toNat < 65532) → ieLen16 m l = .ok n → n = l.toNat + 4 := by
    intro l hl h
    by_cases hs : l.toNat < 65532
    · rw [ieLen16_ok hs] at h
      injection h with h
      exact h.symm
    · rcases hl with rfl | hl
      · have h4 : (4 : UInt16).toNat = 4 := rfl
        have : (add16 Mode.debug l 4 : R Err UInt16) = .panic := by simp only [add16]; rw [if_neg (by omega)]
        rw [ieLen16, this] at h
        exact absurd h (by intro h; cases h)
      · omega
  have hU : ∀ l : UInt16, ieLenU l = .ok n → n = l.toNat + 4 := by
    intro l h
    injection h with h
    exact h.symm
  cases e with
  | MmContext x => cases x <;> exact hU _ h
%s
  | _ => exact absurd hk (by intro h; cases h)

theorem IE.len_fixed {m : Mode} {e : IE} {k : Nat} (hk : e.kind.fixed = some k) : e.len m = .ok k := by
  cases e with
%s
  | _ => exact absurd hk (by intro h; cases h)

/-- A decoded IE advances the cursor, unless its length overflows in a release build. -/
theorem IE.len_pos {m : Mode} {e : IE} (hm : e.kind.exact = true → m = .debug ∨ e.length.toNat < 65532) {n : Nat} (h : e.len m = .ok n) :
    4 ≤ n := by
  by_cases hk : e.kind.exact = true
  · have := IE.len_exact hk (hm hk) h
    omega
  · cases e with
    | EcgiList x => simp only [IE.len, EcgiList.len] at h; split at h <;> (injection h with h; omega)
    | PagingServiceInfo x => simp only [IE.len, PagingServiceInfo.len] at h; (try split at h) <;> injection h with h <;> omega
    | TargetIdentification x => simp only [IE.len, TargetIdentification.len] at h; injection h with h; omega
    | SourceIdentification x => simp only [IE.len, SourceIdentification.len] at h; injection h with h; omega
%s
    | _ => exact absurd rfl hk
""" % ('\n'.join('  | .%s => true' % c for c in exact), '\n'.join('  | .%s => some %d' % x for x in fixed),
       '\n'.join('  | .%s => true' % c for c in inside),
       '\n'.join('  | %s x => exact %s _ %sh' % (c, 'h16' if is16(s) else 'hU', 'hm ' if is16(s) else '') for c, s, _ in KINDS if c in exact and s != 'MmContext'),
       '\n'.join('  | %s x => injection hk with hk; subst hk; rfl' % c for c, _ in fixed),
       '\n'.join('    | %s x => injection h with h; subst h; decide' % c for c, _ in fixed)))
    # safety conditions
    def sc(c, s):
        k, n, cd = info[s]
        hyp = [] if k in ('FixedSafe', 'OwnLoose') else ['(declLen b).toNat < 65532']
        if s == 'Unknown' or s in GN:
            hyp.append('b ≠ []')
        if cd:
            hyp.append('(%s)' % cd.replace('need (', 'Fteid.need (').replace('extPos b', 'PresenceReportingAreaAction.extPos b').replace('cond b', 'MmContext.cond b'))
        return '  | .%s => %s' % (c, ' ∧ '.join(hyp) or 'True')
    o.append("""/-- A sufficient condition for the arm not to panic on the buffer `b`. -/
def Kind.Cond (b : Bytes) : Kind → Prop
%s

/-- The kinds with no other condition than a declared length below 65532 (and a non-empty buffer). -/
def Kind.robust : Kind → Bool
%s
  | _ => false

theorem Kind.cond_robust {k : Kind} {b : Bytes} (hk : k.robust = true) (hb : b ≠ []) (hl : (declLen b).toNat < 65532) :
    k.Cond b := by
  cases k with
%s
  | _ => exact absurd hk (by decide)
""" % ('\n'.join(sc(c, s) for c, s, _ in KINDS),
       '\n'.join('  | .%s => true' % c for c, s, _ in KINDS if info[s][2] is None),
       '\n'.join('  | %s => exact %s' % (c, {0: 'trivial', 1: 'hl', 2: '⟨hl, hb⟩'}[(0 if info[s][0] in ('FixedSafe', 'OwnLoose') else 2 if info[s][0] == 'Group' else 1)]) for c, s, _ in KINDS if info[s][2] is None)))
    o.append("""theorem Kind.cond_exact {k : Kind} {b : Bytes} (hk : k.exact = true) (h : k.Cond b) : (declLen b).toNat < 65532 := by
  cases k with
%s
  | _ => exact absurd hk (by decide)
""" % '\n'.join('  | %s => exact h%s' % (c, '.1' if info[s][2] or info[s][0] == 'Group' else '') for c, s, _ in KINDS if c in exact))
    o.append("""theorem groupUnm_safe {α : Type} {dec : Bytes → R Err (List IE)} {mk : UInt8 → UInt16 → UInt8 → List IE → α} {m : Mode}
    {b : Bytes} {P : α → Prop} (hl : (declLen b).toNat < 65532) (hb : b ≠ [])
    (hd : ∀ body, body = (b.take ((declLen b).toNat + 4)).drop 4 → (declLen b).toNat + 4 ≤ b.length →
      (dec body).Safe fun l => P (mk (b.getD 0 0) (declLen b) (b.getD 3 0) l)) :
    (groupUnm dec mk m b).Safe P := by
  have h0 : 0 < b.length := List.length_pos_iff.mpr hb
  unfold groupUnm
  rw [Safe_ite]
  refine ⟨fun h4 => ?_, fun _ => ?_⟩
  · have e1 : (rd b 0 : R Err UInt8) = .ok (b.getD 0 0) := rd_getD (by omega)
    have e2 : (rd16 b 1 : R Err UInt16) = .ok (declLen b) := by
      simp only [rd16, rd_getD (show 1 < b.length by omega), rd_getD (show 1 + 1 < b.length by omega), R.ok_bind, R.pure_eq, declLen]
    have e3 : (rd b 3 : R Err UInt8) = .ok (b.getD 3 0) := rd_getD (by omega)
    simp only [e1, e2, e3, R.ok_bind]
    rw [checkTliv_ok hl]
    simp only [R.ok_bind]
    rw [slBody16_ok hl]
    by_cases hc : 0 < (declLen b).toNat ∧ (declLen b).toNat + 4 ≤ b.length
    · rw [if_pos (by simpa using hc)]
      rw [Safe_bind, Safe_sl]
      refine ⟨⟨by omega, by omega⟩, ?_⟩
      rw [Safe_bind]
      exact hd _ rfl hc.2
    · rw [if_neg (by simpa using hc)]
      trivial
  · rw [rd_lt h0]
    trivial

theorem Unknown.safe {m : Mode} {b : Bytes} (hl : (declLen b).toNat < 65532) (hb : b ≠ []) :
    (Unknown.unmarshal m b).Safe fun _ => True := by
  have h0 : 0 < b.length := List.length_pos_iff.mpr hb
  unfold Unknown.unmarshal
  rw [Safe_ite]
  refine ⟨fun h4 => ?_, fun _ => ?_⟩
  · have e2 : (rd16 b 1 : R Err UInt16) = .ok (declLen b) := by
      simp only [rd16, rd_getD (show 1 < b.length by omega), rd_getD (show 1 + 1 < b.length by omega), R.ok_bind, R.pure_eq, declLen]
    have e3 : (rd b 3 : R Err UInt8) = .ok (b.getD 3 0) := rd_getD (by omega)
    simp only [e2, e3, R.ok_bind]
    rw [checkTliv_ok hl]
    simp only [R.ok_bind]
    rw [slBody16_ok hl]
    by_cases hc : 0 < (declLen b).toNat ∧ (declLen b).toNat + 4 ≤ b.length
    · rw [if_pos (by simpa using hc), Safe_bind, Safe_sl]
      exact ⟨⟨by omega, by omega⟩, trivial⟩
    · rw [if_neg (by simpa using hc)]
      trivial
  · rw [rd_lt h0]
    trivial

theorem safe_arm {α : Type} {m : Mode} {x : R Err α} {l : α → R Err Nat} {P : Nat → Prop} {f : α → IE}
    (h : x.Safe fun a => (l a).Safe P) (hf : ∀ a, (f a).len m = l a) :
    (x >>= fun a => pure (f a)).Safe fun e => (e.len m).Safe fun _ => True := by
  rw [Safe_bind]
  refine Safe.mono h fun a ha => ?_
  show ((f a).len m).Safe _
  rw [hf]
  exact Safe.mono ha fun _ _ => trivial

/-- An arm whose condition holds neither panics nor diverges, nor does `len` on its result, provided that the decoding of the
members does not. -/
theorem unmKind_safe {dec : Bytes → R Err (List IE)} {m : Mode} {b : Bytes} {k : Kind} (h : k.Cond b)
    (hd : (declLen b).toNat + 4 ≤ b.length → (dec ((b.take ((declLen b).toNat + 4)).drop 4)).Safe fun _ => True) :
    (unmKind dec m b k).Safe fun x => (x.len m).Safe fun _ => True := by
  have hG : ∀ {α : Type} {mk : UInt8 → UInt16 → UInt8 → List IE → α}, (declLen b).toNat < 65532 ∧ b ≠ [] →
      (groupUnm dec mk m b).Safe fun _ => True :=
    fun {α mk} h => groupUnm_safe h.1 h.2 fun body hb hl => by subst hb; exact hd hl
  cases k with""")
    for c, s, _ in KINDS:
        if s in ('LoadControl', 'OverloadControlInfo'):
            o.append('  | %s =>\n    simp only [unmKind]\n    rw [Safe_bind]\n    refine Safe.mono (hG h) fun x _ => ?_\n    rw [Safe_bind]\n    unfold listCheck\n    split\n    · split\n      · trivial\n      · trivial\n    · trivial' % c)
        elif s == 'PC5QosParameters':
            o.append('  | %s =>\n    simp only [unmKind]\n    rw [Safe_bind]\n    refine Safe.mono (hG h) fun x _ => ?_\n    split <;> trivial' % c)
        elif s in GN:
            o.append('  | %s => simp only [unmKind]; rw [Safe_bind]; exact Safe.mono (hG h) fun _ _ => trivial' % c)
        elif s == 'Unknown':
            o.append('  | Unknown => simp only [unmKind]; rw [Safe_bind]; exact Safe.mono (Unknown.safe h.1 h.2) fun _ _ => trivial')
        else:
            k, n, cd = info[s]
            a = {'ExactSafe': 'h trivial', 'FixedSafe': '', 'ConstSafe': 'h', 'SafeIf': 'h.1 h.2' if cd else 'h trivial',
                 'LooseSafe': 'h.1 h.2' if cd else 'h trivial', 'OwnSafe': 'h.1 h.2' if cd else 'h trivial',
                 'OwnLoose': 'h' if cd else 'trivial'}[k]
            o.append('  | %s => exact safe_arm (%s.safe m b %s) fun _ => rfl' % (c, s, a))
    o.append('\nend Gtp.V2')
    return '\n'.join(o) + '\n'


def gen_fin():
    o = ["""import Verif.V2.Fin
import Verif.V2.IESafe

/-!
# Decoding one IE finishes, for all kinds

Generated by `scripts/gen_sum.py`.
-/

namespace Gtp.V2
"""]
    seen = set()
    for c, s, _ in KINDS:
        if s in GN or s in seen:
            continue
        seen.add(s)
        if s == 'MmContext':
            for k in MM:
                o.append('theorem %s.fin (m : Mode) (b : Bytes) : (%s.unmarshal m b).Fin := by\n  unfold %s.unmarshal\n  fin\n' % (k[0], k[0], k[0]))
            o.append('theorem MmContext.fin (m : Mode) (b : Bytes) : (MmContext.unmarshal m b).Fin := by\n' +
                     ''.join('  have h%d := %s.fin m b\n' % (k[1], k[0]) for k in MM) + '  unfold MmContext.unmarshal\n  fin\n')
        else:
            o.append('theorem %s.fin (m : Mode) (b : Bytes) : (%s.unmarshal m b).Fin := by\n  unfold %s.unmarshal\n  fin\n' % (s, s, s))
    o.append("""theorem groupUnm_fin {α : Type} {dec : Bytes → R Err (List IE)} {mk : UInt8 → UInt16 → UInt8 → List IE → α} {m : Mode}
    {b : Bytes} (hd : ∀ s, slBody16 m b (declLen b) = .ok s → (dec s).Fin) : (groupUnm dec mk m b).Fin := by
  unfold groupUnm
  refine R.Fin.ite (fun _ => ?_) fun _ => R.Fin.bind Fin_rd fun _ => R.Fin.err
  refine R.Fin.bind Fin_rd fun t => R.Fin.bind' Fin_rd16 fun l hl => ?_
  have e : (rd16 b 1 : R Err UInt16).Post fun l => l = declLen b := by
    simp only [rd16, Post_bind, Post_rd, Post_pure]
    intro _ _
    rfl
  rw [Post.elim e hl]
  refine R.Fin.bind Fin_rd fun i => R.Fin.bind Fin_checkTliv fun ok => R.Fin.ite (fun _ => ?_) fun _ => R.Fin.err
  exact R.Fin.bind' Fin_slBody16 fun s hs => R.Fin.bind (hd s hs) fun _ => R.Fin.pure

/-- An arm finishes if the decoding of the members does. -/
theorem unmKind_fin {dec : Bytes → R Err (List IE)} {m : Mode} {b : Bytes} {k : Kind}
    (hd : ∀ s, slBody16 m b (declLen b) = .ok s → (dec s).Fin) : (unmKind dec m b k).Fin := by
  cases k with""")
    for c, s, _ in KINDS:
        if s in ('LoadControl', 'OverloadControlInfo'):
            o.append('  | %s => exact R.Fin.bind (groupUnm_fin hd) fun x => R.Fin.bind (by unfold listCheck; fin) fun _ => R.Fin.pure' % c)
        elif s == 'PC5QosParameters':
            o.append('  | %s => exact R.Fin.bind (groupUnm_fin hd) fun x => R.Fin.ite (fun _ => R.Fin.err) fun _ => R.Fin.pure' % c)
        elif s in GN:
            o.append('  | %s => exact R.Fin.bind (groupUnm_fin hd) fun _ => R.Fin.pure' % c)
        else:
            o.append('  | %s => exact R.Fin.bind (%s.fin m b) fun _ => R.Fin.pure' % (c, s))
    o.append("""
theorem IE.len_fin {m : Mode} {e : IE} : (e.len m).Fin := by
  cases e with
  | MmContext x => cases x <;> exact Fin_ieLenU
  | EcgiList x => simp only [IE.len, EcgiList.len]; fin
  | PagingServiceInfo x => simp only [IE.len, PagingServiceInfo.len]; fin""")
    for c, s, _ in KINDS:
        if s in LEN16:
            o.append('  | %s x => exact Fin_ieLen16' % c)
    o.append("""  | _ => first | exact R.Fin.ok | exact Fin_ieLenU

end Gtp.V2""")
    return '\n'.join(o) + '\n'


MM = [('MmContextEpsSecurityContextQuadruplets', 107), ('MmContextUmtsKeyQuintuplets', 106), ('MmContextUmtsKeyQuadrupletsQuintuplets', 108),
      ('MmContextUmtsKeyCipherQuintuplets', 104), ('MmContextGsmKeyTriplets', 103), ('MmContextGsmKeyCipherQuintuplets', 105)]
LEN16 = 'Apn Fqdn SourceRncPdcpContextInfo CompleteRequestMessage Ldn Cause Fteid Fqcsid RemoteUeIpInformation Fcontainer ExtendedTraceInformation'.split()


def is16(s):
    return s in LEN16


def write(name, text):
    p = os.path.join(V2, name)
    if not os.path.exists(p) or open(p).read() != text:
        open(p, 'w').write(text)
        print('wrote', name)


if __name__ == '__main__':
    write('Group.lean', gen_group())
    write('IE.lean', gen_ie())
    write('IEThm.lean', gen_thm())
    write('IESafe.lean', gen_safe())
    write('IEFin.lean', gen_fin())
