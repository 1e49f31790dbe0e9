module('Enums', 'Information elements with enumerated values')
enum('Restriction', 'apnrestriction.rs', [('NoApnRestriction', 0), ('Public1', 1), ('Public2', 2), ('Private1', 3), ('Private2', 4)],
     [(0, 'NoApnRestriction'), (1, 'Public1'), (2, 'Public2'), (3, 'Private1'), (4, 'Private2')], 'NoApnRestriction')


def enumie(name, file, ty, field, typ, dec='v', **kw):
    ie(name, file, ty, [(field, typ)], '[x.%s.toU8]' % field, 'let v ← rd b 4', '%s := .ofU8 %s' % (field, dec), size=1, **kw)


enumie('ApnRestriction', 'apnrestriction.rs', 0, 'restriction_type', 'Restriction')
enum('DetachTypeValue', 'detachtype.rs', [('Reserved', 0), ('PsDetach', 1), ('CombinedPsCsDetach', 2), ('Spare', 3)],
     [(0, 'Reserved'), (1, 'PsDetach'), (2, 'CombinedPsCsDetach')], 'Spare')
enumie('DetachType', 'detachtype.rs', 0, 'detach_type', 'DetachTypeValue')
RATS = 'Reserved Utran Geran Wlan Gan HspaEvo Eutran Virtual EutranNbiot LteM NR WbEutranLeo WbEutranMeo WbEutranGeo WbEutranOthersat EutranNbiotLeo EutranNbiotMeo EutranNbiotGeo EutranNbiotOthersat LteMLeo LteMMeo LteMGeo LteMOthersat'.split()
enum('Rat', 'rattype.rs', [(c, i) for i, c in enumerate(RATS)] + [('Spare', 23)], [(i, c) for i, c in enumerate(RATS)], 'Spare')
enumie('RatType', 'rattype.rs', 0, 'rat_type', 'Rat')
PDNS = 'Ipv4 Ipv6 Ipv46 NonIp Ethernet Reserved'.split()
enum('Pdn', 'pdntype.rs', [(c, i + 1) for i, c in enumerate(PDNS)], [(i + 1, c) for i, c in enumerate(PDNS)], 'Reserved')
enumie('PdnType', 'pdntype.rs', 0, 'pdn_type', 'Pdn')
enum('Node', 'nodetype.rs', [('Mme', 0), ('Sgsn', 1)], [(0, 'Mme'), (1, 'Sgsn')], 'Sgsn')
enumie('NodeType', 'nodetype.rs', 0, 'node', 'Node', mask=False)
enum('CsgMembership', 'cmi.rs', [('CsgMembership', 0), ('NonCsgMembership', 1)], [(0, 'CsgMembership'), (1, 'NonCsgMembership')], 'NonCsgMembership')
enumie('CsgMembershipIndication', 'cmi.rs', 0, 'cmi', 'CsgMembership', mask=False)
enum('ServiceIndication', 'serviceindicator.rs', [('Spare', 0), ('CsCallIndicator', 1), ('SmsIndicator', 2)], [(1, 'CsCallIndicator'), (2, 'SmsIndicator')], 'Spare')
enumie('ServiceIndicator', 'serviceindicator.rs', 0, 'indicator', 'ServiceIndication')
enum('IndicationValues', 'actionindication.rs', [('NoAction', 0), ('DeactivationIndication', 1), ('PagingIndication', 2), ('PagingStopIndication', 3), ('Spare', 4)],
     [(0, 'NoAction'), (1, 'DeactivationIndication'), (2, 'PagingIndication'), (3, 'PagingStopIndication'), ([4, 5, 6, 7], 'Spare')], 'NoAction')
raw('''
theorem IndicationValues.lt8 (v : IndicationValues) : v.toU8 < 8 := by cases v <;> decide
''')
enumie('ActionIndication', 'actionindication.rs', 0, 'indication', 'IndicationValues', dec='(v &&& 0x07)',
       rtsimp='IndicationValues.lt8', **LOOSE)
SR = 'Reserved Unspecified HandoverRelocationCancelledBySourceSystem HandoverRelocationFailureWithTargetSystem HandoverRelocationTargetNotAllowed UnknownTargetId TargetCellNotAvailable NoRadioResourcesAvailableInTargetCell FailureInRadioInterfaceProcedure PermanentSessionLegEstablishmentError TemporarySessionLegEstablishmentError'.split()
enum('SrvccCauseValues', 'srvcccause.rs', [(c, i) for i, c in enumerate(SR)] + [('Spare', 11)], [(i, c) for i, c in enumerate(SR)], 'Spare')
enumie('SrvccCause', 'srvcccause.rs', 0, 'value', 'SrvccCauseValues')
enum('UpIpPolicy', 'upsp.rs', [('NotNeeded', 0), ('Preferred', 1), ('Required', 2), ('Spare', 3)], [(0, 'NotNeeded'), (1, 'Preferred'), (2, 'Required'), (3, 'Spare')], 'Spare')
raw('''
theorem UpIpPolicy.lt4 (v : UpIpPolicy) : v.toU8 < 4 := by cases v <;> decide
''')
enumie('UpSecurityPolicy', 'upsp.rs', 0, 'up_ip_policy', 'UpIpPolicy', dec='(v &&& 0x03)', rtsimp='UpIpPolicy.lt4')
enum('SelectMode', 'cnose.rs', [('ServingNetworkSelectedbyUE', 0), ('ServingNetworkSelectedbyNetwork', 1)],
     [(0, 'ServingNetworkSelectedbyUE'), (1, 'ServingNetworkSelectedbyNetwork'), ([2, 3], 'ServingNetworkSelectedbyNetwork')], None)
ie('CnOperatorSelectionEntity', 'cnose.rs', 0, [('selection_entity', 'SelectMode')], '[x.selection_entity.toU8]',
   'let v ← rd b 4\nlet selection_entity ← .ofOption (SelectMode.ofU8 v) (.ieIncorrect 173)', 'selection_entity', size=1)

module('Flags', 'Information elements consisting of flags')
raw('''
/-- `match v { 0 => false, 1 => true, _ => return Err(..) }`, as in spi.rs:60-64. -/
def boolOfU8 (v : UInt8) : Option Bool :=
  if v = 0 then some false else if v = 1 then some true else none

@[gtp] theorem boolOfU8_b2u (v : Bool) : boolOfU8 (b2u v) = some v := by cases v <;> rfl
''')


def boolie(name, file, ty, fields, **kw):
    """one octet 0/1 per flag"""
    ie(name, file, ty, [(f, 'Bool') for f in fields], '[' + ', '.join('b2u x.' + f for f in fields) + ']',
       '\n'.join('let v%d ← rd b %d\nlet %s ← .ofOption (boolOfU8 v%d) (.ieIncorrect TY)' % (i, 4 + i, f, i) for i, f in enumerate(fields)).replace('TY', str(ty)),
       ', '.join(fields), size=fields.__len__(), **kw)


boolie('Spi', 'spi.rs', 157, ['lapi'])
boolie('UpFunctionSelectionIndicationFlags', 'upfsif.rs', 202, ['dcnr'])
boolie('HenbInfoReporting', 'henbinforeporting.rs', 165, ['fti'])
boolie('ServicesAuthorized', 'servicesauthorized.rs', 210, ['vehicle_ue_auth', 'pedestrian_ue_auth'])


def flagie(name, file, ty, bits, form='shift', order=None, **kw):
    """bits: flag names from bit 0 upwards; order: order of declaration"""
    order = order or bits
    A = ' '.join(bits)
    expr = ' ||| '.join(('b2u %s' % f) if i == 0 else '(b2u %s <<< %d)' % (f, i) for i, f in enumerate(bits))
    rdx = (lambda f, i: 'bitOn v %d' % i) if form == 'shift' else (lambda f, i: 'hasBits v 0x%02x' % (1 << i))
    aux = '/-- The flags octet. -/\ndef flags (%s : Bool) : UInt8 :=\n  %s\n\n' % (A, expr)
    aux += 'theorem flags_dec : ∀ %s : Bool,\n    %s := by\n  decide\n' % (
        A, ' ∧\n    '.join('%s = %s' % (rdx(f, i).replace(' v ', ' (flags %s) ' % A), f) for i, f in enumerate(bits)))
    ie(name, file, ty, [(f, 'Bool') for f in order], '[flags %s]' % ' '.join('x.' + f for f in bits),
       'let v ← rd b 4', ', '.join('%s := %s' % (f, rdx(f, bits.index(f))) for f in order), size=1, aux=aux,
       rtsimp='flags_dec', **kw)


flagie('Twmi', 'twmi.rs', 174, ['scm', 'mcm'], order=['mcm', 'scm'],
       decn='; `match v & 3` over all four values is the same as testing the two bits')
flagie('ChangeToReportFlags', 'changetoreportflags.rs', 167, ['sncr', 'tzcr'], order=['tzcr', 'sncr'],
       decn='; `match v & 3` over all four values is the same as testing the two bits')
flagie('WlanOffloadIndication', 'wlanoffloadindication.rs', 185, ['utran_ind', 'eutran_ind'], order=['eutran_ind', 'utran_ind'],
       decn='; `match v & 3` over all four values is the same as testing the two bits')
flagie('MbmsFlags', 'mbmsflags.rs', 171, ['msri', 'lmri'],
       decn='; `match v & 3` over all four values is the same as testing the two bits')
flagie('AdditionalFlagsSrvcc', 'addflagssrvcc.rs', 160, ['ics', 'vf'],
       decn='; `match v & 3` over all four values is the same as testing the two bits')
flagie('CIoTOptimizationSupportIndication', 'ciotoptimizationssupport.rs', 194, ['sgnipdn', 'scnipdn', 'awopdn', 'ihcsi'])
flagie('BearerFlags', 'bearerflags.rs', 97, ['ppc', 'vb', 'vind', 'asi'], order=['asi', 'vind', 'vb', 'ppc'], form='mask', **LOOSE)
flagie('NodeFeatures', 'nodefeatures.rs', 152, ['prn', 'mabr', 'ntsr', 'ciot', 's1un', 'eth', 'mtedt', 'psset'], form='mask')
