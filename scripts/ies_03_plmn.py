PF = [('mcc', 'UInt16'), ('mnc', 'UInt16'), ('mnc_is_three_digits', 'Bool')]
PENC = 'mccMncEncode x.mcc x.mnc x.mnc_is_three_digits'
PDEC = 'let s ← sl b 4 7\nlet (mcc, mnc, mnc_is_three_digits) ← mccMncDecode s\n'
PRET = 'mcc, mnc, mnc_is_three_digits'
PWF = [('hp', 'PlmnOk x.mcc x.mnc x.mnc_is_three_digits')]
PPRE = 'obtain ⟨p0, p1, p2, e1, e2⟩ := mccMnc_roundtrip3 hp'


def plmn(name, file, fields, enc, dec, ret, size, wf=(), rtpre='', rtsimp='', **kw):
    ie(name, file, 0, PF + fields, PENC + enc, PDEC + dec, PRET + (', ' + ret if ret else ''), size=size,
       wf=PWF + list(wf), rtpre=PPRE + ('\n' + rtpre if rtpre else ''), rtsimp='e1, e2, mccMncDecode' + (', ' + rtsimp if rtsimp else ''),
       safesimp='mccMncDecode, List.length_drop, List.length_take', **kw)


module('Plmn', 'Information elements starting with an MCC/MNC', ('Verif.V2.IeBase', 'Verif.UtilsLemmas'))
plmn('ServingNetwork', 'servingnetwork.rs', [], '', '', '', 3)
plmn('PlmnId', 'plmnid.rs', [], '', '', '', 3)
plmn('GlobalCnId', 'globalcnid.rs', [('cnid', 'UInt16')], ' ++ be16 x.cnid', 'let cnid ← rd16 b 7', 'cnid', 5)
plmn('TraceReference', 'tracereference.rs', [('trace_id', 'UInt32')], ' ++ be24 x.trace_id', 'let trace_id ← rd24 b 7', 'trace_id', 6,
     wf=[('h24', 'x.trace_id.toNat < 16777216')], rtsimp='of24_be h24')
plmn('Guti', 'guti.rs', [('mmegi', 'UInt16'), ('mmec', 'UInt8'), ('mtmsi', 'UInt32')],
     ' ++ be16 x.mmegi ++ [x.mmec] ++ be32 x.mtmsi', 'let mmegi ← rd16 b 7\nlet mmec ← rd b 9\nlet mtmsi ← rd32 b 10', 'mmegi, mmec, mtmsi', 10)
plmn('PSCellId', 'pscellid.rs', [('nr_cgi', 'Bytes')], ' ++ x.nr_cgi', 'let nr_cgi ← sl b 7 12', 'nr_cgi', 8,
     wf=[('hc', 'x.nr_cgi.length = 5')], rtpre='obtain ⟨n0, n1, n2, n3, n4, rfl⟩ := exists_list5 hc',
     note='; the array `nr_cgi: [u8; 5]` is a list, of length 5 when well formed')
enum('AccessMode', 'uci.rs', [('ClosedMode', 0), ('HybridMode', 1), ('Reserved', 2)], [(0, 'ClosedMode'), (1, 'HybridMode'), ([2, 3], 'Reserved')], 'Reserved')
enum('Cmi', 'uci.rs', [('NonCsgMembership', 0), ('CsgMembership', 1)], [(0, 'NonCsgMembership'), (1, 'CsgMembership')], 'NonCsgMembership')
plmn('Uci', 'uci.rs', [('csgid', 'UInt32'), ('access_mode', 'AccessMode'), ('lcsg', 'Bool'), ('cmi', 'Cmi')],
     ' ++ be32 (x.csgid &&& 0x07ffffff) ++ [modes x.access_mode x.lcsg x.cmi]',
     'let csgid ← rd32 b 7\nlet v ← rd b 11',
     'csgid, access_mode := .ofU8 ((v &&& 0xc0) >>> 6), lcsg := (v &&& 0x02) >>> 1 != 0, cmi := .ofU8 (v &&& 0x01)', 8,
     wf=[('hc', 'x.csgid.toNat < 2 ^ 27')],
     aux='''
/-- Last octet (uci.rs:123-132). -/
def modes (access_mode : AccessMode) (lcsg : Bool) (cmi : Cmi) : UInt8 :=
  if lcsg then (access_mode.toU8 <<< 6) ||| 0x02 ||| cmi.toU8 else (access_mode.toU8 <<< 6) ||| cmi.toU8

theorem modes_dec (a : AccessMode) (l : Bool) (c : Cmi) :
    AccessMode.ofU8 ((modes a l c &&& 0xc0) >>> 6) = a ∧
    ((modes a l c &&& 0x02) >>> 1 != 0) = l ∧ Cmi.ofU8 (modes a l c &&& 0x01) = c := by
  cases a <;> cases l <;> cases c <;> decide

theorem and27 {x : UInt32} (h : x.toNat < 2 ^ 27) : x &&& 0x07ffffff = x := by
  apply UInt32.toNat_inj.mp
  have : (0x07ffffff : UInt32).toNat = 2 ^ 27 - 1 := rfl
  rw [UInt32.toNat_and, this, Nat.and_two_pow_sub_one_eq_mod, Nat.mod_eq_of_lt h]
''', rtpre='have hm := modes_dec access_mode lcsg cmi\nhave h27 := and27 hc', rtsimp='hm, h27')
plmn('TraceInformation', 'traceinfo.rs', [('trace_id', 'UInt32'), ('trigger_events', 'Bytes'), ('list_ne_types', 'UInt16'), ('trace_depth', 'UInt8'), ('list_interfaces', 'Bytes'), ('trace_collection_ip', 'UInt32')],
     ' ++ be24 x.trace_id ++ x.trigger_events ++\n  be16 x.list_ne_types ++ [x.trace_depth] ++ x.list_interfaces ++ be32 x.trace_collection_ip',
     '''let trace_id ← rd24 b 7
let trigger_events ← sl b 10 19
let list_ne_types ← rd16 b 19
let trace_depth ← rd b 21
let list_interfaces ← sl b 22 34
let trace_collection_ip ← rd32 b 34''', 'trace_id, trigger_events, list_ne_types, trace_depth, list_interfaces, trace_collection_ip', 34,
     wf=[('h24', 'x.trace_id.toNat < 16777216'), ('h9', 'x.trigger_events.length = 9'), ('h12', 'x.list_interfaces.length = 12')],
     rtpre='obtain ⟨t0, t1, t2, t3, t4, t5, t6, t7, t8, rfl⟩ := exists_list9 h9\nobtain ⟨i0, i1, i2, i3, i4, i5, i6, i7, i8, i9, i10, i11, rfl⟩ := exists_list12 h12',
     rtsimp='of24_be h24')
