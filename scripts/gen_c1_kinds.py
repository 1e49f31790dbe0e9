#!/usr/bin/env python3
"""The table of GTPv1-C information element kinds: lean/Verif/C1/Kind.lean"""
import os
OUT = os.path.join(os.path.dirname(os.path.abspath(__file__)), '..', 'lean', 'Verif', 'C1', 'Kind.lean')
# (structure, type code, fixed len or None when len() is `length + 3`, tlv?, panic condition, how `safe` is called)
N = 'Never'
T = [
 ('Cause', 1, 2, 0, N), ('Imsi', 2, 9, 0, N), ('Rai', 3, 7, 0, N), ('ReorderingRequired', 8, 2, 0, N), ('Recovery', 14, 2, 0, N),
 ('SelectionMode', 15, 2, 0, N), ('Teid', 16, 5, 0, N), ('TeardownInd', 19, 2, 0, N), ('Nsapi', 20, 2, 0, N),
 ('ChargingCharacteristics', 26, 3, 0, N), ('TraceReference', 27, 3, 0, N), ('TraceType', 28, 3, 0, N), ('ChargingID', 127, 5, 0, N),
 ('EndUserAddress', 128, None, 1, 'TlvPanics fun b => b.length < 5'),
 ('Apn', 131, None, 1, 'TlvPanics fun b => b.length < 3 + (declLen b).toNat ∨\n      ¬ Gtp.V2.Labels ((b.drop 3).take (declLen b).toNat)'),
 ('Pco', 132, None, 1, 'Overflows'), ('GsnAddress', 133, None, 1, 'TlvPanics fun _ => False'),
 ('Msisdn', 134, None, 1, 'TlvPanics fun b => b.length < 4 ∨\n      (b.getD 3 0 &&& 0x0f = 1 ∨ b.getD 3 0 &&& 0x0f = 6) ∧ b.length < 12'),
 ('Qos', 135, None, 1, 'Overflows'), ('Tft', 137, None, 1, 'Overflows'),
 ('ExtensionHeaderTypeList', 141, None, 2, 'fun m b => b.length < 2 ∨ m = .debug ∧ 254 ≤ (b.getD 1 0).toNat'),
 ('TriggerId', 142, None, 1, 'Overflows'), ('OmcId', 143, None, 1, 'Overflows'),
 ('CommonFlags', 148, None, 1, N), ('ApnRestriction', 149, 2, 1, N), ('RatType', 151, 4, 1, N), ('Uli', 152, 11, 1, N),
 ('MsTimeZone', 153, 5, 1, N), ('Imei', 154, 11, 1, N),
 ('CamelChargingInfoContainer', 155, None, 1, 'fun m b => Overflows m b ∧ (m = .debug ∨ b.length < 3 + (declLen b).toNat)'),
 ('AdditionalTraceInfo', 162, 12, 1, N), ('MSInfoChangeReportingAction', 181, 4, 1, N), ('DirectTunnelFlags', 182, None, 1, N),
 ('CorrelationId', 183, 4, 1, N), ('BearerControlMode', 184, 4, 1, N), ('EvolvedAllocationRetentionI', 191, 4, 1, N),
 ('ExtendedCommonFlags', 193, None, 1, N), ('Uci', 194, 11, 1, N), ('CSGInformationReportingAction', 195, None, 1, N),
 ('ApnAmbr', 198, 11, 1, N), ('GGSNBackOffTime', 202, None, 1, 'fun _ b => b.length = 2 ∨ b.length = 3'), ('Spi', 203, 4, 1, N),
 ('UliTimestamp', 214, 7, 1, N), ('CnOperatorSelectionEntity', 216, 4, 1, N), ('ExtendedCommonFlagsII', 218, None, 1, N),
 ('MappedUeUsageType', 223, 5, 1, N), ('UpFunctionSelectionIndicationFlags', 224, 4, 1, N),
 ('ChargingGWAddress', 251, None, 1, 'TlvPanics fun _ => False'), ('PrivateExtension', 255, None, 1, 'TlvPanics fun b => b.length < 5'),
]
GREEDY = ('PrivateExtension', 'ExtensionHeaderTypeList')
if __name__ == '__main__':
    assert len(T) == 49
    o = []
    w = o.append
    w('''import Verif.C1.Ies.Tv
import Verif.C1.Ies.Fixed
import Verif.C1.Ies.Flags
import Verif.C1.Ies.Octets
import Verif.C1.Ies.Special

/-!
# The kinds of GTPv1-C information elements

Expanded by `scripts/gen_c1_kinds.py`: one constructor for each structure of
`/repo/src/gtpv1/gtpc/messages/ies`, and the facts proved about each, collected by kind.
-/

namespace Gtp.C1
open Gtp.V1
open Gtp.U (len3)
open Gtp.V2 (declLen)

/-- The structures of `ies/*.rs` that implement `IEs`. -/
inductive Kind where''')
    for t in T:
        w('  | ' + t[0])
    w('deriving DecidableEq, Repr\n\nnamespace Kind\n')
    w('/-- All kinds. -/\ndef all : List Kind := [')
    w(',\n'.join('  ' + ', '.join('.' + t[0] for t in T[i:i + 6]) for i in range(0, len(T), 6)) + ']\n')
    w('theorem mem_all (k : Kind) : k ∈ all := by cases k <;> decide\n')
    w('/-- The type of the values of a kind. -/\ndef Ty : Kind → Type')
    for t in T:
        w('  | .%s => C1.%s' % (t[0], t[0]))
    w('''
end Kind

/-- The functions of `trait IEs` (ies/commons.rs) for one structure, its default value, and the values
for which its round trip is proved. -/
structure Codec (α : Type) where
  /-- `marshal`: the octets appended to the buffer. -/
  mar : α → Bytes
  /-- `unmarshal`. -/
  unm : Mode → Bytes → R Err α
  /-- `len`. -/
  len : Mode → α → R Err Nat
  /-- `default`. -/
  dflt : α
  /-- The well-formed values. -/
  WF : α → Prop

namespace Kind

/-- The functions of a kind. -/
def codec : (k : Kind) → Codec k.Ty''')
    for t in T:
        n = t[0]
        w('  | .%s => ⟨C1.%s.marshal, C1.%s.unmarshal, C1.%s.len, C1.%s.dflt, C1.%s.WF⟩' % ((n,) * 6))
    w('')
    w('instance instDecEq : (k : Kind) → DecidableEq k.Ty')
    for t in T:
        w('  | .%s => inferInstanceAs (DecidableEq C1.%s)' % (t[0], t[0]))
    w('')
    w('def decWF : (k : Kind) → (x : k.Ty) → Decidable (k.codec.WF x)')
    for t in T:
        w('  | .%s => fun (x : C1.%s) => inferInstanceAs (Decidable (C1.%s.WF x))' % (t[0], t[0], t[0]))
    w('\ninstance (k : Kind) (x : k.Ty) : Decidable (k.codec.WF x) := k.decWF x\n')
    w('/-- The type code of a kind; a TEID may also carry 17 (`Teid` is used for both). -/\ndef code : Kind → UInt8')
    for t in T:
        w('  | .%s => %d' % (t[0], t[1]))
    w('\n/-- Kinds whose last field extends to the end of the buffer. -/\ndef greedy : Kind → Bool')
    for g in GREEDY:
        w('  | .%s => true' % g)
    w('  | _ => false\n')
    w('/-- Kinds whose `len` is a constant. -/\ndef fixedLen : Kind → Option Nat')
    for t in T:
        if t[2]:
            w('  | .%s => some %d' % (t[0], t[2]))
    w('  | _ => none\n')
    w('''/-- The first octet of the encoding of a well-formed value. -/
theorem first (k : Kind) (x : k.Ty) (h : k.codec.WF x) :
    ∃ t r, k.codec.mar x = t :: r ∧ (t = k.code ∨ k = .Teid ∧ t = 17) := by
  cases k''')
    for t in T:
        n = t[0]
        if n == 'Teid':
            w('  case Teid => exact ⟨_, _, rfl, h.imp id fun h => ⟨rfl, h⟩⟩')
        elif n == 'Recovery':
            w('  case Recovery => exact ⟨_, _, rfl, .inl rfl⟩')
        elif n == 'ExtensionHeaderTypeList':
            w('  case %s => exact ⟨_, _, C1.%s.marshal_eq h, .inl rfl⟩' % (n, n))
        elif t[3] == 0:
            one = n in ('Cause', 'ReorderingRequired', 'TeardownInd', 'TraceReference', 'TraceType')
            w('  case %s => exact ⟨_, _, rfl, .inl %s⟩' % (n, 'h' if one else 'h.1'))
        else:
            w('  case %s => exact ⟨_, _, tlv_eq _ _ _, .inl h.1⟩' % n)
    w('')
    w('/-- Round trip with anything behind, for the kinds that do not swallow it. -/\ntheorem rt (k : Kind) (hk : k.greedy = false) : RoundTrips k.codec.WF k.codec.mar k.codec.unm := by\n  cases k')
    for t in T:
        if t[0] in GREEDY:
            w('  case %s => cases hk' % t[0])
        else:
            w('  case %s => exact C1.%s.rt' % (t[0], t[0]))
    w('')
    w('/-- Round trip at the end of the buffer, for every kind. -/\ntheorem rtLast (k : Kind) (m : Mode) (x : k.Ty) (h : k.codec.WF x) : k.codec.unm m (k.codec.mar x) = .ok x := by\n  by_cases hk : k.greedy = false\n  · simpa using rt k hk m x [] h\n  · cases k <;> simp [greedy] at hk')
    for g in GREEDY:
        w('    case %s => exact C1.%s.rt m x h' % (g, g))
    w('')
    w('/-- `len` is the size of the encoding, except for `ApnRestriction`. -/\ntheorem lenOk (k : Kind) (hk : k ≠ .ApnRestriction) : LenOk k.codec.WF k.codec.mar k.codec.len := by\n  cases k')
    for t in T:
        if t[0] == 'ApnRestriction':
            w('  case ApnRestriction => exact absurd rfl hk')
        else:
            w('  case %s => exact C1.%s.len_ok' % (t[0], t[0]))
    w('')
    w('/-- The buffers on which the decoder of a kind panics. -/\ndef Panics : Kind → Mode → Bytes → Prop')
    for t in T:
        if t[4] != N:
            w('  | .%s => %s' % (t[0], t[4]))
    w('  | _ => Never\n')
    w('theorem panics (k : Kind) : PanicsIff k.Panics k.codec.unm := by\n  cases k')
    for t in T:
        w('  case %s => exact C1.%s.panics' % (t[0], t[0]))
    w('')
    w('''/-- What is accounted for a decoded element. -/
theorem account (k : Kind) (m : Mode) (b : Bytes) (x : k.Ty) (h : k.codec.unm m b = .ok x) :
    (∃ n, k.fixedLen = some n ∧ k.codec.len m x = .ok n ∧ n ≤ b.length) ∨
    (k.fixedLen = none ∧ k ≠ .ExtensionHeaderTypeList ∧ k.codec.len m x = len3 m (declLen b)) ∨
    k = .ExtensionHeaderTypeList := by
  cases k''')
    for t in T:
        n = t[0]
        if t[2]:
            w('  case %s => exact .inl ⟨_, rfl, C1.%s.safe.fixed m b x h⟩' % (n, n))
        elif n == 'ExtensionHeaderTypeList':
            w('  case %s => exact .inr (.inr rfl)' % n)
        else:
            w('  case %s => exact .inr (.inl ⟨rfl, by simp, C1.%s.declared m b x h⟩)' % (n, n))
    w('\nend Kind\n\nend Gtp.C1\n')
    s = '\n'.join(o)
    open(OUT, 'w').write(s)
