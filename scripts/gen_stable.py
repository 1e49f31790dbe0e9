#!/usr/bin/env python3
"""Writes lean/Verif/V2/Stable.lean: what a decoded IE looks like, kind by kind."""
import os

HERE = os.path.dirname(os.path.abspath(__file__))
ns = {'__file__': f'{HERE}/gen_sum.py'}
exec(open(f'{HERE}/gen_sum.py').read().split('def check_table')[0], ns)
K = ns['KINDS']
groups='BearerContext LoadControl OverloadControlInfo RemoteUeContext ScefPdnConnections PC5QosParameters PgwChangeInfo PdnConnections V2xInformation'.split()
bad='MmContext'.split()
o = '''import Verif.V2.StableMm

/-!
# Decoded IEs

Expanded by `scripts/gen_stable.py`. For every kind of IE: once its length field is set to the length it is encoded with, a decoded
value satisfies `WF`, that is, it is a value which the encoding represents. For some kinds this takes a condition, which is stated in
front of the conclusion and collected in `IE.Faithful`.
-/

namespace Gtp.V2
set_option linter.unusedSimpArgs false

'''

FIN={}
PRE={}
PROOF={}
FIN['Indication']=('Indication.body, Indication.convert','')
FIN['UeTimeZone']=('','all_goals exact zoneOf_ne _')
FIN['Throttling']=('','· exact throttling_unit _\n  · exact throttling_factor _')
FIN['EpcTimer']=('','all_goals exact epc_unit _')
FIN['Metric']=('','all_goals exact UInt8.not_lt.mp ‹_›')
FIN['HeaderCompressionConfiguration']=('','exact profiles_sub _')
FIN['Fqcsid']=('rd16s_length','all_goals (rename_i f _ _ _ _ _ _ _ _; have := and15n f; omega)')
FIN['MbmsServiceArea']=('rd16s_length','all_goals (rename_i hn; rw [if_neg (by omega)] at hn; simp only [List.length_append, List.length_cons, List.length_nil, gtplen, rd16s_length] at hn; omega)')
FIN['RemoteUserId']=('RemoteUserId.lv, Option.mem_def, Option.some.injEq, forall_eq\'','')
FIN['NodeNumber']=('','')
FIN['RanNasCause']=('CauseValue.octets, CauseValue.size, s1ap_len','')
PRE['RemoteUserId']='rdStr'
PRE['ExtendedTraceInformation']='rdLvC'
PRE['MbmsIpMulticastDistribution']='rdIp50'
FIN['MbmsIpMulticastDistribution']=('ip50','')
PRE['Fcontainer']='Container.read'

PROOF['Uli']='''  unfold Uli.unmarshal
  refine Post_ite_any ?_ trivial
  refine Post_bind_any fun _ => Post_bind_any fun _ => Post_bind_chk (fun _ => ?_) trivial
  refine Post_bind_any fun _ => Post_bind_readAll fun ls h1 h2 => ?_
  intro n hn hN
  rw [Uli.marshal, tliv_length, Uli.body_eq h1] at hn
  exact ⟨rfl, by simp at hn ⊢; omega, and15 _, hN, h1, h2⟩

'''

PROOF['TransactionIdentifier']='''  unfold TransactionIdentifier.unmarshal
  stable_steps
  all_goals
    simp only [TransactionIdentifier.WF, TransactionIdentifier.marshal, tliv_length]
    intro n hn hN
    refine ⟨trivial, ?_, and15 _⟩
    split at hn <;> simp only [List.length_cons, List.length_nil] at hn <;> split <;> first | omega | contradiction

'''
PROOF['Fqcsid']='''  unfold Fqcsid.unmarshal
  refine Post_ite_any ?_ trivial
  refine Post_bind_any fun _ => Post_bind_any fun _ => Post_bind_chk (fun _ => ?_) trivial
  refine Post_bind_any fun f => ?_
  have hf := and15n f
  simp only [if_true]
  stable_steps
  all_goals (simp only [Fqcsid.WF, Fqcsid.marshal])
  all_goals stable_fin [rd16s_length]

'''
PROOF['Fcontainer']='''  unfold Fcontainer.unmarshal
  refine Post_ite_any ?_ trivial
  refine Post_bind_any fun l => Post_bind_any fun _ => Post_bind_chk (fun hl => ?_) trivial
  simp only [if_true]
  refine (Post_bind ..).mpr ((Post_rd ..).mpr fun hb => ?_)
  refine (Post_bind ..).mpr (Post.mono (Container.read_stable (by omega)) fun c hc => ?_)
  intro n hn hN
  simp only [Fcontainer.marshal, tliv_length] at hn
  exact ⟨rfl, by simp only; omega, and15 _, hN, hc⟩

'''
PROOF['EcgiList']='''  unfold EcgiList.unmarshal
  refine Post_ite_any ?_ trivial
  refine Post_bind_any fun _ => Post_bind_any fun _ => Post_bind_any fun k => ?_
  refine Post_ite' (fun _ => ?_) fun hk => Post_ite_any ?_ trivial
  · intro n hn hN
    simp only [EcgiList.marshal, tliv_length, List.length_cons, List.length_nil] at hn
    exact ⟨rfl, by simp; omega, and15 _, by simp, by simp⟩
  · refine Post_bind_rdElems Ecgi.WF Ecgi.stable fun l c h1 h2 => ?_
    intro n hn hN
    simp only [EcgiList.marshal, tliv_length, be16, List.length_append, List.length_cons, List.length_nil,
      rdElems_flat fun x hx => (Ecgi.elem x (h2 x hx)).1] at hn
    refine ⟨rfl, by simp; omega, and15 _, h2, ?_⟩
    rintro ⟨⟩
    exact hk (UInt16.toNat_inj.mp h1.symm)

'''
HYP={}
HYP['MdtConfiguration']='x.mdt_plmns_list = none → '
HYP['PresenceReportingAreaAction']='x.ext_macro_enb.length ≤ 63 → '
PROOF['MdtConfiguration']='''  unfold MdtConfiguration.unmarshal
  simp only [MdtConfiguration.rdScope]
  stable_steps
  all_goals
    intro h0 n hn hN
    simp only [MdtConfiguration.marshal, tliv_length] at hn
    refine ⟨rfl, ?_, and15 _, by assumption, ?_, h0⟩
    · exact Nat.add_right_cancel hn
  · exact .inl rfl
  · exact .inr ⟨_, rfl, by omega, by omega⟩

'''
PROOF['PresenceReportingAreaAction']='''  unfold PresenceReportingAreaAction.unmarshal
  refine Post_ite_any ?_ trivial
  refine Post_bind_any fun _ => Post_bind_any fun _ => Post_bind_chk (fun hl => ?_) trivial
  simp only [if_true]
  refine Post_bind_any fun _ => Post_bind_rd24 fun _ hp => Post_bind_any fun n0 => Post_bind_any fun n1 => Post_bind_any fun n2 =>
    Post_bind_any fun n3 => Post_bind_any fun n4 => Post_bind_any fun n5 => Post_ite_any trivial ?_
  refine Post_bind_rdElems Tai.WF Tai.stable fun l1 _ a1 b1 => ?_
  refine Post_bind_rdElems MacroEnbId.WF MacroEnbId.stable fun l2 _ a2 b2 => ?_
  refine Post_bind_rdElems MacroEnbId.WF MacroEnbId.stable fun l3 _ a3 b3 => ?_
  refine Post_bind_rdElems Ecgi.WF Ecgi.stable fun l4 _ a4 b4 => ?_
  refine Post_bind_rdElems Rai.WF Rai.stable fun l5 _ a5 b5 => ?_
  refine Post_bind_rdElems Sai.WF Sai.stable fun l6 _ a6 b6 => ?_
  refine Post_bind_rdElems Cgi.WF Cgi.stable fun l7 c a7 b7 => ?_
  have := and15n n0; have := shr4 n0; have := and63n n1; have := and63n n2; have := and63n n3; have := and63n n4; have := and63n n5
  have key : ∀ l8 : List ExtMacroEnbId, (∀ y ∈ l8, y.WF) → ∀ (l : UInt16) (i : UInt8) (ia : Bool) (f : UInt8) (p : UInt32), p.toNat < 16777216 →
      ∀ x : PresenceReportingAreaAction, x = { t := 177, length := l, ins := i &&& 15, inapra := ia, action := (f &&& 0x07), prai := p, tai := l1, rai := l5, macro_enb := l2, home_enb := l3, ecgi := l4, sai := l6, cgi := l7, ext_macro_enb := l8 } →
      x.ext_macro_enb.length ≤ 63 → ∀ n : UInt16, n.toNat + 4 = x.marshal.length → n.toNat < 65532 →
      ({ x with length := n } : PresenceReportingAreaAction).WF := by
    rintro l8 b8 l i ia f p hp x rfl h8 n hn hN
    simp only at h8
    simp only [PresenceReportingAreaAction.marshal, tliv_length, be24, List.length_append, List.length_cons, List.length_nil,
      List.take_of_length_le (l := l1) (i := 15) (by omega), List.take_of_length_le (l := l2) (i := 63) (by omega),
      List.take_of_length_le (l := l3) (i := 63) (by omega), List.take_of_length_le (l := l4) (i := 63) (by omega),
      List.take_of_length_le (l := l5) (i := 15) (by omega), List.take_of_length_le (l := l6) (i := 63) (by omega),
      List.take_of_length_le (l := l7) (i := 63) (by omega), List.take_of_length_le (l := l8) (i := 63) (by omega),
      rdElems_flat fun x hx => (Tai.elem x (b1 x hx)).1, rdElems_flat fun x hx => (MacroEnbId.elem x (b2 x hx)).1,
      rdElems_flat fun x hx => (MacroEnbId.elem x (b3 x hx)).1, rdElems_flat fun x hx => (Ecgi.elem x (b4 x hx)).1,
      rdElems_flat fun x hx => (Rai.elem x (b5 x hx)).1, rdElems_flat fun x hx => (Sai.elem x (b6 x hx)).1,
      rdElems_flat fun x hx => (Cgi.elem x (b7 x hx)).1, rdElems_flat fun x hx => (ExtMacroEnbId.elem x (b8 x hx)).1] at hn
    refine ⟨rfl, ?_, and15 _, hN, and7 _, hp, ?_, ?_, ?_, ?_, ?_, ?_, ?_, h8, b1, b5, b2, b3, b4, b6, b7, b8⟩
    all_goals (simp only; omega)
  refine Post_bind_ite (fun _ => ?_) fun _ => ?_
  · refine Post_bind_bind (Post_bind_any fun _ => Post_bind_bind (Post_bind_rdElems ExtMacroEnbId.WF ExtMacroEnbId.stable fun l8 _ _ b8 => ?_))
    exact key l8 b8 _ _ _ _ _ hp _ rfl
  · exact key [] (by simp) _ _ _ _ _ hp _ rfl

'''

HYPS='''Imsi|x.imsi ≠ []
Msisdn|x.msisdn ≠ []
AlternativeImsi|x.imsi ≠ []
Mei|(x.mei.length + 1) / 2 = 8
Apn|NameOk x.name
Fqdn|NameOk x.name
PgwFqdn|NameOk x.name
ApnRelativeCapacity|NameOk x.name
Ldn|∀ c ∈ x.name, IsAscii c
NodeIdentifier|(∀ c ∈ x.node_name, IsAscii c) ∧ ∀ c ∈ x.node_realm, IsAscii c
Uci|x.csgid.toNat < 2 ^ 27
PrivateExtension|x.value ≠ []
PresenceReportingAreaInformation|∃ q, x.add_prai = some [q]
AdditionalMmContextForSrvcc|x.mobile_station_classmark2 ≠ none ∧ x.mobile_station_classmark3 ≠ none'''
for l in HYPS.split('\n'):
    a,h=l.split('|'); HYP[a]='('+h+') → '

for a in ['Apn','Fqdn','PgwFqdn']:
    FIN[a]=('encName_length h0','· exact h0.1\n  · exact h0.2')
FIN['ApnRelativeCapacity']=('encName_length h0','all_goals first | exact h0.1 | exact h0.2 | exact cap_le _')
FIN['Ldn']=('utf8_length h0, latin1_length','all_goals (apply List.ne_nil_of_length_pos; rw [latin1_length]; omega)')
FIN['NodeIdentifier']=('utf8_length h0.1, utf8_length h0.2, latin1_length','all_goals first | exact h0.1 | exact h0.2')
PROOF['AdditionalMmContextForSrvcc']='''  unfold AdditionalMmContextForSrvcc.unmarshal
  refine Post_ite_any ?_ trivial
  refine Post_bind_any fun _ => Post_bind_any fun _ => ?_
  refine (Post_bind ..).mpr (Post.mono (rdLv_post ..) fun p1 h1 => ?_)
  refine (Post_bind ..).mpr (Post.mono (rdLv_post ..) fun p2 h2 => ?_)
  refine (Post_bind ..).mpr (Post.mono (rdLv_post ..) fun p3 h3 => ?_)
  intro h0 n hn hN
  simp only [AdditionalMmContextForSrvcc.marshal, tliv_length] at hn
  exact ⟨rfl, Nat.add_right_cancel hn, and15 _, h1.resolve_left h0.1, h2.resolve_left h0.2, h3⟩

'''
PROOF['PresenceReportingAreaInformation']='''  unfold PresenceReportingAreaInformation.unmarshal
  refine Post_ite_any ?_ trivial
  refine Post_bind_any fun _ => Post_bind_any fun _ => Post_bind_any fun a => Post_bind_any fun b => Post_bind_any fun c => Post_bind_any fun d => ?_
  simp only
  refine Post_ite' (fun _ => Post_bind_any fun r => ?_) fun _ => ?_
  · rintro ⟨q, hq⟩ n hn hN
    simp only [PresenceReportingAreaInformation.marshal, tliv_length] at hn
    simp only at hq
    rw [Option.some.inj hq] at hn
    have h1 := PresenceReportingArea.chain_length (PresenceReportingArea.ofOctets a b c d :: [q])
    simp only [List.length_cons, List.length_nil] at h1
    have h2 := more_val r
    refine ⟨rfl, by simp only; simp only [h1] at hn; omega, and15 _, ⟨q, by simp only [hq]; simp, hq⟩, ?_⟩
    intro p hp
    simp only [Option.getD_some, List.mem_cons] at hp
    rcases hp with rfl | hp
    · exact ofOctets_val ..
    · exact h2 p hp
  · rintro ⟨q, hq⟩
    cases hq

'''
PROOF['TwanId']='''  unfold TwanId.unmarshal
  refine Post_ite_any ?_ trivial
  refine Post_bind_any fun _ => Post_bind_any fun _ => Post_bind_any fun _ => ?_
  refine (Post_bind ..).mpr (Post.mono (rdLvU_post ..) fun p1 h1 => ?_)
  refine (Post_bind ..).mpr (Post.mono (rdIf_post (P := fun s => s.length = 6) fun c => rdN_post ..) fun p2 h2 => ?_)
  refine (Post_bind ..).mpr (Post.mono (rdIf_post (P := fun s => s.length < 256) fun c => rdLe_post (rdLvU_post ..)) fun p3 h3 => ?_)
  refine (Post_bind ..).mpr (Post.mono (rdIf_post (P := fun p => PlmnOk p.1 p.2.1 p.2.2) fun c => rdPlmnS_post ..) fun p4 h4 => ?_)
  refine (Post_bind ..).mpr (Post.mono (rdIf_post (P := fun s => (utf8 s).length < 256) fun c => rdLe_post (rdName_post ..)) fun p5 h5 => ?_)
  refine (Post_bind ..).mpr (Post.mono (rdRelay_post ..) fun p6 h6 => ?_)
  intro n hn hN
  simp only [TwanId.marshal, tliv_length] at hn
  exact ⟨rfl, Nat.add_right_cancel hn, and15 _, h1, h2, h3, h4, h5, h6.1, h6.2.1, h6.2.2⟩

'''
o+='''theorem rdLv_post (skip : Nat) (e : Err) (b : Bytes) (c : Nat) : (rdLv skip e b c).Post fun p => LvOk0 p.1 := by
  unfold rdLv
  refine Post_bind_rd fun v hv => Post_ite' (fun h => ?_) fun _ => .inl rfl
  refine Post_ite_any ?_ trivial
  exact Post_bind_sl fun s hs => .inr ⟨s, rfl, by omega, by omega⟩

theorem rdLvU_post (b : Bytes) (c : Nat) : (rdLvU b c).Post fun p => p.1.length < 256 := by
  unfold rdLvU
  refine Post_bind_rd fun v hv => ?_
  exact Post_bind_sl fun s hs => (by omega : s.length < 256)

theorem rdLvC_post (e : Err) (b : Bytes) (c : Nat) : (rdLvC e b c).Post fun p => p.1.length < 256 := by
  unfold rdLvC
  stable_steps
  all_goals (simp only; omega)

theorem rdN_post (k : Nat) (b : Bytes) (c : Nat) : (rdN k b c).Post fun p => p.1.length = k := by
  unfold rdN
  exact Post_bind_sl fun s hs => (by omega : s.length = k)

theorem rdIf_post {α : Type} {P : α → Prop} {flag : Bool} {st : Nat → R Err (α × Nat)} {c : Nat}
    (h : ∀ c, (st c).Post fun p => P p.1) : (rdIf flag st c).Post fun p => ∀ x ∈ p.1, P x := by
  unfold rdIf
  refine Post_ite' (fun _ => (Post_bind ..).mpr (Post.mono (h c) fun p hp => ?_)) fun _ => ?_
  · intro x hx
    cases hx
    exact hp
  · intro x hx
    cases hx

theorem rdLe_post {α : Type} {P : α → Prop} {e : Err} {b : Bytes} {st : Nat → R Err α} {c : Nat} (h : (st c).Post P) : (rdLe e b st c).Post P :=
  Post_ite' (fun _ => h) fun _ => trivial

theorem rdPlmnS_post (b : Bytes) (c : Nat) : (rdPlmnS b c).Post fun p => PlmnOk p.1.1 p.1.2.1 p.1.2.2 := by
  unfold rdPlmnS
  exact Post_bind_any fun _ => Post_bind_mcc fun _ _ _ h1 h2 h3 => ⟨h1, h2, h3⟩

theorem rdName_post (b : Bytes) (c : Nat) : (TwanId.rdName b c).Post fun p => (utf8 p.1).length < 256 := by
  unfold TwanId.rdName
  refine (Post_bind ..).mpr (Post.mono (rdLvU_post ..) fun p hp => ?_)
  exact Post_bind_utf8 fun t ht => (by omega : (utf8 t).length < 256)

theorem rdRelay_post (flag : Bool) (b : Bytes) (c : Nat) : (TwanId.rdRelay flag b c).Post fun p =>
    (∀ q ∈ p.1, q.2.length < 256) ∧ (∀ s ∈ p.2, s.length < 256) ∧ p.2.isSome = p.1.isSome := by
  unfold TwanId.rdRelay
  refine Post_ite' (fun _ => Post_ite_any ?_ trivial) fun _ => ⟨by simp, by simp, rfl⟩
  refine Post_bind_any fun r => (Post_bind ..).mpr (Post.mono (rdLvC_post ..) fun p hp => ?_)
  refine (Post_bind ..).mpr (Post.mono (rdLe_post (rdLvC_post ..)) fun q hq => ?_)
  exact ⟨by simpa using hp, by simpa using hq, rfl⟩

theorem cap_le : ∀ v : UInt8, (if v ≤ 100 then v else 0) ≤ 100 := by decide +kernel

theorem ofOctets_val (a b c d : UInt8) : (PresenceReportingArea.ofOctets a b c d).val.toNat < 16777216 := by
  unfold PresenceReportingArea.ofOctets
  split
  · exact of32_lt ..
  · split <;> exact of32_lt ..

theorem more_val : ∀ (r : Bytes) (p : PresenceReportingArea), p ∈ PresenceReportingArea.more r → p.val.toNat < 16777216
  | a :: b :: c :: d :: r, p, h => by
    rw [PresenceReportingArea.more] at h
    rcases List.mem_cons.mp h with rfl | h
    · exact ofOctets_val ..
    · split at h
      · cases h
      · exact more_val r p h
  | [], _, h => by cases h
  | [_], _, h => by cases h
  | [_, _], _, h => by cases h
  | [_, _, _], _, h => by cases h

'''

for a in ['MacroEnbIdentifier','ExtendedMacroEnbIdentifier','MacronGeNbIdentifier','ExtendedGeNbIdentifier']:
    e='MacroEnbId' if a.startswith('Macro') else 'ExtMacroEnbId'
    if 'Ge' in a or 'nGe' in a:
        o+=f'''theorem {a}.stable (b : Bytes) : ({a}.unmarshal b).Post {a}.WF := by
  unfold {a}.unmarshal
  refine Post_ite_any (Post_bind_any fun s => ?_) trivial
  refine (Post_bind ..).mpr (Post_mapErr (Post.mono ({e}.stable s) fun i hi => ?_))
  exact Post_bind_sl fun t ht => ⟨hi, ht⟩

'''
    else:
        o+=f'''theorem {a}.stable (b : Bytes) : ({a}.unmarshal b).Post {a}.WF := by
  unfold {a}.unmarshal
  refine Post_ite_any (Post_bind_any fun s => ?_) trivial
  refine (Post_bind ..).mpr (Post_mapErr (Post.mono ({e}.stable s) fun i hi => ?_))
  exact Post_bind_any fun t => hi

'''
o+='''theorem CellIdentifier.stable (b : Bytes) : (CellIdentifier.unmarshal b).Post CellIdentifier.WF := by
  unfold CellIdentifier.unmarshal
  refine Post_ite_any (Post_bind_any fun s => Post_bind_mcc fun _ _ _ h1 h2 h3 => ?_) trivial
  exact Post_bind_any fun _ => Post_bind_any fun _ => Post_bind_any fun _ => ⟨h1, h2, h3⟩

theorem GNbIdentifier.stable (b : Bytes) : (GNbIdentifier.unmarshal b).Post GNbIdentifier.WF := by
  unfold GNbIdentifier.unmarshal
  refine Post_ite_any (Post_bind_any fun s => Post_bind_mcc fun _ _ _ h1 h2 h3 => ?_) trivial
  exact Post_bind_any fun _ => Post_bind_any fun _ => Post_bind_sl fun _ h => ⟨⟨h1, h2, h3⟩, h⟩

theorem RncIdentifier.stable (b : Bytes) : (RncIdentifier.unmarshal b).Post fun x => x.rai.WF := by
  unfold RncIdentifier.unmarshal
  refine Post_ite' (fun _ => Post_bind_any fun s => ?_) fun _ => Post_ite_any (Post_bind_any fun s => ?_) trivial
  · refine (Post_bind ..).mpr (Post_mapErr (Post.mono (Rai.stable s) fun i hi => ?_))
    exact Post_bind_any fun _ => hi
  · refine (Post_bind ..).mpr (Post_mapErr (Post.mono (Rai.stable s) fun i hi => ?_))
    exact Post_bind_any fun _ => Post_bind_any fun _ => hi

theorem SourceRncIdentifier.stable (b : Bytes) : (SourceRncIdentifier.unmarshal b).Post fun x => PlmnOk x.mcc x.mnc x.mnc_is_three_digits := by
  unfold SourceRncIdentifier.unmarshal
  refine Post_ite' (fun _ => Post_bind_any fun s => ?_) fun _ => Post_ite_any (Post_bind_any fun s => ?_) trivial
  · exact Post_bind_mcc fun _ _ _ h1 h2 h3 => Post_bind_any fun _ => ⟨h1, h2, h3⟩
  · exact Post_bind_mcc fun _ _ _ h1 h2 h3 => Post_bind_any fun _ => Post_bind_any fun _ => ⟨h1, h2, h3⟩

/-- Targets that are written so that they can be read: not `Spare`, an EN-gNB (its `len` is one too large), or an RNC without extension. -/
def TargetType.Faithful : TargetType → Prop
  | .RncId i => i.ext_rnc_id.isSome = true
  | .MacroeNbId _ | .CellId _ | .HomeeNbId _ | .ExtendedMacroeNbId _ | .GNbId _ | .MacrongeNbId _ | .ExtendedngeNbId _ => True
  | _ => False

instance (x : TargetType) : Decidable x.Faithful := by cases x <;> unfold TargetType.Faithful <;> infer_instance

/-- Sources that are written so that they can be read: not `Spare`, and not an RNC without extension. -/
def SourceType.Faithful : SourceType → Prop
  | .SourceRncId i => i.ext_rnc_id.isSome = true
  | .SourceCellId _ => True
  | .Spare => False

instance (x : SourceType) : Decidable x.Faithful := by cases x <;> unfold SourceType.Faithful <;> infer_instance

theorem TargetType.stable (b : Bytes) : (TargetType.unmarshal b).Post fun x => x.Faithful → x.Ok 2 := by
  unfold TargetType.unmarshal
  refine Post_bind_any fun v => ?_
  refine Post_ite' (fun _ => Post_bind_any fun s => ?_) fun _ => ?_
  · exact (Post_bind ..).mpr (Post_mapErr (Post.mono (RncIdentifier.stable s) fun i hi h => ⟨hi, .inl h⟩))
  refine Post_ite' (fun _ => Post_bind_any fun s => ?_) fun _ => ?_
  · exact (Post_bind ..).mpr (Post_mapErr (Post.mono (MacroEnbIdentifier.stable s) fun i hi h => hi))
  refine Post_ite' (fun _ => Post_bind_any fun s => ?_) fun _ => ?_
  · exact (Post_bind ..).mpr (Post_mapErr (Post.mono (CellIdentifier.stable s) fun i hi h => hi))
  refine Post_ite' (fun _ => Post_bind_any fun s => ?_) fun _ => ?_
  · exact (Post_bind ..).mpr (Post_mapErr (Post.mono (MacroEnbIdentifier.stable s) fun i hi h => hi))
  refine Post_ite' (fun _ => Post_bind_any fun s => ?_) fun _ => ?_
  · exact (Post_bind ..).mpr (Post_mapErr (Post.mono (ExtendedMacroEnbIdentifier.stable s) fun i hi h => hi))
  refine Post_ite' (fun _ => Post_bind_any fun s => ?_) fun _ => ?_
  · exact (Post_bind ..).mpr (Post_mapErr (Post.mono (GNbIdentifier.stable s) fun i hi h => hi))
  refine Post_ite' (fun _ => Post_bind_any fun s => ?_) fun _ => ?_
  · exact (Post_bind ..).mpr (Post_mapErr (Post.mono (MacronGeNbIdentifier.stable s) fun i hi h => hi))
  refine Post_ite' (fun _ => Post_bind_any fun s => ?_) fun _ => ?_
  · exact (Post_bind ..).mpr (Post_mapErr (Post.mono (ExtendedGeNbIdentifier.stable s) fun i hi h => hi))
  refine Post_ite' (fun _ => Post_bind_any fun s => ?_) fun _ h => h
  exact (Post_bind ..).mpr (Post.trivial _ fun i h => h)

theorem SourceType.stable (b : Bytes) : (SourceType.unmarshal b).Post fun x => x.Faithful → x.Ok 1 := by
  unfold SourceType.unmarshal
  refine Post_bind_any fun v => ?_
  refine Post_ite' (fun _ => Post_bind_any fun s => ?_) fun _ => ?_
  · exact (Post_bind ..).mpr (Post_mapErr (Post.mono (CellIdentifier.stable s) fun i hi h => hi))
  refine Post_ite' (fun _ => Post_bind_any fun s => ?_) fun _ h => h
  exact (Post_bind ..).mpr (Post_mapErr (Post.mono (SourceRncIdentifier.stable s) fun i hi h => ⟨hi, .inl h⟩))

'''
HYP['TargetIdentification']='x.target_type.Faithful → '
HYP['SourceIdentification']='x.source_type.Faithful → '
PROOF['TargetIdentification']='''  unfold TargetIdentification.unmarshal
  refine Post_ite_any (Post_bind_any fun _ => Post_bind_any fun _ => Post_bind_any fun s => ?_) trivial
  refine (Post_bind ..).mpr (Post_mapErr (Post.mono (TargetType.stable s) fun t ht => ?_))
  intro h0 n hn hN
  have h1 := ht h0
  have h2 := (TargetType.rt (tail := []) (TargetIdentification.Ok_any h1 _)).1
  simp only [TargetIdentification.marshal, tliv_length, List.length_cons] at hn
  exact ⟨rfl, by simp only; omega, h1⟩

'''
PROOF['SourceIdentification']='''  unfold SourceIdentification.unmarshal
  refine Post_ite_any (Post_bind_any fun _ => Post_bind_any fun _ => Post_bind_any fun s => ?_) trivial
  refine (Post_bind ..).mpr (Post_mapErr (Post.mono (CellIdentifier.stable s) fun c hc => ?_))
  refine Post_bind_any fun s => (Post_bind ..).mpr (Post_mapErr (Post.mono (SourceType.stable s) fun t ht => ?_))
  intro h0 n hn hN
  have h1 := ht h0
  have h2 := (SourceType.rt (tail := []) (SourceIdentification.Ok_any h1 _)).1
  have h3 := (CellIdentifier.elem c hc).1
  simp only [SourceIdentification.marshal, tliv_length, List.length_cons, List.length_append] at hn
  exact ⟨rfl, by simp only; omega, hc, h1⟩

'''
for c,s,t in K:
    if s=='Unknown': continue
    if s in groups or s in bad: continue
    fs,ft=FIN.get(s,('',''))
    o+=f'''theorem {s}.stable (m : Mode) (b : Bytes) : ({s}.unmarshal m b).Post fun x => {HYP.get(s,'')}∀ n : UInt16, n.toNat + 4 = x.marshal.length → n.toNat < 65532 →
    ({{ x with length := n }} : {s}).WF := by
'''
    if s in PROOF: o+=PROOF[s]; continue
    o+=f'''  unfold {s}.unmarshal
  try simp only [{PRE.get(s,'')}]
  stable_steps
  all_goals (simp only [{s}.WF, {s}.marshal])
  all_goals {'intro h0' if s in HYP else 'skip'}
  all_goals stable_fin [{fs}]
'''
    if ft: o+='  '+ft+'\n'
    o+='\n'
o+='''theorem Unknown.stable (m : Mode) (b : Bytes) : (Unknown.unmarshal m b).Post fun x => ∀ n : UInt16, n.toNat + 4 = (tliv x.t x.length x.ins x.value).length → n.toNat < 65532 →
    (IE.Unknown { x with length := n }).WF := by
  unfold Unknown.unmarshal
  stable_steps
  all_goals (simp only [IE.WF, IE.WFWith])
  all_goals stable_fin []

'''
o+='''/-- The IEs for which the decoded value is written so that it can be read again. Grouped IEs are left out (see `IE.Good`); a
trace reference and a TWAN identifier are written with the type of another IE. -/
def IE.Faithful : IE → Prop
'''
for c,s,t in K:
    if s in groups or s in ('TraceReference','TwanId'): o+=f'  | .{c} _ => False\n'
    elif s=='MmContext': o+=f'  | .{c} x => x.Faithful\n'
    elif s in HYP:
        h=HYP[s][:-3]
        if h.startswith('('): h=h[1:-1]
        o+=f'  | .{c} x => {h}\n'
o+='''  | _ => True

theorem unmKind_stable (dec : Bytes → R Err (List IE)) (m : Mode) (b : Bytes) (k : Kind) :
    (unmKind dec m b k).Post fun e => e.Faithful → ∀ n : UInt16, n.toNat + 4 = e.marshal.length → n.toNat < 65532 → (e.setLength n).WF := by
  cases k with
'''
for c,s,t in K:
    if s in groups or s in ('TraceReference','TwanId'):
        o+=f'  | {c} =>\n    simp only [unmKind]; repeat refine Post_bind_any fun _ => ?_\n    first | exact fun h => False.elim h | exact Post_ite_any trivial fun h => False.elim h\n'
    elif s=='Unknown': 
        o+=f'  | {c} => simp only [unmKind]; rw [Post_bind]; exact Post.mono (Unknown.stable m b) fun _ h _ => h\n'
    elif s in HYP or s=='MmContext':
        o+=f'  | {c} => simp only [unmKind]; rw [Post_bind]; exact Post.mono ({s}.stable m b) fun _ h => h\n'
    else:
        o+=f'  | {c} => simp only [unmKind]; rw [Post_bind]; exact Post.mono ({s}.stable m b) fun _ h _ => h\n'
o+='\nend Gtp.V2\n'

open(f'{HERE}/../lean/Verif/V2/Stable.lean', 'w').write(o)
