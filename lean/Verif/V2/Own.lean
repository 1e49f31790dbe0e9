import Verif.V2.Append
import Verif.V2.OwnBase

/-!
# The octets that an IE declares as its own

The decoders that read nothing but the four leading octets and as many as these declare.
-/

namespace Gtp.V2
set_option linter.unusedSimpArgs false
set_option linter.unusedVariables false

section
variable {b : Bytes} {n : Nat}

theorem ext_slBodyT {m : Mode} {l : UInt16} (hl : l.toNat + 4 ≤ n) : Ext (slBody16 m b l) (slBody16 m (b.take n) l) := by
  unfold V2.slBody16
  cases h : (add16 m l 4 : R Err UInt16) with
  | ok v => exact ext_slT (Nat.le_trans (add16_le h) hl)
  | _ => exact fun _ h => by cases h

macro_rules | `(tactic| own_leaf) => `(tactic| ((with_reducible refine ext_slBodyT ?_); omega))

theorem ext_containerT {v : UInt8} {j : Nat} (hj : j ≤ n) : Ext (Container.read b v j) (Container.read (b.take n) v j) := by
  unfold Container.read
  repeat' own_step

macro_rules | `(tactic| own_leaf) => `(tactic| ((with_reducible refine ext_containerT ?_); omega))

theorem Imsi.own (m : Mode) (hn : n = (declLen b).toNat + 4) : Ext (Imsi.unmarshal m b) (Imsi.unmarshal m (b.take n)) := by
  by_cases hz : declLen b = 0
  · simp only [Imsi.unmarshal]
    repeat' never_step
  · have hz : 1 ≤ (declLen b).toNat := toNat_pos_of_ne hz
    simp only [Imsi.unmarshal]
    repeat' own_step

theorem StnSr.own (m : Mode) (hn : n = (declLen b).toNat + 4) : Ext (StnSr.unmarshal m b) (StnSr.unmarshal m (b.take n)) := by
  by_cases hz : declLen b = 0
  · simp only [StnSr.unmarshal]
    repeat' never_step
  · have hz : 1 ≤ (declLen b).toNat := toNat_pos_of_ne hz
    simp only [StnSr.unmarshal]
    repeat' own_step

theorem Apn.own (m : Mode) (hn : n = (declLen b).toNat + 4) : Ext (Apn.unmarshal m b) (Apn.unmarshal m (b.take n)) := by
  by_cases hz : declLen b = 0
  · simp only [Apn.unmarshal]
    repeat' never_step
  · have hz : 1 ≤ (declLen b).toNat := toNat_pos_of_ne hz
    simp only [Apn.unmarshal]
    repeat' own_step

theorem Mei.own (m : Mode) (hn : n = (declLen b).toNat + 4) : Ext (Mei.unmarshal m b) (Mei.unmarshal m (b.take n)) := by
  by_cases hz : declLen b = 0
  · simp only [Mei.unmarshal]
    repeat' never_step
  · have hz : 1 ≤ (declLen b).toNat := toNat_pos_of_ne hz
    simp only [Mei.unmarshal]
    repeat' own_step

theorem Msisdn.own (m : Mode) (hn : n = (declLen b).toNat + 4) : Ext (Msisdn.unmarshal m b) (Msisdn.unmarshal m (b.take n)) := by
  by_cases hz : declLen b = 0
  · simp only [Msisdn.unmarshal]
    repeat' never_step
  · have hz : 1 ≤ (declLen b).toNat := toNat_pos_of_ne hz
    simp only [Msisdn.unmarshal]
    repeat' own_step

theorem Pco.own (m : Mode) (hn : n = (declLen b).toNat + 4) : Ext (Pco.unmarshal m b) (Pco.unmarshal m (b.take n)) := by
  by_cases hz : declLen b = 0
  · simp only [Pco.unmarshal]
    repeat' never_step
  · have hz : 1 ≤ (declLen b).toNat := toNat_pos_of_ne hz
    simp only [Pco.unmarshal]
    repeat' own_step

theorem PdnAddressAllocation.own (m : Mode) (hn : n = (declLen b).toNat + 4) : Ext (PdnAddressAllocation.unmarshal m b) (PdnAddressAllocation.unmarshal m (b.take n)) := by
  by_cases hz : declLen b = 0
  · simp only [PdnAddressAllocation.unmarshal]
    repeat' never_step
  · have hz : 1 ≤ (declLen b).toNat := toNat_pos_of_ne hz
    simp only [PdnAddressAllocation.unmarshal]
    repeat' own_step

theorem BearerTft.own (m : Mode) (hn : n = (declLen b).toNat + 4) : Ext (BearerTft.unmarshal m b) (BearerTft.unmarshal m (b.take n)) := by
  by_cases hz : declLen b = 0
  · simp only [BearerTft.unmarshal]
    repeat' never_step
  · have hz : 1 ≤ (declLen b).toNat := toNat_pos_of_ne hz
    simp only [BearerTft.unmarshal]
    repeat' own_step

theorem TrafficAggregateDescription.own (m : Mode) (hn : n = (declLen b).toNat + 4) : Ext (TrafficAggregateDescription.unmarshal m b) (TrafficAggregateDescription.unmarshal m (b.take n)) := by
  by_cases hz : declLen b = 0
  · simp only [TrafficAggregateDescription.unmarshal]
    repeat' never_step
  · have hz : 1 ≤ (declLen b).toNat := toNat_pos_of_ne hz
    simp only [TrafficAggregateDescription.unmarshal]
    repeat' own_step

theorem CompleteRequestMessage.own (m : Mode) (hn : n = (declLen b).toNat + 4) : Ext (CompleteRequestMessage.unmarshal m b) (CompleteRequestMessage.unmarshal m (b.take n)) := by
  by_cases hz : declLen b = 0
  · simp only [CompleteRequestMessage.unmarshal]
    repeat' never_step
  · have hz : 1 ≤ (declLen b).toNat := toNat_pos_of_ne hz
    simp only [CompleteRequestMessage.unmarshal]
    repeat' own_step

theorem Fcontainer.own (m : Mode) (hn : n = (declLen b).toNat + 4) : Ext (Fcontainer.unmarshal m b) (Fcontainer.unmarshal m (b.take n)) := by
  by_cases hz : declLen b = 0
  · simp only [Fcontainer.unmarshal]
    repeat' never_step
  · have hz : 1 ≤ (declLen b).toNat := toNat_pos_of_ne hz
    simp only [Fcontainer.unmarshal]
    repeat' own_step

theorem Fcause.own (m : Mode) (hn : n = (declLen b).toNat + 4) : Ext (Fcause.unmarshal m b) (Fcause.unmarshal m (b.take n)) := by
  by_cases hz : declLen b = 0
  · simp only [Fcause.unmarshal]
    repeat' never_step
  · have hz : 1 ≤ (declLen b).toNat := toNat_pos_of_ne hz
    simp only [Fcause.unmarshal]
    repeat' own_step

theorem SourceRncPdcpContextInfo.own (m : Mode) (hn : n = (declLen b).toNat + 4) : Ext (SourceRncPdcpContextInfo.unmarshal m b) (SourceRncPdcpContextInfo.unmarshal m (b.take n)) := by
  by_cases hz : declLen b = 0
  · simp only [SourceRncPdcpContextInfo.unmarshal]
    repeat' never_step
  · have hz : 1 ≤ (declLen b).toNat := toNat_pos_of_ne hz
    simp only [SourceRncPdcpContextInfo.unmarshal]
    repeat' own_step

theorem Fqdn.own (m : Mode) (hn : n = (declLen b).toNat + 4) : Ext (Fqdn.unmarshal m b) (Fqdn.unmarshal m (b.take n)) := by
  by_cases hz : declLen b = 0
  · simp only [Fqdn.unmarshal]
    repeat' never_step
  · have hz : 1 ≤ (declLen b).toNat := toNat_pos_of_ne hz
    simp only [Fqdn.unmarshal]
    repeat' own_step

theorem Ldn.own (m : Mode) (hn : n = (declLen b).toNat + 4) : Ext (Ldn.unmarshal m b) (Ldn.unmarshal m (b.take n)) := by
  by_cases hz : declLen b = 0
  · simp only [Ldn.unmarshal]
    repeat' never_step
  · have hz : 1 ≤ (declLen b).toNat := toNat_pos_of_ne hz
    simp only [Ldn.unmarshal]
    repeat' own_step

theorem Apco.own (m : Mode) (hn : n = (declLen b).toNat + 4) : Ext (Apco.unmarshal m b) (Apco.unmarshal m (b.take n)) := by
  by_cases hz : declLen b = 0
  · simp only [Apco.unmarshal]
    repeat' never_step
  · have hz : 1 ≤ (declLen b).toNat := toNat_pos_of_ne hz
    simp only [Apco.unmarshal]
    repeat' own_step

theorem ApnRelativeCapacity.own (m : Mode) (hn : n = (declLen b).toNat + 4) : Ext (ApnRelativeCapacity.unmarshal m b) (ApnRelativeCapacity.unmarshal m (b.take n)) := by
  by_cases hz : declLen b = 0
  · simp only [ApnRelativeCapacity.unmarshal]
    repeat' never_step
  · have hz : 1 ≤ (declLen b).toNat := toNat_pos_of_ne hz
    simp only [ApnRelativeCapacity.unmarshal]
    repeat' own_step

theorem IntegerNumber.own (m : Mode) (hn : n = (declLen b).toNat + 4) : Ext (IntegerNumber.unmarshal m b) (IntegerNumber.unmarshal m (b.take n)) := by
  by_cases hz : declLen b = 0
  · simp only [IntegerNumber.unmarshal]
    repeat' never_step
  · have hz : 1 ≤ (declLen b).toNat := toNat_pos_of_ne hz
    simp only [IntegerNumber.unmarshal]
    repeat' own_step

theorem RemoteUeIpInformation.own (m : Mode) (hn : n = (declLen b).toNat + 4) : Ext (RemoteUeIpInformation.unmarshal m b) (RemoteUeIpInformation.unmarshal m (b.take n)) := by
  by_cases hz : declLen b = 0
  · simp only [RemoteUeIpInformation.unmarshal]
    repeat' never_step
  · have hz : 1 ≤ (declLen b).toNat := toNat_pos_of_ne hz
    simp only [RemoteUeIpInformation.unmarshal]
    repeat' own_step

theorem Epco.own (m : Mode) (hn : n = (declLen b).toNat + 4) : Ext (Epco.unmarshal m b) (Epco.unmarshal m (b.take n)) := by
  by_cases hz : declLen b = 0
  · simp only [Epco.unmarshal]
    repeat' never_step
  · have hz : 1 ≤ (declLen b).toNat := toNat_pos_of_ne hz
    simp only [Epco.unmarshal]
    repeat' own_step

theorem PgwFqdn.own (m : Mode) (hn : n = (declLen b).toNat + 4) : Ext (PgwFqdn.unmarshal m b) (PgwFqdn.unmarshal m (b.take n)) := by
  by_cases hz : declLen b = 0
  · simp only [PgwFqdn.unmarshal]
    repeat' never_step
  · have hz : 1 ≤ (declLen b).toNat := toNat_pos_of_ne hz
    simp only [PgwFqdn.unmarshal]
    repeat' own_step

theorem GroupId.own (m : Mode) (hn : n = (declLen b).toNat + 4) : Ext (GroupId.unmarshal m b) (GroupId.unmarshal m (b.take n)) := by
  by_cases hz : declLen b = 0
  · simp only [GroupId.unmarshal]
    repeat' never_step
  · have hz : 1 ≤ (declLen b).toNat := toNat_pos_of_ne hz
    simp only [GroupId.unmarshal]
    repeat' own_step

theorem AlternativeImsi.own (m : Mode) (hn : n = (declLen b).toNat + 4) : Ext (AlternativeImsi.unmarshal m b) (AlternativeImsi.unmarshal m (b.take n)) := by
  by_cases hz : declLen b = 0
  · simp only [AlternativeImsi.unmarshal]
    repeat' never_step
  · have hz : 1 ≤ (declLen b).toNat := toNat_pos_of_ne hz
    simp only [AlternativeImsi.unmarshal]
    repeat' own_step

theorem SpecialIEWithTypeExt.own (m : Mode) (hn : n = (declLen b).toNat + 4) :
    Ext (SpecialIEWithTypeExt.unmarshal m b) (SpecialIEWithTypeExt.unmarshal m (b.take n)) := by
  by_cases hz : 2 ≤ (declLen b).toNat
  · simp only [SpecialIEWithTypeExt.unmarshal]
    repeat' own_step
  · simp only [SpecialIEWithTypeExt.unmarshal]
    refine ext_never_ite (fun _ => ?_) fun _ => Ext.err
    refine ext_never_rd16 (ext_never_bind fun _ => ext_never_bind fun _ => ext_never_bind fun _ => ?_)
    exact ext_never_ite (fun _ => ext_never_sl (by omega)) fun _ => Ext.err

theorem Unknown.own (m : Mode) (hn : n = (declLen b).toNat + 4) : Ext (Unknown.unmarshal m b) (Unknown.unmarshal m (b.take n)) := by
  by_cases hz : declLen b = 0
  · simp only [Unknown.unmarshal]
    repeat' never_step
  · have hz : 1 ≤ (declLen b).toNat := toNat_pos_of_ne hz
    simp only [Unknown.unmarshal]
    repeat' own_step

theorem Indication.own (m : Mode) (hn : n = (declLen b).toNat + 4) : Ext (Indication.unmarshal m b) (Indication.unmarshal m (b.take n)) := by
  simp only [Indication.unmarshal]
  repeat' own_step

theorem Cause.own (m : Mode) (hn : n = (declLen b).toNat + 4) : Ext (Cause.unmarshal m b) (Cause.unmarshal m (b.take n)) := by
  simp only [Cause.unmarshal]
  by_cases h2 : declLen b = 2
  · have hz : (declLen b).toNat = 2 := by rw [h2]; rfl
    refine Ext.iteT (by own_cond) fun _ => ext_rd16T (by omega) ((ext_rdT (by omega)).bind fun _ => ?_)
    rw [if_pos h2, if_pos h2]
    repeat' own_step
  · by_cases h6 : declLen b = 6
    · have hz : (declLen b).toNat = 6 := by rw [h6]; rfl
      refine Ext.iteT (by own_cond) fun _ => ext_rd16T (by omega) ((ext_rdT (by omega)).bind fun _ => ?_)
      rw [if_neg h2, if_neg h2, if_pos h6, if_pos h6]
      repeat' own_step
    · refine ext_never_ite (fun _ => ext_never_rd16 (ext_never_bind fun _ => ?_)) fun _ => Ext.err
      rw [if_neg h2, if_neg h6]
      exact Ext.err

theorem IpAddress.own (m : Mode) (hn : n = (declLen b).toNat + 4) : Ext (IpAddress.unmarshal m b) (IpAddress.unmarshal m (b.take n)) := by
  simp only [IpAddress.unmarshal]
  refine Ext.iteT (by own_cond) fun _ => ext_rd16T (by omega) ((ext_rdT (by omega)).bind fun _ => ext_checkT (by omega) ?_ rfl)
  simp only [if_true]
  refine Ext.ite (fun h => ?_) fun _ => Ext.ite (fun h => ?_) fun _ => Ext.err
  · have hz : (declLen b).toNat = 4 := by rw [h]; rfl
    repeat' own_step
  · have hz : (declLen b).toNat = 16 := by rw [h]; rfl
    repeat' own_step

theorem groupUnm.own {α : Type} {dec : Bytes → R Err (List IE)} {mk : UInt8 → UInt16 → UInt8 → List IE → α} (m : Mode)
    (hn : n = (declLen b).toNat + 4) : Ext (groupUnm dec mk m b) (groupUnm dec mk m (b.take n)) := by
  simp only [groupUnm]
  repeat' own_step

/-- The kinds whose decoders read nothing behind the octets that the IE declares as its own. -/
def Kind.contained : Kind → Bool
  | .Imsi | .Cause | .StnSr | .Apn | .IpAddress | .Mei | .Msisdn | .Indication | .Pco | .PdnAddressAllocation | .BearerTft |
    .TrafficAggregateDescription | .CompleteRequestMessage | .Fcontainer | .Fcause | .SrcRncPdcpCtxInfo | .Fqdn | .Ldn |
    .Apco | .ApnRelativeCapacity | .IntegerNumber | .RemoteUeIpInformation | .Epco | .PgwFqdn | .GroupId | .AlternativeImsi
    | .SpecialIEWithTypeExt | .Unknown | .BearerContext | .PdnConnections | .OverloadControlInfo | .LoadControlInfo |
    .RemoteUeContext | .ScefPdnConnections | .V2xInformation | .PC5QosParameters | .PgwChangeInfo => true
  | _ => false

theorem unmKind.own (dec : Bytes → R Err (List IE)) (m : Mode) (k : Kind) (hk : k.contained = true)
    (hn : n = (declLen b).toNat + 4) : Ext (unmKind dec m b k) (unmKind dec m (b.take n) k) := by
  cases k with
  | Imsi => exact (Imsi.own m hn).bind fun _ => Ext.refl _
  | Cause => exact (Cause.own m hn).bind fun _ => Ext.refl _
  | StnSr => exact (StnSr.own m hn).bind fun _ => Ext.refl _
  | Apn => exact (Apn.own m hn).bind fun _ => Ext.refl _
  | IpAddress => exact (IpAddress.own m hn).bind fun _ => Ext.refl _
  | Mei => exact (Mei.own m hn).bind fun _ => Ext.refl _
  | Msisdn => exact (Msisdn.own m hn).bind fun _ => Ext.refl _
  | Indication => exact (Indication.own m hn).bind fun _ => Ext.refl _
  | Pco => exact (Pco.own m hn).bind fun _ => Ext.refl _
  | PdnAddressAllocation => exact (PdnAddressAllocation.own m hn).bind fun _ => Ext.refl _
  | BearerTft => exact (BearerTft.own m hn).bind fun _ => Ext.refl _
  | TrafficAggregateDescription => exact (TrafficAggregateDescription.own m hn).bind fun _ => Ext.refl _
  | CompleteRequestMessage => exact (CompleteRequestMessage.own m hn).bind fun _ => Ext.refl _
  | Fcontainer => exact (Fcontainer.own m hn).bind fun _ => Ext.refl _
  | Fcause => exact (Fcause.own m hn).bind fun _ => Ext.refl _
  | SrcRncPdcpCtxInfo => exact (SourceRncPdcpContextInfo.own m hn).bind fun _ => Ext.refl _
  | Fqdn => exact (Fqdn.own m hn).bind fun _ => Ext.refl _
  | Ldn => exact (Ldn.own m hn).bind fun _ => Ext.refl _
  | Apco => exact (Apco.own m hn).bind fun _ => Ext.refl _
  | ApnRelativeCapacity => exact (ApnRelativeCapacity.own m hn).bind fun _ => Ext.refl _
  | IntegerNumber => exact (IntegerNumber.own m hn).bind fun _ => Ext.refl _
  | RemoteUeIpInformation => exact (RemoteUeIpInformation.own m hn).bind fun _ => Ext.refl _
  | Epco => exact (Epco.own m hn).bind fun _ => Ext.refl _
  | PgwFqdn => exact (PgwFqdn.own m hn).bind fun _ => Ext.refl _
  | GroupId => exact (GroupId.own m hn).bind fun _ => Ext.refl _
  | AlternativeImsi => exact (AlternativeImsi.own m hn).bind fun _ => Ext.refl _
  | SpecialIEWithTypeExt => exact (SpecialIEWithTypeExt.own m hn).bind fun _ => Ext.refl _
  | Unknown => exact (Unknown.own m hn).bind fun _ => Ext.refl _
  | BearerContext => exact (groupUnm.own m hn).bind fun _ => Ext.refl _
  | PdnConnections => exact (groupUnm.own m hn).bind fun _ => Ext.refl _
  | OverloadControlInfo => exact (groupUnm.own m hn).bind fun _ => Ext.refl _
  | LoadControlInfo => exact (groupUnm.own m hn).bind fun _ => Ext.refl _
  | RemoteUeContext => exact (groupUnm.own m hn).bind fun _ => Ext.refl _
  | ScefPdnConnections => exact (groupUnm.own m hn).bind fun _ => Ext.refl _
  | V2xInformation => exact (groupUnm.own m hn).bind fun _ => Ext.refl _
  | PC5QosParameters => exact (groupUnm.own m hn).bind fun _ => Ext.refl _
  | PgwChangeInfo => exact (groupUnm.own m hn).bind fun _ => Ext.refl _
  | _ => cases hk

end

end Gtp.V2
