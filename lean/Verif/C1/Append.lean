import Verif.C1.Kind
import Verif.Ext

/-!
# Octets behind a GTPv1-C information element

The decoder of a kind, on a buffer and on the same buffer with more octets behind it. Expanded by `scripts/gen_c1_append.py`.
-/

namespace Gtp.C1
open Gtp.V1
set_option linter.unusedSimpArgs false
set_option linter.unusedVariables false

section
variable {α : Type} {b r : Bytes}

theorem ext_checkTlv {m : Mode} {l : UInt16} {g g' : Bool → R Err α} (ht : Ext (g true) (g' true)) {e : Err} (hf : g false = .err e) :
    Ext (checkTlv m l b >>= g) (checkTlv m l (b ++ r) >>= g') := by
  unfold Gtp.checkTlv
  by_cases h : l = 0
  · rw [if_pos h, R.ok_bind, hf]
    exact Ext.err
  · rw [if_neg h, if_neg h]
    cases add16 m l 3 with
    | ok n =>
      simp only [R.ok_bind, R.pure_eq]
      by_cases h1 : n.toNat ≤ b.length
      · rw [decide_eq_true h1, decide_eq_true (by rw [List.length_append]; omega)]
        exact ht
      · rw [decide_eq_false h1, hf]
        exact Ext.err
    | _ => exact fun _ h => by cases h

theorem ext_withTlv {m : Mode} {f f' : UInt16 → R Err α} (h : ∀ l, Ext (f l) (f' l)) : Ext (withTlv m b f) (withTlv m (b ++ r) f') := by
  unfold withTlv
  refine Ext.iteT (by ext_cond) fun _ => Ext.rd16.bind fun l => ext_checkTlv ?_ rfl
  simp only [if_true]
  exact h l

theorem ext_slBody3 {m : Mode} {l : UInt16} : Ext (slBody3 m b l) (slBody3 m (b ++ r) l) := by unfold slBody3; ext_steps
theorem ext_rdIp6 {k : Nat} : Ext (Gtp.V2.rdIp6 b k : R Err _) (Gtp.V2.rdIp6 (b ++ r) k) := by unfold Gtp.V2.rdIp6; ext_steps
theorem ext_ipBody {l : UInt16} : Ext (ipBody b l) (ipBody (b ++ r) l) := by
  unfold ipBody
  refine Ext.ite (fun _ => Ext.rd32.bind fun _ => Ext.refl _) fun _ => Ext.ite (fun _ => ?_) fun _ => Ext.refl _
  exact Ext.iteT (by ext_cond) fun _ => ext_rdIp6.bind fun _ => Ext.refl _

end

macro_rules | `(tactic| ext_leaf) => `(tactic| first
  | with_reducible exact ext_slBody3
  | with_reducible exact ext_rdIp6
  | with_reducible exact ext_ipBody)

macro_rules | `(tactic| ext_step) => `(tactic| first
  | (with_reducible refine ext_withTlv fun _ => ?_)
  | (refine ext_checkTlv ?_ rfl; simp only [if_true]))

section
variable {b r : Bytes}

theorem Cause.ext (m : Mode) : Ext (Cause.unmarshal m b) (Cause.unmarshal m (b ++ r)) := by
  ext_all [Cause.unmarshal]

theorem Imsi.ext (m : Mode) : Ext (Imsi.unmarshal m b) (Imsi.unmarshal m (b ++ r)) := by
  ext_all [Imsi.unmarshal]

theorem Rai.ext (m : Mode) : Ext (Rai.unmarshal m b) (Rai.unmarshal m (b ++ r)) := by
  ext_all [Rai.unmarshal]

theorem ReorderingRequired.ext (m : Mode) : Ext (ReorderingRequired.unmarshal m b) (ReorderingRequired.unmarshal m (b ++ r)) := by
  ext_all [ReorderingRequired.unmarshal]

theorem Recovery.ext (m : Mode) : Ext (Recovery.unmarshal m b) (Recovery.unmarshal m (b ++ r)) := by
  ext_all [Recovery.unmarshal]

theorem SelectionMode.ext (m : Mode) : Ext (SelectionMode.unmarshal m b) (SelectionMode.unmarshal m (b ++ r)) := by
  ext_all [SelectionMode.unmarshal]

theorem Teid.ext (m : Mode) : Ext (Teid.unmarshal m b) (Teid.unmarshal m (b ++ r)) := by
  ext_all [Teid.unmarshal]

theorem TeardownInd.ext (m : Mode) : Ext (TeardownInd.unmarshal m b) (TeardownInd.unmarshal m (b ++ r)) := by
  ext_all [TeardownInd.unmarshal]

theorem Nsapi.ext (m : Mode) : Ext (Nsapi.unmarshal m b) (Nsapi.unmarshal m (b ++ r)) := by
  ext_all [Nsapi.unmarshal]

theorem ChargingCharacteristics.ext (m : Mode) : Ext (ChargingCharacteristics.unmarshal m b) (ChargingCharacteristics.unmarshal m (b ++ r)) := by
  ext_all [ChargingCharacteristics.unmarshal]

theorem TraceReference.ext (m : Mode) : Ext (TraceReference.unmarshal m b) (TraceReference.unmarshal m (b ++ r)) := by
  ext_all [TraceReference.unmarshal]

theorem TraceType.ext (m : Mode) : Ext (TraceType.unmarshal m b) (TraceType.unmarshal m (b ++ r)) := by
  ext_all [TraceType.unmarshal]

theorem ChargingID.ext (m : Mode) : Ext (ChargingID.unmarshal m b) (ChargingID.unmarshal m (b ++ r)) := by
  ext_all [ChargingID.unmarshal]

theorem EndUserAddress.ext (m : Mode) : Ext (EndUserAddress.unmarshal m b) (EndUserAddress.unmarshal m (b ++ r)) := by
  refine ext_withTlv fun l => ?_
  ext_all [EndUserAddress.body]

theorem Apn.ext (m : Mode) : Ext (Apn.unmarshal m b) (Apn.unmarshal m (b ++ r)) := by
  refine ext_withTlv fun l => ?_
  ext_all [Apn.body]

theorem Pco.ext (m : Mode) : Ext (Pco.unmarshal m b) (Pco.unmarshal m (b ++ r)) := by
  ext_all [Pco.unmarshal]

theorem GsnAddress.ext (m : Mode) : Ext (GsnAddress.unmarshal m b) (GsnAddress.unmarshal m (b ++ r)) := by
  ext_all [GsnAddress.unmarshal]

theorem Msisdn.ext (m : Mode) : Ext (Msisdn.unmarshal m b) (Msisdn.unmarshal m (b ++ r)) := by
  refine ext_withTlv fun l => ?_
  ext_all [Msisdn.body]

theorem Qos.ext (m : Mode) : Ext (Qos.unmarshal m b) (Qos.unmarshal m (b ++ r)) := by
  refine ext_withTlv fun l => ?_
  ext_all [Qos.body]

theorem Tft.ext (m : Mode) : Ext (Tft.unmarshal m b) (Tft.unmarshal m (b ++ r)) := by
  ext_all [Tft.unmarshal]

theorem TriggerId.ext (m : Mode) : Ext (TriggerId.unmarshal m b) (TriggerId.unmarshal m (b ++ r)) := by
  ext_all [TriggerId.unmarshal]

theorem OmcId.ext (m : Mode) : Ext (OmcId.unmarshal m b) (OmcId.unmarshal m (b ++ r)) := by
  ext_all [OmcId.unmarshal]

theorem CommonFlags.ext (m : Mode) : Ext (CommonFlags.unmarshal m b) (CommonFlags.unmarshal m (b ++ r)) := by
  ext_all [CommonFlags.unmarshal]

theorem ApnRestriction.ext (m : Mode) : Ext (ApnRestriction.unmarshal m b) (ApnRestriction.unmarshal m (b ++ r)) := by
  ext_all [ApnRestriction.unmarshal]

theorem RatType.ext (m : Mode) : Ext (RatType.unmarshal m b) (RatType.unmarshal m (b ++ r)) := by
  ext_all [RatType.unmarshal]

theorem Uli.ext (m : Mode) : Ext (Uli.unmarshal m b) (Uli.unmarshal m (b ++ r)) := by
  ext_all [Uli.unmarshal]

theorem MsTimeZone.ext (m : Mode) : Ext (MsTimeZone.unmarshal m b) (MsTimeZone.unmarshal m (b ++ r)) := by
  ext_all [MsTimeZone.unmarshal]

theorem Imei.ext (m : Mode) : Ext (Imei.unmarshal m b) (Imei.unmarshal m (b ++ r)) := by
  ext_all [Imei.unmarshal]

theorem CamelChargingInfoContainer.ext (m : Mode) : Ext (CamelChargingInfoContainer.unmarshal m b) (CamelChargingInfoContainer.unmarshal m (b ++ r)) := by
  ext_all [CamelChargingInfoContainer.unmarshal]

theorem AdditionalTraceInfo.ext (m : Mode) : Ext (AdditionalTraceInfo.unmarshal m b) (AdditionalTraceInfo.unmarshal m (b ++ r)) := by
  ext_all [AdditionalTraceInfo.unmarshal]

theorem MSInfoChangeReportingAction.ext (m : Mode) : Ext (MSInfoChangeReportingAction.unmarshal m b) (MSInfoChangeReportingAction.unmarshal m (b ++ r)) := by
  ext_all [MSInfoChangeReportingAction.unmarshal]

theorem DirectTunnelFlags.ext (m : Mode) : Ext (DirectTunnelFlags.unmarshal m b) (DirectTunnelFlags.unmarshal m (b ++ r)) := by
  ext_all [DirectTunnelFlags.unmarshal]

theorem CorrelationId.ext (m : Mode) : Ext (CorrelationId.unmarshal m b) (CorrelationId.unmarshal m (b ++ r)) := by
  ext_all [CorrelationId.unmarshal]

theorem BearerControlMode.ext (m : Mode) : Ext (BearerControlMode.unmarshal m b) (BearerControlMode.unmarshal m (b ++ r)) := by
  ext_all [BearerControlMode.unmarshal]

theorem EvolvedAllocationRetentionI.ext (m : Mode) : Ext (EvolvedAllocationRetentionI.unmarshal m b) (EvolvedAllocationRetentionI.unmarshal m (b ++ r)) := by
  ext_all [EvolvedAllocationRetentionI.unmarshal]

theorem ExtendedCommonFlags.ext (m : Mode) : Ext (ExtendedCommonFlags.unmarshal m b) (ExtendedCommonFlags.unmarshal m (b ++ r)) := by
  ext_all [ExtendedCommonFlags.unmarshal]

theorem Uci.ext (m : Mode) : Ext (Uci.unmarshal m b) (Uci.unmarshal m (b ++ r)) := by
  ext_all [Uci.unmarshal]

theorem CSGInformationReportingAction.ext (m : Mode) : Ext (CSGInformationReportingAction.unmarshal m b) (CSGInformationReportingAction.unmarshal m (b ++ r)) := by
  ext_all [CSGInformationReportingAction.unmarshal]

theorem ApnAmbr.ext (m : Mode) : Ext (ApnAmbr.unmarshal m b) (ApnAmbr.unmarshal m (b ++ r)) := by
  ext_all [ApnAmbr.unmarshal]

theorem GGSNBackOffTime.ext (m : Mode) : Ext (GGSNBackOffTime.unmarshal m b) (GGSNBackOffTime.unmarshal m (b ++ r)) := by
  ext_all [GGSNBackOffTime.unmarshal]

theorem Spi.ext (m : Mode) : Ext (Spi.unmarshal m b) (Spi.unmarshal m (b ++ r)) := by
  ext_all [Spi.unmarshal]

theorem UliTimestamp.ext (m : Mode) : Ext (UliTimestamp.unmarshal m b) (UliTimestamp.unmarshal m (b ++ r)) := by
  ext_all [UliTimestamp.unmarshal]

theorem CnOperatorSelectionEntity.ext (m : Mode) : Ext (CnOperatorSelectionEntity.unmarshal m b) (CnOperatorSelectionEntity.unmarshal m (b ++ r)) := by
  ext_all [CnOperatorSelectionEntity.unmarshal]

theorem ExtendedCommonFlagsII.ext (m : Mode) : Ext (ExtendedCommonFlagsII.unmarshal m b) (ExtendedCommonFlagsII.unmarshal m (b ++ r)) := by
  ext_all [ExtendedCommonFlagsII.unmarshal]

theorem MappedUeUsageType.ext (m : Mode) : Ext (MappedUeUsageType.unmarshal m b) (MappedUeUsageType.unmarshal m (b ++ r)) := by
  ext_all [MappedUeUsageType.unmarshal]

theorem UpFunctionSelectionIndicationFlags.ext (m : Mode) : Ext (UpFunctionSelectionIndicationFlags.unmarshal m b) (UpFunctionSelectionIndicationFlags.unmarshal m (b ++ r)) := by
  ext_all [UpFunctionSelectionIndicationFlags.unmarshal]

theorem ChargingGWAddress.ext (m : Mode) : Ext (ChargingGWAddress.unmarshal m b) (ChargingGWAddress.unmarshal m (b ++ r)) := by
  ext_all [ChargingGWAddress.unmarshal]

/-- The kinds whose decoders take the rest of the buffer (privateextension.rs:41-57, extensionheadertypelist.rs:38-49). -/
def Kind.openEnded : Kind → Bool
  | .PrivateExtension | .ExtensionHeaderTypeList => true
  | _ => false

theorem Kind.ext (m : Mode) (k : Kind) (hk : k.openEnded = false) : Ext (k.codec.unm m b) (k.codec.unm m (b ++ r)) := by
  cases k with
  | Cause => exact Cause.ext m
  | Imsi => exact Imsi.ext m
  | Rai => exact Rai.ext m
  | ReorderingRequired => exact ReorderingRequired.ext m
  | Recovery => exact Recovery.ext m
  | SelectionMode => exact SelectionMode.ext m
  | Teid => exact Teid.ext m
  | TeardownInd => exact TeardownInd.ext m
  | Nsapi => exact Nsapi.ext m
  | ChargingCharacteristics => exact ChargingCharacteristics.ext m
  | TraceReference => exact TraceReference.ext m
  | TraceType => exact TraceType.ext m
  | ChargingID => exact ChargingID.ext m
  | EndUserAddress => exact EndUserAddress.ext m
  | Apn => exact Apn.ext m
  | Pco => exact Pco.ext m
  | GsnAddress => exact GsnAddress.ext m
  | Msisdn => exact Msisdn.ext m
  | Qos => exact Qos.ext m
  | Tft => exact Tft.ext m
  | ExtensionHeaderTypeList => cases hk
  | TriggerId => exact TriggerId.ext m
  | OmcId => exact OmcId.ext m
  | CommonFlags => exact CommonFlags.ext m
  | ApnRestriction => exact ApnRestriction.ext m
  | RatType => exact RatType.ext m
  | Uli => exact Uli.ext m
  | MsTimeZone => exact MsTimeZone.ext m
  | Imei => exact Imei.ext m
  | CamelChargingInfoContainer => exact CamelChargingInfoContainer.ext m
  | AdditionalTraceInfo => exact AdditionalTraceInfo.ext m
  | MSInfoChangeReportingAction => exact MSInfoChangeReportingAction.ext m
  | DirectTunnelFlags => exact DirectTunnelFlags.ext m
  | CorrelationId => exact CorrelationId.ext m
  | BearerControlMode => exact BearerControlMode.ext m
  | EvolvedAllocationRetentionI => exact EvolvedAllocationRetentionI.ext m
  | ExtendedCommonFlags => exact ExtendedCommonFlags.ext m
  | Uci => exact Uci.ext m
  | CSGInformationReportingAction => exact CSGInformationReportingAction.ext m
  | ApnAmbr => exact ApnAmbr.ext m
  | GGSNBackOffTime => exact GGSNBackOffTime.ext m
  | Spi => exact Spi.ext m
  | UliTimestamp => exact UliTimestamp.ext m
  | CnOperatorSelectionEntity => exact CnOperatorSelectionEntity.ext m
  | ExtendedCommonFlagsII => exact ExtendedCommonFlagsII.ext m
  | MappedUeUsageType => exact MappedUeUsageType.ext m
  | UpFunctionSelectionIndicationFlags => exact UpFunctionSelectionIndicationFlags.ext m
  | ChargingGWAddress => exact ChargingGWAddress.ext m
  | PrivateExtension => cases hk

end

end Gtp.C1
