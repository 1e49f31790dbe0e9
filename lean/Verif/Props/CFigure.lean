import Verif.Props.Figure
import Verif.Props.CFigureSpec

/-!
# C75: the octets of the GTPv1-C information elements against the figures of TS 29.060

`CFigureSpec.lean` transcribes the figures; here the encoders are compared with them, kind by kind. Almost all encoders write the type
that is stored in the element, so that the figure can only be met where this is the one of the figure.
-/

namespace Gtp.Props.C1
open Gtp.C1
open Gtp.Props.Row

set_option linter.unusedSimpArgs false

/-- The first octet is the type. -/
def Typed (m : Bytes) (f : Nat × List Row) : Prop := m.head?.map UInt8.toNat = some f.1

theorem typed_of_drawn {m : Bytes} {f : Nat × List Row} (h : Drawn m f) : Typed m f := by
  have e : (m.map UInt8.toNat).head? = some f.1 := by rw [h]; split <;> try split
                                                      all_goals rfl
  rw [List.head?_map] at e; exact e

theorem tv_iff {t : Nat} {rows : List Row} {ty : UInt8} {body : Bytes} (hs : t < 128) (h : Typed (ty :: body) (t, rows)) :
    Drawn (ty :: body) (t, rows) ↔ body.map UInt8.toNat = rows.flatMap draw := by
  have h : ty.toNat = t := by simpa [Typed] using h
  simp [Drawn, hs, h]

theorem tlv_iff {t : Nat} {rows : List Row} {ty : UInt8} {l : UInt16} {body : Bytes} (hs : 128 ≤ t ∧ t ≠ 141) (h : Typed (tlv ty l body) (t, rows)) :
    Drawn (tlv ty l body) (t, rows) ↔ body.map UInt8.toNat = rows.flatMap draw := by
  rw [tlv_eq] at h ⊢
  have h : ty.toNat = t := by simpa [Typed] using h
  have e1 : (hi16 (lenU16 body)).toNat = body.length / 256 % 256 := by simp [hi16, lenU16]; omega
  have e2 : (lo16 (lenU16 body)).toNat = body.length % 256 := by simp [lo16, lenU16]
  simp only [Drawn, if_neg (Nat.not_lt.mpr hs.1), if_neg hs.2, List.map_cons, List.cons.injEq, h, true_and, e1, e2]
  constructor
  · exact fun h => h.2.2
  · intro hb
    simp only [← hb, List.length_map, and_self]

theorem draw_ipFig (a : Gtp.V1.IpAddr) : (ipFig a).flatMap draw = a.octets.map UInt8.toNat := by
  cases a <;> simp [ipFig, draw_ip6, Gtp.V1.IpAddr.octets, draw_o4]

theorem draw_octet (a b c d e f g h : Bool) :
    (bits [flag a, flag b, flag c, flag d, flag e, flag f, flag g, flag h]).draw = [(flagOctet a b c d e f g h).toNat] := by
  revert a b c d e f g h; decide +kernel

theorem pack_backoff {u v : UInt8} (hu : u.toNat < 2 ^ 3) (hv : v.toNat < 2 ^ 5) : (GGSNBackOffTime.octet u v).toNat = u.toNat * 2 ^ 5 + v.toNat := by
  have key : ∀ u : Fin 8, ∀ v : Fin 32, (GGSNBackOffTime.octet (UInt8.ofNat u.val) (UInt8.ofNat v.val)).toNat = u.val * 2 ^ 5 + v.val := by decide +kernel
  simpa using key ⟨u.toNat, hu⟩ ⟨v.toNat, hv⟩

theorem pack_msisdn {e n p : UInt8} (he : e.toNat < 2 ^ 1) (hn : n.toNat < 2 ^ 3) (hp : p.toNat < 2 ^ 4) :
    (Msisdn.octet e n p).toNat = (e.toNat * 2 ^ 3 + n.toNat) * 2 ^ 4 + p.toNat := by
  have key : ∀ e : Fin 2, ∀ n : Fin 8, ∀ p : Fin 16, (Msisdn.octet (UInt8.ofNat e.val) (UInt8.ofNat n.val) (UInt8.ofNat p.val)).toNat =
    (e.val * 2 ^ 3 + n.val) * 2 ^ 4 + p.val := by decide +kernel
  simpa using key ⟨e.toNat, he⟩ ⟨n.toNat, hn⟩ ⟨p.toNat, hp⟩

theorem fig_Cause (x : Gtp.C1.Cause) (f : Nat × List Row) (h : figure .Cause x = some f) (_ : ∀ r ∈ f.2, r.Fits) (ht : Typed x.marshal f) :
    Drawn x.marshal f := by
  cases h
  refine (tv_iff (by decide) ht).mpr ?_
  simp [draw_o1, draw_o2, draw_o3, draw_o4, draw_n1, draw_raw, draw_ip6, draw_ipFig, draw_bits, spare, flag]

theorem fig_Imsi (x : Gtp.C1.Imsi) (f : Nat × List Row) (h : figure .Imsi x = some f) (hf : ∀ r ∈ f.2, r.Fits) (ht : Typed x.marshal f) :
    (Drawn x.marshal f ↔ deviates .Imsi x = false) := by
  have e : figure .Imsi x = if x.imsi.length ≤ 15 then some (2, digits x.imsi :: List.replicate (8 - (x.imsi.length + 1) / 2) (num 1 255))
    else none := rfl
  rw [e] at h
  have hl : x.imsi.length ≤ 15 := Classical.byContradiction fun hn => by simp [hn] at h
  simp only [hl, if_true, Option.some.injEq] at h
  subst h
  rw [show deviates .Imsi x = decide (x.imsi.length < 15) from rfl]
  refine (tv_iff (by decide) ht).trans ?_
  have hg := hf _ (.head _)
  have n := C04_tbcd_length x.imsi hg
  simp only [List.flatMap_cons, draw_digits hg, decide_eq_false_iff_not, Nat.not_lt]
  constructor
  · intro h
    have h := congrArg List.length h
    simp [draw_n1, n] at h
    omega
  · intro h
    simp [show 8 - (x.imsi.length + 1) / 2 = 0 by omega]

theorem fig_Rai (x : Gtp.C1.Rai) (f : Nat × List Row) (h : figure .Rai x = some f) (hf : ∀ r ∈ f.2, r.Fits) (ht : Typed x.marshal f) :
    Drawn x.marshal f := by
  cases h
  refine (tv_iff (by decide) ht).mpr ?_
  simp [draw_pl (mcc := x.mcc) (mnc := x.mnc) (three := x.mnc_is_three_digits) (hf _ (by simp)), draw_o1, draw_o2, draw_o3, draw_o4, draw_n1, draw_raw, draw_ip6, draw_ipFig, draw_bits, spare, flag]

theorem fig_ReorderingRequired (x : Gtp.C1.ReorderingRequired) (f : Nat × List Row) (h : figure .ReorderingRequired x = some f) (_ : ∀ r ∈ f.2, r.Fits) (ht : Typed x.marshal f) :
    Drawn x.marshal f := by
  cases h
  refine (tv_iff (by decide) ht).mpr ?_
  cases x.req <;> rfl

theorem fig_Recovery (x : Gtp.C1.Recovery) (f : Nat × List Row) (h : figure .Recovery x = some f) (_ : ∀ r ∈ f.2, r.Fits) (ht : Typed x.marshal f) :
    Drawn x.marshal f := by
  cases h
  refine (tv_iff (by decide) ht).mpr ?_
  simp [draw_o1, draw_o2, draw_o3, draw_o4, draw_n1, draw_raw, draw_ip6, draw_ipFig, draw_bits, spare, flag]

theorem fig_SelectionMode (x : Gtp.C1.SelectionMode) (f : Nat × List Row) (h : figure .SelectionMode x = some f) (hf : ∀ r ∈ f.2, r.Fits) (ht : Typed x.marshal f) :
    Drawn x.marshal f := by
  cases h
  refine (tv_iff (by decide) ht).mpr ?_
  have hb := (hf _ (.head _)).2 (2, x.value.toNat) (by simp)
  have e := or_low (k := 2) (v := x.value) 0xfc hb rfl
  simp only [List.map_cons, List.map_nil, e]
  simp [draw_bits]

theorem fig_Teid (x : Gtp.C1.Teid) (f : Nat × List Row) (h : figure .Teid x = some f) (hf : ∀ r ∈ f.2, r.Fits) (ht : Typed x.marshal f) :
    Drawn x.marshal f := by
  rw [show figure .Teid x = if x.t = 16 ∨ x.t = 17 then some (x.t.toNat, [o4 x.teid]) else none from rfl] at h
  split at h
  · rename_i hc
    cases h
    refine (tv_iff (by rcases hc with hc | hc <;> rw [hc] <;> decide) ht).mpr ?_
    simp [draw_o4]
  · cases h

theorem fig_TeardownInd (x : Gtp.C1.TeardownInd) (f : Nat × List Row) (h : figure .TeardownInd x = some f) (_ : ∀ r ∈ f.2, r.Fits) (ht : Typed x.marshal f) :
    Drawn x.marshal f := by
  cases h
  refine (tv_iff (by decide) ht).mpr ?_
  cases x.teardown <;> rfl

theorem fig_Nsapi (x : Gtp.C1.Nsapi) (f : Nat × List Row) (h : figure .Nsapi x = some f) (_ : ∀ r ∈ f.2, r.Fits) (ht : Typed x.marshal f) :
    Drawn x.marshal f := by
  cases h
  refine (tv_iff (by decide) ht).mpr ?_
  simp [draw_o1, draw_o2, draw_o3, draw_o4, draw_n1, draw_raw, draw_ip6, draw_ipFig, draw_bits, spare, flag]

theorem fig_TraceReference (x : Gtp.C1.TraceReference) (f : Nat × List Row) (h : figure .TraceReference x = some f) (_ : ∀ r ∈ f.2, r.Fits) (ht : Typed x.marshal f) :
    Drawn x.marshal f := by
  cases h
  refine (tv_iff (by decide) ht).mpr ?_
  simp [draw_o1, draw_o2, draw_o3, draw_o4, draw_n1, draw_raw, draw_ip6, draw_ipFig, draw_bits, spare, flag]

theorem fig_TraceType (x : Gtp.C1.TraceType) (f : Nat × List Row) (h : figure .TraceType x = some f) (_ : ∀ r ∈ f.2, r.Fits) (ht : Typed x.marshal f) :
    Drawn x.marshal f := by
  cases h
  refine (tv_iff (by decide) ht).mpr ?_
  simp [draw_o1, draw_o2, draw_o3, draw_o4, draw_n1, draw_raw, draw_ip6, draw_ipFig, draw_bits, spare, flag]

theorem fig_ChargingID (x : Gtp.C1.ChargingID) (f : Nat × List Row) (h : figure .ChargingID x = some f) (_ : ∀ r ∈ f.2, r.Fits) (ht : Typed x.marshal f) :
    Drawn x.marshal f := by
  cases h
  refine (tv_iff (by decide) ht).mpr ?_
  simp [draw_o1, draw_o2, draw_o3, draw_o4, draw_n1, draw_raw, draw_ip6, draw_ipFig, draw_bits, spare, flag]

theorem fig_EndUserAddress (x : Gtp.C1.EndUserAddress) (f : Nat × List Row) (h : figure .EndUserAddress x = some f) (hf : ∀ r ∈ f.2, r.Fits) (ht : Typed x.marshal f) :
    Drawn x.marshal f := by
  obtain ⟨rows, hr, h⟩ := Option.map_eq_some_iff.mp h
  subst h
  refine (tlv_iff (by decide) ht).mpr ?_
  unfold euaFig at hr
  split at hr
  · rename_i h0
    split at hr
    · cases hr
      simp [draw_o1, draw_bits, EndUserAddress.addr, h0]
    · cases hr
  · split at hr
    · rename_i h0 h1
      cases hr
      cases h4 : x.ipv4 <;> cases h6 : x.ipv6 <;> simp [draw_o1, draw_o4, draw_ip6, draw_bits, EndUserAddress.addr, h1, h4, h6, opt]
    · cases hr

theorem fig_Apn (x : Gtp.C1.Apn) (f : Nat × List Row) (h : figure .Apn x = some f) (_ : ∀ r ∈ f.2, r.Fits) (ht : Typed x.marshal f) :
    Drawn x.marshal f := by
  cases h
  refine (tlv_iff (by decide) ht).mpr ?_
  exact (draw_name x.name).symm

theorem fig_Pco (x : Gtp.C1.Pco) (f : Nat × List Row) (h : figure .Pco x = some f) (_ : ∀ r ∈ f.2, r.Fits) (ht : Typed x.marshal f) :
    Drawn x.marshal f := by
  cases h
  refine (tlv_iff (by decide) ht).mpr ?_
  simp [draw_o1, draw_o2, draw_o3, draw_o4, draw_n1, draw_raw, draw_ip6, draw_ipFig, draw_bits, spare, flag]

theorem fig_GsnAddress (x : Gtp.C1.GsnAddress) (f : Nat × List Row) (h : figure .GsnAddress x = some f) (_ : ∀ r ∈ f.2, r.Fits) (ht : Typed x.marshal f) :
    Drawn x.marshal f := by
  cases h
  refine (tlv_iff (by decide) ht).mpr ?_
  simp [draw_o1, draw_o2, draw_o3, draw_o4, draw_n1, draw_raw, draw_ip6, draw_ipFig, draw_bits, spare, flag]

theorem fig_Msisdn (x : Gtp.C1.Msisdn) (f : Nat × List Row) (h : figure .Msisdn x = some f) (hf : ∀ r ∈ f.2, r.Fits) (ht : Typed x.marshal f) :
    Drawn x.marshal f := by
  cases h
  refine (tlv_iff (by decide) ht).mpr ?_
  have hb := (hf _ (.head _)).2
  simp only [List.forall_mem_cons] at hb
  simp [draw_bits, pack_msisdn hb.1 hb.2.1 hb.2.2.1, draw_digits (hf _ (.tail _ (.head _)))]

theorem fig_Qos (x : Gtp.C1.Qos) (f : Nat × List Row) (h : figure .Qos x = some f) (_ : ∀ r ∈ f.2, r.Fits) (ht : Typed x.marshal f) :
    Drawn x.marshal f := by
  cases h
  refine (tlv_iff (by decide) ht).mpr ?_
  simp [draw_o1, draw_o2, draw_o3, draw_o4, draw_n1, draw_raw, draw_ip6, draw_ipFig, draw_bits, spare, flag]

theorem fig_Tft (x : Gtp.C1.Tft) (f : Nat × List Row) (h : figure .Tft x = some f) (_ : ∀ r ∈ f.2, r.Fits) (ht : Typed x.marshal f) :
    Drawn x.marshal f := by
  cases h
  refine (tlv_iff (by decide) ht).mpr ?_
  simp [draw_o1, draw_o2, draw_o3, draw_o4, draw_n1, draw_raw, draw_ip6, draw_ipFig, draw_bits, spare, flag]

theorem fig_ExtensionHeaderTypeList (x : Gtp.C1.ExtensionHeaderTypeList) (f : Nat × List Row) (h : figure .ExtensionHeaderTypeList x = some f) (hf : ∀ r ∈ f.2, r.Fits) (ht : Typed x.marshal f) :
    Drawn x.marshal f := by
  cases h
  have h : x.t.toNat = 141 := by simpa [Typed, ExtensionHeaderTypeList.marshal] using ht
  simp [Drawn, ExtensionHeaderTypeList.marshal, h, draw_raw]

theorem fig_TriggerId (x : Gtp.C1.TriggerId) (f : Nat × List Row) (h : figure .TriggerId x = some f) (_ : ∀ r ∈ f.2, r.Fits) (ht : Typed x.marshal f) :
    Drawn x.marshal f := by
  cases h
  refine (tlv_iff (by decide) ht).mpr ?_
  simp [draw_o1, draw_o2, draw_o3, draw_o4, draw_n1, draw_raw, draw_ip6, draw_ipFig, draw_bits, spare, flag]

theorem fig_OmcId (x : Gtp.C1.OmcId) (f : Nat × List Row) (h : figure .OmcId x = some f) (_ : ∀ r ∈ f.2, r.Fits) (ht : Typed x.marshal f) :
    Drawn x.marshal f := by
  cases h
  refine (tlv_iff (by decide) ht).mpr ?_
  simp [draw_o1, draw_o2, draw_o3, draw_o4, draw_n1, draw_raw, draw_ip6, draw_ipFig, draw_bits, spare, flag]

theorem fig_CommonFlags (x : Gtp.C1.CommonFlags) (f : Nat × List Row) (h : figure .CommonFlags x = some f) (_ : ∀ r ∈ f.2, r.Fits) (ht : Typed x.marshal f) :
    Drawn x.marshal f := by
  cases h
  refine (tlv_iff (by decide) ht).mpr ?_
  simp [draw_octet]

theorem fig_ApnRestriction (x : Gtp.C1.ApnRestriction) (f : Nat × List Row) (h : figure .ApnRestriction x = some f) (_ : ∀ r ∈ f.2, r.Fits) (ht : Typed x.marshal f) :
    Drawn x.marshal f := by
  cases h
  refine (tlv_iff (by decide) ht).mpr ?_
  cases x.restriction_type <;> rfl

theorem fig_RatType (x : Gtp.C1.RatType) (f : Nat × List Row) (h : figure .RatType x = some f) (_ : ∀ r ∈ f.2, r.Fits) (ht : Typed x.marshal f) :
    Drawn x.marshal f := by
  cases h
  refine (tlv_iff (by decide) ht).mpr ?_
  cases x.rat_type <;> rfl

theorem fig_Uli (x : Gtp.C1.Uli) (f : Nat × List Row) (h : figure .Uli x = some f) (hf : ∀ r ∈ f.2, r.Fits) (ht : Typed x.marshal f) :
    Drawn x.marshal f := by
  cases h
  refine (tlv_iff (by decide) ht).mpr ?_
  have hp : (pl x.mcc x.mnc x.mnc_is_three_digits).Fits := hf _ (by simp only [uliFig]; split <;> simp)
  have e := draw_pl hp
  simp only [uliFig]
  split <;> rename_i v hv <;> simp [e, draw_o1, draw_o2, draw_n1, Uli.locType, Uli.locBody, hv]

theorem fig_MsTimeZone (x : Gtp.C1.MsTimeZone) (f : Nat × List Row) (h : figure .MsTimeZone x = some f) (hf : ∀ r ∈ f.2, r.Fits) (ht : Typed x.marshal f) :
    (Drawn x.marshal f ↔ deviates .MsTimeZone x = false) := by
  cases h
  refine (tlv_iff (by decide) ht).trans ?_
  have h1 : (zoneFig x.time_zone).Fits := hf _ (by simp)
  have h2 : x.time_zone.toInt.natAbs / 10 < 2 ^ 3 := h1.2 (3, _) (by simp)
  have key : ∀ n : UInt8, n.toInt8.toInt.natAbs / 10 < 2 ^ 3 →
      ((zoneFig n.toInt8).draw = [(MsTimeZone.zoneOctet n.toInt8).toNat] ↔ n.toInt8 ∈ [(0 : Int8), 53, -8]) := by decide +kernel
  have k := key x.time_zone.toUInt8
  simp only [Int8.toInt8_toUInt8] at k
  have k := k h2
  rw [zoneFig, draw_bits] at k
  rw [show deviates .MsTimeZone x = decide (x.time_zone ∉ [0, 53, -8]) from rfl]
  simp only [decide_eq_false_iff_not, Decidable.not_not, ← k, List.map_cons, List.map_nil, List.flatMap_cons, List.flatMap_nil,
    zoneFig, draw_bits, List.cons_append, List.nil_append, List.cons.injEq, and_true]
  simp [spare, eq_comm]

theorem fig_Imei (x : Gtp.C1.Imei) (f : Nat × List Row) (h : figure .Imei x = some f) (hf : ∀ r ∈ f.2, r.Fits) (ht : Typed x.marshal f) :
    Drawn x.marshal f := by
  cases h
  refine (tlv_iff (by decide) ht).mpr ?_
  simp [draw_digits (hf _ (.head _))]

theorem fig_CamelChargingInfoContainer (x : Gtp.C1.CamelChargingInfoContainer) (f : Nat × List Row) (h : figure .CamelChargingInfoContainer x = some f) (_ : ∀ r ∈ f.2, r.Fits) (ht : Typed x.marshal f) :
    Drawn x.marshal f := by
  cases h
  refine (tlv_iff (by decide) ht).mpr ?_
  simp [draw_o1, draw_o2, draw_o3, draw_o4, draw_n1, draw_raw, draw_ip6, draw_ipFig, draw_bits, spare, flag]

theorem fig_AdditionalTraceInfo (x : Gtp.C1.AdditionalTraceInfo) (f : Nat × List Row) (h : figure .AdditionalTraceInfo x = some f) (_ : ∀ r ∈ f.2, r.Fits) (ht : Typed x.marshal f) :
    Drawn x.marshal f := by
  cases h
  refine (tlv_iff (by decide) ht).mpr ?_
  simp [draw_o1, draw_o2, draw_o3, draw_o4, draw_n1, draw_raw, draw_ip6, draw_ipFig, draw_bits, spare, flag]

theorem fig_MSInfoChangeReportingAction (x : Gtp.C1.MSInfoChangeReportingAction) (f : Nat × List Row) (h : figure .MSInfoChangeReportingAction x = some f) (_ : ∀ r ∈ f.2, r.Fits) (ht : Typed x.marshal f) :
    Drawn x.marshal f := by
  cases h
  refine (tlv_iff (by decide) ht).mpr ?_
  simp [draw_o1, draw_o2, draw_o3, draw_o4, draw_n1, draw_raw, draw_ip6, draw_ipFig, draw_bits, spare, flag]

theorem fig_DirectTunnelFlags (x : Gtp.C1.DirectTunnelFlags) (f : Nat × List Row) (h : figure .DirectTunnelFlags x = some f) (_ : ∀ r ∈ f.2, r.Fits) (ht : Typed x.marshal f) :
    Drawn x.marshal f := by
  cases h
  refine (tlv_iff (by decide) ht).mpr ?_
  cases x.ei <;> cases x.gcsi <;> cases x.dti <;> rfl

theorem fig_CorrelationId (x : Gtp.C1.CorrelationId) (f : Nat × List Row) (h : figure .CorrelationId x = some f) (_ : ∀ r ∈ f.2, r.Fits) (ht : Typed x.marshal f) :
    Drawn x.marshal f := by
  cases h
  refine (tlv_iff (by decide) ht).mpr ?_
  simp [draw_o1, draw_o2, draw_o3, draw_o4, draw_n1, draw_raw, draw_ip6, draw_ipFig, draw_bits, spare, flag]

theorem fig_BearerControlMode (x : Gtp.C1.BearerControlMode) (f : Nat × List Row) (h : figure .BearerControlMode x = some f) (_ : ∀ r ∈ f.2, r.Fits) (ht : Typed x.marshal f) :
    Drawn x.marshal f := by
  cases h
  refine (tlv_iff (by decide) ht).mpr ?_
  simp [draw_o1, draw_o2, draw_o3, draw_o4, draw_n1, draw_raw, draw_ip6, draw_ipFig, draw_bits, spare, flag]

theorem fig_EvolvedAllocationRetentionI (x : Gtp.C1.EvolvedAllocationRetentionI) (f : Nat × List Row) (h : figure .EvolvedAllocationRetentionI x = some f) (hf : ∀ r ∈ f.2, r.Fits) (ht : Typed x.marshal f) :
    Drawn x.marshal f := by
  cases h
  refine (tlv_iff (by decide) ht).mpr ?_
  have hb := (hf _ (.head _)).2
  simp only [List.forall_mem_cons, spare] at hb
  simp [draw_bits, spare, EvolvedAllocationRetentionI.octet, pack_qos hb.2.1 hb.2.2.1 hb.2.2.2.2.1, - UInt8.toNat_or, - UInt8.toNat_shiftLeft]

theorem fig_ExtendedCommonFlags (x : Gtp.C1.ExtendedCommonFlags) (f : Nat × List Row) (h : figure .ExtendedCommonFlags x = some f) (_ : ∀ r ∈ f.2, r.Fits) (ht : Typed x.marshal f) :
    Drawn x.marshal f := by
  cases h
  refine (tlv_iff (by decide) ht).mpr ?_
  simp [draw_octet]

theorem fig_Uci (x : Gtp.C1.Uci) (f : Nat × List Row) (h : figure .Uci x = some f) (hf : ∀ r ∈ f.2, r.Fits) (ht : Typed x.marshal f) :
    Drawn x.marshal f := by
  cases h
  refine (tlv_iff (by decide) ht).mpr ?_
  have h1 : (bits [spare 5, (3, x.csgid.toNat / 16777216)]).Fits := hf _ (by simp)
  have h2 : x.csgid.toNat / 16777216 < 8 := h1.2 (3, _) (by simp)
  have h3 : (x.csgid &&& 0x07ffffff).toNat = x.csgid.toNat := by
    have : (0x07ffffff : UInt32).toNat = 2 ^ 27 - 1 := rfl
    rw [UInt32.toNat_and, this, Nat.and_two_pow_sub_one_eq_mod]; omega
  have e : (bits [(2, accessCode x.access_mode), spare 5, (1, cmiCode x.cmi)]).draw = [(Uci.modes x.access_mode x.cmi).toNat] := by
    cases x.access_mode <;> cases x.cmi <;> rfl
  simp [draw_pl (mcc := x.mcc) (mnc := x.mnc) (three := x.mnc_is_three_digits) (hf _ (by simp)), e, be32, oct32, h3, - UInt32.toNat_and]
  simp [draw, List.range_succ, spare]
  omega

theorem fig_CSGInformationReportingAction (x : Gtp.C1.CSGInformationReportingAction) (f : Nat × List Row) (h : figure .CSGInformationReportingAction x = some f) (_ : ∀ r ∈ f.2, r.Fits) (ht : Typed x.marshal f) :
    Drawn x.marshal f := by
  cases h
  refine (tlv_iff (by decide) ht).mpr ?_
  simp [draw_o1, draw_o2, draw_o3, draw_o4, draw_n1, draw_raw, draw_ip6, draw_ipFig, draw_bits, spare, flag]

theorem fig_ApnAmbr (x : Gtp.C1.ApnAmbr) (f : Nat × List Row) (h : figure .ApnAmbr x = some f) (_ : ∀ r ∈ f.2, r.Fits) (ht : Typed x.marshal f) :
    Drawn x.marshal f := by
  cases h
  refine (tlv_iff (by decide) ht).mpr ?_
  simp [draw_o1, draw_o2, draw_o3, draw_o4, draw_n1, draw_raw, draw_ip6, draw_ipFig, draw_bits, spare, flag]

theorem fig_GGSNBackOffTime (x : Gtp.C1.GGSNBackOffTime) (f : Nat × List Row) (h : figure .GGSNBackOffTime x = some f) (hf : ∀ r ∈ f.2, r.Fits) (ht : Typed x.marshal f) :
    Drawn x.marshal f := by
  cases h
  refine (tlv_iff (by decide) ht).mpr ?_
  have hb := (hf _ (.head _)).2
  simp only [List.forall_mem_cons] at hb
  simp [draw_bits, pack_backoff hb.1 hb.2.1]

theorem fig_Spi (x : Gtp.C1.Spi) (f : Nat × List Row) (h : figure .Spi x = some f) (_ : ∀ r ∈ f.2, r.Fits) (ht : Typed x.marshal f) :
    Drawn x.marshal f := by
  cases h
  refine (tlv_iff (by decide) ht).mpr ?_
  cases x.lapi <;> rfl

theorem fig_UliTimestamp (x : Gtp.C1.UliTimestamp) (f : Nat × List Row) (h : figure .UliTimestamp x = some f) (_ : ∀ r ∈ f.2, r.Fits) (ht : Typed x.marshal f) :
    Drawn x.marshal f := by
  cases h
  refine (tlv_iff (by decide) ht).mpr ?_
  simp [draw_o1, draw_o2, draw_o3, draw_o4, draw_n1, draw_raw, draw_ip6, draw_ipFig, draw_bits, spare, flag]

theorem fig_CnOperatorSelectionEntity (x : Gtp.C1.CnOperatorSelectionEntity) (f : Nat × List Row) (h : figure .CnOperatorSelectionEntity x = some f) (_ : ∀ r ∈ f.2, r.Fits) (ht : Typed x.marshal f) :
    Drawn x.marshal f := by
  cases h
  refine (tlv_iff (by decide) ht).mpr ?_
  cases x.selection_entity <;> rfl

theorem fig_ExtendedCommonFlagsII (x : Gtp.C1.ExtendedCommonFlagsII) (f : Nat × List Row) (h : figure .ExtendedCommonFlagsII x = some f) (_ : ∀ r ∈ f.2, r.Fits) (ht : Typed x.marshal f) :
    Drawn x.marshal f := by
  cases h
  refine (tlv_iff (by decide) ht).mpr ?_
  cases x.pmtsmi <;> cases x.dtci <;> cases x.pnsi <;> rfl

theorem fig_MappedUeUsageType (x : Gtp.C1.MappedUeUsageType) (f : Nat × List Row) (h : figure .MappedUeUsageType x = some f) (_ : ∀ r ∈ f.2, r.Fits) (ht : Typed x.marshal f) :
    Drawn x.marshal f := by
  cases h
  refine (tlv_iff (by decide) ht).mpr ?_
  simp [draw_o1, draw_o2, draw_o3, draw_o4, draw_n1, draw_raw, draw_ip6, draw_ipFig, draw_bits, spare, flag]

theorem fig_UpFunctionSelectionIndicationFlags (x : Gtp.C1.UpFunctionSelectionIndicationFlags) (f : Nat × List Row) (h : figure .UpFunctionSelectionIndicationFlags x = some f) (_ : ∀ r ∈ f.2, r.Fits) (ht : Typed x.marshal f) :
    Drawn x.marshal f := by
  cases h
  refine (tlv_iff (by decide) ht).mpr ?_
  cases x.dcnr <;> rfl

theorem fig_ChargingGWAddress (x : Gtp.C1.ChargingGWAddress) (f : Nat × List Row) (h : figure .ChargingGWAddress x = some f) (_ : ∀ r ∈ f.2, r.Fits) (ht : Typed x.marshal f) :
    Drawn x.marshal f := by
  cases h
  refine (tlv_iff (by decide) ht).mpr ?_
  simp [draw_o1, draw_o2, draw_o3, draw_o4, draw_n1, draw_raw, draw_ip6, draw_ipFig, draw_bits, spare, flag]

theorem fig_PrivateExtension (x : Gtp.C1.PrivateExtension) (f : Nat × List Row) (h : figure .PrivateExtension x = some f) (_ : ∀ r ∈ f.2, r.Fits) (ht : Typed x.marshal f) :
    Drawn x.marshal f := by
  cases h
  refine (tlv_iff (by decide) ht).mpr ?_
  simp [draw_o1, draw_o2, draw_o3, draw_o4, draw_n1, draw_raw, draw_ip6, draw_ipFig, draw_bits, spare, flag]

/-- The exact condition, with the type given. -/
theorem drawn_typed (k : Kind) (x : k.Ty) (f : Nat × List Row) (h : figure k x = some f) (hf : ∀ r ∈ f.2, r.Fits) (ht : Typed (k.codec.mar x) f) :
    (Drawn (k.codec.mar x) f ↔ deviates k x = false) := by
  cases k with
  | Cause => exact iff_of_true (fig_Cause x f h hf ht) rfl
  | Imsi => exact fig_Imsi x f h hf ht
  | Rai => exact iff_of_true (fig_Rai x f h hf ht) rfl
  | ReorderingRequired => exact iff_of_true (fig_ReorderingRequired x f h hf ht) rfl
  | Recovery => exact iff_of_true (fig_Recovery x f h hf ht) rfl
  | SelectionMode => exact iff_of_true (fig_SelectionMode x f h hf ht) rfl
  | Teid => exact iff_of_true (fig_Teid x f h hf ht) rfl
  | TeardownInd => exact iff_of_true (fig_TeardownInd x f h hf ht) rfl
  | Nsapi => exact iff_of_true (fig_Nsapi x f h hf ht) rfl
  | ChargingCharacteristics => cases h
  | TraceReference => exact iff_of_true (fig_TraceReference x f h hf ht) rfl
  | TraceType => exact iff_of_true (fig_TraceType x f h hf ht) rfl
  | ChargingID => exact iff_of_true (fig_ChargingID x f h hf ht) rfl
  | EndUserAddress => exact iff_of_true (fig_EndUserAddress x f h hf ht) rfl
  | Apn => exact iff_of_true (fig_Apn x f h hf ht) rfl
  | Pco => exact iff_of_true (fig_Pco x f h hf ht) rfl
  | GsnAddress => exact iff_of_true (fig_GsnAddress x f h hf ht) rfl
  | Msisdn => exact iff_of_true (fig_Msisdn x f h hf ht) rfl
  | Qos => exact iff_of_true (fig_Qos x f h hf ht) rfl
  | Tft => exact iff_of_true (fig_Tft x f h hf ht) rfl
  | ExtensionHeaderTypeList => exact iff_of_true (fig_ExtensionHeaderTypeList x f h hf ht) rfl
  | TriggerId => exact iff_of_true (fig_TriggerId x f h hf ht) rfl
  | OmcId => exact iff_of_true (fig_OmcId x f h hf ht) rfl
  | CommonFlags => exact iff_of_true (fig_CommonFlags x f h hf ht) rfl
  | ApnRestriction => exact iff_of_true (fig_ApnRestriction x f h hf ht) rfl
  | RatType => exact iff_of_true (fig_RatType x f h hf ht) rfl
  | Uli => exact iff_of_true (fig_Uli x f h hf ht) rfl
  | MsTimeZone => exact fig_MsTimeZone x f h hf ht
  | Imei => exact iff_of_true (fig_Imei x f h hf ht) rfl
  | CamelChargingInfoContainer => exact iff_of_true (fig_CamelChargingInfoContainer x f h hf ht) rfl
  | AdditionalTraceInfo => exact iff_of_true (fig_AdditionalTraceInfo x f h hf ht) rfl
  | MSInfoChangeReportingAction => exact iff_of_true (fig_MSInfoChangeReportingAction x f h hf ht) rfl
  | DirectTunnelFlags => exact iff_of_true (fig_DirectTunnelFlags x f h hf ht) rfl
  | CorrelationId => exact iff_of_true (fig_CorrelationId x f h hf ht) rfl
  | BearerControlMode => exact iff_of_true (fig_BearerControlMode x f h hf ht) rfl
  | EvolvedAllocationRetentionI => exact iff_of_true (fig_EvolvedAllocationRetentionI x f h hf ht) rfl
  | ExtendedCommonFlags => exact iff_of_true (fig_ExtendedCommonFlags x f h hf ht) rfl
  | Uci => exact iff_of_true (fig_Uci x f h hf ht) rfl
  | CSGInformationReportingAction => exact iff_of_true (fig_CSGInformationReportingAction x f h hf ht) rfl
  | ApnAmbr => exact iff_of_true (fig_ApnAmbr x f h hf ht) rfl
  | GGSNBackOffTime => exact iff_of_true (fig_GGSNBackOffTime x f h hf ht) rfl
  | Spi => exact iff_of_true (fig_Spi x f h hf ht) rfl
  | UliTimestamp => exact iff_of_true (fig_UliTimestamp x f h hf ht) rfl
  | CnOperatorSelectionEntity => exact iff_of_true (fig_CnOperatorSelectionEntity x f h hf ht) rfl
  | ExtendedCommonFlagsII => exact iff_of_true (fig_ExtendedCommonFlagsII x f h hf ht) rfl
  | MappedUeUsageType => exact iff_of_true (fig_MappedUeUsageType x f h hf ht) rfl
  | UpFunctionSelectionIndicationFlags => exact iff_of_true (fig_UpFunctionSelectionIndicationFlags x f h hf ht) rfl
  | ChargingGWAddress => exact iff_of_true (fig_ChargingGWAddress x f h hf ht) rfl
  | PrivateExtension => exact iff_of_true (fig_PrivateExtension x f h hf ht) rfl

/-- C75 (partial: the property has the octets of the figure for every value): an element is written as its figure has it exactly where
its type is the one of the figure and its value does not deviate. -/
theorem C75_octets_partial (k : Kind) (x : k.Ty) (f : Nat × List Row) (h : figure k x = some f) (hf : ∀ r ∈ f.2, r.Fits) :
    Drawn (k.codec.mar x) f ↔ (k.codec.mar x).head?.map UInt8.toNat = some f.1 ∧ deviates k x = false :=
  ⟨fun hd => ⟨typed_of_drawn hd, (drawn_typed k x f h hf (typed_of_drawn hd)).mp hd⟩,
   fun ⟨ht, hd⟩ => (drawn_typed k x f h hf ht).mpr hd⟩

/-! ## What deviates -/

/-- An IMSI of 14 digits, a time zone of one hour, and a cause with another type. -/
theorem C75_violation :
    (∃ x f, figure .Imsi x = some f ∧ (∀ r ∈ f.2, r.Fits) ∧ ¬ Drawn ((Kind.codec .Imsi).mar x) f) ∧
    (∃ x f, figure .MsTimeZone x = some f ∧ (∀ r ∈ f.2, r.Fits) ∧ (Kind.codec .MsTimeZone).WF x ∧ ¬ Drawn ((Kind.codec .MsTimeZone).mar x) f) ∧
    (∃ x f, figure .Cause x = some f ∧ (∀ r ∈ f.2, r.Fits) ∧ ¬ Drawn ((Kind.codec .Cause).mar x) f) :=
  ⟨⟨(⟨2, "26201123456789".toList⟩ : Gtp.C1.Imsi), _, rfl, by decide +kernel, by decide +kernel⟩,
   ⟨(⟨153, 2, 4, 1⟩ : Gtp.C1.MsTimeZone), _, rfl, by decide +kernel, ⟨rfl, rfl, by decide, by decide⟩, by decide +kernel⟩,
   ⟨(⟨2, 128⟩ : Gtp.C1.Cause), _, rfl, by decide +kernel, by decide +kernel⟩⟩

/-- The figure has a ninth octet of ones, the code ends in front of it. -/
example : (Kind.codec .Imsi).mar (⟨2, "26201123456789".toList⟩ : Gtp.C1.Imsi) = [2, 0x62, 0x02, 0x11, 0x32, 0x54, 0x76, 0x98] ∧
    (figure .Imsi (⟨2, "26201123456789".toList⟩ : Gtp.C1.Imsi)).map (fun f => f.2.flatMap draw) =
      some [0x62, 0x02, 0x11, 0x32, 0x54, 0x76, 0x98, 0xff] := by decide +kernel

/-- An End User Address with both addresses. -/
example : figure .EndUserAddress (⟨128, 22, 1, 0x8d, some 0x0a000001, some ⟨1, 2⟩⟩ : Gtp.C1.EndUserAddress) =
      some (128, [bits [(4, 15), (4, 1)], o1 0x8d, o4 0x0a000001, o8 1, o8 2]) ∧
    (Kind.codec .EndUserAddress).mar (⟨128, 22, 1, 0x8d, some 0x0a000001, some ⟨1, 2⟩⟩ : Gtp.C1.EndUserAddress) =
      [128, 0, 22, 0xf1, 0x8d, 10, 0, 0, 1, 0, 0, 0, 0, 0, 0, 0, 1, 0, 0, 0, 0, 0, 0, 0, 2] := ⟨rfl, by decide +kernel⟩

example : Drawn ((Kind.codec .Uci).mar (⟨194, 8, 262, 1, false, 0x01020304, .hybridMode, .nonCsgMembership⟩ : Gtp.C1.Uci))
      (194, [pl 262 1 false, bits [spare 5, (3, 1)], num 3 0x020304, bits [(2, 1), spare 5, (1, 1)]]) := by decide +kernel

end Gtp.Props.C1
