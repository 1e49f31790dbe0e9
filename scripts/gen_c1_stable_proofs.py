BODY = 'EndUserAddress Apn Msisdn Qos PrivateExtension'.split()
OPT = '  all_goals (rename_i h; split at h <;> simp_all)\n'
OPTN = '  all_goals (rename_i h; split at h <;> simp_all)\n'
FIN = {
  'ChargingID': ('', OPT),
}
PROOF['EndUserAddress'] = '''  unfold EndUserAddress.unmarshal
  refine Post_tlv fun l _ => ?_
  unfold EndUserAddress.body
  refine Post_any fun v => Post_any fun nbr => ?_
  refine Post_if (fun h => ?_) fun _ => Post_if (fun h => ?_) fun _ => Post_if (fun h => ?_) fun _ => Post_if (fun h => ?_) fun _ => Post_e
  · refine Post_p fun n hn _ => ?_
    simp only [EndUserAddress.marshal, tlv_length] at hn
    obtain ⟨_, h | h⟩ := h
    · simp [EndUserAddress.addr, h.1] at hn
      exact ⟨rfl, .inl ⟨UInt16.toNat_inj.mp hn, h.1, h.2, rfl, rfl⟩⟩
    · simp [EndUserAddress.addr, h.1] at hn
      exact ⟨rfl, .inr (.inl ⟨UInt16.toNat_inj.mp hn, h.1, h.2, rfl, rfl⟩)⟩
  · refine Post_any fun a => Post_p fun n hn _ => ?_
    simp [EndUserAddress.marshal, tlv_length, EndUserAddress.addr, h.2.1, gtp] at hn
    exact ⟨rfl, .inr (.inr (.inl ⟨UInt16.toNat_inj.mp hn, h.2.1, h.2.2, rfl, rfl⟩))⟩
  · refine Post_any fun a => Post_p fun n hn _ => ?_
    simp [EndUserAddress.marshal, tlv_length, EndUserAddress.addr, h.2.1, gtp] at hn
    exact ⟨rfl, .inr (.inr (.inr (.inl ⟨UInt16.toNat_inj.mp hn, h.2.1, h.2.2, rfl, rfl⟩)))⟩
  · refine Post_any fun a => Post_any fun c => Post_p fun n hn _ => ?_
    simp [EndUserAddress.marshal, tlv_length, EndUserAddress.addr, h.2.1, gtp] at hn
    exact ⟨rfl, .inr (.inr (.inr (.inr ⟨UInt16.toNat_inj.mp hn, h.2.1, h.2.2, rfl, rfl⟩)))⟩

'''
PROOF['Apn'] = '''  unfold Apn.unmarshal
  refine Post_tlv fun l _ => ?_
  unfold Apn.body
  refine Post_sl fun s _ => Post_any fun nm => Post_p fun h0 n hn hN => ?_
  simp only [Apn.marshal, tlv_length] at hn
  rw [Gtp.V2.encName_length h0] at hn
  exact ⟨rfl, Nat.add_right_cancel hn, hN, h0⟩

'''
PROOF['Msisdn'] = '''  unfold Msisdn.unmarshal
  refine Post_tlv fun l _ => ?_
  unfold Msisdn.body
  refine Post_any fun v => Post_if (fun h => ?_) fun _ => Post_e
  refine Post_sl fun s _ => Post_p fun h0 n hn hN => ?_
  simp only [Msisdn.marshal, tlv_length, List.length_cons, tbcd_length _ (tbcdDecode_digits _)] at hn
  have h1 : ((tbcdDecode s).length + 1) / 2 = 8 := h0
  refine ⟨rfl, UInt16.toNat_inj.mp ?_, bit7 _, bits654 _, h, tbcdDecode_digits _, h0⟩
  show n.toNat = 9
  omega

'''
PROOF['Imei'] = '''  unfold Imei.unmarshal
  refine Post_if (fun _ => ?_) fun _ => Post_e
  c1_steps
  intro h0 n hn hN
  simp only [Imei.marshal, tlv_length, tbcd_length _ (tbcdDecode_digits _)] at hn
  refine ⟨rfl, UInt16.toNat_inj.mp ?_, tbcdDecode_digits _, h0⟩
  show n.toNat = 8
  have := h0
  simp only at this
  omega

'''
FIN['GsnAddress'] = ('ip_octets_length', '')
FIN['ChargingGWAddress'] = ('ip_octets_length', '')
FIN['Uli'] = ('mccMncEncode_length locBody_length', '')
FIN['Uci'] = ('mccMncEncode_length', '')
FIN['MsTimeZone'] = ('', '  all_goals exact zoneOf_ne _\n')
FIN['GGSNBackOffTime'] = ('', '  all_goals exact unitOf_ok _\n')
FIN['MSInfoChangeReportingAction'] = FIN['BearerControlMode'] = ('', OPTN)
PROOF['Teid'] = '''theorem Teid.head {m : Mode} {b : Bytes} {x : Teid} (h : Teid.unmarshal m b = .ok x) : b.head? = some x.t := by
  unfold Teid.unmarshal at h
  split at h
  · cases b with
    | nil => simp at *
    | cons c r =>
      rw [rd_zero, R.ok_bind] at h
      cases h1 : (rd32 (c :: r) 1 : R Err UInt32) <;> rw [h1] at h <;> cases h
      rfl
  · cases h

theorem Teid.stable (m : Mode) (b : Bytes) : (Teid.unmarshal m b).Post fun x => (b.head? = some 16 ∨ b.head? = some 17) → Teid.WF x := by
  cases h : Teid.unmarshal m b with
  | ok x =>
    rw [Post_ok, Teid.head h]
    rintro (h | h)
    · exact .inl (Option.some.inj h)
    · exact .inr (Option.some.inj h)
  | _ => trivial

'''
