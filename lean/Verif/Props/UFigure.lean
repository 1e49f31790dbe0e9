import Verif.Props.Layout
import Verif.Props.UMsg

/-!
# C78: the octets of GTPv1-U messages are those of TS 29.281

`C57` compares the headers with the figures. Here the six messages are written down once more: the message type (table 6.1-1), the
length of what follows the first eight octets, and the information elements with their types in ascending order (§7, §8).
-/

namespace Gtp.Props
open Gtp.V1 Gtp.U

/-- Message types (TS 29.281 table 6.1-1). -/
def uType : UMsg → UInt8
  | .echoRequest _ => 1
  | .echoResponse _ => 2
  | .errorIndication _ => 26
  | .supportedExt _ => 31
  | .endMarker _ => 254
  | .gpdu _ => 255

/-- Private Extension (§8.6): type, length, extension identifier, value. -/
def uPriv (p : PrivateExtension) : Bytes := [255] ++ num 2 (2 + p.value.length) ++ num 2 p.id.toNat ++ p.value

/-- An address in 4 or 16 octets behind its length (§8.4). -/
def uAddr : IpAddr → Bytes
  | .v4 a => num 2 4 ++ num 4 a.toNat
  | .v6 a => num 2 16 ++ num 8 a.hi.toNat ++ num 8 a.lo.toNat

/-- What follows the header (§7.2.1 to §7.3.2). -/
def uBody : UMsg → Bytes
  | .gpdu x => x.tpdu
  | .endMarker x => x.priv.toList.flatMap uPriv
  | .echoRequest x => x.priv.toList.flatMap uPriv
  | .echoResponse x => [14, x.recovery.value] ++ x.priv.toList.flatMap uPriv
  | .supportedExt x => [141] ++ num 1 x.list.list.length ++ x.list.list
  | .errorIndication x => [16] ++ num 4 x.teid.teid.toNat ++ ([133] ++ uAddr x.peer.ip) ++ x.priv.toList.flatMap uPriv

/-- The message. -/
def uMsgOctets (x : UMsg) : Bytes :=
  uHeaderOctets { x.header with msgtype := uType x, length := UInt16.ofNat ((uHeaderOctets x.header).length - 8 + (uBody x).length) } ++ uBody x

/-- The type fields that the encoder copies have the values of the specification. The type fields of a Recovery and of a TEID are not
copied. -/
def UTyped (x : UMsg) : Prop := x.header.msgtype = uType x ∧
  match x with
  | .gpdu _ => True
  | .endMarker x => ∀ p ∈ x.priv, p.t = 255
  | .echoRequest x => ∀ p ∈ x.priv, p.t = 255
  | .echoResponse x => ∀ p ∈ x.priv, p.t = 255
  | .supportedExt x => x.list.t = 141
  | .errorIndication x => x.peer.t = 133 ∧ ∀ p ∈ x.priv, p.t = 255

instance (x : UMsg) : Decidable (UTyped x) := by cases x <;> unfold UTyped <;> infer_instance

theorem upriv_octets (p : PrivateExtension) : p.marshal = p.t :: (uPriv p).tail := by
  have e : be16 (UInt16.ofNat (2 + p.value.length)) = num 2 (2 + p.value.length) := by
    rw [be16_num]; simp [num, ofNat_mod]; apply UInt8.toNat_inj.mp; simp; omega
  have : p.marshal = p.t :: (be16 (UInt16.ofNat (2 + p.value.length)) ++ (be16 p.id ++ p.value)) := by
    simp [PrivateExtension.marshal, setTlvIeLength, be16, put16, Nat.add_comm 2]
  rw [this, e, be16_num]
  simp [uPriv]

theorem be64_num (x : UInt64) : be64 x = num 8 x.toNat := by
  simp [be64, num, oct64, ofNat_mod]

theorem uaddr_octets (x : GsnAddress) : x.marshal = x.t :: uAddr x.ip := by
  obtain ⟨t, l, ip⟩ := x
  cases ip with
  | v4 a => simp [GsnAddress.marshal, setTlvIeLength, be16, put16, IpAddr.octets, uAddr, be32_num]; simp [num]; decide
  | v6 a =>
    simp [GsnAddress.marshal, setTlvIeLength, be16, put16, IpAddr.octets, uAddr, V2.Ip6.octets, be64_num]; simp [num]; decide

theorem ulist_octets (x : ExtTypeList) : x.marshal = x.t :: (num 1 x.list.length ++ x.list) := by
  simp [ExtTypeList.marshal, num, ofNat_mod]

theorem uPriv_cons (p : PrivateExtension) : uPriv p = 255 :: (uPriv p).tail := by simp [uPriv]

theorem upriv_opt (p : Option PrivateExtension) : (privOctets p).length = (p.toList.flatMap uPriv).length ∧
    (privOctets p = p.toList.flatMap uPriv ↔ ∀ i ∈ p, i.t = 255) := by
  cases p with
  | none => simp [privOctets]
  | some i =>
    have h : privOctets (some i) = i.t :: (uPriv i).tail := upriv_octets i
    have e : (some i).toList.flatMap uPriv = 255 :: (uPriv i).tail := by
      simp only [Option.toList_some, List.flatMap_cons, List.flatMap_nil, List.append_nil]; exact uPriv_cons i
    rw [h, e]
    simp

/-- The body as the encoder writes it is the one of the specification exactly where the types are right. -/
theorem ubody_octets (x : UMsg) : x.body.length = (uBody x).length ∧ (x.header.msgtype = uType x ∧ x.body = uBody x ↔ UTyped x) := by
  cases x with
  | gpdu x => simp [UMsg.body, uBody, UTyped]
  | endMarker x => exact ⟨(upriv_opt x.priv).1, and_congr_right fun _ => (upriv_opt x.priv).2⟩
  | echoRequest x => exact ⟨(upriv_opt x.priv).1, and_congr_right fun _ => (upriv_opt x.priv).2⟩
  | echoResponse x =>
    obtain ⟨h1, h2⟩ := upriv_opt x.priv
    refine ⟨by simp [UMsg.body, uBody, Recovery.marshal, h1], and_congr_right fun _ => Iff.trans ?_ h2⟩
    simp [UMsg.body, uBody, Recovery.marshal]
  | supportedExt x =>
    have h := ulist_octets x.list
    refine ⟨by simp [UMsg.body, uBody, h], and_congr_right fun _ => ?_⟩
    simp [UMsg.body, uBody, h]
  | errorIndication x =>
    obtain ⟨h1, h2⟩ := upriv_opt x.priv
    have h := uaddr_octets x.peer
    refine ⟨by simp [UMsg.body, uBody, h, Teid.marshal, be32_num, h1], and_congr_right fun _ => Iff.trans ?_ (and_congr_right fun _ => h2)⟩
    simp [UMsg.body, uBody, h, Teid.marshal, be32_num]

/-- C78: a message is written as the specification has it exactly where its type fields have the values of the specification. -/
theorem C78_octets (x : UMsg) : x.marshalInto [] = uMsgOctets x ↔ UTyped x := by
  obtain ⟨hb, ht⟩ := ubody_octets x
  have h8 := header_ge8 x.header
  have hn : x.header.marshal.length + x.body.length - 8 = (uHeaderOctets x.header).length - 8 + (uBody x).length := by
    rw [← hb, ← C57_u_header]; omega
  rw [umsg_marshal, List.nil_append, setLen_eq, hn, uMsgOctets, ← C57_u_header x.header, ← ht]
  generalize UInt16.ofNat _ = n
  rw [← C57_u_header]
  have e : (withLen x.header n).marshal.length = (Header.marshal { x.header with msgtype := uType x, length := n }).length := by
    cases x.header with
    | mk a b c d e f => cases d <;> cases e <;> cases f <;> rfl
  constructor
  · intro h
    obtain ⟨h1, h2⟩ := List.append_inj h e
    exact ⟨(List.cons.inj (List.cons.inj h1).2).1, h2⟩
  · rintro ⟨h1, h2⟩
    rw [h2, ← h1]; rfl

example : UTyped (.errorIndication ⟨⟨26, 0, 0, some 1, none, none⟩, ⟨16, 0x01020304⟩, ⟨133, 4, .v4 0x0a000001⟩, some ⟨255, 4, 9, [1, 2]⟩⟩) ∧
    uMsgOctets (.errorIndication ⟨⟨26, 0, 0, some 1, none, none⟩, ⟨16, 0x01020304⟩, ⟨133, 4, .v4 0x0a000001⟩, some ⟨255, 4, 9, [1, 2]⟩⟩) =
      [0x32, 26, 0, 23, 0, 0, 0, 0, 0, 1, 0, 0, 16, 1, 2, 3, 4, 133, 0, 4, 10, 0, 0, 1, 255, 0, 4, 0, 9, 1, 2] := by decide +kernel

/-- The types are public fields, so they can be wrong: an Error Indication whose peer address has another type. -/
theorem C78_violation : UMsg.marshalInto [] (.errorIndication ⟨⟨26, 0, 0, some 1, none, none⟩, ⟨16, 1⟩, ⟨134, 4, .v4 7⟩, none⟩) ≠
    uMsgOctets (.errorIndication ⟨⟨26, 0, 0, some 1, none, none⟩, ⟨16, 1⟩, ⟨134, 4, .v4 7⟩, none⟩) := by decide +kernel

end Gtp.Props
