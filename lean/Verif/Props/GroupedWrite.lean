import Verif.Props.Grouped
import Verif.V2.Deep

/-!
# Grouped IEs are written with what they contain (C95)

The other direction of C94: `to_vec` and `GroupedIe::marshal`. `contents` is the list of all fields of the structure (Grouped.lean).
-/

namespace Gtp.Props.Grouped
open Gtp.V2

/-- The type octet of a grouped IE (TS 29.274, table 8.1-1). -/
def groupType : Kind → UInt8
  | .BearerContext => 93
  | .PdnConnections => 109
  | .OverloadControlInfo => 180
  | .LoadControlInfo => 181
  | .RemoteUeContext => 191
  | .ScefPdnConnections => 195
  | .V2xInformation => 208
  | .PC5QosParameters => 209
  | .PgwChangeInfo => 214
  | _ => 0

/-- The value without the fields that are never written. -/
def written : IE → IE
  | .BearerContext x => .BearerContext { x with bss_container := none, transaction_id := none }
  | .PdnConnections x => .PdnConnections { x with pgw_change_info := none, up_security_policy := none }
  | e => e

theorem perm_members (e : IE) (hk : e.kind ∈ grouped) : e.grouped = true ∧ e.wireType = groupType e.kind ∧ e.members.Perm (contents (written e)) := by
  cases e <;> first | (exact absurd hk (by simp only [IE.kind]; decide)) | skip
  case BearerContext x =>
    refine ⟨rfl, rfl, ?_⟩
    simp only [IE.members, V2.BearerContext.toVec, contents, written, optV, List.flatten_cons, List.flatten_nil, List.append_nil, Option.toList_none, List.map_nil]
    exact List.perm_append_comm_assoc _ _ _
  case PgwChangeInfo x =>
    refine ⟨rfl, rfl, ?_⟩
    simp only [IE.members, V2.PgwChangeInfo.toVec, contents, written, List.flatten_cons, List.flatten_nil, List.append_nil]
    exact List.perm_append_comm_assoc _ _ _
  all_goals
    refine ⟨rfl, rfl, List.Perm.of_eq ?_⟩
    simp only [IE.members, V2.LoadControl.toVec, V2.OverloadControlInfo.toVec, V2.RemoteUeContext.toVec, V2.ScefPdnConnections.toVec, V2.PC5QosParameters.toVec,
      V2.PdnConnections.toVec, V2.V2xInformation.toVec, contents, written, optV, List.flatten_cons, List.flatten_nil, List.append_nil, Option.toList_none, List.map_nil]

/-- C95: a grouped IE is written as type, length, instance and the octets of all that it contains, each once, but for BSS container and transaction
identifier of a bearer context and PGW change info and UP security policy of a PDN connection. -/
theorem C95_partial (e : IE) (hk : e.kind ∈ grouped) : ∃ (l : List IE) (a b : UInt8), l.Perm (contents (written e)) ∧
    e.marshal = groupType e.kind :: a :: b :: e.ins :: l.flatMap IE.marshal ∧ a.toNat * 256 + b.toNat = (l.flatMap IE.marshal).length % 65536 := by
  obtain ⟨hg, ht, hp⟩ := perm_members e hk
  refine ⟨e.members, hi16 (lenU16 (e.members.flatMap IE.marshal)), lo16 (lenU16 (e.members.flatMap IE.marshal)), hp, ?_, ?_⟩
  · rw [IE.marshal_grouped hg, ht, tliv_eq]
    rfl
  · simp only [lenU16, hi16, lo16, UInt16.toNat_ofNat', UInt8.toNat_ofNat']
    omega

/-- C95 is violated: these fields make no difference to what is written. -/
theorem C95_violation (e : IE) : e.marshal = (written e).marshal := by
  cases e with
  | BearerContext x => rfl
  | PdnConnections x => rfl
  | _ => rfl

/-- A BSS container that was received in a bearer context is in the value and not in what is sent on. -/
theorem C95_violation_relay (m : Mode) :
    ∃ x, decoder m [93, 0, 12, 0, 73, 0, 1, 0, 5, 118, 0, 3, 0, 2, 1, 2] = .ok [x] ∧ contents x = [.Ebi ⟨73, 1, 0, 5⟩, .Fcontainer ⟨118, 3, 0, .Bss [1, 2]⟩] ∧
      x.marshal = [93, 0, 5, 0, 73, 0, 1, 0, 5] := by
  refine ⟨.BearerContext (expectedBearerContext 93 12 0 [.Ebi ⟨73, 1, 0, 5⟩, .Fcontainer ⟨118, 3, 0, .Bss [1, 2]⟩]), ?_, rfl, by decide +kernel⟩
  cases m <;> decide +kernel

/-- The hypotheses of `C95_partial` and what it says about a bearer context with a charging id. -/
example : (IE.BearerContext { expectedBearerContext 93 0 0 [.Ebi ⟨73, 1, 0, 5⟩] with charging_id := some ⟨94, 4, 0, 7⟩ }).kind ∈ grouped ∧
    (IE.BearerContext { expectedBearerContext 93 0 0 [.Ebi ⟨73, 1, 0, 5⟩] with charging_id := some ⟨94, 4, 0, 7⟩ }).marshal =
      [93, 0, 13, 0, 73, 0, 1, 0, 5, 94, 0, 4, 0, 0, 0, 0, 7] := by decide +kernel

end Gtp.Props.Grouped
