import Verif.V2.Exact
import Verif.Props.Ie

/-!
# Property C06, the other direction

`C06_ie_roundtrip_partial` has a hypothesis on the fields, `IE.WF`. For the IEs that are neither grouped nor MM contexts it is not only
sufficient but necessary: no other value is read back from its own encoding.
-/

namespace Gtp.Props
open Gtp.V2

/-- One turn of the decoder's loop on the octets of `e`, whatever follows them, gives `e` and stops behind them. -/
def Survives (m : Mode) (e : IE) : Prop := ∀ tail, decodeOne (decoder m) m (e.marshal ++ tail) = .ok (e, e.marshal.length)

/-- Bearer contexts and the other IEs with members, and MM contexts. -/
def Composite : IE → Prop
  | .BearerContext _ | .LoadControlInfo _ | .OverloadControlInfo _ | .RemoteUeContext _ | .ScefPdnConnections _ | .PC5QosParameters _
  | .PgwChangeInfo _ | .PdnConnections _ | .V2xInformation _ | .MmContext _ => True
  | _ => False

/-- C06 (partial), exactly: the values that the decoder reads back from their encoding are those of `IE.WF`. Missing: grouped IEs and MM
contexts, for which only one direction is proved. -/
theorem C06_exact_partial (m : Mode) (e : IE) (hc : ¬ Composite e) (hl : e.marshal.length < 65536) : Survives m e ↔ e.WF := by
  refine ⟨fun h => IE.WF_of_rt ?_ ?_ hl h, fun h tail => decodeOne_marshal h (decoder_encoder fun _ hy => IE.WF_members h hy)⟩
  · cases e with
    | BearerContext x => exact absurd trivial hc
    | LoadControlInfo x => exact absurd trivial hc
    | OverloadControlInfo x => exact absurd trivial hc
    | RemoteUeContext x => exact absurd trivial hc
    | ScefPdnConnections x => exact absurd trivial hc
    | PC5QosParameters x => exact absurd trivial hc
    | PgwChangeInfo x => exact absurd trivial hc
    | PdnConnections x => exact absurd trivial hc
    | V2xInformation x => exact absurd trivial hc
    | _ => rfl
  · rintro x rfl
    exact hc trivial

/-- An access point name with a letter outside ASCII, and equipment identities of 15 and 14 digits. -/
def exName : IE := .Apn ⟨71, 9, 0, "münchen".toList⟩
def exMei15 : IE := .Mei ⟨75, 8, 0, "353490069873319".toList⟩
def exMei14 : IE := .Mei ⟨75, 7, 0, "35349006987331".toList⟩

/-- An IMEI of 15 digits survives, one of 14 digits does not: the `len` of the IE is a constant. Nor does an access point name
with a letter outside ASCII, a trace reference, or a presence reporting area without additional areas. -/
example (m : Mode) : Survives m exMei15 ∧ ¬ Survives m exMei14 ∧ ¬ Survives m exName ∧ ¬ Survives m exTrace ∧ ¬ Survives m exPrai := by
  refine ⟨(C06_exact_partial m exMei15 (fun h => h) (by decide +kernel)).mpr (by decide +kernel), ?_, ?_, ?_, ?_⟩
  · exact fun h => absurd ((C06_exact_partial m exMei14 (fun h => h) (by decide +kernel)).mp h) (by decide +kernel)
  · exact fun h => absurd ((C06_exact_partial m exName (fun h => h) (by decide +kernel)).mp h) (by decide +kernel)
  · exact fun h => absurd ((C06_exact_partial m exTrace (fun h => h) (by decide +kernel)).mp h) (by decide +kernel)
  · exact fun h => absurd ((C06_exact_partial m exPrai (fun h => h) (by decide +kernel)).mp h) (by decide +kernel)

end Gtp.Props
