import Verif.V2.Instance
import Verif.V2.Msg.All

/-!
# C70: the instance octet of a GTPv2-C information element

The fourth octet of an IE holds the instance in its lower half; the upper half is spare and a receiver has to ignore it
(3GPP TS 29.274, 8.2.1). The theorems say what the decoder makes of that octet, for every buffer.
-/

namespace Gtp.Props
open Gtp.V2

/-- The IE types of which the decoder keeps the whole octet: the grouped ones, nine others, and every type that is not known. -/
def wholeOctet : List UInt8 :=
  [93, 109, 180, 181, 191, 195, 208, 209, 214,
   111, 121, 129, 135, 142, 148, 153, 158, 205] ++
  [0, 98, 101, 102, 122, 130, 161] ++ (List.range 47).map (fun n => UInt8.ofNat (n + 4)) ++ [52, 53, 54, 55] ++
  (List.range 14).map (fun n => UInt8.ofNat (n + 57)) ++ (List.range 34).map (fun n => UInt8.ofNat (n + 220))

/-- The instance found in the octet `i` of an IE of type `t`. -/
def instanceOf (t i : UInt8) : UInt8 := if t ∈ wholeOctet then i else i % 16

/-- The first element with another instance. -/
def firstIns (n : UInt8) : List IE → List IE
  | x :: xs => x.setIns n :: xs
  | [] => []

theorem mod16 : ∀ i : UInt8, i % 16 = i &&& 0x0f := by decide +kernel

theorem insOf_eq (t i : UInt8) : (kindOf t).insOf i = instanceOf t i := by
  have key : ∀ t : UInt8, (kindOf t).keepsSpare = decide (t ∈ wholeOctet) := by decide +kernel
  unfold Kind.insOf instanceOf
  rw [key, mod16]
  by_cases h : t ∈ wholeOctet <;> simp [h]

theorem kind189 : ∀ t : UInt8, kindOf t = .MonitoringEventInformation → t = 189 := by decide +kernel

theorem off_cons (t h l i j : UInt8) (r : Bytes) : Off i j (t :: h :: l :: i :: r) (t :: h :: l :: j :: r) := by
  refine ⟨rfl, fun k hk => ?_, rfl, rfl⟩
  match k, hk with
  | 0, _ | 1, _ | 2, _ => rfl
  | 3, hk => exact absurd rfl hk
  | k + 4, _ => rfl

theorem firstIns_eq {m : Mode} {t h l i j : UInt8} {r : Bytes} (hm : m = .debug ∨ (of16 h l).toNat < 65532)
    (hf : t = 189 → i &&& 0xf0 = j &&& 0xf0) :
    decoder m (t :: h :: l :: i :: r) = (do let es ← decoder m (t :: h :: l :: j :: r); return firstIns (instanceOf t i) es) := by
  have h1 := unmKind.par (decoder m) (off_cons t h l i j r) m (kindOf t) fun hk => hf (kind189 t hk)
  rw [decoder_eq, decoder_eq m (t :: h :: l :: j :: r), if_neg (by simp), if_neg (by simp)]
  have hp := @decodeOne_pos (decoder m) m (t :: h :: l :: j :: r)
  simp only [decodeOne, rd_zero, R.ok_bind] at hp ⊢
  rcases h1.inv with ⟨x, y, e1, e2, h1⟩ | ⟨e, e1, e2⟩ | ⟨e1, e2⟩ | ⟨e1, e2⟩
  · rw [insOf_eq] at h1
    subst h1
    rw [e2] at hp
    rw [e1, e2]
    simp only [R.ok_bind, IE.len_setIns] at hp ⊢
    cases hl : y.len m with
    | ok n =>
      rw [hl] at hp
      have h4 : 4 ≤ n := hp rfl hm
      have hd : (t :: h :: l :: i :: r).drop n = (t :: h :: l :: j :: r).drop n := (off_cons t h l i j r).drop h4
      simp only [R.ok_bind, R.pure_eq]
      rw [if_neg (by omega), if_neg (by omega), hd]
      cases decoder m ((t :: h :: l :: j :: r).drop n) <;> rfl
    | _ => rfl
  all_goals rw [e1, e2]; rfl

/-- C70: the fourth octet of an IE only decides its instance: the whole octet for the types of `wholeOctet`, the lower half for
the others. (Not for a length that overflows in a release build, and not for the Monitoring Event Information, whose upper half
holds flags.) -/
theorem C70_instance {m : Mode} {t h l i j : UInt8} {r : Bytes} (hm : m = .debug ∨ (of16 h l).toNat < 65532) (ht : t ≠ 189) :
    decoder m (t :: h :: l :: i :: r) = (do let es ← decoder m (t :: h :: l :: j :: r); return firstIns (instanceOf t i) es) :=
  firstIns_eq hm fun e => absurd e ht

/-- C70: the spare half is ignored. Missing: the types of `wholeOctet` (`C70_violation`). -/
theorem C70_ignored_partial {m : Mode} {t h l i j : UInt8} {r : Bytes} (hm : m = .debug ∨ (of16 h l).toNat < 65532)
    (ht : t ≠ 189) (hw : t ∉ wholeOctet) (hij : i % 16 = j % 16) :
    decoder m (t :: h :: l :: i :: r) = decoder m (t :: h :: l :: j :: r) := by
  rw [C70_instance (j := 0) hm ht, C70_instance (i := j) (j := 0) hm ht]
  simp only [instanceOf, if_neg hw, hij]

/-- C70: two Monitoring Event Informations with the same flags only differ in their instances. -/
theorem C70_monitoring {m : Mode} {h l i j : UInt8} {r : Bytes} (hm : m = .debug ∨ (of16 h l).toNat < 65532) (hij : i / 16 = j / 16) :
    decoder m (189 :: h :: l :: i :: r) = (do let es ← decoder m (189 :: h :: l :: j :: r); return firstIns (i % 16) es) := by
  have key : ∀ x : UInt8, x &&& 0xf0 = x / 16 * 16 := by decide +kernel
  have e : instanceOf 189 i = i % 16 := by
    unfold instanceOf
    rw [if_neg (by decide +kernel)]
  rw [firstIns_eq (j := j) hm (fun _ => by rw [key, key, hij]), e]

/-- What an accepted IE has as its instance. -/
theorem C70_accepted {m : Mode} {t h l i : UInt8} {r : Bytes} (hm : m = .debug ∨ (of16 h l).toNat < 65532) {x : IE} {es : List IE}
    (hd : decoder m (t :: h :: l :: i :: r) = .ok (x :: es)) : x.ins = instanceOf t i := by
  rw [firstIns_eq (j := i) hm fun _ => rfl] at hd
  cases hb : decoder m (t :: h :: l :: i :: r) with
  | ok ys =>
    rw [hb] at hd
    injection hd with hd
    cases ys with
    | nil => cases hd
    | cons y ys =>
      injection hd with h1 h2
      rw [← h1, IE.ins_setIns]
  | _ => rw [hb] at hd; cases hd

/-- C70 violated: for the types of `wholeOctet` an accepted IE with a bit set in the spare half has an instance that no slot of
any message accepts. -/
theorem C70_violation {m : Mode} {t h l i : UInt8} {r : Bytes} (hm : m = .debug ∨ (of16 h l).toNat < 65532) (hw : t ∈ wholeOctet)
    (hi : 16 ≤ i) {x : IE} {es : List IE} (hd : decoder m (t :: h :: l :: i :: r) = .ok (x :: es)) :
    16 ≤ x.ins ∧ decoder m (t :: h :: l :: i :: r) ≠ decoder m (t :: h :: l :: (i % 16) :: r) := by
  have h1 := C70_accepted hm hd
  rw [instanceOf, if_pos hw] at h1
  refine ⟨h1 ▸ hi, fun h2 => ?_⟩
  rw [hd] at h2
  have h3 := C70_accepted hm h2.symm
  rw [instanceOf, if_pos hw, h1] at h3
  revert i
  have key : ∀ i : UInt8, 16 ≤ i → i ≠ i % 16 := by decide +kernel
  exact fun {i} hi _ _ _ h3 => key i hi h3

example : ∃ x es, decoder .debug [93, 0, 5, 0x10, 73, 0, 1, 0, 5] = .ok (x :: es) ∧ x.ins = 16 := by
  have h : (decoder .debug [93, 0, 5, 0x10, 73, 0, 1, 0, 5]) = .ok [.BearerContext (BearerContext.ofGroup 93 5 16
      [.Ebi { t := 73, length := 1, ins := 0, value := 5 }])] := by decide +kernel
  exact ⟨_, _, h, by decide +kernel⟩

example : decoder .debug [73, 0, 1, 0xf1, 5] = .ok [.Ebi { t := 73, length := 1, ins := 1, value := 5 }] := by decide +kernel

/-- A Delete Bearer Command with one Bearer Context, whose instance octet is `i`. -/
def instanceExample (i : UInt8) : Bytes := [72, 66, 0, 17, 0, 0, 0, 1, 0, 0, 1, 0, 93, 0, 5, i, 73, 0, 1, 0, 5]

/-- C70 violated in a message: with a spare bit set the mandatory Bearer Context is not found. -/
theorem C70_violation_message :
    (∃ x, Msg.DeleteBearerCommand.codec.unmarshal .debug (instanceExample 0) = .ok x) ∧
    Msg.DeleteBearerCommand.codec.unmarshal .debug (instanceExample 0x10) = .err (.messageMandatoryIEMissing 93) := by
  have h : (match Msg.DeleteBearerCommand.codec.unmarshal .debug (instanceExample 0) with | .ok _ => true | _ => false) = true := by
    decide +kernel
  refine ⟨?_, by decide +kernel⟩
  cases hx : Msg.DeleteBearerCommand.codec.unmarshal .debug (instanceExample 0) with
  | ok x => exact ⟨x, rfl⟩
  | _ => rw [hx] at h; cases h

end Gtp.Props
