import Verif.V2.Header

/-!
# Common machinery for the GTPv2-C information elements

* `tliv`, `ieLen16`, `ieLenU`: the code shared by all `impl IEs for ..`.
* `R.Safe`, `R.Post`: total and partial correctness predicates with simp rules (`gtps`), used to
  prove "never panics" and "what a decoded value looks like".
-/

namespace Gtp.V2

/-- The common skeleton of `IEs::marshal`: type, length field, instance, body, then
`set_tliv_ie_length`; the result is appended to the output buffer. -/
def tliv (ty : UInt8) (length : UInt16) (ins : UInt8) (body : Bytes) : Bytes :=
  setTlivIeLength (ty :: hi16 length :: lo16 length :: ins :: body)

/-- `fn len(&self) -> usize { (self.length + MIN_IE_SIZE as u16) as usize }`. -/
def ieLen16 (m : Mode) (length : UInt16) : R Err Nat := do
  let l ← add16 m length 4
  return l.toNat

/-- `fn len(&self) -> usize { self.length as usize + MIN_IE_SIZE }`. -/
def ieLenU (length : UInt16) : R Err Nat := .ok (length.toNat + 4)

/-- `buffer[4..(length + 4) as usize]` with the addition in `u16`. -/
def slBody16 (m : Mode) (b : Bytes) (length : UInt16) : R Err Bytes := do
  let l ← add16 m length 4
  sl b 4 l.toNat

/-- `std::net::Ipv6Addr`. -/
structure Ip6 where
  hi : UInt64
  lo : UInt64
deriving DecidableEq, Repr

/-- `Ipv6Addr::octets`. -/
def Ip6.octets (a : Ip6) : Bytes := be64 a.hi ++ be64 a.lo

/-- `Ipv6Addr::from(<[u8; 16]>::from(&buffer[i..i+16]))`. -/
def rdIp6 {ε : Type} (b : Bytes) (i : Nat) : R ε Ip6 := do
  let hi ← rd64 b i
  let lo ← rd64 b (i + 8)
  return ⟨hi, lo⟩

/-- The length field declared in the TLIV header found at the start of a buffer. -/
def declLen (b : Bytes) : UInt16 := of16 (b.getD 1 0) (b.getD 2 0)

/-- `(v >> k) & 1 == 1`. -/
def bitOn (v k : UInt8) : Bool := (v >>> k) &&& 1 == 1

/-- `v & mask == mask`. -/
def hasBits (v mask : UInt8) : Bool := v &&& mask == mask

/-- `Ipv4Addr::new`. -/
def ip4 (a b c d : UInt8) : UInt32 := of32 a b c d

end Gtp.V2

namespace Gtp

/-- An optional value, or the error `e` (`match .. { .. => v, _ => return Err(e) }`). -/
def R.ofOption {ε α : Type} (o : Option α) (e : ε) : R ε α :=
  match o with
  | some a => .ok a
  | none => .err e

@[gtp] theorem R.ofOption_some {ε α : Type} (a : α) (e : ε) : R.ofOption (some a) e = .ok a := rfl
@[gtp] theorem R.ofOption_none {ε α : Type} (e : ε) :
    (R.ofOption none e : R ε α) = .err e := rfl

/-! ## Total and partial correctness -/

/-- The outcome is an error or a value satisfying `P`; no panic, no divergence. -/
def R.Safe {ε α : Type} (x : R ε α) (P : α → Prop) : Prop :=
  match x with
  | .ok a => P a
  | .err _ => True
  | _ => False

/-- If the outcome is a value, it satisfies `P`. -/
def R.Post {ε α : Type} (x : R ε α) (P : α → Prop) : Prop :=
  match x with
  | .ok a => P a
  | _ => True

section
variable {ε α β : Type}

@[gtps] theorem Safe_ok (a : α) (P : α → Prop) : (R.ok a : R ε α).Safe P = P a := rfl
@[gtps] theorem Safe_err (e : ε) (P : α → Prop) : (R.err e : R ε α).Safe P = True := rfl
@[gtps] theorem Safe_panic (P : α → Prop) : (R.panic : R ε α).Safe P = False := rfl
@[gtps] theorem Safe_diverge (P : α → Prop) : (R.diverge : R ε α).Safe P = False := rfl
@[gtps] theorem Safe_pure (a : α) (P : α → Prop) : (pure a : R ε α).Safe P = P a := rfl

@[gtps] theorem Safe_bind (x : R ε α) (f : α → R ε β) (P : β → Prop) :
    (x >>= f).Safe P = x.Safe (fun a => (f a).Safe P) := by cases x <;> rfl

@[gtps] theorem Safe_ite (c : Prop) [Decidable c] (x y : R ε α) (P : α → Prop) :
    (if c then x else y).Safe P = ((c → x.Safe P) ∧ (¬ c → y.Safe P)) := by
  by_cases h : c <;> simp [h]

@[gtps] theorem Safe_mapErr (x : R ε α) (e : ε) (P : α → Prop) :
    (x.mapErr e).Safe P = x.Safe P := by cases x <;> rfl

@[gtps] theorem Safe_ofOption (o : Option α) (e : ε) (P : α → Prop) :
    (R.ofOption o e).Safe P = ∀ a, o = some a → P a := by
  cases o <;> simp [R.ofOption, R.Safe]

@[gtps] theorem Safe_rd (b : Bytes) (i : Nat) (P : UInt8 → Prop) :
    (rd b i : R ε UInt8).Safe P = (i < b.length ∧ P (b.getD i 0)) := by
  by_cases h : i < b.length
  · simp [rd_lt h, Safe_ok, h]
  · simp [rd_ge (Nat.le_of_not_lt h), Safe_panic, h]

@[gtps] theorem Safe_sl (b : Bytes) (i j : Nat) (P : Bytes → Prop) :
    (sl b i j : R ε Bytes).Safe P = ((i ≤ j ∧ j ≤ b.length) ∧ P ((b.take j).drop i)) := by
  unfold sl
  by_cases h : i ≤ j ∧ j ≤ b.length <;> simp [h, Safe_ok, Safe_panic]

@[gtps] theorem Safe_slFrom (b : Bytes) (i : Nat) (P : Bytes → Prop) :
    (slFrom b i : R ε Bytes).Safe P = (i ≤ b.length ∧ P (b.drop i)) := by
  unfold slFrom
  by_cases h : i ≤ b.length <;> simp [h, Safe_ok, Safe_panic]

theorem Safe.mono {x : R ε α} {P Q : α → Prop} (h : x.Safe P) (hpq : ∀ a, P a → Q a) :
    x.Safe Q := by
  cases x <;> simp_all [R.Safe]

theorem Safe.noPanic {x : R ε α} {P : α → Prop} (h : x.Safe P) : x ≠ .panic ∧ x ≠ .diverge := by
  cases x <;> simp_all [R.Safe]

theorem Safe.post {x : R ε α} {P : α → Prop} (h : x.Safe P) {a : α} (ha : x = .ok a) : P a := by
  subst ha; exact h

@[gtps] theorem Post_ok (a : α) (P : α → Prop) : (R.ok a : R ε α).Post P = P a := rfl
@[gtps] theorem Post_err (e : ε) (P : α → Prop) : (R.err e : R ε α).Post P = True := rfl
@[gtps] theorem Post_panic (P : α → Prop) : (R.panic : R ε α).Post P = True := rfl
@[gtps] theorem Post_diverge (P : α → Prop) : (R.diverge : R ε α).Post P = True := rfl
@[gtps] theorem Post_pure (a : α) (P : α → Prop) : (pure a : R ε α).Post P = P a := rfl

@[gtps] theorem Post_bind (x : R ε α) (f : α → R ε β) (P : β → Prop) :
    (x >>= f).Post P = x.Post (fun a => (f a).Post P) := by cases x <;> rfl

@[gtps] theorem Post_ite (c : Prop) [Decidable c] (x y : R ε α) (P : α → Prop) :
    (if c then x else y).Post P = ((c → x.Post P) ∧ (¬ c → y.Post P)) := by
  by_cases h : c <;> simp [h]

@[gtps] theorem Post_mapErr (x : R ε α) (e : ε) (P : α → Prop) :
    (x.mapErr e).Post P = x.Post P := by cases x <;> rfl

@[gtps] theorem Post_ofOption (o : Option α) (e : ε) (P : α → Prop) :
    (R.ofOption o e).Post P = ∀ a, o = some a → P a := by
  cases o <;> simp [R.ofOption, R.Post]

@[gtps] theorem Post_rd (b : Bytes) (i : Nat) (P : UInt8 → Prop) :
    (rd b i : R ε UInt8).Post P = (i < b.length → P (b.getD i 0)) := by
  by_cases h : i < b.length
  · simp [rd_lt h, Post_ok, h]
  · simp [rd_ge (Nat.le_of_not_lt h), Post_panic, h]

@[gtps] theorem Post_sl (b : Bytes) (i j : Nat) (P : Bytes → Prop) :
    (sl b i j : R ε Bytes).Post P = (i ≤ j → j ≤ b.length → P ((b.take j).drop i)) := by
  unfold sl
  by_cases h : i ≤ j ∧ j ≤ b.length
  · simp [h, Post_ok]
  · simp only [h, if_false, Post_panic]
    exact (eq_true fun h1 h2 => absurd ⟨h1, h2⟩ h).symm

@[gtps] theorem Post_slFrom (b : Bytes) (i : Nat) (P : Bytes → Prop) :
    (slFrom b i : R ε Bytes).Post P = (i ≤ b.length → P (b.drop i)) := by
  unfold slFrom
  by_cases h : i ≤ b.length <;> simp [h, Post_ok, Post_panic]

theorem Post.elim {x : R ε α} {P : α → Prop} (h : x.Post P) {a : α} (ha : x = .ok a) : P a := by
  subst ha; exact h

theorem Post.intro {x : R ε α} {P : α → Prop} (h : ∀ a, x = .ok a → P a) : x.Post P := by
  cases x with
  | ok a => exact h a rfl
  | _ => trivial

theorem Post.mono {x : R ε α} {P Q : α → Prop} (h : x.Post P) (hpq : ∀ a, P a → Q a) :
    x.Post Q := by
  cases x <;> simp_all [R.Post]

theorem Safe.toPost {x : R ε α} {P : α → Prop} (h : x.Safe P) : x.Post P := by
  cases x <;> simp_all [R.Safe, R.Post]

theorem Post.trivial (x : R ε α) {P : α → Prop} (h : ∀ a, P a) : x.Post P := by
  cases x <;> simp_all [R.Post]

/-- The length check, in the absence of overflow. -/
theorem Safe_checkTliv {m : Mode} {l : UInt16} {b : Bytes} {P : Bool → Prop}
    (hl : l.toNat < 65532) :
    (checkTliv m l b : R ε Bool).Safe P = P (decide (0 < l.toNat ∧ l.toNat + 4 ≤ b.length)) := by
  rw [checkTliv_ok hl, Safe_ok]

theorem Post_checkTliv {m : Mode} {l : UInt16} {b : Bytes} {P : Bool → Prop}
    (hl : l.toNat < 65532) :
    (checkTliv m l b : R ε Bool).Post P = P (decide (0 < l.toNat ∧ l.toNat + 4 ≤ b.length)) := by
  rw [checkTliv_ok hl, Post_ok]

@[gtps] theorem Post_add16_any (m : Mode) (x y : UInt16) (P : UInt16 → Prop) :
    (add16 m x y : R ε UInt16).Post P =
      ((m = .debug → x.toNat + y.toNat < 65536) → P (x + y)) := by
  cases m <;> simp [add16, Post_ok]
  by_cases h : x.toNat + y.toNat < 65536 <;> simp [h, Post_ok, Post_panic]

end

namespace V2

/-! ## Lemmas about the shared code -/

theorem tliv_eq (ty : UInt8) (l : UInt16) (ins : UInt8) (body : Bytes) :
    tliv ty l ins body = ty :: hi16 (lenU16 body) :: lo16 (lenU16 body) :: ins :: body := by
  simp [tliv, setTliv_cons]

theorem lenU16_eq {l : UInt16} {body : List α} (h : l.toNat = body.length) : lenU16 body = l := by
  apply UInt16.toNat_inj.mp
  have := l.toNat_lt
  simp [lenU16]
  omega

/-- An IE whose length field equals the size of its body is written as it is. -/
@[gtp] theorem tliv_wf {ty : UInt8} {l : UInt16} {ins : UInt8} {body : Bytes}
    (h : l.toNat = body.length) : tliv ty l ins body = ty :: hi16 l :: lo16 l :: ins :: body := by
  rw [tliv_eq, lenU16_eq h]

theorem ieLen16_ok {m : Mode} {l : UInt16} (h : l.toNat < 65532) :
    ieLen16 m l = .ok (l.toNat + 4) := by
  have h4 : (4 : UInt16).toNat = 4 := rfl
  have e := add16_ok (ε := Err) (m := m) (a := l) (b := 4) (by omega)
  have e2 := toNat_add16 (a := l) (b := 4) (by omega)
  simp only [ieLen16, e, R.ok_bind, R.pure_eq, e2, h4]

theorem slBody16_ok {m : Mode} {b : Bytes} {l : UInt16} (h : l.toNat < 65532) :
    slBody16 m b l = sl b 4 (l.toNat + 4) := by
  have h4 : (4 : UInt16).toNat = 4 := rfl
  have e := add16_ok (ε := Err) (m := m) (a := l) (b := 4) (by omega)
  have e2 := toNat_add16 (a := l) (b := 4) (by omega)
  simp only [slBody16, e, R.ok_bind, e2, h4]

/-- Slicing the body out of an encoded IE. -/
@[gtp] theorem sl_body (a b c d : UInt8) (body tail : Bytes) (n : Nat) (h : n = body.length) :
    (sl (a :: b :: c :: d :: (body ++ tail)) 4 (n + 4) : R Err Bytes) = .ok body := by
  subst h
  simp [sl]

/-- Slicing from octet 5 to the end of an encoded IE. -/
theorem sl_from5 (a b c d e : UInt8) (body tail : Bytes) (n : Nat) (h : n = body.length + 5) :
    (sl (a :: b :: c :: d :: e :: (body ++ tail)) 5 n : R Err Bytes) = .ok body := by
  subst h
  simp [sl]

/-- Slicing from octet 6 to the end of an encoded IE. -/
theorem sl_from6 (a b c d e f : UInt8) (body tail : Bytes) (n : Nat) (h : n = body.length + 6) :
    (sl (a :: b :: c :: d :: e :: f :: (body ++ tail)) 6 n : R Err Bytes) = .ok body := by
  subst h
  simp [sl]

theorem add16_four {m : Mode} {l : UInt16} (h : l.toNat < 65532) :
    (add16 m l 4 : R Err UInt16) = .ok (l + 4) :=
  add16_ok (by have h4 : (4 : UInt16).toNat = 4 := rfl; omega)

theorem toNat_add4 {l : UInt16} (h : l.toNat < 65532) : (l + 4).toNat = l.toNat + 4 := by
  have h4 : (4 : UInt16).toNat = 4 := rfl
  rw [toNat_add16 (by omega), h4]

theorem Safe_add4 {m : Mode} {l : UInt16} {P : UInt16 → Prop} (h : l.toNat < 65532) :
    (add16 m l 4 : R Err UInt16).Safe P = P (l + 4) := by
  rw [add16_four h, Safe_ok]

/-! ## The statements proved for every kind of IE -/

/-- Decoding an encoded well-formed IE, whatever follows it, gives the IE back. -/
def RoundTrips {α : Type} (WF : α → Prop) (mar : α → Bytes) (unm : Mode → Bytes → R Err α) : Prop :=
  ∀ (m : Mode) (x : α) (tail : Bytes), WF x → unm m (mar x ++ tail) = .ok x

/-- `len` returns the size of the encoding of a well-formed IE. -/
def LenOk {α : Type} (WF : α → Prop) (mar : α → Bytes) (len : Mode → α → R Err Nat) : Prop :=
  ∀ (m : Mode) (x : α), WF x → len m x = .ok (mar x).length

/-- On buffers satisfying `cond`: no panic, and a decoded IE is accounted with exactly its declared
length plus 4 octets, all of them inside the buffer. -/
def SafeIf {α : Type} (cond : Bytes → Prop) (unm : Mode → Bytes → R Err α)
    (len : Mode → α → R Err Nat) : Prop :=
  ∀ (m : Mode) (b : Bytes), (declLen b).toNat < 65532 → cond b →
    (unm m b).Safe fun x => (len m x).Safe fun n => n = (declLen b).toNat + 4 ∧ n ≤ b.length

/-- As `SafeIf`, on every buffer. -/
def ExactSafe {α : Type} (unm : Mode → Bytes → R Err α) (len : Mode → α → R Err Nat) : Prop :=
  SafeIf (fun _ => True) unm len

/-- No panic on any buffer; a decoded IE is accounted with `k` octets, all inside the buffer,
whatever its declared length. -/
def FixedSafe {α : Type} (k : Nat) (unm : Mode → Bytes → R Err α)
    (len : Mode → α → R Err Nat) : Prop :=
  ∀ (m : Mode) (b : Bytes),
    (unm m b).Safe fun x => (len m x).Safe fun n => n = k ∧ n ≤ b.length

/-- No panic; a decoded IE is accounted with its declared length plus 4, possibly more than the
buffer holds. -/
def LooseSafe {α : Type} (cond : Bytes → Prop) (unm : Mode → Bytes → R Err α)
    (len : Mode → α → R Err Nat) : Prop :=
  ∀ (m : Mode) (b : Bytes), (declLen b).toNat < 65532 → cond b →
    (unm m b).Safe fun x => (len m x).Safe fun n => n = (declLen b).toNat + 4

/-- No panic; a decoded IE is accounted with between `lo` and `b.length` octets, not necessarily the
declared length plus 4. -/
def OwnSafe {α : Type} (lo : Nat) (cond : Bytes → Prop) (unm : Mode → Bytes → R Err α)
    (len : Mode → α → R Err Nat) : Prop :=
  ∀ (m : Mode) (b : Bytes), (declLen b).toNat < 65532 → cond b →
    (unm m b).Safe fun x => (len m x).Safe fun n => lo ≤ n ∧ n ≤ b.length

/-- No panic; a decoded IE is accounted with `k` octets, possibly more than the buffer holds. -/
def ConstSafe {α : Type} (k : Nat) (unm : Mode → Bytes → R Err α)
    (len : Mode → α → R Err Nat) : Prop :=
  ∀ (m : Mode) (b : Bytes), (declLen b).toNat < 65532 →
    (unm m b).Safe fun x => (len m x).Safe fun n => n = k

/-- Side goals of the evaluation rules: hypotheses and length arithmetic. -/
macro "gtp_disch" : tactic => `(tactic| first
  | assumption
  | omega
  | (simp only [List.length_cons, List.length_append, List.length_nil, List.length_replicate,
      gtplen]; first | done | omega))

/-- Evaluate a decoder on an encoded value of fixed shape. -/
macro "rt_simp" "[" ls:Lean.Parser.Tactic.simpLemma,* "]" : tactic =>
  `(tactic| simp -implicitDefEqProofs [gtp, ↓rdLit, ↓rd16Lit, ↓rd24Lit, ↓rd32Lit, ↓rd40Lit, ↓rd48Lit,
      ↓rd64Lit, ↓lenLit, $ls,*])

/-- Evaluate a decoder on an encoded value with variable parts (conditions by length arithmetic). -/
macro "rtv_simp" "[" ls:Lean.Parser.Tactic.simpLemma,* "]" : tactic =>
  `(tactic| simp -implicitDefEqProofs (disch := gtp_disch) [gtp, if_pos, if_neg, checkTliv_ok,
      ↓rdLit, ↓rd16Lit, ↓rd24Lit, ↓rd32Lit, ↓rd40Lit, ↓rd48Lit, ↓rd64Lit, ↓lenLit,
      ↓sl_from5, ↓sl_from6, $ls,*])

/-- Bring an encoded IE into the form `ty :: len :: len :: ins :: ..`. -/
macro "enc_simp" "[" ls:Lean.Parser.Tactic.simpLemma,* "]" : tactic =>
  `(tactic| simp -implicitDefEqProofs (disch := gtp_disch) only [gtp, List.cons_append, List.nil_append,
      List.append_nil, List.append_assoc, $ls,*])

/-- Reduce a safety statement to arithmetic about lengths. -/
macro "safe_simp" "[" ls:Lean.Parser.Tactic.simpLemma,* "]" : tactic =>
  `(tactic| simp -implicitDefEqProofs only [gtps, Nat.reduceAdd, $ls,*])

/-- Finish a safety statement that `omega` cannot take as a whole. -/
macro "safe_fin" : tactic => `(tactic| first
  | omega
  | (repeat' first | with_reducible apply And.intro | intro _
     all_goals first | omega | (simp_all; done)))

attribute [gtps] decide_eq_true_eq Bool.not_eq_true decide_eq_false_iff_not rd16 rd24 rd32 rd40 rd48 rd64
  rdIp6 ieLenU implies_true and_true true_and if_true if_false Bool.false_eq_true

attribute [gtp] Ip6.octets rdIp6 ieLenU R.mapErr_ok R.mapErr_err

end V2

end Gtp
