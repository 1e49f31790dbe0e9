import Verif.V2.Msg.Base

/-!
# The type octet of decoded IEs

`CreateSessionRequest::fromvec` looks at the `t` field of four kinds of IEs. The decoder sets it to the constant of the kind.
-/

namespace Gtp.V2

theorem RatType.unmarshal_t (m : Mode) (b : Bytes) : (RatType.unmarshal m b).Post fun x => x.t = 82 := by
  simp [RatType.unmarshal, gtps, rd16]

theorem Fteid.unmarshal_t (m : Mode) (b : Bytes) : (Fteid.unmarshal m b).Post fun x => x.t = 87 := by
  unfold Fteid.unmarshal
  refine Post_ite_any (Post_bind_any fun _ => Post_bind_any fun _ => Post_bind_any fun _ => Post_ite_any ?_ Post_err') Post_err'
  refine Post_bind_any fun _ => Post_bind_any fun _ => Post_ite_any (Post_bind_any fun _ => Post_bind_any fun _ => rfl) ?_
  exact Post_ite_any (Post_bind_any fun _ => rfl) (Post_ite_any (Post_bind_any fun _ => rfl) Post_err')

theorem Apn.unmarshal_t (m : Mode) (b : Bytes) : (Apn.unmarshal m b).Post fun x => x.t = 71 := by
  unfold Apn.unmarshal
  exact Post_ite_any (Post_bind_any fun _ => Post_bind_any fun _ => Post_bind_any fun _ => Post_ite_any
    (Post_bind_any fun _ => Post_bind_any fun _ => rfl) Post_err') Post_err'

theorem BearerContext.step_t (s : BearerContext × Bool) (e : IE) : (BearerContext.step s e).1.t = s.1.t := by
  cases e <;> simp only [BearerContext.step] <;> first | rfl | (repeat' split) <;> rfl

theorem BearerContext.ofGroup_t (t : UInt8) (length : UInt16) (ins : UInt8) (l : List IE) :
    (BearerContext.ofGroup t length ins l).t = t := by
  have : ∀ (l : List IE) (s : BearerContext × Bool), (l.foldl BearerContext.step s).1.t = s.1.t := by
    intro l
    induction l with
    | nil => intro s; rfl
    | cons e l ih => intro s; rw [List.foldl_cons, ih, BearerContext.step_t]
  exact this l _

theorem groupUnm_t {dec : Bytes → R Err (List IE)} {m : Mode} {b : Bytes} :
    (groupUnm dec BearerContext.ofGroup m b).Post fun x => x.t = b.getD 0 0 := by
  unfold groupUnm
  refine Post_ite_any ?_ (Post_bind_any fun _ => Post_err')
  rw [Post_bind, Post_rd]
  intro _
  refine Post_bind_any fun _ => Post_bind_any fun _ => Post_bind_any fun _ => Post_ite_any ?_ Post_err'
  exact Post_bind_any fun _ => Post_bind_any fun _ => BearerContext.ofGroup_t _ _ _ _

theorem kindOf_bearer : ∀ t : UInt8, kindOf t = .BearerContext → t = 93 := by decide +kernel

theorem decodeOne_typeOk {dec : Bytes → R Err (List IE)} {m : Mode} {b : Bytes} {x : IE} {n : Nat}
    (h : decodeOne dec m b = .ok (x, n)) : TypeOk x := by
  obtain ⟨_, h1, _⟩ := decodeOne_inv h
  have h2 := Post.elim (unmKind_kind dec m b _) h1
  intro hk
  rw [h2] at hk
  simp only [List.mem_cons, List.not_mem_nil, or_false] at hk
  rcases hk with hk | hk | hk | hk
  · rw [hk] at h1
    have : (unmKind dec m b .RatType).Post fun x => x.t = x.wireType := by
      simp only [unmKind]; rw [Post_bind]; exact Post.mono (RatType.unmarshal_t m b) fun _ h => h
    exact Post.elim this h1
  · rw [hk] at h1
    have : (unmKind dec m b .Fteid).Post fun x => x.t = x.wireType := by
      simp only [unmKind]; rw [Post_bind]; exact Post.mono (Fteid.unmarshal_t m b) fun _ h => h
    exact Post.elim this h1
  · rw [hk] at h1
    have : (unmKind dec m b .Apn).Post fun x => x.t = x.wireType := by
      simp only [unmKind]; rw [Post_bind]; exact Post.mono (Apn.unmarshal_t m b) fun _ h => h
    exact Post.elim this h1
  · have h93 := kindOf_bearer _ hk
    rw [hk] at h1
    have : (unmKind dec m b .BearerContext).Post fun x => x.t = x.wireType := by
      simp only [unmKind]; rw [Post_bind]; exact Post.mono groupUnm_t fun _ h => h.trans h93
    exact Post.elim this h1

theorem decodeF_typeOk {m : Mode} : ∀ {f : Nat} {b : Bytes} {l : List IE}, decodeF f m b = .ok l → ∀ e ∈ l, TypeOk e := by
  intro f
  induction f with
  | zero => intro b l h; cases h
  | succ f ih =>
    intro b l h
    rw [decodeF] at h
    split at h
    · cases h; simp
    · cases ho : decodeOne (decodeF f m) m b with
      | ok p =>
        obtain ⟨x, n⟩ := p
        rw [ho, R.ok_bind] at h
        simp only at h
        split at h
        · cases h
        · cases hr : decodeF f m (b.drop n) with
          | ok r =>
            rw [hr, R.ok_bind] at h
            cases h
            intro e he
            cases he with
            | head => exact decodeOne_typeOk ho
            | tail _ he => exact ih hr e he
          | _ => rw [hr] at h; cases h
      | _ => rw [ho] at h; cases h

/-- Decoded IEs carry the type of their kind. -/
theorem decoder_typeOk {m : Mode} {b : Bytes} {l : List IE} (h : decoder m b = .ok l) : ∀ e ∈ l, TypeOk e := decodeF_typeOk h

theorem IE.WF.typeOk {e : IE} (h : e.WF) : TypeOk e := by
  have := decoder_encoder (m := .debug) (l := [e]) (by simpa using h)
  exact decoder_typeOk this e (by simp)

end Gtp.V2
