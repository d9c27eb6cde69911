import Verif.Proof.Depth
import Verif.Model.LpvRecur

/-!
# Depth of `linear_recurrence`
-/

namespace Torch

theorem clog_le_one {u N : Nat} (h : u = 1 ∨ u ≥ N) : Nat.clog u N ≤ 1 := by
  rcases h with rfl | h
  · simp
  · exact Nat.clog_le_of_le_pow (by simpa using h)

namespace Tensor
variable {α : Type} [CommSemiring α] [StarRing α]

omit [StarRing α] in
theorem matmul_vec_size {x y z : Tensor α} {B n u : Nat} (hx : x.shape = [B, n, u]) (hy : y.rank = 1) (h : matmul x y = .ok z) :
    z.size 1 = n := by
  obtain ⟨v, hv⟩ := shape_rank1 hy
  obtain ⟨f, rfl⟩ : ∃ f, x = t3 B n u f := ⟨_, eq_t3 hx⟩
  obtain ⟨g, rfl⟩ : ∃ g, y = t1 v g := ⟨_, eq_t1 hv⟩
  obtain ⟨_, h⟩ := ok_check h
  obtain ⟨x', h1, h⟩ := ok_bind_inv h
  cases h1
  obtain ⟨y', h1, h⟩ := ok_bind_inv h
  cases h1
  obtain ⟨w, h1, h⟩ := ok_bind_inv h
  obtain ⟨_, h1⟩ := ok_check h1
  cases h1
  obtain ⟨w, h1, h⟩ := ok_bind_inv h
  cases h1
  cases h
  rfl

omit [StarRing α] in
theorem unflatten_two_rank {x y : Tensor α} {d : Int} {u : Nat} (h : unflatten x d [none, some u] = .ok y) : y.rank = x.rank + 1 := by
  obtain ⟨p, hp, h⟩ := ok_bind_inv h
  obtain ⟨ss, hss, h⟩ := ok_bind_inv h
  obtain ⟨rfl, _⟩ := resolve_two hss
  cases h
  have := wrapDim_lt hp
  simp only [rank, ofFn, List.length_append, List.length_cons, List.length_take, List.length_drop, List.length_nil] at this ⊢
  omega

theorem vecdot_size {x y z : Tensor α} {B n u : Nat} (hx : x.shape = [B, n, u]) (hy : y.rank ≤ 3) (hn : 2 ≤ n)
    (h : vecdot x y = .ok z) : z.size 1 = n := by
  obtain ⟨_, h⟩ := ok_check h
  cases hb : bshape x.shape y.shape with
  | none => rw [hb] at h; cases h
  | some s =>
    rw [hb] at h
    rw [hx] at hb
    obtain ⟨d, e, rfl⟩ := bshape_middle hb hy hn
    cases h
    rfl

omit [StarRing α] in
theorem cumprod_rank {x y : Tensor α} {d : Int} (h : cumprod x d = .ok y) : y.rank = x.rank := by
  obtain ⟨p, hp, h⟩ := ok_bind_inv h
  cases h
  rfl

end Tensor
end Torch

namespace Phil
open Torch Torch.Tensor
variable {α : Type} [CommRing α] [StarRing α]

/-- One level of `lti.linear_recurrence`, with the recursive call as a parameter. -/
def ltiLinearBody (unrollFactor : Int) (a init x : Tensor α) (r : Tensor α × Tensor α × Tensor α → Res (Tensor α)) :
    Res (Tensor α) := do
  check (x.rank = 2) "AssertionError: Input x must be 2D"
  check (a.rank = 0 ∨ a.rank = 1) "AssertionError: State matrix a must be 1D or 0D"
  check (¬ (a.rank = 1 ∧ a.size 0 > 1 ∧ a.size 0 ≠ x.size 0)) "ValueError: a batch size"
  let a ← (if a.rank = 0 then expand a [some 1] else pure a)
  let batchSize := x.size 0
  let N := x.size 1
  check (init.rank = 0 ∨ init.rank = 1) "AssertionError: init must be 1D or 0D"
  check (¬ (init.rank = 1 ∧ init.size 0 > 1 ∧ init.size 0 ≠ batchSize)) "ValueError: init batch size"
  let init ← (if init.rank = 0 then expand init [some 1] else pure init)
  check (¬ unrollFactor < 1) "ValueError: Unroll factor must be >= 1"
  let blockSize := unrollFactor.toNat
  if blockSize = 1 ∨ blockSize ≥ N then Lti.scalarRecursionLoop a init x
  else do
    let remainder := N % blockSize
    let x ← (if remainder ≠ 0 then padDim x 1 0 ((blockSize - remainder : Nat) : Int) 0 else pure x)
    let unrolledX ← unflatten x 1 [none, some blockSize]
    let aRep ← (if a.numel = 1 then expand a [some blockSize] else do
      let a' ← unsqueeze a 1
      expand a' [none, some blockSize])
    let aPowers ← cumprod aRep (-1)
    let aPowered ← select aPowers (-1) (-1)
    let aPI ← slice aPowers (-1) none (some (-1))
    let aPI ← flip aPI (-1)
    let aPI ← padDim aPI (-1) 0 ((1 : Nat) : Int) 1
    let z ← (if aPI.rank = 1 then matmul unrolledX aPI else do
      let aPI' ← unsqueeze aPI 1
      vecdot (conj unrolledX) aPI')
    let rec_ ← r (aPowered, init, z)
    let init1 ← unsqueeze init 1
    let init1 ← expand init1 [some batchSize, some 1]
    let initials ← cat2 init1 rec_ 1
    let ini ← slice initials 1 none (some (-1))
    let ini ← unsqueeze ini (-1)
    let ux ← slice unrolledX (-1) none (some (-1))
    let augX ← cat2 ini ux 2
    let augA ← padDim aPI (-1) 0 ((blockSize - 2 : Nat) : Int) 0
    let augA ← unfold augA (-1) blockSize
    let augA ← flip augA (-2)
    let augAT ← mT augA
    let output ← matmul augX augAT
    let fin ← slice initials 1 (some 1) none
    let fin ← unsqueeze fin (-1)
    let output ← cat2 output fin 2
    let output ← flatten output 1 2
    if remainder ≠ 0 then slice output 1 none (some (-((blockSize - remainder : Nat) : Int)))
    else pure output

theorem lti_linear_blocked (u : Int) : Blocked u.toNat (fun q : Tensor α × Tensor α × Tensor α => q.2.2.size 1)
    (fun k q => Lti.linearRecurrenceAux u k q.1 q.2.1 q.2.2) := by
  refine ⟨fun a => ⟨_, rfl⟩, ?_⟩
  rintro ⟨a, init, x⟩
  have e : ∀ k, Lti.linearRecurrenceAux u (k + 1) a init x =
      ltiLinearBody u a init x (fun q => Lti.linearRecurrenceAux u k q.1 q.2.1 q.2.2) := fun k => rfl
  dsimp only
  by_cases hu : u < 1
  · refine Or.inl ⟨?_, ltiLinearBody u a init x (fun _ => .error ""), fun k => ?_⟩
    · rw [Nat.clog_of_left_le_one (by omega)]; exact Nat.zero_le _
    · rw [e]
      unfold ltiLinearBody
      simp only [check_false (not_not.2 hu), error_bind]
  by_cases hb : u.toNat = 1 ∨ u.toNat ≥ x.size 1
  · refine Or.inl ⟨clog_le_one hb, ltiLinearBody u a init x (fun _ => .error ""), fun k => ?_⟩
    rw [e]
    unfold ltiLinearBody
    simp only [if_pos hb]
  · refine Or.inr ⟨by omega, by omega, ltiLinearBody u a init x, ?_, e⟩
    unfold ltiLinearBody
    refine once_check fun h1 => once_check fun h2 => once_check fun h3 => once_bind fun a ha => ?_
    refine once_check fun h4 => once_check fun h5 => once_bind fun init hi => once_check fun h6 => ?_
    simp only [if_neg hb]
    refine once_bind fun xp hxp => once_bind fun ux hux => once_bind fun aRep hRep => once_bind fun aP haP => once_bind fun aL haL =>
      once_bind fun w1 hw1 => once_bind fun w2 hw2 => once_bind fun w3 hw3 => once_bind fun z hz => once_call ?_ _
    obtain ⟨B, N, hs⟩ := shape_rank2 h1
    have hN : x.size 1 = N := by simp [size, hs]
    rw [hN] at hb hxp ⊢
    have hux := split_shape hs (by omega) hxp hux
    dsimp only
    split_ifs at hz with hr
    · exact matmul_vec_size hux hr hz
    · obtain ⟨w4, hw4, hz⟩ := ok_bind_inv hz
      have hr2 : aRep.rank ≤ 2 := by
        split_ifs at hRep with hn
        · rw [expand_rank hRep]; simp
        · obtain ⟨_, _, hRep⟩ := ok_bind_inv hRep
          rw [expand_rank hRep]; simp
      refine vecdot_size (x := conj ux) hux ?_ ?_ hz
      · rw [unsqueeze_rank hw4, padDim_rank hw3, flip_rank hw2, slice_rank hw1, cumprod_rank haP]
        omega
      · rw [Nat.le_div_iff_mul_le (by omega)]
        omega

/-- One level of `lpv.linear_recurrence`, with the recursive call as a parameter. -/
def lpvLinearBody (unrollFactor : Int) (a init x : Tensor α) (r : Tensor α × Tensor α × Tensor α → Res (Tensor α)) :
    Res (Tensor α) := do
  check (x.rank = 2) "AssertionError: Input x must be 2D"
  check (a.rank = 1 ∨ a.rank = 2) "AssertionError: State matrix a must be 1D or 2D"
  check (¬ (a.rank = 1 ∧ a.size 0 ≠ x.size 1)) "ValueError: a must have the same length as x"
  let batchSize := x.size 0
  let N := x.size 1
  check (init.rank = 0 ∨ init.rank = 1) "AssertionError: init must be 1D or 0D"
  check (¬ (init.rank = 1 ∧ init.size 0 > 1 ∧ init.size 0 ≠ batchSize)) "ValueError: init batch size"
  let init ← (if init.rank = 0 then expand init [some 1] else pure init)
  check (¬ unrollFactor < 1) "ValueError: Unroll factor must be >= 1"
  let blockSize := unrollFactor.toNat
  if blockSize = 1 ∨ blockSize ≥ N then Lpv.scalarRecursionLoop a init x
  else do
    let remainder := N % blockSize
    let x ← (if remainder ≠ 0 then padDim x (-1) 0 ((blockSize - remainder : Nat) : Int) 0 else pure x)
    let a ← (if remainder ≠ 0 then padDim a (-1) 0 ((blockSize - remainder : Nat) : Int) 0 else pure a)
    let unrolledX ← unflatten x 1 [none, some blockSize]
    let unrolledA ← unflatten a (-1) [none, some blockSize]
    let ap ← slice unrolledA (-1) (some 1) none
    let ap ← flip ap (-1)
    let ap ← cumprod ap (-1)
    let aPowers ← flip ap (-1)
    let p0 ← select aPowers (-1) 0
    let a0 ← select unrolledA (-1) 0
    let aPowered ← mul p0 a0
    let aPI ← padDim aPowers (-1) 0 ((1 : Nat) : Int) 1
    let z ← vecdot (conj unrolledX) aPI
    let rec_ ← r (aPowered, init, z)
    let init1 ← unsqueeze init 1
    let init1 ← expand init1 [some batchSize, some 1]
    let initials ← cat2 init1 rec_ 1
    let ua ← slice unrolledA (-1) none (some (-1))
    let ini ← slice initials 1 none (some (-1))
    let ux ← slice unrolledX (-1) none (some (-1))
    let output ← Lpv.scalarRecursionLoop ua ini ux
    let fin ← slice initials 1 (some 1) none
    let fin ← unsqueeze fin (-1)
    let output ← cat2 output fin 2
    let output ← flatten output 1 2
    if remainder ≠ 0 then slice output 1 none (some (-((blockSize - remainder : Nat) : Int)))
    else pure output

theorem lpv_linear_blocked (u : Int) : Blocked u.toNat (fun q : Tensor α × Tensor α × Tensor α => q.2.2.size 1)
    (fun k q => Lpv.linearRecurrenceAux u k q.1 q.2.1 q.2.2) := by
  refine ⟨fun a => ⟨_, rfl⟩, ?_⟩
  rintro ⟨a, init, x⟩
  have e : ∀ k, Lpv.linearRecurrenceAux u (k + 1) a init x =
      lpvLinearBody u a init x (fun q => Lpv.linearRecurrenceAux u k q.1 q.2.1 q.2.2) := fun k => rfl
  dsimp only
  by_cases hu : u < 1
  · refine Or.inl ⟨?_, lpvLinearBody u a init x (fun _ => .error ""), fun k => ?_⟩
    · rw [Nat.clog_of_left_le_one (by omega)]; exact Nat.zero_le _
    · rw [e]
      unfold lpvLinearBody
      simp only [check_false (not_not.2 hu), error_bind]
  by_cases hb : u.toNat = 1 ∨ u.toNat ≥ x.size 1
  · refine Or.inl ⟨clog_le_one hb, lpvLinearBody u a init x (fun _ => .error ""), fun k => ?_⟩
    rw [e]
    unfold lpvLinearBody
    simp only [if_pos hb]
  · refine Or.inr ⟨by omega, by omega, lpvLinearBody u a init x, ?_, e⟩
    unfold lpvLinearBody
    refine once_check fun h1 => once_check fun h2 => once_check fun h3 => once_check fun h4 => once_check fun h5 =>
      once_bind fun init hi => once_check fun h6 => ?_
    simp only [if_neg hb]
    refine once_bind fun xp hxp => once_bind fun ap hap => once_bind fun ux hux => once_bind fun ua hua => once_bind fun w1 hw1 =>
      once_bind fun w2 hw2 => once_bind fun w3 hw3 => once_bind fun w4 hw4 => once_bind fun p0 _ => once_bind fun a0 _ =>
      once_bind fun aL _ => once_bind fun w5 hw5 => once_bind fun z hz => once_call ?_ _
    obtain ⟨B, N, hs⟩ := shape_rank2 h1
    have hN : x.size 1 = N := by simp [size, hs]
    rw [hN] at hb hxp hap ⊢
    have hux := split_shape (v := (0 : α)) hs (by omega) (by
      rw [← hxp]
      have : x.rank = 2 := h1
      unfold padDim
      rw [this]
      rfl) hux
    refine vecdot_size (x := conj ux) hux ?_ ?_ hz
    · rw [padDim_rank hw5, flip_rank hw4, cumprod_rank hw3, flip_rank hw2, slice_rank hw1, unflatten_two_rank hua]
      have : ap.rank = a.rank := by
        split_ifs at hap
        · exact padDim_rank hap
        · cases hap; rfl
      omega
    · rw [Nat.le_div_iff_mul_le (by omega)]
      omega

end Phil
