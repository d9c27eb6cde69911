import Verif.Model.Fake
import Verif.Proof.HostBounds
import Verif.Spec.Ops

/-! # What the shape functions check -/

namespace Phil.Fake
open Torch Torch.Tensor Spec Omp Phil.Host

section
variable {α : Type} [Zero α]

theorem bind_inv {β γ : Type} {r : Res β} {f : β → Res γ} {v : γ} (h : r >>= f = .ok v) : ∃ w, r = .ok w ∧ f w = .ok v := by
  cases r with
  | ok w => exact ⟨w, rfl, h⟩
  | error e => cases h

theorem dim_inv {x : Tensor α} {k : Int} {n : Nat} (h : dim x k = .ok n) : x.size k = n := by
  unfold dim at h
  split at h
  · exact Except.ok.inj h
  · cases h

theorem shape_of_rank1 {x : Tensor α} (h : x.rank = 1) : x.shape = [x.size 0] := by
  obtain ⟨a, h⟩ := List.length_eq_one_iff.1 (show x.shape.length = 1 from h)
  simp [size, h]

theorem shape_of_rank2 {x : Tensor α} (h : x.rank = 2) : x.shape = [x.size 0, x.size 1] := by
  obtain ⟨a, b, h⟩ := List.length_eq_two.1 (show x.shape.length = 2 from h)
  simp [size, h]

theorem shape_of_rank3 {x : Tensor α} (h : x.rank = 3) : x.shape = [x.size 0, x.size 1, x.size 2] := by
  obtain ⟨a, b, c, h⟩ := List.length_eq_three.1 (show x.shape.length = 3 from h)
  simp [size, h]

theorem shape_of_rank4 {x : Tensor α} (h : x.rank = 4) : x.shape = [x.size 0, x.size 1, x.size 2, x.size 3] := by
  have hl : x.shape.length = 4 := h
  match hs : x.shape with
  | [a, b, c, d] => simp [size, hs]
  | [] | [_] | [_, _] | [_, _, _] | _ :: _ :: _ :: _ :: _ :: _ => rw [hs] at hl; simp at hl

theorem shape2_neg {x : Tensor α} (h : x.rank = 2) : x.shape = [x.size (-2), x.size (-1)] := by
  obtain ⟨a, b, h⟩ := List.length_eq_two.1 (show x.shape.length = 2 from h)
  simp [size, rank, h]

theorem shape3_neg {x : Tensor α} (h : x.rank = 3) : x.shape = [x.size (-3), x.size (-2), x.size (-1)] ∧ x.size (-3) = x.size 0 := by
  obtain ⟨a, b, c, h⟩ := List.length_eq_three.1 (show x.shape.length = 3 from h)
  simp [size, rank, h]

theorem shape4_neg {x : Tensor α} (h : x.rank = 4) : x.shape = [x.size 0, x.size (-3), x.size (-2), x.size (-1)] := by
  have h := shape_of_rank4 h
  generalize x.size 0 = a, x.size 1 = b, x.size 2 = c, x.size 3 = d at h
  simp [size, rank, h]

/-- What a call accepted by the checks looks like. -/
theorem matChecks_inv {A zi x : Tensor α} {lo m : Nat} {v : Bool} {w : Unit} (h : matChecks A zi x lo m v = .ok w) (hz : zi.rank = 2)
    (hx : x.rank = 3) :
    x.shape = [x.size 0, x.size 1, m] ∧ zi.shape = [x.size 0, m] ∧ (A.rank = lo ∨ A.rank = lo + 1) ∧ A.size (-1) = m ∧
      A.size (-2) = m ∧ (v = true → A.size (-3) = x.size 1) ∧ (A.rank = lo + 1 → A.size 0 = x.size 0) := by
  unfold matChecks at h
  obtain ⟨a1, e1, h⟩ := bind_inv h
  obtain ⟨a2, e2, h⟩ := bind_inv h
  obtain ⟨_, c1, h⟩ := bind_inv h
  obtain ⟨_, c2, h⟩ := bind_inv h
  obtain ⟨z1, e3, h⟩ := bind_inv h
  obtain ⟨_, c3, h⟩ := bind_inv h
  obtain ⟨x2, e4, h⟩ := bind_inv h
  obtain ⟨_, c4, h⟩ := bind_inv h
  obtain ⟨x1, e5, h⟩ := bind_inv h
  obtain ⟨_, c5, h⟩ := bind_inv h
  obtain ⟨x0, e6, h⟩ := bind_inv h
  obtain ⟨z0, e7, h⟩ := bind_inv h
  obtain ⟨_, c6, h⟩ := bind_inv h
  have c1 := of_check c1
  have c2 := of_check c2
  have c3 := of_check c3
  have c4 := of_check c4
  have c6 := of_check c6
  have e1 := dim_inv e1
  have e2 := dim_inv e2
  have e3 := dim_inv e3
  have e4 := dim_inv e4
  have e5 := dim_inv e5
  have e6 := dim_inv e6
  have e7 := dim_inv e7
  refine ⟨?_, ?_, c2, by omega, by omega, ?_, ?_⟩
  · rw [shape_of_rank3 hx, e4, c4]
  · rw [shape_of_rank2 hz, e3, e7, c3, e6, c6]
  · rintro rfl
    rw [if_pos rfl] at c5
    obtain ⟨a3, e8, c5⟩ := bind_inv c5
    rw [dim_inv e8, ← of_check c5, e5]
  · intro hr
    rw [if_pos hr] at h
    obtain ⟨a0, e8, h⟩ := bind_inv h
    rw [dim_inv e8, of_check h, e6]

theorem matChecks_ok {A zi x : Tensor α} {B N m : Nat} (hx : x.shape = [B, N, m]) (hz : zi.shape = [B, m]) :
    ((A.shape = [m, m] ∨ A.shape = [B, m, m]) → matChecks A zi x 2 m false = .ok ()) ∧
    ((A.shape = [N, m, m] ∨ A.shape = [B, N, m, m]) → matChecks A zi x 3 m true = .ok ()) := by
  constructor <;> rintro (hA | hA) <;> simp [matChecks, dim, check, rank, size, hx, hz, hA, pure, Except.pure, bind, Except.bind]

theorem dim_ok {x : Tensor α} {B N m : Nat} (hx : x.shape = [B, N, m]) : dim x 2 = .ok m := by
  simp [dim, rank, size, hx]

theorem tail_ok {x : Tensor α} {B N m : Nat} (hx : x.shape = [B, N, m]) : tail x = .ok x.shape := by
  unfold tail
  have h : (zeros [x.size 0, x.size 1 + 1, x.size 2] : Tensor α) = t3 B (N + 1) m fun _ _ _ => 0 := by
    simp only [size, hx]; rfl
  rw [h, slice_t3_1, ok_bind, hx]
  simp [shape_t3, pyStart, pyStop, pyBound, pure, Except.pure]

end

variable {α : Type} [CommRing α]

/-- The time-invariant layouts. -/
theorem matVals_of_shape {A : Tensor α} {B m : Nat} (h : A.shape = [m, m] ∨ A.shape = [B, m, m]) : ∃ a, MatVals B m m A a := by
  rcases h with h | h
  · rw [eq_t2 h]; exact ⟨_, .shared _⟩
  · rw [eq_t3 h]; exact ⟨_, .batched _⟩

/-- The time-varying layouts. -/
theorem matSeq_of_shape {A : Tensor α} {B N m : Nat} (h : A.shape = [N, m, m] ∨ A.shape = [B, N, m, m]) : ∃ a, MatSeq B N m m A a := by
  rcases h with h | h
  · rw [eq_t3 h]; exact ⟨_, .shared _⟩
  · rw [eq_t4 h]; exact ⟨_, .batched _⟩

theorem batchVals_of_shape {A : Tensor α} {B : Nat} (h : A.shape = [] ∨ A.shape = [1] ∨ A.shape = [B]) : ∃ a, BatchVals B A a := by
  rcases h with h | h | h
  · rw [show A = t0 (A.get []) from ext0 h rfl (by rw [get_t0])]; exact ⟨_, .scalar _⟩
  · rw [eq_t1 h]; exact ⟨_, .single _⟩
  · rw [eq_t1 h]; exact ⟨_, .full _⟩

theorem matrixOp_shape {op : Op α} {A zi x : Tensor α} {B N m : Nat} (hop : IsMatrixOp m op)
    (hA : A.shape = [m, m] ∨ A.shape = [B, m, m]) (hz : zi.shape = [B, m]) (hx : x.shape = [B, N, m]) :
    ∃ y, op A zi x = .ok y ∧ y.shape = x.shape := by
  obtain ⟨a, hA⟩ := matVals_of_shape hA
  have e := hop B N A a (fun i j => zi.get [i, j]) (fun i j k => x.get [i, j, k]) hA
  rw [← eq_t2 hz, ← eq_t3 hx] at e
  exact ⟨_, e, by rw [hx]; rfl⟩

theorem varyingOp_shape {op : Op α} {A zi x : Tensor α} {B N m : Nat} (hop : IsVaryingOp m op)
    (hA : A.shape = [N, m, m] ∨ A.shape = [B, N, m, m]) (hz : zi.shape = [B, m]) (hx : x.shape = [B, N, m]) :
    ∃ y, op A zi x = .ok y ∧ y.shape = x.shape := by
  obtain ⟨a, hA⟩ := matSeq_of_shape hA
  have e := hop B N A a (fun i j => zi.get [i, j]) (fun i j k => x.get [i, j, k]) hA
  rw [← eq_t2 hz, ← eq_t3 hx] at e
  exact ⟨_, e, by rw [hx]; rfl⟩

theorem scalarOp_shape {op : Op α} {A zi x : Tensor α} {B N : Nat} (hop : IsScalarOp op)
    (hA : A.shape = [] ∨ A.shape = [1] ∨ A.shape = [B]) (hz : zi.shape = [B]) (hx : x.shape = [B, N]) :
    ∃ y, op A zi x = .ok y ∧ y.shape = x.shape := by
  obtain ⟨a, hA⟩ := batchVals_of_shape hA
  have e := hop B N A a (fun i => zi.get [i]) (fun i j => x.get [i, j]) hA
  rw [← eq_t1 hz, ← eq_t2 hx] at e
  exact ⟨_, e, by rw [hx]; rfl⟩

/-- The layouts of `A` that pass the checks. -/
theorem lti_layout {A : Tensor α} {B m : Nat} (h1 : A.rank = 2 ∨ A.rank = 2 + 1) (h2 : A.size (-1) = m) (h3 : A.size (-2) = m)
    (h4 : A.rank = 2 + 1 → A.size 0 = B) : A.shape = [m, m] ∨ A.shape = [B, m, m] := by
  rcases h1 with h | h
  · left; rw [shape2_neg h, h2, h3]
  · right; rw [(shape3_neg h).1, (shape3_neg h).2, h2, h3, h4 h]

theorem lpv_layout {A : Tensor α} {B N m : Nat} (h1 : A.rank = 3 ∨ A.rank = 3 + 1) (h2 : A.size (-1) = m) (h3 : A.size (-2) = m)
    (h5 : A.size (-3) = N) (h4 : A.rank = 3 + 1 → A.size 0 = B) : A.shape = [N, m, m] ∨ A.shape = [B, N, m, m] := by
  rcases h1 with h | h
  · left; rw [(shape3_neg h).1, h5, h2, h3]
  · right; rw [shape4_neg h, h2, h3, h5, h4 h]

/-- The shape of the initial state of a call that gets past the concatenation. -/
theorem state_shape3 {zi x z1 out : Tensor α} (hx : x.rank = 3) (hz : unsqueeze zi 1 = .ok z1) (hc : cat2 z1 x 1 = .ok out) :
    zi.shape = [x.size 0, x.size 2] := by
  rw [← (cat_state_shape hz hc).2.2, shape_of_rank3 hx]; rfl


/-- `lti_recur`: the checks of the op imply those of the shape function. -/
theorem ltiRecur_accepts {op : Op α} (hop : IsScalarOp op) {A zi x y z1 out : Tensor α} (hy : op A zi x = .ok y) (h1 : A.rank ≤ 1)
    (h2 : zi.rank = 1) (hz : unsqueeze zi 1 = .ok z1) (hc : cat2 z1 x 1 = .ok out) (hn : A.numel = x.size 0 ∨ A.numel = 1) :
    ltiRecur A zi x = .ok y.shape := by
  obtain ⟨r1, -, r3⟩ := cat_state_shape hz hc
  have hxs := shape_of_rank2 (show x.rank = 2 by omega)
  have hzs : zi.shape = [x.size 0] := by rw [← r3, hxs]; rfl
  have hA : A.shape = [] ∨ A.shape = [1] ∨ A.shape = [x.size 0] := by
    rcases Nat.lt_or_ge A.rank 1 with h | h
    · exact Or.inl (List.length_eq_zero_iff.1 (show A.shape.length = 0 by have : A.rank = A.shape.length := rfl; omega))
    · have e := shape_of_rank1 (show A.rank = 1 by omega)
      have hn' : A.numel = A.size 0 := by rw [numel, e]; simp
      rw [hn'] at hn
      rcases hn with h | h
      · exact Or.inr (Or.inr (by rw [e, h]))
      · exact Or.inr (Or.inl (by rw [e, h]))
  obtain ⟨y', e, hs⟩ := scalarOp_shape hop hA hzs hxs
  obtain rfl := Except.ok.inj (hy.symm.trans e)
  rw [hs]
  generalize x.size 0 = B, x.size 1 = N at *
  rcases hA with hA | hA | hA <;>
    simp [ltiRecur, dim, check, rank, size, hxs, hzs, hA, pure, Except.pure, bind, Except.bind]

end Phil.Fake
