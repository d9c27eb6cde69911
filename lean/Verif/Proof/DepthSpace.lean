import Verif.Proof.DepthLinear
import Verif.Proof.AcceptSpace

/-!
# Depth of `state_space_recursion`
-/

namespace Torch.Tensor
variable {α : Type} [CommRing α]

theorem matmulCore_shape {x y z : Tensor α} (h : matmulCore x y = .ok z) :
    ∃ bs, bshape (x.shape.take (x.rank - 2)) (y.shape.take (y.rank - 2)) = some bs ∧ z.shape = bs ++ [x.size (-2), y.size (-1)] := by
  obtain ⟨_, h⟩ := ok_check h
  cases hb : bshape (x.shape.take (x.rank - 2)) (y.shape.take (y.rank - 2)) with
  | none => rw [hb] at h; cases h
  | some s => rw [hb] at h; cases h; exact ⟨s, rfl, rfl⟩

theorem matmul_big {x y z : Tensor α} (hx : 2 ≤ x.rank) (hy : 2 ≤ y.rank) (h : matmul x y = .ok z) : matmulCore x y = .ok z := by
  obtain ⟨_, h⟩ := ok_check h
  rw [if_neg (by omega), if_neg (by omega)] at h
  obtain ⟨x', h1, h⟩ := ok_bind_inv h
  cases h1
  obtain ⟨y', h1, h⟩ := ok_bind_inv h
  cases h1
  obtain ⟨w, h1, h⟩ := ok_bind_inv h
  rw [if_neg (by omega)] at h
  obtain ⟨w', h2, h⟩ := ok_bind_inv h
  cases h2
  rw [if_neg (by omega)] at h
  cases h
  exact h1

theorem matmul3_size {x y z : Tensor α} {B n v : Nat} (hx : x.shape = [B, n, v]) (hy : y.rank = 2 ∨ y.rank = 3)
    (h : matmul x y = .ok z) : z.size 1 = n := by
  have hr : x.rank = 3 := by rw [rank, hx]; rfl
  obtain ⟨bs, hb, hz⟩ := matmulCore_shape (matmul_big (by omega) (by omega) h)
  rw [hr, hx] at hb
  obtain ⟨d, rfl⟩ := bshape_one hb (by rw [List.length_take]; omega)
  have h2 : x.size (-2) = n := by simp [size, hr, hx]
  rw [h2] at hz
  simp [size, hz]

theorem matmul4_size {x y z : Tensor α} {B n v w : Nat} (hx : x.shape = [B, n, v, w]) (hy : 2 ≤ y.rank ∧ y.rank ≤ 4) (hn : 2 ≤ n)
    (h : matmul x y = .ok z) : ∃ d e, z.shape = [d, n, v, e] := by
  have hr : x.rank = 4 := by rw [rank, hx]; rfl
  obtain ⟨bs, hb, hz⟩ := matmulCore_shape (matmul_big (by omega) (by omega) h)
  rw [hr, hx] at hb
  obtain ⟨d, rfl⟩ := bshape_last hb (by rw [List.length_take]; omega) hn
  have h2 : x.size (-2) = v := by simp [size, hr, hx]
  exact ⟨d, y.size (-1), by rw [hz, h2]; rfl⟩

end Torch.Tensor

namespace Phil
open Torch Torch.Tensor
variable {α : Type} [CommRing α]

theorem flatten_from2 {x y : Tensor α} {B n u : Nat} {s : List Nat} (hx : x.shape = B :: n :: u :: s) (h : flatten x 2 (-1) = .ok y) :
    ∃ v, y.shape = [B, n, v] := by
  obtain ⟨p, hp, h⟩ := ok_bind_inv h
  obtain ⟨q, hq, h⟩ := ok_bind_inv h
  obtain ⟨_, h⟩ := ok_check h
  cases h
  have h1 := wrapDim_ok hp
  have h2 := wrapDim_ok hq
  have h3 : x.rank = s.length + 3 := by rw [rank, hx]; rfl
  rw [if_neg (by decide)] at h1
  rw [if_pos (by decide)] at h2
  have h4 : p = 2 := by omega
  have h5 : q = s.length + 2 := by omega
  subst h4 h5
  exact ⟨(u :: s).prod, by simp [ofFn, hx]⟩

theorem ltiMat1_rank {A powers p1 mat1 : Tensor α} {M xdim : Nat} (h1 : Lti.ssrPowersPlusI A powers M = .ok p1)
    (h2 : Lti.ssrMat1 p1 xdim = .ok mat1) : mat1.rank = A.rank := by
  obtain ⟨p, _, h1⟩ := ok_bind_inv h1
  obtain ⟨p, _, h1⟩ := ok_bind_inv h1
  obtain ⟨e, he, h1⟩ := ok_bind_inv h1
  obtain ⟨e', he', h1⟩ := ok_bind_inv h1
  have hr := cat2_rank h1
  have h3 := unsqueeze_rank he'
  have h4 := expand_rank he
  rw [List.length_map] at h4
  have h5 : p1.rank = A.rank + 1 := by rw [hr.1, hr.2, h3, h4, rank]
  unfold Lti.ssrMat1 at h2
  split_ifs at h2
  · obtain ⟨q, hq, h2⟩ := ok_bind_inv h2
    have h6 := transpose_rank hq
    have h7 := flatten_pair_rank (d := -3) h2 (by decide)
    omega
  · have := select_rank h2
    omega

theorem lti_ssrBlocked_once {A zi x : Tensor α} {u M : Nat} {out : Option Int} (hx : x.rank = 2 ∨ x.rank = 3)
    (hA : A.rank = 2 ∨ A.rank = 3) (hu : 1 < u) :
    Once (fun q : Tensor α × Tensor α × Tensor α × Option Int => q.2.2.1.size 1 = (x.size 1 + u - 1) / u)
      (fun r => Lti.ssrBlocked (fun A zi x => r (A, zi, x, none)) A zi x u (x.size 1) M out) := by
  unfold Lti.ssrBlocked
  refine once_bind fun xp hxp => once_bind fun ux hux => once_bind fun uf huf => once_bind fun pw _ => once_bind fun pl _ =>
    once_bind fun p1 hp1 => once_bind fun m1 hm1 => once_bind fun z hz => once_bind fun z1 _ => once_call ?_ _
  have hr := ltiMat1_rank hp1 hm1
  dsimp only
  obtain ⟨B, N, s, hs⟩ : ∃ B N s, x.shape = B :: N :: s := by
    rcases hx with hx | hx
    · obtain ⟨B, N, hs⟩ := shape_rank2 hx; exact ⟨B, N, [], hs⟩
    · obtain ⟨B, N, F, hs⟩ := shape_rank3 hx; exact ⟨B, N, [F], hs⟩
  have hN : x.size 1 = N := by simp [size, hs]
  rw [hN] at hxp ⊢
  have hux := split_shape hs hu hxp hux
  obtain ⟨v, huf⟩ := flatten_from2 hux huf
  exact matmul3_size huf (by omega) hz

/-- One level of `lti.state_space_recursion`, with the recursive call as a parameter. -/
def ltiSpaceBody (base : Tensor α → Tensor α → Tensor α → Option Int → Res (Tensor α)) (u : Int) (A zi x : Tensor α) (out : Option Int)
    (r : Tensor α × Tensor α × Tensor α × Option Int → Res (Tensor α)) : Res (Tensor α) := do
  check (x.rank = 2 ∨ x.rank = 3) "AssertionError: Input signal must be 2D or 3D (batch, time, [features])"
  check (A.rank = 2 ∨ A.rank = 3) "AssertionError: State matrix A must be 2D or 3D"
  check (A.size (-2) = A.size (-1)) "AssertionError: State matrix A must be square"
  check (A.rank = 3 → x.size 0 = A.size 0) "AssertionError: Batch size of A must match batch size of x"
  check (x.rank = 3 → A.size (-1) = x.size (-1)) "AssertionError: Last dimension of A must match last dimension of x"
  check (zi.rank = 2) "AssertionError: Initial conditions zi must be 2D"
  check (zi.size 0 = x.size 0) "AssertionError: Batch size of zi must match batch size of x"
  check (zi.size 1 = A.size (-1)) "AssertionError: Last dimension of zi must match last dimension of A"
  check (¬ u < 1) "ValueError: Unroll factor must be >= 1"
  if u.toNat = 1 ∨ u.toNat ≥ x.size 1 then
    base A zi x out
  else
    Lti.ssrBlocked (fun A zi x => r (A, zi, x, none)) A zi x u.toNat (x.size 1) (A.size (-1)) out

theorem lti_space_blocked (base : Tensor α → Tensor α → Tensor α → Option Int → Res (Tensor α)) (u : Int) :
    Blocked u.toNat (fun q : Tensor α × Tensor α × Tensor α × Option Int => q.2.2.1.size 1)
      (fun k q => Lti.stateSpaceRecursionAux base u k q.1 q.2.1 q.2.2.1 q.2.2.2) := by
  refine ⟨fun a => ⟨_, rfl⟩, ?_⟩
  rintro ⟨A, zi, x, out⟩
  have e : ∀ k, Lti.stateSpaceRecursionAux base u (k + 1) A zi x out =
      ltiSpaceBody base u A zi x out (fun q => Lti.stateSpaceRecursionAux base u k q.1 q.2.1 q.2.2.1 q.2.2.2) := fun k => rfl
  dsimp only
  by_cases hu : u < 1
  · refine Or.inl ⟨?_, ltiSpaceBody base u A zi x out (fun _ => .error ""), fun k => ?_⟩
    · rw [Nat.clog_of_left_le_one (by omega)]; exact Nat.zero_le _
    · rw [e]
      unfold ltiSpaceBody
      simp only [check_false (not_not.2 hu), error_bind]
  by_cases hb : u.toNat = 1 ∨ u.toNat ≥ x.size 1
  · refine Or.inl ⟨clog_le_one hb, ltiSpaceBody base u A zi x out (fun _ => .error ""), fun k => ?_⟩
    rw [e]
    unfold ltiSpaceBody
    simp only [if_pos hb]
  · refine Or.inr ⟨by omega, by omega, ltiSpaceBody base u A zi x out, ?_, e⟩
    unfold ltiSpaceBody
    refine once_check fun h1 => once_check fun h2 => once_check fun _ => once_check fun _ => once_check fun _ =>
      once_check fun _ => once_check fun _ => once_check fun _ => once_check fun _ => ?_
    simp only [if_neg hb]
    exact lti_ssrBlocked_once h1 h2 (by omega)

theorem stack_rank {x y : Tensor α} {xs : List (Tensor α)} {d : Int} (h : stack (x :: xs) d = .ok y) : y.rank = x.rank + 1 := by
  obtain ⟨p, hp, h⟩ := ok_bind_inv h
  obtain ⟨_, h⟩ := ok_check h
  cases h
  have := wrapDim_lt hp
  rw [rank] at this
  show (x.shape.insertIdx p (xs.length + 1)).length = x.shape.length + 1
  rw [List.length_insertIdx, if_pos (by omega)]

theorem unbind_rank {x : Tensor α} {xs : List (Tensor α)} {d : Int} (h : unbind x d = .ok xs) : ∀ y ∈ xs, y.rank + 1 = x.rank := by
  obtain ⟨p, hp, h⟩ := ok_bind_inv h
  cases h
  intro y hy
  obtain ⟨j, _, rfl⟩ := List.mem_map.1 hy
  have := wrapDim_lt hp
  rw [rank] at this
  show (x.shape.eraseIdx p).length + 1 = x.shape.length
  rw [List.length_eraseIdx, if_pos this]
  omega

theorem cumdotRunner_rank {k l : Nat} {A r : Tensor α} (h : Mat.matCumdotRunner k A l = .ok r) : r.rank = A.rank := by
  cases k with
  | zero => cases h
  | succ k =>
    rw [Mat.matCumdotRunner] at h
    obtain ⟨as, has, h⟩ := ok_bind_inv h
    obtain ⟨ps, hps, h⟩ := ok_bind_inv h
    obtain ⟨ac, hac, h⟩ := ok_bind_inv h
    have hr : ac.rank = A.rank := by
      cases as with
      | nil => cases hps; cases hac
      | cons a as =>
        obtain ⟨rs, _, hps⟩ := ok_bind_inv hps
        cases hps
        rw [stack_rank hac]
        exact unbind_rank has a (by simp)
    split_ifs at h with hc
    · cases h; exact hr
    · obtain ⟨_, _, h⟩ := ok_bind_inv h
      obtain ⟨_, _, h⟩ := ok_bind_inv h
      obtain ⟨_, _, h⟩ := ok_bind_inv h
      obtain ⟨_, _, h⟩ := ok_bind_inv h
      obtain ⟨_, _, h⟩ := ok_bind_inv h
      obtain ⟨_, _, h⟩ := ok_bind_inv h
      obtain ⟨_, _, h⟩ := ok_bind_inv h
      obtain ⟨a0, ha0, h⟩ := ok_bind_inv h
      obtain ⟨_, _, h⟩ := ok_bind_inv h
      obtain ⟨_, _, h⟩ := ok_bind_inv h
      obtain ⟨_, _, h⟩ := ok_bind_inv h
      rw [(cat2_rank h).1, slice_rank ha0, hr]

theorem cumdot_rank {A r : Tensor α} (h : Mat.matricesCumdot A = .ok r) : r.rank = A.rank := by
  unfold Mat.matricesCumdot Mat.matricesCumdotWith at h
  obtain ⟨h3, h⟩ := ok_check h
  obtain ⟨_, h⟩ := ok_check h
  split_ifs at h with hc
  · cases h; rfl
  · obtain ⟨ua, _, h⟩ := ok_bind_inv h
    obtain ⟨w, hw, h⟩ := ok_bind_inv h
    obtain ⟨p, hp, h⟩ := ok_bind_inv h
    obtain ⟨q, hq, h⟩ := ok_bind_inv h
    obtain ⟨hpq, h⟩ := ok_check h
    cases h
    have h1 := wrapDim_ok hp
    have h2 := wrapDim_ok hq
    have h4 := wrapDim_lt hq
    rw [if_neg (by omega)] at h1
    rw [if_pos (by decide)] at h2
    simp only [rank, ofFn, List.length_append, List.length_cons, List.length_take, List.length_drop] at h1 h2 h3 h4 ⊢
    omega

theorem lpvMat1_rank {uA cums cI mat1 : Tensor α} {M xdim : Nat} (h0 : Lpv.ssrCums uA = .ok cums)
    (h1 : Lpv.ssrCumsPlusI cums M = .ok cI) (h2 : Lpv.ssrMat1 cI xdim = .ok mat1) : mat1.rank + 1 = uA.rank := by
  obtain ⟨w1, hw1, h0⟩ := ok_bind_inv h0
  obtain ⟨w2, hw2, h0⟩ := ok_bind_inv h0
  obtain ⟨w3, hw3, h0⟩ := ok_bind_inv h0
  have hc : cums.rank = uA.rank := by rw [flip_rank h0, cumdot_rank hw3, flip_rank hw2, slice_rank hw1]
  obtain ⟨e, _, h1⟩ := ok_bind_inv h1
  have hI := (cat2_rank h1).1
  unfold Lpv.ssrMat1 at h2
  split_ifs at h2
  · obtain ⟨q, hq, h2⟩ := ok_bind_inv h2
    have h6 := transpose_rank hq
    have h7 := flatten_pair_rank (d := -3) h2 (by decide)
    omega
  · have := select_rank h2
    omega

theorem lpv_ssrBlocked_once {looper : Tensor α → Tensor α → Tensor α → Option Int → Res (Tensor α)} {A zi x : Tensor α} {u M : Nat}
    {out : Option Int} (hx : x.rank = 2 ∨ x.rank = 3) (hA : A.rank = 3 ∨ A.rank = 4) (hu : 1 < u) (huN : u < x.size 1) :
    Once (fun q : Tensor α × Tensor α × Tensor α × Option Int => q.2.2.1.size 1 = (x.size 1 + u - 1) / u)
      (fun r => Lpv.ssrBlocked looper (fun A zi x => r (A, zi, x, none)) A zi x u (x.size 1) M out) := by
  unfold Lpv.ssrBlocked
  refine once_bind fun xp hxp => once_bind fun Ap hAp => once_bind fun ux hux => once_bind fun uf huf => once_bind fun uA huA =>
    once_bind fun cums hcums => once_bind fun last _ => once_bind fun cI hcI => once_bind fun m1 hm1 => once_bind fun ux1 hux1 =>
    once_bind fun z hz => once_bind fun z' hz' => once_bind fun z1 _ => once_call ?_ _
  have hr := lpvMat1_rank hcums hcI hm1
  have hr2 := unflatten_two_rank huA
  have hr3 : Ap.rank = A.rank := by
    split_ifs at hAp
    · exact padDim_rank hAp
    · cases hAp; rfl
  dsimp only
  obtain ⟨B, N, s, hs⟩ : ∃ B N s, x.shape = B :: N :: s := by
    rcases hx with hx | hx
    · obtain ⟨B, N, hs⟩ := shape_rank2 hx; exact ⟨B, N, [], hs⟩
    · obtain ⟨B, N, F, hs⟩ := shape_rank3 hx; exact ⟨B, N, [F], hs⟩
  have hN : x.size 1 = N := by simp [size, hs]
  rw [hN] at hxp huN ⊢
  have hux := split_shape hs hu hxp hux
  obtain ⟨v, huf⟩ := flatten_from2 hux huf
  have hux1 : ux1.shape = [B, (N + u - 1) / u, 1, v] := by
    obtain ⟨f, rfl⟩ : ∃ f, uf = t3 B ((N + u - 1) / u) v f := ⟨_, eq_t3 huf⟩
    cases hux1
    rfl
  obtain ⟨d, e, hz⟩ := matmul4_size hux1 (by omega) (by rw [Nat.le_div_iff_mul_le (by omega)]; omega) hz
  obtain ⟨f, rfl⟩ : ∃ f, z = t4 d ((N + u - 1) / u) 1 e f := ⟨_, eq_t4 hz⟩
  cases hz'
  rfl

/-- One level of `lpv.state_space_recursion`, with the recursive call as a parameter. -/
def lpvSpaceBody (looper : Tensor α → Tensor α → Tensor α → Option Int → Res (Tensor α)) (u : Int) (A zi x : Tensor α)
    (out : Option Int) (r : Tensor α × Tensor α × Tensor α × Option Int → Res (Tensor α)) : Res (Tensor α) := do
  check (x.rank = 2 ∨ x.rank = 3) "AssertionError: Input signal must be 2D or 3D (batch, time, [features])"
  check (A.rank = 3 ∨ A.rank = 4) "AssertionError: State matrix A must be 3D or 4D"
  check (A.size (-2) = A.size (-1)) "AssertionError: State matrix A must be square"
  check (A.size (-3) = x.size 1) "AssertionError: State matrix A must have the same time dimension as x"
  check (A.rank = 4 → x.size 0 = A.size 0) "AssertionError: Batch size of A must match batch size of x"
  check (x.rank = 3 → A.size (-1) = x.size (-1)) "AssertionError: Last dimension of A must match last dimension of x"
  check (zi.rank = 2) "AssertionError: Initial conditions zi must be 2D"
  check (zi.size 0 = x.size 0) "AssertionError: Batch size of zi must match batch size of x"
  check (zi.size 1 = A.size (-1)) "AssertionError: Last dimension of zi must match last dimension of A"
  check (¬ u < 1) "ValueError: Unroll factor must be >= 1"
  if u.toNat = 1 ∨ u.toNat ≥ x.size 1 then
    looper A zi x out
  else
    Lpv.ssrBlocked looper (fun A zi x => r (A, zi, x, none)) A zi x u.toNat (x.size 1) (A.size (-1)) out

theorem lpv_space_blocked (looper : Tensor α → Tensor α → Tensor α → Option Int → Res (Tensor α)) (u : Int) :
    Blocked u.toNat (fun q : Tensor α × Tensor α × Tensor α × Option Int => q.2.2.1.size 1)
      (fun k q => Lpv.stateSpaceRecursionAux looper u k q.1 q.2.1 q.2.2.1 q.2.2.2) := by
  refine ⟨fun a => ⟨_, rfl⟩, ?_⟩
  rintro ⟨A, zi, x, out⟩
  have e : ∀ k, Lpv.stateSpaceRecursionAux looper u (k + 1) A zi x out =
      lpvSpaceBody looper u A zi x out (fun q => Lpv.stateSpaceRecursionAux looper u k q.1 q.2.1 q.2.2.1 q.2.2.2) := fun k => rfl
  dsimp only
  by_cases hu : u < 1
  · refine Or.inl ⟨?_, lpvSpaceBody looper u A zi x out (fun _ => .error ""), fun k => ?_⟩
    · rw [Nat.clog_of_left_le_one (by omega)]; exact Nat.zero_le _
    · rw [e]
      unfold lpvSpaceBody
      simp only [check_false (not_not.2 hu), error_bind]
  by_cases hb : u.toNat = 1 ∨ u.toNat ≥ x.size 1
  · refine Or.inl ⟨clog_le_one hb, lpvSpaceBody looper u A zi x out (fun _ => .error ""), fun k => ?_⟩
    rw [e]
    unfold lpvSpaceBody
    simp only [if_pos hb]
  · refine Or.inr ⟨by omega, by omega, lpvSpaceBody looper u A zi x out, ?_, e⟩
    unfold lpvSpaceBody
    refine once_check fun h1 => once_check fun h2 => once_check fun _ => once_check fun _ => once_check fun _ => once_check fun _ =>
      once_check fun _ => once_check fun _ => once_check fun _ => once_check fun _ => ?_
    simp only [if_neg hb]
    exact lpv_ssrBlocked_once h1 h2 (by omega) (by omega)

end Phil
