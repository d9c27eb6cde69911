import Verif.Torch.Stack
import Verif.Proof.Mat

/-!
# `matrices_cumdot` for every length and any number of leading axes

`cumVal` is what `_mat_cumdot_runner` computes, as a function of the multi-index.
-/

namespace Torch.Tensor
open Finset

/-! ## Row-major indices -/

theorem ravelAux_eq (a : Nat) {s l : List Nat} (h : l.length = s.length) : ravelAux a s l = a * s.prod + ravel s l := by
  unfold ravel
  induction s generalizing a l with
  | nil => rw [List.length_eq_zero_iff.1 h]; simp [ravelAux]
  | cons n s ih =>
    cases l with
    | nil => simp at h
    | cons i l =>
      rw [ravelAux, ravelAux, ih (a * n + i) (by simpa using h), ih (0 * n + i) (by simpa using h), List.prod_cons]
      ring

theorem ravel_cons {s l : List Nat} (h : l.length = s.length) (n i : Nat) : ravel (n :: s) (i :: l) = i * s.prod + ravel s l := by
  conv_lhs => rw [ravel, ravelAux, ravelAux_eq _ h, Nat.zero_mul, Nat.zero_add]

theorem ravelAux_snoc (a : Nat) {s l : List Nat} (h : l.length = s.length) (n k : Nat) :
    ravelAux a (s ++ [n]) (l ++ [k]) = ravelAux a s l * n + k := by
  induction s generalizing a l with
  | nil => rw [List.length_eq_zero_iff.1 h]; simp [ravelAux]
  | cons m s ih =>
    cases l with
    | nil => simp at h
    | cons i l => rw [List.cons_append, List.cons_append, ravelAux, ravelAux, ih _ (by simpa using h)]

theorem ravel_snoc {s l : List Nat} (h : l.length = s.length) (n k : Nat) : ravel (s ++ [n]) (l ++ [k]) = ravel s l * n + k :=
  ravelAux_snoc 0 h n k

theorem ravel_zeros (s : List Nat) : ravel s (List.replicate s.length 0) = 0 := by
  induction s with
  | nil => rfl
  | cons n s ih => rw [List.length_cons, List.replicate_succ, ravel_cons (by simp), ih]; simp

theorem ravel_lt {s l : List Nat} (h : inB l s = true) : ravel s l < s.prod := by
  induction s generalizing l with
  | nil => rw [inB0 h]; simp [ravel, ravelAux]
  | cons n s ih =>
    obtain ⟨i, l, rfl, hi, h⟩ := inB_cons h
    rw [ravel_cons (inB_length h), List.prod_cons]
    have := ih h
    calc i * s.prod + ravel s l < i * s.prod + s.prod := by omega
      _ = (i + 1) * s.prod := by ring
      _ ≤ n * s.prod := Nat.mul_le_mul_right _ hi

theorem unravel_ravel {s l : List Nat} (h : inB l s = true) : unravel s (ravel s l) = l := by
  induction s generalizing l with
  | nil => rw [inB0 h]; rfl
  | cons n s ih =>
    obtain ⟨i, l, rfl, hi, h⟩ := inB_cons h
    have hlt := ravel_lt h
    rw [ravel_cons (inB_length h), unravel, Nat.mul_comm, Nat.mul_add_div (by omega), Nat.div_eq_of_lt hlt, Nat.mul_add_mod,
      Nat.mod_eq_of_lt hlt, ih h, Nat.add_zero]

theorem inB_unravel {s : List Nat} {p : Nat} (h : p < s.prod) : inB (unravel s p) s = true := by
  induction s generalizing p with
  | nil => rfl
  | cons n s ih =>
    rw [List.prod_cons] at h
    have hs : 0 < s.prod := by
      rcases Nat.eq_zero_or_pos s.prod with h0 | h0
      · rw [h0] at h; simp at h
      · exact h0
    rw [unravel, inB, ih (Nat.mod_lt _ hs), Bool.and_true, decide_eq_true_iff]
    exact (Nat.div_lt_iff_lt_mul hs).2 h

theorem ravel_unravel {s : List Nat} {p : Nat} (h : p < s.prod) : ravel s (unravel s p) = p := by
  induction s generalizing p with
  | nil => simp at h; subst h; rfl
  | cons n s ih =>
    rw [List.prod_cons] at h
    have hs : 0 < s.prod := by
      rcases Nat.eq_zero_or_pos s.prod with h0 | h0
      · rw [h0] at h; simp at h
      · exact h0
    have hm := Nat.mod_lt p hs
    rw [unravel, ravel_cons (inB_length (inB_unravel hm)), ih hm]
    exact Nat.div_add_mod' p s.prod

section
variable {α : Type} [Zero α] {M : Nat}

theorem resolve_map_some (fs : List Nat) : resolve fs.prod (fs.map some) = .ok fs := by
  have h1 : (fs.map some).map (fun o => o.getD 1) = fs := by rw [List.map_map]; exact List.map_id _
  have h2 : (fs.map some).count none = 0 := by rw [List.count_eq_zero]; simp
  unfold resolve
  simp only [h1, h2, if_true]

theorem unflatten_tmat (s fs : List Nat) (f : List Nat → Matrix (Fin M) (Fin M) α) :
    unflatten (tmat (s ++ [fs.prod]) M f) (-3) (fs.map some) =
      .ok (tmat (s ++ fs) M fun l => f (l.take s.length ++ [ravel fs (l.drop s.length)])) := by
  unfold unflatten
  rw [tmat_rank, List.length_append, show s.length + [fs.prod].length + 2 = s.length + 3 from rfl, wrapDim_neg3, ok_bind, tmat_shape,
    List.append_assoc, List.cons_append, List.nil_append, getD_at rfl, resolve_map_some, ok_bind, take_at rfl]
  have hd : (s ++ fs.prod :: [M, M]).drop (s.length + 1) = [M, M] := by
    rw [List.drop_append]; simp
  rw [hd]
  refine congrArg Except.ok (eq_tmat rfl fun lb i j hl hi hj => ?_)
  have hin := inB_mat hl hi hj
  rw [get_in _ hin]
  obtain ⟨lb, t, rfl, h1, h2⟩ := inB_split hl
  have hlen := inB_length h1
  have hlen2 := inB_length h2
  have e1 : (lb ++ t ++ [i, j]).take s.length = lb := by rw [List.append_assoc, take_at hlen]
  have e2 : ((lb ++ t ++ [i, j]).drop s.length).take fs.length = t := by
    rw [List.append_assoc, ← hlen, List.drop_left, take_at hlen2]
  have e3 : (lb ++ t ++ [i, j]).drop (s.length + fs.length) = [i, j] := by
    rw [← hlen, ← hlen2, ← List.length_append, List.drop_left]
  rw [e1, e2, e3, take_at hlen]
  have e4 : (lb ++ t).drop s.length = t := by rw [← hlen, List.drop_left]
  rw [e4]
  have := tmat_get f (inB_snoc h1 (ravel_lt h2)) i j
  rw [List.append_assoc] at this
  exact this

theorem flatten_tmat (s fs : List Nat) (hne : fs ≠ []) (f : List Nat → Matrix (Fin M) (Fin M) α) :
    flatten (tmat (s ++ fs) M f) ((s.length : Nat) : Int) (-3) =
      .ok (tmat (s ++ [fs.prod]) M fun l => f (l.take s.length ++ unravel fs (l.getD s.length 0))) := by
  have hf : 0 < fs.length := List.length_pos_iff.2 hne
  unfold flatten
  rw [tmat_rank, List.length_append]
  have w1 : wrapDim (s.length + fs.length + 2) ((s.length : Nat) : Int) = .ok s.length := by
    unfold wrapDim
    rw [if_pos (by constructor <;> omega)]
    rfl
  have w2 : wrapDim (s.length + fs.length + 2) (-3) = .ok (s.length + fs.length - 1) := by
    rw [show s.length + fs.length + 2 = (s.length + fs.length - 1) + 3 by omega]; exact wrapDim_neg3 _
  rw [w1, ok_bind, w2, ok_bind, check_true (by omega), ok_bind, tmat_shape]
  have e0 : s.length + fs.length - 1 + 1 = s.length + fs.length := by omega
  have e1 : (s ++ fs ++ [M, M]).take s.length = s := by rw [List.append_assoc, take_at rfl]
  have e2 : ((s ++ fs ++ [M, M]).drop s.length).take (s.length + fs.length - s.length) = fs := by
    rw [List.append_assoc, List.drop_left, take_at (by omega)]
  have e3 : (s ++ fs ++ [M, M]).drop (s.length + fs.length) = [M, M] := by
    rw [← List.length_append, List.drop_left]
  simp only
  rw [e0, e1, e2, e3]
  refine congrArg Except.ok (eq_tmat (by simp) fun lb i j hl hi hj => ?_)
  have hin := inB_mat hl hi hj
  obtain ⟨lb, t, rfl, h1, h2⟩ := inB_split hl
  obtain ⟨p, rfl, hp⟩ := inB1 h2
  have hlen := inB_length h1
  rw [List.append_assoc s, List.cons_append, List.nil_append] at hin
  rw [get_in _ hin, List.append_assoc lb, List.cons_append, List.nil_append, take_at hlen, getD_at hlen, take_at hlen, getD_at hlen]
  have e4 : (lb ++ p :: [i, j]).drop (s.length + 1) = [i, j] := by
    rw [List.drop_append, hlen]; simp [hlen]
  rw [e4]
  refine tmat_get f ?_ i j
  rw [inB_append hlen, h1, inB_unravel hp]
  rfl

end
end Torch.Tensor

namespace Phil.Mat
open Torch Torch.Tensor Finset

/-! ## The runner -/

section
variable {G : Type} [Monoid G]

/-- Products along the innermost axis (multi-indices are written innermost first). -/
def accVal (f : List Nat → G) (k : Nat) (t : List Nat) : G := ((List.range (k + 1)).map fun i => f (i :: t)).prod

/-- The value `_mat_cumdot_runner` puts at a multi-index (axes and multi-index innermost first). -/
def cumVal : List Nat → (List Nat → G) → List Nat → G
  | [], f, l => f l
  | [_], f, l => accVal f (l.getD 0 0) (l.drop 1)
  | q :: n :: rs, f, l =>
    let k := l.getD 0 0
    let m := l.getD 1 0
    let t := l.drop 2
    if m = 0 then accVal f k (m :: t)
    else if k < q - 1 then accVal f k (m :: t) * cumVal (n :: rs) (fun r => accVal f (q - 1) r) ((m - 1) :: t)
    else cumVal (n :: rs) (fun r => accVal f (q - 1) r) (m :: t)

theorem cumVal_tail (rs : List Nat) (f : List Nat → G) {r : List Nat} (t : List Nat) (h : r.length = rs.length) :
    cumVal rs f (r ++ t) = cumVal rs (fun r' => f (r' ++ t)) r := by
  induction rs generalizing f r with
  | nil => rw [List.length_eq_zero_iff.1 h]; rfl
  | cons q rs ih =>
    cases rs with
    | nil =>
      obtain ⟨k, rfl⟩ := List.length_eq_one_iff.1 h
      rfl
    | cons n rs =>
      obtain ⟨k, r, rfl⟩ : ∃ k r', r = k :: r' := List.exists_cons_of_length_eq_add_one h
      obtain ⟨m, r, rfl⟩ : ∃ k r', r = k :: r' := List.exists_cons_of_length_eq_add_one (Nat.succ.inj h)
      have hl : r.length = rs.length := by simpa using h
      simp only [cumVal, List.cons_append, List.getD_cons_zero, List.getD_cons_succ, List.drop_succ_cons, List.drop_zero]
      have e1 := ih (fun r => accVal f (q - 1) r) (r := (m - 1) :: r) (by simp [hl])
      have e2 := ih (fun r => accVal f (q - 1) r) (r := m :: r) (by simp [hl])
      rw [List.cons_append] at e1 e2
      rw [e1, e2]
      rfl

theorem accVal_congr {f g : List Nat → G} {k : Nat} {t : List Nat} (h : ∀ i, f (i :: t) = g (i :: t)) : accVal f k t = accVal g k t := by
  unfold accVal
  rw [List.map_congr_left fun i _ => h i]

theorem cumVal_congr (rs : List Nat) {f g : List Nat → G} {l : List Nat} (hl : rs.length ≤ l.length)
    (h : ∀ r : List Nat, r.length = l.length → f r = g r) : cumVal rs f l = cumVal rs g l := by
  induction rs generalizing f g l with
  | nil => exact h l rfl
  | cons q rs ih =>
    cases rs with
    | nil =>
      obtain ⟨k, l, rfl⟩ : ∃ k l', l = k :: l' := List.exists_cons_of_length_pos (by simp at hl; omega)
      exact accVal_congr fun i => h _ rfl
    | cons n rs =>
      obtain ⟨k, l, rfl⟩ : ∃ k l', l = k :: l' := List.exists_cons_of_length_pos (by simp at hl; omega)
      obtain ⟨m, l, rfl⟩ : ∃ k l', l = k :: l' := List.exists_cons_of_length_pos (by simp at hl; omega)
      have hl' : (n :: rs).length ≤ (m :: l).length := by simpa using hl
      have hF : ∀ r : List Nat, r.length = (m :: l).length → accVal f (q - 1) r = accVal g (q - 1) r :=
        fun r hr => accVal_congr fun i => h _ (by simp [hr])
      have e1 := ih (f := fun r => accVal f (q - 1) r) (g := fun r => accVal g (q - 1) r) (l := m :: l) hl' hF
      have e2 := ih (f := fun r => accVal f (q - 1) r) (g := fun r => accVal g (q - 1) r) (l := (m - 1) :: l) hl' hF
      have e3 : accVal f k (m :: l) = accVal g k (m :: l) := accVal_congr fun i => h _ (by simp)
      simp only [cumVal, List.getD_cons_zero, List.getD_cons_succ, List.drop_succ_cons, List.drop_zero]
      rw [e1, e2, e3]

end

variable {α : Type} [CommRing α] {M : Nat}

theorem accumulate_tmat (s : List Nat) (n : Nat) (hn : 0 < n) (f : List Nat → Matrix (Fin M) (Fin M) α) :
    accumulate matmul ((List.range n).map fun k => tmat s M fun l => f (l ++ [k])) =
      .ok ((List.range n).map fun k => tmat s M fun l => ((List.range (k + 1)).map fun i => f (l ++ [i])).prod) := by
  obtain ⟨m, rfl⟩ : ∃ m, n = m + 1 := ⟨n - 1, by omega⟩
  refine accumulate_range _ (fun k => tmat s M fun l => ((List.range (k + 1)).map fun i => f (l ++ [i])).prod) _ m (by simp) fun t _ => ?_
  rw [matmul_tmat]
  exact congrArg Except.ok (tmat_congr fun l _ => (prod_range_succ_list (fun i => f (l ++ [i])) (t + 1)).symm)

/-! ### Tensors of matrices, with the last one or two leading axes named -/

/-- `tmat` with the last leading axis named. -/
def tm1 (s : List Nat) (n M : Nat) (g : List Nat → Nat → Matrix (Fin M) (Fin M) α) : Tensor α :=
  tmat (s ++ [n]) M fun l => g (l.take s.length) (l.getD s.length 0)

/-- `tmat` with the last two leading axes named. -/
def tm2 (s : List Nat) (n q M : Nat) (g : List Nat → Nat → Nat → Matrix (Fin M) (Fin M) α) : Tensor α :=
  tmat (s ++ [n, q]) M fun l => g (l.take s.length) (l.getD s.length 0) (l.getD (s.length + 1) 0)

theorem tmat_eq_tm1 {s : List Nat} {n : Nat} {f : List Nat → Matrix (Fin M) (Fin M) α} {g : List Nat → Nat → Matrix (Fin M) (Fin M) α}
    (h : ∀ lb k, inB lb s = true → k < n → f (lb ++ [k]) = g lb k) : tmat (s ++ [n]) M f = tm1 s n M g := by
  refine tmat_congr fun l hl => ?_
  obtain ⟨lb, t, rfl, h1, h2⟩ := inB_split hl
  obtain ⟨k, rfl, hk⟩ := inB1 h2
  rw [getD_at (inB_length h1), take_at (inB_length h1)]
  exact h lb k h1 hk

theorem tmat_eq_tm2 {s : List Nat} {n q : Nat} {f : List Nat → Matrix (Fin M) (Fin M) α} {g : List Nat → Nat → Nat → Matrix (Fin M) (Fin M) α}
    (h : ∀ lb m k, inB lb s = true → m < n → k < q → f (lb ++ [m, k]) = g lb m k) : tmat (s ++ [n, q]) M f = tm2 s n q M g := by
  refine tmat_congr fun l hl => ?_
  obtain ⟨lb, t, rfl, h1, h2⟩ := inB_split hl
  obtain ⟨m, k, rfl, hm, hk⟩ := inB2 h2
  rw [getD_at (inB_length h1), take_at (inB_length h1), getD_at' (inB_length h1)]
  exact h lb m k h1 hm hk

theorem tm2_congr {s : List Nat} {n q : Nat} {f g : List Nat → Nat → Nat → Matrix (Fin M) (Fin M) α}
    (h : ∀ lb m k, inB lb s = true → m < n → k < q → f lb m k = g lb m k) : tm2 s n q M f = tm2 s n q M g := by
  refine tmat_eq_tm2 fun lb m k h1 hm hk => ?_
  rw [getD_at (inB_length h1), take_at (inB_length h1), getD_at' (inB_length h1)]
  exact h lb m k h1 hm hk

theorem tm1_init (s : List Nat) (n : Nat) (g : List Nat → Nat → Matrix (Fin M) (Fin M) α) :
    slice (tm1 s n M g) (-3) none (some (-1)) = .ok (tm1 s (n - 1) M g) := by
  unfold tm1
  rw [slice3_tmat s n none (some (-1)) _ (pyStop_le _ _), pyStop_neg1, pyStart_none, Nat.sub_zero]
  refine congrArg Except.ok (tmat_eq_tm1 fun lb k h1 _ => ?_)
  have hl := inB_length h1
  rw [take_at hl, getD_at hl, take_at hl, getD_at hl, Nat.add_zero]

theorem tm1_tail (s : List Nat) (n : Nat) (hn : 0 < n) (g : List Nat → Nat → Matrix (Fin M) (Fin M) α) :
    slice (tm1 s n M g) (-3) (some 1) none = .ok (tm1 s (n - 1) M fun lb k => g lb (k + 1)) := by
  unfold tm1
  rw [slice3_tmat s n (some 1) none _ (pyStop_le _ _), pyStop_none, pyStart_one, Nat.min_eq_left hn]
  refine congrArg Except.ok (tmat_eq_tm1 (g := fun lb k => g lb (k + 1)) fun lb k h1 _ => ?_)
  have hl := inB_length h1
  rw [take_at hl, getD_at hl, take_at hl, getD_at hl]

theorem tm1_unsqueeze (s : List Nat) (n : Nat) (g : List Nat → Nat → Matrix (Fin M) (Fin M) α) :
    unsqueeze (tm1 s n M g) (-3) = .ok (tm2 s n 1 M fun lb m _ => g lb m) := by
  unfold tm1
  rw [unsqueeze_tmat, List.append_assoc]
  refine congrArg Except.ok (tmat_eq_tm2 fun lb m k h1 _ _ => ?_)
  have hl := inB_length h1
  rw [show lb ++ [m, k] = (lb ++ [m]) ++ [k] by simp, take_at (by simp [hl]), take_at hl, getD_at hl]

theorem tm2_tail (s : List Nat) (n q : Nat) (hn : 0 < n) (g : List Nat → Nat → Nat → Matrix (Fin M) (Fin M) α) :
    slice (tm2 s n q M g) (-4) (some 1) none = .ok (tm2 s (n - 1) q M fun lb m k => g lb (m + 1) k) := by
  unfold tm2
  rw [slice4_tmat s n q (some 1) none _ (pyStop_le _ _), pyStop_none, pyStart_one, Nat.min_eq_left hn]
  refine congrArg Except.ok (tmat_eq_tm2 (g := fun lb m k => g lb (m + 1) k) fun lb m k h1 _ _ => ?_)
  have hl := inB_length h1
  rw [take_at hl, getD_at hl, getD_at' hl, take_at hl, getD_at hl, getD_at' hl]

theorem tm2_first (s : List Nat) (n q : Nat) (hn : 0 < n) (g : List Nat → Nat → Nat → Matrix (Fin M) (Fin M) α) :
    slice (tm2 s n q M g) (-4) none (some 1) = .ok (tm2 s 1 q M g) := by
  unfold tm2
  rw [slice4_tmat s n q none (some 1) _ (pyStop_le _ _), pyStop_one, pyStart_none, Nat.min_eq_left hn, Nat.sub_zero]
  refine congrArg Except.ok (tmat_eq_tm2 fun lb m k h1 _ _ => ?_)
  have hl := inB_length h1
  rw [take_at hl, getD_at hl, getD_at' hl, take_at hl, getD_at hl, getD_at' hl, Nat.add_zero]

theorem tm2_init (s : List Nat) (n q : Nat) (g : List Nat → Nat → Nat → Matrix (Fin M) (Fin M) α) :
    slice (tm2 s n q M g) (-3) none (some (-1)) = .ok (tm2 s n (q - 1) M g) := by
  unfold tm2
  rw [show s ++ [n, q] = (s ++ [n]) ++ [q] by simp, slice3_tmat _ q none (some (-1)) _ (pyStop_le _ _), pyStop_neg1, pyStart_none, Nat.sub_zero,
    List.append_assoc]
  refine congrArg Except.ok (tmat_eq_tm2 fun lb m k h1 _ _ => ?_)
  have hl := inB_length h1
  have hl' : (lb ++ [m]).length = (s ++ [n]).length := by simp [hl]
  rw [show lb ++ [m, k] = (lb ++ [m]) ++ [k] by simp, take_at hl', getD_at hl', Nat.add_zero, List.append_assoc, List.cons_append, List.nil_append,
    take_at hl, getD_at hl, getD_at' hl]

theorem tm2_matmul (s : List Nat) (n q : Nat) (g h : List Nat → Nat → Nat → Matrix (Fin M) (Fin M) α) :
    matmul (tm2 s n q M g) (tm2 s n 1 M h) = .ok (tm2 s n q M fun lb m k => g lb m k * h lb m 0) := by
  unfold tm2
  rw [show s ++ [n, q] = (s ++ [n]) ++ [q] by simp, show s ++ [n, 1] = (s ++ [n]) ++ [1] by simp, matmul_snoc_tmat, List.append_assoc]
  refine congrArg Except.ok (tmat_eq_tm2 (g := fun lb m k => g lb m k * h lb m 0) fun lb m k h1 _ _ => ?_)
  have hl := inB_length h1
  have hl' : (lb ++ [m]).length = (s ++ [n]).length := by simp [hl]
  have e : (lb ++ [m, k]).take (s ++ [n]).length ++ [0] = lb ++ [m, 0] := by
    rw [show lb ++ [m, k] = (lb ++ [m]) ++ [k] by simp, take_at hl']; simp
  rw [e, take_at hl, getD_at hl, getD_at' hl, take_at hl, getD_at hl, getD_at' hl]

theorem tm2_cat3 (s : List Nat) (n q r : Nat) (g h : List Nat → Nat → Nat → Matrix (Fin M) (Fin M) α) :
    cat2 (tm2 s n q M g) (tm2 s n r M h) (-3) = .ok (tm2 s n (q + r) M fun lb m k => if k < q then g lb m k else h lb m (k - q)) := by
  unfold tm2
  rw [show s ++ [n, q] = (s ++ [n]) ++ [q] by simp, show s ++ [n, r] = (s ++ [n]) ++ [r] by simp, cat3_tmat, List.append_assoc]
  refine congrArg Except.ok (tmat_eq_tm2 (g := fun lb m k => if k < q then g lb m k else h lb m (k - q)) fun lb m k h1 _ _ => ?_)
  have hl := inB_length h1
  have hl' : (lb ++ [m]).length = (s ++ [n]).length := by simp [hl]
  have e : (lb ++ [m, k]).take (s ++ [n]).length = lb ++ [m] := by
    rw [show lb ++ [m, k] = (lb ++ [m]) ++ [k] by simp, take_at hl']
  have e2 : (lb ++ [m, k]).getD (s ++ [n]).length 0 = k := by
    rw [show lb ++ [m, k] = (lb ++ [m]) ++ [k] by simp, getD_at hl']
  rw [e, e2, List.append_assoc, List.cons_append, List.nil_append, take_at hl, getD_at hl, getD_at' hl, take_at hl, getD_at hl, getD_at' hl]

theorem tm2_cat4 (s : List Nat) (n m q : Nat) (g h : List Nat → Nat → Nat → Matrix (Fin M) (Fin M) α) :
    cat2 (tm2 s n q M g) (tm2 s m q M h) (-4) = .ok (tm2 s (n + m) q M fun lb i k => if i < n then g lb i k else h lb (i - n) k) := by
  unfold tm2
  rw [cat4_tmat]
  refine congrArg Except.ok (tmat_eq_tm2 (g := fun lb i k => if i < n then g lb i k else h lb (i - n) k) fun lb i k h1 _ _ => ?_)
  have hl := inB_length h1
  rw [take_at hl, getD_at hl, getD_at' hl, take_at hl, getD_at hl, getD_at' hl]

theorem runner_tmat (lead : List Nat) (rs : List Nat) (hne : rs ≠ []) (hpos : ∀ q ∈ rs, 0 < q) (fuel : Nat) (hf : rs.length ≤ fuel)
    (f : List Nat → Matrix (Fin M) (Fin M) α) :
    matCumdotRunner fuel (tmat (lead ++ rs.reverse) M f) lead.length =
      .ok (tmat (lead ++ rs.reverse) M fun l => cumVal rs (fun r => f r.reverse) l.reverse) := by
  induction rs generalizing f fuel with
  | nil => exact absurd rfl hne
  | cons q rs ih =>
    obtain ⟨fuel, rfl⟩ : ∃ n, fuel = n + 1 := ⟨fuel - 1, by rw [List.length_cons] at hf; omega⟩
    have hq : 0 < q := hpos q (by simp)
    rw [List.reverse_cons, ← List.append_assoc, matCumdotRunner]
    refine bind_step (unbind_tmat _ q f) ?_
    refine bind_step (accumulate_tmat _ q hq f) ?_
    refine bind_step (stack_tmat _ q hq _) ?_
    rw [tmat_rank]
    cases rs with
    | nil =>
      rw [if_pos (by simp), pure_eq_ok]
      refine congrArg Except.ok (tmat_congr fun l hl => ?_)
      obtain ⟨lb, t, rfl, h1, h2⟩ := inB_split hl
      obtain ⟨k, rfl, hk⟩ := inB1 h2
      rw [getD_at (inB_length h1), take_at (inB_length h1), List.reverse_append, List.reverse_cons, List.reverse_nil, List.nil_append, List.cons_append,
        List.nil_append]
      simp only [cumVal, accVal, List.getD_cons_zero, List.drop_succ_cons, List.drop_zero, List.reverse_cons, List.reverse_reverse]
    | cons n rs =>
      rw [if_neg (by simp)]
      have hn : 0 < n := hpos n (by simp)
      refine bind_step (select_last_tmat _ q hq _) ?_
      refine bind_step (ih (by simp) (fun x hx => hpos x (by simp [hx])) fuel (by simpa using hf) _) ?_
      clear ih
      have hs' : lead ++ (n :: rs).reverse = (lead ++ rs.reverse) ++ [n] := by rw [List.reverse_cons, List.append_assoc]
      have hs2 : lead ++ (n :: rs).reverse ++ [q] = (lead ++ rs.reverse) ++ [n, q] := by rw [hs', List.append_assoc]; rfl
      rw [hs2, hs']
      have hlen0 : rs.length ≤ (lead ++ rs.reverse).length := by simp
      generalize lead ++ rs.reverse = s0 at hlen0
      let H : List Nat → Nat → Matrix (Fin M) (Fin M) α := fun lb m =>
        cumVal (n :: rs) (fun r => accVal (fun r => f r.reverse) (q - 1) r) (m :: lb.reverse)
      let A : List Nat → Nat → Nat → Matrix (Fin M) (Fin M) α := fun lb m k => accVal (fun r => f r.reverse) k (m :: lb.reverse)
      rw [tmat_eq_tm1 (g := H), tmat_eq_tm2 (g := A)]
      rotate_left
      · intro lb m k h1 _ _
        have hl' : (lb ++ [m]).length = (s0 ++ [n]).length := by simp [inB_length h1]
        rw [show lb ++ [m, k] = (lb ++ [m]) ++ [k] by simp, take_at hl', getD_at hl']
        simp only [A, accVal, List.reverse_cons, List.reverse_reverse]
      · intro lb k h1 _
        rw [List.reverse_append, List.reverse_cons, List.reverse_nil, List.nil_append, List.cons_append, List.nil_append]
        refine cumVal_congr _ ?_ fun r hr => ?_
        · have := inB_length h1
          simp only [List.length_cons, List.length_reverse, this]
          omega
        · have hl' : r.reverse.length = (s0 ++ [n]).length := by simp [inB_length h1, hr]
          rw [take_at hl', getD_at hl']
          simp only [accVal, List.reverse_cons]
      refine bind_step (tm2_tail s0 n q hn A) ?_
      refine bind_step (tm2_init s0 (n - 1) q _) ?_
      refine bind_step (tm1_init s0 n H) ?_
      refine bind_step (tm1_unsqueeze s0 (n - 1) _) ?_
      refine bind_step (tm2_matmul s0 (n - 1) (q - 1) _ _) ?_
      refine bind_step (tm2_first s0 n q hn A) ?_
      refine bind_step (tm1_tail s0 n hn H) ?_
      refine bind_step (tm1_unsqueeze s0 (n - 1) _) ?_
      refine bind_step (tm2_cat3 s0 (n - 1) (q - 1) 1 _ _) ?_
      rw [Nat.sub_add_cancel hq, tm2_cat4, Nat.add_sub_cancel' hn]
      refine congrArg Except.ok (tmat_eq_tm2 fun lb m k h1 hm hk => ?_).symm
      simp only [List.reverse_append, List.reverse_cons, List.reverse_nil, List.nil_append, List.cons_append, cumVal, List.getD_cons_zero,
        List.getD_cons_succ, List.drop_succ_cons, List.drop_zero]
      by_cases hm0 : m = 0
      · subst hm0
        rw [if_pos rfl, if_pos (by omega)]
      rw [if_neg hm0, if_neg (show ¬ m < 1 by omega), Nat.sub_add_cancel (show 1 ≤ m by omega)]

/-- `matrices_cumdot` of `P ≥ 2` matrices, for any number of leading axes. -/
theorem cumdot_tmat (lead : List Nat) (P : Nat) (hP : 2 ≤ P) (f : List Nat → Matrix (Fin M) (Fin M) α) :
    matricesCumdot (tmat (lead ++ [P]) M f) = .ok (tmat (lead ++ [P]) M fun l =>
      cumVal P.primeFactorsList (fun r => f (l.take lead.length ++ [ravel P.primeFactorsList.reverse r.reverse]))
        (unravel P.primeFactorsList.reverse (l.getD lead.length 0)).reverse) := by
  have hprod : P.primeFactorsList.reverse.prod = P := by rw [List.prod_reverse, Nat.prod_primeFactorsList (by omega)]
  have hne : P.primeFactorsList ≠ [] := by rw [Ne, Nat.primeFactorsList_eq_nil]; omega
  have hpos : ∀ q ∈ P.primeFactorsList, 0 < q := fun q hq => (Nat.prime_of_mem_primeFactorsList hq).pos
  have hs3 : (tmat (lead ++ [P]) M f).size (-3) = P := by
    unfold size
    rw [if_neg (by omega), if_pos (by rw [tmat_rank, List.length_append]; simp), tmat_rank, List.length_append, tmat_shape, List.append_assoc,
      show ((-3 : Int) + (lead.length + [P].length + 2 : Nat)).toNat = lead.length by simp; omega]
    exact getD_at rfl
  unfold matricesCumdot matricesCumdotWith
  rw [hs3, tmat_size1, tmat_size2, tmat_rank, List.length_append, show lead.length + [P].length + 2 - 3 = lead.length by simp, factorint_eq]
  refine check_step (by simp) (check_step rfl ?_)
  rw [if_neg (by omega)]
  generalize hfs : P.primeFactorsList = rs at *
  have hu := unflatten_tmat lead rs.reverse f
  rw [hprod] at hu
  refine bind_step hu ?_
  refine bind_step (runner_tmat lead rs hne hpos _ (by rw [tmat_rank]; simp; omega) _) ?_
  have hfl := flatten_tmat lead rs.reverse (by simpa using hne)
    fun l => cumVal rs (fun r => f (r.reverse.take lead.length ++ [ravel rs.reverse (r.reverse.drop lead.length)])) l.reverse
  rw [hprod] at hfl
  rw [hfl]
  refine congrArg Except.ok (tmat_congr fun l hl => ?_)
  obtain ⟨lb, t, rfl, h1, h2⟩ := inB_split hl
  obtain ⟨p, rfl, hp⟩ := inB1 h2
  have hlen := inB_length h1
  have hul : (unravel rs.reverse p).reverse.length = rs.length := by
    rw [List.length_reverse, inB_length (inB_unravel (by rw [hprod]; exact hp)), List.length_reverse]
  rw [take_at hlen, getD_at hlen, List.reverse_append, cumVal_tail rs _ _ hul]
  refine cumVal_congr _ (by omega) fun r hr => ?_
  have e : (r ++ lb.reverse).reverse = lb ++ r.reverse := by rw [List.reverse_append, List.reverse_reverse]
  rw [e, take_at hlen, ← hlen, List.drop_left]

/-! ## Which entries are right -/

theorem tmat_inj {s l : List Nat} {f g : List Nat → Matrix (Fin M) (Fin M) α} (h : tmat s M f = tmat s M g) (hl : inB l s = true) : f l = g l := by
  ext i j
  have := congrArg (fun x => Tensor.get x (l ++ [i.val, j.val])) h
  simpa [tmat_get _ hl, fm] using this

section
variable {G : Type} [Monoid G]

theorem accVal_zero (f : List Nat → G) (t : List Nat) : accVal f 0 t = f (0 :: t) := by simp [accVal]

theorem cumVal_zeros (n : Nat) (rs : List Nat) (f : List Nat → G) :
    cumVal (n :: rs) f (0 :: List.replicate rs.length 0) = f (0 :: List.replicate rs.length 0) := by
  cases rs with
  | nil => exact accVal_zero f []
  | cons m rs =>
    simp only [List.length_cons, List.replicate_succ, cumVal, List.getD_cons_zero, List.getD_cons_succ, List.drop_succ_cons, List.drop_zero, if_true]
    exact accVal_zero f _

/-- The entry at the flat index `q` (the innermost factor). -/
theorem cumVal_second (q n : Nat) (rs : List Nat) (hq : 2 ≤ q) (f : List Nat → G) :
    cumVal (q :: n :: rs) f (0 :: 1 :: List.replicate rs.length 0) =
      f (0 :: 1 :: List.replicate rs.length 0) * accVal f (q - 1) (0 :: List.replicate rs.length 0) := by
  simp only [cumVal, List.getD_cons_zero, List.getD_cons_succ, List.drop_succ_cons, List.drop_zero]
  rw [if_neg (by omega), if_pos (by omega), Nat.sub_self, cumVal_zeros, accVal_zero]

/-- The entry at the flat index `q n` (the product of the two innermost factors). -/
theorem cumVal_third (q n n' : Nat) (rs : List Nat) (f : List Nat → G) :
    cumVal (q :: n :: n' :: rs) f (0 :: 0 :: 1 :: List.replicate rs.length 0) = f (0 :: 0 :: 1 :: List.replicate rs.length 0) := by
  simp only [cumVal, List.getD_cons_zero, List.getD_cons_succ, List.drop_succ_cons, List.drop_zero, if_true]
  exact accVal_zero f _

theorem accVal_ravel (A : Nat → G) (q n : Nat) (rs : List Nat) (k : Nat) :
    accVal (fun r => A (ravel (q :: n :: rs).reverse r.reverse)) k (0 :: List.replicate rs.length 0) = ((List.range (k + 1)).map A).prod := by
  unfold accVal
  refine congrArg List.prod (List.map_congr_left fun i _ => ?_)
  simp only [List.reverse_cons, List.reverse_replicate]
  rw [ravel_snoc (by simp), ravel_snoc (by simp)]
  have := ravel_zeros rs.reverse
  rw [List.length_reverse] at this
  rw [this, Nat.zero_mul, Nat.zero_add, Nat.zero_mul, Nat.zero_add]

theorem ravel_second (q n : Nat) (rs : List Nat) : ravel (q :: n :: rs).reverse (0 :: 1 :: List.replicate rs.length 0).reverse = q := by
  simp only [List.reverse_cons, List.reverse_replicate]
  rw [ravel_snoc (by simp), ravel_snoc (by simp)]
  have := ravel_zeros rs.reverse
  rw [List.length_reverse] at this
  rw [this]
  omega

theorem ravel_third (q n n' : Nat) (rs : List Nat) :
    ravel (q :: n :: n' :: rs).reverse (0 :: 0 :: 1 :: List.replicate rs.length 0).reverse = n * q := by
  simp only [List.reverse_cons, List.reverse_replicate]
  rw [ravel_snoc (by simp), ravel_snoc (by simp), ravel_snoc (by simp)]
  have := ravel_zeros rs.reverse
  rw [List.length_reverse] at this
  rw [this]
  simp

end

theorem inB_zeros {s : List Nat} (h : ∀ q ∈ s, 0 < q) : inB (List.replicate s.length 0) s = true := by
  induction s with
  | nil => rfl
  | cons n s ih => rw [List.length_cons, List.replicate_succ, inB, ih fun q hq => h q (by simp [hq])]; simp [h n (by simp)]

/-- One entry of the result for a sequence of matrices. -/
theorem cumdot_entry {P : Nat} (hP : 2 ≤ P) {A B : Nat → Matrix (Fin M) (Fin M) α} {l : List Nat}
    (h : matricesCumdot (t3 P M M fun k => fm (A k)) = .ok (t3 P M M fun k => fm (B k))) (hl : inB l P.primeFactorsList.reverse = true) :
    cumVal P.primeFactorsList (fun r => A (ravel P.primeFactorsList.reverse r.reverse)) l.reverse = B (ravel P.primeFactorsList.reverse l) := by
  have hprod : P.primeFactorsList.reverse.prod = P := by rw [List.prod_reverse, Nat.prod_primeFactorsList (by omega)]
  rw [t3_tmat, t3_tmat, show [P] = [] ++ [P] from rfl, cumdot_tmat [] P hP] at h
  have hlt := ravel_lt hl
  rw [hprod] at hlt
  have := tmat_inj (Except.ok.inj h) (l := [ravel P.primeFactorsList.reverse l]) (by simp [inB, hlt])
  simpa [unravel_ravel hl] using this

/-- The value at the innermost factor has its last matrix on the left. -/
theorem cumdot_second {P q n : Nat} {rs : List Nat} (hf : P.primeFactorsList = q :: n :: rs) {A B : Nat → Matrix (Fin M) (Fin M) α}
    (h : matricesCumdot (t3 P M M fun k => fm (A k)) = .ok (t3 P M M fun k => fm (B k))) :
    B q = A q * ((List.range q).map A).prod := by
  have hP : 2 ≤ P := by
    by_contra hc
    have := (Nat.primeFactorsList_eq_nil (n := P)).2 (by omega)
    rw [hf] at this; simp at this
  have hpr : ∀ x ∈ q :: n :: rs, x.Prime := fun x hx => Nat.prime_of_mem_primeFactorsList (n := P) (hf ▸ hx)
  have hq := (hpr q (by simp)).two_le
  have hn := (hpr n (by simp)).two_le
  have hz : inB (List.replicate rs.length 0) rs.reverse = true := by
    have := inB_zeros (s := rs.reverse) fun x hx => (hpr x (by simp at hx; simp [hx])).pos
    rwa [List.length_reverse] at this
  have := cumdot_entry hP h (l := (0 :: 1 :: List.replicate rs.length 0).reverse) (by
    rw [hf]
    simp only [List.reverse_cons, List.reverse_replicate]
    exact inB_snoc (inB_snoc hz (by omega)) (by omega))
  rw [hf, List.reverse_reverse, cumVal_second q n rs hq, accVal_ravel, ravel_second, Nat.sub_add_cancel (by omega)] at this
  exact this.symm

/-- The value at the product of the two innermost factors has lost its prefix. -/
theorem cumdot_third {P q n n' : Nat} {rs : List Nat} (hf : P.primeFactorsList = q :: n :: n' :: rs) {A B : Nat → Matrix (Fin M) (Fin M) α}
    (h : matricesCumdot (t3 P M M fun k => fm (A k)) = .ok (t3 P M M fun k => fm (B k))) : B (n * q) = A (n * q) := by
  have hP : 2 ≤ P := by
    by_contra hc
    have := (Nat.primeFactorsList_eq_nil (n := P)).2 (by omega)
    rw [hf] at this; simp at this
  have hpr : ∀ x ∈ q :: n :: n' :: rs, x.Prime := fun x hx => Nat.prime_of_mem_primeFactorsList (n := P) (hf ▸ hx)
  have hq := (hpr q (by simp)).two_le
  have hn := (hpr n (by simp)).two_le
  have hn' := (hpr n' (by simp)).two_le
  have hz : inB (List.replicate rs.length 0) rs.reverse = true := by
    have := inB_zeros (s := rs.reverse) fun x hx => (hpr x (by simp at hx; simp [hx])).pos
    rwa [List.length_reverse] at this
  have := cumdot_entry hP h (l := (0 :: 0 :: 1 :: List.replicate rs.length 0).reverse) (by
    rw [hf]
    simp only [List.reverse_cons, List.reverse_replicate]
    exact inB_snoc (inB_snoc (inB_snoc hz (by omega)) (by omega)) (by omega))
  rw [hf, List.reverse_reverse, cumVal_third q n n' rs, ravel_third] at this
  exact this.symm

/-! ## One or two prime factors -/

theorem cumdot_tmat_prime (lead : List Nat) {P : Nat} (hP : P.Prime ∨ P = 1) (f : List Nat → Matrix (Fin M) (Fin M) α) :
    matricesCumdot (tmat (lead ++ [P]) M f) = .ok (tmat (lead ++ [P]) M fun l =>
      ((List.range (l.getD lead.length 0 + 1)).map fun k => f (l.take lead.length ++ [k])).prod) := by
  rcases hP with hp | rfl
  · rw [cumdot_tmat lead P hp.two_le, Nat.primeFactorsList_prime hp]
    refine congrArg Except.ok (tmat_congr fun l hl => ?_)
    simp [cumVal, accVal, unravel, ravel, ravelAux]
  · have hs3 : (tmat (lead ++ [1]) M f).size (-3) = 1 := by
      unfold size
      rw [if_neg (by omega), if_pos (by rw [tmat_rank, List.length_append]; simp), tmat_rank, List.length_append, tmat_shape, List.append_assoc,
        show ((-3 : Int) + (lead.length + [1].length + 2 : Nat)).toNat = lead.length by simp; omega]
      exact getD_at rfl
    unfold matricesCumdot matricesCumdotWith
    rw [hs3, tmat_size1, tmat_size2, tmat_rank, List.length_append]
    refine check_step (by simp) (check_step rfl ?_)
    rw [if_pos rfl, pure_eq_ok]
    refine congrArg Except.ok (tmat_congr fun l hl => ?_)
    obtain ⟨lb, t, rfl, h1, h2⟩ := inB_split hl
    obtain ⟨k, rfl, hk⟩ := inB1 h2
    obtain rfl : k = 0 := by omega
    rw [take_at (inB_length h1), getD_at (inB_length h1)]
    simp

/-- The product of the first `a + b` members of a sequence. -/
theorem prod_range_add {G : Type} [Monoid G] (A : Nat → G) (a b : Nat) :
    ((List.range (a + b)).map A).prod = ((List.range a).map A).prod * ((List.range b).map fun i => A (a + i)).prod := by
  rw [List.range_add, List.map_append, List.prod_append, List.map_map]; rfl

theorem prod_blocks {G : Type} [Monoid G] (A : Nat → G) (q m : Nat) :
    ((List.range m).map fun j => ((List.range q).map fun i => A (j * q + i)).prod).prod = ((List.range (m * q)).map A).prod := by
  induction m with
  | zero => simp
  | succ m ih => rw [prod_range_succ_list, ih, Nat.succ_mul, prod_range_add]

theorem cumdot_tmat_semiprime (lead : List Nat) {P q n : Nat} (hf : P.primeFactorsList = [q, n]) (f : List Nat → Matrix (Fin M) (Fin M) α)
    (hc : ∀ l i j, inB l lead = true → i < P → j < P → Commute (f (l ++ [i])) (f (l ++ [j]))) :
    matricesCumdot (tmat (lead ++ [P]) M f) = .ok (tmat (lead ++ [P]) M fun l =>
      ((List.range (l.getD lead.length 0 + 1)).map fun k => f (l.take lead.length ++ [k])).prod) := by
  have hP0 : P ≠ 0 := by rintro rfl; simp at hf
  have hP : 2 ≤ P := by
    by_contra h
    have := (Nat.primeFactorsList_eq_nil (n := P)).2 (by omega)
    rw [hf] at this; simp at this
  have hprod : n * q = P := by
    have := Nat.prod_primeFactorsList hP0
    rw [hf] at this; simp at this; rw [← this, Nat.mul_comm]
  have hq : 2 ≤ q := (Nat.prime_of_mem_primeFactorsList (n := P) (hf ▸ by simp)).two_le
  rw [cumdot_tmat lead P hP, hf]
  refine congrArg Except.ok (tmat_congr fun l hl => ?_)
  obtain ⟨lb, t, rfl, h1, h2⟩ := inB_split hl
  obtain ⟨p, rfl, hp⟩ := inB1 h2
  rw [take_at (inB_length h1), getD_at (inB_length h1)]
  set A : Nat → Matrix (Fin M) (Fin M) α := fun k => f (lb ++ [k]) with hA
  have hu : (unravel [q, n].reverse p).reverse = [p % q, p / q] := by simp [unravel]
  have hr : ∀ i j, ravel [q, n].reverse [j, i] = j * q + i := fun i j => by simp [ravel, ravelAux]
  rw [hu]
  have ha : ∀ k j, accVal (fun r => f (lb ++ [ravel [q, n].reverse r.reverse])) k [j] = ((List.range (k + 1)).map fun i => A (j * q + i)).prod := by
    intro k j
    unfold accVal
    refine congrArg List.prod (List.map_congr_left fun i _ => ?_)
    exact congrArg A (hr i j)
  have hhi : ∀ m, cumVal [n] (fun r => accVal (fun r => f (lb ++ [ravel [q, n].reverse r.reverse])) (q - 1) r) [m] =
      ((List.range ((m + 1) * q)).map A).prod := by
    intro m
    rw [← prod_blocks]
    simp only [cumVal, accVal, List.getD_cons_zero, List.drop_succ_cons, List.drop_zero]
    refine congrArg List.prod (List.map_congr_left fun j _ => ?_)
    have := ha (q - 1) j
    rw [Nat.sub_add_cancel (by omega)] at this
    rw [← this]
    rw [accVal, Nat.sub_add_cancel (by omega)]
  have hmod := Nat.mod_lt p (by omega : 0 < q)
  have hdm := Nat.div_add_mod' p q
  rw [cumVal]
  simp only [List.getD_cons_zero, List.getD_cons_succ, List.drop_succ_cons, List.drop_zero]
  rw [ha, hhi, hhi]
  by_cases hm : p / q = 0
  · rw [if_pos hm, hm]
    rw [hm] at hdm
    simp only [Nat.zero_mul, Nat.zero_add] at hdm ⊢
    rw [hdm]
  have hm1 : 1 ≤ p / q := Nat.pos_of_ne_zero hm
  rw [if_neg hm, Nat.sub_add_cancel hm1]
  by_cases hk : p % q < q - 1
  · rw [if_pos hk]
    have hsplit : p + 1 = p / q * q + (p % q + 1) := by omega
    have hcomm : Commute ((List.range (p % q + 1)).map fun i => A (p / q * q + i)).prod ((List.range (p / q * q)).map A).prod := by
      refine Commute.list_prod_left _ _ fun x hx => Commute.list_prod_right _ _ fun y hy => ?_
      obtain ⟨i, hi, rfl⟩ := List.mem_map.1 hx
      obtain ⟨j, hj, rfl⟩ := List.mem_map.1 hy
      rw [List.mem_range] at hi hj
      exact hc lb _ _ h1 (by omega) (by omega)
    rw [hcomm.eq]
    conv_rhs => rw [hsplit, prod_range_add]
  · rw [if_neg hk, show p + 1 = (p / q + 1) * q by rw [Nat.add_mul, Nat.one_mul]; omega]

end Phil.Mat
