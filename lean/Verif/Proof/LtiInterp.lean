import Verif.Model.LtiInterp
import Verif.Spec.Spline
import Verif.Props.C01
import Mathlib.Tactic.FieldSimp
import Mathlib.Tactic.LinearCombination

/-! # Cubic spline coefficients -/

namespace Phil.Interp
open Torch Torch.Tensor Spec Finset

variable {α : Type} [Field α] [StarRing α]

/-- What `_first_order_filt` may be run by: the recurrence in Python with an admissible unroll factor, or a correct op. -/
def GoodRunner (ext : Option (Op α)) (u : Int) (N : Nat) : Prop :=
  match ext with
  | some op => IsScalarOp op
  | none => 1 ≤ u ∧ 0 < N

theorem firstOrderFilt_eq {ext : Option (Op α)} {u : Int} {B N : Nat} (h : GoodRunner ext u N) (r : α) (x : Nat → Nat → α)
    (zi : Nat → α) : firstOrderFilt ext u (t2 B N x) (t0 r) (t1 B zi) none =
      .ok (t2 B N fun b t => scalarRec (fun _ => r) (zi b) (x b) (t + 1)) := by
  unfold firstOrderFilt
  refine bind_step (v := t2 B N x) rfl ?_
  rw [size_t2_0]
  refine bind_step (expand_s_n B r) ?_
  cases ext with
  | some op =>
    refine bind_step (expand_n_n B zi) ?_
    exact h B N _ _ zi x (.full _)
  | none => exact Props.C01_linear_recurrence x u (.full _) (.full _) h.2 h.1

theorem firstOrderFilt_scaled {ext : Option (Op α)} {u : Int} {B N : Nat} (h : GoodRunner ext u N) (r g : α) (x : Nat → Nat → α)
    (zi : Nat → α) : firstOrderFilt ext u (t2 B N x) (t0 r) (t1 B zi) (some (t0 g)) =
      .ok (t2 B N fun b t => scalarRec (fun _ => r) (zi b) (fun t => x b t * g) (t + 1)) := by
  unfold firstOrderFilt
  refine bind_step (v := t2 B N fun b t => x b t * g) (zipWith_nm_s _ _ _ _ _) ?_
  rw [size_t2_0]
  refine bind_step (expand_s_n B r) ?_
  cases ext with
  | some op =>
    refine bind_step (expand_n_n B zi) ?_
    exact h B N _ _ zi _ (.full _)
  | none => exact Props.C01_linear_recurrence _ u (.full _) (.full _) h.2 h.1

/-- The state before the first sample. -/
def startState (half : Bool) (L : Nat) (r : α) (x : Nat → α) : α :=
  if half then ∑ k ∈ range L, x k * r ^ k else ∑ k ∈ range (L - 1), x (k + 1) * r ^ k

omit [StarRing α] in
theorem causalState_eq (half : Bool) {B L : Nat} (hL : 1 ≤ L) (r : α) (x : Nat → Nat → α) :
    causalState r (t2 B L x) half = .ok (t1 B fun b => startState half L r (x b)) := by
  unfold causalState startState
  cases half with
  | true =>
    rw [if_pos rfl, size_t2_n1]
    exact matmul_mp_p _ _ _ _
  | false =>
    rw [if_neg (by decide), size_t2_n1]
    refine check_step hL ?_
    refine bind_step (v := t2 B (L - 1) fun b j => x b (j + 1)) ?_ (matmul_mp_p _ _ _ _)
    rw [slice_t2_n1, pyStart_one, pyStop_none, Nat.min_eq_left hL]

/-- The signal continued by its mirror image of `T` samples. -/
def mirrored (L T : Nat) (x : Nat → α) (j : Nat) : α := if j < L then x j else x (T - 1 - (j - L))

/-- Length of the mirror image. -/
def tailLen (half : Bool) (L : Nat) : Nat := if half then L else L - 1

theorem parallelForm_eq {ext : Option (Op α)} {u : Int} (half : Bool) {B L : Nat} (hL : 1 ≤ L)
    (h : GoodRunner ext u (L + tailLen half L)) (r : α) (x : Nat → Nat → α) (zi : Nat → α) :
    parallelForm ext u r (t2 B L x) (t1 B zi) half = .ok (t2 B L fun b n => -6 * r / (1 - r * r) *
      (scalarRec (fun _ => r) (zi b) (mirrored L (tailLen half L) (x b)) (n + 1) +
        scalarRec (fun _ => r) (zi b) (mirrored L (tailLen half L) (x b)) (L - 1 - n + tailLen half L + 1) - x b n)) := by
  unfold parallelForm
  refine bind_step (v := t2 B (tailLen half L) fun b j => x b (tailLen half L - 1 - j)) ?_ ?_
  · cases half with
    | true => rw [if_pos rfl]; exact flip_t2_n1 _ _ _
    | false =>
      rw [if_neg (by decide)]
      refine bind_step (v := t2 B (L - 1) x) ?_ (flip_t2_n1 _ _ _)
      rw [slice_t2_n1, pyStart_none, pyStop_neg1]; rfl
  generalize tailLen half L = T at *
  refine bind_step (cat2_t2_n1 _ _ _ _ _) ?_
  refine bind_step (firstOrderFilt_eq h r _ zi) ?_
  rw [size_t2_n1]
  refine bind_step (slice_t2_n1 _ _ _ _ _) ?_
  refine bind_step (slice_t2_n1 _ _ _ _ _) ?_
  have e1 : pyStop (L + T) (some (L : Int)) - pyStart (L + T) none = L := by
    rw [pyStop_nat, pyStart_none]; omega
  have e2 : pyStart (L + T) (some (-(L : Int))) = T := by
    simp [pyStart, pyBound]; omega
  have e3 : pyStop (L + T) none - pyStart (L + T) (some (-(L : Int))) = L := by
    rw [e2, pyStop_none]; omega
  rw [e1, e3]
  refine bind_step (flip_t2_n1 _ _ _) ?_
  refine bind_step (zipWith_nm_nm _ _ _ _ _) ?_
  refine bind_step (zipWith_nm_nm _ _ _ _ _) ?_
  refine (zipWith_s_nm _ _ _ _ _).trans ?_
  simp only [e2, pyStart_none, Nat.add_zero]
  rfl

/-- The state before the last sample of the anticausal filter. -/
def lastState (half : Bool) (L : Nat) (r z : α) (x : Nat → α) : α :=
  if half then r / (r - 1) * scalarRec (fun _ => r) z x L
  else -r / (1 - r * r) * (2 * scalarRec (fun _ => r) z x L - x (L - 1))

/-- The anticausal filter, `k` steps from the end. -/
def anti (half : Bool) (L : Nat) (r z : α) (x : Nat → α) (k : Nat) : α :=
  scalarRec (fun _ => r) (lastState half L r z x) (fun t => scalarRec (fun _ => r) z x (L - 1 - t) * -r) k

theorem cascadedForm_eq {ext : Option (Op α)} {u : Int} (half : Bool) {B L : Nat} (hL : 1 ≤ L)
    (h : GoodRunner ext u L) (h' : GoodRunner ext u (L - 1)) (r : α) (x : Nat → Nat → α) (zi : Nat → α) :
    cascadedForm ext u r (t2 B L x) (t1 B zi) half = .ok (t2 B L fun b n => anti half L r (zi b) (x b) (L - 1 - n) * 6) := by
  unfold cascadedForm
  refine bind_step (firstOrderFilt_eq h r _ zi) ?_
  refine bind_step (select_t2_n1_last _ _ _ hL) ?_
  refine bind_step (v := t1 B fun b => lastState half L r (zi b) (x b)) ?_ ?_
  · cases half with
    | true =>
      rw [if_pos rfl]
      refine (zipWith_s_n _ _ _ _).trans ?_
      simp only [Nat.sub_add_cancel hL]; rfl
    | false =>
      rw [if_neg (by decide)]
      refine bind_step (zipWith_s_n _ _ _ _) ?_
      refine bind_step (select_t2_n1_last _ _ _ hL) ?_
      refine bind_step (zipWith_n_n _ _ _ _) ?_
      refine (zipWith_s_n _ _ _ _).trans ?_
      simp only [Nat.sub_add_cancel hL]; rfl
  refine bind_step (v := t2 B (L - 1) fun b t => scalarRec (fun _ => r) (zi b) (x b) (t + 1)) ?_ ?_
  · rw [slice_t2_n1, pyStart_none, pyStop_neg1]; rfl
  refine bind_step (flip_t2_n1 _ _ _) ?_
  refine bind_step (firstOrderFilt_scaled h' r (-r) _ _) ?_
  refine bind_step (flip_t2_n1 _ _ _) ?_
  refine bind_step (unsqueeze_t1_n1 _ _) ?_
  refine bind_step (cat2_t2_n1 _ _ _ _ _) ?_
  refine (zipWith_nm_s _ _ _ _ _).trans ?_
  rw [Nat.sub_add_cancel hL]
  refine congrArg Except.ok (t2_congr rfl rfl fun b n hb hn => ?_)
  have hn' : n < L := hn
  congr 1
  split
  · rename_i hlt
    rw [show L - 1 - 1 - n + 1 = L - 1 - n by omega]
    refine scalarRec_congr rfl (fun _ _ => rfl) fun t ht => ?_
    rw [show L - 1 - 1 - t + 1 = L - 1 - t by omega]
  · rw [show L - 1 - n = 0 by omega]; rfl

/-! ## The two forms agree -/

section algebra
variable {α : Type} [Field α]

omit [Field α] in
theorem mirrored_low {L T : Nat} {x : Nat → α} {j : Nat} (h : j < L) : mirrored L T x j = x j := if_pos h

theorem rec_mirrored (L T : Nat) (r z : α) (x : Nat → α) {n : Nat} (h : n ≤ L) :
    scalarRec (fun _ => r) z (mirrored L T x) n = scalarRec (fun _ => r) z x n :=
  scalarRec_congr rfl (fun _ _ => rfl) fun _ ht => mirrored_low (by omega)

theorem anti_succ (half : Bool) (L : Nat) (r z : α) (x : Nat → α) (k : Nat) :
    anti half L r z x (k + 1) = r * anti half L r z x k + scalarRec (fun _ => r) z x (L - 1 - k) * -r := rfl

theorem forms_agree_at (half : Bool) {L : Nat} (hL : 1 ≤ L) {r : α} (hr : 1 - r * r ≠ 0) (z : α) (x : Nat → α) :
    ∀ k, k < L → -r / (1 - r * r) * (scalarRec (fun _ => r) z x (L - k) +
      scalarRec (fun _ => r) z (mirrored L (tailLen half L) x) (k + tailLen half L + 1) - x (L - 1 - k)) = anti half L r z x k
  | 0, _ => by
    have h1 : r - 1 ≠ 0 := fun h => hr (by linear_combination -(r + 1) * h)
    have hl : scalarRec (fun _ => r) z x L = r * scalarRec (fun _ => r) z x (L - 1) + x (L - 1) := by
      obtain ⟨l, rfl⟩ : ∃ l, L = l + 1 := ⟨L - 1, by omega⟩
      rfl
    cases half with
    | true =>
      have e : scalarRec (fun _ => r) z (mirrored L L x) (L + 1) = r * scalarRec (fun _ => r) z x L + x (L - 1) := by
        rw [scalarRec, rec_mirrored _ _ _ _ _ (le_refl _)]
        congr 1
        rw [mirrored, if_neg (by omega), Nat.sub_self, Nat.sub_zero]
      simp only [tailLen, if_true, Nat.zero_add, Nat.sub_zero, anti, scalarRec, lastState] at e ⊢
      rw [e, div_mul_eq_mul_div, div_mul_eq_mul_div, div_eq_div_iff hr h1]
      ring
    | false =>
      simp only [tailLen, Nat.zero_add, Nat.sub_zero, anti, lastState, Bool.false_eq_true, if_false]
      rw [Nat.sub_add_cancel hL, rec_mirrored _ _ _ _ _ (le_refl _)]
      simp only [scalarRec]
      ring
  | k + 1, hk => by
    have ih := forms_agree_at half hL hr z x k (by omega)
    have e : scalarRec (fun _ => r) z (mirrored L (tailLen half L) x) (k + 1 + tailLen half L + 1) =
        r * scalarRec (fun _ => r) z (mirrored L (tailLen half L) x) (k + tailLen half L + 1) + x (L - 2 - k) := by
      rw [show k + 1 + tailLen half L = k + tailLen half L + 1 by omega, scalarRec]
      congr 1
      cases half with
      | true =>
        simp only [tailLen, if_true, mirrored]
        rw [if_neg (by omega)]
        congr 1
        omega
      | false =>
        simp only [tailLen, mirrored, Bool.false_eq_true, if_false]
        split
        · congr 1; omega
        · congr 1; omega
    rw [e, anti_succ, ← ih]
    have hs : scalarRec (fun _ => r) z x (L - k) = r * scalarRec (fun _ => r) z x (L - (k + 1)) + x (L - 1 - k) := by
      rw [show L - k = L - (k + 1) + 1 by omega, scalarRec, show L - (k + 1) = L - 1 - k by omega]
    rw [hs, show L - 1 - (k + 1) = L - 2 - k by omega, show L - 1 - k = L - (k + 1) by omega]
    have hr2 : 1 - r ^ 2 ≠ 0 := by rwa [pow_two]
    field_simp
    ring

/-! ## The coefficients interpolate -/

theorem pole_ne_zero {r : α} (h : r * r + 4 * r + 1 = 0) : r ≠ 0 := by
  rintro rfl
  simp at h

theorem pole_sq_ne_one {r : α} (h : r * r + 4 * r + 1 = 0) (h2 : (2 : α) ≠ 0) (h3 : (3 : α) ≠ 0) : 1 - r * r ≠ 0 := by
  intro e
  have e1 : 1 + 2 * r = 0 := (mul_eq_zero.mp (show 2 * (1 + 2 * r) = 0 by linear_combination e + h)).resolve_left h2
  exact h3 (by linear_combination (2 * r + 7) * e1 - 4 * h)

theorem rec_step {L n : Nat} (h : n < L) (r z : α) (x : Nat → α) :
    scalarRec (fun _ => r) z x (L - n) = r * scalarRec (fun _ => r) z x (L - 1 - n) + x (L - 1 - n) := by
  rw [show L - n = L - 1 - n + 1 by omega, scalarRec]

theorem anti_interior (half : Bool) {L : Nat} {r : α} (hr : r * r + 4 * r + 1 = 0) (z : α) (x : Nat → α) {j : Nat}
    (hj : j + 2 < L) : anti half L r z x (j + 2) + 4 * anti half L r z x (j + 1) + anti half L r z x j = x (L - 1 - (j + 1)) := by
  have e1 := anti_succ half L r z x (j + 1)
  have e0 := anti_succ half L r z x j
  have s := rec_step (n := j + 1) (by omega : j + 1 < L) r z x
  rw [show L - (j + 1) = L - 1 - j by omega] at s
  apply mul_left_cancel₀ (pole_ne_zero hr)
  rw [e1]
  linear_combination (-1 : α) * e0 + hr * anti half L r z x (j + 1) + r * s

theorem anti_right (half : Bool) {L : Nat} (hL : 2 ≤ L) {r : α} (hr : r * r + 4 * r + 1 = 0) (h2 : (2 : α) ≠ 0)
    (h3 : (3 : α) ≠ 0) (z : α) (x : Nat → α) :
    (if half then anti half L r z x 1 + 5 * anti half L r z x 0 else 2 * anti half L r z x 1 + 4 * anti half L r z x 0) =
      x (L - 1) := by
  have e0 := anti_succ half L r z x 0
  have s := rec_step (n := 0) (by omega : 0 < L) r z x
  have hd := pole_sq_ne_one hr h2 h3
  rw [Nat.sub_zero, Nat.sub_zero] at s
  rw [Nat.sub_zero, Nat.zero_add] at e0
  cases half with
  | true =>
    have h1 : r - 1 ≠ 0 := fun h => hd (by linear_combination -(r + 1) * h)
    have d : (r - 1) * anti true L r z x 0 = r * scalarRec (fun _ => r) z x L := by
      simp only [anti, scalarRec, lastState, if_true]
      rw [div_mul_eq_mul_div, mul_div_cancel₀ _ h1]
    rw [if_pos rfl, e0]
    apply mul_left_cancel₀ h1
    linear_combination (r + 5) * d + hr * scalarRec (fun _ => r) z x L + (r - 1) * s
  | false =>
    have d : (1 - r * r) * anti false L r z x 0 = -r * (2 * scalarRec (fun _ => r) z x L - x (L - 1)) := by
      simp only [anti, scalarRec, lastState, Bool.false_eq_true, if_false]
      rw [div_mul_eq_mul_div, mul_div_cancel₀ _ hd]
    rw [if_neg (by decide), e0]
    apply mul_left_cancel₀ hd
    linear_combination (2 * r + 4) * d - hr * (2 * scalarRec (fun _ => r) z x L - x (L - 1)) + (1 - r * r) * 2 * s

theorem anti_gap (half : Bool) {L : Nat} (r z : α) (x : Nat → α) :
    ∀ k, k < L → (1 - r * r) * anti half L r z x k + r * scalarRec (fun _ => r) z x (L - k) =
      r ^ k * ((1 - r * r) * anti half L r z x 0 + r * scalarRec (fun _ => r) z x L) -
        r * r * ∑ j ∈ range k, x (L - k + j) * r ^ j
  | 0, _ => by simp
  | k + 1, hk => by
    have ih := anti_gap (L := L) half r z x k (by omega)
    have s := rec_step (n := k) (by omega : k < L) r z x
    rw [sum_range_succ', anti_succ, pow_zero, Nat.add_zero, show L - (k + 1) = L - 1 - k by omega]
    have e : ∑ j ∈ range k, x (L - 1 - k + (j + 1)) * r ^ (j + 1) = r * ∑ j ∈ range k, x (L - k + j) * r ^ j := by
      rw [mul_sum]
      refine sum_congr rfl fun j _ => ?_
      rw [show L - 1 - k + (j + 1) = L - k + j by omega]
      ring
    rw [e]
    linear_combination r * ih - r * r * s

theorem anti_gap_zero (half : Bool) {L : Nat} (hL : 1 ≤ L) {r : α} (hr : 1 - r * r ≠ 0) (z : α) (x : Nat → α) :
    (1 - r * r) * anti half L r z x 0 + r * scalarRec (fun _ => r) z x L =
      -(r * r) * scalarRec (fun _ => r) z x (if half then L else L - 1) := by
  have s := rec_step (n := 0) (by omega : 0 < L) r z x
  rw [Nat.sub_zero, Nat.sub_zero] at s
  cases half with
  | true =>
    have h1 : r - 1 ≠ 0 := fun h => hr (by linear_combination -(r + 1) * h)
    have d : (r - 1) * anti true L r z x 0 = r * scalarRec (fun _ => r) z x L := by
      simp only [anti, scalarRec, lastState, if_true]
      rw [div_mul_eq_mul_div, mul_div_cancel₀ _ h1]
    rw [if_pos rfl]
    linear_combination -(r + 1) * d
  | false =>
    have d : (1 - r * r) * anti false L r z x 0 = -r * (2 * scalarRec (fun _ => r) z x L - x (L - 1)) := by
      simp only [anti, scalarRec, lastState, Bool.false_eq_true, if_false]
      rw [div_mul_eq_mul_div, mul_div_cancel₀ _ hr]
    rw [if_neg (by decide)]
    linear_combination d - r * s

theorem anti_left (half : Bool) {L : Nat} (hL : 2 ≤ L) {r : α} (hr : r * r + 4 * r + 1 = 0) (h2 : (2 : α) ≠ 0)
    (h3 : (3 : α) ≠ 0) (x : Nat → α) :
    (if half then anti half L r (startState half L r x) x (L - 2) + 5 * anti half L r (startState half L r x) x (L - 1)
      else 2 * anti half L r (startState half L r x) x (L - 2) + 4 * anti half L r (startState half L r x) x (L - 1)) =
      x 0 - (if half then r ^ (L + 1) / (1 + r) * scalarRec (fun _ => r) (startState half L r x) x L
        else r ^ L * scalarRec (fun _ => r) (startState half L r x) x (L - 1)) := by
  have hd := pole_sq_ne_one hr h2 h3
  have h0 := pole_ne_zero hr
  generalize hz : startState half L r x = z
  have g := anti_gap half r z x (L - 1) (by omega : L - 1 < L)
  rw [anti_gap_zero half (by omega) hd z x, show L - (L - 1) = 1 by omega] at g
  have st : scalarRec (fun _ => r) z x 1 = r * z + x 0 := rfl
  have ha := anti_succ half L r z x (L - 2)
  rw [show L - 2 + 1 = L - 1 by omega, show L - 1 - (L - 2) = 1 by omega] at ha
  have hp : r ^ L = r ^ (L - 1) * r := by rw [← pow_succ]; congr 1; omega
  cases half with
  | true =>
    have h1 : 1 + r ≠ 0 := fun h => hd (by linear_combination (1 - r) * h)
    have hw : z = x 0 + r * ∑ j ∈ range (L - 1), x (1 + j) * r ^ j := by
      rw [← hz]
      simp only [startState, if_true]
      obtain ⟨l, rfl⟩ : ∃ l, L = l + 1 := ⟨L - 1, by omega⟩
      rw [sum_range_succ', pow_zero, mul_one, Nat.add_sub_cancel, mul_sum, add_comm]
      congr 1
      refine sum_congr rfl fun j _ => ?_
      rw [add_comm 1 j]; ring
    simp only [if_true] at g ⊢
    apply mul_left_cancel₀ h0
    apply mul_left_cancel₀ h1
    have hq : (1 + r) * (r ^ (L + 1) / (1 + r)) = r ^ (L - 1) * r * r := by
      rw [mul_div_cancel₀ _ h1, pow_succ, hp]
    generalize r ^ (L + 1) / (1 + r) = q at *
    linear_combination -(1 + r) * ha + (1 + r) * hr * anti true L r z x (L - 1) + r * g + r * r * hw + r * st +
      r * scalarRec (fun _ => r) z x L * hq
  | false =>
    have hw : z = ∑ j ∈ range (L - 1), x (1 + j) * r ^ j := by
      rw [← hz]
      simp only [startState, Bool.false_eq_true, if_false, add_comm 1]
    simp only [Bool.false_eq_true, if_false] at g ⊢
    apply mul_left_cancel₀ h0
    rw [hp]
    linear_combination -2 * ha + g + hr * anti false L r z x (L - 1) + r * st + r * r * hw

end algebra

/-- What `cspline` may be run by. -/
def SplineRunner (ext : Option (Op α)) (u : Int) (parallel : Bool) (L : Nat) : Prop :=
  match ext with
  | some op => IsScalarOp op
  | none => 1 ≤ u ∧ (parallel = false → 2 ≤ L)

omit [StarRing α] in
theorem SplineRunner.good {ext : Option (Op α)} {u : Int} {parallel : Bool} {L N : Nat} (h : SplineRunner ext u parallel L)
    (hN : (parallel = false → 2 ≤ L) → 0 < N) : GoodRunner ext u N := by
  cases ext with
  | some op => exact h
  | none => exact ⟨h.1, hN h.2⟩

theorem cspline_eq {ext : Option (Op α)} {u : Int} (parallel half : Bool) {B L : Nat} (hL : 1 ≤ L)
    (hrun : SplineRunner ext u parallel L) {r : α} (hr : 1 - r * r ≠ 0) (x : Nat → Nat → α) :
    cspline ext u r (t2 B L x) parallel half =
      .ok (t2 B L fun b n => 6 * anti half L r (startState half L r (x b)) (x b) (L - 1 - n)) := by
  unfold cspline
  refine bind_step (causalState_eq half hL r x) ?_
  cases parallel with
  | true =>
    rw [if_pos rfl, parallelForm_eq half hL (hrun.good fun _ => by omega)]
    refine congrArg Except.ok (t2_congr rfl rfl fun b n hb hn => ?_)
    have hn' : n < L := hn
    rw [← forms_agree_at half hL hr (startState half L r (x b)) (x b) (L - 1 - n) (by omega),
      rec_mirrored _ _ _ _ _ (by omega : n + 1 ≤ L), show L - (L - 1 - n) = n + 1 by omega, show L - 1 - (L - 1 - n) = n by omega]
    ring
  | false =>
    rw [if_neg (by decide), cascadedForm_eq half hL (hrun.good fun _ => by omega) (hrun.good fun h => by have := h rfl; omega)]
    refine congrArg Except.ok (t2_congr rfl rfl fun b n hb hn => ?_)
    ring

/-! ## The spline through the coefficients -/

section
variable {α : Type} [Field α]

theorem spline_inside (half : Bool) {L : Nat} (hL : 2 ≤ L) {r : α} (hr : r * r + 4 * r + 1 = 0) (h2 : (2 : α) ≠ 0)
    (h3 : (3 : α) ≠ 0) (z : α) (x : Nat → α) {n : Nat} (h1 : 1 ≤ n) (hn : n < L) :
    splineAt (mirror half L fun n => 6 * anti half L r z x (L - 1 - n)) n = x n := by
  have h6 : (6 : α) ≠ 0 := by
    rw [show (6 : α) = 2 * 3 by norm_num]
    exact mul_ne_zero h2 h3
  unfold splineAt
  rw [div_eq_iff h6]
  have ea : mirror half L (fun n => 6 * anti half L r z x (L - 1 - n)) ((n : Int) - 1) = 6 * anti half L r z x (L - 1 - (n - 1)) := by
    rw [mirror, if_pos (by omega)]
    congr 2; omega
  have eb : mirror half L (fun n => 6 * anti half L r z x (L - 1 - n)) (n : Int) = 6 * anti half L r z x (L - 1 - n) := by
    rw [mirror, if_pos (by omega)]
    congr 2
  rw [ea, eb]
  by_cases hl : n + 1 < L
  · have ec : mirror half L (fun n => 6 * anti half L r z x (L - 1 - n)) ((n : Int) + 1) = 6 * anti half L r z x (L - 1 - (n + 1)) := by
      rw [mirror, if_pos (by omega)]
      congr 2
    rw [ec]
    have key := anti_interior (L := L) half hr z x (j := L - 1 - (n + 1)) (by omega)
    rw [show L - 1 - (n + 1) + 2 = L - 1 - (n - 1) by omega, show L - 1 - (n + 1) + 1 = L - 1 - n by omega,
      show L - 1 - (L - 1 - n) = n by omega] at key
    linear_combination 6 * key
  · have hn' : n = L - 1 := by omega
    subst hn'
    have key := anti_right half hL hr h2 h3 z x
    rw [show L - 1 - (L - 1 - 1) = 1 by omega, show L - 1 - (L - 1) = 0 by omega]
    cases half with
    | true =>
      have ec : mirror true L (fun n => 6 * anti true L r z x (L - 1 - n)) (((L - 1 : Nat) : Int) + 1) = 6 * anti true L r z x 0 := by
        rw [mirror, if_neg (by omega), if_pos rfl, if_neg (by omega)]
        rw [show L - 1 - (2 * (L : Int) - 1 - (((L - 1 : Nat) : Int) + 1)).toNat = 0 by omega]
      rw [ec]
      simp only [if_true] at key
      linear_combination 6 * key
    | false =>
      have ec : mirror false L (fun n => 6 * anti false L r z x (L - 1 - n)) (((L - 1 : Nat) : Int) + 1) = 6 * anti false L r z x 1 := by
        rw [mirror, if_neg (by omega), if_neg (by decide), if_neg (by omega)]
        rw [show L - 1 - (2 * (L : Int) - 2 - (((L - 1 : Nat) : Int) + 1)).toNat = 1 by omega]
      rw [ec]
      simp only [Bool.false_eq_true, if_false] at key
      linear_combination 6 * key

theorem spline_first (half : Bool) {L : Nat} (hL : 2 ≤ L) {r : α} (hr : r * r + 4 * r + 1 = 0) (h2 : (2 : α) ≠ 0)
    (h3 : (3 : α) ≠ 0) (x : Nat → α) :
    splineAt (mirror half L fun n => 6 * anti half L r (startState half L r x) x (L - 1 - n)) 0 =
      x 0 - (if half then r ^ (L + 1) / (1 + r) * scalarRec (fun _ => r) (startState half L r x) x L
        else r ^ L * scalarRec (fun _ => r) (startState half L r x) x (L - 1)) := by
  have h6 : (6 : α) ≠ 0 := by
    rw [show (6 : α) = 2 * 3 by norm_num]
    exact mul_ne_zero h2 h3
  rw [← anti_left half hL hr h2 h3 x]
  generalize startState half L r x = z
  unfold splineAt
  rw [div_eq_iff h6]
  have eb : mirror half L (fun n => 6 * anti half L r z x (L - 1 - n)) 0 = 6 * anti half L r z x (L - 1) := by
    rw [mirror, if_pos (by omega)]; rfl
  have ec : mirror half L (fun n => 6 * anti half L r z x (L - 1 - n)) (0 + 1) = 6 * anti half L r z x (L - 2) := by
    rw [mirror, if_pos (by omega)]; rfl
  rw [eb, ec]
  cases half with
  | true =>
    have ea : mirror true L (fun n => 6 * anti true L r z x (L - 1 - n)) (0 - 1) = 6 * anti true L r z x (L - 1) := by
      rw [mirror, if_neg (by omega), if_pos rfl, if_pos (by omega)]; rfl
    rw [ea, if_pos rfl]; ring
  | false =>
    have ea : mirror false L (fun n => 6 * anti false L r z x (L - 1 - n)) (0 - 1) = 6 * anti false L r z x (L - 2) := by
      rw [mirror, if_neg (by omega), if_neg (by decide), if_pos (by omega)]; rfl
    rw [ea, if_neg (by decide)]; ring

end

end Phil.Interp
