import Verif.Proof.Linear
import Verif.Proof.LpvSsmAny
import Verif.Props.C30
import Verif.Proof.LtiComb
import Verif.Props.C01
import Verif.Props.C02

/-! # The filtering functions are linear and causal -/

namespace Spec
open Torch Torch.Tensor Phil Finset
open Phil.Lti (ok_pair Form)
variable {α : Type} [CommRing α] [StarRing α]

omit [StarRing α] in
theorem both_signal {f : Filter α} {sx : List Nat} {sz : Option (List Nat)} {k : Option Nat} {B N M : Nat}
    (Y : Tensor α → Option (Tensor α) → Nat → Nat → Nat → α) (F : Tensor α → Option (Tensor α) → Nat → Nat → α)
    (hf : ∀ x z, x.shape = sx → z.map shape = sz → f x z = .ok (signal k B N (Y x z),
      if z.isSome then some (t2 B M (F x z)) else none))
    (hY : ∀ c d x₁ x₂ z₁ z₂, x₁.shape = x₂.shape → z₁.map shape = z₂.map shape →
      ∀ i t p, Y (lincomb c d x₁ x₂) (lincombOpt c d z₁ z₂) i t p = c * Y x₁ z₁ i t p + d * Y x₂ z₂ i t p)
    (hF : ∀ c d x₁ x₂ z₁ z₂, x₁.shape = x₂.shape → z₁.map shape = z₂.map shape →
      ∀ i m, F (lincomb c d x₁ x₂) (lincombOpt c d z₁ z₂) i m = c * F x₁ z₁ i m + d * F x₂ z₂ i m)
    (hC : ∀ T x₁ x₂ z, x₁.shape = sx → AgreeTo T x₁ x₂ → ∀ i t p, t ≤ T → Y x₁ z i t p = Y x₂ z i t p) :
    LinearOn f sx sz ∧ CausalOn f sx sz := ⟨linearOn_signal Y F hf hY hF, causalOn_signal Y F hf hC⟩

omit [StarRing α] in
theorem both_packed {f : Filter α} {sx : List Nat} {sz : Option (List Nat)} {fl : Bool} {B N M : Nat} {st : Bool}
    (Y : Tensor α → Option (Tensor α) → Nat → Nat → α) (F : Tensor α → Option (Tensor α) → Nat → Nat → α)
    (hf : ∀ x z, x.shape = sx → z.map shape = sz → f x z = .ok (packed fl B N (Y x z),
      if st then some (packed fl B M (F x z)) else none))
    (hY : ∀ c d x₁ x₂ z₁ z₂, x₁.shape = x₂.shape → z₁.map shape = z₂.map shape →
      ∀ i t, Y (lincomb c d x₁ x₂) (lincombOpt c d z₁ z₂) i t = c * Y x₁ z₁ i t + d * Y x₂ z₂ i t)
    (hF : ∀ c d x₁ x₂ z₁ z₂, x₁.shape = x₂.shape → z₁.map shape = z₂.map shape →
      ∀ i m, F (lincomb c d x₁ x₂) (lincombOpt c d z₁ z₂) i m = c * F x₁ z₁ i m + d * F x₂ z₂ i m)
    (hC : ∀ T x₁ x₂ z, x₁.shape = sx → AgreeTo T x₁ x₂ → ∀ i t, t ≤ T → Y x₁ z i t = Y x₂ z i t) :
    LinearOn f sx sz ∧ CausalOn f sx sz := ⟨linearOn_packed Y F hf hY hF, causalOn_packed Y F hf hC⟩

omit [StarRing α] in
theorem noState_ok {g : Tensor α → Tensor α → Res (Tensor α)} {x y z : Tensor α} (h : g z x = .ok y) :
    noState g x (some z) = .ok (y, none) := bind_step h rfl

omit [StarRing α] in
/-- The value of a required initial state. -/
theorem some_of_shape {z : Option (Tensor α)} {s : List Nat} (h : z.map shape = some s) : ∃ z', z = some z' ∧ z'.shape = s := by
  cases z with
  | none => simp at h
  | some z => exact ⟨z, rfl, by simpa using h⟩

omit [StarRing α] in
theorem getD_lin {c d : α} {z₁ z₂ : Option (Tensor α)} (h : z₁.map shape = z₂.map shape) (i : Nat) :
    bval ((lincombOpt c d z₁ z₂).getD (t0 0)) i = c * bval (z₁.getD (t0 0)) i + d * bval (z₂.getD (t0 0)) i := by
  cases z₁ with
  | none =>
    cases z₂ with
    | none => simp [lincombOpt, bval, get_t0]
    | some z => simp at h
  | some z₁ =>
    cases z₂ with
    | none => simp at h
    | some z₂ => exact bval_lin (by simpa using h) i

omit [StarRing α] in
theorem sig2 {B N : Nat} {x : Tensor α} (h : x.shape = [B, N]) : x = t2 B N (xval x) := by
  refine ext2 h rfl fun i t hi ht => ?_
  rw [get_t2 hi ht, xval, if_neg (by rw [rank, h]; simp)]

omit [StarRing α] in
theorem st2 {B M : Nat} {z : Tensor α} (h : z.shape = [B, M]) : z = t2 B M (zval (some z)) := by
  refine ext2 h rfl fun i t hi ht => ?_
  rw [get_t2 hi ht, zval, if_neg (by rw [rank, h]; simp)]

/-! ## Recurrences -/

theorem lti_recurrence_both {B N : Nat} {a init : Tensor α} {av iv : Nat → α} (u : Int) (ha : BatchVals B a av)
    (hi : BatchVals B init iv) (hN : 0 < N) (hu : 1 ≤ u) :
    LinearOn (noState fun zi x => Lti.linearRecurrence a zi x u) [B, N] (some init.shape) ∧
      CausalOn (noState fun zi x => Lti.linearRecurrence a zi x u) [B, N] (some init.shape) := by
  refine both_packed (fl := false) (B := B) (N := N) (st := false) (M := 0)
    (fun x z i t => scalarRec (fun _ => av i) (bval (z.getD (t0 0)) i) (xval x i) (t + 1)) (fun _ _ _ _ => 0)
    (fun x z hx hz => ?_) (fun c d x₁ x₂ z₁ z₂ hx hz i t => ?_) (fun c d _ _ _ _ _ _ i m => by ring)
    (fun T x₁ x₂ z hx h i t ht => ?_)
  · obtain ⟨z, rfl, hs⟩ := some_of_shape hz
    refine noState_ok ?_
    conv_lhs => rw [sig2 hx]
    exact Props.C01_linear_recurrence (xval x) u ha (batchVals_vals hi hs) hN hu
  · exact scalarRec_lin _ c d (getD_lin hz i) (fun t => xval_lin hx i t) _
  · exact scalarRec_agree (T := t + 1) (fun _ _ => rfl) (fun s hs => xval_agree h (by omega)) le_rfl

theorem lpv_recurrence_both {B N : Nat} {a init : Tensor α} {av : Nat → Nat → α} {iv : Nat → α} (u : Int)
    (ha : Props.TimeVals B N a av) (hi : BatchVals B init iv) (hN : 0 < N) (hu : 1 ≤ u) :
    LinearOn (noState fun zi x => Lpv.linearRecurrence a zi x u) [B, N] (some init.shape) ∧
      CausalOn (noState fun zi x => Lpv.linearRecurrence a zi x u) [B, N] (some init.shape) := by
  refine both_packed (fl := false) (B := B) (N := N) (st := false) (M := 0)
    (fun x z i t => scalarRec (av i) (bval (z.getD (t0 0)) i) (xval x i) (t + 1)) (fun _ _ _ _ => 0)
    (fun x z hx hz => ?_) (fun c d x₁ x₂ z₁ z₂ hx hz i t => ?_) (fun c d _ _ _ _ _ _ i m => by ring)
    (fun T x₁ x₂ z hx h i t ht => ?_)
  · obtain ⟨z, rfl, hs⟩ := some_of_shape hz
    refine noState_ok ?_
    conv_lhs => rw [sig2 hx]
    exact Props.C02_linear_recurrence (xval x) u ha (batchVals_vals hi hs) hN hu
  · exact scalarRec_lin _ c d (getD_lin hz i) (fun t => xval_lin hx i t) _
  · exact scalarRec_agree (T := t + 1) (fun _ _ => rfl) (fun s hs => xval_agree h (by omega)) le_rfl

omit [StarRing α] in
theorem drive_rank {B N M : Nat} {x : Tensor α} {v : Nat → Nat → Nat → α} (h : Drive B N M x v) : x.rank ≠ 1 := by
  cases h <;> simp

omit [StarRing α] in
theorem ltiInput_rank {B N M : Nat} {Bm : Option (Tensor α)} {x : Tensor α} {v : Nat → Nat → Nat → α}
    (h : LtiInput B N M Bm x v) : x.rank ≠ 1 := by
  cases h with
  | none h => exact drive_rank h
  | _ => simp

omit [StarRing α] in
theorem lpvInput_rank {B N M : Nat} {Bm : Option (Tensor α)} {x : Tensor α} {v : Nat → Nat → Nat → α}
    (h : LpvInput B N M Bm x v) : x.rank ≠ 1 := by
  cases h with
  | none h => exact drive_rank h
  | _ => simp

omit [StarRing α] in
theorem lti_recursion_both {B N M : Nat} {A x : Tensor α} {Av xv : Nat → Nat → Nat → α} (hA : MatVals B M M A Av)
    (hx : Drive B N M x xv) (u : Int) (hM : 0 < M) (hN : 0 < N) (hu : 1 ≤ u) :
    LinearOn (noState fun zi x => Lti.stateSpaceRecursion A zi x u none) x.shape (some [B, M]) ∧
      CausalOn (noState fun zi x => Lti.stateSpaceRecursion A zi x u none) x.shape (some [B, M]) := by
  obtain ⟨F, g, hg⟩ := drive_memoryless hx
  have hf : ∀ (x' : Tensor α) (z : Option (Tensor α)), x'.shape = x.shape → z.map shape = some [B, M] →
      noState (fun zi x => Lti.stateSpaceRecursion A zi x u none) x' z = .ok (signal (some M) B N fun i t p =>
        vecRec M (fun _ => Av i) (zval z i) (memoryless F g x' i) (t + 1) p, none) := by
    intro x' z hx' hz
    obtain ⟨z, rfl, hs⟩ := some_of_shape hz
    refine noState_ok ?_
    conv_lhs => rw [st2 hs]
    exact Lti.stateSpaceRecursion_layout hA (hg x' hx') _ u none trivial hM hN hu
  constructor
  · intro c d x₁ x₂ z₁ z₂ hx₁ hx₂ hz₁ hz₂
    refine ⟨_, _, _, _, hf x₁ z₁ hx₁ hz₁, hf x₂ z₂ hx₂ hz₂, rfl, rfl, ?_⟩
    rw [hf _ _ (by rw [lincomb_shape]; exact hx₁) (by
      obtain ⟨z₁, rfl, h1⟩ := some_of_shape hz₁
      obtain ⟨z₂, rfl, h2⟩ := some_of_shape hz₂
      exact congrArg some h1)]
    refine ok_pair ?_ rfl
    rw [lincomb_signal]
    congr 1
    funext i t p
    exact vecRec_lin _ c d (fun m => zval_lin (hz₁.trans hz₂.symm) i m)
      (fun t m => memoryless_lin (hx₁.trans hx₂.symm) i t m) _ _
  · intro T x₁ x₂ z hx₁ hz h
    refine ⟨_, _, _, _, hf x₁ z hx₁ hz, hf x₂ z (h.1.symm.trans hx₁) hz, agreeTo_signal fun i t p ht => ?_⟩
    exact vecRec_agree (T := t + 1) (fun _ _ _ _ => rfl) (fun s m hs => memoryless_agree h (by
      rw [show x₁.rank = x.rank from congrArg List.length hx₁]; exact drive_rank hx) (by omega)) le_rfl _

omit [StarRing α] in
theorem lpv_recursion_both {B N M : Nat} {A x : Tensor α} {Av : Nat → Nat → Nat → Nat → α} {xv : Nat → Nat → Nat → α}
    (hA : MatSeq B N M M A Av) (hx : Drive B N M x xv) (u : Int) (hB : 0 < B) (hM : 0 < M) (hN : 0 < N)
    (hu : 1 ≤ u) :
    LinearOn (noState fun zi x => Lpv.stateSpaceRecursion A zi x u none) x.shape (some [B, M]) ∧
      CausalOn (noState fun zi x => Lpv.stateSpaceRecursion A zi x u none) x.shape (some [B, M]) := by
  obtain ⟨F, g, hg⟩ := drive_memoryless hx
  have hf : ∀ (x' : Tensor α) (z : Option (Tensor α)), x'.shape = x.shape → z.map shape = some [B, M] →
      noState (fun zi x => Lpv.stateSpaceRecursion A zi x u none) x' z = .ok (signal (some M) B N fun i t p =>
        Lpv.anyRec M N u (Av i) (zval z i) (memoryless F g x' i) (t + 1) p, none) := by
    intro x' z hx' hz
    obtain ⟨z, rfl, hs⟩ := some_of_shape hz
    refine noState_ok ?_
    conv_lhs => rw [st2 hs]
    exact Lpv.stateSpaceRecursion_any hA (hg x' hx') _ u none trivial hB hM hN hu
  constructor
  · intro c d x₁ x₂ z₁ z₂ hx₁ hx₂ hz₁ hz₂
    refine ⟨_, _, _, _, hf x₁ z₁ hx₁ hz₁, hf x₂ z₂ hx₂ hz₂, rfl, rfl, ?_⟩
    rw [hf _ _ (by rw [lincomb_shape]; exact hx₁) (by
      obtain ⟨z₁, rfl, h1⟩ := some_of_shape hz₁
      obtain ⟨z₂, rfl, h2⟩ := some_of_shape hz₂
      exact congrArg some h1)]
    refine ok_pair ?_ rfl
    rw [lincomb_signal]
    congr 1
    funext i t p
    exact Lpv.anyRec_lin _ _ c d (fun m => zval_lin (hz₁.trans hz₂.symm) i m)
      (fun t m => memoryless_lin (hx₁.trans hx₂.symm) i t m) _ _
  · intro T x₁ x₂ z hx₁ hz h
    refine ⟨_, _, _, _, hf x₁ z hx₁ hz, hf x₂ z (h.1.symm.trans hx₁) hz, agreeTo_signal fun i t p ht => ?_⟩
    exact Lpv.anyRec_input hu (fun s m hs => memoryless_agree h (by
      rw [show x₁.rank = x.rank from congrArg List.length hx₁]; exact drive_rank hx) (by omega)) _

/-! ## State space -/

theorem lti_stateSpace_both {B N M : Nat} {A x : Tensor α} {Bm C D zi : Option (Tensor α)} {k : Option Nat}
    {Av v d : Nat → Nat → Nat → α} {r : Nat → (Nat → α) → Nat → α} {z : Nat → Nat → α} {u : Option Int}
    (hA : MatVals B M M A Av) (hB : LtiInput B N M Bm x v) (hC : LtiReadout B M C k r) (hD : LtiFeed B N D x k d)
    (hz : InitState B M zi z) (hM : 0 < M) (hN : 0 < N) (hu : ∀ i, u = some i → 1 ≤ i) :
    LinearOn (fun x zi => Lti.stateSpace A x Bm C D zi u none) x.shape (zi.map shape) ∧
      CausalOn (fun x zi => Lti.stateSpace A x Bm C D zi u none) x.shape (zi.map shape) := by
  obtain ⟨F, g, hg⟩ := ltiInput_memoryless hB
  obtain ⟨F', g', hg'⟩ := ltiFeed_memoryless hD
  refine both_signal (k := k) (B := B) (N := N) (M := M)
    (fun x zi i t p => r i (vecRec M (fun _ => Av i) (zval zi i) (memoryless F g x i) t) p + memoryless F' g' x i t p)
    (fun x zi i m => vecRec M (fun _ => Av i) (zval zi i) (memoryless F g x i) N m)
    (fun x' z' hx' hz' => ?_) (fun c d x₁ x₂ z₁ z₂ hx hz i t p => ?_) (fun c d x₁ x₂ z₁ z₂ hx hz i m => ?_)
    (fun T x₁ x₂ z hx h i t p ht => ?_)
  · exact Lti.stateSpace_eq hA (hg x' hx') hC (hg' x' hx') (initState_vals hz hz') hM hN hu
  · rw [ltiReadout_lin hC c d (fun m => vecRec_lin _ c d (fun m => zval_lin hz i m)
      (fun t m => memoryless_lin hx i t m) t m) i p, memoryless_lin hx]
    ring
  · exact vecRec_lin _ c d (fun m => zval_lin hz i m) (fun t m => memoryless_lin hx i t m) N m
  · have hr : x₁.rank ≠ 1 := by
      rw [show x₁.rank = x.rank from congrArg List.length hx]; exact ltiInput_rank hB
    rw [memoryless_agree h hr ht, show vecRec M (fun _ => Av i) (zval z i) (memoryless F g x₁ i) t =
      vecRec M (fun _ => Av i) (zval z i) (memoryless F g x₂ i) t from funext fun m =>
        vecRec_agree (T := t) (fun _ _ _ _ => rfl) (fun s m hs => memoryless_agree h hr (by omega)) le_rfl m]

theorem lpv_stateSpace_both {B N M : Nat} {A x : Tensor α} {Bm C D zi : Option (Tensor α)} {k : Option Nat}
    {Av : Nat → Nat → Nat → Nat → α} {v d : Nat → Nat → Nat → α} {r : Nat → Nat → (Nat → α) → Nat → α}
    {z : Nat → Nat → α} {u : Option Int} (hA : MatSeq B N M M A Av) (hB : LpvInput B N M Bm x v)
    (hC : LpvReadout B N M C k r) (hD : LpvFeed B N D x k d) (hz : InitState B M zi z) (hB0 : 0 < B) (hM : 0 < M)
    (hN : 0 < N) (hu : ∀ i, u = some i → 1 ≤ i) :
    LinearOn (fun x zi => Lpv.stateSpace A x Bm C D zi u none) x.shape (zi.map shape) ∧
      CausalOn (fun x zi => Lpv.stateSpace A x Bm C D zi u none) x.shape (zi.map shape) := by
  obtain ⟨F, g, hg⟩ := lpvInput_memoryless hB
  obtain ⟨F', g', hg'⟩ := lpvFeed_memoryless hD
  refine both_signal (k := k) (B := B) (N := N) (M := M)
    (fun x zi i t p => r i t (Lpv.anyRec M N (u.getD (roundSqrt N)) (Av i) (zval zi i) (memoryless F g x i) t) p + memoryless F' g' x i t p)
    (fun x zi i m => Lpv.anyRec M N (u.getD (roundSqrt N)) (Av i) (zval zi i) (memoryless F g x i) N m)
    (fun x' z' hx' hz' => ?_) (fun c d x₁ x₂ z₁ z₂ hx hz i t p => ?_) (fun c d x₁ x₂ z₁ z₂ hx hz i m => ?_)
    (fun T x₁ x₂ z hx h i t p ht => ?_)
  · exact Lpv.stateSpace_any hA (hg x' hx') hC (hg' x' hx') (initState_vals hz hz') hB0 hM hN hu
  · rw [lpvReadout_lin hC c d (fun m => Lpv.anyRec_lin _ _ c d (fun m => zval_lin hz i m)
      (fun t m => memoryless_lin hx i t m) t m) i t p, memoryless_lin hx]
    ring
  · exact Lpv.anyRec_lin _ _ c d (fun m => zval_lin hz i m) (fun t m => memoryless_lin hx i t m) N m
  · have hr : x₁.rank ≠ 1 := by
      rw [show x₁.rank = x.rank from congrArg List.length hx]; exact lpvInput_rank hB
    rw [memoryless_agree h hr ht, show Lpv.anyRec M N (u.getD (roundSqrt N)) (Av i) (zval z i) (memoryless F g x₁ i) t =
      Lpv.anyRec M N (u.getD (roundSqrt N)) (Av i) (zval z i) (memoryless F g x₂ i) t from funext fun m =>
        Lpv.anyRec_input (Lpv.UnrollOk.getD hu hN) (fun s m hs => memoryless_agree h hr (by omega)) m]

/-! ## FIR filters -/

omit [StarRing α] in
theorem none_of_shape {z : Option (Tensor α)} (h : z.map shape = none) : z = none := by
  cases z with
  | none => rfl
  | some z => simp at h

omit [CommRing α] [StarRing α] in
theorem withPast_agree [Zero α] {T : Nat} {z x y : Nat → α} (h : ∀ t, t ≤ T → x t = y t) {n : Int} (hn : n ≤ T) :
    withPast z x n = withPast z y n := by
  unfold withPast
  split
  · rfl
  · exact h _ (by omega)

theorem lti_fir_none_both {B M N : Nat} (b : Nat → Nat → α) (tr : Bool) (hB : 0 < B) (hN : 0 < N)
    (hM : tr = true → 0 < M) :
    LinearOn (fun x zi => Lti.fir (t2 B (M + 1) b) x zi tr) [B, N] none ∧
      CausalOn (fun x zi => Lti.fir (t2 B (M + 1) b) x zi tr) [B, N] none := by
  refine both_packed (fl := false) (B := B) (N := N) (M := 0) (st := false)
    (fun x _ i t => taps (M + 1) (fun k => if tr then star (b i k) else b i k) (causal (xval x i)) t) (fun _ _ _ _ => 0)
    (fun x z hx hz => ?_) (fun c d x₁ x₂ z₁ z₂ hx hz i t => ?_) (fun c d _ _ _ _ _ _ i m => by ring)
    (fun T x₁ x₂ z hx h i t ht => ?_)
  · cases none_of_shape hz
    conv_lhs => rw [sig2 hx]
    cases tr with
    | true => exact Lti.fir_transpose_none b _ hB hN (hM rfl)
    | false => exact Lti.fir_direct_none b _ hB hN
  · exact taps_lin _ _ c d (fun n => causal_lin c d (fun t => xval_lin hx i t) n) _
  · exact taps_agree (T := t) (fun _ => rfl) (fun n hn => causal_agree (T := t) (fun s hs => xval_agree h (by omega)) hn) le_rfl

theorem lti_fir_direct_both {B M N : Nat} (b : Nat → Nat → α) (hB : 0 < B) (hM : 0 < M) (hN : 0 < N) :
    LinearOn (fun x zi => Lti.fir (t2 B (M + 1) b) x zi false) [B, N] (some [B, M]) ∧
      CausalOn (fun x zi => Lti.fir (t2 B (M + 1) b) x zi false) [B, N] (some [B, M]) := by
  refine both_packed (fl := false) (B := B) (N := N) (M := M) (st := true)
    (fun x z i t => taps (M + 1) (b i) (withPast (zval z i) (xval x i)) t)
    (fun x z i m => withPast (zval z i) (xval x i) ((N : Int) - 1 - m))
    (fun x z hx hz => ?_) (fun c d x₁ x₂ z₁ z₂ hx hz i t => ?_) (fun c d x₁ x₂ z₁ z₂ hx hz i m => ?_)
    (fun T x₁ x₂ z hx h i t ht => ?_)
  · obtain ⟨z, rfl, hs⟩ := some_of_shape hz
    conv_lhs => rw [sig2 hx, st2 hs]
    exact Lti.fir_direct_some b _ _ hB hM hN
  · exact taps_lin _ _ c d (fun n => withPast_lin c d (fun m => zval_lin hz i m) (fun t => xval_lin hx i t) n) _
  · exact withPast_lin c d (fun m => zval_lin hz i m) (fun t => xval_lin hx i t) _
  · exact taps_agree (T := t) (fun _ => rfl) (fun n hn => withPast_agree (T := t) (fun s hs => xval_agree h (by omega)) hn) le_rfl

theorem lti_fir_transposed_both {B M N : Nat} (b : Nat → Nat → α) (hB : 0 < B) (hM : 0 < M) (hMN : M ≤ N) :
    LinearOn (fun x zi => Lti.fir (t2 B (M + 1) b) x zi true) [B, N] (some [B, M]) ∧
      CausalOn (fun x zi => Lti.fir (t2 B (M + 1) b) x zi true) [B, N] (some [B, M]) := by
  refine both_packed (fl := false) (B := B) (N := N) (M := M) (st := true)
    (fun x z i t => taps (M + 1) (fun k => star (b i k)) (causal (xval x i)) t + if t < M then zval z i t else 0)
    (fun x z i m => Phil.Lti.fullConv N M (fun k => star (b i k)) (xval x i) (N + m))
    (fun x z hx hz => ?_) (fun c d x₁ x₂ z₁ z₂ hx hz i t => ?_) (fun c d x₁ x₂ z₁ z₂ hx hz i m => ?_)
    (fun T x₁ x₂ z hx h i t ht => ?_)
  · obtain ⟨z, rfl, hs⟩ := some_of_shape hz
    conv_lhs => rw [sig2 hx, st2 hs]
    exact Lti.fir_transpose_some b _ _ hB hM hMN
  · rw [taps_lin _ _ c d (fun n => causal_lin c d (fun t => xval_lin hx i t) n), zval_lin hz]
    split <;> ring
  · exact fullConv_lin _ c d (fun t => xval_lin hx i t) _
  · exact congrArg₂ (· + ·) (taps_agree (T := t) (fun _ => rfl)
      (fun n hn => causal_agree (T := t) (fun s hs => xval_agree h (by omega)) hn) le_rfl) rfl

theorem lpv_fir_direct_none_both {B M N : Nat} (b : Nat → Nat → Nat → α) (hN : 0 < N) :
    LinearOn (fun x zi => Lpv.fir (t3 B N (M + 1) b) x zi false) [B, N] none ∧
      CausalOn (fun x zi => Lpv.fir (t3 B N (M + 1) b) x zi false) [B, N] none := by
  refine both_packed (fl := false) (B := B) (N := N) (M := 0) (st := false)
    (fun x _ i t => taps (M + 1) (b i t) (causal (xval x i)) t) (fun _ _ _ _ => 0)
    (fun x z hx hz => ?_) (fun c d x₁ x₂ z₁ z₂ hx hz i t => ?_) (fun c d _ _ _ _ _ _ i m => by ring)
    (fun T x₁ x₂ z hx h i t ht => ?_)
  · cases none_of_shape hz
    conv_lhs => rw [sig2 hx]
    exact Lpv.fir_direct_none b _ hN
  · exact taps_lin _ _ c d (fun n => causal_lin c d (fun t => xval_lin hx i t) n) _
  · exact taps_agree (T := t) (fun _ => rfl) (fun n hn => causal_agree (T := t) (fun s hs => xval_agree h (by omega)) hn) le_rfl

theorem lpv_fir_direct_both {B M N : Nat} (b : Nat → Nat → Nat → α) (hN : 0 < N) :
    LinearOn (fun x zi => Lpv.fir (t3 B N (M + 1) b) x zi false) [B, N] (some [B, M]) ∧
      CausalOn (fun x zi => Lpv.fir (t3 B N (M + 1) b) x zi false) [B, N] (some [B, M]) := by
  refine both_packed (fl := false) (B := B) (N := N) (M := M) (st := true)
    (fun x z i t => taps (M + 1) (b i t) (withPast (zval z i) (xval x i)) t)
    (fun x z i m => withPast (zval z i) (xval x i) ((N : Int) - 1 - m))
    (fun x z hx hz => ?_) (fun c d x₁ x₂ z₁ z₂ hx hz i t => ?_) (fun c d x₁ x₂ z₁ z₂ hx hz i m => ?_)
    (fun T x₁ x₂ z hx h i t ht => ?_)
  · obtain ⟨z, rfl, hs⟩ := some_of_shape hz
    conv_lhs => rw [sig2 hx, st2 hs]
    exact Lpv.fir_direct_some b _ _ hN
  · exact taps_lin _ _ c d (fun n => withPast_lin c d (fun m => zval_lin hz i m) (fun t => xval_lin hx i t) n) _
  · exact withPast_lin c d (fun m => zval_lin hz i m) (fun t => xval_lin hx i t) _
  · exact taps_agree (T := t) (fun _ => rfl) (fun n hn => withPast_agree (T := t) (fun s hs => xval_agree h (by omega)) hn) le_rfl

theorem lpv_fir_transposed_none_both {B M N : Nat} (b : Nat → Nat → Nat → α) (hM : 0 < M) (hN : 0 < N) :
    LinearOn (fun x zi => Lpv.fir (t3 B N (M + 1) b) x zi true) [B, N] none ∧
      CausalOn (fun x zi => Lpv.fir (t3 B N (M + 1) b) x zi true) [B, N] none := by
  refine both_packed (fl := false) (B := B) (N := N) (M := 0) (st := false)
    (fun x _ i t => tvConv N M (fun n j => star (b i n j)) (xval x i) t) (fun _ _ _ _ => 0)
    (fun x z hx hz => ?_) (fun c d x₁ x₂ z₁ z₂ hx hz i t => ?_) (fun c d _ _ _ _ _ _ i m => by ring)
    (fun T x₁ x₂ z hx h i t ht => ?_)
  · cases none_of_shape hz
    conv_lhs => rw [sig2 hx]
    exact Lpv.fir_transposed_none b _ hM hN
  · exact tvConv_lin _ c d (fun t => xval_lin hx i t) _
  · exact tvConv_agree (T := t) (fun _ _ _ => rfl) (fun s hs => xval_agree h (by omega)) le_rfl

theorem lpv_fir_transposed_both {B M N : Nat} (b : Nat → Nat → Nat → α) (hN : 0 < N) (hMN : M ≤ N) :
    LinearOn (fun x zi => Lpv.fir (t3 B N (M + 1) b) x zi true) [B, N] (some [B, M]) ∧
      CausalOn (fun x zi => Lpv.fir (t3 B N (M + 1) b) x zi true) [B, N] (some [B, M]) := by
  refine both_packed (fl := false) (B := B) (N := N) (M := M) (st := true)
    (fun x z i t => tvConv N M (fun n j => star (b i n j)) (xval x i) t + if t < M then zval z i t else 0)
    (fun x z i m => tvConv N M (fun n j => star (b i n j)) (xval x i) (N + m))
    (fun x z hx hz => ?_) (fun c d x₁ x₂ z₁ z₂ hx hz i t => ?_) (fun c d x₁ x₂ z₁ z₂ hx hz i m => ?_)
    (fun T x₁ x₂ z hx h i t ht => ?_)
  · obtain ⟨z, rfl, hs⟩ := some_of_shape hz
    conv_lhs => rw [sig2 hx, st2 hs]
    exact Lpv.fir_transposed_some b _ _ hN hMN
  · rw [tvConv_lin _ c d (fun t => xval_lin hx i t), zval_lin hz]
    split <;> ring
  · exact tvConv_lin _ c d (fun t => xval_lin hx i t) _
  · exact congrArg₂ (· + ·) (tvConv_agree (T := t) (fun _ _ _ => rfl) (fun s hs => xval_agree h (by omega)) le_rfl) rfl

/-! ## `lfilter` -/

section
variable {B N K P : Nat} {b a X : Tensor α} {zi : Option (Tensor α)}

theorem lti_df2_both {bv av x z : Nat → Nat → α} {u : Option Int} (hb : Rows B K b bv) (ha : Rows B P a av)
    (hx : Sig N B X x) (hz : InitState B (max P (K - 1)) zi z) (hK : 0 < K) (hM : 0 < max P (K - 1)) (hN : 0 < N)
    (hu : ∀ i, u = some i → 1 ≤ i) :
    LinearOn (fun x zi => Lti.lfilter b a x zi .df2 u) X.shape (zi.map shape) ∧
      CausalOn (fun x zi => Lti.lfilter b a x zi .df2 u) X.shape (zi.map shape) := by
  refine both_packed (fl := allFlat X b a zi) (B := B) (N := N) (M := max P (K - 1)) (st := zi.isSome)
    (fun X z i t => taps K (bv i) (tvSignal (max P (K - 1)) (fun _ => zext P (av i)) (zval z i) (xval X i)) t)
    (fun X z i m => tvSignal (max P (K - 1)) (fun _ => zext P (av i)) (zval z i) (xval X i) ((N : Int) - 1 - m))
    (fun X' z' hX' hz' => ?_) (fun c d x₁ x₂ z₁ z₂ hx hz i t => ?_) (fun c d x₁ x₂ z₁ z₂ hx hz i m => ?_)
    (fun T x₁ x₂ z hx h i t ht => ?_)
  · rw [← allFlat_shape hX' hz', ← isSome_of_shape hz']
    exact Lti.lfilterWith_eq hb ha (sig_vals hx hX') (Lti.ssmLfilter_df2 hb ha _ (initState_vals hz hz') hK hM hN hu)
  · exact taps_lin _ _ c d (fun n => tvSignal_lin _ c d (fun m => zval_lin hz i m) (fun t => xval_lin hx i t) n) _
  · exact tvSignal_lin _ c d (fun m => zval_lin hz i m) (fun t => xval_lin hx i t) _
  · exact taps_agree (T := t) (fun _ => rfl)
      (fun n hn => tvSignal_agree (T := t) (fun _ _ _ => rfl) (fun s hs => xval_agree h (by omega)) hn) le_rfl

theorem lti_tdf2_both {bv av x z : Nat → Nat → α} {u : Option Int} (hb : Rows B K b bv) (ha : Rows B P a av)
    (hx : Sig N B X x) (hz : InitState B (max P (K - 1)) zi z) (hK : 0 < K) (hM : 0 < max P (K - 1)) (hN : 0 < N)
    (hu : ∀ i, u = some i → 1 ≤ i) :
    LinearOn (fun x zi => Lti.lfilter b a x zi .tdf2 u) X.shape (zi.map shape) ∧
      CausalOn (fun x zi => Lti.lfilter b a x zi .tdf2 u) X.shape (zi.map shape) := by
  refine both_packed (fl := allFlat X b a zi) (B := B) (N := N) (M := max P (K - 1)) (st := zi.isSome)
    (fun X z i t => tvTdf2Out (max P (K - 1)) (fun _ k => star (zext K (bv i) k)) (fun _ k => star (zext P (av i) k))
      (zval z i) (xval X i) t)
    (fun X z i m => tvTdf2State (max P (K - 1)) (fun _ k => star (zext K (bv i) k)) (fun _ k => star (zext P (av i) k))
      (zval z i) (xval X i) N m)
    (fun X' z' hX' hz' => ?_) (fun c d x₁ x₂ z₁ z₂ hx hz i t => ?_) (fun c d x₁ x₂ z₁ z₂ hx hz i m => ?_)
    (fun T x₁ x₂ z hx h i t ht => ?_)
  · rw [← allFlat_shape hX' hz', ← isSome_of_shape hz']
    exact Lti.lfilterWith_eq hb ha (sig_vals hx hX') (Lti.ssmLfilter_tdf2 hb ha _ (initState_vals hz hz') hK hM hN hu)
  · exact tvTdf2Out_lin _ _ c d (fun m => zval_lin hz i m) (fun t => xval_lin hx i t) _
  · exact tvTdf2State_lin _ _ c d (fun m => zval_lin hz i m) (fun t => xval_lin hx i t) _ _
  · exact tvTdf2Out_agree (T := t) (fun _ _ _ => rfl) (fun _ _ _ => rfl) (fun s hs => xval_agree h (by omega)) le_rfl

/-- Forms I ignore the state argument. -/
theorem lti_df1_both {bv av x : Nat → Nat → α} {u : Option Int} (hb : Rows B K b bv) (ha : Rows B P a av)
    (hx : Sig N B X x) (sz : Option (List Nat)) (hsz : sz = none) (hB : 0 < B) (hK : 0 < K) (hM : 0 < max P (K - 1))
    (hN : 0 < N) (hu : ∀ i, u = some i → 1 ≤ i) :
    LinearOn (fun x zi => Lti.lfilter b a x zi .df1 u) X.shape sz ∧
      CausalOn (fun x zi => Lti.lfilter b a x zi .df1 u) X.shape sz := by
  subst hsz
  refine both_packed (fl := allFlat X b a none) (B := B) (N := N) (M := 0) (st := false)
    (fun X _ i t => tvSignal (max P (K - 1)) (fun _ => zext P (av i)) (fun _ => 0)
      (fun t => taps K (fun k => star (bv i k)) (causal (xval X i)) t) t) (fun _ _ _ _ => 0)
    (fun X' z' hX' hz' => ?_) (fun c d x₁ x₂ z₁ z₂ hx hz i t => ?_) (fun c d _ _ _ _ _ _ i m => by ring)
    (fun T x₁ x₂ z hx h i t ht => ?_)
  · cases none_of_shape hz'
    rw [← allFlat_shape (z := none) (z' := none) hX' rfl]
    exact Lti.lfilterWith_eq (c := false) (M := 0) (zf := fun _ _ => 0) hb ha (sig_vals hx hX')
      (Lti.ssmLfilter_df1 hb ha _ none hB hK hM hN hu)
  · exact tvSignal_lin _ c d (fun m => by ring)
      (fun t => taps_lin _ _ c d (fun n => causal_lin c d (fun t => xval_lin hx i t) n) _) _
  · exact tvSignal_agree (T := t) (fun _ _ _ => rfl) (fun s hs => taps_agree (T := t) (fun _ => rfl)
      (fun n hn => causal_agree (T := t) (fun s hs => xval_agree h (by omega)) hn) (by omega)) le_rfl

theorem lti_tdf1_both {bv av x : Nat → Nat → α} {u : Option Int} (hb : Rows B K b bv) (ha : Rows B P a av)
    (hx : Sig N B X x) (sz : Option (List Nat)) (hsz : sz = none) (hB : 0 < B) (hK : 0 < K) (hM : 0 < max P (K - 1))
    (hN : 0 < N) (hu : ∀ i, u = some i → 1 ≤ i) :
    LinearOn (fun x zi => Lti.lfilter b a x zi .tdf1 u) X.shape sz ∧
      CausalOn (fun x zi => Lti.lfilter b a x zi .tdf1 u) X.shape sz := by
  subst hsz
  refine both_packed (fl := allFlat X b a none) (B := B) (N := N) (M := 0) (st := false)
    (fun X _ i t => taps K (bv i) (causal fun t => vecRec (max P (K - 1))
        (fun _ k j => comp (fun m => star (zext P (av i) m)) j k) (fun _ => 0) (first (xval X i)) (t + 1) 0) t)
    (fun _ _ _ _ => 0)
    (fun X' z' hX' hz' => ?_) (fun c d x₁ x₂ z₁ z₂ hx hz i t => ?_) (fun c d _ _ _ _ _ _ i m => by ring)
    (fun T x₁ x₂ z hx h i t ht => ?_)
  · cases none_of_shape hz'
    rw [← allFlat_shape (z := none) (z' := none) hX' rfl]
    exact Lti.lfilterWith_eq (c := false) (M := 0) (zf := fun _ _ => 0) hb ha (sig_vals hx hX')
      (Lti.ssmLfilter_tdf1 hb ha _ none hB hK hM hN hu)
  · exact taps_lin _ _ c d (fun n => causal_lin c d (fun t => vecRec_lin _ c d (fun m => by ring)
      (fun t m => first_lin c d (fun t => xval_lin hx i t) t m) _ _) n) _
  · exact taps_agree (T := t) (fun _ => rfl) (fun n hn => causal_agree (T := t) (fun s hs =>
      vecRec_agree (T := t + 1) (fun _ _ _ _ => rfl) (fun r m hr => by unfold first; rw [xval_agree h (by omega)]) (by omega) _)
      hn) le_rfl

theorem lpv_df2_both {bv av : Nat → Nat → Nat → α} {x z : Nat → Nat → α} {u : Option Int} (lpc : Lpv.Lpc α)
    (hb : MatVals B N K b bv) (ha : MatVals B N P a av) (hx : Sig N B X x) (hz : InitState B (max P (K - 1)) zi z)
    (hBN : b.rank = 2 ∧ a.rank = 2 ∨ B ≠ N) (hB : 0 < B) (hK : 0 < K) (hM : 0 < max P (K - 1)) (hN : 0 < N)
    (hu : ∀ i, u = some i → 1 ≤ i) :
    LinearOn (fun x zi => Lpv.lfilter lpc b a x zi .df2 .ssm u) X.shape (zi.map shape) ∧
      CausalOn (fun x zi => Lpv.lfilter lpc b a x zi .df2 .ssm u) X.shape (zi.map shape) := by
  refine both_packed (fl := allFlatTv X b a zi) (B := B) (N := N) (M := max P (K - 1)) (st := zi.isSome)
    (fun X z i t => Lpv.anyDf2Out (max P (K - 1)) N (u.getD (roundSqrt N)) (fun t => zext K (bv i t)) (fun t => zext P (av i t))
      (zval z i) (xval X i) t)
    (fun X z i m => Lpv.anyRec (max P (K - 1)) N (u.getD (roundSqrt N)) (fun t => comp (zext P (av i t))) (zval z i) (first (xval X i)) N m)
    (fun X' z' hX' hz' => ?_) (fun c d x₁ x₂ z₁ z₂ hx hz i t => ?_) (fun c d x₁ x₂ z₁ z₂ hx hz i m => ?_)
    (fun T x₁ x₂ z hx h i t ht => ?_)
  · rw [← allFlatTv_shape hX' hz', ← isSome_of_shape hz']
    exact Lpv.lfilterWith_seq hb ha (sig_vals hx hX')
      (Lpv.ssmLfilter_df2_any hb ha _ (initState_vals hz hz') hBN hB hK hM hN hu)
  · exact Lpv.anyDf2Out_lin _ _ _ c d (fun m => zval_lin hz i m) (fun t => xval_lin hx i t) t
  · exact Lpv.anyRec_lin _ _ c d (fun m => zval_lin hz i m) (fun t m => first_lin c d (fun t => xval_lin hx i t) t m) _ _
  · exact Lpv.anyDf2Out_causal (Lpv.UnrollOk.getD hu hN) (fun _ => rfl) (fun _ _ _ => rfl) (fun s hs => xval_agree h (by omega))

theorem lpv_tdf2_both {bv av : Nat → Nat → Nat → α} {x z : Nat → Nat → α} {u : Option Int} (lpc : Lpv.Lpc α)
    (hb : MatVals B N K b bv) (ha : MatVals B N P a av) (hx : Sig N B X x) (hz : InitState B (max P (K - 1)) zi z)
    (hBN : b.rank = 2 ∨ B ≠ N) (hB : 0 < B) (hK : 0 < K) (hM : 0 < max P (K - 1)) (hN : 0 < N)
    (hu : ∀ i, u = some i → 1 ≤ i) :
    LinearOn (fun x zi => Lpv.lfilter lpc b a x zi .tdf2 .ssm u) X.shape (zi.map shape) ∧
      CausalOn (fun x zi => Lpv.lfilter lpc b a x zi .tdf2 .ssm u) X.shape (zi.map shape) := by
  refine both_packed (fl := allFlatTv X b a zi) (B := B) (N := N) (M := max P (K - 1)) (st := zi.isSome)
    (fun X z i t => Lpv.anyTdf2State (max P (K - 1)) N (u.getD (roundSqrt N)) (fun t k => star (zext K (bv i t) k)) (fun t k => star (zext P (av i t) k))
      (zval z i) (xval X i) t 0 + star (zext K (bv i t) 0) * xval X i t)
    (fun X z i m => Lpv.anyTdf2State (max P (K - 1)) N (u.getD (roundSqrt N)) (fun t k => star (zext K (bv i t) k)) (fun t k => star (zext P (av i t) k))
      (zval z i) (xval X i) N m)
    (fun X' z' hX' hz' => ?_) (fun c d x₁ x₂ z₁ z₂ hx hz i t => ?_) (fun c d x₁ x₂ z₁ z₂ hx hz i m => ?_)
    (fun T x₁ x₂ z hx h i t ht => ?_)
  · rw [← allFlatTv_shape hX' hz', ← isSome_of_shape hz']
    exact Lpv.lfilterWith_seq hb ha (sig_vals hx hX')
      (Lpv.ssmLfilter_tdf2_any hb ha _ (initState_vals hz hz') hBN hB hK hM hN hu)
  · rw [Lpv.anyTdf2State_lin _ _ _ c d (fun m => zval_lin hz i m) (fun t => xval_lin hx i t), xval_lin hx]
    ring
  · exact Lpv.anyTdf2State_lin _ _ _ c d (fun m => zval_lin hz i m) (fun t => xval_lin hx i t) _ _
  · rw [Lpv.anyTdf2State_causal (Lpv.UnrollOk.getD hu hN) (fun _ _ _ => rfl) (fun _ _ _ => rfl) (fun s hs => xval_agree h (by omega)), xval_agree h (by omega)]

theorem lpv_df1_both {bv av : Nat → Nat → Nat → α} {x : Nat → Nat → α} {u : Option Int} (lpc : Lpv.Lpc α)
    (hb : MatVals B N K b bv) (ha : MatVals B N P a av) (hx : Sig N B X x) (sz : Option (List Nat)) (hsz : sz = none)
    (hB : 0 < B) (hK : 0 < K) (hM : 0 < max P (K - 1)) (hN : 0 < N) (hu : ∀ i, u = some i → 1 ≤ i) :
    LinearOn (fun x zi => Lpv.lfilter lpc b a x zi .df1 .ssm u) X.shape sz ∧
      CausalOn (fun x zi => Lpv.lfilter lpc b a x zi .df1 .ssm u) X.shape sz := by
  subst hsz
  refine both_packed (fl := allFlatTv X b a none) (B := B) (N := N) (M := 0) (st := false)
    (fun X _ i t => Lpv.anyRec (max P (K - 1)) N (u.getD 1) (fun t => comp (zext P (av i t))) (fun _ => 0)
      (first fun t => taps K (bv i t) (causal (xval X i)) t) (t + 1) 0) (fun _ _ _ _ => 0)
    (fun X' z' hX' hz' => ?_) (fun c d x₁ x₂ z₁ z₂ hx hz i t => ?_) (fun c d _ _ _ _ _ _ i m => by ring)
    (fun T x₁ x₂ z hx h i t ht => ?_)
  · cases none_of_shape hz'
    rw [← allFlatTv_shape (z := none) (z' := none) hX' rfl]
    exact Lpv.lfilterWith_seq (c := false) (M := 0) (zf := fun _ _ => 0) hb ha (sig_vals hx hX')
      (Lpv.ssmLfilter_df1_any hb ha _ none hB hK hM hN hu)
  · exact Lpv.anyRec_lin _ _ c d (fun m => by ring) (fun t m => first_lin c d
      (fun t => taps_lin _ _ c d (fun n => causal_lin c d (fun t => xval_lin hx i t) n) _) t m) _ _
  · refine Lpv.anyRec_input (Lpv.UnrollOk.getD_one hu) (fun s m hs => ?_) _
    unfold first
    exact if_congr Iff.rfl (taps_agree (T := t) (fun _ => rfl)
      (fun n hn => causal_agree (T := t) (fun s hs => xval_agree h (by omega)) hn) (by omega)) rfl

theorem lpv_tdf1_both {bv av : Nat → Nat → Nat → α} {x : Nat → Nat → α} {u : Option Int} (lpc : Lpv.Lpc α)
    (hb : MatVals B N K b bv) (ha : MatVals B N P a av) (hx : Sig N B X x) (sz : Option (List Nat)) (hsz : sz = none)
    (hB : 0 < B) (hK : 0 < K) (hM : 0 < max P (K - 1)) (hN : 0 < N) (hu : ∀ i, u = some i → 1 ≤ i) :
    LinearOn (fun x zi => Lpv.lfilter lpc b a x zi .tdf1 .ssm u) X.shape sz ∧
      CausalOn (fun x zi => Lpv.lfilter lpc b a x zi .tdf1 .ssm u) X.shape sz := by
  subst hsz
  refine both_packed (fl := allFlatTv X b a none) (B := B) (N := N) (M := 0) (st := false)
    (fun X _ i t => tvConv N (max P (K - 1)) (fun t => zext K (bv i t)) (fun t => Lpv.anyRec (max P (K - 1)) N (u.getD 1)
        (fun t k j => comp (fun m => star (zext P (av i t) m)) j k) (fun _ => 0) (first (xval X i)) (t + 1) 0) t)
    (fun _ _ _ _ => 0)
    (fun X' z' hX' hz' => ?_) (fun c d x₁ x₂ z₁ z₂ hx hz i t => ?_) (fun c d _ _ _ _ _ _ i m => by ring)
    (fun T x₁ x₂ z hx h i t ht => ?_)
  · cases none_of_shape hz'
    rw [← allFlatTv_shape (z := none) (z' := none) hX' rfl]
    exact Lpv.lfilterWith_seq (c := false) (M := 0) (zf := fun _ _ => 0) hb ha (sig_vals hx hX')
      (Lpv.ssmLfilter_tdf1_any hb ha _ none hB hK hM hN hu)
  · exact tvConv_lin _ c d (fun t => Lpv.anyRec_lin _ _ c d (fun m => by ring)
      (fun t m => first_lin c d (fun t => xval_lin hx i t) t m) _ _) _
  · exact tvConv_agree (T := t) (fun _ _ _ => rfl) (fun s hs =>
      Lpv.anyRec_input (Lpv.UnrollOk.getD_one hu) (fun r m hr => by unfold first; rw [xval_agree h (by omega)]) _)
      le_rfl

end

/-! ## Comb filter -/

omit [StarRing α] in
theorem combSig_lin (D : Nat) (a c d : α) {z z₁ z₂ x x₁ x₂ : Nat → α} (hz : ∀ t, z t = c * z₁ t + d * z₂ t)
    (hx : ∀ t, x t = c * x₁ t + d * x₂ t) (n : Int) :
    combSig D a z x n = c * combSig D a z₁ x₁ n + d * combSig D a z₂ x₂ n := by
  unfold combSig
  split
  · exact hz _
  · exact scalarRec_lin _ c d (hz _) (fun t => hx _) _

omit [StarRing α] in
theorem combSig_agree {D : Nat} (hD : 0 < D) {a : α} {T : Nat} {z x y : Nat → α} (h : ∀ t, t ≤ T → x t = y t) {n : Nat}
    (hn : n ≤ T) : combSig D a z x n = combSig D a z y n := by
  induction n using Nat.strong_induction_on with
  | _ n ih =>
    rw [combSig_rec hD, combSig_rec hD, h n hn]
    by_cases hD' : D ≤ n
    · rw [show (n : Int) - D = (n - D : Nat) by omega, ih (n - D) (by omega) (by omega)]
    · rw [show (n : Int) - D = -1 - ((D - n - 1 : Nat) : Int) by omega, combSig_past, combSig_past]

omit [StarRing α] in
theorem past_vals {B D : Nat} {zi : Option (Tensor α)} {z : Nat → Nat → α} (h : Past B D zi z)
    {zi' : Option (Tensor α)} (hs : zi'.map shape = zi.map shape) : Past B D zi' (zval zi') := by
  cases h with
  | none => cases none_of_shape hs; exact .none
  | shared z =>
    obtain ⟨z', rfl, hs'⟩ := some_of_shape hs
    obtain ⟨f, rfl, hf⟩ := of_shape1 hs'
    rw [show zval (some (t1 D f)) = fun _ => f from by funext i m; simp [zval, hf]]
    exact .shared f
  | batched z =>
    obtain ⟨z', rfl, hs'⟩ := some_of_shape hs
    obtain ⟨f, rfl, hf⟩ := of_shape2 hs'
    rw [show zval (some (t2 B D f)) = f from by funext i m; simp [zval, hf]]
    exact .batched f

theorem comb_both {B N D : Nat} {a : Tensor α} {av : Nat → α} {zi : Option (Tensor α)} {z : Nat → Nat → α} {u : Int}
    (ha : PerItem B a av) (hz : Past B D zi z) (hD : 2 ≤ D) (hN : 0 < N) (hu : 1 ≤ u) :
    LinearOn (fun x zi => Lti.combFilter true a D x zi u) [B, N] (zi.map shape) ∧
      CausalOn (fun x zi => Lti.combFilter true a D x zi u) [B, N] (zi.map shape) := by
  refine both_packed (fl := false) (B := B) (N := N) (M := min D N) (st := zi.isSome)
    (fun X z i t => combSig D (av i) (zval z i) (xval X i) t)
    (fun X z i m => combSig D (av i) (zval z i) (xval X i) ((N : Int) - 1 - m))
    (fun X' z' hX' hz' => ?_) (fun c d x₁ x₂ z₁ z₂ hx hz i t => ?_) (fun c d x₁ x₂ z₁ z₂ hx hz i m => ?_)
    (fun T x₁ x₂ z hx h i t ht => ?_)
  · rw [← isSome_of_shape hz']
    conv_lhs => rw [sig2 hX']
    rw [Lti.combFilter_eq (xval X') ha (past_vals hz hz') hD hN hu]
    refine ok_pair rfl ?_
    cases z' <;> rfl
  · exact combSig_lin D _ c d (fun m => zval_lin hz i m) (fun t => xval_lin hx i t) _
  · exact combSig_lin D _ c d (fun m => zval_lin hz i m) (fun t => xval_lin hx i t) _
  · exact combSig_agree (by omega) (fun s hs => xval_agree h (by omega)) ht

theorem comb_one_both {B N : Nat} {a : Tensor α} {av : Nat → α} {zi : Option (Tensor α)} {z : Nat → Nat → α} {u : Int}
    (ext : Bool) (ha : PerItem B a av) (hz : Past B 1 zi z) (hN : 0 < N) (hu : 1 ≤ u) :
    LinearOn (fun x zi => Lti.combFilter ext a 1 x zi u) [B, N] (zi.map shape) ∧
      CausalOn (fun x zi => Lti.combFilter ext a 1 x zi u) [B, N] (zi.map shape) := by
  refine both_packed (fl := false) (B := B) (N := N) (M := 0) (st := false)
    (fun X z i t => combSig 1 (av i) (zval z i) (xval X i) t) (fun _ _ _ _ => 0)
    (fun X' z' hX' hz' => ?_) (fun c d x₁ x₂ z₁ z₂ hx hz i t => ?_) (fun c d x₁ x₂ z₁ z₂ hx hz i m => by ring)
    (fun T x₁ x₂ z hx h i t ht => ?_)
  · conv_lhs => rw [sig2 hX']
    exact Lti.combFilter_one ext (xval X') ha (past_vals hz hz') hN hu
  · exact combSig_lin 1 _ c d (fun m => zval_lin hz i m) (fun t => xval_lin hx i t) _
  · exact combSig_agree (by omega) (fun s hs => xval_agree h (by omega)) ht

/-! ## All-pole filters -/

omit [StarRing α] in
/-- A solution of the all-pole recursion is the explicit signal. -/
theorem allPole_tvSignal {N P M : Nat} {a : Nat → Nat → α} {z x w : Nat → α} (hw : AllPole N P a z x w) (hM : 0 < M)
    (hP : P ≤ M) {n : Int} (hn : n < N) : withPast z w n = tvSignal M (fun t => zext P (a t)) z x n := by
  by_cases h0 : n < 0
  · rw [tvSignal, withPast, withPast, if_pos h0, if_pos h0]
  · lift n to ℕ using by omega
    rw [withPast_nat]
    refine allPole_unique (fun n hn => hw n hn) (fun n _ => ?_) (fun _ _ _ _ => rfl) (z' := z) (fun _ _ => rfl)
      (y' := fun n : Nat => tvSignal M (fun t => zext P (a t)) z x n)
      (fun _ _ => rfl) (show n < N by omega)
    beta_reduce
    rw [tv_signal hM, ← tvSignal_eq]
    exact congrArg₂ (· - ·) rfl (taps_zext (K := P) hP (a n) _ _)

theorem allpole_none_both {B M N : Nat} {lpc : Lpv.Lpc α} (hl : IsLpc lpc) (a : Nat → Nat → Nat → α) (hM : 0 < M)
    (hN : 0 < N) :
    LinearOn (fun x zi => Lpv.allpole lpc (t3 B N M a) x zi false) [B, N] none ∧
      CausalOn (fun x zi => Lpv.allpole lpc (t3 B N M a) x zi false) [B, N] none := by
  refine both_packed (fl := false) (B := B) (N := N) (M := 0) (st := false)
    (fun X _ i t => tvSignal M (fun t => zext M (a i t)) (fun _ => 0) (xval X i) t) (fun _ _ _ _ => 0)
    (fun X' z' hX' hz' => ?_) (fun c d x₁ x₂ z₁ z₂ hx hz i t => ?_) (fun c d x₁ x₂ z₁ z₂ hx hz i m => by ring)
    (fun T x₁ x₂ z hx h i t ht => ?_)
  · cases none_of_shape hz'
    conv_lhs => rw [sig2 hX']
    obtain ⟨y, zf, e, hy, -⟩ := hl B N M (xval X') a _ _ hN hM (.given fun _ _ => 0)
    rw [Lpv.allpole_none_eq, if_neg (by simp)]
    refine (bind_step e rfl).trans (ok_pair (Props.packed_congr (c := false) fun i t ht => ?_) rfl)
    rw [← allPole_tvSignal (hy i) hM le_rfl (by omega), withPast_nat]
  · exact tvSignal_lin _ c d (fun m => by ring) (fun t => xval_lin hx i t) _
  · exact tvSignal_agree (T := t) (fun _ _ _ => rfl) (fun s hs => xval_agree h (by omega)) le_rfl

theorem allpole_some_both {B M N : Nat} {lpc : Lpv.Lpc α} (hl : IsLpc lpc) (a : Nat → Nat → Nat → α) (hM : 0 < M)
    (hMN : M ≤ N) :
    LinearOn (fun x zi => Lpv.allpole lpc (t3 B N M a) x zi false) [B, N] (some [B, M]) ∧
      CausalOn (fun x zi => Lpv.allpole lpc (t3 B N M a) x zi false) [B, N] (some [B, M]) := by
  refine both_packed (fl := false) (B := B) (N := N) (M := M) (st := true)
    (fun X z i t => tvSignal M (fun t => zext M (a i t)) (zval z i) (xval X i) t)
    (fun X z i m => tvSignal M (fun t => zext M (a i t)) (zval z i) (xval X i) ((N : Int) - 1 - m))
    (fun X' z' hX' hz' => ?_) (fun c d x₁ x₂ z₁ z₂ hx hz i t => ?_) (fun c d x₁ x₂ z₁ z₂ hx hz i m => ?_)
    (fun T x₁ x₂ z hx h i t ht => ?_)
  · obtain ⟨z', rfl, hs⟩ := some_of_shape hz'
    conv_lhs => rw [sig2 hX', st2 hs]
    obtain ⟨y, zf, e, hy, hf⟩ := hl B N M (xval X') a _ _ (by omega) hM (.given (zval (some z')))
    rw [Lpv.allpole_some_eq, if_neg (by simp)]
    refine (bind_step e rfl).trans (ok_pair (Props.packed_congr (c := false) fun i t ht => ?_) ?_)
    · rw [← allPole_tvSignal (hy i) hM le_rfl (by omega), withPast_nat]
    · rw [hf hMN]
      refine congrArg some (Props.packed_congr (c := false) (B := B) (N := M)
        (y := fun i m => withPast (zval (some z') i) (y i) ((N : Int) - 1 - m)) fun i m hm => ?_)
      exact allPole_tvSignal (hy i) hM le_rfl (by omega)
  · exact tvSignal_lin _ c d (fun m => zval_lin hz i m) (fun t => xval_lin hx i t) _
  · exact tvSignal_lin _ c d (fun m => zval_lin hz i m) (fun t => xval_lin hx i t) _
  · exact tvSignal_agree (T := t) (fun _ _ _ => rfl) (fun s hs => xval_agree h (by omega)) le_rfl

theorem torchlpc_df2_both {B N K P : Nat} {b a X : Tensor α} {zi : Option (Tensor α)} {bv av : Nat → Nat → Nat → α}
    {x z : Nat → Nat → α} {u : Option Int} {lpc : Lpv.Lpc α} (hl : IsLpc lpc)
    (hb : MatVals B N K b bv) (ha : MatVals B N P a av) (hx : Sig N B X x) (hz : InitState B (max P (K - 1)) zi z)
    (hB : 0 < B) (hK : 0 < K) (hP : 0 < P) (hN : 0 < N) (hf : zi = none ∨ P ≤ N) :
    LinearOn (fun x zi => Lpv.lfilter lpc b a x zi .df2 .torchlpc u) X.shape (zi.map shape) ∧
      CausalOn (fun x zi => Lpv.lfilter lpc b a x zi .df2 .torchlpc u) X.shape (zi.map shape) := by
  have hM : 0 < max P (K - 1) := by omega
  refine both_packed (fl := allFlatTv X b a zi) (B := B) (N := N) (M := max P (K - 1)) (st := zi.isSome)
    (fun X z i t => taps K (bv i t) (tvSignal (max P (K - 1)) (fun t => zext P (av i t)) (zval z i) (xval X i)) t)
    (fun X z i m => tvSignal (max P (K - 1)) (fun t => zext P (av i t)) (zval z i) (xval X i) ((N : Int) - 1 - m))
    (fun X' z' hX' hz' => ?_) (fun c d x₁ x₂ z₁ z₂ hx hz i t => ?_) (fun c d x₁ x₂ z₁ z₂ hx hz i m => ?_)
    (fun T x₁ x₂ z hx h i t ht => ?_)
  · rw [← allFlatTv_shape hX' hz', ← isSome_of_shape hz']
    obtain ⟨w, hw, e⟩ := Props.C30_torchlpc_df2_partial (u := u) hl hb ha (sig_vals hx hX') (initState_vals hz hz') hB hK hP hN
      (hf.imp (fun h => none_of_shape (by rw [hz', h]; rfl)) id)
    refine e.trans (ok_pair (Props.packed_congr fun i n hn => Finset.sum_congr rfl fun j _ => ?_) ?_)
    · rw [allPole_tvSignal (fun n hn => hw i n hn) hM (by omega) (by omega)]
    · cases z'.isSome with
      | false => rfl
      | true => exact congrArg some (Props.packed_congr fun i m _ => allPole_tvSignal (fun n hn => hw i n hn) hM (by omega) (by omega))
  · exact taps_lin _ _ c d (fun n => tvSignal_lin _ c d (fun m => zval_lin hz i m) (fun t => xval_lin hx i t) n) _
  · exact tvSignal_lin _ c d (fun m => zval_lin hz i m) (fun t => xval_lin hx i t) _
  · exact taps_agree (T := t) (fun _ => rfl)
      (fun n hn => tvSignal_agree (T := t) (fun _ _ _ => rfl) (fun s hs => xval_agree h (by omega)) hn) le_rfl

/-! ## Programs that agree with one of these -/

omit [StarRing α] in
theorem both_congr {f g : Filter α} {sx : List Nat} {sz : Option (List Nat)}
    (h : ∀ x z, x.shape = sx → z.map shape = sz → f x z = g x z) (hg : LinearOn g sx sz ∧ CausalOn g sx sz) :
    LinearOn f sx sz ∧ CausalOn f sx sz := by
  constructor
  · intro c d x₁ x₂ z₁ z₂ hx₁ hx₂ hz₁ hz₂
    have hz : (lincombOpt c d z₁ z₂).map shape = sz := by
      cases z₁ with
      | none => rw [← hz₁]; cases z₂ <;> rfl
      | some z₁ =>
        cases z₂ with
        | none => rw [← hz₁] at hz₂; simp at hz₂
        | some z₂ => rw [← hz₁]; rfl
    rw [h _ _ hx₁ hz₁, h _ _ hx₂ hz₂, h _ _ (by rw [lincomb_shape]; exact hx₁) hz]
    exact hg.1 c d x₁ x₂ z₁ z₂ hx₁ hx₂ hz₁ hz₂
  · intro T x₁ x₂ z hx hz hT
    rw [h _ _ hx hz, h _ _ (hT.1.symm.trans hx) hz]
    exact hg.2 T x₁ x₂ z hx hz hT

end Spec
