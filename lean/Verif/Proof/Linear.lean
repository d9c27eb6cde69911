import Verif.Spec.Linear
import Verif.Proof.LpvFiltering

/-! # Linearity and causality: tools -/

namespace Spec
open Torch Torch.Tensor Finset
variable {α : Type} [CommRing α]

theorem lincomb_get {c d : α} {X Y : Tensor α} (h : X.shape = Y.shape) (l : List Nat) :
    (lincomb c d X Y).get l = c * X.get l + d * Y.get l := by
  rw [lincomb, get_ofFn]
  by_cases hl : inB l X.shape = true
  · rw [if_pos hl]
  · rw [if_neg hl, X.canon l (by simpa using hl), Y.canon l (by rw [← h]; simpa using hl)]
    ring

theorem lincomb_shape (c d : α) (X Y : Tensor α) : (lincomb c d X Y).shape = X.shape := shape_ofFn _ _

theorem lincomb_t1 (c d : α) (n : Nat) (f g : Nat → α) :
    lincomb c d (t1 n f) (t1 n g) = t1 n fun i => c * f i + d * g i := by
  refine ext1 rfl rfl fun i hi => ?_
  rw [lincomb_get (show (t1 n f).shape = (t1 n g).shape from rfl), get_t1 hi, get_t1 hi, get_t1 hi]

theorem lincomb_t2 (c d : α) (n m : Nat) (f g : Nat → Nat → α) :
    lincomb c d (t2 n m f) (t2 n m g) = t2 n m fun i j => c * f i j + d * g i j := by
  refine ext2 rfl rfl fun i j hi hj => ?_
  rw [lincomb_get (show (t2 n m f).shape = (t2 n m g).shape from rfl), get_t2 hi hj, get_t2 hi hj, get_t2 hi hj]

theorem lincomb_t3 (c d : α) (n m p : Nat) (f g : Nat → Nat → Nat → α) :
    lincomb c d (t3 n m p f) (t3 n m p g) = t3 n m p fun i j k => c * f i j k + d * g i j k := by
  refine ext3 rfl rfl fun i j k hi hj hk => ?_
  rw [lincomb_get (show (t3 n m p f).shape = (t3 n m p g).shape from rfl), get_t3 hi hj hk, get_t3 hi hj hk, get_t3 hi hj hk]

theorem lincomb_signal (c d : α) (k : Option Nat) (B N : Nat) (f g : Nat → Nat → Nat → α) :
    lincomb c d (signal k B N f) (signal k B N g) = signal k B N fun i j l => c * f i j l + d * g i j l := by
  cases k with
  | none => exact lincomb_t2 c d B N (fun i j => f i j 0) (fun i j => g i j 0)
  | some P => exact lincomb_t3 c d _ _ _ _ _

theorem lincomb_packed (c d : α) (fl : Bool) (B N : Nat) (f g : Nat → Nat → α) :
    lincomb c d (packed fl B N f) (packed fl B N g) = packed fl B N fun i j => c * f i j + d * g i j := by
  unfold packed
  cases fl with
  | false => exact lincomb_t2 c d _ _ _ _
  | true => exact lincomb_t1 c d _ _ _

theorem signal_shape (k : Option Nat) (B N : Nat) (f g : Nat → Nat → Nat → α) :
    (signal k B N f).shape = (signal k B N g).shape := by
  cases k <;> rfl

theorem packed_shape (fl : Bool) (B N : Nat) (f g : Nat → Nat → α) :
    (packed fl B N f).shape = (packed fl B N g).shape := by
  cases fl <;> rfl

/-- How `LinearOn` is proved: the result is one of two layouts of values that depend linearly on the input. -/
theorem linearOn_signal {f : Filter α} {sx : List Nat} {sz : Option (List Nat)} {k : Option Nat} {B N M : Nat}
    (Y : Tensor α → Option (Tensor α) → Nat → Nat → Nat → α) (F : Tensor α → Option (Tensor α) → Nat → Nat → α)
    (hf : ∀ x z, x.shape = sx → z.map shape = sz → f x z = .ok (signal k B N (Y x z),
      if z.isSome then some (t2 B M (F x z)) else none))
    (hY : ∀ c d x₁ x₂ z₁ z₂, x₁.shape = x₂.shape → z₁.map shape = z₂.map shape →
      ∀ i t p, Y (lincomb c d x₁ x₂) (lincombOpt c d z₁ z₂) i t p = c * Y x₁ z₁ i t p + d * Y x₂ z₂ i t p)
    (hF : ∀ c d x₁ x₂ z₁ z₂, x₁.shape = x₂.shape → z₁.map shape = z₂.map shape →
      ∀ i m, F (lincomb c d x₁ x₂) (lincombOpt c d z₁ z₂) i m = c * F x₁ z₁ i m + d * F x₂ z₂ i m) :
    LinearOn f sx sz := by
  intro c d x₁ x₂ z₁ z₂ hx₁ hx₂ hz₁ hz₂
  have hz : (lincombOpt c d z₁ z₂).map shape = sz := by
    cases z₁ with
    | none => rw [← hz₁]; cases z₂ <;> rfl
    | some z₁ =>
      cases z₂ with
      | none => rw [← hz₁] at hz₂; simp at hz₂
      | some z₂ => rw [← hz₁]; rfl
  refine ⟨_, _, _, _, hf x₁ z₁ hx₁ hz₁, hf x₂ z₂ hx₂ hz₂, signal_shape _ _ _ _ _, ?_, ?_⟩
  · cases z₁ <;> cases z₂ <;> first | rfl | (rw [← hz₁] at hz₂; simp at hz₂)
  · rw [hf _ _ (by rw [lincomb_shape]; exact hx₁) hz]
    refine Phil.Lti.ok_pair ?_ ?_
    · rw [lincomb_signal]
      congr 1
      funext i t p
      exact hY c d x₁ x₂ z₁ z₂ (hx₁.trans hx₂.symm) (hz₁.trans hz₂.symm) i t p
    · have h := hF c d x₁ x₂ z₁ z₂ (hx₁.trans hx₂.symm) (hz₁.trans hz₂.symm)
      cases z₁ with
      | none => rfl
      | some z₁ =>
        cases z₂ with
        | none => rw [← hz₁] at hz₂; simp at hz₂
        | some z₂ =>
          simp only [Option.isSome_some, if_true, lincombOpt] at h ⊢
          rw [lincomb_t2]
          exact congrArg some (t2_congr rfl rfl fun i m _ _ => h i m)

theorem linearOn_packed {f : Filter α} {sx : List Nat} {sz : Option (List Nat)} {fl : Bool} {B N M : Nat} {st : Bool}
    (Y : Tensor α → Option (Tensor α) → Nat → Nat → α) (F : Tensor α → Option (Tensor α) → Nat → Nat → α)
    (hf : ∀ x z, x.shape = sx → z.map shape = sz → f x z = .ok (packed fl B N (Y x z),
      if st then some (packed fl B M (F x z)) else none))
    (hY : ∀ c d x₁ x₂ z₁ z₂, x₁.shape = x₂.shape → z₁.map shape = z₂.map shape →
      ∀ i t, Y (lincomb c d x₁ x₂) (lincombOpt c d z₁ z₂) i t = c * Y x₁ z₁ i t + d * Y x₂ z₂ i t)
    (hF : ∀ c d x₁ x₂ z₁ z₂, x₁.shape = x₂.shape → z₁.map shape = z₂.map shape →
      ∀ i m, F (lincomb c d x₁ x₂) (lincombOpt c d z₁ z₂) i m = c * F x₁ z₁ i m + d * F x₂ z₂ i m) :
    LinearOn f sx sz := by
  intro c d x₁ x₂ z₁ z₂ hx₁ hx₂ hz₁ hz₂
  have hz : (lincombOpt c d z₁ z₂).map shape = sz := by
    cases z₁ with
    | none => rw [← hz₁]; cases z₂ <;> rfl
    | some z₁ =>
      cases z₂ with
      | none => rw [← hz₁] at hz₂; simp at hz₂
      | some z₂ => rw [← hz₁]; rfl
  refine ⟨_, _, _, _, hf x₁ z₁ hx₁ hz₁, hf x₂ z₂ hx₂ hz₂, packed_shape _ _ _ _ _, ?_, ?_⟩
  · cases st
    · rfl
    · simp only [if_true, Option.map_some]; rw [packed_shape]
  · rw [hf _ _ (by rw [lincomb_shape]; exact hx₁) hz]
    refine Phil.Lti.ok_pair ?_ ?_
    · rw [lincomb_packed]
      congr 1
      funext i t
      exact hY c d x₁ x₂ z₁ z₂ (hx₁.trans hx₂.symm) (hz₁.trans hz₂.symm) i t
    · cases st
      · rfl
      · simp only [if_true, lincombOpt]
        rw [lincomb_packed]
        congr 2
        funext i m
        exact hF c d x₁ x₂ z₁ z₂ (hx₁.trans hx₂.symm) (hz₁.trans hz₂.symm) i m

theorem getD_one (i j : Nat) (l : List Nat) : (i :: j :: l).getD 1 0 = j := rfl

theorem agreeTo_signal {k : Option Nat} {B N T : Nat} {f g : Nat → Nat → Nat → α}
    (h : ∀ i t p, t ≤ T → f i t p = g i t p) : AgreeTo T (signal k B N f) (signal k B N g) := by
  refine ⟨signal_shape _ _ _ _ _, fun l hl => ?_⟩
  cases k with
  | none =>
    have hl : l.getD 1 0 ≤ T := hl
    simp only [signal, t2, get_ofFn]
    rw [h _ _ _ hl]
  | some P =>
    have hl : l.getD 1 0 ≤ T := hl
    simp only [signal, t3, get_ofFn]
    rw [h _ _ _ hl]

theorem agreeTo_packed {fl : Bool} {B N T : Nat} {f g : Nat → Nat → α}
    (h : ∀ i t, t ≤ T → f i t = g i t) : AgreeTo T (packed fl B N f) (packed fl B N g) := by
  refine ⟨packed_shape _ _ _ _ _, fun l hl => ?_⟩
  cases fl with
  | false =>
    have hl : l.getD 1 0 ≤ T := hl
    simp only [packed, Bool.false_eq_true, if_false, t2, get_ofFn]
    rw [h _ _ hl]
  | true =>
    have hl : l.getD 0 0 ≤ T := hl
    simp only [packed, if_true, t1, get_ofFn]
    rw [h _ _ hl]

/-! ## Values of tensors -/

/-- The value of a signal with or without channels. -/
def sval (x : Tensor α) (i t f : Nat) : α := if x.rank = 2 then x.get [i, t] else x.get [i, t, f]

/-- The value of an optional initial state. -/
def zval : Option (Tensor α) → Nat → Nat → α
  | none, _, _ => 0
  | some z, i, m => if z.rank = 1 then z.get [m] else z.get [i, m]

/-- The value of a signal with or without batch axis. -/
def xval (x : Tensor α) (i t : Nat) : α := if x.rank = 1 then x.get [t] else x.get [i, t]

theorem sval_lin {c d : α} {x y : Tensor α} (h : x.shape = y.shape) (i t f : Nat) :
    sval (lincomb c d x y) i t f = c * sval x i t f + d * sval y i t f := by
  have h1 : (lincomb c d x y).rank = x.rank := congrArg List.length (lincomb_shape c d x y)
  have h2 : y.rank = x.rank := congrArg List.length h.symm
  unfold sval
  rw [h1, h2]
  split <;> rw [lincomb_get h]

theorem xval_lin {c d : α} {x y : Tensor α} (h : x.shape = y.shape) (i t : Nat) :
    xval (lincomb c d x y) i t = c * xval x i t + d * xval y i t := by
  have h1 : (lincomb c d x y).rank = x.rank := congrArg List.length (lincomb_shape c d x y)
  have h2 : y.rank = x.rank := congrArg List.length h.symm
  unfold xval
  rw [h1, h2]
  split <;> rw [lincomb_get h]

theorem zval_lin {c d : α} {x y : Option (Tensor α)} (h : x.map shape = y.map shape) (i t : Nat) :
    zval (lincombOpt c d x y) i t = c * zval x i t + d * zval y i t := by
  cases x with
  | none =>
    cases y with
    | none => simp [lincombOpt, zval]
    | some y => simp at h
  | some x =>
    cases y with
    | none => simp at h
    | some y =>
      have h : x.shape = y.shape := by simpa using h
      have h1 : (lincomb c d x y).rank = x.rank := congrArg List.length (lincomb_shape c d x y)
      have h2 : y.rank = x.rank := congrArg List.length h.symm
      simp only [lincombOpt, zval]
      rw [h1, h2]
      split <;> rw [lincomb_get h]

theorem sval_agree {T : Nat} {x y : Tensor α} (h : AgreeTo T x y) (hx : x.rank ≠ 1) {i t f : Nat} (ht : t ≤ T) :
    sval x i t f = sval y i t f := by
  have h2 : y.rank = x.rank := congrArg List.length h.1.symm
  have ha : timeAxis x.shape = 1 := if_neg hx
  have h' := h.2
  rw [ha] at h'
  unfold sval
  rw [h2]
  split
  · exact h' _ ht
  · exact h' _ ht

theorem xval_agree {T : Nat} {x y : Tensor α} (h : AgreeTo T x y) {i t : Nat} (ht : t ≤ T) : xval x i t = xval y i t := by
  have h2 : y.rank = x.rank := congrArg List.length h.1.symm
  have h' := h.2
  unfold xval
  rw [h2]
  by_cases hx : x.rank = 1
  · rw [show timeAxis x.shape = 0 from if_pos hx] at h'
    rw [if_pos hx, if_pos hx]
    exact h' _ ht
  · rw [show timeAxis x.shape = 1 from if_neg hx] at h'
    rw [if_neg hx, if_neg hx]
    exact h' _ ht

theorem of_shape1 {x : Tensor α} {n : Nat} (h : x.shape = [n]) : ∃ f : Nat → α, x = t1 n f ∧ ∀ i, x.get [i] = f i :=
  ⟨fun i => x.get [i], ext1 h rfl fun i hi => by rw [get_t1 hi], fun _ => rfl⟩

theorem of_shape2 {x : Tensor α} {n m : Nat} (h : x.shape = [n, m]) :
    ∃ f : Nat → Nat → α, x = t2 n m f ∧ ∀ i j, x.get [i, j] = f i j :=
  ⟨fun i j => x.get [i, j], ext2 h rfl fun i j hi hj => by rw [get_t2 hi hj], fun _ _ => rfl⟩

theorem of_shape3 {x : Tensor α} {n m p : Nat} (h : x.shape = [n, m, p]) :
    ∃ f : Nat → Nat → Nat → α, x = t3 n m p f ∧ ∀ i j k, x.get [i, j, k] = f i j k :=
  ⟨fun i j k => x.get [i, j, k], ext3 h rfl fun i j k hi hj hk => by rw [get_t3 hi hj hk], fun _ _ _ => rfl⟩

theorem initState_vals {B M : Nat} {zi : Option (Tensor α)} {z : Nat → Nat → α} (h : InitState B M zi z)
    {zi' : Option (Tensor α)} (hs : zi'.map shape = zi.map shape) : InitState B M zi' (zval zi') := by
  cases h with
  | zero =>
    cases zi' with
    | none => exact .zero
    | some z => simp at hs
  | shared z =>
    cases zi' with
    | none => simp at hs
    | some z' =>
      have hs : z'.shape = [M] := by simpa using hs
      obtain ⟨f, rfl, hf⟩ := of_shape1 hs
      rw [show zval (some (t1 M f)) = fun _ => f from by funext i m; simp [zval, hf]]
      exact .shared f
  | full z =>
    cases zi' with
    | none => simp at hs
    | some z' =>
      have hs : z'.shape = [B, M] := by simpa using hs
      obtain ⟨f, rfl, hf⟩ := of_shape2 hs
      rw [show zval (some (t2 B M f)) = f from by funext i m; simp [zval, hf]]
      exact .full f

theorem sig_vals {N B : Nat} {X : Tensor α} {x : Nat → Nat → α} (h : Sig N B X x) {X' : Tensor α}
    (hs : X'.shape = X.shape) : Sig N B X' (xval X') := by
  cases h with
  | flat x =>
    obtain ⟨f, rfl, hf⟩ := of_shape1 hs
    rw [show xval (t1 N f) = fun _ => f from by funext i m; simp [xval, hf]]
    exact .flat f
  | batched _ x =>
    obtain ⟨f, rfl, hf⟩ := of_shape2 hs
    rw [show xval (t2 B N f) = f from by funext i m; simp [xval, hf]]
    exact .batched _ f

/-! ## Memoryless input and feedthrough -/

/-- The signal multiplied by a matrix at every time step. -/
def memoryless (F : Nat) (g : Nat → Nat → Nat → Nat → α) (x : Tensor α) (i t p : Nat) : α :=
  ∑ f ∈ range F, g i t p f * sval x i t f

theorem memoryless_lin {F : Nat} {g : Nat → Nat → Nat → Nat → α} {c d : α} {x y : Tensor α} (h : x.shape = y.shape)
    (i t p : Nat) : memoryless F g (lincomb c d x y) i t p = c * memoryless F g x i t p + d * memoryless F g y i t p := by
  unfold memoryless
  rw [mul_sum, mul_sum, ← sum_add_distrib]
  refine sum_congr rfl fun f _ => ?_
  rw [sval_lin h]; ring

theorem memoryless_agree {F : Nat} {g : Nat → Nat → Nat → Nat → α} {T : Nat} {x y : Tensor α} (h : AgreeTo T x y)
    (hx : x.rank ≠ 1) {i t p : Nat} (ht : t ≤ T) : memoryless F g x i t p = memoryless F g y i t p :=
  sum_congr rfl fun f _ => by rw [sval_agree h hx ht]

theorem memoryless_t2 {B N : Nat} {x : Nat → Nat → α} (hx : ∀ i t, (t2 B N x).get [i, t] = x i t)
    (g : Nat → Nat → Nat → Nat → α) : memoryless 1 g (t2 B N x) = fun i t p => g i t p 0 * x i t := by
  funext i t p
  simp [memoryless, sval, hx]

theorem memoryless_t3 {B N F : Nat} {x : Nat → Nat → Nat → α} (hx : ∀ i t f, (t3 B N F x).get [i, t, f] = x i t f)
    (g : Nat → Nat → Nat → Nat → α) :
    memoryless F g (t3 B N F x) = fun i t p => ∑ f ∈ range F, g i t p f * x i t f := by
  funext i t p
  simp [memoryless, sval, hx]

theorem memoryless_diag {B N F : Nat} {x : Nat → Nat → Nat → α} (hx : ∀ i t f, (t3 B N F x).get [i, t, f] = x i t f)
    (e : α) : memoryless F (fun _ _ p f => if f = p then e else 0) (t3 B N F x) = fun i t p => e * x i t p := by
  rw [memoryless_t3 hx]
  funext i t p
  by_cases hp : p < F
  · rw [sum_eq_single p]
    · rw [if_pos rfl]
    · intro f _ hf; rw [if_neg hf, zero_mul]
    · intro h; exact absurd (mem_range.2 hp) h
  · rw [← hx, (t3 B N F x).canon _ (by simp [inB, hp]), mul_zero]
    refine sum_eq_zero fun f hf => ?_
    rw [if_neg (by have := mem_range.1 hf; omega), zero_mul]

section
variable {B N M : Nat} {Bm : Option (Tensor α)} {x : Tensor α} {v : Nat → Nat → Nat → α}

theorem drive_memoryless_inv (h : Drive B N M x v) :
    ∃ F g, (∀ i t, g i t = g i 0) ∧ ∀ x' : Tensor α, x'.shape = x.shape → Drive B N M x' (memoryless F g x') := by
  cases h with
  | full x =>
    refine ⟨M, fun _ _ p f => if f = p then 1 else 0, fun _ _ => rfl, fun x' hx' => ?_⟩
    obtain ⟨y, rfl, hy⟩ := of_shape3 hx'
    rw [memoryless_diag hy]
    simp only [one_mul]
    exact .full y
  | scalar x =>
    refine ⟨1, fun _ _ p _ => if p = 0 then 1 else 0, fun _ _ => rfl, fun x' hx' => ?_⟩
    obtain ⟨y, rfl, hy⟩ := of_shape2 hx'
    rw [memoryless_t2 hy]
    simp only [ite_mul, one_mul, zero_mul]
    exact .scalar y

theorem drive_memoryless (h : Drive B N M x v) :
    ∃ F g, ∀ x' : Tensor α, x'.shape = x.shape → Drive B N M x' (memoryless F g x') :=
  let ⟨F, g, _, h⟩ := drive_memoryless_inv h
  ⟨F, g, h⟩

theorem ltiInput_memoryless_inv (h : LtiInput B N M Bm x v) :
    ∃ F g, (∀ i t, g i t = g i 0) ∧ ∀ x' : Tensor α, x'.shape = x.shape → LtiInput B N M Bm x' (memoryless F g x') := by
  cases h with
  | none h =>
    obtain ⟨F, g, hg, h⟩ := drive_memoryless_inv h
    exact ⟨F, g, hg, fun x' hx' => .none (h x' hx')⟩
  | vec g x =>
    refine ⟨1, fun _ _ p _ => g p, fun _ _ => rfl, fun x' hx' => ?_⟩
    obtain ⟨y, rfl, hy⟩ := of_shape2 hx'
    rw [memoryless_t2 hy]; exact .vec g y
  | batchVec g x =>
    refine ⟨1, fun i _ p _ => g i p, fun _ _ => rfl, fun x' hx' => ?_⟩
    obtain ⟨y, rfl, hy⟩ := of_shape2 hx'
    rw [memoryless_t2 hy]; exact .batchVec g y
  | mat F g x h =>
    refine ⟨F, fun _ _ p f => g p f, fun _ _ => rfl, fun x' hx' => ?_⟩
    obtain ⟨y, rfl, hy⟩ := of_shape3 hx'
    rw [memoryless_t3 hy]; exact .mat F g y h
  | batchMat F g x =>
    refine ⟨F, fun i _ p f => g i p f, fun _ _ => rfl, fun x' hx' => ?_⟩
    obtain ⟨y, rfl, hy⟩ := of_shape3 hx'
    rw [memoryless_t3 hy]; exact .batchMat F g y

theorem ltiInput_memoryless (h : LtiInput B N M Bm x v) :
    ∃ F g, ∀ x' : Tensor α, x'.shape = x.shape → LtiInput B N M Bm x' (memoryless F g x') :=
  let ⟨F, g, _, h⟩ := ltiInput_memoryless_inv h
  ⟨F, g, h⟩

theorem lpvInput_memoryless (h : LpvInput B N M Bm x v) :
    ∃ F g, ∀ x' : Tensor α, x'.shape = x.shape → LpvInput B N M Bm x' (memoryless F g x') := by
  cases h with
  | none h =>
    obtain ⟨F, g, h⟩ := drive_memoryless h
    exact ⟨F, g, fun x' hx' => .none (h x' hx')⟩
  | vec g x =>
    refine ⟨1, fun _ _ p _ => g p, fun x' hx' => ?_⟩
    obtain ⟨y, rfl, hy⟩ := of_shape2 hx'
    rw [memoryless_t2 hy]; exact .vec g y
  | mat F g x =>
    refine ⟨F, fun _ _ p f => g p f, fun x' hx' => ?_⟩
    obtain ⟨y, rfl, hy⟩ := of_shape3 hx'
    rw [memoryless_t3 hy]; exact .mat F g y
  | timeVec g x =>
    refine ⟨1, fun _ t p _ => g t p, fun x' hx' => ?_⟩
    obtain ⟨y, rfl, hy⟩ := of_shape2 hx'
    rw [memoryless_t2 hy]; exact .timeVec g y
  | batchVec g x h =>
    refine ⟨1, fun i _ p _ => g i p, fun x' hx' => ?_⟩
    obtain ⟨y, rfl, hy⟩ := of_shape2 hx'
    rw [memoryless_t2 hy]; exact .batchVec g y h
  | timeMat F g x =>
    refine ⟨F, fun _ t p f => g t p f, fun x' hx' => ?_⟩
    obtain ⟨y, rfl, hy⟩ := of_shape3 hx'
    rw [memoryless_t3 hy]; exact .timeMat F g y
  | batchTimeVec g x =>
    refine ⟨1, fun i t p _ => g i t p, fun x' hx' => ?_⟩
    obtain ⟨y, rfl, hy⟩ := of_shape2 hx'
    rw [memoryless_t2 hy]; exact .batchTimeVec g y
  | batchMat F g x h h' =>
    refine ⟨F, fun i _ p f => g i p f, fun x' hx' => ?_⟩
    obtain ⟨y, rfl, hy⟩ := of_shape3 hx'
    rw [memoryless_t3 hy]; exact .batchMat F g y h h'
  | batchTimeMat F g x =>
    refine ⟨F, fun i t p f => g i t p f, fun x' hx' => ?_⟩
    obtain ⟨y, rfl, hy⟩ := of_shape3 hx'
    rw [memoryless_t3 hy]; exact .batchTimeMat F g y

theorem ltiFeed_memoryless_inv {D : Option (Tensor α)} {k : Option Nat} (h : LtiFeed B N D x k v) :
    ∃ F g, (∀ i t, g i t = g i 0) ∧ ∀ x' : Tensor α, x'.shape = x.shape → LtiFeed B N D x' k (memoryless F g x') := by
  cases h with
  | none =>
    refine ⟨0, fun _ _ _ _ => 0, fun _ _ => rfl, fun x' hx' => ?_⟩
    rw [show memoryless 0 (fun _ _ _ _ => 0) x' = fun _ _ _ => 0 from by funext i t p; simp [memoryless]]
    exact .none _ _
  | scalar e x =>
    refine ⟨1, fun _ _ _ _ => e, fun _ _ => rfl, fun x' hx' => ?_⟩
    obtain ⟨y, rfl, hy⟩ := of_shape2 hx'
    rw [memoryless_t2 hy]; exact .scalar e y
  | scalarFull e F x =>
    refine ⟨F, fun _ _ p f => if f = p then e else 0, fun _ _ => rfl, fun x' hx' => ?_⟩
    obtain ⟨y, rfl, hy⟩ := of_shape3 hx'
    rw [memoryless_diag hy]; exact .scalarFull e F y
  | one e x =>
    refine ⟨1, fun _ _ _ _ => e 0, fun _ _ => rfl, fun x' hx' => ?_⟩
    obtain ⟨y, rfl, hy⟩ := of_shape2 hx'
    rw [memoryless_t2 hy]; exact .one e y
  | oneFull e F x hB hF =>
    refine ⟨F, fun _ _ p f => if f = p then e 0 else 0, fun _ _ => rfl, fun x' hx' => ?_⟩
    obtain ⟨y, rfl, hy⟩ := of_shape3 hx'
    rw [memoryless_diag hy]; exact .oneFull e F y hB hF
  | batch e x =>
    refine ⟨1, fun i _ _ _ => e i, fun _ _ => rfl, fun x' hx' => ?_⟩
    obtain ⟨y, rfl, hy⟩ := of_shape2 hx'
    rw [memoryless_t2 hy]; exact .batch e y
  | column P e x hB h1 =>
    refine ⟨1, fun _ _ p _ => e p, fun _ _ => rfl, fun x' hx' => ?_⟩
    obtain ⟨y, rfl, hy⟩ := of_shape2 hx'
    rw [memoryless_t2 hy]; exact .column P e y hB h1
  | row F e x =>
    refine ⟨F, fun _ _ _ f => e f, fun _ _ => rfl, fun x' hx' => ?_⟩
    obtain ⟨y, rfl, hy⟩ := of_shape3 hx'
    rw [memoryless_t3 hy]; exact .row F e y
  | batchRow F e x =>
    refine ⟨F, fun i _ _ f => e i f, fun _ _ => rfl, fun x' hx' => ?_⟩
    obtain ⟨y, rfl, hy⟩ := of_shape3 hx'
    rw [memoryless_t3 hy]; exact .batchRow F e y
  | batchColumn P e x =>
    refine ⟨1, fun i _ p _ => e i p, fun _ _ => rfl, fun x' hx' => ?_⟩
    obtain ⟨y, rfl, hy⟩ := of_shape2 hx'
    rw [memoryless_t2 hy]; exact .batchColumn P e y
  | mat P F e x h =>
    refine ⟨F, fun _ _ p f => e p f, fun _ _ => rfl, fun x' hx' => ?_⟩
    obtain ⟨y, rfl, hy⟩ := of_shape3 hx'
    rw [memoryless_t3 hy]; exact .mat P F e y h
  | batchMat P F e x =>
    refine ⟨F, fun i _ p f => e i p f, fun _ _ => rfl, fun x' hx' => ?_⟩
    obtain ⟨y, rfl, hy⟩ := of_shape3 hx'
    rw [memoryless_t3 hy]; exact .batchMat P F e y

theorem ltiFeed_memoryless {D : Option (Tensor α)} {k : Option Nat} (h : LtiFeed B N D x k v) :
    ∃ F g, ∀ x' : Tensor α, x'.shape = x.shape → LtiFeed B N D x' k (memoryless F g x') :=
  let ⟨F, g, _, h⟩ := ltiFeed_memoryless_inv h
  ⟨F, g, h⟩

theorem lpvFeed_memoryless {D : Option (Tensor α)} {k : Option Nat} (h : LpvFeed B N D x k v) :
    ∃ F g, ∀ x' : Tensor α, x'.shape = x.shape → LpvFeed B N D x' k (memoryless F g x') := by
  cases h with
  | none =>
    refine ⟨0, fun _ _ _ _ => 0, fun x' hx' => ?_⟩
    rw [show memoryless 0 (fun _ _ _ _ => 0) x' = fun _ _ _ => 0 from by funext i t p; simp [memoryless]]
    exact .none _ _
  | scalar e x =>
    refine ⟨1, fun _ _ _ _ => e, fun x' hx' => ?_⟩
    obtain ⟨y, rfl, hy⟩ := of_shape2 hx'
    rw [memoryless_t2 hy]; exact .scalar e y
  | scalarFull e F x =>
    refine ⟨F, fun _ _ p f => if f = p then e else 0, fun x' hx' => ?_⟩
    obtain ⟨y, rfl, hy⟩ := of_shape3 hx'
    rw [memoryless_diag hy]; exact .scalarFull e F y
  | one e x =>
    refine ⟨1, fun _ _ _ _ => e 0, fun x' hx' => ?_⟩
    obtain ⟨y, rfl, hy⟩ := of_shape2 hx'
    rw [memoryless_t2 hy]; exact .one e y
  | oneFull e F x hB hN hF =>
    refine ⟨F, fun _ _ p f => if f = p then e 0 else 0, fun x' hx' => ?_⟩
    obtain ⟨y, rfl, hy⟩ := of_shape3 hx'
    rw [memoryless_diag hy]; exact .oneFull e F y hB hN hF
  | time e x =>
    refine ⟨1, fun _ t _ _ => e t, fun x' hx' => ?_⟩
    obtain ⟨y, rfl, hy⟩ := of_shape2 hx'
    rw [memoryless_t2 hy]; exact .time e y
  | batch e x h =>
    refine ⟨1, fun i _ _ _ => e i, fun x' hx' => ?_⟩
    obtain ⟨y, rfl, hy⟩ := of_shape2 hx'
    rw [memoryless_t2 hy]; exact .batch e y h
  | column P e x hN hB h1 =>
    refine ⟨1, fun _ _ p _ => e p, fun x' hx' => ?_⟩
    obtain ⟨y, rfl, hy⟩ := of_shape2 hx'
    rw [memoryless_t2 hy]; exact .column P e y hN hB h1
  | row F e x =>
    refine ⟨F, fun _ _ _ f => e f, fun x' hx' => ?_⟩
    obtain ⟨y, rfl, hy⟩ := of_shape3 hx'
    rw [memoryless_t3 hy]; exact .row F e y
  | timeRow F e x =>
    refine ⟨F, fun _ t _ f => e t f, fun x' hx' => ?_⟩
    obtain ⟨y, rfl, hy⟩ := of_shape3 hx'
    rw [memoryless_t3 hy]; exact .timeRow F e y
  | batchRow F e x h =>
    refine ⟨F, fun i _ _ f => e i f, fun x' hx' => ?_⟩
    obtain ⟨y, rfl, hy⟩ := of_shape3 hx'
    rw [memoryless_t3 hy]; exact .batchRow F e y h
  | timeColumn P e x =>
    refine ⟨1, fun _ t p _ => e t p, fun x' hx' => ?_⟩
    obtain ⟨y, rfl, hy⟩ := of_shape2 hx'
    rw [memoryless_t2 hy]; exact .timeColumn P e y
  | batchTime e x h =>
    refine ⟨1, fun i t _ _ => e i t, fun x' hx' => ?_⟩
    obtain ⟨y, rfl, hy⟩ := of_shape2 hx'
    rw [memoryless_t2 hy]; exact .batchTime e y h
  | batchColumn P e x h h' =>
    refine ⟨1, fun i _ p _ => e i p, fun x' hx' => ?_⟩
    obtain ⟨y, rfl, hy⟩ := of_shape2 hx'
    rw [memoryless_t2 hy]; exact .batchColumn P e y h h'
  | mat P F e x hN hB =>
    refine ⟨F, fun _ _ p f => e p f, fun x' hx' => ?_⟩
    obtain ⟨y, rfl, hy⟩ := of_shape3 hx'
    rw [memoryless_t3 hy]; exact .mat P F e y hN hB
  | batchTimeRow F e x =>
    refine ⟨F, fun i t _ f => e i t f, fun x' hx' => ?_⟩
    obtain ⟨y, rfl, hy⟩ := of_shape3 hx'
    rw [memoryless_t3 hy]; exact .batchTimeRow F e y
  | batchTimeColumn P e x =>
    refine ⟨1, fun i t p _ => e i t p, fun x' hx' => ?_⟩
    obtain ⟨y, rfl, hy⟩ := of_shape2 hx'
    rw [memoryless_t2 hy]; exact .batchTimeColumn P e y
  | timeMat P F e x h =>
    refine ⟨F, fun _ t p f => e t p f, fun x' hx' => ?_⟩
    obtain ⟨y, rfl, hy⟩ := of_shape3 hx'
    rw [memoryless_t3 hy]; exact .timeMat P F e y h
  | batchMat P F e x hN h =>
    refine ⟨F, fun i _ p f => e i p f, fun x' hx' => ?_⟩
    obtain ⟨y, rfl, hy⟩ := of_shape3 hx'
    rw [memoryless_t3 hy]; exact .batchMat P F e y hN h
  | batchTimeMat P F e x =>
    refine ⟨F, fun i t p f => e i t p f, fun x' hx' => ?_⟩
    obtain ⟨y, rfl, hy⟩ := of_shape3 hx'
    rw [memoryless_t3 hy]; exact .batchTimeMat P F e y

end

/-! ## The recursions -/

theorem vecRec_lin {M : Nat} (A : Nat → Nat → Nat → α) (c d : α) {z z₁ z₂ : Nat → α} {v v₁ v₂ : Nat → Nat → α}
    (hz : ∀ m, z m = c * z₁ m + d * z₂ m) (hv : ∀ t m, v t m = c * v₁ t m + d * v₂ t m) (t m : Nat) :
    vecRec M A z v t m = c * vecRec M A z₁ v₁ t m + d * vecRec M A z₂ v₂ t m := by
  induction t generalizing m with
  | zero => exact hz m
  | succ t ih =>
    simp only [vecRec]
    rw [sum_congr rfl fun k _ => by rw [ih k], hv, mul_add, mul_add, mul_sum, mul_sum, add_add_add_comm, ← sum_add_distrib]
    refine congrArg₂ (· + ·) (sum_congr rfl fun k _ => by ring) rfl

theorem scalarRec_lin (a : Nat → α) (c d : α) {z z₁ z₂ : α} {v v₁ v₂ : Nat → α} (hz : z = c * z₁ + d * z₂)
    (hv : ∀ t, v t = c * v₁ t + d * v₂ t) (t : Nat) :
    scalarRec a z v t = c * scalarRec a z₁ v₁ t + d * scalarRec a z₂ v₂ t := by
  induction t with
  | zero => exact hz
  | succ t ih => simp only [scalarRec]; rw [ih, hv]; ring

theorem vecRec_agree {M T : Nat} {A A' : Nat → Nat → Nat → α} {z : Nat → α} {v v' : Nat → Nat → α}
    (hA : ∀ t i j, t < T → A t i j = A' t i j) (hv : ∀ t m, t < T → v t m = v' t m) {t : Nat} (ht : t ≤ T) (m : Nat) :
    vecRec M A z v t m = vecRec M A' z v' t m := by
  induction t generalizing m with
  | zero => rfl
  | succ t ih =>
    simp only [vecRec]
    rw [hv t m (by omega)]
    refine congrArg₂ (· + ·) (sum_congr rfl fun k _ => by rw [ih (by omega), hA t m k (by omega)]) rfl

theorem scalarRec_agree {T : Nat} {a a' : Nat → α} {z : α} {v v' : Nat → α} (ha : ∀ t, t < T → a t = a' t)
    (hv : ∀ t, t < T → v t = v' t) {t : Nat} (ht : t ≤ T) : scalarRec a z v t = scalarRec a' z v' t := by
  induction t with
  | zero => rfl
  | succ t ih => simp only [scalarRec]; rw [ih (by omega), ha t (by omega), hv t (by omega)]

theorem causal_lin (c d : α) {x x₁ x₂ : Nat → α} (h : ∀ t, x t = c * x₁ t + d * x₂ t) (n : Int) :
    causal x n = c * causal x₁ n + d * causal x₂ n := by
  unfold causal
  split
  · ring
  · exact h _

theorem withPast_lin (c d : α) {z z₁ z₂ x x₁ x₂ : Nat → α} (hz : ∀ t, z t = c * z₁ t + d * z₂ t)
    (h : ∀ t, x t = c * x₁ t + d * x₂ t) (n : Int) :
    withPast z x n = c * withPast z₁ x₁ n + d * withPast z₂ x₂ n := by
  unfold withPast
  split
  · exact hz _
  · exact h _

theorem taps_lin (K : Nat) (b : Nat → α) (c d : α) {x x₁ x₂ : Int → α} (h : ∀ t, x t = c * x₁ t + d * x₂ t) (n : Int) :
    taps K b x n = c * taps K b x₁ n + d * taps K b x₂ n := by
  unfold taps
  rw [mul_sum, mul_sum, ← sum_add_distrib]
  exact sum_congr rfl fun k _ => by rw [h]; ring

theorem first_lin (c d : α) {x x₁ x₂ : Nat → α} (h : ∀ t, x t = c * x₁ t + d * x₂ t) (t m : Nat) :
    first x t m = c * first x₁ t m + d * first x₂ t m := by
  unfold first
  split
  · exact h _
  · ring

theorem tvSignal_lin {M : Nat} (a : Nat → Nat → α) (c d : α) {z z₁ z₂ x x₁ x₂ : Nat → α}
    (hz : ∀ t, z t = c * z₁ t + d * z₂ t) (h : ∀ t, x t = c * x₁ t + d * x₂ t) (n : Int) :
    tvSignal M a z x n = c * tvSignal M a z₁ x₁ n + d * tvSignal M a z₂ x₂ n :=
  withPast_lin c d hz (fun _ => vecRec_lin _ c d hz (fun t m => first_lin c d h t m) _ _) n

theorem causal_agree {T : Nat} {x y : Nat → α} (h : ∀ t, t ≤ T → x t = y t) {n : Int} (hn : n ≤ T) :
    causal x n = causal y n := by
  unfold causal
  split
  · rfl
  · exact h _ (by omega)

theorem taps_agree {K : Nat} {b b' : Nat → α} {T : Nat} {x y : Int → α} (hb : ∀ k, b k = b' k)
    (h : ∀ t : Int, t ≤ T → x t = y t) {n : Int} (hn : n ≤ T) : taps K b x n = taps K b' y n :=
  sum_congr rfl fun k _ => by rw [h _ (by omega), hb]

theorem tvSignal_agree {M T : Nat} {a a' : Nat → Nat → α} {z x y : Nat → α} (ha : ∀ t k, t ≤ T → a t k = a' t k)
    (h : ∀ t, t ≤ T → x t = y t) {n : Int} (hn : n ≤ T) : tvSignal M a z x n = tvSignal M a' z y n := by
  unfold tvSignal withPast
  split
  · rfl
  · refine vecRec_agree (T := T + 1) (fun t i j ht => ?_) (fun t m ht => ?_) (by omega) _
    · rw [show a t = a' t from funext fun k => ha t k (by omega)]
    · unfold first; rw [h t (by omega)]

theorem tvTdf2State_lin {M : Nat} (b a : Nat → Nat → α) (c d : α) {z z₁ z₂ x x₁ x₂ : Nat → α}
    (hz : ∀ t, z t = c * z₁ t + d * z₂ t) (h : ∀ t, x t = c * x₁ t + d * x₂ t) (n m : Nat) :
    tvTdf2State M b a z x n m = c * tvTdf2State M b a z₁ x₁ n m + d * tvTdf2State M b a z₂ x₂ n m :=
  vecRec_lin _ c d hz (fun t m => by rw [h]; ring) _ _

theorem tvTdf2Out_lin {M : Nat} (b a : Nat → Nat → α) (c d : α) {z z₁ z₂ x x₁ x₂ : Nat → α}
    (hz : ∀ t, z t = c * z₁ t + d * z₂ t) (h : ∀ t, x t = c * x₁ t + d * x₂ t) (n : Nat) :
    tvTdf2Out M b a z x n = c * tvTdf2Out M b a z₁ x₁ n + d * tvTdf2Out M b a z₂ x₂ n := by
  unfold tvTdf2Out
  rw [tvTdf2State_lin b a c d hz h, h]; ring

theorem tvTdf2Out_agree {M T : Nat} {b b' a a' : Nat → Nat → α} {z x y : Nat → α}
    (hb : ∀ t k, t ≤ T → b t k = b' t k) (ha : ∀ t k, t ≤ T → a t k = a' t k)
    (h : ∀ t, t ≤ T → x t = y t) {n : Nat} (hn : n ≤ T) : tvTdf2Out M b a z x n = tvTdf2Out M b' a' z y n := by
  unfold tvTdf2Out
  rw [hb n 0 hn, h n hn]
  refine congrArg₂ (· + ·) (vecRec_agree (T := n) (fun t i j ht => ?_) (fun t m ht => ?_) le_rfl _) rfl
  · rw [show a t = a' t from funext fun k => ha t k (by omega)]
  · rw [hb t _ (by omega), hb t _ (by omega), ha t _ (by omega), h t (by omega)]

theorem tvConv_lin {N M : Nat} (b : Nat → Nat → α) (c d : α) {x x₁ x₂ : Nat → α} (h : ∀ t, x t = c * x₁ t + d * x₂ t)
    (n : Nat) : tvConv N M b x n = c * tvConv N M b x₁ n + d * tvConv N M b x₂ n := by
  unfold tvConv
  rw [mul_sum, mul_sum, ← sum_add_distrib]
  refine sum_congr rfl fun j _ => ?_
  split
  · rw [h]; ring
  · ring

theorem tvConv_agree {N M T : Nat} {b b' : Nat → Nat → α} {x y : Nat → α} (hb : ∀ t k, t ≤ T → b t k = b' t k)
    (h : ∀ t, t ≤ T → x t = y t) {n : Nat} (hn : n ≤ T) : tvConv N M b x n = tvConv N M b' y n := by
  unfold tvConv
  refine sum_congr rfl fun j _ => ?_
  split
  · rw [h _ (by omega), hb _ _ (by omega)]
  · rfl

theorem fullConv_lin {N M : Nat} (b : Nat → α) (c d : α) {x x₁ x₂ : Nat → α} (h : ∀ t, x t = c * x₁ t + d * x₂ t)
    (n : Nat) : Phil.Lti.fullConv N M b x n = c * Phil.Lti.fullConv N M b x₁ n + d * Phil.Lti.fullConv N M b x₂ n := by
  unfold Phil.Lti.fullConv
  rw [mul_sum, mul_sum, ← sum_add_distrib]
  refine sum_congr rfl fun j _ => ?_
  split
  · rw [h]; ring
  · ring

/-! ## Readouts -/

theorem ltiReadout_lin {B M : Nat} {C : Option (Tensor α)} {k : Option Nat} {r : Nat → (Nat → α) → Nat → α}
    (hC : LtiReadout B M C k r) (c d : α) {h h₁ h₂ : Nat → α} (hh : ∀ m, h m = c * h₁ m + d * h₂ m) (i p : Nat) :
    r i h p = c * r i h₁ p + d * r i h₂ p := by
  cases hC with
  | none => exact hh p
  | _ =>
    simp only [mul_sum, ← sum_add_distrib]
    exact sum_congr rfl fun m _ => by rw [hh]; ring

theorem lpvReadout_lin {B N M : Nat} {C : Option (Tensor α)} {k : Option Nat} {r : Nat → Nat → (Nat → α) → Nat → α}
    (hC : LpvReadout B N M C k r) (c d : α) {h h₁ h₂ : Nat → α} (hh : ∀ m, h m = c * h₁ m + d * h₂ m) (i t p : Nat) :
    r i t h p = c * r i t h₁ p + d * r i t h₂ p := by
  cases hC with
  | none => exact hh p
  | _ =>
    simp only [mul_sum, ← sum_add_distrib]
    exact sum_congr rfl fun m _ => by rw [hh]; ring

/-! ## From values to programs -/

theorem causalOn_signal {f : Filter α} {sx : List Nat} {sz : Option (List Nat)} {k : Option Nat} {B N M : Nat}
    (Y : Tensor α → Option (Tensor α) → Nat → Nat → Nat → α) (F : Tensor α → Option (Tensor α) → Nat → Nat → α)
    (hf : ∀ x z, x.shape = sx → z.map shape = sz → f x z = .ok (signal k B N (Y x z),
      if z.isSome then some (t2 B M (F x z)) else none))
    (hY : ∀ T x₁ x₂ z, x₁.shape = sx → AgreeTo T x₁ x₂ → ∀ i t p, t ≤ T → Y x₁ z i t p = Y x₂ z i t p) :
    CausalOn f sx sz := by
  intro T x₁ x₂ z hx hz h
  exact ⟨_, _, _, _, hf x₁ z hx hz, hf x₂ z (h.1.symm.trans hx) hz, agreeTo_signal fun i t p ht => hY T x₁ x₂ z hx h i t p ht⟩

theorem causalOn_packed {f : Filter α} {sx : List Nat} {sz : Option (List Nat)} {fl : Bool} {B N M : Nat} {st : Bool}
    (Y : Tensor α → Option (Tensor α) → Nat → Nat → α) (F : Tensor α → Option (Tensor α) → Nat → Nat → α)
    (hf : ∀ x z, x.shape = sx → z.map shape = sz → f x z = .ok (packed fl B N (Y x z),
      if st then some (packed fl B M (F x z)) else none))
    (hY : ∀ T x₁ x₂ z, x₁.shape = sx → AgreeTo T x₁ x₂ → ∀ i t, t ≤ T → Y x₁ z i t = Y x₂ z i t) :
    CausalOn f sx sz := by
  intro T x₁ x₂ z hx hz h
  exact ⟨_, _, _, _, hf x₁ z hx hz, hf x₂ z (h.1.symm.trans hx) hz, agreeTo_packed fun i t ht => hY T x₁ x₂ z hx h i t ht⟩

theorem isSome_of_shape {z z' : Option (Tensor α)} (h : z'.map shape = z.map shape) : z'.isSome = z.isSome := by
  cases z <;> cases z' <;> first | rfl | simp at h

theorem allFlat_shape {X X' b a : Tensor α} {z z' : Option (Tensor α)} (hX : X'.shape = X.shape)
    (h : z'.map shape = z.map shape) : allFlat X' b a z' = allFlat X b a z := by
  have e : X'.rank = X.rank := congrArg List.length hX
  unfold allFlat
  rw [e]
  cases z with
  | none => cases z' with
    | none => rfl
    | some z' => simp at h
  | some z => cases z' with
    | none => simp at h
    | some z' =>
      have h : z'.shape = z.shape := by simpa using h
      have e : z'.rank = z.rank := congrArg List.length h
      simp [e]

theorem allFlatTv_shape {X X' b a : Tensor α} {z z' : Option (Tensor α)} (hX : X'.shape = X.shape)
    (h : z'.map shape = z.map shape) : allFlatTv X' b a z' = allFlatTv X b a z := by
  have e : X'.rank = X.rank := congrArg List.length hX
  unfold allFlatTv
  rw [e]
  cases z with
  | none => cases z' with
    | none => rfl
    | some z' => simp at h
  | some z => cases z' with
    | none => simp at h
    | some z' =>
      have h : z'.shape = z.shape := by simpa using h
      have e : z'.rank = z.rank := congrArg List.length h
      simp [e]

/-- The value of the initial state of a scalar recurrence. -/
def bval (z : Tensor α) (i : Nat) : α :=
  if z.rank = 0 then z.get [] else if z.shape = [1] then z.get [0] else z.get [i]

theorem bval_lin {c d : α} {x y : Tensor α} (h : x.shape = y.shape) (i : Nat) :
    bval (lincomb c d x y) i = c * bval x i + d * bval y i := by
  have h1 : (lincomb c d x y).rank = x.rank := congrArg List.length (lincomb_shape c d x y)
  have h2 : y.rank = x.rank := congrArg List.length h.symm
  unfold bval
  rw [h1, h2, lincomb_shape, h]
  split
  · rw [lincomb_get h]
  · split <;> rw [lincomb_get h]

theorem of_shape0 {x : Tensor α} (h : x.shape = []) : ∃ f : α, x = t0 f ∧ x.get [] = f :=
  ⟨x.get [], ext0 h rfl (by rw [get_t0]), rfl⟩

theorem batchVals_vals {B : Nat} {a : Tensor α} {av : Nat → α} (h : BatchVals B a av) {a' : Tensor α}
    (hs : a'.shape = a.shape) : BatchVals B a' (bval a') := by
  have single : ∀ a' : Tensor α, a'.shape = [1] → BatchVals B a' (bval a') := by
    intro a' hs
    obtain ⟨f, rfl, hf⟩ := of_shape1 hs
    rw [show bval (t1 1 f) = fun _ => f 0 from by funext i; simp [bval, hf]]
    exact .single f
  cases h with
  | scalar c =>
    obtain ⟨f, rfl, hf⟩ := of_shape0 hs
    rw [show bval (t0 f) = fun _ => f from by funext i; simp [bval, hf]]
    exact .scalar f
  | single g => exact single a' hs
  | full g =>
    by_cases hB : B = 1
    · subst hB; exact single a' hs
    · obtain ⟨f, rfl, hf⟩ := of_shape1 hs
      rw [show bval (t1 B f) = f from by funext i; simp [bval, hf, hB]]
      exact .full f

end Spec
