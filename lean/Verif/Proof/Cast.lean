import Verif.Spec.Cast
import Verif.Torch.Loop
import Verif.Torch.Conv
import Verif.Torch.SolveMat

/-!
# Tensor operations commute with a change of numbers

Every lemma pulls `cast φ` from the arguments of an operation out to its result, so that `simp only [castOp]` proves the same of a
composed function.
-/

namespace Torch
variable {α β γ δ : Type}

theorem map_bind_cast (f : γ → δ) {ε : Type} (r : Res γ) (k : δ → Res ε) : (Except.map f r >>= k) = r >>= fun v => k (f v) := by
  cases r <;> rfl

theorem bind_pull (f : γ → δ) {ε : Type} (r : Res ε) (k : ε → Res γ) : (r >>= fun v => Except.map f (k v)) = Except.map f (r >>= k) := by
  cases r <;> rfl

theorem ite_pull (c : Prop) [Decidable c] (f : γ → δ) (p q : Res γ) :
    (if c then Except.map f p else Except.map f q) = Except.map f (if c then p else q) := by
  split_ifs <;> rfl

theorem ite_error_pull (c : Prop) [Decidable c] (f : γ → δ) (p : Res γ) (e : String) :
    (if c then Except.map f p else .error e) = Except.map f (if c then p else .error e) := by
  split_ifs <;> rfl

theorem ite_pull_error (c : Prop) [Decidable c] (f : γ → δ) (p : Res γ) (e : String) :
    (if c then .error e else Except.map f p) = Except.map f (if c then .error e else p) := by
  split_ifs <;> rfl

@[congr] theorem check_congr {c c' : Prop} [Decidable c] [Decidable c'] (h : c = c') (m : String) : check c m = check c' m := by
  subst h
  congr 1

namespace Tensor
variable {α β : Type} [CommRing α] [CommRing β] (φ : α →+* β)

theorem cast_shape (x : Tensor α) : (cast φ x).shape = x.shape := by cases x; rfl
theorem cast_rank (x : Tensor α) : (cast φ x).rank = x.rank := by cases x; rfl
theorem cast_numel (x : Tensor α) : (cast φ x).numel = x.numel := by cases x; rfl
theorem cast_size (x : Tensor α) (d : Int) : (cast φ x).size d = x.size d := by cases x; rfl
theorem cast_get (x : Tensor α) (l : List Nat) : (cast φ x).get l = φ (x.get l) := rfl

theorem tensor_ext' {x y : Tensor β} (h : x.shape = y.shape) (g : ∀ l, x.get l = y.get l) : x = y := by
  obtain ⟨s, f, c⟩ := x
  obtain ⟨s', f', c'⟩ := y
  cases h
  have : f = f' := funext g
  cases this
  rfl

theorem cast_ofFn (s : List Nat) (f : List Nat → α) : ofFn s (fun l => φ (f l)) = cast φ (ofFn s f) := by
  refine tensor_ext' rfl fun l => ?_
  show (if inB l s then φ (f l) else 0) = φ (if inB l s then f l else 0)
  split_ifs <;> simp

theorem cast_pure (x : Tensor α) : (pure (cast φ x) : Res (Tensor β)) = Except.map (cast φ) (pure x) := rfl

theorem cast_return (x : Tensor α) : (Except.ok (cast φ x) : Res (Tensor β)) = Except.map (cast φ) (Except.ok x) := rfl

/-- The general rules. -/
macro "pull" "[" ls:Lean.Parser.Tactic.simpLemma,* "]" : tactic =>
  `(tactic| simp only [map_bind_cast, bind_pull, ite_pull, ite_error_pull, ite_pull_error, cast_shape, cast_rank, cast_numel, cast_size,
    cast_get, cast_ofFn, cast_pure, cast_return, $ls,*])

theorem cast_unsqueeze (x : Tensor α) (d : Int) : unsqueeze (cast φ x) d = Except.map (cast φ) (unsqueeze x d) := by
  pull [unsqueeze]

theorem cast_squeeze (x : Tensor α) (d : Int) : squeeze (cast φ x) d = Except.map (cast φ) (squeeze x d) := by
  pull [squeeze]

theorem cast_flip (x : Tensor α) (d : Int) : flip (cast φ x) d = Except.map (cast φ) (flip x d) := by
  pull [flip]

theorem cast_slice (x : Tensor α) (d : Int) (s t : Option Int) : slice (cast φ x) d s t = Except.map (cast φ) (slice x d s t) := by
  pull [slice]

theorem cast_select (x : Tensor α) (d i : Int) : select (cast φ x) d i = Except.map (cast φ) (select x d i) := by
  pull [select]

theorem cast_unbind (x : Tensor α) (d : Int) : unbind (cast φ x) d = Except.map (List.map (cast φ)) (unbind x d) := by
  pull [unbind]
  cases wrapDim x.rank d with
  | error e => rfl
  | ok p =>
    show Except.ok _ = Except.ok _
    rw [List.map_map]
    rfl

theorem cast_transpose (x : Tensor α) (d e : Int) : transpose (cast φ x) d e = Except.map (cast φ) (transpose x d e) := by
  pull [transpose]

theorem cast_mT (x : Tensor α) : mT (cast φ x) = Except.map (cast φ) (mT x) := cast_transpose φ x _ _

theorem cast_permute120 (x : Tensor α) : permute120 (cast φ x) = Except.map (cast φ) (permute120 x) := by
  pull [permute120]

theorem cast_unflatten (x : Tensor α) (d : Int) (s : List (Option Nat)) :
    unflatten (cast φ x) d s = Except.map (cast φ) (unflatten x d s) := by
  pull [unflatten]

theorem cast_flatten (x : Tensor α) (d e : Int) : flatten (cast φ x) d e = Except.map (cast φ) (flatten x d e) := by
  pull [flatten]

theorem cast_unfold (x : Tensor α) (d : Int) (n : Nat) : unfold (cast φ x) d n = Except.map (cast φ) (unfold x d n) := by
  pull [unfold]

theorem cast_rollNeg1 (x : Tensor α) (d : Int) : rollNeg1 (cast φ x) d = Except.map (cast φ) (rollNeg1 x d) := by
  pull [rollNeg1]

theorem cast_if (c : Prop) [Decidable c] (x y : α) : (if c then φ x else φ y) = φ (if c then x else y) := by split_ifs <;> rfl

theorem cast_padDim (x : Tensor α) (d l r : Int) (v : α) : padDim (cast φ x) d l r (φ v) = Except.map (cast φ) (padDim x d l r v) := by
  pull [padDim, cast_if]

theorem cast_padZero (x : Tensor α) (d l r : Int) : padDim (cast φ x) d l r 0 = Except.map (cast φ) (padDim x d l r 0) := by
  rw [← cast_padDim, map_zero]

theorem cast_padOne (x : Tensor α) (d l r : Int) : padDim (cast φ x) d l r 1 = Except.map (cast φ) (padDim x d l r 1) := by
  rw [← cast_padDim, map_one]

theorem cast_padReplicate (x : Tensor α) (l r : Nat) : padReplicate (cast φ x) l r = Except.map (cast φ) (padReplicate x l r) := by
  pull [padReplicate]

theorem cast_padReflect (x : Tensor α) (l r : Nat) : padReflect (cast φ x) l r = Except.map (cast φ) (padReflect x l r) := by
  pull [padReflect, cast_if]

theorem cast_padCircular (x : Tensor α) (l r : Nat) : padCircular (cast φ x) l r = Except.map (cast φ) (padCircular x l r) := by
  pull [padCircular, cast_if]

theorem cast_cat2 (x y : Tensor α) (d : Int) : cat2 (cast φ x) (cast φ y) d = Except.map (cast φ) (cat2 x y d) := by
  pull [cat2, cast_if]

theorem foldlM_cast {γ γ' : Type} (f : γ → γ') (g : Tensor α → γ → Res (Tensor α)) (g' : Tensor β → γ' → Res (Tensor β))
    (h : ∀ x y, g' (cast φ x) (f y) = Except.map (cast φ) (g x y)) (x : Tensor α) (ys : List γ) :
    (ys.map f).foldlM g' (cast φ x) = Except.map (cast φ) (ys.foldlM g x) := by
  induction ys generalizing x with
  | nil => rfl
  | cons y ys ih =>
    simp only [List.map_cons, List.foldlM_cons, h, map_bind_cast, ih, bind_pull]

theorem cast_cat (xs : List (Tensor α)) (d : Int) : cat (xs.map (cast φ)) d = Except.map (cast φ) (cat xs d) := by
  cases xs with
  | nil => rfl
  | cons x xs => exact foldlM_cast φ _ _ _ (fun x y => cast_cat2 φ x y d) x xs

theorem cast_stack (xs : List (Tensor α)) (d : Int) : stack (xs.map (cast φ)) d = Except.map (cast φ) (stack xs d) := by
  cases xs with
  | nil => rfl
  | cons x xs =>
    have hg : ∀ (n : Nat) (l : List Nat), ((cast φ x :: xs.map (cast φ)).getD n (cast φ x)).get l = φ (((x :: xs).getD n x).get l) := by
      intro n l
      rw [← List.map_cons (f := cast φ)]
      simp only [List.getD_eq_getElem?_getD, List.getElem?_map]
      cases (x :: xs)[n]? <;> rfl
    have hc : (∀ y ∈ xs.map (cast φ), y.shape = (cast φ x).shape) ↔ ∀ y ∈ xs, y.shape = x.shape := by
      simp [cast_shape]
    simp only [stack, List.map_cons, cast_rank, hg, List.length_map, cast_shape]
    simp only [cast_shape] at hc
    simp only [hc]
    pull []

theorem cast_pair (x y : Tensor α) : (pure (cast φ x, cast φ y) : Res (Tensor β × Tensor β)) =
    Except.map (Prod.map (cast φ) (cast φ)) (pure (x, y)) := rfl

theorem cast_split2 (x : Tensor α) (a b : Nat) (d : Int) :
    split2 (cast φ x) a b d = Except.map (Prod.map (cast φ) (cast φ)) (split2 x a b d) := by
  pull [split2, cast_slice, cast_pair]

theorem cast_repeat0 (x : Tensor α) (k : Nat) : repeat0 (cast φ x) k = Except.map (cast φ) (repeat0 x k) := by
  pull [repeat0]

theorem cast_repeatInterleave (x : Tensor α) (k : Nat) : repeatInterleave (cast φ x) k = Except.map (cast φ) (repeatInterleave x k) := by
  pull [repeatInterleave]

theorem cast_expand (x : Tensor α) (s : List (Option Nat)) : expand (cast φ x) s = Except.map (cast φ) (expand x s) := by
  pull [expand]

theorem cast_zipWith (f : α → α → α) (g : β → β → β) (h : ∀ a b, g (φ a) (φ b) = φ (f a b)) (x y : Tensor α) :
    zipWith g (cast φ x) (cast φ y) = Except.map (cast φ) (zipWith f x y) := by
  unfold zipWith
  simp only [cast_shape, cast_get, h]
  cases bshape x.shape y.shape with
  | none => rfl
  | some s => show Except.ok _ = Except.ok _; rw [cast_ofFn]

theorem cast_add (x y : Tensor α) : add (cast φ x) (cast φ y) = Except.map (cast φ) (add x y) :=
  cast_zipWith φ _ _ (fun a b => (map_add φ a b).symm) x y

theorem cast_sub (x y : Tensor α) : sub (cast φ x) (cast φ y) = Except.map (cast φ) (sub x y) :=
  cast_zipWith φ _ _ (fun a b => (map_sub φ a b).symm) x y

theorem cast_mul (x y : Tensor α) : mul (cast φ x) (cast φ y) = Except.map (cast φ) (mul x y) :=
  cast_zipWith φ _ _ (fun a b => (map_mul φ a b).symm) x y

theorem cast_map (f : α → α) (g : β → β) (h : ∀ a, g (φ a) = φ (f a)) (x : Tensor α) : map g (cast φ x) = cast φ (map f x) := by
  unfold map
  simp only [cast_shape, cast_get, h, cast_ofFn]

theorem cast_neg (x : Tensor α) : neg (cast φ x) = cast φ (neg x) := cast_map φ _ _ (fun a => (map_neg φ a).symm) x

theorem cast_conj [StarRing α] [StarRing β] (hφ : ∀ a, φ (star a) = star (φ a)) (x : Tensor α) : conj (cast φ x) = cast φ (conj x) :=
  cast_map φ _ _ (fun a => (hφ a).symm) x

theorem cast_zeros (s : List Nat) : (zeros s : Tensor β) = cast φ (zeros s) := by
  unfold zeros full
  rw [← cast_ofFn, map_zero]

theorem cast_ones (s : List Nat) : (full s 1 : Tensor β) = cast φ (full s 1) := by
  unfold full
  rw [← cast_ofFn, map_one]

theorem cast_eye (n : Nat) : (eye n : Tensor β) = cast φ (eye n) := by
  unfold eye t2
  rw [← cast_ofFn]
  simp only [apply_ite φ, map_one, map_zero]

theorem cast_matmulCore (x y : Tensor α) : matmulCore (cast φ x) (cast φ y) = Except.map (cast φ) (matmulCore x y) := by
  unfold matmulCore
  simp only [cast_shape, cast_get, cast_rank, cast_size, ← map_mul, ← map_sum]
  rw [← bind_pull]
  congr 1
  funext _
  cases bshape (x.shape.take (x.rank - 2)) (y.shape.take (y.rank - 2)) with
  | none => rfl
  | some s => show Except.ok _ = Except.ok _; rw [cast_ofFn]

theorem cast_matmul (x y : Tensor α) : matmul (cast φ x) (cast φ y) = Except.map (cast φ) (matmul x y) := by
  pull [matmul, cast_unsqueeze, cast_matmulCore, cast_select]

theorem cast_vecdot [StarRing α] [StarRing β] (hφ : ∀ a, φ (star a) = star (φ a)) (x y : Tensor α) :
    vecdot (cast φ x) (cast φ y) = Except.map (cast φ) (vecdot x y) := by
  unfold vecdot
  simp only [cast_shape, cast_get, cast_rank, cast_size, ← hφ, ← map_mul, ← map_sum]
  rw [← bind_pull]
  congr 1
  funext _
  cases bshape x.shape y.shape with
  | none => rfl
  | some s => show Except.ok _ = Except.ok _; rw [cast_ofFn]

theorem cast_cumprod (x : Tensor α) (d : Int) : cumprod (cast φ x) d = Except.map (cast φ) (cumprod x d) := by
  pull [cumprod, ← map_prod]

theorem cast_sum (x : Tensor α) (d : Int) : sum (cast φ x) d = Except.map (cast φ) (sum x d) := by
  pull [sum, ← map_sum]

theorem cast_addmm (b x y : Tensor α) : addmm (cast φ b) (cast φ x) (cast φ y) = Except.map (cast φ) (addmm b x y) := by
  pull [addmm, cast_matmul, cast_expand, cast_add]

theorem cast_baddbmm (b x y : Tensor α) : baddbmm (cast φ b) (cast φ x) (cast φ y) = Except.map (cast φ) (baddbmm b x y) := by
  pull [baddbmm, cast_matmul, cast_expand, cast_add]

theorem cast_addcmul (b x y : Tensor α) : addcmul (cast φ b) (cast φ x) (cast φ y) = Except.map (cast φ) (addcmul b x y) := by
  pull [addcmul, cast_mul, cast_add]

theorem scanM_cast {σ σ' τ τ' : Type} (f : σ → σ') (g : τ → τ') (step : σ → τ → Res σ) (step' : σ' → τ' → Res σ')
    (h : ∀ s t, step' (f s) (g t) = Except.map f (step s t)) (s : σ) (ts : List τ) :
    scanM step' (f s) (ts.map g) = Except.map (List.map f) (scanM step s ts) := by
  induction ts generalizing s with
  | nil => rfl
  | cons t ts ih =>
    simp only [scanM, List.map_cons, h, map_bind_cast, ih]
    rw [← bind_pull]
    congr 1
    funext v
    cases scanM step v ts <;> rfl

theorem cast_conv1d (x w : Tensor α) (g : Nat) : conv1d (cast φ x) (cast φ w) g = Except.map (cast φ) (conv1d x w g) := by
  pull [conv1d, t3, ← map_mul, ← map_sum]

theorem cast_convTranspose1d (x w : Tensor α) (g : Nat) :
    convTranspose1d (cast φ x) (cast φ w) g = Except.map (cast φ) (convTranspose1d x w g) := by
  have hz : (0 : β) = φ 0 := (map_zero φ).symm
  unfold convTranspose1d t3
  rw [hz]
  pull [← map_mul, ← map_sum, cast_if]

theorem cast_reshape (x : Tensor α) (s : List Nat) : reshape (cast φ x) s = Except.map (cast φ) (reshape x s) := by
  pull [reshape]

theorem cast_some (x : Tensor α) : (pure (some (cast φ x)) : Res (Option (Tensor β))) = Except.map (Option.map (cast φ)) (pure (some x)) := rfl

theorem ite_none_pull (c : Prop) [Decidable c] (p : Res (Option (Tensor α))) :
    (if c then Except.map (Option.map (cast φ)) p else pure none) = Except.map (Option.map (cast φ)) (if c then p else pure none) := by
  split_ifs <;> rfl

theorem cast_pureP (x : Tensor α) (z : Option (Tensor α)) : (pure (cast φ x, z.map (cast φ)) : Res _) = Except.map (castP φ) (pure (x, z)) := rfl

theorem cast_pureSome (x z : Tensor α) : (pure (cast φ x, some (cast φ z)) : Res _) = Except.map (castP φ) (pure (x, some z)) := rfl

theorem cast_pureNone (x : Tensor α) : (pure (cast φ x, none) : Res (Tensor β × Option (Tensor β))) = Except.map (castP φ) (pure (x, none)) := rfl

theorem castP_fst (r : Tensor α × Option (Tensor α)) : (castP φ r).1 = cast φ r.1 := rfl

theorem castP_snd (r : Tensor α × Option (Tensor α)) : (castP φ r).2 = r.2.map (cast φ) := rfl

theorem isSome_cast (z : Option (Tensor α)) : (z.map (cast φ)).isSome = z.isSome := by cases z <;> rfl

theorem mapM_cast {γ γ' : Type} (f : γ → γ') (g : γ → Res (Tensor α)) (g' : γ' → Res (Tensor β))
    (h : ∀ x, g' (f x) = Except.map (cast φ) (g x)) (xs : List γ) :
    (xs.map f).mapM g' = Except.map (List.map (cast φ)) (xs.mapM g) := by
  induction xs with
  | nil => rfl
  | cons x xs ih =>
    simp only [List.map_cons, List.mapM_cons, h, ih, map_bind_cast]
    rw [← bind_pull]
    congr 1
    funext v
    cases xs.mapM g <;> rfl

/-- `pull`, with all tensor operations that do not conjugate. -/
macro "pulls" "[" ls:Lean.Parser.Tactic.simpLemma,* "]" : tactic =>
  `(tactic| simp only [map_bind_cast, bind_pull, ite_pull, ite_error_pull, ite_pull_error, cast_shape, cast_rank, cast_numel, cast_size,
    cast_get, cast_pure, cast_return, cast_unsqueeze, cast_squeeze, cast_flip, cast_slice, cast_select, cast_unbind, cast_transpose,
    cast_mT, cast_permute120, cast_unflatten, cast_flatten, cast_unfold, cast_rollNeg1, cast_padZero, cast_padOne, cast_padReplicate,
    cast_padReflect, cast_padCircular, cast_cat2, cast_cat, cast_stack, cast_pair, cast_split2, cast_repeat0, cast_repeatInterleave, cast_expand, cast_add,
    cast_sub, cast_mul, cast_neg, cast_matmul, cast_cumprod, cast_sum, cast_addmm, cast_baddbmm, cast_addcmul, cast_conv1d,
    cast_convTranspose1d, cast_reshape, cast_some, ite_none_pull, cast_pureP, cast_pureSome, cast_pureNone, castP_fst, castP_snd,
    isSome_cast, Prod.map_fst, Prod.map_snd, $ls,*])

end Tensor
end Torch
