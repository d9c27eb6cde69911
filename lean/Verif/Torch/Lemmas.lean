import Verif.Torch.Core
import Mathlib.Tactic.Ring

/-!
# Extensionality and basic evaluation lemmas for tensors
-/

namespace Torch
open Finset

theorem check_true {c : Prop} {inst : Decidable c} (h : c) (msg : String) : check c msg = .ok () := by
  simp [check, h]

theorem check_false {c : Prop} {inst : Decidable c} (h : ¬ c) (msg : String) : check c msg = .error msg := by
  simp [check, h]

theorem ok_bind {β γ : Type} (b : β) (f : β → Res γ) : (Except.ok b >>= f) = f b := rfl
theorem error_bind {β γ : Type} (e : String) (f : β → Res γ) :
    ((Except.error e : Res β) >>= f) = .error e := rfl
theorem pure_eq_ok {β : Type} (b : β) : (pure b : Res β) = .ok b := rfl

namespace Tensor
variable {α : Type} [Zero α]

theorem ext' {x y : Tensor α} (hs : x.shape = y.shape)
    (h : ∀ l, inB l x.shape = true → x.get l = y.get l) : x = y := by
  obtain ⟨s, f, cf⟩ := x
  obtain ⟨s', g, cg⟩ := y
  obtain rfl : s = s' := hs
  have : f = g := by
    funext l
    by_cases hl : inB l s = true
    · exact h l hl
    · rw [cf l (by simpa using hl), cg l (by simpa using hl)]
  subst this
  rfl

theorem get_ofFn {s : List Nat} {f : List Nat → α} {l : List Nat} :
    (ofFn s f).get l = if inB l s then f l else 0 := rfl

@[simp] theorem shape_ofFn (s : List Nat) (f : List Nat → α) : (ofFn s f).shape = s := id rfl

theorem ofFn_congr {s s' : List Nat} {f g : List Nat → α} (hs : s = s')
    (h : ∀ l, inB l s = true → f l = g l) : ofFn s f = ofFn s' g := by
  subst hs
  refine ext' rfl ?_
  intro l hl
  simp only [shape_ofFn] at hl
  simp [get_ofFn, hl, h l hl]

theorem eq_ofFn (x : Tensor α) : x = ofFn x.shape x.get := by
  refine ext' rfl ?_
  intro l hl
  simp [get_ofFn, hl]

theorem inB_length {l s : List Nat} (h : inB l s = true) : l.length = s.length := by
  induction l generalizing s with
  | nil => cases s <;> simp_all [inB]
  | cons i l ih => cases s with
    | nil => simp [inB] at h
    | cons n s => simp only [inB, Bool.and_eq_true] at h; simp [ih h.2]

theorem inB0 {l : List Nat} (h : inB l [] = true) : l = [] := by
  cases l <;> simp_all [inB]
theorem inB_cons {l : List Nat} {n : Nat} {s : List Nat} (h : inB l (n :: s) = true) :
    ∃ i l', l = i :: l' ∧ i < n ∧ inB l' s = true := by
  cases l with
  | nil => simp [inB] at h
  | cons i l' => simp [inB] at h; exact ⟨i, l', rfl, h.1, h.2⟩

theorem ext0 {x y : Tensor α} (hx : x.shape = []) (hy : y.shape = [])
    (h : x.get [] = y.get []) : x = y := by
  apply ext' (by rw [hx, hy])
  intro l hl
  rw [hx] at hl
  rw [inB0 hl, h]

theorem ext1 {x y : Tensor α} {n : Nat} (hx : x.shape = [n]) (hy : y.shape = [n])
    (h : ∀ i, i < n → x.get [i] = y.get [i]) : x = y := by
  apply ext' (by rw [hx, hy])
  intro l hl
  rw [hx] at hl
  obtain ⟨i, l, rfl, hi, hl⟩ := inB_cons hl
  rw [inB0 hl, h i hi]

theorem ext2 {x y : Tensor α} {n m : Nat} (hx : x.shape = [n, m]) (hy : y.shape = [n, m])
    (h : ∀ i j, i < n → j < m → x.get [i, j] = y.get [i, j]) : x = y := by
  apply ext' (by rw [hx, hy])
  intro l hl
  rw [hx] at hl
  obtain ⟨i, l, rfl, hi, hl⟩ := inB_cons hl
  obtain ⟨j, l, rfl, hj, hl⟩ := inB_cons hl
  rw [inB0 hl, h i j hi hj]

theorem ext3 {x y : Tensor α} {n m p : Nat} (hx : x.shape = [n, m, p]) (hy : y.shape = [n, m, p])
    (h : ∀ i j k, i < n → j < m → k < p → x.get [i, j, k] = y.get [i, j, k]) : x = y := by
  apply ext' (by rw [hx, hy])
  intro l hl
  rw [hx] at hl
  obtain ⟨i, l, rfl, hi, hl⟩ := inB_cons hl
  obtain ⟨j, l, rfl, hj, hl⟩ := inB_cons hl
  obtain ⟨k, l, rfl, hk, hl⟩ := inB_cons hl
  rw [inB0 hl, h i j k hi hj hk]

theorem ext4 {x y : Tensor α} {n m p q : Nat} (hx : x.shape = [n, m, p, q])
    (hy : y.shape = [n, m, p, q])
    (h : ∀ i j k o, i < n → j < m → k < p → o < q → x.get [i, j, k, o] = y.get [i, j, k, o]) :
    x = y := by
  apply ext' (by rw [hx, hy])
  intro l hl
  rw [hx] at hl
  obtain ⟨i, l, rfl, hi, hl⟩ := inB_cons hl
  obtain ⟨j, l, rfl, hj, hl⟩ := inB_cons hl
  obtain ⟨k, l, rfl, hk, hl⟩ := inB_cons hl
  obtain ⟨o, l, rfl, ho, hl⟩ := inB_cons hl
  rw [inB0 hl, h i j k o hi hj hk ho]

theorem ext5 {x y : Tensor α} {n m p q r : Nat} (hx : x.shape = [n, m, p, q, r])
    (hy : y.shape = [n, m, p, q, r])
    (h : ∀ i j k o u, i < n → j < m → k < p → o < q → u < r →
      x.get [i, j, k, o, u] = y.get [i, j, k, o, u]) :
    x = y := by
  apply ext' (by rw [hx, hy])
  intro l hl
  rw [hx] at hl
  obtain ⟨i, l, rfl, hi, hl⟩ := inB_cons hl
  obtain ⟨j, l, rfl, hj, hl⟩ := inB_cons hl
  obtain ⟨k, l, rfl, hk, hl⟩ := inB_cons hl
  obtain ⟨o, l, rfl, ho, hl⟩ := inB_cons hl
  obtain ⟨u, l, rfl, hu, hl⟩ := inB_cons hl
  rw [inB0 hl, h i j k o u hi hj hk ho hu]

/-! ### shapes and elements of the canonical tensors -/

@[simp] theorem shape_t0 (a : α) : (t0 a).shape = [] := id rfl
@[simp] theorem shape_t1 (n) (f : Nat → α) : (t1 n f).shape = [n] := id rfl
@[simp] theorem shape_t2 (n m) (f : Nat → Nat → α) : (t2 n m f).shape = [n, m] := id rfl
@[simp] theorem shape_t3 (n m p) (f : Nat → Nat → Nat → α) : (t3 n m p f).shape = [n, m, p] := id rfl
@[simp] theorem shape_t4 (n m p q) (f : Nat → Nat → Nat → Nat → α) :
    (t4 n m p q f).shape = [n, m, p, q] := id rfl
@[simp] theorem shape_t5 (n m p q r) (f : Nat → Nat → Nat → Nat → Nat → α) :
    (t5 n m p q r f).shape = [n, m, p, q, r] := id rfl

@[simp] theorem rank_t0 (a : α) : (t0 a).rank = 0 := id rfl
@[simp] theorem rank_t1 (n) (f : Nat → α) : (t1 n f).rank = 1 := id rfl
@[simp] theorem rank_t2 (n m) (f : Nat → Nat → α) : (t2 n m f).rank = 2 := id rfl
@[simp] theorem rank_t3 (n m p) (f : Nat → Nat → Nat → α) : (t3 n m p f).rank = 3 := id rfl
@[simp] theorem rank_t4 (n m p q) (f : Nat → Nat → Nat → Nat → α) : (t4 n m p q f).rank = 4 := id rfl
@[simp] theorem rank_t5 (n m p q r) (f : Nat → Nat → Nat → Nat → Nat → α) :
    (t5 n m p q r f).rank = 5 := id rfl

theorem get_t0 {a : α} : (t0 a).get [] = a := rfl
theorem get_t1 {n} {f : Nat → α} {i} (hi : i < n) : (t1 n f).get [i] = f i := by
  simp [t1, get_ofFn, inB, hi]
theorem get_t2 {n m} {f : Nat → Nat → α} {i j} (hi : i < n) (hj : j < m) :
    (t2 n m f).get [i, j] = f i j := by
  simp [t2, get_ofFn, inB, hi, hj]
theorem get_t3 {n m p} {f : Nat → Nat → Nat → α} {i j k} (hi : i < n) (hj : j < m) (hk : k < p) :
    (t3 n m p f).get [i, j, k] = f i j k := by
  simp [t3, get_ofFn, inB, hi, hj, hk]
theorem get_t4 {n m p q} {f : Nat → Nat → Nat → Nat → α} {i j k o}
    (hi : i < n) (hj : j < m) (hk : k < p) (ho : o < q) :
    (t4 n m p q f).get [i, j, k, o] = f i j k o := by
  simp [t4, get_ofFn, inB, hi, hj, hk, ho]
theorem get_t5 {n m p q r} {f : Nat → Nat → Nat → Nat → Nat → α} {i j k o u}
    (hi : i < n) (hj : j < m) (hk : k < p) (ho : o < q) (hu : u < r) :
    (t5 n m p q r f).get [i, j, k, o, u] = f i j k o u := by
  simp [t5, get_ofFn, inB, hi, hj, hk, ho, hu]

theorem get_ofFn0 {g : List Nat → α} : (ofFn [] g).get [] = g [] := rfl
theorem get_ofFn1 {n} {g : List Nat → α} {i} (hi : i < n) : (ofFn [n] g).get [i] = g [i] := by
  simp [get_ofFn, inB, hi]
theorem get_ofFn2 {n m} {g : List Nat → α} {i j} (hi : i < n) (hj : j < m) :
    (ofFn [n, m] g).get [i, j] = g [i, j] := by
  simp [get_ofFn, inB, hi, hj]
theorem get_ofFn3 {n m p} {g : List Nat → α} {i j k} (hi : i < n) (hj : j < m) (hk : k < p) :
    (ofFn [n, m, p] g).get [i, j, k] = g [i, j, k] := by
  simp [get_ofFn, inB, hi, hj, hk]
theorem get_ofFn4 {n m p q} {g : List Nat → α} {i j k o}
    (hi : i < n) (hj : j < m) (hk : k < p) (ho : o < q) :
    (ofFn [n, m, p, q] g).get [i, j, k, o] = g [i, j, k, o] := by
  simp [get_ofFn, inB, hi, hj, hk, ho]
theorem get_ofFn5 {n m p q r} {g : List Nat → α} {i j k o u}
    (hi : i < n) (hj : j < m) (hk : k < p) (ho : o < q) (hu : u < r) :
    (ofFn [n, m, p, q, r] g).get [i, j, k, o, u] = g [i, j, k, o, u] := by
  simp [get_ofFn, inB, hi, hj, hk, ho, hu]

/-! ### congruence: tensors with equal entries inside the shape are equal -/

theorem t1_congr {n n'} {f g : Nat → α} (hn : n = n') (h : ∀ i, i < n → f i = g i) :
    t1 n f = t1 n' g := by
  subst hn
  apply ext1 rfl rfl
  intro i hi
  rw [get_t1 hi, get_t1 hi, h i hi]
theorem t2_congr {n n' m m'} {f g : Nat → Nat → α} (hn : n = n') (hm : m = m')
    (h : ∀ i j, i < n → j < m → f i j = g i j) : t2 n m f = t2 n' m' g := by
  subst hn hm
  apply ext2 rfl rfl
  intro i j hi hj
  rw [get_t2 hi hj, get_t2 hi hj, h i j hi hj]
theorem t3_congr {n n' m m' p p'} {f g : Nat → Nat → Nat → α} (hn : n = n') (hm : m = m')
    (hp : p = p') (h : ∀ i j k, i < n → j < m → k < p → f i j k = g i j k) :
    t3 n m p f = t3 n' m' p' g := by
  subst hn hm hp
  apply ext3 rfl rfl
  intro i j k hi hj hk
  rw [get_t3 hi hj hk, get_t3 hi hj hk, h i j k hi hj hk]
theorem t4_congr {n n' m m' p p' q q'} {f g : Nat → Nat → Nat → Nat → α} (hn : n = n')
    (hm : m = m') (hp : p = p') (hq : q = q')
    (h : ∀ i j k o, i < n → j < m → k < p → o < q → f i j k o = g i j k o) :
    t4 n m p q f = t4 n' m' p' q' g := by
  subst hn hm hp hq
  apply ext4 rfl rfl
  intro i j k o hi hj hk ho
  rw [get_t4 hi hj hk ho, get_t4 hi hj hk ho, h i j k o hi hj hk ho]
theorem t5_congr {n n' m m' p p' q q' r r'} {f g : Nat → Nat → Nat → Nat → Nat → α} (hn : n = n')
    (hm : m = m') (hp : p = p') (hq : q = q') (hr : r = r')
    (h : ∀ i j k o u, i < n → j < m → k < p → o < q → u < r → f i j k o u = g i j k o u) :
    t5 n m p q r f = t5 n' m' p' q' r' g := by
  subst hn hm hp hq hr
  apply ext5 rfl rfl
  intro i j k o u hi hj hk ho hu
  rw [get_t5 hi hj hk ho hu, get_t5 hi hj hk ho hu, h i j k o u hi hj hk ho hu]

/-- Every tensor with one axis is of the form `t1`. -/
theorem eq_t1 {x : Tensor α} {n} (h : x.shape = [n]) : x = t1 n fun i => x.get [i] :=
  ext1 h rfl fun i hi => by rw [get_t1 hi]
theorem eq_t2 {x : Tensor α} {n m} (h : x.shape = [n, m]) : x = t2 n m fun i j => x.get [i, j] :=
  ext2 h rfl fun i j hi hj => by rw [get_t2 hi hj]
theorem eq_t3 {x : Tensor α} {n m p} (h : x.shape = [n, m, p]) :
    x = t3 n m p fun i j k => x.get [i, j, k] :=
  ext3 h rfl fun i j k hi hj hk => by rw [get_t3 hi hj hk]
theorem eq_t4 {x : Tensor α} {n m p q} (h : x.shape = [n, m, p, q]) :
    x = t4 n m p q fun i j k o => x.get [i, j, k, o] :=
  ext4 h rfl fun i j k o hi hj hk ho => by rw [get_t4 hi hj hk ho]

/-! ### dimensions -/

@[simp] theorem wrapDim_1_0 : wrapDim 1 0 = .ok 0 := rfl
@[simp] theorem wrapDim_1_n1 : wrapDim 1 (-1) = .ok 0 := rfl
@[simp] theorem wrapDim_2_0 : wrapDim 2 0 = .ok 0 := rfl
@[simp] theorem wrapDim_2_1 : wrapDim 2 1 = .ok 1 := rfl
@[simp] theorem wrapDim_2_n1 : wrapDim 2 (-1) = .ok 1 := rfl
@[simp] theorem wrapDim_2_n2 : wrapDim 2 (-2) = .ok 0 := rfl
@[simp] theorem wrapDim_3_0 : wrapDim 3 0 = .ok 0 := rfl
@[simp] theorem wrapDim_3_1 : wrapDim 3 1 = .ok 1 := rfl
@[simp] theorem wrapDim_3_2 : wrapDim 3 2 = .ok 2 := rfl
@[simp] theorem wrapDim_3_n1 : wrapDim 3 (-1) = .ok 2 := rfl
@[simp] theorem wrapDim_3_n2 : wrapDim 3 (-2) = .ok 1 := rfl
@[simp] theorem wrapDim_3_n3 : wrapDim 3 (-3) = .ok 0 := rfl
@[simp] theorem wrapDim_4_0 : wrapDim 4 0 = .ok 0 := rfl
@[simp] theorem wrapDim_4_1 : wrapDim 4 1 = .ok 1 := rfl
@[simp] theorem wrapDim_4_2 : wrapDim 4 2 = .ok 2 := rfl
@[simp] theorem wrapDim_4_3 : wrapDim 4 3 = .ok 3 := rfl
@[simp] theorem wrapDim_4_n1 : wrapDim 4 (-1) = .ok 3 := rfl
@[simp] theorem wrapDim_4_n2 : wrapDim 4 (-2) = .ok 2 := rfl
@[simp] theorem wrapDim_4_n3 : wrapDim 4 (-3) = .ok 1 := rfl
@[simp] theorem wrapDim_4_n4 : wrapDim 4 (-4) = .ok 0 := rfl
@[simp] theorem wrapDim_5_n1 : wrapDim 5 (-1) = .ok 4 := rfl
@[simp] theorem wrapDim_5_n2 : wrapDim 5 (-2) = .ok 3 := rfl
@[simp] theorem wrapDim_5_n3 : wrapDim 5 (-3) = .ok 2 := rfl
@[simp] theorem wrapDim_5_n4 : wrapDim 5 (-4) = .ok 1 := rfl
@[simp] theorem wrapDim_5_n5 : wrapDim 5 (-5) = .ok 0 := rfl
@[simp] theorem wrapDim_5_0 : wrapDim 5 0 = .ok 0 := rfl
@[simp] theorem wrapDim_5_3 : wrapDim 5 3 = .ok 3 := rfl
@[simp] theorem wrapDim_5_4 : wrapDim 5 4 = .ok 4 := rfl
@[simp] theorem wrapDim_5_1 : wrapDim 5 1 = .ok 1 := rfl
@[simp] theorem wrapDim_5_2 : wrapDim 5 2 = .ok 2 := rfl

@[simp] theorem size_t1_0 (n) (f : Nat → α) : (t1 n f).size 0 = n := id rfl
@[simp] theorem size_t1_n1 (n) (f : Nat → α) : (t1 n f).size (-1) = n := id rfl
@[simp] theorem size_t2_0 (n m) (f : Nat → Nat → α) : (t2 n m f).size 0 = n := id rfl
@[simp] theorem size_t2_1 (n m) (f : Nat → Nat → α) : (t2 n m f).size 1 = m := id rfl
@[simp] theorem size_t2_n1 (n m) (f : Nat → Nat → α) : (t2 n m f).size (-1) = m := id rfl
@[simp] theorem size_t2_n2 (n m) (f : Nat → Nat → α) : (t2 n m f).size (-2) = n := id rfl
@[simp] theorem size_t3_0 (n m p) (f : Nat → Nat → Nat → α) : (t3 n m p f).size 0 = n := id rfl
@[simp] theorem size_t3_1 (n m p) (f : Nat → Nat → Nat → α) : (t3 n m p f).size 1 = m := id rfl
@[simp] theorem size_t3_2 (n m p) (f : Nat → Nat → Nat → α) : (t3 n m p f).size 2 = p := id rfl
@[simp] theorem size_t3_n1 (n m p) (f : Nat → Nat → Nat → α) : (t3 n m p f).size (-1) = p := id rfl
@[simp] theorem size_t3_n2 (n m p) (f : Nat → Nat → Nat → α) : (t3 n m p f).size (-2) = m := id rfl
@[simp] theorem size_t3_n3 (n m p) (f : Nat → Nat → Nat → α) : (t3 n m p f).size (-3) = n := id rfl
@[simp] theorem size_t4_0 (n m p q) (f : Nat → Nat → Nat → Nat → α) : (t4 n m p q f).size 0 = n := id rfl
@[simp] theorem size_t4_1 (n m p q) (f : Nat → Nat → Nat → Nat → α) : (t4 n m p q f).size 1 = m := id rfl
@[simp] theorem size_t4_2 (n m p q) (f : Nat → Nat → Nat → Nat → α) : (t4 n m p q f).size 2 = p := id rfl
@[simp] theorem size_t4_3 (n m p q) (f : Nat → Nat → Nat → Nat → α) : (t4 n m p q f).size 3 = q := id rfl
@[simp] theorem size_t4_n1 (n m p q) (f : Nat → Nat → Nat → Nat → α) :
    (t4 n m p q f).size (-1) = q := id rfl
@[simp] theorem size_t4_n2 (n m p q) (f : Nat → Nat → Nat → Nat → α) :
    (t4 n m p q f).size (-2) = p := id rfl
@[simp] theorem size_t4_n3 (n m p q) (f : Nat → Nat → Nat → Nat → α) :
    (t4 n m p q f).size (-3) = m := id rfl
@[simp] theorem size_t4_n4 (n m p q) (f : Nat → Nat → Nat → Nat → α) :
    (t4 n m p q f).size (-4) = n := id rfl
@[simp] theorem size_t5_n1 (n m p q r) (f : Nat → Nat → Nat → Nat → Nat → α) :
    (t5 n m p q r f).size (-1) = r := id rfl
@[simp] theorem size_t5_n2 (n m p q r) (f : Nat → Nat → Nat → Nat → Nat → α) :
    (t5 n m p q r f).size (-2) = q := id rfl
@[simp] theorem size_t5_n3 (n m p q r) (f : Nat → Nat → Nat → Nat → Nat → α) :
    (t5 n m p q r f).size (-3) = p := id rfl
@[simp] theorem size_t5_n4 (n m p q r) (f : Nat → Nat → Nat → Nat → Nat → α) :
    (t5 n m p q r f).size (-4) = m := id rfl
@[simp] theorem size_t5_n5 (n m p q r) (f : Nat → Nat → Nat → Nat → Nat → α) :
    (t5 n m p q r f).size (-5) = n := id rfl
@[simp] theorem size_t5_0 (n m p q r) (f : Nat → Nat → Nat → Nat → Nat → α) :
    (t5 n m p q r f).size 0 = n := id rfl
@[simp] theorem size_t5_1 (n m p q r) (f : Nat → Nat → Nat → Nat → Nat → α) :
    (t5 n m p q r f).size 1 = m := id rfl
@[simp] theorem size_t5_2 (n m p q r) (f : Nat → Nat → Nat → Nat → Nat → α) :
    (t5 n m p q r f).size 2 = p := id rfl
@[simp] theorem size_t5_3 (n m p q r) (f : Nat → Nat → Nat → Nat → Nat → α) :
    (t5 n m p q r f).size 3 = q := id rfl
@[simp] theorem size_t5_4 (n m p q r) (f : Nat → Nat → Nat → Nat → Nat → α) :
    (t5 n m p q r f).size 4 = r := id rfl

@[simp] theorem numel_t0 (a : α) : (t0 a).numel = 1 := id rfl
@[simp] theorem numel_t1 (n) (f : Nat → α) : (t1 n f).numel = n := by simp [numel]

end Tensor
end Torch
