import Verif.Model.Scan
import Verif.Proof.HostKernels

/-!
# Proofs about the scan kernels
-/

namespace Scan
open Torch

variable {β : Type}

/-- `f s ⊕ f (s+1) ⊕ … ⊕ f (s+n)`, from the left. -/
def leftFold (op : β → β → β) (f : Nat → β) (s : Nat) : Nat → β
  | 0 => f s
  | n + 1 => op (leftFold op f s n) (f (s + n + 1))

theorem foldl_assoc {op : β → β → β} (h : ∀ a b c, op (op a b) c = op a (op b c)) (x b : β) (u : List β) :
    u.foldl op (op x b) = op x (u.foldl op b) := by
  induction u generalizing b with
  | nil => rfl
  | cons c u ih => simp only [List.foldl_cons]; rw [h, ih]

theorem sums_foldl {op : β → β → β} (h : ∀ a b c, op (op a b) c = op a (op b c)) {l : List β} {v : β} (hs : Sums op l v) :
    ∃ a t, l = a :: t ∧ v = t.foldl op a := by
  induction hs with
  | one a => exact ⟨a, [], rfl, rfl⟩
  | join l r u v hl hr ih1 ih2 =>
    obtain ⟨a, t, rfl, rfl⟩ := ih1
    obtain ⟨b, u, rfl, rfl⟩ := ih2
    refine ⟨a, t ++ b :: u, rfl, ?_⟩
    rw [List.foldl_append, List.foldl_cons, foldl_assoc h]

theorem leftFold_eq (op : β → β → β) (f : Nat → β) (s n : Nat) :
    leftFold op f s n = ((List.range' (s + 1) n).map f).foldl op (f s) := by
  induction n with
  | zero => rfl
  | succ n ih =>
    rw [List.range'_concat, List.map_append, List.foldl_append, ← ih]
    simp only [leftFold, List.map_cons, List.map_nil, List.foldl_cons, List.foldl_nil, Nat.one_mul]
    congr 2; omega

theorem sums_leftFold {op : β → β → β} (h : ∀ a b c, op (op a b) c = op a (op b c)) {f : Nat → β} {s n : Nat} {v : β}
    (hs : Sums op ((List.range' s (n + 1)).map f) v) : v = leftFold op f s n := by
  obtain ⟨a, t, h1, rfl⟩ := sums_foldl h hs
  rw [List.range'_succ, List.map_cons] at h1
  injection h1 with h1 h2
  rw [← h1, ← h2, leftFold_eq]

theorem seg_oneKey (i : Nat) : seg oneKey i = List.range' 0 (i + 1) := by
  induction i with
  | zero => rfl
  | succ i ih => rw [seg, if_pos (show oneKey (i + 1) = oneKey i from rfl), ih, List.range'_concat (n := i + 1)]; simp

theorem seg_key {T : Nat} (hT : 0 < T) (b t : Nat) (ht : t < T) :
    seg (Phil.Cuda.index2key T) (b * T + t) = List.range' (b * T) (t + 1) := by
  induction t with
  | zero =>
    rcases Nat.eq_zero_or_pos b with rfl | hb
    · simp [seg]
    · obtain ⟨c, rfl⟩ : ∃ c, b = c + 1 := ⟨b - 1, by omega⟩
      have e : (c + 1) * T + 0 = c * T + (T - 1) + 1 := by
        have : (c + 1) * T = c * T + T := by ring
        omega
      have hk : ¬ Phil.Cuda.index2key T (c * T + (T - 1) + 1) = Phil.Cuda.index2key T (c * T + (T - 1)) := by
        unfold Phil.Cuda.index2key
        rw [← e, Torch.Tensor.flat_div (i := c + 1) (j := 0) hT, Torch.Tensor.flat_div (by omega)]
        omega
      rw [e, seg, if_neg hk]
      have : (c + 1) * T = c * T + (T - 1) + 1 := by omega
      rw [this]; rfl
  | succ t ih =>
    have hk : Phil.Cuda.index2key T (b * T + t + 1) = Phil.Cuda.index2key T (b * T + t) := by
      unfold Phil.Cuda.index2key
      rw [Nat.add_assoc, Torch.Tensor.flat_div ht, Torch.Tensor.flat_div (by omega)]
    rw [← Nat.add_assoc, seg, if_pos hk, ih (by omega), List.range'_concat (n := t + 1)]
    simp [Nat.add_assoc]

theorem mapM_ok {γ : Type} {f : γ → Res β} {g : γ → β} (l : List γ) (h : ∀ i ∈ l, f i = .ok (g i)) :
    l.mapM f = .ok (l.map g) := by
  induction l with
  | nil => rfl
  | cons a l ih =>
    rw [List.mapM_cons, h a (by simp), ih fun i hi => h i (by simp [hi])]
    rfl

theorem collect_ok {d : β} {n : Nat} {f : Nat → Res β} {g : Nat → β} (h : ∀ i, i < n → f i = .ok (g i)) :
    ∃ e, collect d n f = .ok e ∧ ∀ i, i < n → e i = g i := by
  unfold collect
  rw [mapM_ok (g := g) _ (fun i hi => h i (by simpa using hi))]
  refine ⟨_, rfl, fun i hi => ?_⟩
  simp [List.getD, hi]

theorem load_ok {α : Type} {p : Nat → α} {len i : Nat} (h : i < len) : load p len i = .ok (p i) := if_pos h

end Scan

namespace Phil.Cuda
open Torch Torch.Tensor Scan Spec Phil.Host

variable {α : Type} [CommRing α]

theorem recur2Op_assoc (a b c : Sq2 α) : recur2Op (recur2Op a b) c = recur2Op a (recur2Op b c) := by
  unfold recur2Op
  simp only [Sq2.mk.injEq]
  refine ⟨?_, ?_, ?_, ?_, ?_, ?_⟩ <;> ring

theorem recurOp_assoc (a b c : α × α) : recurOp (recurOp a b) c = recurOp a (recurOp b c) := by
  unfold recurOp
  ext <;> simp only <;> ring

/-- An element of a scan read as an affine map of dimension `M`. -/
structure View (M : Nat) (β α : Type) [CommRing α] (op : β → β → β) where
  mat : β → Nat → Nat → α
  vec : β → Nat → α
  assoc : ∀ a b c, op (op a b) c = op a (op b c)
  vec_op : ∀ a b i, i < M → vec (op a b) i = ∑ k ∈ Finset.range M, mat b i k * vec a k + vec b i

/-- The elements of a flat batch of sequences: step zero of each item holds its initial state, step `t + 1` its matrix and
its input at time `t`. -/
structure Elems {M : Nat} {β : Type} {op : β → β → β} (V : View M β α op) (B T : Nat) (f : Nat → β)
    (A : Nat → Nat → Nat → Nat → α) (z : Nat → Nat → α) (x : Nat → Nat → Nat → α) : Prop where
  mat0 : ∀ b < B, ∀ i < M, ∀ k < M, V.mat (f (b * T)) i k = 0
  vec0 : ∀ b < B, ∀ i < M, V.vec (f (b * T)) i = z b i
  mat1 : ∀ b < B, ∀ t, t + 1 < T → ∀ i < M, ∀ k < M, V.mat (f (b * T + (t + 1))) i k = A b t i k
  vec1 : ∀ b < B, ∀ t, t + 1 < T → ∀ i < M, V.vec (f (b * T + (t + 1))) i = x b t i

theorem item_fold {M : Nat} {β : Type} {op : β → β → β} {V : View M β α op} {B T : Nat} {f : Nat → β}
    {A : Nat → Nat → Nat → Nat → α} {z : Nat → Nat → α} {x : Nat → Nat → Nat → α} (h : Elems V B T f A z x)
    {b t : Nat} (hb : b < B) (s n : Nat) (hs : s + n = b * T) (ht : t < T) :
    ∀ i < M, V.vec (leftFold op f s (n + t)) i = vecRec M (A b) (z b) (x b) t i := by
  induction t with
  | zero =>
    intro i hi
    cases n with
    | zero => simp only [leftFold, vecRec]; rw [show s = b * T by omega]; exact h.vec0 b hb i hi
    | succ n =>
      simp only [leftFold, vecRec]
      rw [show s + n + 1 = b * T by omega, V.vec_op _ _ _ hi, h.vec0 b hb i hi,
        Finset.sum_eq_zero fun k hk => by rw [h.mat0 b hb i hi k (Finset.mem_range.1 hk), zero_mul], zero_add]
  | succ t ih =>
    intro i hi
    rw [← Nat.add_assoc]
    simp only [leftFold, vecRec]
    rw [show s + (n + t) + 1 = b * T + (t + 1) by omega, V.vec_op _ _ _ hi, h.vec1 b hb t ht i hi]
    congr 1
    refine Finset.sum_congr rfl fun k hk => ?_
    rw [h.mat1 b hb t ht i hi k (Finset.mem_range.1 hk), ih (by omega) k (Finset.mem_range.1 hk)]

/-- A scan by key computes the recurrence of every item. -/
theorem keyed_state {M : Nat} {β : Type} {op : β → β → β} {V : View M β α op} {B T : Nat} {f : Nat → β}
    {A : Nat → Nat → Nat → Nat → α} {z : Nat → Nat → α} {x : Nat → Nat → Nat → α} (h : Elems V B T f A z x)
    {scan : Scanner β} (hscan : IsScan scan) {b t : Nat} (hb : b < B) (ht : t < T) :
    ∀ i < M, V.vec (scan op (index2key T) (B * T) f (b * T + t)) i = vecRec M (A b) (z b) (x b) t i := by
  intro i hi
  have hs := hscan op (index2key T) (B * T) f (b * T + t) (flat_lt hb ht)
  rw [seg_key (by omega) b t ht] at hs
  rw [sums_leftFold V.assoc hs]
  have := item_fold h hb (b * T) 0 (by omega) ht i hi
  rwa [Nat.zero_add] at this

/-- So does a scan over the whole flat batch, because the matrices at step zero are zero. -/
theorem flat_state {M : Nat} {β : Type} {op : β → β → β} {V : View M β α op} {B T : Nat} {f : Nat → β}
    {A : Nat → Nat → Nat → Nat → α} {z : Nat → Nat → α} {x : Nat → Nat → Nat → α} (h : Elems V B T f A z x)
    {scan : Scanner β} (hscan : IsScan scan) {b t : Nat} (hb : b < B) (ht : t < T) :
    ∀ i < M, V.vec (scan op oneKey (T * B) f (b * T + t)) i = vecRec M (A b) (z b) (x b) t i := by
  intro i hi
  have hs := hscan op oneKey (T * B) f (b * T + t) (by rw [Nat.mul_comm T B]; exact flat_lt hb ht)
  rw [seg_oneKey] at hs
  rw [sums_leftFold V.assoc hs]
  exact item_fold h hb 0 (b * T) (by omega) ht i hi

/-- Pairs as affine maps of dimension one. -/
def pairView : View 1 (α × α) α recurOp where
  mat e _ _ := e.1
  vec e _ := e.2
  assoc := recurOp_assoc
  vec_op a b i _ := by simp [recurOp, mul_comm]

/-- `Sq2` as affine maps of dimension two. -/
def sq2View : View 2 (Sq2 α) α recur2Op where
  mat e i k := if i = 0 then (if k = 0 then e.a else e.b) else (if k = 0 then e.c else e.d)
  vec e i := if i = 0 then e.e else e.f
  assoc := recur2Op_assoc
  vec_op a b i hi := by
    have : i = 0 ∨ i = 1 := by omega
    rcases this with rfl | rfl <;> simp [recur2Op, Finset.sum_range_succ]

theorem recurNOp_mat {n r c : Nat} (a b : Nat → α) (hr : r < n) (hc : c < n) :
    recurNOp n a b (r * n + c) = ∑ k ∈ Finset.range n, a (c + k * n) * b (r * n + k) := by
  unfold recurNOp
  have : r * n + c < n * n := flat_lt hr hc
  rw [if_neg (by omega), flat_div hc, flat_mod hc, if_neg (by omega)]

theorem recurNOp_vec {n c : Nat} (a b : Nat → α) (hc : c < n) :
    recurNOp n a b (n * n + c) = b (n * n + c) + ∑ k ∈ Finset.range n, b (c * n + k) * a (n * n + k) := by
  unfold recurNOp
  rw [if_neg (by omega), flat_div hc, flat_mod hc, if_pos rfl]

theorem recurNOp_assoc (n : Nat) (a b c : Nat → α) :
    recurNOp n (recurNOp n a b) c = recurNOp n a (recurNOp n b c) := by
  funext i
  by_cases h : n * n + n ≤ i
  · simp only [recurNOp, if_pos h]
  · have hn : 0 < n := by
      rcases Nat.eq_zero_or_pos n with rfl | hn
      · simp at h
      · exact hn
    by_cases hm : i < n * n
    · obtain ⟨r, s, hr, hs, rfl⟩ : ∃ r s, r < n ∧ s < n ∧ i = r * n + s :=
        ⟨i / n, i % n, Nat.div_lt_of_lt_mul hm, Nat.mod_lt _ hn, by rw [Nat.mul_comm]; exact (Nat.div_add_mod i n).symm⟩
      rw [recurNOp_mat _ _ hr hs, recurNOp_mat _ _ hr hs]
      have e1 : ∀ k ∈ Finset.range n, recurNOp n a b (s + k * n) * c (r * n + k) =
          ∑ j ∈ Finset.range n, a (s + j * n) * b (k * n + j) * c (r * n + k) := by
        intro k hk
        rw [Nat.add_comm s, recurNOp_mat _ _ (Finset.mem_range.1 hk) hs, Finset.sum_mul]
      have e2 : ∀ j ∈ Finset.range n, a (s + j * n) * recurNOp n b c (r * n + j) =
          ∑ k ∈ Finset.range n, a (s + j * n) * b (k * n + j) * c (r * n + k) := by
        intro j hj
        rw [recurNOp_mat _ _ hr (Finset.mem_range.1 hj), Finset.mul_sum]
        refine Finset.sum_congr rfl fun k _ => ?_
        rw [Nat.add_comm j]; ring
      rw [Finset.sum_congr rfl e1, Finset.sum_congr rfl e2, Finset.sum_comm]
    · obtain ⟨s, rfl⟩ : ∃ s, i = n * n + s := ⟨i - n * n, by omega⟩
      have hs : s < n := by omega
      rw [recurNOp_vec _ _ hs, recurNOp_vec _ _ hs, recurNOp_vec _ _ hs]
      have e1 : ∀ k ∈ Finset.range n, c (s * n + k) * recurNOp n a b (n * n + k) =
          c (s * n + k) * b (n * n + k) + ∑ j ∈ Finset.range n, c (s * n + k) * (b (k * n + j) * a (n * n + j)) := by
        intro k hk
        rw [recurNOp_vec _ _ (Finset.mem_range.1 hk), mul_add, Finset.mul_sum]
      have e2 : ∀ j ∈ Finset.range n, recurNOp n b c (s * n + j) * a (n * n + j) =
          ∑ k ∈ Finset.range n, c (s * n + k) * (b (k * n + j) * a (n * n + j)) := by
        intro j hj
        rw [recurNOp_mat _ _ hs (Finset.mem_range.1 hj), Finset.sum_mul]
        refine Finset.sum_congr rfl fun k _ => ?_
        rw [Nat.add_comm j]; ring
      rw [Finset.sum_congr rfl e1, Finset.sum_congr rfl e2, Finset.sum_add_distrib, Finset.sum_comm, add_assoc]

/-- Arrays of `n * n + n` entries as affine maps of dimension `n`. -/
def arrayView (n : Nat) : View n (Nat → α) α (recurNOp n) where
  mat e i k := e (i * n + k)
  vec e i := e (n * n + i)
  assoc := recurNOp_assoc n
  vec_op a b i hi := by rw [recurNOp_vec a b hi, add_comm]

end Phil.Cuda
