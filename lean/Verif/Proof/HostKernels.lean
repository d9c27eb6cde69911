import Verif.Model.HostKernels
import Verif.Proof.Omp
import Verif.Spec.Ops
import Verif.Torch.Eval
import Verif.Proof.VecRec
import Verif.Proof.Recur

/-! # The compiled CPU ops compute the recurrences under every schedule -/

namespace Torch.Tensor
variable {α : Type} [Zero α]

theorem data_t1 {n : Nat} (f : Nat → α) {i : Nat} (hi : i < n) : (t1 n f).data i = f i := by
  simp [data, unravel, get_t1, hi]

theorem data_t0 (a : α) : (t0 a).data 0 = a := rfl

theorem flat_div {m i j : Nat} (hj : j < m) : (i * m + j) / m = i := by
  rw [Nat.mul_comm, Nat.mul_add_div (by omega), Nat.div_eq_of_lt hj, Nat.add_zero]

theorem flat_mod {m i j : Nat} (hj : j < m) : (i * m + j) % m = j := by
  rw [Nat.mul_comm, Nat.mul_add_mod, Nat.mod_eq_of_lt hj]

theorem flat_lt {n m i j : Nat} (hi : i < n) (hj : j < m) : i * m + j < n * m := by
  calc i * m + j < i * m + m := by omega
    _ = (i + 1) * m := by ring
    _ ≤ n * m := Nat.mul_le_mul_right _ hi

theorem data_t2 {n m : Nat} (f : Nat → Nat → α) {i j : Nat} (hi : i < n) (hj : j < m) :
    (t2 n m f).data (i * m + j) = f i j := by
  simp only [data, shape_t2, unravel, List.prod_cons, List.prod_nil, mul_one, Nat.div_one]
  rw [flat_div hj, flat_mod hj, get_t2 hi hj]

theorem data_t3 {n m p : Nat} (f : Nat → Nat → Nat → α) {i j k : Nat} (hi : i < n) (hj : j < m) (hk : k < p) :
    (t3 n m p f).data (i * m * p + j * p + k) = f i j k := by
  simp only [data, shape_t3, unravel, List.prod_cons, List.prod_nil, mul_one, Nat.div_one]
  have e : i * m * p + j * p + k = i * (m * p) + (j * p + k) := by ring
  have h := flat_lt hj hk
  rw [e, flat_div h, flat_mod h, flat_div hk, flat_mod hk, get_t3 hi hj hk]

theorem data_t4 {n m p q : Nat} (f : Nat → Nat → Nat → Nat → α) {i j k o : Nat} (hi : i < n) (hj : j < m) (hk : k < p)
    (ho : o < q) : (t4 n m p q f).data (i * m * p * q + j * p * q + k * q + o) = f i j k o := by
  simp only [data, shape_t4, unravel, List.prod_cons, List.prod_nil, mul_one, Nat.div_one]
  have e : i * m * p * q + j * p * q + k * q + o = i * (m * (p * q)) + (j * (p * q) + (k * q + o)) := by ring
  have h1 := flat_lt hk ho
  have h2 := flat_lt hj h1
  rw [e, flat_div h2, flat_mod h2, flat_div h1, flat_mod h1, flat_div ho, flat_mod ho, get_t4 hi hj hk ho]

theorem ofData_t2 (n m : Nat) (d : Nat → α) : ofData [n, m] d = t2 n m fun i j => d (i * m + j) := by
  refine ext2 (n := n) (m := m) rfl rfl fun i j hi hj => ?_
  rw [get_t2 hi hj]
  simp [ofData, get_ofFn, inB, hi, hj, ravel, ravelAux]

theorem ofData_t3 (n m p : Nat) (d : Nat → α) : ofData [n, m, p] d = t3 n m p fun i j k => d (i * m * p + j * p + k) := by
  refine ext3 (n := n) (m := m) (p := p) rfl rfl fun i j k hi hj hk => ?_
  rw [get_t3 hi hj hk]
  simp only [ofData, get_ofFn, inB, hi, hj, hk, ravel, ravelAux, Nat.zero_mul, Nat.zero_add]
  rw [Nat.add_mul]; simp

theorem numel_t2 (n m : Nat) (f : Nat → Nat → α) : (t2 n m f).numel = n * m := by simp [numel]
theorem numel_t3 (n m p : Nat) (f : Nat → Nat → Nat → α) : (t3 n m p f).numel = n * m * p := by
  simp [numel, Nat.mul_assoc]
theorem numel_t4 (n m p q : Nat) (f : Nat → Nat → Nat → Nat → α) : (t4 n m p q f).numel = n * m * p * q := by
  simp [numel, Nat.mul_assoc]

end Torch.Tensor

namespace Omp
open Torch
variable {ρ α : Type}

/-- Addresses `b * L`, …, `b * L + L - 1`. -/
def block (L b i : Nat) : Prop := ∃ k, k < L ∧ i = b * L + k

theorem block_disjoint (L b b' i : Nat) (h : block L b i) (h' : block L b' i) : b = b' := by
  obtain ⟨k, hk, e⟩ := h
  obtain ⟨k', hk', e'⟩ := h'
  rw [← Tensor.flat_div (i := b) hk, ← e, e', Tensor.flat_div hk']

/-- A parallel loop in which iteration `b` accesses only its block: the result is that of the iterations running alone. -/
theorem parallelFor_eq {sch : Scheduler ρ α} (hsch : IsScheduler sch) (B : Bufs α) (r0 : ρ) (n L : Nat)
    (p : Nat → List (Act ρ α)) (out res : Nat → α) (hp : ∀ b, b < n → ∀ a ∈ p b, a.owned (block L b))
    (hs : ∀ b, b < n → Hoare B (fun s => s = (out, r0)) (p b) fun s => ∀ k, k < L → s.1 (b * L + k) = res (b * L + k)) :
    ∃ m, parallelFor sch B r0 n p out = .ok m ∧ ∀ b, b < n → ∀ k, k < L → m (b * L + k) = res (b * L + k) := by
  obtain ⟨m', r', hrun, hown, -⟩ := run_interleaves (B := B) (own := block L) (block_disjoint L) (hsch n p) (by
      intro b a ha
      unfold iters at ha
      split at ha
      · exact hp b (by assumption) a ha
      · cases ha) out (fun _ => r0) (by
      intro b
      unfold iters
      split
      · obtain ⟨s', h, -⟩ := hs b (by assumption) _ rfl
        exact ⟨s', h⟩
      · exact ⟨_, rfl⟩)
  refine ⟨m', ?_, fun b hb k hk => ?_⟩
  · unfold parallelFor
    rw [hrun, ok_bind]; rfl
  · obtain ⟨s', h, hq⟩ := hs b hb _ rfl
    rw [← hq k hk]
    refine hown b s'.1 s'.2 ?_ _ ⟨k, hk, rfl⟩
    unfold iters
    rw [if_pos hb]; exact h

end Omp

namespace Phil.Host
open Torch Torch.Tensor Omp Spec

variable {α : Type} [Zero α] [Add α] [Mul α]

theorem addr_inj {N t s i j : Nat} (hi : i < N) (hj : j < N) (h : t * N + i = s * N + j) : t = s ∧ i = j := by
  have h1 := flat_div (i := t) hi
  have h2 := flat_mod (i := t) hi
  rw [h, flat_div hj] at h1
  rw [h, flat_mod hj] at h2
  exact ⟨h1.symm, h2.symm⟩

/-! ## The recurrences in the order of the source -/

/-- `x + a h`, as in `out[t] = out[t] + a * out[t - 1]`. -/
def macRec (a : Nat → α) (init : α) (x : Nat → α) : Nat → α
  | 0 => init
  | t + 1 => x t + a t * macRec a init x t

/-- `sum = 0; sum += f[j] * g[j]` for `j = 0, …, n - 1`. -/
def macSum (f g : Nat → α) : Nat → α
  | 0 => 0
  | n + 1 => macSum f g n + f n * g n

/-- `out[t] = out[t] + sum`. -/
def macVec (M : Nat) (A : Nat → Nat → Nat → α) (init : Nat → α) (x : Nat → Nat → α) : Nat → Nat → α
  | 0 => init
  | t + 1 => fun i => x t i + macSum (A t i) (macVec M A init x t) M

omit [Zero α] in
theorem macRec_congr {a a' : Nat → α} {z z' : α} {x x' : Nat → α} {n : Nat} (hz : z = z') (ha : ∀ t, t < n → a t = a' t)
    (hx : ∀ t, t < n → x t = x' t) : macRec a z x n = macRec a' z' x' n := by
  induction n with
  | zero => exact hz
  | succ n ih =>
    rw [macRec, macRec, ih (fun t ht => ha t (by omega)) (fun t ht => hx t (by omega)), ha n (by omega), hx n (by omega)]

theorem macSum_congr {f f' g g' : Nat → α} {n : Nat} (hf : ∀ t, t < n → f t = f' t) (hg : ∀ t, t < n → g t = g' t) :
    macSum f g n = macSum f' g' n := by
  induction n with
  | zero => rfl
  | succ n ih =>
    rw [macSum, macSum, ih (fun t ht => hf t (by omega)) (fun t ht => hg t (by omega)), hf n (by omega), hg n (by omega)]

theorem macVec_congr {M : Nat} {A A' : Nat → Nat → Nat → α} {z z' : Nat → α} {x x' : Nat → Nat → α} {n : Nat}
    (hz : ∀ i, i < M → z i = z' i) (hA : ∀ t, t < n → ∀ i, i < M → ∀ k, k < M → A t i k = A' t i k)
    (hx : ∀ t, t < n → ∀ i, i < M → x t i = x' t i) {i : Nat} (hi : i < M) : macVec M A z x n i = macVec M A' z' x' n i := by
  induction n generalizing i with
  | zero => exact hz i hi
  | succ n ih =>
    simp only [macVec]
    rw [hx n (by omega) i hi, macSum_congr (fun k hk => hA n (by omega) i hi k hk)
      fun k hk => ih (fun t ht => hA t (by omega)) (fun t ht => hx t (by omega)) hk]

section Exact
variable {α : Type} [CommRing α]

theorem macRec_eq (a : Nat → α) (z : α) (x : Nat → α) (n : Nat) : macRec a z x n = scalarRec a z x n := by
  induction n with
  | zero => rfl
  | succ n ih => rw [macRec, scalarRec, ih, add_comm]

theorem macSum_eq (f g : Nat → α) (n : Nat) : macSum f g n = ∑ k ∈ Finset.range n, f k * g k := by
  induction n with
  | zero => rfl
  | succ n ih => rw [macSum, Finset.sum_range_succ, ih]

theorem macVec_eq (M : Nat) (A : Nat → Nat → Nat → α) (z : Nat → α) (x : Nat → Nat → α) (n i : Nat) :
    macVec M A z x n i = vecRec M A z x n i := by
  induction n generalizing i with
  | zero => rfl
  | succ n ih =>
    simp only [macVec, vecRec]
    rw [macSum_eq, add_comm, Finset.sum_congr rfl fun k _ => by rw [ih]]

end Exact

/-! ## Scalar kernels -/

omit [Zero α] in
/-- The body shared by the two scalar kernels, with the coefficient in the local variable `a` or as a constant. -/
theorem hoare_scalar {B : Bufs α} {T b : Nat} (c : α) (get : Regs α → α) (hget : ∀ r v w, get { r with p := v, q := w } = get r) (hT : 0 < T) (hlen : b * T + T ≤ B.outLen) (m0 : Nat → α) :
    Hoare B (fun s => s.1 = m0 ∧ get s.2 = c)
      (forLoop 1 T fun t => [
        Act.read (b * T + (t - 1)) (fun v r => { r with p := v }),
        Act.read (b * T + t) (fun v r => { r with q := v }),
        Act.write (b * T + t) (fun r => r.q + get r * r.p)])
      fun s => ∀ k, k < T →
        s.1 (b * T + k) = macRec (fun _ => c) (m0 (b * T)) (fun t => m0 (b * T + (t + 1))) k := by
  set R := macRec (fun _ => c) (m0 (b * T)) (fun t => m0 (b * T + (t + 1))) with hR
  let I : Nat → (Nat → α) × Regs α → Prop := fun t s => get s.2 = c ∧
    ∀ k, k < T → s.1 (b * T + k) = if k < t then R k else m0 (b * T + k)
  have hloop := Hoare.forLoop (B := B) (I := I) (lo := 1) (hi := T) (by omega) (body := fun t => [
        Act.read (b * T + (t - 1)) (fun v r => { r with p := v }),
        Act.read (b * T + t) (fun v r => { r with q := v }),
        Act.write (b * T + t) (fun r => r.q + get r * r.p)]) (by
    intro t h1 h2 s hs
    obtain ⟨m, r⟩ := s
    obtain ⟨hg, hm⟩ := hs
    simp only at hg hm
    refine ex_read (by omega) (ex_read (by omega) (ex_write (by omega) (ex_nil ?_)))
    · refine ⟨?_, fun k hk => ?_⟩
      · simp only [hget]; exact hg
      · simp only [hget]
        by_cases hkt : k = t
        · subst hkt
          rw [Function.update_self, if_pos (by omega), hm k hk, if_neg (by omega), hm (k - 1) (by omega),
            if_pos (by omega), hg]
          obtain ⟨j, rfl⟩ : ∃ j, k = j + 1 := ⟨k - 1, by omega⟩
          rw [Nat.add_sub_cancel, hR]
          simp only [macRec]
        · rw [Function.update_of_ne (by omega), hm k hk]
          by_cases hlt : k < t
          · rw [if_pos hlt, if_pos (by omega)]
          · rw [if_neg hlt, if_neg (by omega)])
  refine hloop.weaken ?_ ?_
  · rintro ⟨m, r⟩ ⟨rfl, hg⟩
    refine ⟨hg, fun k _ => ?_⟩
    split
    · have : k = 0 := by omega
      subst this; rfl
    · rfl
  · rintro ⟨m, r⟩ ⟨-, hm⟩ k hk
    have := hm k hk
    rw [if_pos hk] at this
    exact this

omit [Zero α] in
theorem owned_scalar (T b : Nat) (get : Regs α → α) :
    ∀ x ∈ (forLoop 1 T fun t => [
        Act.read (b * T + (t - 1)) (fun v r => { r with p := v }),
        Act.read (b * T + t) (fun v r => { r with q := v }),
        Act.write (b * T + t) (fun (r : Regs α) => r.q + get r * r.p)]), x.owned (block T b) := by
  intro x hx
  rw [mem_forLoop] at hx
  obtain ⟨t, h1, h2, hx⟩ := hx
  simp only [List.mem_cons, List.not_mem_nil, or_false] at hx
  rcases hx with rfl | rfl | rfl
  · exact ⟨t - 1, by omega, rfl⟩
  · exact ⟨t, h2, rfl⟩
  · exact ⟨t, h2, rfl⟩

/-- The CPU op for every schedule, in any arithmetic. -/
theorem ltiRecurCpu_run {sch : Scheduler (Regs α) α} (hsch : IsScheduler sch) {B N : Nat} {A : Tensor α} {a : Nat → α}
    (zi : Nat → α) (x : Nat → Nat → α) (hA : BatchVals B A a) :
    ltiRecurCpu sch A (t1 B zi) (t2 B N x) = .ok (t2 B N fun b n => macRec (fun _ => a b) (zi b) (x b) (n + 1)) := by
  have hrank : A.rank ≤ 1 := by cases hA <;> simp
  set g : Nat → Nat → α := fun i j => if j < 1 then zi i else x i (j - 1) with hg
  unfold ltiRecurCpu
  refine check_step hrank ?_
  refine check_step (by rw [rank_t1]) ?_
  refine check_step (by rw [rank_t2]) ?_
  simp only [size_t2_0, size_t2_1]
  refine bind_step (unsqueeze_t1_1 _ _) ?_
  refine bind_step (cat2_t2_1 _ _ _ _ _) ?_
  rw [Nat.add_comm 1 N]
  -- the loop
  have hfin : ∀ b, b < B → ∀ k, k < N + 1 → macRec (fun _ => a b) (data (t2 B (N + 1) g) (b * (N + 1)))
      (fun t => data (t2 B (N + 1) g) (b * (N + 1) + (t + 1))) k = macRec (fun _ => a b) (zi b) (x b) k := by
    intro b hb k hk
    have e0 : data (t2 B (N + 1) g) (b * (N + 1)) = zi b := by
      have := data_t2 g (j := 0) hb (Nat.succ_pos N)
      rw [Nat.add_zero] at this; rw [this, hg]; simp
    rw [e0]
    refine macRec_congr rfl (fun _ _ => rfl) fun t ht => ?_
    rw [data_t2 g hb (by omega), hg]; simp
  have hmain : ∃ m, (if A.rank = 1 ∧ A.numel = B then
      parallelFor sch ⟨data A, A.numel, (t2 B (N + 1) g).numel⟩ regs0 B (ltiBatchBody (N + 1)) (data (t2 B (N + 1) g))
    else do
      check (A.numel = 1) "RuntimeError: a Tensor with more than one element cannot be converted to Scalar"
      parallelFor sch ⟨data A, A.numel, (t2 B (N + 1) g).numel⟩ regs0 B (ltiSharedBody (N + 1) (data A 0))
        (data (t2 B (N + 1) g))) = .ok m ∧
      ∀ b, b < B → ∀ k, k < N + 1 → m (b * (N + 1) + k) = macRec (fun _ => a b) (zi b) (x b) k := by
    split
    · rename_i hcond
      have hv : ∀ b, b < B → data A b = a b := by
        intro b hb
        cases hA with
        | scalar a => simp at hcond
        | single a =>
          have : B = 1 := by simpa using hcond.2.symm
          subst this
          rw [data_t1 _ hb, Nat.lt_one_iff.1 hb]
        | full a => exact data_t1 _ hb
      obtain ⟨m, h1, h2⟩ := parallelFor_eq hsch ⟨data A, A.numel, (t2 B (N + 1) g).numel⟩ regs0 B (N + 1)
        (ltiBatchBody (N + 1)) (data (t2 B (N + 1) g))
        (fun i => macRec (fun _ => a (i / (N + 1))) (zi (i / (N + 1))) (x (i / (N + 1))) (i % (N + 1)))
        (by
          intro b hb c hc
          unfold ltiBatchBody at hc
          rcases List.mem_cons.1 hc with rfl | hc
          · trivial
          · exact owned_scalar (N + 1) b (fun r => r.a) c hc)
        (by
          intro b hb
          unfold ltiBatchBody
          refine Hoare.cons (Q := fun s => s.1 = data (t2 B (N + 1) g) ∧ s.2.a = a b) ?_ ?_
          · rintro s rfl
            simp only [stepAct]
            rw [if_pos (by rw [hcond.2]; exact hb)]
            exact ⟨_, rfl, rfl, hv b hb⟩
          · refine (hoare_scalar (a b) (fun r => r.a) (fun _ _ _ => rfl) (Nat.succ_pos N) ?_
              (data (t2 B (N + 1) g))).weaken
              (fun _ h => h) ?_
            · rw [numel_t2]
              calc b * (N + 1) + (N + 1) = (b + 1) * (N + 1) := by ring
                _ ≤ _ := Nat.mul_le_mul_right _ hb
            · intro s hs k hk
              rw [hs k hk, hfin b hb k hk, flat_div hk, flat_mod hk])
      refine ⟨m, h1, fun b hb k hk => ?_⟩
      rw [h2 b hb k hk, flat_div hk, flat_mod hk]
    · rename_i hcond
      have hone : A.numel = 1 := by
        cases hA with
        | scalar a => simp
        | single a => simp
        | full a => simp at hcond
      have hv : ∀ b, b < B → data A 0 = a b := by
        intro b hb
        cases hA with
        | scalar a => rfl
        | single a => rw [data_t1 _ Nat.one_pos]
        | full a => simp at hcond
      rw [check_true hone]
      obtain ⟨m, h1, h2⟩ := parallelFor_eq hsch ⟨data A, A.numel, (t2 B (N + 1) g).numel⟩ regs0 B (N + 1)
        (ltiSharedBody (N + 1) (data A 0)) (data (t2 B (N + 1) g))
        (fun i => macRec (fun _ => a (i / (N + 1))) (zi (i / (N + 1))) (x (i / (N + 1))) (i % (N + 1)))
        (fun b hb => owned_scalar (N + 1) b (fun _ => data A 0))
        (by
          intro b hb
          unfold ltiSharedBody
          refine (hoare_scalar (a b) (fun _ => data A 0) (fun _ _ _ => rfl) (Nat.succ_pos N) ?_
              (data (t2 B (N + 1) g))).weaken
              ?_ ?_
          · rw [numel_t2]
            calc b * (N + 1) + (N + 1) = (b + 1) * (N + 1) := by ring
              _ ≤ _ := Nat.mul_le_mul_right _ hb
          · rintro s rfl; exact ⟨rfl, hv b hb⟩
          · intro s hs k hk
            rw [hs k hk, hfin b hb k hk, flat_div hk, flat_mod hk])
      refine ⟨m, h1, fun b hb k hk => ?_⟩
      rw [h2 b hb k hk, flat_div hk, flat_mod hk]
  obtain ⟨m, hm, hval⟩ := hmain
  refine bind_step hm ?_
  rw [shape_t2, ofData_t2, slice_t2_1]
  have e1 : pyStart (N + 1) (some 1) = 1 := by unfold pyStart pyBound; simp
  have e2 : pyStop (N + 1) (some ((N + 1 : Nat) : Int)) = N + 1 := by unfold pyStop pyBound; simp; omega
  rw [e1, e2, Nat.add_sub_cancel]
  congr 1
  refine t2_congr rfl rfl fun b k hb hk => ?_
  exact hval b hb (k + 1) (by omega)

theorem ltiRecurCpu_isScalarOp {α : Type} [CommRing α] {sch : Scheduler (Regs α) α} (hsch : IsScheduler sch) :
    IsScalarOp (ltiRecurCpu sch) := by
  intro B N A a zi x hA
  rw [ltiRecurCpu_run hsch zi x hA]
  simp only [macRec_eq]

/-! ## Matrix kernels -/

theorem owned_mat (T N : Nat) (aOff : Nat → Nat) (b : Nat) :
    ∀ x ∈ (matBody T N aOff b : List (Act (Regs α) α)), x.owned (block (T * N) b) := by
  intro x hx
  unfold matBody at hx
  rw [mem_forLoop] at hx
  obtain ⟨t, ht1, ht2, hx⟩ := hx
  rw [mem_forLoop] at hx
  obtain ⟨i, -, hi, hx⟩ := hx
  have key : ∀ s j, s < T → j < N → block (T * N) b (b * T * N + s * N + j) := by
    intro s j hs hj
    exact ⟨s * N + j, flat_lt hs hj, by ring⟩
  simp only [List.cons_append, List.mem_cons, List.mem_append, mem_forLoop, List.not_mem_nil, or_false] at hx
  rcases hx with rfl | ⟨j, -, hj, rfl | rfl | rfl⟩ | rfl | rfl
  · trivial
  · trivial
  · exact key (t - 1) j (by omega) hj
  · trivial
  · exact key t i ht2 hi
  · exact key t i ht2 hi

theorem hoare_mat {B : Bufs α} {T N b : Nat} {aOff : Nat → Nat} (A : Nat → Nat → Nat → α) (hT : 0 < T)
    (hlen : b * T * N + T * N ≤ B.outLen)
    (hin : ∀ t i j, 1 ≤ t → t < T → i < N → j < N → aOff t + i * N + j < B.constLen)
    (hval : ∀ t i j, 1 ≤ t → t < T → i < N → j < N → B.const (aOff t + i * N + j) = A (t - 1) i j)
    (m0 : Nat → α) :
    Hoare B (fun s => s.1 = m0) (matBody T N aOff b)
      fun s => ∀ t i, t < T → i < N →
        s.1 (b * T * N + t * N + i) = macVec N A (fun i => m0 (b * T * N + i))
          (fun t i => m0 (b * T * N + (t + 1) * N + i)) t i := by
  set R := macVec N A (fun i => m0 (b * T * N + i)) (fun t i => m0 (b * T * N + (t + 1) * N + i)) with hR
  have hadr : ∀ s j, s < T → j < N → b * T * N + s * N + j < B.outLen := by
    intro s j hs hj
    have := flat_lt hs hj
    omega
  let F : Nat → Nat → (Nat → α) → Prop := fun t i0 m => ∀ s i, s < T → i < N →
    m (b * T * N + s * N + i) = if s < t ∨ (s = t ∧ i < i0) then R s i else m0 (b * T * N + s * N + i)
  have hstep : ∀ t i0, 1 ≤ t → t < T → i0 < N → Hoare B (fun s => F t i0 s.1)
      (.compute (fun r => { r with sum := 0 }) ::
      (forLoop 0 N fun j => [
        Act.readC (aOff t + i0 * N + j) (fun v (r : Regs α) => { r with p := v }),
        .read (b * T * N + (t - 1) * N + j) (fun v r => { r with q := v }),
        .compute (fun r => { r with sum := r.sum + r.p * r.q })]) ++
      [.read (b * T * N + t * N + i0) (fun v r => { r with q := v }),
       .write (b * T * N + t * N + i0) (fun r => r.q + r.sum)]) (fun s => F t (i0 + 1) s.1) := by
    intro t i0 h1 h2 hi0
    refine Hoare.append (Q := fun s => F t i0 s.1 ∧ s.2.sum = macSum (A (t - 1) i0) (R (t - 1)) N) ?_ ?_
    · refine Hoare.cons (Q := fun s => F t i0 s.1 ∧ s.2.sum = macSum (A (t - 1) i0) (R (t - 1)) 0) ?_ ?_
      · intro s hs
        exact ⟨_, rfl, hs, rfl⟩
      · refine Hoare.forLoop (I := fun j (s : (Nat → α) × Regs α) => F t i0 s.1 ∧
          s.2.sum = macSum (A (t - 1) i0) (R (t - 1)) j) (Nat.zero_le N) ?_
        rintro j - hj ⟨m, r⟩ ⟨hF, hsum⟩
        refine ex_readC (hin t i0 j h1 h2 hi0 hj) (ex_read (hadr (t - 1) j (by omega) hj) (ex_compute (ex_nil ?_)))
        · refine ⟨hF, ?_⟩
          simp only at hF hsum ⊢
          rw [hsum, macSum, hval t i0 j h1 h2 hi0 hj, hF (t - 1) j (by omega) hj, if_pos (by omega)]
    · rintro ⟨m, r⟩ ⟨hF, hsum⟩
      refine ex_read (hadr t i0 h2 hi0) (ex_write (hadr t i0 h2 hi0) (ex_nil ?_))
      · intro s i hs hi
        simp only at hF hsum ⊢
        by_cases he : s = t ∧ i = i0
        · obtain ⟨rfl, rfl⟩ := he
          rw [Function.update_self, if_pos (by omega), hF s i hs hi, if_neg (by omega), hsum]
          obtain ⟨u, rfl⟩ : ∃ u, s = u + 1 := ⟨s - 1, by omega⟩
          rw [Nat.add_sub_cancel, hR]
          simp only [macVec]
        · rw [Function.update_of_ne (fun e => he (by
            have : s * N + i = t * N + i0 := by omega
            exact addr_inj hi hi0 this)), hF s i hs hi]
          by_cases hc : s < t ∨ (s = t ∧ i < i0)
          · rw [if_pos hc, if_pos (by omega)]
          · rw [if_neg hc, if_neg (by omega)]
  have hloop := Hoare.forLoop (B := B) (I := fun t s => F t 0 s.1) (lo := 1) (hi := T) (by omega)
    (body := fun t => forLoop 0 N fun i =>
      .compute (fun r => { r with sum := 0 }) ::
      (forLoop 0 N fun j => [
        Act.readC (aOff t + i * N + j) (fun v (r : Regs α) => { r with p := v }),
        .read (b * T * N + (t - 1) * N + j) (fun v r => { r with q := v }),
        .compute (fun r => { r with sum := r.sum + r.p * r.q })]) ++
      [.read (b * T * N + t * N + i) (fun v r => { r with q := v }),
       .write (b * T * N + t * N + i) (fun r => r.q + r.sum)]) (by
    intro t h1 h2
    refine (Hoare.forLoop (I := fun i s => F t i s.1) (Nat.zero_le N) fun i _ hi => hstep t i h1 h2 hi).weaken
      (fun _ h => h) ?_
    intro s hs u i hu hi
    rw [hs u i hu hi]
    by_cases hc : u < t ∨ (u = t ∧ i < N)
    · rw [if_pos hc, if_pos (by omega)]
    · rw [if_neg hc, if_neg (by omega)])
  refine hloop.weaken ?_ ?_
  · rintro ⟨m, r⟩ rfl s i hs hi
    split
    · have : s = 0 := by omega
      subst this
      simp only [Nat.zero_mul, Nat.add_zero]; rfl
    · rfl
  · intro s hs t i ht hi
    rw [hs t i ht hi, if_pos (by omega)]

/-- All four matrix kernels, on the buffer `out = cat([zi, x])`. -/
theorem mat_parallel {sch : Scheduler (Regs α) α} (hsch : IsScheduler sch) {B N M : Nat} (cst : Nat → α) (len : Nat)
    (aOff : Nat → Nat → Nat) (a : Nat → Nat → Nat → Nat → α) (zi : Nat → Nat → α) (x : Nat → Nat → Nat → α)
    (hin : ∀ b t i j, b < B → t < N → i < M → j < M → aOff b (t + 1) + i * M + j < len)
    (hval : ∀ b t i j, b < B → t < N → i < M → j < M → cst (aOff b (t + 1) + i * M + j) = a b t i j) :
    ∃ m, parallelFor sch ⟨cst, len, (t3 B (1 + N) M fun i j k => if j < 1 then zi i k else x i (j - 1) k).numel⟩ regs0 B
        (fun b => matBody (N + 1) M (aOff b) b) (data (t3 B (1 + N) M fun i j k => if j < 1 then zi i k else x i (j - 1) k))
        = .ok m ∧
      slice (ofData (t3 B (1 + N) M fun i j k => if j < 1 then zi i k else x i (j - 1) k).shape m) 1 (some 1)
        (some ((N + 1 : Nat) : Int)) = .ok (t3 B N M fun b n i => macVec M (a b) (zi b) (x b) (n + 1) i) := by
  rw [Nat.add_comm 1 N]
  set g : Nat → Nat → Nat → α := fun i j k => if j < 1 then zi i k else x i (j - 1) k with hg
  have hfin : ∀ b, b < B → ∀ t i, t < N + 1 → i < M →
      macVec M (a b) (fun i => data (t3 B (N + 1) M g) (b * (N + 1) * M + i))
        (fun t i => data (t3 B (N + 1) M g) (b * (N + 1) * M + (t + 1) * M + i)) t i =
      macVec M (a b) (zi b) (x b) t i := by
    intro b hb t i ht hi
    refine macVec_congr (fun i hi => ?_) (fun _ _ _ _ _ _ => rfl) (fun s hs i hi => ?_) hi
    · have := data_t3 g (j := 0) hb (Nat.succ_pos N) hi
      rw [Nat.zero_mul, Nat.add_zero] at this
      rw [this, hg]; simp
    · rw [data_t3 g hb (by omega) hi, hg]; simp
  obtain ⟨m, h1, h2⟩ := parallelFor_eq hsch ⟨cst, len, (t3 B (N + 1) M g).numel⟩ regs0 B ((N + 1) * M)
    (fun b => matBody (N + 1) M (aOff b) b) (data (t3 B (N + 1) M g))
    (fun n => macVec M (a (n / ((N + 1) * M))) (zi (n / ((N + 1) * M))) (x (n / ((N + 1) * M)))
      (n % ((N + 1) * M) / M) (n % ((N + 1) * M) % M))
    (fun b _ => owned_mat _ _ _ b)
    (by
      intro b hb
      refine (hoare_mat (a b) (Nat.succ_pos N) ?_ ?_ ?_ (data (t3 B (N + 1) M g))).weaken ?_ ?_
      · rw [numel_t3]
        calc b * (N + 1) * M + (N + 1) * M = (b + 1) * (N + 1) * M := by ring
          _ ≤ _ := Nat.mul_le_mul_right _ (Nat.mul_le_mul_right _ hb)
      · intro t i j h1 h2 hi hj
        obtain ⟨u, rfl⟩ : ∃ u, t = u + 1 := ⟨t - 1, by omega⟩
        exact hin b u i j hb (by omega) hi hj
      · intro t i j h1 h2 hi hj
        obtain ⟨u, rfl⟩ : ∃ u, t = u + 1 := ⟨t - 1, by omega⟩
        exact hval b u i j hb (by omega) hi hj
      · rintro s rfl; rfl
      · intro s hs k hk
        have hM : 0 < M := by
          rcases Nat.eq_zero_or_pos M with h | h
          · subst h; simp at hk
          · exact h
        have hq : k / M < N + 1 := Nat.div_lt_of_lt_mul (by rw [Nat.mul_comm]; exact hk)
        have hr : k % M < M := Nat.mod_lt _ hM
        have e : b * ((N + 1) * M) + k = b * (N + 1) * M + k / M * M + k % M := by
          have := Nat.div_add_mod k M
          rw [Nat.add_assoc, Nat.mul_comm (k / M) M, this]; ring
        rw [flat_div hk, flat_mod hk, ← hfin b hb _ _ hq hr, ← hs _ _ hq hr, ← e])
  refine ⟨m, h1, ?_⟩
  rw [shape_t3, ofData_t3, slice_t3_1]
  have e1 : pyStart (N + 1) (some 1) = 1 := by unfold pyStart pyBound; simp
  have e2 : pyStop (N + 1) (some ((N + 1 : Nat) : Int)) = N + 1 := by unfold pyStop pyBound; simp; omega
  rw [e1, e2, Nat.add_sub_cancel]
  congr 1
  refine t3_congr rfl rfl rfl fun b n i hb hn hi => ?_
  have hk := flat_lt (m := M) (show n + 1 < N + 1 by omega) hi
  have := h2 b hb ((n + 1) * M + i) hk
  rw [flat_div hk, flat_mod hk, flat_div hi, flat_mod hi] at this
  rw [← this]
  congr 1; ring

/-- The CPU op for every schedule, in any arithmetic. -/
theorem ltiRecurNCpu_run {sch : Scheduler (Regs α) α} (hsch : IsScheduler sch) {B N M : Nat} {A : Tensor α}
    {a : Nat → Nat → Nat → α} (zi : Nat → Nat → α) (x : Nat → Nat → Nat → α) (hA : MatVals B M M A a) :
    ltiRecurNCpu sch A (t2 B M zi) (t3 B N M x) =
      .ok (t3 B N M fun b n i => macVec M (fun _ => a b) (zi b) (x b) (n + 1) i) := by
  cases hA with
  | shared f =>
    obtain ⟨m, h1, h2⟩ := mat_parallel hsch (B := B) (N := N) (M := M) (data (t2 M M f)) (t2 M M f).numel (fun _ _ => 0)
      (fun _ _ => f) zi x (by
        intro b t i j hb ht hi hj
        rw [numel_t2, Nat.zero_add]; exact flat_lt hi hj) (by
        intro b t i j hb ht hi hj
        rw [Nat.zero_add]; exact data_t2 f hi hj)
    unfold ltiRecurNCpu
    refine check_step (Or.inl (by rw [rank_t2])) ?_
    refine check_step (by rw [rank_t3]) ?_
    refine check_step (by rw [size_t3_2, size_t2_n1]) ?_
    refine check_step (by rw [size_t2_n1, size_t2_n2]) ?_
    simp only [size_t3_0, size_t3_1, size_t2_n1]
    refine bind_step (unsqueeze_t2_1 _ _ _) ?_
    refine bind_step (cat2_t3_1 _ _ _ _ _ _) ?_
    rw [if_neg (by rw [rank_t2]; decide)]
    exact bind_step h1 h2
  | batched a =>
    obtain ⟨m, h1, h2⟩ := mat_parallel hsch (B := B) (N := N) (M := M) (data (t3 B M M a)) (t3 B M M a).numel
      (fun b _ => b * M * M) (fun b _ => a b) zi x (by
        intro b t i j hb ht hi hj
        rw [numel_t3]
        have := flat_lt hb (flat_lt hi hj)
        calc b * M * M + i * M + j = b * (M * M) + (i * M + j) := by ring
          _ < _ := by rw [Nat.mul_assoc]; exact this) (by
        intro b t i j hb ht hi hj
        exact data_t3 a hb hi hj)
    unfold ltiRecurNCpu
    refine check_step (Or.inr (by rw [rank_t3])) ?_
    refine check_step (by rw [rank_t3]) ?_
    refine check_step (by rw [size_t3_2, size_t3_n1]) ?_
    refine check_step (by rw [size_t3_n1, size_t3_n2]) ?_
    simp only [size_t3_0, size_t3_1, size_t3_n1]
    refine bind_step (unsqueeze_t2_1 _ _ _) ?_
    refine bind_step (cat2_t3_1 _ _ _ _ _ _) ?_
    rw [if_pos (by rw [rank_t3])]
    exact bind_step h1 h2

theorem ltiRecurNCpu_isMatrixOp {α : Type} [CommRing α] {sch : Scheduler (Regs α) α} (hsch : IsScheduler sch) (M : Nat) :
    IsMatrixOp M (ltiRecurNCpu sch) := by
  intro B N A a zi x hA
  rw [ltiRecurNCpu_run hsch zi x hA]
  simp only [macVec_eq]

/-- The CPU op for every schedule, in any arithmetic. -/
theorem recurNCpu_run {sch : Scheduler (Regs α) α} (hsch : IsScheduler sch) {B N M : Nat} {A : Tensor α}
    {a : Nat → Nat → Nat → Nat → α} (zi : Nat → Nat → α) (x : Nat → Nat → Nat → α) (hA : MatSeq B N M M A a) :
    recurNCpu sch A (t2 B M zi) (t3 B N M x) = .ok (t3 B N M fun b n i => macVec M (a b) (zi b) (x b) (n + 1) i) := by
  cases hA with
  | shared f =>
    set f' : Nat → Nat → Nat → α := fun i j k => if i < 1 then 0 else f (i - 1) j k with hf'
    obtain ⟨m, h1, h2⟩ := mat_parallel hsch (B := B) (N := N) (M := M) (data (t3 (N + 1) M M f')) (t3 (N + 1) M M f').numel
      (fun _ t => t * M * M) (fun _ => f) zi x (by
        intro b t i j hb ht hi hj
        rw [numel_t3]
        have := flat_lt (show t + 1 < N + 1 by omega) (flat_lt hi hj)
        calc (t + 1) * M * M + i * M + j = (t + 1) * (M * M) + (i * M + j) := by ring
          _ < _ := by rw [Nat.mul_assoc]; exact this) (by
        intro b t i j hb ht hi hj
        rw [data_t3 f' (by omega) hi hj, hf']; simp)
    unfold recurNCpu
    refine check_step (Or.inl (by rw [rank_t3])) ?_
    refine check_step (by rw [rank_t3]) ?_
    refine check_step (by rw [size_t3_2, size_t3_n1]) ?_
    refine check_step (by rw [size_t3_n1, size_t3_n2]) ?_
    simp only [size_t3_0, size_t3_1, size_t3_n1]
    refine bind_step (padDim_t3_n3_left _ _ _ _ _ _) ?_
    refine bind_step (unsqueeze_t2_1 _ _ _) ?_
    refine bind_step (cat2_t3_1 _ _ _ _ _ _) ?_
    rw [if_neg (by rw [rank_t3]; decide)]
    exact bind_step h1 h2
  | batched a =>
    set f' : Nat → Nat → Nat → Nat → α := fun i j k o => if j < 1 then 0 else a i (j - 1) k o with hf'
    obtain ⟨m, h1, h2⟩ := mat_parallel hsch (B := B) (N := N) (M := M) (data (t4 B (N + 1) M M f'))
      (t4 B (N + 1) M M f').numel
      (fun b t => b * (N + 1) * M * M + t * M * M) a zi x (by
        intro b t i j hb ht hi hj
        rw [numel_t4]
        have := flat_lt hb (flat_lt (show t + 1 < N + 1 by omega) (flat_lt hi hj))
        calc b * (N + 1) * M * M + (t + 1) * M * M + i * M + j =
              b * ((N + 1) * (M * M)) + ((t + 1) * (M * M) + (i * M + j)) := by ring
          _ < _ := by rw [Nat.mul_assoc, Nat.mul_assoc]; exact this) (by
        intro b t i j hb ht hi hj
        rw [data_t4 f' hb (by omega) hi hj, hf']; simp)
    unfold recurNCpu
    refine check_step (Or.inr (by rw [rank_t4])) ?_
    refine check_step (by rw [rank_t3]) ?_
    refine check_step (by rw [size_t3_2, size_t4_n1]) ?_
    refine check_step (by rw [size_t4_n1, size_t4_n2]) ?_
    simp only [size_t3_0, size_t3_1, size_t4_n1]
    refine bind_step (padDim_t4_n3_left _ _ _ _ _ _ _) ?_
    refine bind_step (unsqueeze_t2_1 _ _ _) ?_
    refine bind_step (cat2_t3_1 _ _ _ _ _ _) ?_
    rw [if_pos (by rw [rank_t4])]
    exact bind_step h1 h2

theorem recurNCpu_isVaryingOp {α : Type} [CommRing α] {sch : Scheduler (Regs α) α} (hsch : IsScheduler sch) (M : Nat) :
    IsVaryingOp M (recurNCpu sch) := by
  intro B N A a zi x hA
  rw [recurNCpu_run hsch zi x hA]
  simp only [macVec_eq]

end Phil.Host
