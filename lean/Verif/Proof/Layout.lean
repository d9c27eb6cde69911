import Verif.Torch.Linalg

/-! # Uniform treatment of shared and per-batch matrices -/

namespace Torch.Tensor
open Finset
variable {α : Type}

section
variable [Zero α]

/-- A matrix, shared (`(R, Q)`) or one per batch item (`(B, R, Q)`). -/
def MT : Bool → (B R Q : Nat) → (Nat → Nat → Nat → α) → Tensor α
  | true, B, R, Q, f => t3 B R Q f
  | false, _, R, Q, f => t2 R Q (f 0)

/-- A stack of matrices, shared or one per batch item. -/
def MT3 : Bool → (B K R Q : Nat) → (Nat → Nat → Nat → Nat → α) → Tensor α
  | true, B, K, R, Q, f => t4 B K R Q f
  | false, _, K, R, Q, f => t3 K R Q (f 0)

/-- The batch item that a shared / batched matrix is read at. -/
def sel : Bool → Nat → Nat
  | true, b => b
  | false, _ => 0

theorem MT_congr {s : Bool} {B B' R R' Q Q' : Nat} {f g : Nat → Nat → Nat → α} (hB : B = B') (hR : R = R') (hQ : Q = Q')
    (h : ∀ b i j, i < R → j < Q → f b i j = g b i j) : MT s B R Q f = MT s B' R' Q' g := by
  cases s
  · exact t2_congr hR hQ fun i j hi hj => h 0 i j hi hj
  · exact t3_congr hB hR hQ fun b i j _ hi hj => h b i j hi hj

theorem MT3_congr {s : Bool} {B B' K K' R R' Q Q' : Nat} {f g : Nat → Nat → Nat → Nat → α} (hB : B = B') (hK : K = K')
    (hR : R = R') (hQ : Q = Q')
    (h : ∀ b k i j, k < K → i < R → j < Q → f b k i j = g b k i j) : MT3 s B K R Q f = MT3 s B' K' R' Q' g := by
  cases s
  · exact t3_congr hK hR hQ fun k i j hk hi hj => h 0 k i j hk hi hj
  · exact t4_congr hB hK hR hQ fun b k i j _ hk hi hj => h b k i j hk hi hj

theorem mT_MT (s : Bool) (B R Q : Nat) (f : Nat → Nat → Nat → α) :
    mT (MT s B R Q f) = .ok (MT s B Q R fun b i j => f b j i) := by
  cases s
  · exact transpose_t2_n2_n1 _ _ _
  · exact transpose_t3_n2_n1 _ _ _ _

theorem cat2_MT_n2 (s : Bool) (B R R' Q : Nat) (f g : Nat → Nat → Nat → α) :
    cat2 (MT s B R Q f) (MT s B R' Q g) (-2) =
      .ok (MT s B (R + R') Q fun b i j => if i < R then f b i j else g b (i - R) j) := by
  cases s
  · exact cat2_t2_n2 _ _ _ _ _
  · exact cat2_t3_n2 _ _ _ _ _ _

theorem size_MT_n1 (s : Bool) (B R Q : Nat) (f : Nat → Nat → Nat → α) : (MT s B R Q f).size (-1) = Q := by
  cases s <;> rfl
theorem size_MT_n2 (s : Bool) (B R Q : Nat) (f : Nat → Nat → Nat → α) : (MT s B R Q f).size (-2) = R := by
  cases s <;> rfl
theorem rank_MT (s : Bool) (B R Q : Nat) (f : Nat → Nat → Nat → α) :
    (MT s B R Q f).rank = 2 ∨ (MT s B R Q f).rank = 3 := by
  cases s
  · exact Or.inl rfl
  · exact Or.inr rfl
theorem rank_MT_size (s : Bool) (B R Q : Nat) (f : Nat → Nat → Nat → α) (h : (MT s B R Q f).rank = 3) :
    (MT s B R Q f).size 0 = B := by
  cases s
  · exact absurd h (by simp [MT])
  · rfl

end

variable [CommRing α]

theorem matmul_MT (s : Bool) (B K Q R : Nat) (x f : Nat → Nat → Nat → α) :
    matmul (t3 B K Q x) (MT s B Q R f) = .ok (t3 B K R fun b k r => ∑ q ∈ range Q, x b k q * f (sel s b) q r) := by
  cases s
  · exact matmul_nmp_pq _ _ _ _ _ _
  · exact matmul_nmp_npq _ _ _ _ _ _

theorem addmm_t2 (B K M : Nat) (x h g : Nat → Nat → α) :
    addmm (t2 B M x) (t2 B K h) (t2 K M g) = .ok (t2 B M fun b i => x b i + ∑ w ∈ range K, h b w * g w i) := by
  unfold addmm
  refine check_step ⟨rfl, rfl⟩ (bind_step (matmul_nm_mp _ _ _ _ _) (bind_step (expand_nm_nm _ _ _) ?_))
  rw [add, zipWith_nm_nm]

theorem baddbmm_t3 (B P K M : Nat) (x h g : Nat → Nat → Nat → α) :
    baddbmm (t3 B P M x) (t3 B P K h) (t3 B K M g) =
      .ok (t3 B P M fun b p i => x b p i + ∑ w ∈ range K, h b p w * g b w i) := by
  unfold baddbmm
  refine check_step ⟨rfl, rfl⟩ (check_step rfl (bind_step (matmul_nmp_npq _ _ _ _ _ _) (bind_step (expand_nmp_nmp _ _ _ _) ?_)))
  rw [add, zipWith_nmp_nmp]

theorem mapM_range {β γ : Type} (f : β → Res γ) (X : Nat → β) (Y : Nat → γ) (N : Nat)
    (h : ∀ t, t < N → f (X t) = .ok (Y t)) :
    ((List.range N).map X).mapM f = .ok ((List.range N).map Y) := by
  induction N generalizing X Y with
  | zero => rfl
  | succ N ih =>
    rw [List.range_succ_eq_map]
    simp only [List.map_cons, List.map_map, List.mapM_cons]
    rw [h 0 (by omega), ok_bind]
    have := ih (fun t => X (t + 1)) (fun t => Y (t + 1)) fun t ht => h (t + 1) (by omega)
    simp only [Function.comp_def, Nat.succ_eq_add_one] at this ⊢
    rw [this, ok_bind, pure_eq_ok]

theorem cat_range (d : Int) (S X : Nat → Tensor α) (N : Nat) (h0 : S 0 = X 0)
    (h : ∀ t, t < N → cat2 (S t) (X (t + 1)) d = .ok (S (t + 1))) :
    cat ((List.range (N + 1)).map X) d = .ok (S N) := by
  rw [List.range_succ_eq_map]
  simp only [List.map_cons, List.map_map, cat]
  rw [← h0]
  clear h0
  induction N generalizing S X with
  | zero => rfl
  | succ N ih =>
    rw [List.range_succ_eq_map]
    simp only [List.map_cons, List.map_map, List.foldlM_cons, Function.comp_def, Nat.succ_eq_add_one, Nat.zero_add]
    rw [h 0 (by omega), ok_bind]
    have := ih (fun t => S (t + 1)) (fun t => X (t + 1)) fun t ht => h (t + 1) (by omega)
    simpa only [Function.comp_def, Nat.succ_eq_add_one] using this

/-- `torch.cat` of one-column pieces along axis 1. -/
theorem cat_cols3 (B M N : Nat) (hN : 0 < N) (f : Nat → Nat → Nat → α) :
    cat ((List.range N).map fun t => t3 B 1 M fun b _ k => f b t k) 1 = .ok (t3 B N M f) := by
  obtain ⟨n, rfl⟩ : ∃ n, N = n + 1 := ⟨N - 1, by omega⟩
  refine cat_range 1 (fun t => t3 B (t + 1) M f) _ n ?_ fun t _ => ?_
  · refine t3_congr rfl rfl rfl fun b i k _ hi _ => ?_
    rw [show i = 0 by omega]
  · rw [cat2_t3_1]
    refine congrArg Except.ok (t3_congr rfl rfl rfl fun b i k _ hi _ => ?_)
    split
    · rfl
    · rw [show i = t + 1 by omega]

theorem cat_cols2 (B N : Nat) (hN : 0 < N) (f : Nat → Nat → α) :
    cat ((List.range N).map fun t => t2 B 1 fun b _ => f b t) 1 = .ok (t2 B N f) := by
  obtain ⟨n, rfl⟩ : ∃ n, N = n + 1 := ⟨N - 1, by omega⟩
  refine cat_range 1 (fun t => t2 B (t + 1) f) _ n ?_ fun t _ => ?_
  · refine t2_congr rfl rfl fun b i _ hi => ?_
    rw [show i = 0 by omega]
  · rw [cat2_t2_1]
    refine congrArg Except.ok (t2_congr rfl rfl fun b i _ hi => ?_)
    split
    · rfl
    · rw [show i = t + 1 by omega]

end Torch.Tensor
