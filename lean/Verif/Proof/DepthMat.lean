import Verif.Proof.DepthSpace
import Verif.Proof.ProtoPoly

/-!
# Depth of `_mat_cumdot_runner` and `polysmul`
-/

namespace Phil
open Torch Torch.Tensor
variable {α : Type} [CommRing α]

/-- One level of `_mat_cumdot_runner`, with the recursive call as a parameter. -/
def cumdotBody (A : Tensor α) (leadingDims : Nat) (r : Tensor α → Res (Tensor α)) : Res (Tensor α) := do
  let as ← unbind A (-3)
  let ps ← Mat.accumulate matmul as
  let accums ← stack ps (-3)
  if A.rank = leadingDims + 3 then return accums
  let last ← select accums (-3) (-1)
  let higher ← r last
  let a1 ← slice accums (-4) (some 1) none
  let a1 ← slice a1 (-3) none (some (-1))
  let h1 ← slice higher (-3) none (some (-1))
  let h1 ← unsqueeze h1 (-3)
  let tmp ← matmul a1 h1
  let a0 ← slice accums (-4) none (some 1)
  let h2 ← slice higher (-3) (some 1) none
  let h2 ← unsqueeze h2 (-3)
  let c ← cat2 tmp h2 (-3)
  cat2 a0 c (-4)

theorem cumdotBody_once {A : Tensor α} {l : Nat} (h : A.rank ≠ l + 3) :
    Once (fun a : Tensor α => a.rank + 1 = A.rank) (cumdotBody A l) := by
  unfold cumdotBody
  simp only [if_neg h]
  refine once_bind fun as has => once_bind fun ps hps => once_bind fun ac hac => once_bind fun last hlast => once_call ?_ _
  rw [select_rank hlast]
  cases as with
  | nil => cases hps; cases hac
  | cons a as =>
    obtain ⟨rs, _, hps⟩ := ok_bind_inv hps
    cases hps
    rw [stack_rank hac]
    exact unbind_rank has a (by simp)

theorem cumdotRunner_enough (d k K l : Nat) (A : Tensor α) (hA : A.rank = l + 3 + d) (hk : d < k) (hK : d < K) :
    Mat.matCumdotRunner k A l = Mat.matCumdotRunner K A l := by
  induction d generalizing k K A with
  | zero =>
    obtain ⟨k, rfl⟩ : ∃ m, k = m + 1 := ⟨k - 1, by omega⟩
    obtain ⟨K, rfl⟩ : ∃ m, K = m + 1 := ⟨K - 1, by omega⟩
    show cumdotBody A l _ = cumdotBody A l _
    unfold cumdotBody
    simp only [if_pos hA]
  | succ d ih =>
    obtain ⟨k, rfl⟩ : ∃ m, k = m + 1 := ⟨k - 1, by omega⟩
    obtain ⟨K, rfl⟩ : ∃ m, K = m + 1 := ⟨K - 1, by omega⟩
    show cumdotBody A l _ = cumdotBody A l _
    rcases cumdotBody_once (A := A) (l := l) (by omega) with ⟨e, he⟩ | ⟨a, ha, post, he⟩
    · rw [he, he]
    · rw [he, he, ih k K a (by omega) (by omega) (by omega)]

theorem cumdotRunner_needed (d k l : Nat) (A r : Tensor α) (hA : A.rank = l + 3 + d) (h : Mat.matCumdotRunner k A l = .ok r) : d < k := by
  induction d generalizing k A r with
  | zero =>
    cases k with
    | zero => cases h
    | succ k => omega
  | succ d ih =>
    cases k with
    | zero => cases h
    | succ k =>
      have h : cumdotBody A l (fun a => Mat.matCumdotRunner k a l) = .ok r := h
      rcases cumdotBody_once (A := A) (l := l) (by omega) with ⟨e, he⟩ | ⟨a, ha, post, he⟩
      · rw [he] at h; cases h
      · rw [he] at h
        obtain ⟨v, hv, _⟩ := ok_bind_inv h
        have := ih k a v (by omega) hv
        omega

end Phil

namespace Phil.Proto
open Torch
variable {α : Type} [CommRing α] [DecidableEq α]

theorem clog_two_halves {n : Nat} (h : 2 ≤ n) :
    Nat.clog 2 (n / 2) ≤ Nat.clog 2 (n - n / 2) ∧ Nat.clog 2 n = Nat.clog 2 (n - n / 2) + 1 := by
  refine ⟨Nat.clog_mono_right 2 (by omega), ?_⟩
  rw [Nat.clog_of_two_le (by decide) h]
  congr 2
  omega

theorem polysmul_enough (k : Nat) (ps : List (List α)) (h : ps ≠ []) (hk : Nat.clog 2 ps.length < k) :
    polysmulAux k ps = polysmul ps := by
  suffices hs : ∀ K, Nat.clog 2 ps.length < K → polysmulAux k ps = polysmulAux K ps from
    hs _ ((Nat.clog_le_of_le_pow (Nat.lt_pow_self (by decide)).le).trans_lt (Nat.lt_succ_self _))
  induction k generalizing ps with
  | zero => omega
  | succ k ih =>
    intro K hK
    obtain ⟨K, rfl⟩ : ∃ m, K = m + 1 := ⟨K - 1, by omega⟩
    have hl := List.length_pos_iff.2 h
    unfold polysmulAux
    by_cases h1 : ps.length = 1
    · rw [if_pos h1, if_pos h1]
    · rw [if_neg h1, if_neg h1]
      have hc := clog_two_halves (n := ps.length) (by omega)
      have ht : (ps.take (ps.length / 2)).length = ps.length / 2 := by rw [List.length_take]; omega
      have hd : (ps.drop (ps.length / 2)).length = ps.length - ps.length / 2 := by rw [List.length_drop]
      rw [ih (ps.take (ps.length / 2)) (List.length_pos_iff.1 (by omega)) (by rw [ht]; omega) K (by rw [ht]; omega),
        ih (ps.drop (ps.length / 2)) (List.length_pos_iff.1 (by omega)) (by rw [hd]; omega) K (by rw [hd]; omega)]

theorem polysmul_needed (k : Nat) (ps : List (List α)) (r : List α) (h : polysmulAux k ps = .ok r) : Nat.clog 2 ps.length < k := by
  induction k generalizing ps r with
  | zero => cases h
  | succ k ih =>
    unfold polysmulAux at h
    split_ifs at h with h1
    · rw [h1]; simp
    · obtain ⟨v, hv, h⟩ := ok_bind_inv h
      obtain ⟨w, hw, h⟩ := ok_bind_inv h
      have hd := ih _ _ hw
      rw [List.length_drop] at hd
      rcases Nat.lt_or_ge ps.length 2 with h2 | h2
      · have : ps.length = 0 := by omega
        rw [this]; simp
      · have := (clog_two_halves h2).2
        omega

end Phil.Proto
