import Verif.Torch.Lemmas
import Verif.Torch.TacInit

/-!
# Tactics used to prove the generated evaluation lemmas
-/

namespace Torch
namespace Tensor
variable {α : Type} [Zero α]

theorem insertIdx_zero' {β} (l : List β) (a : β) : l.insertIdx 0 a = a :: l := by simp
theorem insertIdx_succ' {β} (l : List β) (a b : β) (n) :
    (b :: l).insertIdx (n + 1) a = b :: l.insertIdx n a := by simp

theorem pyBound_le' (n : Nat) (i : Int) : pyBound n i ≤ n := by
  unfold pyBound; split <;> omega
theorem pyStop_le (n : Nat) (e : Option Int) : pyStop n e ≤ n := by
  cases e with
  | none => exact le_refl n
  | some i => exact pyBound_le' n i

attribute [tens] ok_bind pure_eq_ok
@[tens] theorem pyStart_none (n) : pyStart n none = 0 := rfl
@[tens] theorem pyStart_zero (n) : pyStart n (some 0) = 0 := by simp [pyStart, pyBound]
theorem pyStart_nat (n k : Nat) : pyStart n (some (k : Int)) = min k n := by
  simp [pyStart, pyBound]
@[tens] theorem pyStart_one (n) : pyStart n (some 1) = min 1 n := by simp [pyStart, pyBound]
@[tens] theorem pyStop_none (n) : pyStop n none = n := rfl
theorem pyStop_nat (n k : Nat) : pyStop n (some (k : Int)) = min k n := by
  simp [pyStop, pyBound]
@[tens] theorem pyStop_one (n) : pyStop n (some 1) = min 1 n := by simp [pyStop, pyBound]
@[tens] theorem pyStop_neg1 (n) : pyStop n (some (-1)) = n - 1 := by simp [pyStop, pyBound]; omega
theorem pyStop_neg (n k : Nat) (h : 0 < k) : pyStop n (some (-(k : Int))) = n - k := by
  simp only [pyStop, pyBound]; split <;> omega

theorem resolve_none_some {n c : Nat} (hc : 0 < c) (hd : n % c = 0) :
    resolve n [none, some c] = .ok [n / c, c] := by
  simp [resolve, hc, hd]
theorem resolve_some_some {c' c : Nat} :
    resolve (c' * c) [some c', some c] = .ok [c', c] := by
  simp [resolve]

theorem unflatten_bound {i c' j c : Nat} (hi : i < c') (hj : j < c) : i * c + j < c' * c := by
  calc i * c + j < i * c + c := by omega
    _ = (i + 1) * c := by ring
    _ ≤ c' * c := Nat.mul_le_mul_right _ hi
theorem unflatten_bound' {n i j c : Nat} (hd : n % c = 0) (hi : i < n / c) (hj : j < c) :
    i * c + j < n := by
  have h := unflatten_bound hi hj
  have := Nat.div_add_mod n c
  rw [hd, Nat.mul_comm] at this
  omega

theorem _root_.Nat.pos_of_lt_mul_right' {i a b : Nat} (h : i < a * b) : b > 0 := by
  rcases Nat.eq_zero_or_pos b with rfl | hb
  · simp at h
  · exact hb

theorem getD_eq_getElem0 (l : List Nat) (d : Nat) {p : Nat} (hp : p < l.length) : l.getD p d = l[p] := by
  simp [List.getD, hp]

theorem take_getD_drop (l : List Nat) (p : Nat) (hp : p < l.length) : l.take p ++ l.getD p 0 :: l.drop (p + 1) = l := by
  rw [getD_eq_getElem0 _ _ hp, List.getElem_cons_drop, List.take_append_drop]

theorem unflatten_single {x : Tensor α} {d : Int} {p n : Nat} (hw : wrapDim x.rank d = .ok p)
    (hn : x.shape.getD p 0 = n) (hp : p < x.shape.length) :
    unflatten x d (List.map some [n].reverse) = .ok x := by
  unfold unflatten
  rw [hw, ok_bind, hn]
  have hr : resolve n (List.map some [n].reverse) = .ok [n] := by simp [resolve]
  rw [hr, ok_bind, pure_eq_ok]
  refine congrArg Except.ok (ext' ?_ ?_)
  · rw [shape_ofFn, List.append_assoc, List.singleton_append, ← hn, take_getD_drop _ _ hp]
  · intro l hl
    rw [shape_ofFn] at hl
    rw [get_ofFn, if_pos hl]
    have hlen := inB_length hl
    rw [List.append_assoc, List.singleton_append, ← hn, take_getD_drop _ _ hp] at hlen
    congr 1
    rw [show ravel [n] ((l.drop p).take [n].length) = l.getD p 0 from ?_]
    · exact take_getD_drop l p (by omega)
    · rw [List.length_singleton, getD_eq_getElem0 _ _ (by omega : p < l.length),
        List.drop_eq_getElem_cons (by omega : p < l.length)]
      simp only [List.take_succ_cons, List.take_zero, ravel, ravelAux, Nat.zero_mul, Nat.zero_add]

theorem flatten_single {x : Tensor α} {d e : Int} {p : Nat} (hw : wrapDim x.rank d = .ok p)
    (hw' : wrapDim x.rank e = .ok p) (hp : p < x.shape.length) :
    flatten x d e = .ok x := by
  unfold flatten
  rw [hw, ok_bind, hw', ok_bind, check_true (le_refl p), ok_bind]
  have hss : (x.shape.drop p).take (p + 1 - p) = [x.shape.getD p 0] := by
    rw [Nat.add_sub_cancel_left, getD_eq_getElem0 _ _ hp, List.drop_eq_getElem_cons hp]
    rfl
  rw [hss, pure_eq_ok, List.prod_singleton]
  refine congrArg Except.ok (ext' ?_ ?_)
  · rw [shape_ofFn, take_getD_drop _ _ hp]
  · intro l hl
    rw [shape_ofFn] at hl
    rw [get_ofFn, if_pos hl]
    have hlen := inB_length hl
    rw [take_getD_drop _ _ hp] at hlen
    congr 1
    rw [show unravel [x.shape.getD p 0] (l.getD p 0) = [l.getD p 0] by simp [unravel], List.append_assoc,
      List.singleton_append]
    exact take_getD_drop l p (by omega)

/-- A Python index into an axis of size `n`: negative values count from the end. -/
def nidx (n : Nat) (c : Int) : Nat := if c < 0 then (c + n).toNat else c.toNat

theorem nidx_lt {n : Nat} {c : Int} (h : -(n : Int) ≤ c ∧ c < n) : nidx n c < n := by
  unfold nidx; split <;> omega

theorem select_norm {x : Tensor α} {d : Int} {p n : Nat} {c : Int} (hw : wrapDim x.rank d = .ok p)
    (hn : x.shape.getD p 0 = n) (h : -(n : Int) ≤ c ∧ c < n) : select x d c = select x d ((nidx n c : Nat) : Int) := by
  have hlt := nidx_lt h
  unfold select
  rw [hw, ok_bind, ok_bind, hn]
  simp only []
  rw [if_pos (show 0 ≤ ((nidx n c : Nat) : Int) ∧ ((nidx n c : Nat) : Int) < n by omega), Int.toNat_natCast]
  unfold nidx
  by_cases hc : c < 0
  · rw [if_neg (by omega), if_pos (by omega), if_pos hc]
  · rw [if_pos (by omega), if_neg hc]

/-- `-1` in the second place of an `unflatten`. -/
theorem unflatten_some_none {x : Tensor α} {d : Int} {p c' c : Nat} (hw : wrapDim x.rank d = .ok p)
    (hn : x.shape.getD p 0 = c' * c) (hc : 0 < c') :
    unflatten x d [some c', none] = unflatten x d [some c', some c] := by
  have h1 : resolve (c' * c) [some c', none] = .ok [c', c] := by
    simp [resolve, hc]
  unfold unflatten
  rw [hw, ok_bind, ok_bind, hn, h1, resolve_some_some]

theorem stack_range_map {c : Nat} {s : List Nat} {d : Int} (F : Nat → Tensor α)
    (hs : ∀ t, (F t).shape = s) (hc : 0 < c) :
    stack ((List.range c).map F) d = (do
      let p ← wrapDim (s.length + 1) d
      return ofFn (s.insertIdx p c) fun l => (F (l.getD p 0)).get (l.eraseIdx p)) := by
  obtain ⟨c, rfl⟩ : ∃ k, c = k + 1 := ⟨c - 1, by omega⟩
  rw [List.range_succ_eq_map]
  simp only [List.map_cons, List.map_map, stack, rank, hs]
  cases hw : wrapDim (s.length + 1) d with
  | error e => rfl
  | ok p =>
    simp only [ok_bind]
    rw [check_true (by simp [hs])]
    simp only [ok_bind, List.length_map, List.length_range, pure_eq_ok]
    congr 1
    have hp : p ≤ s.length := by
      unfold wrapDim at hw
      split at hw
      · simp at hw; omega
      · split at hw
        · simp at hw; omega
        · simp at hw
    apply ofFn_congr rfl
    intro l hl
    have hlt : l.getD p 0 < c + 1 := by
      clear hw hs
      induction p generalizing l s with
      | zero =>
        simp only [insertIdx_zero'] at hl
        obtain ⟨i, l', rfl, hi, _⟩ := inB_cons hl
        simpa using hi
      | succ p ih =>
        cases s with
        | nil => simp at hp
        | cons n s =>
          simp only [insertIdx_succ'] at hl
          obtain ⟨i, l', rfl, hi, hl'⟩ := inB_cons hl
          simp only [List.getD_cons_succ]
          exact ih (by simpa using hp) _ hl'
    congr 1
    generalize l.getD p 0 = t at hlt
    cases t with
    | zero => simp
    | succ t =>
      simp only [List.getD_eq_getElem?_getD, List.getElem?_cons_succ]
      rw [List.getElem?_map, List.getElem?_range (by omega)]
      simp

theorem bdim_self (x) : bdim x x = some x := by simp [bdim]
theorem bdim_one_left (y) : bdim 1 y = some y := by unfold bdim; split <;> simp_all
theorem bdim_one_right (x) : bdim x 1 = some x := by
  unfold bdim; split
  · simp_all
  · split <;> simp_all
theorem ite_self_idx (n i : Nat) : (if n = n then i else 0) = i := by simp
theorem ite_one_idx {n i : Nat} (h : i < n) : (if 1 = n then i else 0) = 0 := by split <;> omega

theorem max_one_one : max 1 1 = 1 := rfl
theorem max_one_two : max 1 2 = 2 := rfl
theorem max_one_three : max 1 3 = 3 := rfl
theorem max_one_four : max 1 4 = 4 := rfl
theorem max_one_five : max 1 5 = 5 := rfl

macro "tev_list" : tactic => `(tactic|
  (simp only [List.eraseIdx, insertIdx_zero', insertIdx_succ', List.set, List.getD_cons_zero,
    List.getD_cons_succ, List.take_zero, List.take_succ_cons, List.drop_zero, List.drop_succ_cons,
    shape_ofFn, shape_t0, shape_t1, shape_t2, shape_t3, shape_t4, shape_t5,
    rank_t0, rank_t1, rank_t2, rank_t3, rank_t4, rank_t5, Nat.reduceAdd, Nat.reduceSub, max_one_one, max_one_two, max_one_three, max_one_four, max_one_five,
    wrapDim_1_0, wrapDim_1_n1, wrapDim_2_0, wrapDim_2_1, wrapDim_2_n1, wrapDim_2_n2,
    wrapDim_3_0, wrapDim_3_1, wrapDim_3_2, wrapDim_3_n1, wrapDim_3_n2, wrapDim_3_n3,
    wrapDim_4_0, wrapDim_4_1, wrapDim_4_2, wrapDim_4_3, wrapDim_4_n1, wrapDim_4_n2, wrapDim_4_n3,
    wrapDim_4_n4, wrapDim_5_0, wrapDim_5_1, wrapDim_5_2, wrapDim_5_3, wrapDim_5_4,
    wrapDim_5_n1, wrapDim_5_n2, wrapDim_5_n3, wrapDim_5_n4, wrapDim_5_n5,
    unsqueeze, squeeze, flip, slice, select, unbind, transpose, unfold, rollNeg1, flatten, unflatten,
    padDim, cat2, map, full, ok_bind, pure_eq_ok, List.length_cons, List.length_nil, ite_true]))

macro "tev_core" : tactic => `(tactic|
  (simp (disch := omega) only [get_ofFn, inB, decide_true, decide_eq_true_eq, Bool.and_eq_true, Bool.true_and, Bool.and_true, if_true,
    get_ofFn1, get_ofFn2, get_ofFn3, get_ofFn4, get_ofFn5, get_t0, get_t1, get_t2, get_t3, get_t4, get_t5,
    List.eraseIdx, insertIdx_zero', insertIdx_succ', List.set, List.getD_cons_zero, List.getD_cons_succ,
    if_pos, if_neg]))

macro "tevg0" : tactic => `(tactic| (refine congrArg Except.ok (ext0 rfl rfl ?_); tev_core))
macro "tevg1" : tactic => `(tactic| (refine congrArg Except.ok (ext1 rfl rfl ?_); intro i hi; tev_core))
macro "tevg2" : tactic => `(tactic| (refine congrArg Except.ok (ext2 rfl rfl ?_); intro i j hi hj; tev_core))
macro "tevg3" : tactic => `(tactic| (refine congrArg Except.ok (ext3 rfl rfl ?_); intro i j k hi hj hk; tev_core))
macro "tevg4" : tactic => `(tactic| (refine congrArg Except.ok (ext4 rfl rfl ?_); intro i j k o hi hj hk ho; tev_core))
macro "tevg5" : tactic => `(tactic| (refine congrArg Except.ok (ext5 rfl rfl ?_); intro i j k o u hi hj hk ho hu; tev_core))
macro "tevc0" : tactic => `(tactic| (refine (ext0 rfl rfl ?_); tev_core))
macro "tevc1" : tactic => `(tactic| (refine (ext1 rfl rfl ?_); intro i hi; tev_core))
macro "tevc2" : tactic => `(tactic| (refine (ext2 rfl rfl ?_); intro i j hi hj; tev_core))
macro "tevc3" : tactic => `(tactic| (refine (ext3 rfl rfl ?_); intro i j k hi hj hk; tev_core))
macro "tevc4" : tactic => `(tactic| (refine (ext4 rfl rfl ?_); intro i j k o hi hj hk ho; tev_core))
macro "tevc5" : tactic => `(tactic| (refine (ext5 rfl rfl ?_); intro i j k o u hi hj hk ho hu; tev_core))
macro "tev0" : tactic => `(tactic| (tev_list; tevg0))
macro "tev1" : tactic => `(tactic| (tev_list; tevg1))
macro "tev2" : tactic => `(tactic| (tev_list; tevg2))
macro "tev3" : tactic => `(tactic| (tev_list; tevg3))
macro "tev4" : tactic => `(tactic| (tev_list; tevg4))
macro "tev5" : tactic => `(tactic| (tev_list; tevg5))
macro "tevm0" : tactic => `(tactic| (tev_list; tevc0))
macro "tevm1" : tactic => `(tactic| (tev_list; tevc1))
macro "tevm2" : tactic => `(tactic| (tev_list; tevc2))
macro "tevm3" : tactic => `(tactic| (tev_list; tevc3))
macro "tevm4" : tactic => `(tactic| (tev_list; tevc4))
macro "tevm5" : tactic => `(tactic| (tev_list; tevc5))

macro "tev_sel_0" : tactic => `(tactic| (tev_list; rw [if_pos (by omega)]; simp only [Int.toNat_zero]; try tev_list))
macro "tev_sel_nat" : tactic => `(tactic| (tev_list; rw [if_pos (by omega)]; simp only [Int.toNat_natCast]; try tev_list))
theorem toNat_neg_one_add (n : Nat) : (-1 + (n : Int)).toNat = n - 1 := by omega
macro "tev_sel_last" : tactic => `(tactic| (
  tev_list
  rw [if_neg (by omega), if_pos (by omega)]
  simp only [toNat_neg_one_add]
  try tev_list))
macro "tev_pad" : tactic => `(tactic| (
  simp (disch := omega) only [get_ofFn1, get_ofFn2, get_ofFn3, get_ofFn4, get_ofFn5, get_t1, get_t2, get_t3, get_t4,
    List.getD_cons_zero, List.getD_cons_succ, List.set, Int.sub_zero, Int.toNat_natCast, Int.toNat_sub]))
macro "tev_flat" : tactic => `(tactic| (simp (disch := omega) only [get_ofFn1, get_ofFn2, get_ofFn3, get_ofFn4, get_ofFn5,
    List.take_zero, List.take_succ_cons, List.drop_zero,
    List.drop_succ_cons, List.getD_cons_zero, List.getD_cons_succ, unravel, List.prod_cons, List.prod_nil, mul_one,
    Nat.div_one, List.cons_append, List.nil_append]))
macro "tev_unfl2" : tactic => `(tactic| (simp (disch := omega) only [get_ofFn1, get_ofFn2, get_ofFn3, get_ofFn4, get_ofFn5,
    List.take_zero, List.take_succ_cons, List.drop_zero, List.length_cons, List.length_nil, Nat.reduceAdd, zero_add,
    List.drop_succ_cons, List.getD_cons_zero, List.getD_cons_succ, ravel, ravelAux, zero_mul, List.cons_append, List.nil_append]))
macro "tev_unfold" : tactic => `(tactic| (simp (disch := omega) only [get_ofFn1, get_ofFn2, get_ofFn3, get_ofFn4, get_ofFn5,
    List.dropLast_cons_cons, List.dropLast_singleton, List.set, List.getD_cons_zero, List.getD_cons_succ, List.getLastD_cons, List.getLastD_nil,
    List.cons_append, List.nil_append]))
macro "tev_zipc" : tactic => `(tactic| (simp only [zipWith, bshape, bshapeR, bdim_self, bdim_one_left, bdim_one_right,
    shape_t0, shape_t1, shape_t2, shape_t3, shape_t4, shape_t5, List.reverse_cons, List.reverse_nil, List.nil_append,
    List.cons_append, Option.map_some]))
macro "tev_zipd" : tactic => `(tactic| (
  simp (disch := omega) only [get_ofFn1, get_ofFn2, get_ofFn3, get_ofFn4, get_ofFn5,
    bidx, bidxAux, List.length_cons, List.length_nil, Nat.reduceAdd, zero_add, Nat.reduceSub,
    List.drop_zero, List.drop_succ_cons, List.drop_nil,
    ite_true, ite_one_idx, ite_self_idx]
  try tev_core))
macro "tev_zip0" : tactic => `(tactic| (tev_zipc; refine congrArg Except.ok (ext0 rfl rfl ?_); first | rfl | tev_zipd))
macro "tev_zip1" : tactic => `(tactic| (tev_zipc; refine congrArg Except.ok (ext1 rfl rfl ?_); intro i hi; tev_zipd))
macro "tev_zip2" : tactic => `(tactic| (tev_zipc; refine congrArg Except.ok (ext2 rfl rfl ?_); intro i j hi hj; tev_zipd))
macro "tev_zip3" : tactic => `(tactic| (tev_zipc; refine congrArg Except.ok (ext3 rfl rfl ?_); intro i j k hi hj hk; tev_zipd))
macro "tev_zip4" : tactic => `(tactic| (tev_zipc; refine congrArg Except.ok (ext4 rfl rfl ?_); intro i j k o hi hj hk ho; tev_zipd))
macro "tev_zip5" : tactic => `(tactic| (tev_zipc; refine congrArg Except.ok (ext5 rfl rfl ?_); intro i j k o u hi hj hk ho hu; tev_zipd))

macro "tev_mm" : tactic => `(tactic| (simp only [matmulCore, bshape, bshapeR, bdim_self, bdim_one_left, bdim_one_right,
    shape_t0, shape_t1, shape_t2, shape_t3, shape_t4, shape_t5, rank_t0, rank_t1, rank_t2, rank_t3, rank_t4, rank_t5,
    Nat.reduceSub, List.take_zero, List.take_succ_cons,
    size_t1_n1, size_t2_n1, size_t2_n2, size_t3_n1, size_t3_n2, size_t4_n1, size_t4_n2, size_t5_n1, size_t5_n2,
    List.reverse_cons, List.reverse_nil, List.nil_append, List.cons_append, Option.map_some]))
macro "tev_vd" : tactic => `(tactic| (simp only [vecdot, bshape, bshapeR, bdim_self, bdim_one_left, bdim_one_right,
    shape_t0, shape_t1, shape_t2, shape_t3, shape_t4, shape_t5, rank_t0, rank_t1, rank_t2, rank_t3, rank_t4, rank_t5,
    size_t1_n1, size_t2_n1, size_t2_n2, size_t3_n1, size_t3_n2, size_t4_n1, size_t4_n2, size_t5_n1, size_t5_n2, List.dropLast_cons_cons, List.dropLast_singleton,
    List.getLastD_cons, List.getLastD_nil,
    List.reverse_cons, List.reverse_nil, List.nil_append, List.cons_append, Option.map_some]))
macro "tev_mmget" : tactic => `(tactic| (simp (disch := omega) only [get_ofFn0, get_ofFn1, get_ofFn2, get_ofFn3, get_ofFn4, get_ofFn5,
    get_t0, get_t1, get_t2, get_t3, get_t4, get_t5,
    List.length_cons, List.length_nil, Nat.reduceAdd, zero_add, List.take_zero, List.take_succ_cons, List.nil_append, List.cons_append,
    List.getD_cons_zero, List.getD_cons_succ]))
macro "tev_mmel" : tactic => `(tactic| (simp (disch := omega) only [bidx, bidxAux, List.length_cons, List.length_nil, Nat.reduceAdd, zero_add,
    Nat.reduceSub, List.drop_zero, List.drop_succ_cons, List.drop_nil, List.nil_append, List.cons_append,
    ite_true, ite_one_idx, get_t0, get_t1, get_t2, get_t3, get_t4, get_t5]))
macro "tev_exp" : tactic => `(tactic| (
  simp only [expand, rank_t0, rank_t1, rank_t2, rank_t3, rank_t4, rank_t5, shape_t0, shape_t1, shape_t2, shape_t3, shape_t4, shape_t5,
    List.length_cons, List.length_nil, Nat.reduceAdd, zero_add, Nat.reduceSub, List.take_zero, List.take_succ_cons,
    List.drop_zero, List.drop_succ_cons, List.drop_nil, List.zipWith_cons_cons, List.zipWith_nil_left, List.zipWith_nil_right, List.map_cons, List.map_nil,
    Option.getD_some, Option.getD_none, List.nil_append, List.cons_append, List.append_nil]
  rw [check_true (by decide), ok_bind, check_true (by simp), ok_bind, check_true (by
    simp only [bshape, bshapeR, bdim_self, bdim_one_left, bdim_one_right, List.reverse_cons, List.reverse_nil,
      List.nil_append, List.cons_append, Option.map_some]), ok_bind, pure_eq_ok]))

end Tensor
end Torch
