import Verif.Torch.Linalg
import Mathlib.Data.List.GetD

/-!
# Tensors of matrices with any number of leading axes

`tmat s M f` is the tensor of shape `s ++ [M, M]` whose matrix at the leading index `l` is `f l`.
-/

namespace Torch.Tensor
open Finset
variable {α : Type}

/-- The tensor of shape `s ++ [M, M]` with matrices `f l`. -/
def tmat [Zero α] (s : List Nat) (M : Nat) (f : List Nat → Matrix (Fin M) (Fin M) α) : Tensor α :=
  ofFn (s ++ [M, M]) fun l => fm (f (l.take s.length)) (l.getD s.length 0) (l.getD (s.length + 1) 0)

/-! ## Index lists -/

theorem inB_append {lb s : List Nat} (h : lb.length = s.length) (t u : List Nat) : inB (lb ++ t) (s ++ u) = (inB lb s && inB t u) := by
  induction lb generalizing s with
  | nil =>
    obtain rfl : s = [] := List.length_eq_zero_iff.1 h.symm
    simp [inB]
  | cons i lb ih =>
    obtain ⟨n, s, rfl⟩ : ∃ n s', s = n :: s' := by
      cases s with
      | nil => simp at h
      | cons n s => exact ⟨n, s, rfl⟩
    rw [List.cons_append, List.cons_append, inB, inB, ih (by simpa using h), Bool.and_assoc]

theorem inB_split {l s u : List Nat} (h : inB l (s ++ u) = true) : ∃ lb t, l = lb ++ t ∧ inB lb s = true ∧ inB t u = true := by
  have hl := inB_length h
  refine ⟨l.take s.length, l.drop s.length, (List.take_append_drop _ _).symm, ?_⟩
  have h1 : (l.take s.length).length = s.length := by rw [List.length_take]; rw [List.length_append] at hl; omega
  have := inB_append h1 (l.drop s.length) u
  rw [List.take_append_drop, h] at this
  rw [← Bool.and_eq_true]
  exact this.symm

theorem inB2 {t : List Nat} {n m : Nat} (h : inB t [n, m] = true) : ∃ i j, t = [i, j] ∧ i < n ∧ j < m := by
  obtain ⟨i, t, rfl, hi, h⟩ := inB_cons h
  obtain ⟨j, t, rfl, hj, h⟩ := inB_cons h
  rw [inB0 h]
  exact ⟨i, j, rfl, hi, hj⟩

theorem inB1 {t : List Nat} {n : Nat} (h : inB t [n] = true) : ∃ i, t = [i] ∧ i < n := by
  obtain ⟨i, t, rfl, hi, h⟩ := inB_cons h
  rw [inB0 h]
  exact ⟨i, rfl, hi⟩

theorem inB_snoc {lb s : List Nat} {k n : Nat} (h : inB lb s = true) (hk : k < n) : inB (lb ++ [k]) (s ++ [n]) = true := by
  rw [inB_append (inB_length h), h]; simp [inB, hk]

theorem eraseIdx_at {lb t : List Nat} {k n : Nat} (h : lb.length = n) : (lb ++ k :: t).eraseIdx n = lb ++ t := by
  subst h
  rw [List.eraseIdx_append_of_length_le (le_refl _), Nat.sub_self]; rfl

theorem insertIdx_at {lb t : List Nat} {n : Nat} (k : Nat) (h : lb.length = n) : (lb ++ t).insertIdx n k = lb ++ k :: t := by
  subst h
  induction lb with
  | nil => cases t <;> rfl
  | cons i lb ih => rw [List.cons_append, List.length_cons, List.insertIdx_succ_cons, ih]; rfl

theorem set_at {lb t : List Nat} {k n : Nat} (v : Nat) (h : lb.length = n) : (lb ++ k :: t).set n v = lb ++ v :: t := by
  subst h
  rw [List.set_append_right _ _ (le_refl _), Nat.sub_self]; rfl

theorem getD_at {lb t : List Nat} {k n : Nat} (h : lb.length = n) : (lb ++ k :: t).getD n 0 = k := by
  subst h; simp

theorem getD_at' {lb t : List Nat} {i k n : Nat} (h : lb.length = n) : (lb ++ i :: k :: t).getD (n + 1) 0 = k := by
  subst h
  rw [List.getD_append_right _ _ _ _ (by omega)]
  simp

theorem take_at {lb t : List Nat} {n : Nat} (h : lb.length = n) : (lb ++ t).take n = lb := by
  subst h; simp

theorem wrapDim_neg (n k : Nat) : wrapDim (n + k + 1) (-((k : Int) + 1)) = .ok n := by
  unfold wrapDim
  rw [if_neg (by omega), if_pos (by constructor <;> omega)]
  congr 1
  omega

theorem wrapDim_neg3 (n : Nat) : wrapDim (n + 3) (-3) = .ok n := wrapDim_neg n 2

theorem wrapDim_neg4 (n : Nat) : wrapDim (n + 4) (-4) = .ok n := wrapDim_neg n 3

section
variable [Zero α] {M : Nat}

theorem tmat_shape (s : List Nat) (f : List Nat → Matrix (Fin M) (Fin M) α) : (tmat s M f).shape = s ++ [M, M] := rfl

theorem tmat_rank (s : List Nat) (f : List Nat → Matrix (Fin M) (Fin M) α) : (tmat s M f).rank = s.length + 2 := by
  rw [rank, tmat_shape, List.length_append]; rfl

theorem tmat_get {s lb : List Nat} (f : List Nat → Matrix (Fin M) (Fin M) α) (h : inB lb s = true) (i j : Nat) :
    (tmat s M f).get (lb ++ [i, j]) = fm (f lb) i j := by
  have hl := inB_length h
  unfold tmat
  rw [get_ofFn, inB_append hl, h, take_at hl, getD_at hl, getD_at' hl]
  by_cases hij : i < M ∧ j < M
  · simp [inB, hij]
  · have : fm (f lb) i j = 0 := by rw [fm, dif_neg hij]
    rw [this, ite_self]

theorem eq_tmat {x : Tensor α} {s : List Nat} {f : List Nat → Matrix (Fin M) (Fin M) α} (hs : x.shape = s ++ [M, M])
    (h : ∀ lb i j, inB lb s = true → i < M → j < M → x.get (lb ++ [i, j]) = fm (f lb) i j) : x = tmat s M f := by
  refine ext' hs fun l hl => ?_
  rw [hs] at hl
  obtain ⟨lb, t, rfl, h1, h2⟩ := inB_split hl
  obtain ⟨i, j, rfl, hi, hj⟩ := inB2 h2
  rw [h lb i j h1 hi hj, tmat_get f h1]

theorem tmat_congr {s : List Nat} {f g : List Nat → Matrix (Fin M) (Fin M) α} (h : ∀ lb, inB lb s = true → f lb = g lb) :
    tmat s M f = tmat s M g :=
  eq_tmat rfl fun lb i j hl _ _ => by rw [tmat_get f hl, h lb hl]

theorem t3_tmat {P : Nat} (A : Nat → Matrix (Fin M) (Fin M) α) : t3 P M M (fun k => fm (A k)) = tmat [P] M fun l => A (l.getD 0 0) := by
  refine eq_tmat rfl fun lb i j hl hi hj => ?_
  obtain ⟨k, rfl, hk⟩ := inB1 hl
  exact get_t3 hk hi hj

/-- `ofFn` read inside. -/
theorem get_in {s l : List Nat} (f : List Nat → α) (h : inB l s = true) : (ofFn s f).get l = f l := by
  rw [get_ofFn, if_pos h]

theorem inB_mat {lb s : List Nat} {i j : Nat} (h : inB lb s = true) (hi : i < M) (hj : j < M) : inB (lb ++ [i, j]) (s ++ [M, M]) = true := by
  rw [inB_append (inB_length h), h]; simp [inB, hi, hj]

theorem unbind_tmat (s : List Nat) (n : Nat) (f : List Nat → Matrix (Fin M) (Fin M) α) :
    unbind (tmat (s ++ [n]) M f) (-3) = .ok ((List.range n).map fun k => tmat s M fun l => f (l ++ [k])) := by
  unfold unbind
  rw [tmat_rank, List.length_append, show s.length + [n].length + 2 = s.length + 3 from rfl, wrapDim_neg3, ok_bind, tmat_shape,
    List.append_assoc, List.cons_append, List.nil_append, getD_at rfl, eraseIdx_at rfl]
  refine congrArg Except.ok (List.map_congr_left fun k hk => ?_)
  refine eq_tmat rfl fun lb i j hl hi hj => ?_
  rw [get_in _ (inB_mat hl hi hj), insertIdx_at _ (inB_length hl)]
  have := tmat_get f (inB_snoc hl (List.mem_range.1 hk)) i j
  rw [List.append_assoc] at this
  exact this

theorem stack_tmat (s : List Nat) (n : Nat) (hn : 0 < n) (g : Nat → List Nat → Matrix (Fin M) (Fin M) α) :
    stack ((List.range n).map fun k => tmat s M (g k)) (-3) = .ok (tmat (s ++ [n]) M fun l => g (l.getD s.length 0) (l.take s.length)) := by
  obtain ⟨m, rfl⟩ : ∃ m, n = m + 1 := ⟨n - 1, by omega⟩
  have hcons : (List.range (m + 1)).map (fun k => tmat s M (g k)) = tmat s M (g 0) :: (List.range m).map fun k => tmat s M (g (k + 1)) := by
    rw [List.range_succ_eq_map, List.map_cons, List.map_map]; rfl
  rw [hcons]
  unfold stack
  simp only
  rw [tmat_rank, show s.length + 2 + 1 = s.length + 3 from rfl, wrapDim_neg3, ok_bind]
  rw [check_true (by
    intro y hy
    obtain ⟨k, _, rfl⟩ := List.mem_map.1 hy
    rfl), ok_bind, ← hcons]
  refine congrArg Except.ok ?_
  have hsh : (tmat s M (g 0)).shape.insertIdx s.length (((List.range m).map fun k => tmat s M (g (k + 1))).length + 1) = (s ++ [m + 1]) ++ [M, M] := by
    rw [tmat_shape, insertIdx_at _ rfl]; simp
  rw [hsh]
  refine eq_tmat rfl fun lb i j hl hi hj => ?_
  rw [get_in _ (inB_mat hl hi hj)]
  obtain ⟨lb, t, rfl, h1, h2⟩ := inB_split hl
  obtain ⟨k, rfl, hk⟩ := inB1 h2
  have hlen := inB_length h1
  rw [List.append_assoc, List.cons_append, List.nil_append, getD_at hlen, eraseIdx_at hlen, getD_at hlen, take_at hlen,
    List.getD_eq_getElem _ _ (by simpa using hk), List.getElem_map, List.getElem_range, tmat_get _ h1]

theorem select_last_tmat (s : List Nat) (n : Nat) (hn : 0 < n) (f : List Nat → Matrix (Fin M) (Fin M) α) :
    select (tmat (s ++ [n]) M f) (-3) (-1) = .ok (tmat s M fun l => f (l ++ [n - 1])) := by
  unfold select
  rw [tmat_rank, List.length_append, show s.length + [n].length + 2 = s.length + 3 from rfl, wrapDim_neg3, ok_bind, tmat_shape,
    List.append_assoc, List.cons_append, List.nil_append]
  simp only
  rw [getD_at rfl, eraseIdx_at rfl, if_neg (by omega), if_pos (by constructor <;> omega), show ((-1 : Int) + n).toNat = n - 1 by omega]
  refine congrArg Except.ok (eq_tmat rfl fun lb i j hl hi hj => ?_)
  rw [get_in _ (inB_mat hl hi hj), insertIdx_at _ (inB_length hl)]
  have := tmat_get f (inB_snoc hl (by omega : n - 1 < n)) i j
  rw [List.append_assoc] at this
  exact this

theorem slice3_tmat (s : List Nat) (n : Nat) (a b : Option Int) (f : List Nat → Matrix (Fin M) (Fin M) α) (hb : pyStop n b ≤ n) :
    slice (tmat (s ++ [n]) M f) (-3) a b = .ok (tmat (s ++ [pyStop n b - pyStart n a]) M fun l =>
      f (l.take s.length ++ [l.getD s.length 0 + pyStart n a])) := by
  unfold slice
  rw [tmat_rank, List.length_append, show s.length + [n].length + 2 = s.length + 3 from rfl, wrapDim_neg3, ok_bind, tmat_shape,
    List.append_assoc, List.cons_append, List.nil_append]
  simp only
  rw [getD_at rfl, set_at _ rfl]
  refine congrArg Except.ok (eq_tmat (by simp) fun lb i j hl hi hj => ?_)
  obtain ⟨lb, t, rfl, h1, h2⟩ := inB_split hl
  obtain ⟨k, rfl, hk⟩ := inB1 h2
  have hlen := inB_length h1
  have := inB_mat hl hi hj
  rw [List.append_assoc s, List.cons_append, List.nil_append] at this
  rw [get_in _ this]
  rw [List.append_assoc lb, List.cons_append, List.nil_append, getD_at hlen, set_at _ hlen, getD_at hlen, take_at hlen]
  have := tmat_get f (inB_snoc h1 (by omega : k + pyStart n a < n)) i j
  rw [List.append_assoc] at this
  exact this

theorem slice4_tmat (s : List Nat) (n q : Nat) (a b : Option Int) (f : List Nat → Matrix (Fin M) (Fin M) α) (hb : pyStop n b ≤ n) :
    slice (tmat (s ++ [n, q]) M f) (-4) a b = .ok (tmat (s ++ [pyStop n b - pyStart n a, q]) M fun l =>
      f (l.take s.length ++ [l.getD s.length 0 + pyStart n a, l.getD (s.length + 1) 0])) := by
  unfold slice
  rw [tmat_rank, List.length_append, show s.length + [n, q].length + 2 = s.length + 4 from rfl, wrapDim_neg4, ok_bind, tmat_shape,
    List.append_assoc, List.cons_append, List.cons_append, List.nil_append]
  simp only
  rw [getD_at rfl, set_at _ rfl]
  refine congrArg Except.ok (eq_tmat (by simp) fun lb i j hl hi hj => ?_)
  have hin := inB_mat hl hi hj
  obtain ⟨lb, t, rfl, h1, h2⟩ := inB_split hl
  obtain ⟨k, o, rfl, hk, ho⟩ := inB2 h2
  have hlen := inB_length h1
  rw [List.append_assoc s, List.cons_append, List.cons_append, List.nil_append] at hin
  rw [get_in _ hin]
  rw [List.append_assoc lb, List.cons_append, List.cons_append, List.nil_append, getD_at hlen, set_at _ hlen, getD_at hlen, getD_at' hlen, take_at hlen]
  have h3 : inB (lb ++ [k + pyStart n a, o]) (s ++ [n, q]) = true := by
    rw [inB_append hlen, h1]; simp [inB, ho]; omega
  have := tmat_get f h3 i j
  rw [List.append_assoc] at this
  exact this

theorem unsqueeze_tmat (s : List Nat) (f : List Nat → Matrix (Fin M) (Fin M) α) :
    unsqueeze (tmat s M f) (-3) = .ok (tmat (s ++ [1]) M fun l => f (l.take s.length)) := by
  unfold unsqueeze
  rw [tmat_rank, show s.length + 2 + 1 = s.length + 3 from rfl, wrapDim_neg3, ok_bind, tmat_shape, insertIdx_at _ rfl]
  refine congrArg Except.ok (eq_tmat (by simp) fun lb i j hl hi hj => ?_)
  have hin := inB_mat hl hi hj
  obtain ⟨lb, t, rfl, h1, h2⟩ := inB_split hl
  obtain ⟨k, rfl, hk⟩ := inB1 h2
  have hlen := inB_length h1
  rw [List.append_assoc s, List.cons_append, List.nil_append] at hin
  rw [get_in _ hin, List.append_assoc lb, List.cons_append, List.nil_append, eraseIdx_at hlen, take_at hlen]
  exact tmat_get f h1 i j

theorem cat3_tmat (s : List Nat) (n m : Nat) (f g : List Nat → Matrix (Fin M) (Fin M) α) :
    cat2 (tmat (s ++ [n]) M f) (tmat (s ++ [m]) M g) (-3) = .ok (tmat (s ++ [n + m]) M fun l =>
      if l.getD s.length 0 < n then f l else g (l.take s.length ++ [l.getD s.length 0 - n])) := by
  unfold cat2
  rw [tmat_rank, List.length_append, show s.length + [n].length + 2 = s.length + 3 from rfl, wrapDim_neg3, ok_bind, tmat_shape, tmat_shape, tmat_rank,
    List.append_assoc, List.append_assoc, List.cons_append, List.cons_append, List.nil_append, eraseIdx_at rfl, eraseIdx_at rfl,
    check_true ⟨by simp, rfl⟩, ok_bind]
  simp only
  rw [getD_at rfl, getD_at rfl, set_at _ rfl]
  refine congrArg Except.ok (eq_tmat (by simp) fun lb i j hl hi hj => ?_)
  have hin := inB_mat hl hi hj
  obtain ⟨lb, t, rfl, h1, h2⟩ := inB_split hl
  obtain ⟨k, rfl, hk⟩ := inB1 h2
  have hlen := inB_length h1
  rw [List.append_assoc s, List.cons_append, List.nil_append] at hin
  rw [get_in _ hin, List.append_assoc lb, List.cons_append, List.nil_append, getD_at hlen, set_at _ hlen, getD_at hlen, take_at hlen]
  by_cases hkn : k < n
  · rw [if_pos hkn, if_pos hkn]
    have := tmat_get f (inB_snoc h1 hkn) i j
    rw [List.append_assoc] at this
    exact this
  · rw [if_neg hkn, if_neg hkn]
    have := tmat_get g (inB_snoc h1 (by omega : k - n < m)) i j
    rw [List.append_assoc] at this
    exact this

theorem cat4_tmat (s : List Nat) (n m q : Nat) (f g : List Nat → Matrix (Fin M) (Fin M) α) :
    cat2 (tmat (s ++ [n, q]) M f) (tmat (s ++ [m, q]) M g) (-4) = .ok (tmat (s ++ [n + m, q]) M fun l =>
      if l.getD s.length 0 < n then f l else g (l.take s.length ++ [l.getD s.length 0 - n, l.getD (s.length + 1) 0])) := by
  unfold cat2
  rw [tmat_rank, List.length_append, show s.length + [n, q].length + 2 = s.length + 4 from rfl, wrapDim_neg4, ok_bind, tmat_shape, tmat_shape, tmat_rank,
    List.append_assoc, List.append_assoc, List.cons_append, List.cons_append, List.cons_append, List.nil_append, eraseIdx_at rfl, eraseIdx_at rfl,
    check_true ⟨by simp, rfl⟩, ok_bind]
  simp only
  rw [getD_at rfl, getD_at rfl, set_at _ rfl]
  refine congrArg Except.ok (eq_tmat (by simp) fun lb i j hl hi hj => ?_)
  have hin := inB_mat hl hi hj
  obtain ⟨lb, t, rfl, h1, h2⟩ := inB_split hl
  obtain ⟨k, o, rfl, hk, ho⟩ := inB2 h2
  have hlen := inB_length h1
  rw [List.append_assoc s, List.cons_append, List.cons_append, List.nil_append] at hin
  rw [get_in _ hin, List.append_assoc lb, List.cons_append, List.cons_append, List.nil_append, getD_at hlen, set_at _ hlen, getD_at hlen, getD_at' hlen, take_at hlen]
  have h3 : ∀ (x y : Nat), x < y → inB (lb ++ [x, o]) (s ++ [y, q]) = true := by
    intro x y hxy
    rw [inB_append hlen, h1]; simp [inB, ho, hxy]
  by_cases hkn : k < n
  · rw [if_pos hkn, if_pos hkn]
    have := tmat_get f (h3 k n hkn) i j
    rw [List.append_assoc] at this
    exact this
  · rw [if_neg hkn, if_neg hkn]
    have := tmat_get g (h3 (k - n) m (by omega)) i j
    rw [List.append_assoc] at this
    exact this

end

/-! ## Products -/

theorem bshapeR_self (s : List Nat) : bshapeR s s = some s := by
  induction s with
  | nil => rfl
  | cons n s ih => rw [bshapeR, bdim_self, ih]

theorem bshape_self (s : List Nat) : bshape s s = some s := by
  unfold bshape; rw [bshapeR_self]; simp

theorem bidxAux_self {s l : List Nat} (h : l.length = s.length) : bidxAux s s l = l := by
  induction s generalizing l with
  | nil => rw [List.length_eq_zero_iff.1 h]; rfl
  | cons n s ih =>
    cases l with
    | nil => simp at h
    | cons i l => rw [bidxAux, if_pos rfl, ih (by simpa using h)]

theorem bidx_self {s l : List Nat} (h : l.length = s.length) : bidx s s l = l := by
  unfold bidx; rw [Nat.sub_self]; exact bidxAux_self h

theorem bshape_snoc (s : List Nat) (q : Nat) : bshape (s ++ [q]) (s ++ [1]) = some (s ++ [q]) := by
  unfold bshape
  rw [List.reverse_append, List.reverse_append]
  change Option.map _ (bshapeR (q :: s.reverse) (1 :: s.reverse)) = _
  rw [bshapeR, bshapeR_self]
  have : bdim q 1 = some q := by
    unfold bdim
    by_cases h : q = 1
    · rw [if_pos h, h]
    · rw [if_neg h, if_neg h, if_pos rfl]
  rw [this]
  simp

theorem bidx_snoc {s l : List Nat} {k q : Nat} (h : l.length = s.length) (hk : k < q) : bidx (s ++ [1]) (s ++ [q]) (l ++ [k]) = l ++ [0] := by
  unfold bidx
  have h0 : (s ++ [q]).length - (s ++ [1]).length = 0 := by simp
  simp only [h0, List.drop_zero]
  clear h0
  induction s generalizing l with
  | nil =>
    rw [List.length_eq_zero_iff.1 h]
    simp only [List.nil_append, bidxAux]
    by_cases h1 : 1 = q
    · rw [if_pos h1, show k = 0 by omega]
    · rw [if_neg h1]
  | cons n s ih =>
    cases l with
    | nil => simp at h
    | cons i l => rw [List.cons_append, List.cons_append, List.cons_append, bidxAux, if_pos rfl, ih (by simpa using h), List.cons_append]

section
variable [CommRing α] {M : Nat}

theorem tmat_size1 (s : List Nat) (f : List Nat → Matrix (Fin M) (Fin M) α) : (tmat s M f).size (-1) = M := by
  unfold size
  rw [if_neg (by omega), if_pos (by rw [tmat_rank]; omega), tmat_rank, tmat_shape, show ((-1 : Int) + (s.length + 2 : Nat)).toNat = s.length + 1 by omega]
  exact getD_at' rfl

theorem tmat_size2 (s : List Nat) (f : List Nat → Matrix (Fin M) (Fin M) α) : (tmat s M f).size (-2) = M := by
  unfold size
  rw [if_neg (by omega), if_pos (by rw [tmat_rank]; omega), tmat_rank, tmat_shape, show ((-2 : Int) + (s.length + 2 : Nat)).toNat = s.length by omega]
  exact getD_at rfl

theorem matmul_core_tmat {s u o : List Nat} (ho : bshape s u = some o) (f g : List Nat → Matrix (Fin M) (Fin M) α)
    (hs : ∀ l, inB l o = true → inB (bidx s o l) s = true) (hu : ∀ l, inB l o = true → inB (bidx u o l) u = true) :
    matmul (tmat s M f) (tmat u M g) = .ok (tmat o M fun l => f (bidx s o l) * g (bidx u o l)) := by
  unfold matmul
  rw [tmat_rank, tmat_rank, check_true ⟨by omega, by omega⟩, ok_bind, if_neg (by omega), if_neg (by omega), pure_eq_ok, ok_bind, pure_eq_ok, ok_bind]
  have hc : matmulCore (tmat s M f) (tmat u M g) = .ok (tmat o M fun l => f (bidx s o l) * g (bidx u o l)) := by
    unfold matmulCore
    rw [tmat_rank, tmat_rank, tmat_shape, tmat_shape, Nat.add_sub_cancel, Nat.add_sub_cancel, take_at rfl, take_at rfl, tmat_size1, tmat_size2]
    simp only
    rw [check_true trivial, ok_bind, ho]
    refine congrArg Except.ok (eq_tmat (by rw [shape_ofFn, tmat_size2, tmat_size1]) fun lb i j hl hi hj => ?_)
    rw [tmat_size2, tmat_size1, get_in _ (inB_mat hl hi hj)]
    have hlen := inB_length hl
    rw [take_at hlen, getD_at hlen, getD_at' hlen, ← fm_mul]
    refine Finset.sum_congr rfl fun w _ => ?_
    rw [tmat_get f (hs lb hl), tmat_get g (hu lb hl)]
  rw [hc, ok_bind, if_neg (by omega), pure_eq_ok, ok_bind, if_neg (by omega)]
  rfl

theorem matmul_tmat (s : List Nat) (f g : List Nat → Matrix (Fin M) (Fin M) α) :
    matmul (tmat s M f) (tmat s M g) = .ok (tmat s M fun l => f l * g l) := by
  have hb : ∀ l, inB l s = true → bidx s s l = l := fun l hl => bidx_self (inB_length hl)
  rw [matmul_core_tmat (bshape_self s) f g (fun l hl => by rw [hb l hl]; exact hl) (fun l hl => by rw [hb l hl]; exact hl)]
  refine congrArg Except.ok (tmat_congr fun l hl => ?_)
  rw [hb l hl]

theorem matmul_snoc_tmat (s : List Nat) (q : Nat) (f g : List Nat → Matrix (Fin M) (Fin M) α) :
    matmul (tmat (s ++ [q]) M f) (tmat (s ++ [1]) M g) = .ok (tmat (s ++ [q]) M fun l => f l * g (l.take s.length ++ [0])) := by
  have h1 : ∀ l, inB l (s ++ [q]) = true → bidx (s ++ [q]) (s ++ [q]) l = l := fun l hl => bidx_self (inB_length hl)
  have h2 : ∀ l, inB l (s ++ [q]) = true → bidx (s ++ [1]) (s ++ [q]) l = l.take s.length ++ [0] ∧ inB (l.take s.length) s = true := by
    intro l hl
    obtain ⟨lb, t, rfl, h1, h2⟩ := inB_split hl
    obtain ⟨k, rfl, hk⟩ := inB1 h2
    rw [bidx_snoc (inB_length h1) hk, take_at (inB_length h1)]
    exact ⟨rfl, h1⟩
  rw [matmul_core_tmat (bshape_snoc s q) f g (fun l hl => by rw [h1 l hl]; exact hl)
    (fun l hl => by rw [(h2 l hl).1]; exact inB_snoc (h2 l hl).2 (by omega))]
  refine congrArg Except.ok (tmat_congr fun l hl => ?_)
  rw [h1 l hl, (h2 l hl).1]

end
end Torch.Tensor
