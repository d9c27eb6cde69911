import Verif.Proof.Parallel
import Verif.Props.C52
import Verif.Props.C53
import Verif.Props.C56

/-!
# C61: filtering through partial fractions

What the residues, poles and direct terms are for: the outputs of one filter per pole, added up, are the output of the filter that was
expanded.  `residuez` and `sos2pfe` are prototype code, `lfilter` and `fir` are the library's.

For complex numbers only `df2` filters with the given coefficients (C12), hence `Faithful`.
-/

namespace Props
open Torch Torch.Tensor Polynomial Phil.Proto Spec
open Phil.Lti (Form ok_pair lfilter fir)
variable {α : Type} [Field α] [DecidableEq α] [StarRing α]

/-- The coefficients after the leading one of the denominator `(1 - p w)^m`. -/
noncomputable def poleTail (p : α) (m : Nat) : Tensor α := t1 m fun j => ((1 - C p * X : α[X]) ^ m).coeff (j + 1)

/-- Place `k` of `p` holds its pole for the `power`-th time. -/
def power (p : List α) (k : Nat) : Nat := (p.take (k + 1)).count (p.getD k 0)

omit [StarRing α] in
theorem power_pos {p : List α} {k : Nat} (hk : k < p.length) : 0 < power p k := by
  refine List.count_pos_iff.2 ?_
  rw [List.getD_eq_getElem _ _ hk]
  exact List.mem_take_iff_getElem.2 ⟨k, by simp; omega, rfl⟩

omit [DecidableEq α] [StarRing α] in
theorem pole_coeff (p : α) (m : Nat) : ((1 - C p * X : α[X]) ^ m).coeff 0 ≠ 0 := by
  rw [coeff_zero_eq_eval_zero]; simp

omit [DecidableEq α] in
/-- One filter: numerator `r w^n`, denominator `(1 - p w)^m`. -/
theorem poleFilter {B N : Nat} (r p : α) (n : Nat) {m : Nat} (hm : 0 < m) (x : Nat → Nat → α) {form : Form} (hf : Faithful α form)
    {u : Option Int} (hB : 0 < B) (hN : 0 < N) (hu : ∀ i, u = some i → 1 ≤ i) :
    ∃ z : Nat → Nat → α, (∀ i, (((1 - C p * X) ^ m : α[X]) : PowerSeries α) * PowerSeries.mk (z i) =
        ((C r * X ^ n : α[X]) : PowerSeries α) * PowerSeries.mk (x i)) ∧
      lfilter (t1 (n + 1) fun j => if j = n then r else 0) (poleTail p m) (t2 B N x) none form u = .ok (t2 B N z, none) := by
  obtain ⟨z, h1, h2⟩ := lfilter_series2 (.shared fun j => if j = n then r else 0)
    (.shared fun j => ((1 - C p * X : α[X]) ^ m).coeff (j + 1)) x hf hB n.succ_pos (lt_of_lt_of_le hm (le_max_left _ _)) hN hu
  refine ⟨z, fun i => ?_, h2⟩
  have := h1 i
  rwa [mk_denom_pole, mk_zext_delay] at this

/-- **C61 (partial), `residuez`**: filtering with `b/a` is filtering with the direct terms, plus one filter `r/(1 - p w)^m` for every
residue.  Missing: as in `C52_residuez_partial`. -/
theorem C61_residuez_partial [CharZero α] {eigvals : Nat → (Nat → Nat → α) → List α} (hE : IsEigvals eigvals) {small : α → Bool}
    (hs : ∀ e, small e = true ↔ e = 0) {close : α → α → Bool} {order : List α → List Nat}
    (ho : ∀ l, (order l).Perm (List.range l.length)) {b a : List α}
    (hclose : ∀ x y, (listPoly a).eval x = 0 → (listPoly a).eval y = 0 → close x y = decide (x = y))
    (hb : b ≠ []) (h2 : 2 ≤ a.length) (h0 : a.getD 0 0 ≠ 0) (hl : a.getD (a.length - 1) 0 ≠ 0)
    (hgood : GoodShape (listPoly b.reverse % listPoly a.reverse) (listPoly a)) {form : Form} (hf : Faithful α form) {u : Option Int}
    (hu : ∀ i, u = some i → 1 ≤ i) :
    ∃ r p k, residuez eigvals small close order .mean b a = .ok (.flat r, p, k) ∧ r.length = p.length ∧
      ∀ {B N : Nat} (x : Nat → Nat → α), 0 < B → 0 < N → ∃ (d : Nat → Nat → α) (z : Nat → Nat → Nat → α),
        (k = [] ∧ d = (fun _ _ => 0) ∨ fir (t2 B k.length fun _ j => k.getD j 0) (t2 B N x) none false = .ok (t2 B N d, none)) ∧
        (∀ j < p.length, lfilter (t1 1 fun _ => r.getD j 0) (poleTail (p.getD j 0) (power p j)) (t2 B N x) none form u =
          .ok (t2 B N (z j), none)) ∧
        lfilter (t1 b.length fun j => b.getD j 0 / a.getD 0 0) (t1 (a.length - 1) fun j => a.getD (j + 1) 0 / a.getD 0 0) (t2 B N x) none
          form u = .ok (t2 B N fun i t => d i t + ∑ j ∈ Finset.range p.length, z j i t, none) := by
  obtain ⟨r, p, k, h1, hlen, _, _, h5⟩ := C52_residuez_partial hE hs ho hclose hb h2 h0 hl hgood
  refine ⟨r, p, k, h1, hlen, fun {B N} x hB hN => ?_⟩
  have hz : ∀ j, ∃ z : Nat → Nat → α, j < p.length → ((∀ i, (((1 - C (p.getD j 0) * X) ^ power p j : α[X]) : PowerSeries α) *
        PowerSeries.mk (z i) = ((C (r.getD j 0) : α[X]) : PowerSeries α) * PowerSeries.mk (x i)) ∧
      lfilter (t1 1 fun _ => r.getD j 0) (poleTail (p.getD j 0) (power p j)) (t2 B N x) none form u = .ok (t2 B N z, none)) := by
    intro j
    by_cases hj : j < p.length
    · obtain ⟨z, hz1, hz2⟩ := poleFilter (r.getD j 0) (p.getD j 0) 0 (power_pos hj) x hf hB hN hu
      refine ⟨z, fun _ => ⟨fun i => ?_, ?_⟩⟩
      · rw [hz1 i]; simp
      · rw [← hz2]
        congr 1
        exact t1_congr rfl fun j hj => by rw [if_pos (by omega)]
    · exact ⟨fun _ _ => 0, fun h => absurd h hj⟩
  choose z hz using hz
  obtain ⟨y, hy, ey⟩ := lfilter_series2 (.shared fun j => b.getD j 0 / a.getD 0 0) (.shared fun j => a.getD (j + 1) 0 / a.getD 0 0) x hf hB
    (List.length_pos_iff.2 hb) (K := b.length) (P := a.length - 1) (lt_of_lt_of_le (by omega) (le_max_left _ _)) hN hu
  have hd : ∃ d : Nat → Nat → α, (∀ i, PowerSeries.mk (d i) = ((listPoly k.reverse : α[X]) : PowerSeries α) * PowerSeries.mk (x i)) ∧
      (k = [] ∧ d = (fun _ _ => 0) ∨ fir (t2 B k.length fun _ j => k.getD j 0) (t2 B N x) none false = .ok (t2 B N d, none)) := by
    cases k with
    | nil =>
      refine ⟨fun _ _ => 0, fun i => ?_, Or.inl ⟨rfl, rfl⟩⟩
      rw [show listPoly ([] : List α).reverse = 0 by simp [listPoly, descPoly], Polynomial.coe_zero, zero_mul]; rfl
    | cons k0 ks =>
      refine ⟨_, fun i => ?_, Or.inr (Phil.Lti.fir_direct_none _ x hB hN)⟩
      have e := mk_zext_list (k0 :: ks) 1
      rw [inv_one, C_1, one_mul] at e
      rw [← e, ← mk_conv]
      congr 1
      funext n
      rw [taps_causal]
      simp only [div_one]
      rfl
  obtain ⟨d, hd1, hd2⟩ := hd
  refine ⟨d, z, hd2, fun j hj => (hz j hj).2, ey.trans (ok_pair (t2_congr rfl rfl fun i t _ _ =>
    congrFun (?_ : y i = fun t => d i t + ∑ j ∈ Finset.range p.length, z j i t) t) rfl)⟩
  have hy := hy i
  rw [mk_denom_list h0, mk_zext_list] at hy
  have hA : (listPoly a.reverse).coeff 0 ≠ 0 := by
    rw [coeff_listPoly, List.length_reverse, if_pos (by omega), List.getD_eq_getElem _ _ (by rw [List.length_reverse]; omega),
      List.getElem_reverse]
    rw [List.getD_eq_getElem _ _ (by omega)] at h0
    convert h0 using 2
    omega
  have key := parallel_series (Finset.range p.length) (b := listPoly b.reverse) (a := listPoly a.reverse) (k := listPoly k.reverse)
    (fun j => C (r.getD j 0)) (fun j => (1 - C (p.getD j 0) * X) ^ power p j) hA (fun j _ => pole_coeff _ _)
    (fun w _ hw _ => by
      rw [h5 w hw, pfez]
      congr 1
      refine Finset.sum_congr rfl fun j _ => ?_
      simp [power]) (x := PowerSeries.mk (x i)) (y := PowerSeries.mk (y i)) (z := fun j => PowerSeries.mk (z j i))
    (by
      rw [Polynomial.coe_mul, Polynomial.coe_mul, mul_assoc, mul_assoc] at hy
      have hu : IsUnit ((C (a.getD 0 0)⁻¹ : α[X]) : PowerSeries α) := by
        rw [PowerSeries.isUnit_iff_constantCoeff, ← PowerSeries.coeff_zero_eq_constantCoeff_apply, coeff_coe, coeff_C_zero]
        exact (inv_ne_zero h0).isUnit
      exact hu.mul_left_cancel hy)
    fun j hj => (hz j (Finset.mem_range.1 hj)).1 i
  refine mk_inj (key.trans ?_)
  rw [← hd1]
  ext n
  simp [map_sum]

/-! ## Cascades of second-order sections -/

/-- The cascade: one `lfilter` per section, its coefficients divided by the leading one of the denominator. -/
def runSections (form : Form) (u : Option Int) (sos : List (Section α)) (x : Tensor α) : Res (Tensor α) :=
  sos.foldlM (fun x s => Prod.fst <$> lfilter (t1 3 fun j => [s.b0, s.b1, s.b2].getD j 0 / s.a0)
    (t1 2 fun j => [s.a1, s.a2].getD j 0 / s.a0) x none form u) x

/-- Numerators and denominators of the sections, as polynomials in `w = 1/z`. -/
noncomputable def sosNum (sos : List (Section α)) : α[X] := (sos.map fun s => listPoly [s.b2, s.b1, s.b0]).prod
noncomputable def sosDen (sos : List (Section α)) : α[X] := (sos.map fun s => listPoly [s.a2, s.a1, s.a0]).prod

omit [DecidableEq α] [StarRing α] in
theorem listPoly_three (x y z w : α) : (listPoly [x, y, z]).eval w = x * w ^ 2 + y * w + z := by
  rw [listPoly_cons, listPoly_cons, listPoly_singleton]; simp; ring

omit [DecidableEq α] [StarRing α] in
theorem sosDen_coeff {sos : List (Section α)} (ha : ∀ s ∈ sos, s.a0 ≠ 0) : (sosDen sos).coeff 0 ≠ 0 := by
  rw [coeff_zero_eq_eval_zero, sosDen, eval_list_prod, List.map_map]
  refine List.prod_ne_zero fun h => ?_
  obtain ⟨s, hs, h⟩ := List.mem_map.1 h
  rw [Function.comp, listPoly_three] at h
  exact ha s hs (by simpa using h)

omit [DecidableEq α] [StarRing α] in
theorem sosDen_cons (s : Section α) (sos : List (Section α)) : sosDen (s :: sos) = listPoly [s.a2, s.a1, s.a0] * sosDen sos := by
  rw [sosDen, List.map_cons, List.prod_cons, sosDen]

omit [DecidableEq α] [StarRing α] in
theorem sosNum_cons (s : Section α) (sos : List (Section α)) : sosNum (s :: sos) = listPoly [s.b2, s.b1, s.b0] * sosNum sos := by
  rw [sosNum, List.map_cons, List.prod_cons, sosNum]

omit [DecidableEq α] [StarRing α] in
theorem section_num (x y z c : α) : PowerSeries.mk (zext 3 fun j => [x, y, z].getD j 0 / c) =
    ((C c⁻¹ * listPoly [z, y, x] : α[X]) : PowerSeries α) := by
  have e := mk_zext_list [x, y, z] c
  rwa [show [x, y, z].reverse = [z, y, x] from rfl, show [x, y, z].length = 3 from rfl] at e

omit [DecidableEq α] [StarRing α] in
theorem section_den {x y c : α} (h0 : c ≠ 0) : PowerSeries.mk (denom 2 fun j => [x, y].getD j 0 / c) =
    ((C c⁻¹ * listPoly [y, x, c] : α[X]) : PowerSeries α) := by
  have e := mk_denom_list (a := [c, x, y]) h0
  rw [show [c, x, y].reverse = [y, x, c] from rfl, show [c, x, y].length - 1 = 2 from rfl, List.getD_cons_zero] at e
  simpa only [List.getD_cons_succ] using e

omit [DecidableEq α] in
theorem runSections_series {B N : Nat} {form : Form} (hf : Faithful α form) {u : Option Int} (hB : 0 < B) (hN : 0 < N)
    (hu : ∀ i, u = some i → 1 ≤ i) (sos : List (Section α)) (ha : ∀ s ∈ sos, s.a0 ≠ 0) (x : Nat → Nat → α) :
    ∃ y : Nat → Nat → α, (∀ i, (sosDen sos : PowerSeries α) * PowerSeries.mk (y i) = (sosNum sos : PowerSeries α) * PowerSeries.mk (x i)) ∧
      runSections form u sos (t2 B N x) = .ok (t2 B N y) := by
  induction sos generalizing x with
  | nil => exact ⟨x, fun i => by rw [sosDen, sosNum, List.map_nil, List.map_nil], rfl⟩
  | cons s sos ih =>
    have h0 := ha s (List.mem_cons_self ..)
    obtain ⟨v, hv, ev⟩ := lfilter_series2 (K := 3) (P := 2) (.shared fun j => [s.b0, s.b1, s.b2].getD j 0 / s.a0)
      (.shared fun j => [s.a1, s.a2].getD j 0 / s.a0) x hf hB (by simp) (by simp) hN hu
    obtain ⟨y, hy, ey⟩ := ih (fun t ht => ha t (List.mem_cons_of_mem _ ht)) v
    refine ⟨y, fun i => ?_, ?_⟩
    · have h1 := hv i
      rw [section_den h0, section_num] at h1
      rw [Polynomial.coe_mul, Polynomial.coe_mul, mul_assoc, mul_assoc] at h1
      have hu : IsUnit ((C s.a0⁻¹ : α[X]) : PowerSeries α) := by
        rw [PowerSeries.isUnit_iff_constantCoeff, ← PowerSeries.coeff_zero_eq_constantCoeff_apply, coeff_coe, coeff_C_zero]
        exact (inv_ne_zero h0).isUnit
      have h1 := hu.mul_left_cancel h1
      have h2 := hy i
      rw [sosDen_cons, sosNum_cons, Polynomial.coe_mul, Polynomial.coe_mul]
      linear_combination ((listPoly [s.a2, s.a1, s.a0] : α[X]) : PowerSeries α) * h2 + (sosNum sos : PowerSeries α) * h1
    · unfold runSections
      rw [List.foldlM_cons, ev]
      exact ey

omit [DecidableEq α] [StarRing α] in
theorem pfePow_sum (r p : List α) (n : List Nat) (hp : p.length = r.length) (hn : n.length = r.length) (z : α) :
    pfePow r p n z = ∑ j ∈ Finset.range r.length, r.getD j 0 / (z - p.getD j 0) ^ n.getD j 0 := by
  induction r generalizing p n with
  | nil => rfl
  | cons a r ih =>
    match p, n, hp, hn with
    | b :: p, c :: n, hp, hn =>
      have := ih p n (by simpa using hp) (by simpa using hn)
      unfold pfePow at this ⊢
      rw [List.length_cons, Finset.sum_range_succ', List.zip_cons_cons, List.zip_cons_cons, List.map_cons, List.sum_cons, this, add_comm]
      rfl

omit [DecidableEq α] [StarRing α] in
/-- The values of the cascade in terms of `w = 1/z`. -/
theorem cascade_inv (sos : List (Section α)) {w : α} (hw : w ≠ 0) :
    (sosNum sos).eval w / (sosDen sos).eval w = cascade sos w⁻¹ := by
  have key : ∀ s : Section α, (listPoly [s.b2, s.b1, s.b0]).eval w / (listPoly [s.a2, s.a1, s.a0]).eval w =
      (s.b0 * w⁻¹ ^ 2 + s.b1 * w⁻¹ + s.b2) / (s.a0 * w⁻¹ ^ 2 + s.a1 * w⁻¹ + s.a2) := by
    intro s
    have e : ∀ x y z : α, z * w ^ 2 + y * w + x = w ^ 2 * (x * w⁻¹ ^ 2 + y * w⁻¹ + z) := by
      intro x y z
      field_simp
      ring
    rw [listPoly_three, listPoly_three, e, e s.a0, mul_div_mul_left _ _ (pow_ne_zero 2 hw)]
  induction sos with
  | nil => simp [sosNum, sosDen, cascade]
  | cons s sos ih =>
    rw [sosNum_cons, sosDen_cons, eval_mul, eval_mul, mul_div_mul_comm, ih, key]
    unfold cascade
    rw [List.map_cons, List.prod_cons]

omit [DecidableEq α] in
/-- The cascade as a sum of filters, from the values of the expansion. -/
theorem sections_parallel [CharZero α] {B N L : Nat} {form : Form} (hf : Faithful α form) {u : Option Int} (hB : 0 < B) (hN : 0 < N)
    (hu : ∀ i, u = some i → 1 ≤ i) {sos : List (Section α)} (ha : ∀ s ∈ sos, s.a0 ≠ 0) {g : α} {r p : Nat → α} {n : Nat → Nat}
    (h : ∀ z, (∀ s ∈ sos, s.a0 * z ^ 2 + s.a1 * z + s.a2 ≠ 0) →
      cascade sos z = g + ∑ j ∈ Finset.range L, r j / (z - p j) ^ n j) (x : Nat → Nat → α) {z : Nat → Nat → Nat → α}
    (hz : ∀ j < L, ∀ i, (((1 - C (p j) * X) ^ n j : α[X]) : PowerSeries α) * PowerSeries.mk (z j i) =
      ((C (r j) * X ^ n j : α[X]) : PowerSeries α) * PowerSeries.mk (x i)) :
    runSections form u sos (t2 B N x) = .ok (t2 B N fun i t => g * x i t + ∑ j ∈ Finset.range L, z j i t) := by
  obtain ⟨y, hy, ey⟩ := runSections_series hf hB hN hu sos ha x
  refine ey.trans (congrArg Except.ok (t2_congr rfl rfl fun i t _ _ =>
    congrFun (?_ : y i = fun t => g * x i t + ∑ j ∈ Finset.range L, z j i t) t))
  have key := parallel_series (Finset.range L) (b := sosNum sos) (a := sosDen sos) (k := C g)
    (fun j => C (r j) * X ^ n j) (fun j => (1 - C (p j) * X) ^ n j) (sosDen_coeff ha) (fun j _ => pole_coeff _ _)
    (fun w hw hd _ => by
      rw [cascade_inv sos hw, h w⁻¹, eval_C]
      · congr 1
        refine Finset.sum_congr rfl fun j _ => ?_
        rw [eval_mul, eval_pow, eval_pow, eval_sub, eval_mul, eval_C, eval_C, eval_X, eval_one]
        rw [show 1 - p j * w = w * (w⁻¹ - p j) by field_simp, mul_pow, mul_comm (r j), mul_div_mul_left _ _ (pow_ne_zero _ hw)]
      · intro s hs h0
        refine hd ?_
        rw [sosDen, eval_list_prod, List.map_map]
        refine List.prod_eq_zero (List.mem_map.2 ⟨s, hs, ?_⟩)
        rw [Function.comp, listPoly_three,
          show s.a2 * w ^ 2 + s.a1 * w + s.a0 = w ^ 2 * (s.a0 * w⁻¹ ^ 2 + s.a1 * w⁻¹ + s.a2) by field_simp; ring, h0, mul_zero])
    (hy i) fun j hj => hz j (Finset.mem_range.1 hj) i
  refine mk_inj (key.trans ?_)
  ext k
  simp [map_sum]

omit [DecidableEq α] [StarRing α] in
/-- The samples of the filter `c w / (1 - p w)`. -/
theorem pole_rec {c p : α} {x z : Nat → α} (h : (((1 - C p * X) ^ 1 : α[X]) : PowerSeries α) * PowerSeries.mk z =
    ((C c * X ^ 1 : α[X]) : PowerSeries α) * PowerSeries.mk x) : z 0 = 0 ∧ ∀ t, z (t + 1) = p * z t + c * x t := by
  have e : PowerSeries.mk z = PowerSeries.C p * (PowerSeries.X * PowerSeries.mk z) + PowerSeries.C c * (PowerSeries.X * PowerSeries.mk x) := by
    rw [pow_one, pow_one, Polynomial.coe_mul, Polynomial.coe_sub, Polynomial.coe_mul, Polynomial.coe_one, coe_C, coe_C, coe_X] at h
    linear_combination h
  constructor
  · have := congrArg (PowerSeries.coeff 0) e
    simpa using this
  · intro t
    have := congrArg (PowerSeries.coeff (t + 1)) e
    rwa [map_add, PowerSeries.coeff_C_mul, PowerSeries.coeff_C_mul, PowerSeries.coeff_succ_X_mul, PowerSeries.coeff_succ_X_mul,
      PowerSeries.coeff_mk, PowerSeries.coeff_mk, PowerSeries.coeff_mk] at this

/-- **C61 (partial), `sos2pfe`, real poles**: the cascade of the sections is the gain times the signal, plus one filter
`r w^n / (1 - p w)^n` for every residue.  Missing: as in `C53_real_partial`. -/
theorem C61_sos_real_partial [CharZero α] {K : Type} [Field K] (φ : K →+* α) {sqrt re : α → α} {neg : α → Bool} {close : α → α → Bool}
    {order : List α → List Nat} (hre : ∀ x, re (φ x) = φ x) (ho : ∀ l, (order l).Perm (List.range l.length)) {sos : List (Section K)}
    (hne : sos ≠ []) (hb : ∀ s ∈ sos, s.b0 ≠ 0) (ha : ∀ s ∈ sos, s.a0 ≠ 0) (hgain : ∀ s ∈ sos, neg (φ (s.b0 / s.a0)) = false)
    (hdisc : ∀ s ∈ sos, neg (φ (s.a1 / s.a0 * (s.a1 / s.a0) - 4 * (s.a2 / s.a0))) = false ∧
      ∃ q, sqrt (φ (s.a1 / s.a0 * (s.a1 / s.a0) - 4 * (s.a2 / s.a0))) = φ q ∧ q * q = s.a1 / s.a0 * (s.a1 / s.a0) - 4 * (s.a2 / s.a0))
    (hclose : ∀ x y : α, close x y = decide (x = y)) {form : Form} (hf : Faithful α form) {u : Option Int}
    (hu : ∀ i, u = some i → 1 ≤ i) :
    ∃ R r p n g, sos2pfe sqrt re neg close order .mean (sos.map (Section.map φ)) = .ok ⟨R, .flat [], p, [], n, [], g⟩ ∧
      (R = .flat r ∨ R = .rows (r.map fun x => [x])) ∧ r.length = p.length ∧ n.length = p.length ∧
      ∀ {B N : Nat} (x : Nat → Nat → α), 0 < B → 0 < N → ∃ z : Nat → Nat → Nat → α,
        (∀ j < p.length, lfilter (t1 (n.getD j 0 + 1) fun l => if l = n.getD j 0 then r.getD j 0 else 0)
          (poleTail (p.getD j 0) (n.getD j 0)) (t2 B N x) none form u = .ok (t2 B N (z j), none)) ∧
        runSections form u (sos.map (Section.map φ)) (t2 B N x) =
          .ok (t2 B N fun i t => g * x i t + ∑ j ∈ Finset.range p.length, z j i t) := by
  obtain ⟨R, r, p, n, h1, h2, h3, h4, hpos, h5, h6, -, h8⟩ := C53_real_partial φ hre ho hne hb ha hgain hdisc hclose
  refine ⟨R, r, p, n, _, h1, ?_, h2.trans h3.symm, h4.trans h3.symm, fun {B N} x hB hN => ?_⟩
  · by_cases h : ∃ x ∈ p, ∃ y ∈ p, x ≠ y
    · exact Or.inl (h5 h)
    · exact Or.inr (h6 (by push Not at h; exact h))
  · have hz : ∀ j, ∃ z : Nat → Nat → α, j < p.length → ((∀ i, (((1 - C (p.getD j 0) * X) ^ n.getD j 0 : α[X]) : PowerSeries α) *
          PowerSeries.mk (z i) = ((C (r.getD j 0) * X ^ n.getD j 0 : α[X]) : PowerSeries α) * PowerSeries.mk (x i)) ∧
        lfilter (t1 (n.getD j 0 + 1) fun l => if l = n.getD j 0 then r.getD j 0 else 0) (poleTail (p.getD j 0) (n.getD j 0)) (t2 B N x)
          none form u = .ok (t2 B N z, none)) := by
      intro j
      by_cases hj : j < p.length
      · have hm : 0 < n.getD j 0 := hpos _ (by
          rw [List.getD_eq_getElem _ _ (by omega)]
          exact List.getElem_mem _)
        obtain ⟨z, hz⟩ := poleFilter (r.getD j 0) (p.getD j 0) (n.getD j 0) hm x hf hB hN hu
        exact ⟨z, fun _ => hz⟩
      · exact ⟨fun _ _ => 0, fun h => absurd h hj⟩
    choose z hz using hz
    refine ⟨z, fun j hj => (hz j hj).2, sections_parallel hf hB hN hu ?_ (fun w hw => ?_) x fun j hj => (hz j hj).1⟩
    · intro s hs
      obtain ⟨t, ht, rfl⟩ := List.mem_map.1 hs
      exact (map_ne_zero φ).2 (ha t ht)
    · rw [h8 w fun s hs => hw _ (List.mem_map.2 ⟨s, hs, rfl⟩), pfePow_sum _ _ _ (h3.trans h2.symm) (h4.trans h2.symm), h2, h3]

/-- **C61 (partial), `sos2pfe`, complex poles**: the cascade of the sections is the gain times the signal, plus two filters for every
pole returned, one for it and one for its conjugate; on real signals their outputs are conjugate.  Missing: as in
`C53_complex_partial`. -/
theorem C61_sos_complex_partial [CharZero α] {sqrt re : α → α} {neg : α → Bool} {close : α → α → Bool}
    {order : List α → List Nat} (ho : ∀ l, (order l).Perm (List.range l.length)) {sos : List (Section α)}
    (hne : sos ≠ []) (hb : ∀ s ∈ sos, s.b0 ≠ 0) (ha : ∀ s ∈ sos, s.a0 ≠ 0)
    (hreal : ∀ s ∈ sos, star s.b0 = s.b0 ∧ star s.b1 = s.b1 ∧ star s.b2 = s.b2 ∧ star s.a0 = s.a0 ∧ star s.a1 = s.a1 ∧ star s.a2 = s.a2)
    (hgain : ∀ s ∈ sos, neg (s.b0 / s.a0) = false)
    (hdisc : ∀ s ∈ sos, neg (s.a1 / s.a0 * (s.a1 / s.a0) - 4 * (s.a2 / s.a0)) = true)
    (hsqrt : ∀ s ∈ sos, sqrt (s.a1 / s.a0 * (s.a1 / s.a0) - 4 * (s.a2 / s.a0)) * sqrt (s.a1 / s.a0 * (s.a1 / s.a0) - 4 * (s.a2 / s.a0)) =
      s.a1 / s.a0 * (s.a1 / s.a0) - 4 * (s.a2 / s.a0))
    (hclose : ∀ x y : α, close x y = decide (x = y)) (hdist : (sosRoots sqrt sos).Nodup)
    (hpair : ∀ k < sos.length, (sosRoots sqrt sos).getD ((order (sosRoots sqrt sos)).getD (2 * k + 1) 0) 0 =
      star ((sosRoots sqrt sos).getD ((order (sosRoots sqrt sos)).getD (2 * k) 0) 0))
    {form : Form} (hf : Faithful α form) {u : Option Int} (hu : ∀ i, u = some i → 1 ≤ i) :
    ∃ c p n g, sos2pfe sqrt re neg close order .mean sos = .ok ⟨.flat [], .flat c, [], p, [], n, g⟩ ∧
      c.length = p.length ∧ n = List.replicate p.length 1 ∧
      ∀ {B N : Nat} (x : Nat → Nat → α), 0 < B → 0 < N → ∃ z z' : Nat → Nat → Nat → α,
        (∀ j < p.length, lfilter (t1 2 fun l => if l = 1 then c.getD j 0 else 0) (poleTail (p.getD j 0) 1) (t2 B N x) none form u =
          .ok (t2 B N (z j), none)) ∧
        (∀ j < p.length, lfilter (t1 2 fun l => if l = 1 then star (c.getD j 0) else 0) (poleTail (star (p.getD j 0)) 1) (t2 B N x) none
          form u = .ok (t2 B N (z' j), none)) ∧
        runSections form u sos (t2 B N x) = .ok (t2 B N fun i t => g * x i t + ∑ j ∈ Finset.range p.length, (z j i t + z' j i t)) ∧
        ∀ i, (∀ t, star (x i t) = x i t) → ∀ j < p.length, ∀ t, z' j i t = star (z j i t) := by
  obtain ⟨c, p, h1, h2, h3, -, h5⟩ := C53_complex_partial (re := re) ho hne hb ha hreal hgain hdisc hsqrt hclose hdist hpair
  refine ⟨c, p, _, _, h1, h2.trans h3.symm, by rw [h3], fun {B N} x hB hN => ?_⟩
  have hz := fun j : Nat => poleFilter (c.getD j 0) (p.getD j 0) 1 Nat.one_pos x hf hB hN hu
  have hz' := fun j : Nat => poleFilter (star (c.getD j 0)) (star (p.getD j 0)) 1 Nat.one_pos x hf hB hN hu
  choose z hz using hz
  choose z' hz' using hz'
  refine ⟨z, z', fun j _ => (hz j).2, fun j _ => (hz' j).2, ?_, ?_⟩
  · have key := sections_parallel (L := p.length + p.length) hf hB hN hu ha (g := (sos.map fun s => s.b0 / s.a0).prod)
      (r := fun j => if j < p.length then c.getD j 0 else star (c.getD (j - p.length) 0))
      (p := fun j => if j < p.length then p.getD j 0 else star (p.getD (j - p.length) 0)) (n := fun _ => 1) (fun w hw => by
        rw [h5 w hw, pfePow_sum _ _ _ (h3.trans h2.symm) (by rw [List.length_replicate, h2]),
          pfePow_sum _ _ _ (by rw [List.length_map, List.length_map, h3, h2]) (by rw [List.length_replicate, List.length_map, h2]),
          List.length_map, Finset.sum_range_add, h2, h3, add_assoc]
        congr 2
        · refine Finset.sum_congr rfl fun j hj => ?_
          have hj := Finset.mem_range.1 hj
          rw [if_pos (by omega), if_pos (by omega), List.getD_eq_getElem (List.replicate _ _) _ (by simpa using hj), List.getElem_replicate]
        · refine Finset.sum_congr rfl fun j hj => ?_
          have hj := Finset.mem_range.1 hj
          rw [if_neg (by omega), if_neg (by omega), List.getD_eq_getElem (List.replicate _ _) _ (by simpa using hj), List.getElem_replicate,
            Nat.add_sub_cancel_left, List.getD_eq_getElem (c.map star) _ (by rw [List.length_map]; omega), List.getElem_map,
            List.getD_eq_getElem (p.map star) _ (by rw [List.length_map]; omega), List.getElem_map,
            List.getD_eq_getElem c _ (by omega), List.getD_eq_getElem p _ (by omega)]) x
      (z := fun j => if j < p.length then z j else z' (j - p.length)) (fun j hj i => by
        by_cases hj' : j < p.length
        · simp only [if_pos hj']
          exact (hz j).1 i
        · simp only [if_neg hj']
          exact (hz' _).1 i)
    rw [key]
    refine congrArg Except.ok (t2_congr rfl rfl fun i t _ _ => ?_)
    rw [Finset.sum_range_add, Finset.sum_add_distrib]
    congr 2
    · refine Finset.sum_congr rfl fun j hj => ?_
      rw [if_pos (Finset.mem_range.1 hj)]
    · refine Finset.sum_congr rfl fun j hj => ?_
      rw [if_neg (by omega), Nat.add_sub_cancel_left]
  · intro i hx j _ t
    have e := pole_rec ((hz j).1 i)
    have e' := pole_rec ((hz' j).1 i)
    induction t with
    | zero => rw [e.1, e'.1, star_zero]
    | succ t ih => rw [e.2, e'.2, ih, star_add, star_mul', star_mul', hx]

/-- Non-vacuity of `C61_sos_complex_partial`: the impulse, `z² / (z² + 1)` and `z² / (z² + 1/4)`. -/
example : ∃ c p : List QI, ∃ g, ∃ z z' : Nat → Nat → Nat → QI, c.length = p.length ∧
    runSections .df2 none complexSos (t2 1 8 fun _ => impulse) =
      .ok (t2 1 8 fun i t => g * impulse t + ∑ j ∈ Finset.range p.length, (z j i t + z' j i t)) := by
  obtain ⟨c, p, n, g, _, h2, _, h4⟩ := C61_sos_complex_partial (sqrt := sqrtQI) (re := reQI) (neg := negQI)
    (close := fun x y => decide (x = y)) (order := fun l => List.range l.length) (fun l => List.Perm.refl _) (sos := complexSos) (by decide)
    (by decide +kernel) (by decide +kernel) (by decide +kernel) (by decide +kernel) (by decide +kernel) (by decide +kernel) (fun _ _ => rfl)
    (by decide +kernel) (by decide +kernel) (form := .df2) (Or.inl rfl) (u := none) (fun i hi => by cases hi)
  obtain ⟨z, z', _, _, h, _⟩ := h4 (B := 1) (N := 8) (fun _ => impulse) (by decide) (by decide)
  exact ⟨c, p, g, z, z', h2, h⟩

/-- Non-vacuity of `C61_sos_real_partial`: a double pole and two simple ones. -/
example : ∃ p : List QI, ∃ g, ∃ z : Nat → Nat → Nat → QI,
    runSections .df2 none (realSos.map (Section.map ofRat)) (t2 1 8 fun _ => impulse) =
      .ok (t2 1 8 fun i t => g * impulse t + ∑ j ∈ Finset.range p.length, z j i t) := by
  have hd : ∀ s ∈ realSos, ∃ q, (q = (1 : ℚ) / 6 ∨ q = 1 / 4) ∧ q * q = s.a1 / s.a0 * (s.a1 / s.a0) - 4 * (s.a2 / s.a0) := by
    intro s hs
    simp only [realSos, List.mem_cons, List.not_mem_nil, or_false] at hs
    rcases hs with rfl | rfl
    · exact ⟨1 / 6, Or.inl rfl, by norm_num⟩
    · exact ⟨1 / 4, Or.inr rfl, by norm_num⟩
  obtain ⟨R, r, p, n, g, _, _, _, _, h4⟩ := C61_sos_real_partial ofRat (sqrt := sqrtQI) (re := reQI) (neg := negQI)
    (close := fun x y => decide (x = y)) (order := fun l => List.range l.length) (fun x => rfl) (fun l => List.Perm.refl _) (sos := realSos)
    (by decide) (by decide +kernel) (by decide +kernel) (by decide +kernel) (by
      intro s hs
      obtain ⟨q, h1, h2⟩ := hd s hs
      rw [← h2]
      rcases h1 with rfl | rfl
      · exact ⟨by decide +kernel, 1 / 6, by decide +kernel, rfl⟩
      · exact ⟨by decide +kernel, 1 / 4, by decide +kernel, rfl⟩) (fun _ _ => rfl) (form := .df2) (Or.inl rfl) (u := none)
      (fun i hi => by cases hi)
  obtain ⟨z, _, h⟩ := h4 (B := 1) (N := 8) (fun _ => impulse) (by decide) (by decide)
  exact ⟨p, g, z, h⟩

/-- Non-vacuity of `C61_residuez_partial`: the impulse response of `(1 + w) / (1 - 3w + 2w²)` over the complex numbers. -/
example {eigvals : Nat → (Nat → Nat → ℂ) → List ℂ} (hE : IsEigvals eigvals) :
    ∃ (p : List ℂ) (d : Nat → Nat → ℂ) (z : Nat → Nat → Nat → ℂ),
      lfilter (t1 2 fun j => [1, 1].getD j 0 / 1) (t1 2 fun j => [1, -3, 2].getD (j + 1) 0 / 1) (t2 1 8 fun _ => impulse) none .df2 none =
        .ok (t2 1 8 fun i t => d i t + ∑ j ∈ Finset.range p.length, z j i t, none) := by
  obtain ⟨r, p, k, _, _, h⟩ := C61_residuez_partial hE (small := fun e => decide (e = 0)) (by simp)
    (close := fun x y => decide (x = y)) (order := fun l => List.range l.length) (fun l => List.Perm.refl _) (b := [1, 1]) (a := [1, -3, 2])
    (fun _ _ _ _ => rfl) (by simp) (by simp) (by simp) (by simp) good_example (form := .df2) (Or.inl rfl) (u := none)
    (fun i hi => by cases hi)
  obtain ⟨d, z, _, _, h⟩ := h (B := 1) (N := 8) (fun _ => impulse) (by decide) (by decide)
  exact ⟨p, d, z, h⟩

end Props
