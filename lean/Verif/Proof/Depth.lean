import Verif.Proof.Accept
import Mathlib.Data.Nat.Log

/-!
# Depth of the recursions

`Once P body`: the program `body`, given a function for its recursive call, raises without using it or calls it once, on arguments
with property `P`.  If every call works on a signal of length `⌈N / u⌉`, where `N` is the length of the caller's signal, the depth
of the recursion is `⌈log_u N⌉`.
-/

namespace Torch

/-- `body` raises, or calls its argument once, on something with property `P`. -/
def Once {γ β : Type} (P : γ → Prop) (body : (γ → Res β) → Res β) : Prop :=
  (∃ e, ∀ r, body r = .error e) ∨ ∃ a, P a ∧ ∃ post : β → Res β, ∀ r, body r = r a >>= post

section once
variable {γ β δ : Type} {P : γ → Prop}

theorem once_bind {m : Res δ} {f : (γ → Res β) → δ → Res β} (h : ∀ v, m = .ok v → Once P fun r => f r v) :
    Once P fun r => m >>= f r := by
  cases m with
  | error e => exact Or.inl ⟨e, fun r => rfl⟩
  | ok v => exact h v rfl

theorem once_check {c : Prop} {inst : Decidable c} {msg : String} {f : (γ → Res β) → Unit → Res β}
    (h : c → Once P fun r => f r ()) : Once P fun r => check c msg >>= f r :=
  once_bind fun _ hv => h (ok_check_only hv)

theorem once_call {a : γ} (h : P a) (post : β → Res β) : Once P fun r => r a >>= post :=
  Or.inr ⟨a, h, post, fun _ => rfl⟩

end once

/-- Number of nested calls on a signal of `N` samples with unroll factor `u`. -/
def levels (u N : Nat) : Nat := max 1 (Nat.clog u N)

/-- A recursion that ends at once on signals of at most `u` samples and otherwise calls itself at most once, on a signal of
`⌈N / u⌉` samples. -/
structure Blocked {γ β : Type} (u : Nat) (size : γ → Nat) (aux : Nat → γ → Res β) : Prop where
  none : ∀ a, ∃ e, aux 0 a = .error e
  step : ∀ a, (Nat.clog u (size a) ≤ 1 ∧ ∃ r, ∀ k, aux (k + 1) a = r) ∨
    (1 < u ∧ u < size a ∧ ∃ body, Once (fun a' => size a' = (size a + u - 1) / u) body ∧ ∀ k, aux (k + 1) a = body (aux k))

theorem Blocked.enough {γ β : Type} {u : Nat} {size : γ → Nat} {aux : Nat → γ → Res β} (h : Blocked u size aux) (k k' : Nat) (a : γ)
    (hk : levels u (size a) ≤ k) (hk' : levels u (size a) ≤ k') : aux k a = aux k' a := by
  induction k generalizing k' a with
  | zero => exact absurd hk (by unfold levels; omega)
  | succ k ih =>
    obtain ⟨m, rfl⟩ : ∃ m, k' = m + 1 := ⟨k' - 1, by unfold levels at hk'; omega⟩
    rcases h.step a with ⟨_, r, hr⟩ | ⟨hu, hN, body, hb, e⟩
    · rw [hr, hr]
    · rw [e, e]
      rcases hb with ⟨er, hb⟩ | ⟨a', ha, post, hb⟩
      · rw [hb, hb]
      · have hc := Nat.clog_of_two_le hu (n := size a) (by omega)
        have hl : levels u (size a) = levels u (size a') + 1 := by
          unfold levels
          rw [ha]
          have : 1 ≤ Nat.clog u ((size a + u - 1) / u) := by
            refine Nat.clog_pos hu ?_
            show 2 ≤ _
            rw [Nat.le_div_iff_mul_le (by omega)]
            omega
          omega
        rw [hb, hb, ih m a' (by omega) (by omega)]

theorem Blocked.needed {γ β : Type} {u : Nat} {size : γ → Nat} {aux : Nat → γ → Res β} (h : Blocked u size aux) (k : Nat) (a : γ) (y : β)
    (hy : aux k a = .ok y) : levels u (size a) ≤ k := by
  induction k generalizing a y with
  | zero =>
    obtain ⟨e, he⟩ := h.none a
    rw [he] at hy; cases hy
  | succ k ih =>
    rcases h.step a with ⟨hc, _⟩ | ⟨hu, hN, body, hb, e⟩
    · unfold levels; omega
    · rw [e] at hy
      rcases hb with ⟨er, hb⟩ | ⟨a', ha, post, hb⟩
      · rw [hb] at hy; cases hy
      · rw [hb] at hy
        obtain ⟨v, hv, _⟩ := ok_bind_inv hy
        have h1 := ih a' v hv
        have hc := Nat.clog_of_two_le hu (n := size a) (by omega)
        unfold levels at h1 ⊢
        rw [ha] at h1
        omega

/-- **Exact depth**: with room for `k` nested calls a call returns exactly if it returns at all and `k` is at least the number of levels. -/
theorem Blocked.exact {γ β : Type} {u : Nat} {size : γ → Nat} {aux : Nat → γ → Res β} (h : Blocked u size aux) (k K : Nat) (a : γ) (y : β)
    (hK : levels u (size a) ≤ K) : aux k a = .ok y ↔ levels u (size a) ≤ k ∧ aux K a = .ok y :=
  ⟨fun hy => ⟨h.needed k a y hy, h.enough k K a (h.needed k a y hy) hK ▸ hy⟩, fun ⟨hk, hy⟩ => h.enough K k a hK hk ▸ hy⟩

theorem levels_le (u N : Nat) : levels u N ≤ N + 1 := by
  unfold levels
  have : Nat.clog u N ≤ N := by
    rcases Nat.lt_or_ge 1 u with hu | hu
    · exact Nat.clog_le_of_le_pow (Nat.lt_pow_self hu).le
    · rw [Nat.clog_of_left_le_one hu]; exact Nat.zero_le _
  omega

/-- Padding to a multiple of `u` and cutting into blocks of `u`. -/
theorem ceil_pad {N u : Nat} (hu : 1 < u) (hr : N % u ≠ 0) : (N + (u - N % u)) / u = (N + u - 1) / u := by
  have hm := Nat.mod_lt N (y := u) (by omega)
  have := Nat.div_add_mod N u
  obtain ⟨q, r, hq⟩ : ∃ q r, N = u * q + r ∧ r = N % u := ⟨N / u, N % u, by omega, rfl⟩
  obtain ⟨hq, h2⟩ := hq
  rw [← h2] at hm hr ⊢
  rw [hq, show u * q + r + (u - r) = u * (q + 1) by rw [Nat.mul_add]; omega, Nat.mul_div_cancel_left _ (by omega),
    show u * q + r + u - 1 = (r - 1) + u * (q + 1) by rw [Nat.mul_add]; omega, Nat.add_mul_div_left _ _ (by omega),
    Nat.div_eq_of_lt (by omega)]
  omega

theorem ceil_exact {N u : Nat} (hu : 1 < u) (hr : N % u = 0) : N / u = (N + u - 1) / u := by
  obtain ⟨q, rfl⟩ := Nat.dvd_of_mod_eq_zero hr
  rw [Nat.mul_div_cancel_left _ (by omega), show u * q + u - 1 = (u - 1) + u * q by omega, Nat.add_mul_div_left _ _ (by omega),
    Nat.div_eq_of_lt (by omega)]
  omega

namespace Tensor
variable {α : Type} [Zero α]

theorem resolve_two {n u : Nat} {ss : List Nat} (h : resolve n [none, some u] = .ok ss) : ss = [n / u, u] ∧ n % u = 0 := by
  unfold resolve at h
  simp only [List.count_cons, List.count_nil, List.map_cons, List.map_nil, Option.getD_none, Option.getD_some, List.prod_cons,
    List.prod_nil] at h
  norm_num at h
  split_ifs at h with hc
  cases h
  exact ⟨rfl, hc.2⟩

/-- Axis 1 after padding to a multiple of `u` and splitting: shape `(.., ⌈N / u⌉, u, ..)`. -/
theorem split_shape {x xp ux : Tensor α} {B N u : Nat} {s : List Nat} {v : α} (hx : x.shape = B :: N :: s) (hu : 1 < u)
    (hp : (if N % u ≠ 0 then padDim x 1 0 ((u - N % u : Nat) : Int) v else pure x) = .ok xp)
    (hs : unflatten xp 1 [none, some u] = .ok ux) : ux.shape = B :: (N + u - 1) / u :: u :: s := by
  have hw : ∀ n, wrapDim (n + 2) 1 = .ok 1 := fun n => by
    unfold wrapDim
    rw [if_pos ⟨by omega, by push_cast; omega⟩]; rfl
  have hxp : ∃ n, xp.shape = B :: n :: s ∧ (n % u = 0 → n / u = (N + u - 1) / u) := by
    by_cases hr : N % u = 0
    · rw [if_neg (not_not.2 hr)] at hp
      cases hp
      exact ⟨N, hx, fun _ => ceil_exact hu hr⟩
    · rw [if_pos hr] at hp
      obtain ⟨p, hp1, hp⟩ := ok_bind_inv hp
      have hr1 : x.rank = s.length + 2 := by rw [rank, hx]; rfl
      rw [hr1, hw] at hp1
      cases hp1
      obtain ⟨_, hp⟩ := ok_check hp
      cases hp
      refine ⟨N + (u - N % u), ?_, fun _ => ceil_pad hu hr⟩
      simp only [ofFn, hx, List.getD_cons_succ, List.getD_cons_zero, List.set_cons_succ, List.set_cons_zero]
      congr 2
  obtain ⟨n, hxp, hn⟩ := hxp
  obtain ⟨p, hp1, hs⟩ := ok_bind_inv hs
  have hr1 : xp.rank = s.length + 2 := by rw [rank, hxp]; rfl
  rw [hr1, hw] at hp1
  cases hp1
  obtain ⟨ss, hss, hs⟩ := ok_bind_inv hs
  rw [hxp] at hss
  obtain ⟨rfl, h0⟩ := resolve_two hss
  cases hs
  simp only [ofFn, hxp]
  simp [hn h0]

theorem bdim_big {n m d : Nat} (hn : 2 ≤ n) (h : bdim n m = some d) : d = n := by
  unfold bdim at h
  split_ifs at h with h1 h2 h3
  · cases h; exact h1.symm
  · omega
  · cases h; rfl

theorem bshapeR_cons {x y : Nat} {xs ys s : List Nat} (h : bshapeR (x :: xs) (y :: ys) = some s) :
    ∃ d r, s = d :: r ∧ bdim x y = some d ∧ bshapeR xs ys = some r := by
  rw [bshapeR] at h
  cases hd : bdim x y with
  | none => rw [hd] at h; cases h
  | some d =>
    cases hr : bshapeR xs ys with
    | none => rw [hd, hr] at h; cases h
    | some r => rw [hd, hr] at h; cases h; exact ⟨d, r, rfl, rfl, rfl⟩

theorem bshape_one {b : Nat} {ys s : List Nat} (h : bshape [b] ys = some s) (hl : ys.length ≤ 1) : ∃ d, s = [d] := by
  match ys, hl with
  | [], _ => cases h; exact ⟨_, rfl⟩
  | [c], _ =>
    obtain ⟨r, hr, rfl⟩ := Option.map_eq_some_iff.1 h
    obtain ⟨d, r', rfl, _, h2⟩ := bshapeR_cons (xs := []) (ys := []) hr
    cases h2
    exact ⟨d, rfl⟩

theorem bshape_last {b n : Nat} {ys s : List Nat} (h : bshape [b, n] ys = some s) (hl : ys.length ≤ 2) (hn : 2 ≤ n) :
    ∃ d, s = [d, n] := by
  match ys, hl with
  | [], _ => cases h; exact ⟨_, rfl⟩
  | [m], _ =>
    obtain ⟨r, hr, rfl⟩ := Option.map_eq_some_iff.1 h
    obtain ⟨d, r', rfl, h1, h2⟩ := bshapeR_cons (xs := [b]) (ys := []) hr
    cases h2
    rw [bdim_big hn h1]
    exact ⟨b, rfl⟩
  | [c, m], _ =>
    obtain ⟨r, hr, rfl⟩ := Option.map_eq_some_iff.1 h
    obtain ⟨d, r', rfl, h1, h2⟩ := bshapeR_cons (xs := [b]) (ys := [c]) hr
    obtain ⟨d', r', rfl, _, h3⟩ := bshapeR_cons (xs := []) (ys := []) h2
    cases h3
    rw [bdim_big hn h1]
    exact ⟨d', rfl⟩

theorem bshape_middle {b n u : Nat} {ys s : List Nat} (h : bshape [b, n, u] ys = some s) (hl : ys.length ≤ 3) (hn : 2 ≤ n) :
    ∃ d e, s = [d, n, e] := by
  match ys, hl with
  | [], _ => cases h; exact ⟨_, _, rfl⟩
  | [m], _ =>
    obtain ⟨r, hr, rfl⟩ := Option.map_eq_some_iff.1 h
    obtain ⟨d, r', rfl, h1, h2⟩ := bshapeR_cons (xs := [n, b]) (ys := []) hr
    cases h2
    exact ⟨b, d, rfl⟩
  | [m, v], _ =>
    obtain ⟨r, hr, rfl⟩ := Option.map_eq_some_iff.1 h
    obtain ⟨e, r', rfl, _, h2⟩ := bshapeR_cons (xs := [n, b]) (ys := [m]) hr
    obtain ⟨d', r', rfl, h1, h3⟩ := bshapeR_cons (xs := [b]) (ys := []) h2
    cases h3
    rw [bdim_big hn h1]
    exact ⟨b, e, rfl⟩
  | [c, m, v], _ =>
    obtain ⟨r, hr, rfl⟩ := Option.map_eq_some_iff.1 h
    obtain ⟨e, r', rfl, _, h2⟩ := bshapeR_cons (xs := [n, b]) (ys := [m, c]) hr
    obtain ⟨d', r', rfl, h1, h3⟩ := bshapeR_cons (xs := [b]) (ys := [c]) h2
    obtain ⟨d, r', rfl, _, h4⟩ := bshapeR_cons (xs := []) (ys := []) h3
    cases h4
    rw [bdim_big hn h1]
    exact ⟨d, e, rfl⟩

theorem wrapDim_ok {r : Nat} {d : Int} {p : Nat} (h : wrapDim r d = .ok p) : (p : Int) = if d < 0 then d + r else d := by
  unfold wrapDim at h
  split_ifs at h with h1 h2
  · cases h; rw [if_neg (by omega)]; omega
  · cases h; rw [if_pos h2.1]; omega

theorem wrapDim_lt {r : Nat} {d : Int} {p : Nat} (h : wrapDim r d = .ok p) : p < r := by
  unfold wrapDim at h
  split_ifs at h with h1 h2 <;> (cases h; omega)

section ranks
theorem unsqueeze_rank {x y : Tensor α} {d : Int} (h : unsqueeze x d = .ok y) : y.rank = x.rank + 1 := by
  obtain ⟨p, hp, h⟩ := ok_bind_inv h
  cases h
  have := wrapDim_lt hp
  rw [rank, ofFn, List.length_insertIdx, if_pos (by rw [rank] at this; omega)]; rfl

theorem select_rank {x y : Tensor α} {d i : Int} (h : select x d i = .ok y) : y.rank + 1 = x.rank := by
  obtain ⟨p, hp, h⟩ := ok_bind_inv h
  have := wrapDim_lt hp
  have e : (x.shape.eraseIdx p).length + 1 = x.rank := by
    rw [rank] at this ⊢
    rw [List.length_eraseIdx, if_pos this]
    omega
  dsimp only at h
  split_ifs at h <;> (cases h; exact e)

theorem slice_rank {x y : Tensor α} {d : Int} {s t : Option Int} (h : slice x d s t = .ok y) : y.rank = x.rank := by
  obtain ⟨p, hp, h⟩ := ok_bind_inv h
  cases h
  simp [rank, ofFn]

theorem flip_rank {x y : Tensor α} {d : Int} (h : flip x d = .ok y) : y.rank = x.rank := by
  obtain ⟨p, hp, h⟩ := ok_bind_inv h
  cases h
  simp [rank, ofFn]

theorem transpose_rank {x y : Tensor α} {d e : Int} (h : transpose x d e = .ok y) : y.rank = x.rank := by
  obtain ⟨p, hp, h⟩ := ok_bind_inv h
  obtain ⟨q, hq, h⟩ := ok_bind_inv h
  cases h
  simp [rank, ofFn]

theorem cat2_rank {x y z : Tensor α} {d : Int} (h : cat2 x y d = .ok z) : z.rank = x.rank ∧ x.rank = y.rank := by
  obtain ⟨p, hp, h⟩ := ok_bind_inv h
  obtain ⟨hc, h⟩ := ok_check h
  cases h
  exact ⟨by simp [rank, ofFn], hc.1⟩

theorem padDim_rank {x y : Tensor α} {d l r : Int} {v : α} (h : padDim x d l r v = .ok y) : y.rank = x.rank := by
  obtain ⟨p, hp, h⟩ := ok_bind_inv h
  obtain ⟨_, h⟩ := ok_check h
  cases h
  simp [rank, ofFn]

theorem expand_rank {x y : Tensor α} {s : List (Option Nat)} (h : expand x s = .ok y) : y.rank = s.length := by
  obtain ⟨hc, h⟩ := ok_check h
  obtain ⟨_, h⟩ := ok_check h
  obtain ⟨_, h⟩ := ok_check h
  cases h
  simp only [rank, ofFn, List.length_append, List.length_map, List.length_take, List.length_zipWith, List.length_drop] at hc ⊢
  omega

/-- Flattening two neighbouring axes. -/
theorem flatten_pair_rank {x y : Tensor α} {d : Int} (h : flatten x d (d + 1) = .ok y) (hd : d ≠ -1) : y.rank + 1 = x.rank := by
  obtain ⟨p, hp, h⟩ := ok_bind_inv h
  obtain ⟨q, hq, h⟩ := ok_bind_inv h
  obtain ⟨hpq, h⟩ := ok_check h
  cases h
  have h1 := wrapDim_ok hp
  have h2 := wrapDim_ok hq
  have h3 := wrapDim_lt hq
  have h4 : q = p + 1 := by
    split_ifs at h1 h2 <;> omega
  subst h4
  simp only [rank, ofFn, List.length_append, List.length_cons, List.length_take, List.length_drop] at h3 ⊢
  omega

end ranks

end Tensor
end Torch
