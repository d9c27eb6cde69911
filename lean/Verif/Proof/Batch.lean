import Verif.Spec.Batch
import Verif.Spec.Filter
import Verif.Torch.Lemmas

/-! # Equality of batch items of tensors given by a formula -/

namespace Spec
open Torch Torch.Tensor
variable {α : Type} [CommRing α]

theorem get_t2_of_inB {B N i : Nat} {Y : Nat → Nat → α} (hi : i < B) (l : List Nat) :
    (t2 B N Y).get (i :: l) = (t1 N (Y i)).get l := by
  simp [t2, t1, get_ofFn, inB, hi]

theorem get_t3_of_inB {B N P i : Nat} {Y : Nat → Nat → Nat → α} (hi : i < B) (l : List Nat) :
    (t3 B N P Y).get (i :: l) = (t2 N P (Y i)).get l := by
  simp [t3, t2, get_ofFn, inB, hi]

theorem sameItem_packed {fl fl' : Bool} {B B' N i i' : Nat} {Y Y' : Nat → Nat → α} (hi : i < B) (hi' : i' < B')
    (hf : fl = true → i = 0) (hf' : fl' = true → i' = 0) (h : ∀ n, n < N → Y i n = Y' i' n) :
    SameItem 1 i i' (packed fl B N Y) (packed fl' B' N Y') := by
  have key : ∀ (fl : Bool) (B i : Nat) (Y : Nat → Nat → α), i < B → (fl = true → i = 0) →
      itemShape 1 (packed fl B N Y) = [N] ∧ ∀ l, itemGet 1 i (packed fl B N Y) l = (t1 N (Y i)).get l := by
    intro fl B i Y hi hf
    cases fl with
    | true => rw [hf rfl]; exact ⟨rfl, fun _ => rfl⟩
    | false => exact ⟨rfl, fun l => get_t2_of_inB hi l⟩
  obtain ⟨s, g⟩ := key fl B i Y hi hf
  obtain ⟨s', g'⟩ := key fl' B' i' Y' hi' hf'
  exact ⟨s.trans s'.symm, fun l => by rw [g, g', t1_congr rfl fun n hn => h n hn]⟩

theorem sameItem_t2 {B B' N i i' : Nat} {Y Y' : Nat → Nat → α} (hi : i < B) (hi' : i' < B')
    (h : ∀ n, n < N → Y i n = Y' i' n) : SameItem 1 i i' (t2 B N Y) (t2 B' N Y') :=
  sameItem_packed (fl := false) (fl' := false) hi hi' (by simp) (by simp) h

theorem sameItem_t3 {B B' N P i i' : Nat} {Y Y' : Nat → Nat → Nat → α} (hi : i < B) (hi' : i' < B')
    (h : ∀ n p, n < N → p < P → Y i n p = Y' i' n p) : SameItem 2 i i' (t3 B N P Y) (t3 B' N P Y') :=
  ⟨rfl, fun l => by
    show (t3 B N P Y).get (i :: l) = (t3 B' N P Y').get (i' :: l)
    rw [get_t3_of_inB hi, get_t3_of_inB hi', t2_congr rfl rfl fun n p hn hp => h n p hn hp]⟩

theorem sameItem_signal {k : Option Nat} {B B' N i i' : Nat} {Y Y' : Nat → Nat → Nat → α} (hi : i < B) (hi' : i' < B')
    (h : ∀ n p, n < N → (∀ P, k = some P → p < P) → Y i n p = Y' i' n p) :
    SameItem (itemRank k) i i' (signal k B N Y) (signal k B' N Y') := by
  cases k with
  | none => exact sameItem_t2 hi hi' fun n hn => h n 0 hn (by simp)
  | some P => exact sameItem_t3 hi hi' fun n p hn hp => h n p hn (by rintro _ ⟨⟩; exact hp)

theorem sameItemResult_signal {k : Option Nat} {B B' N M i i' : Nat} {Y Y' : Nat → Nat → Nat → α} {F F' : Nat → Nat → α}
    {c c' : Bool} {p p' : Res (Tensor α × Option (Tensor α))}
    (e : p = .ok (signal k B N Y, if c then some (t2 B M F) else none))
    (e' : p' = .ok (signal k B' N Y', if c' then some (t2 B' M F') else none)) (hi : i < B) (hi' : i' < B')
    (h : ∀ n p, n < N → (∀ P, k = some P → p < P) → Y i n p = Y' i' n p) (hF : ∀ m, m < M → F i m = F' i' m) :
    SameItemResult (itemRank k) i i' p p' := by
  refine ⟨_, _, _, _, e, e', sameItem_signal hi hi' h, fun g g' hg hg' => ?_⟩
  cases c <;> cases c' <;> simp only [Bool.false_eq_true, if_false, if_true, reduceCtorEq, Option.some.injEq] at hg hg'
  subst hg hg'
  exact sameItem_t2 hi hi' hF

theorem sameItemResult_packed {B B' N M i i' : Nat} {Y Y' : Nat → Nat → α} {F F' : Nat → Nat → α} {fl fl' : Bool}
    {c c' : Bool} {p p' : Res (Tensor α × Option (Tensor α))}
    (e : p = .ok (packed fl B N Y, if c then some (packed fl B M F) else none))
    (e' : p' = .ok (packed fl' B' N Y', if c' then some (packed fl' B' M F') else none)) (hi : i < B) (hi' : i' < B')
    (hf : fl = true → i = 0) (hf' : fl' = true → i' = 0)
    (h : ∀ n, n < N → Y i n = Y' i' n) (hF : ∀ m, m < M → F i m = F' i' m) :
    SameItemResult 1 i i' p p' := by
  refine ⟨_, _, _, _, e, e', sameItem_packed hi hi' hf hf' h, fun g g' hg hg' => ?_⟩
  cases c <;> cases c' <;> simp only [Bool.false_eq_true, if_false, if_true, reduceCtorEq, Option.some.injEq] at hg hg'
  subst hg hg'
  exact sameItem_packed hi hi' hf hf' hF

theorem sameItemResult_none {B B' N i i' : Nat} {Y Y' : Nat → Nat → α} {p p' : Res (Tensor α × Option (Tensor α))}
    (e : p = .ok (t2 B N Y, none)) (e' : p' = .ok (t2 B' N Y', none)) (hi : i < B) (hi' : i' < B')
    (h : ∀ n, n < N → Y i n = Y' i' n) : SameItemResult 1 i i' p p' :=
  ⟨_, _, _, _, e, e', sameItem_t2 hi hi' h, fun _ _ h => by cases h⟩

theorem sameItemResult_some {B B' N M i i' : Nat} {Y Y' F F' : Nat → Nat → α} {p p' : Res (Tensor α × Option (Tensor α))}
    (e : p = .ok (t2 B N Y, some (t2 B M F))) (e' : p' = .ok (t2 B' N Y', some (t2 B' M F'))) (hi : i < B) (hi' : i' < B')
    (h : ∀ n, n < N → Y i n = Y' i' n) (hF : ∀ m, m < M → F i m = F' i' m) : SameItemResult 1 i i' p p' :=
  ⟨_, _, _, _, e, e', sameItem_t2 hi hi' h, fun _ _ h h' => by cases h; cases h'; exact sameItem_t2 hi hi' hF⟩

theorem flat_zero {N B i : Nat} {X b a : Tensor α} {zi : Option (Tensor α)} {x : Nat → Nat → α} (hx : Sig N B X x) (hi : i < B)
    (h : allFlat X b a zi = true) : i = 0 := by
  cases hx with
  | flat x => omega
  | batched B x => simp [allFlat] at h

theorem flatTv_zero {N B i : Nat} {X b a : Tensor α} {zi : Option (Tensor α)} {x : Nat → Nat → α} (hx : Sig N B X x) (hi : i < B)
    (h : allFlatTv X b a zi = true) : i = 0 := by
  cases hx with
  | flat x => omega
  | batched B x => simp [allFlatTv] at h

end Spec
