import Verif.Torch.Tac

/-!
# Evaluation lemmas (generated by tools/gen_eval.py)

For each tensor operation, rank and axis used in the model: the operation applied to a canonical tensor
`tR dims f` is again a canonical tensor, with an explicit element function.
-/

namespace Torch
namespace Tensor
variable {α : Type} [Zero α]
set_option linter.unusedVariables false
set_option linter.unusedSimpArgs false

@[tens] theorem unsqueeze_t0_0 (f : α) :
    unsqueeze (t0 f) 0 =
      .ok (t1 1 fun _ => f) := by
  tev1

@[tens] theorem unsqueeze_t0_n1 (f : α) :
    unsqueeze (t0 f) (-1) =
      .ok (t1 1 fun _ => f) := by
  tev1

@[tens] theorem unsqueeze_t1_0 (n : Nat) (f : Nat → α) :
    unsqueeze (t1 n f) 0 =
      .ok (t2 1 n fun _ j => f j) := by
  tev2

@[tens] theorem unsqueeze_t1_n2 (n : Nat) (f : Nat → α) :
    unsqueeze (t1 n f) (-2) =
      .ok (t2 1 n fun _ j => f j) := by
  tev2

@[tens] theorem unsqueeze_t1_1 (n : Nat) (f : Nat → α) :
    unsqueeze (t1 n f) 1 =
      .ok (t2 n 1 fun i _ => f i) := by
  tev2

@[tens] theorem unsqueeze_t1_n1 (n : Nat) (f : Nat → α) :
    unsqueeze (t1 n f) (-1) =
      .ok (t2 n 1 fun i _ => f i) := by
  tev2

@[tens] theorem unsqueeze_t2_0 (n m : Nat) (f : Nat → Nat → α) :
    unsqueeze (t2 n m f) 0 =
      .ok (t3 1 n m fun _ j k => f j k) := by
  tev3

@[tens] theorem unsqueeze_t2_n3 (n m : Nat) (f : Nat → Nat → α) :
    unsqueeze (t2 n m f) (-3) =
      .ok (t3 1 n m fun _ j k => f j k) := by
  tev3

@[tens] theorem unsqueeze_t2_1 (n m : Nat) (f : Nat → Nat → α) :
    unsqueeze (t2 n m f) 1 =
      .ok (t3 n 1 m fun i _ k => f i k) := by
  tev3

@[tens] theorem unsqueeze_t2_n2 (n m : Nat) (f : Nat → Nat → α) :
    unsqueeze (t2 n m f) (-2) =
      .ok (t3 n 1 m fun i _ k => f i k) := by
  tev3

@[tens] theorem unsqueeze_t2_2 (n m : Nat) (f : Nat → Nat → α) :
    unsqueeze (t2 n m f) 2 =
      .ok (t3 n m 1 fun i j _ => f i j) := by
  tev3

@[tens] theorem unsqueeze_t2_n1 (n m : Nat) (f : Nat → Nat → α) :
    unsqueeze (t2 n m f) (-1) =
      .ok (t3 n m 1 fun i j _ => f i j) := by
  tev3

@[tens] theorem unsqueeze_t3_0 (n m p : Nat) (f : Nat → Nat → Nat → α) :
    unsqueeze (t3 n m p f) 0 =
      .ok (t4 1 n m p fun _ j k o => f j k o) := by
  tev4

@[tens] theorem unsqueeze_t3_n4 (n m p : Nat) (f : Nat → Nat → Nat → α) :
    unsqueeze (t3 n m p f) (-4) =
      .ok (t4 1 n m p fun _ j k o => f j k o) := by
  tev4

@[tens] theorem unsqueeze_t3_1 (n m p : Nat) (f : Nat → Nat → Nat → α) :
    unsqueeze (t3 n m p f) 1 =
      .ok (t4 n 1 m p fun i _ k o => f i k o) := by
  tev4

@[tens] theorem unsqueeze_t3_n3 (n m p : Nat) (f : Nat → Nat → Nat → α) :
    unsqueeze (t3 n m p f) (-3) =
      .ok (t4 n 1 m p fun i _ k o => f i k o) := by
  tev4

@[tens] theorem unsqueeze_t3_2 (n m p : Nat) (f : Nat → Nat → Nat → α) :
    unsqueeze (t3 n m p f) 2 =
      .ok (t4 n m 1 p fun i j _ o => f i j o) := by
  tev4

@[tens] theorem unsqueeze_t3_n2 (n m p : Nat) (f : Nat → Nat → Nat → α) :
    unsqueeze (t3 n m p f) (-2) =
      .ok (t4 n m 1 p fun i j _ o => f i j o) := by
  tev4

@[tens] theorem unsqueeze_t3_3 (n m p : Nat) (f : Nat → Nat → Nat → α) :
    unsqueeze (t3 n m p f) 3 =
      .ok (t4 n m p 1 fun i j k _ => f i j k) := by
  tev4

@[tens] theorem unsqueeze_t3_n1 (n m p : Nat) (f : Nat → Nat → Nat → α) :
    unsqueeze (t3 n m p f) (-1) =
      .ok (t4 n m p 1 fun i j k _ => f i j k) := by
  tev4

@[tens] theorem unsqueeze_t4_0 (n m p q : Nat) (f : Nat → Nat → Nat → Nat → α) :
    unsqueeze (t4 n m p q f) 0 =
      .ok (t5 1 n m p q fun _ j k o u => f j k o u) := by
  tev5

@[tens] theorem unsqueeze_t4_n5 (n m p q : Nat) (f : Nat → Nat → Nat → Nat → α) :
    unsqueeze (t4 n m p q f) (-5) =
      .ok (t5 1 n m p q fun _ j k o u => f j k o u) := by
  tev5

@[tens] theorem unsqueeze_t4_1 (n m p q : Nat) (f : Nat → Nat → Nat → Nat → α) :
    unsqueeze (t4 n m p q f) 1 =
      .ok (t5 n 1 m p q fun i _ k o u => f i k o u) := by
  tev5

@[tens] theorem unsqueeze_t4_n4 (n m p q : Nat) (f : Nat → Nat → Nat → Nat → α) :
    unsqueeze (t4 n m p q f) (-4) =
      .ok (t5 n 1 m p q fun i _ k o u => f i k o u) := by
  tev5

@[tens] theorem unsqueeze_t4_2 (n m p q : Nat) (f : Nat → Nat → Nat → Nat → α) :
    unsqueeze (t4 n m p q f) 2 =
      .ok (t5 n m 1 p q fun i j _ o u => f i j o u) := by
  tev5

@[tens] theorem unsqueeze_t4_n3 (n m p q : Nat) (f : Nat → Nat → Nat → Nat → α) :
    unsqueeze (t4 n m p q f) (-3) =
      .ok (t5 n m 1 p q fun i j _ o u => f i j o u) := by
  tev5

@[tens] theorem unsqueeze_t4_3 (n m p q : Nat) (f : Nat → Nat → Nat → Nat → α) :
    unsqueeze (t4 n m p q f) 3 =
      .ok (t5 n m p 1 q fun i j k _ u => f i j k u) := by
  tev5

@[tens] theorem unsqueeze_t4_n2 (n m p q : Nat) (f : Nat → Nat → Nat → Nat → α) :
    unsqueeze (t4 n m p q f) (-2) =
      .ok (t5 n m p 1 q fun i j k _ u => f i j k u) := by
  tev5

@[tens] theorem unsqueeze_t4_4 (n m p q : Nat) (f : Nat → Nat → Nat → Nat → α) :
    unsqueeze (t4 n m p q f) 4 =
      .ok (t5 n m p q 1 fun i j k o _ => f i j k o) := by
  tev5

@[tens] theorem unsqueeze_t4_n1 (n m p q : Nat) (f : Nat → Nat → Nat → Nat → α) :
    unsqueeze (t4 n m p q f) (-1) =
      .ok (t5 n m p q 1 fun i j k o _ => f i j k o) := by
  tev5

@[tens] theorem squeeze_t1_0 (f : Nat → α) :
    squeeze (t1 1 f) 0 =
      .ok (t0 (f 0)) := by
  tev0

@[tens] theorem squeeze_t1_n1 (f : Nat → α) :
    squeeze (t1 1 f) (-1) =
      .ok (t0 (f 0)) := by
  tev0

@[tens] theorem squeeze_t2_0 (n : Nat) (f : Nat → Nat → α) :
    squeeze (t2 1 n f) 0 =
      .ok (t1 n fun i => f 0 i) := by
  tev1

@[tens] theorem squeeze_t2_n2 (n : Nat) (f : Nat → Nat → α) :
    squeeze (t2 1 n f) (-2) =
      .ok (t1 n fun i => f 0 i) := by
  tev1

@[tens] theorem squeeze_t2_1 (n : Nat) (f : Nat → Nat → α) :
    squeeze (t2 n 1 f) 1 =
      .ok (t1 n fun i => f i 0) := by
  tev1

@[tens] theorem squeeze_t2_n1 (n : Nat) (f : Nat → Nat → α) :
    squeeze (t2 n 1 f) (-1) =
      .ok (t1 n fun i => f i 0) := by
  tev1

@[tens] theorem squeeze_t3_0 (n m : Nat) (f : Nat → Nat → Nat → α) :
    squeeze (t3 1 n m f) 0 =
      .ok (t2 n m fun i j => f 0 i j) := by
  tev2

@[tens] theorem squeeze_t3_n3 (n m : Nat) (f : Nat → Nat → Nat → α) :
    squeeze (t3 1 n m f) (-3) =
      .ok (t2 n m fun i j => f 0 i j) := by
  tev2

@[tens] theorem squeeze_t3_1 (n m : Nat) (f : Nat → Nat → Nat → α) :
    squeeze (t3 n 1 m f) 1 =
      .ok (t2 n m fun i j => f i 0 j) := by
  tev2

@[tens] theorem squeeze_t3_n2 (n m : Nat) (f : Nat → Nat → Nat → α) :
    squeeze (t3 n 1 m f) (-2) =
      .ok (t2 n m fun i j => f i 0 j) := by
  tev2

@[tens] theorem squeeze_t3_2 (n m : Nat) (f : Nat → Nat → Nat → α) :
    squeeze (t3 n m 1 f) 2 =
      .ok (t2 n m fun i j => f i j 0) := by
  tev2

@[tens] theorem squeeze_t3_n1 (n m : Nat) (f : Nat → Nat → Nat → α) :
    squeeze (t3 n m 1 f) (-1) =
      .ok (t2 n m fun i j => f i j 0) := by
  tev2

@[tens] theorem squeeze_t4_0 (n m p : Nat) (f : Nat → Nat → Nat → Nat → α) :
    squeeze (t4 1 n m p f) 0 =
      .ok (t3 n m p fun i j k => f 0 i j k) := by
  tev3

@[tens] theorem squeeze_t4_n4 (n m p : Nat) (f : Nat → Nat → Nat → Nat → α) :
    squeeze (t4 1 n m p f) (-4) =
      .ok (t3 n m p fun i j k => f 0 i j k) := by
  tev3

@[tens] theorem squeeze_t4_1 (n m p : Nat) (f : Nat → Nat → Nat → Nat → α) :
    squeeze (t4 n 1 m p f) 1 =
      .ok (t3 n m p fun i j k => f i 0 j k) := by
  tev3

@[tens] theorem squeeze_t4_n3 (n m p : Nat) (f : Nat → Nat → Nat → Nat → α) :
    squeeze (t4 n 1 m p f) (-3) =
      .ok (t3 n m p fun i j k => f i 0 j k) := by
  tev3

@[tens] theorem squeeze_t4_2 (n m p : Nat) (f : Nat → Nat → Nat → Nat → α) :
    squeeze (t4 n m 1 p f) 2 =
      .ok (t3 n m p fun i j k => f i j 0 k) := by
  tev3

@[tens] theorem squeeze_t4_n2 (n m p : Nat) (f : Nat → Nat → Nat → Nat → α) :
    squeeze (t4 n m 1 p f) (-2) =
      .ok (t3 n m p fun i j k => f i j 0 k) := by
  tev3

@[tens] theorem squeeze_t4_3 (n m p : Nat) (f : Nat → Nat → Nat → Nat → α) :
    squeeze (t4 n m p 1 f) 3 =
      .ok (t3 n m p fun i j k => f i j k 0) := by
  tev3

@[tens] theorem squeeze_t4_n1 (n m p : Nat) (f : Nat → Nat → Nat → Nat → α) :
    squeeze (t4 n m p 1 f) (-1) =
      .ok (t3 n m p fun i j k => f i j k 0) := by
  tev3

@[tens] theorem flip_t1_0 (n : Nat) (f : Nat → α) :
    flip (t1 n f) 0 =
      .ok (t1 n fun i => f (n - 1 - i)) := by
  tev1

@[tens] theorem flip_t1_n1 (n : Nat) (f : Nat → α) :
    flip (t1 n f) (-1) =
      .ok (t1 n fun i => f (n - 1 - i)) := by
  tev1

@[tens] theorem flip_t2_0 (n m : Nat) (f : Nat → Nat → α) :
    flip (t2 n m f) 0 =
      .ok (t2 n m fun i j => f (n - 1 - i) j) := by
  tev2

@[tens] theorem flip_t2_n2 (n m : Nat) (f : Nat → Nat → α) :
    flip (t2 n m f) (-2) =
      .ok (t2 n m fun i j => f (n - 1 - i) j) := by
  tev2

@[tens] theorem flip_t2_1 (n m : Nat) (f : Nat → Nat → α) :
    flip (t2 n m f) 1 =
      .ok (t2 n m fun i j => f i (m - 1 - j)) := by
  tev2

@[tens] theorem flip_t2_n1 (n m : Nat) (f : Nat → Nat → α) :
    flip (t2 n m f) (-1) =
      .ok (t2 n m fun i j => f i (m - 1 - j)) := by
  tev2

@[tens] theorem flip_t3_0 (n m p : Nat) (f : Nat → Nat → Nat → α) :
    flip (t3 n m p f) 0 =
      .ok (t3 n m p fun i j k => f (n - 1 - i) j k) := by
  tev3

@[tens] theorem flip_t3_n3 (n m p : Nat) (f : Nat → Nat → Nat → α) :
    flip (t3 n m p f) (-3) =
      .ok (t3 n m p fun i j k => f (n - 1 - i) j k) := by
  tev3

@[tens] theorem flip_t3_1 (n m p : Nat) (f : Nat → Nat → Nat → α) :
    flip (t3 n m p f) 1 =
      .ok (t3 n m p fun i j k => f i (m - 1 - j) k) := by
  tev3

@[tens] theorem flip_t3_n2 (n m p : Nat) (f : Nat → Nat → Nat → α) :
    flip (t3 n m p f) (-2) =
      .ok (t3 n m p fun i j k => f i (m - 1 - j) k) := by
  tev3

@[tens] theorem flip_t3_2 (n m p : Nat) (f : Nat → Nat → Nat → α) :
    flip (t3 n m p f) 2 =
      .ok (t3 n m p fun i j k => f i j (p - 1 - k)) := by
  tev3

@[tens] theorem flip_t3_n1 (n m p : Nat) (f : Nat → Nat → Nat → α) :
    flip (t3 n m p f) (-1) =
      .ok (t3 n m p fun i j k => f i j (p - 1 - k)) := by
  tev3

@[tens] theorem flip_t4_0 (n m p q : Nat) (f : Nat → Nat → Nat → Nat → α) :
    flip (t4 n m p q f) 0 =
      .ok (t4 n m p q fun i j k o => f (n - 1 - i) j k o) := by
  tev4

@[tens] theorem flip_t4_n4 (n m p q : Nat) (f : Nat → Nat → Nat → Nat → α) :
    flip (t4 n m p q f) (-4) =
      .ok (t4 n m p q fun i j k o => f (n - 1 - i) j k o) := by
  tev4

@[tens] theorem flip_t4_1 (n m p q : Nat) (f : Nat → Nat → Nat → Nat → α) :
    flip (t4 n m p q f) 1 =
      .ok (t4 n m p q fun i j k o => f i (m - 1 - j) k o) := by
  tev4

@[tens] theorem flip_t4_n3 (n m p q : Nat) (f : Nat → Nat → Nat → Nat → α) :
    flip (t4 n m p q f) (-3) =
      .ok (t4 n m p q fun i j k o => f i (m - 1 - j) k o) := by
  tev4

@[tens] theorem flip_t4_2 (n m p q : Nat) (f : Nat → Nat → Nat → Nat → α) :
    flip (t4 n m p q f) 2 =
      .ok (t4 n m p q fun i j k o => f i j (p - 1 - k) o) := by
  tev4

@[tens] theorem flip_t4_n2 (n m p q : Nat) (f : Nat → Nat → Nat → Nat → α) :
    flip (t4 n m p q f) (-2) =
      .ok (t4 n m p q fun i j k o => f i j (p - 1 - k) o) := by
  tev4

@[tens] theorem flip_t4_3 (n m p q : Nat) (f : Nat → Nat → Nat → Nat → α) :
    flip (t4 n m p q f) 3 =
      .ok (t4 n m p q fun i j k o => f i j k (q - 1 - o)) := by
  tev4

@[tens] theorem flip_t4_n1 (n m p q : Nat) (f : Nat → Nat → Nat → Nat → α) :
    flip (t4 n m p q f) (-1) =
      .ok (t4 n m p q fun i j k o => f i j k (q - 1 - o)) := by
  tev4

@[tens] theorem flip_t5_0 (n m p q r : Nat) (f : Nat → Nat → Nat → Nat → Nat → α) :
    flip (t5 n m p q r f) 0 =
      .ok (t5 n m p q r fun i j k o u => f (n - 1 - i) j k o u) := by
  tev5

@[tens] theorem flip_t5_n5 (n m p q r : Nat) (f : Nat → Nat → Nat → Nat → Nat → α) :
    flip (t5 n m p q r f) (-5) =
      .ok (t5 n m p q r fun i j k o u => f (n - 1 - i) j k o u) := by
  tev5

@[tens] theorem flip_t5_1 (n m p q r : Nat) (f : Nat → Nat → Nat → Nat → Nat → α) :
    flip (t5 n m p q r f) 1 =
      .ok (t5 n m p q r fun i j k o u => f i (m - 1 - j) k o u) := by
  tev5

@[tens] theorem flip_t5_n4 (n m p q r : Nat) (f : Nat → Nat → Nat → Nat → Nat → α) :
    flip (t5 n m p q r f) (-4) =
      .ok (t5 n m p q r fun i j k o u => f i (m - 1 - j) k o u) := by
  tev5

@[tens] theorem flip_t5_2 (n m p q r : Nat) (f : Nat → Nat → Nat → Nat → Nat → α) :
    flip (t5 n m p q r f) 2 =
      .ok (t5 n m p q r fun i j k o u => f i j (p - 1 - k) o u) := by
  tev5

@[tens] theorem flip_t5_n3 (n m p q r : Nat) (f : Nat → Nat → Nat → Nat → Nat → α) :
    flip (t5 n m p q r f) (-3) =
      .ok (t5 n m p q r fun i j k o u => f i j (p - 1 - k) o u) := by
  tev5

@[tens] theorem flip_t5_3 (n m p q r : Nat) (f : Nat → Nat → Nat → Nat → Nat → α) :
    flip (t5 n m p q r f) 3 =
      .ok (t5 n m p q r fun i j k o u => f i j k (q - 1 - o) u) := by
  tev5

@[tens] theorem flip_t5_n2 (n m p q r : Nat) (f : Nat → Nat → Nat → Nat → Nat → α) :
    flip (t5 n m p q r f) (-2) =
      .ok (t5 n m p q r fun i j k o u => f i j k (q - 1 - o) u) := by
  tev5

@[tens] theorem flip_t5_4 (n m p q r : Nat) (f : Nat → Nat → Nat → Nat → Nat → α) :
    flip (t5 n m p q r f) 4 =
      .ok (t5 n m p q r fun i j k o u => f i j k o (r - 1 - u)) := by
  tev5

@[tens] theorem flip_t5_n1 (n m p q r : Nat) (f : Nat → Nat → Nat → Nat → Nat → α) :
    flip (t5 n m p q r f) (-1) =
      .ok (t5 n m p q r fun i j k o u => f i j k o (r - 1 - u)) := by
  tev5

@[tens] theorem rollNeg1_t3_n3 (n m p : Nat) (f : Nat → Nat → Nat → α) :
    rollNeg1 (t3 n m p f) (-3) =
      .ok (t3 n m p fun i j k => f ((i + 1) % n) j k) := by
  tev_list
  refine congrArg Except.ok (ext3 rfl rfl ?_)
  intro i j k hi hj hk
  have := Nat.mod_lt (i + 1) (show n > 0 by omega)
  tev_core

@[tens] theorem rollNeg1_t4_n3 (n m p q : Nat) (f : Nat → Nat → Nat → Nat → α) :
    rollNeg1 (t4 n m p q f) (-3) =
      .ok (t4 n m p q fun i j k o => f i ((j + 1) % m) k o) := by
  tev_list
  refine congrArg Except.ok (ext4 rfl rfl ?_)
  intro i j k o hi hj hk ho
  have := Nat.mod_lt (j + 1) (show m > 0 by omega)
  tev_core

@[tens] theorem slice_t1_0 (n : Nat) (f : Nat → α) (s e : Option Int) :
    slice (t1 n f) 0 s e =
      .ok (t1 (pyStop n e - pyStart n s) fun i => f (i + pyStart n s)) := by
  have := pyStop_le n e
  tev1

@[tens] theorem slice_t1_n1 (n : Nat) (f : Nat → α) (s e : Option Int) :
    slice (t1 n f) (-1) s e =
      .ok (t1 (pyStop n e - pyStart n s) fun i => f (i + pyStart n s)) := by
  have := pyStop_le n e
  tev1

@[tens] theorem slice_t2_0 (n m : Nat) (f : Nat → Nat → α) (s e : Option Int) :
    slice (t2 n m f) 0 s e =
      .ok (t2 (pyStop n e - pyStart n s) m fun i j => f (i + pyStart n s) j) := by
  have := pyStop_le n e
  tev2

@[tens] theorem slice_t2_n2 (n m : Nat) (f : Nat → Nat → α) (s e : Option Int) :
    slice (t2 n m f) (-2) s e =
      .ok (t2 (pyStop n e - pyStart n s) m fun i j => f (i + pyStart n s) j) := by
  have := pyStop_le n e
  tev2

@[tens] theorem slice_t2_1 (n m : Nat) (f : Nat → Nat → α) (s e : Option Int) :
    slice (t2 n m f) 1 s e =
      .ok (t2 n (pyStop m e - pyStart m s) fun i j => f i (j + pyStart m s)) := by
  have := pyStop_le m e
  tev2

@[tens] theorem slice_t2_n1 (n m : Nat) (f : Nat → Nat → α) (s e : Option Int) :
    slice (t2 n m f) (-1) s e =
      .ok (t2 n (pyStop m e - pyStart m s) fun i j => f i (j + pyStart m s)) := by
  have := pyStop_le m e
  tev2

@[tens] theorem slice_t3_0 (n m p : Nat) (f : Nat → Nat → Nat → α) (s e : Option Int) :
    slice (t3 n m p f) 0 s e =
      .ok (t3 (pyStop n e - pyStart n s) m p fun i j k => f (i + pyStart n s) j k) := by
  have := pyStop_le n e
  tev3

@[tens] theorem slice_t3_n3 (n m p : Nat) (f : Nat → Nat → Nat → α) (s e : Option Int) :
    slice (t3 n m p f) (-3) s e =
      .ok (t3 (pyStop n e - pyStart n s) m p fun i j k => f (i + pyStart n s) j k) := by
  have := pyStop_le n e
  tev3

@[tens] theorem slice_t3_1 (n m p : Nat) (f : Nat → Nat → Nat → α) (s e : Option Int) :
    slice (t3 n m p f) 1 s e =
      .ok (t3 n (pyStop m e - pyStart m s) p fun i j k => f i (j + pyStart m s) k) := by
  have := pyStop_le m e
  tev3

@[tens] theorem slice_t3_n2 (n m p : Nat) (f : Nat → Nat → Nat → α) (s e : Option Int) :
    slice (t3 n m p f) (-2) s e =
      .ok (t3 n (pyStop m e - pyStart m s) p fun i j k => f i (j + pyStart m s) k) := by
  have := pyStop_le m e
  tev3

@[tens] theorem slice_t3_2 (n m p : Nat) (f : Nat → Nat → Nat → α) (s e : Option Int) :
    slice (t3 n m p f) 2 s e =
      .ok (t3 n m (pyStop p e - pyStart p s) fun i j k => f i j (k + pyStart p s)) := by
  have := pyStop_le p e
  tev3

@[tens] theorem slice_t3_n1 (n m p : Nat) (f : Nat → Nat → Nat → α) (s e : Option Int) :
    slice (t3 n m p f) (-1) s e =
      .ok (t3 n m (pyStop p e - pyStart p s) fun i j k => f i j (k + pyStart p s)) := by
  have := pyStop_le p e
  tev3

@[tens] theorem slice_t4_0 (n m p q : Nat) (f : Nat → Nat → Nat → Nat → α) (s e : Option Int) :
    slice (t4 n m p q f) 0 s e =
      .ok (t4 (pyStop n e - pyStart n s) m p q fun i j k o => f (i + pyStart n s) j k o) := by
  have := pyStop_le n e
  tev4

@[tens] theorem slice_t4_n4 (n m p q : Nat) (f : Nat → Nat → Nat → Nat → α) (s e : Option Int) :
    slice (t4 n m p q f) (-4) s e =
      .ok (t4 (pyStop n e - pyStart n s) m p q fun i j k o => f (i + pyStart n s) j k o) := by
  have := pyStop_le n e
  tev4

@[tens] theorem slice_t4_1 (n m p q : Nat) (f : Nat → Nat → Nat → Nat → α) (s e : Option Int) :
    slice (t4 n m p q f) 1 s e =
      .ok (t4 n (pyStop m e - pyStart m s) p q fun i j k o => f i (j + pyStart m s) k o) := by
  have := pyStop_le m e
  tev4

@[tens] theorem slice_t4_n3 (n m p q : Nat) (f : Nat → Nat → Nat → Nat → α) (s e : Option Int) :
    slice (t4 n m p q f) (-3) s e =
      .ok (t4 n (pyStop m e - pyStart m s) p q fun i j k o => f i (j + pyStart m s) k o) := by
  have := pyStop_le m e
  tev4

@[tens] theorem slice_t4_2 (n m p q : Nat) (f : Nat → Nat → Nat → Nat → α) (s e : Option Int) :
    slice (t4 n m p q f) 2 s e =
      .ok (t4 n m (pyStop p e - pyStart p s) q fun i j k o => f i j (k + pyStart p s) o) := by
  have := pyStop_le p e
  tev4

@[tens] theorem slice_t4_n2 (n m p q : Nat) (f : Nat → Nat → Nat → Nat → α) (s e : Option Int) :
    slice (t4 n m p q f) (-2) s e =
      .ok (t4 n m (pyStop p e - pyStart p s) q fun i j k o => f i j (k + pyStart p s) o) := by
  have := pyStop_le p e
  tev4

@[tens] theorem slice_t4_3 (n m p q : Nat) (f : Nat → Nat → Nat → Nat → α) (s e : Option Int) :
    slice (t4 n m p q f) 3 s e =
      .ok (t4 n m p (pyStop q e - pyStart q s) fun i j k o => f i j k (o + pyStart q s)) := by
  have := pyStop_le q e
  tev4

@[tens] theorem slice_t4_n1 (n m p q : Nat) (f : Nat → Nat → Nat → Nat → α) (s e : Option Int) :
    slice (t4 n m p q f) (-1) s e =
      .ok (t4 n m p (pyStop q e - pyStart q s) fun i j k o => f i j k (o + pyStart q s)) := by
  have := pyStop_le q e
  tev4

@[tens] theorem slice_t5_0 (n m p q r : Nat) (f : Nat → Nat → Nat → Nat → Nat → α) (s e : Option Int) :
    slice (t5 n m p q r f) 0 s e =
      .ok (t5 (pyStop n e - pyStart n s) m p q r fun i j k o u => f (i + pyStart n s) j k o u) := by
  have := pyStop_le n e
  tev5

@[tens] theorem slice_t5_n5 (n m p q r : Nat) (f : Nat → Nat → Nat → Nat → Nat → α) (s e : Option Int) :
    slice (t5 n m p q r f) (-5) s e =
      .ok (t5 (pyStop n e - pyStart n s) m p q r fun i j k o u => f (i + pyStart n s) j k o u) := by
  have := pyStop_le n e
  tev5

@[tens] theorem slice_t5_1 (n m p q r : Nat) (f : Nat → Nat → Nat → Nat → Nat → α) (s e : Option Int) :
    slice (t5 n m p q r f) 1 s e =
      .ok (t5 n (pyStop m e - pyStart m s) p q r fun i j k o u => f i (j + pyStart m s) k o u) := by
  have := pyStop_le m e
  tev5

@[tens] theorem slice_t5_n4 (n m p q r : Nat) (f : Nat → Nat → Nat → Nat → Nat → α) (s e : Option Int) :
    slice (t5 n m p q r f) (-4) s e =
      .ok (t5 n (pyStop m e - pyStart m s) p q r fun i j k o u => f i (j + pyStart m s) k o u) := by
  have := pyStop_le m e
  tev5

@[tens] theorem slice_t5_2 (n m p q r : Nat) (f : Nat → Nat → Nat → Nat → Nat → α) (s e : Option Int) :
    slice (t5 n m p q r f) 2 s e =
      .ok (t5 n m (pyStop p e - pyStart p s) q r fun i j k o u => f i j (k + pyStart p s) o u) := by
  have := pyStop_le p e
  tev5

@[tens] theorem slice_t5_n3 (n m p q r : Nat) (f : Nat → Nat → Nat → Nat → Nat → α) (s e : Option Int) :
    slice (t5 n m p q r f) (-3) s e =
      .ok (t5 n m (pyStop p e - pyStart p s) q r fun i j k o u => f i j (k + pyStart p s) o u) := by
  have := pyStop_le p e
  tev5

@[tens] theorem slice_t5_3 (n m p q r : Nat) (f : Nat → Nat → Nat → Nat → Nat → α) (s e : Option Int) :
    slice (t5 n m p q r f) 3 s e =
      .ok (t5 n m p (pyStop q e - pyStart q s) r fun i j k o u => f i j k (o + pyStart q s) u) := by
  have := pyStop_le q e
  tev5

@[tens] theorem slice_t5_n2 (n m p q r : Nat) (f : Nat → Nat → Nat → Nat → Nat → α) (s e : Option Int) :
    slice (t5 n m p q r f) (-2) s e =
      .ok (t5 n m p (pyStop q e - pyStart q s) r fun i j k o u => f i j k (o + pyStart q s) u) := by
  have := pyStop_le q e
  tev5

@[tens] theorem slice_t5_4 (n m p q r : Nat) (f : Nat → Nat → Nat → Nat → Nat → α) (s e : Option Int) :
    slice (t5 n m p q r f) 4 s e =
      .ok (t5 n m p q (pyStop r e - pyStart r s) fun i j k o u => f i j k o (u + pyStart r s)) := by
  have := pyStop_le r e
  tev5

@[tens] theorem slice_t5_n1 (n m p q r : Nat) (f : Nat → Nat → Nat → Nat → Nat → α) (s e : Option Int) :
    slice (t5 n m p q r f) (-1) s e =
      .ok (t5 n m p q (pyStop r e - pyStart r s) fun i j k o u => f i j k o (u + pyStart r s)) := by
  have := pyStop_le r e
  tev5

@[tens] theorem select_t1_0_0 (n : Nat) (f : Nat → α) (h : 0 < n) :
    select (t1 n f) 0 0 =
      .ok (t0 (f 0)) := by
  tev_sel_0
  tevg0

@[tens] theorem select_t1_0_last (n : Nat) (f : Nat → α) (h : 0 < n) :
    select (t1 n f) 0 (-1) =
      .ok (t0 (f (n - 1))) := by
  tev_sel_last
  tevg0

@[tens] theorem select_t1_0_nat (n : Nat) (f : Nat → α) (c : Nat) (h : c < n) :
    select (t1 n f) 0 (c : Int) =
      .ok (t0 (f c)) := by
  tev_sel_nat
  tevg0

theorem select_t1_0_idx (n : Nat) (f : Nat → α) (c : Int) (h : -(n : Int) ≤ c ∧ c < n) :
    select (t1 n f) 0 c =
      .ok (t0 (f (nidx n c))) := by
  rw [select_norm (p := 0) (n := n) (by rfl) (by rfl) h, select_t1_0_nat _ _ _  (nidx_lt h)]

@[tens] theorem select_t1_n1_0 (n : Nat) (f : Nat → α) (h : 0 < n) :
    select (t1 n f) (-1) 0 =
      .ok (t0 (f 0)) := by
  tev_sel_0
  tevg0

@[tens] theorem select_t1_n1_last (n : Nat) (f : Nat → α) (h : 0 < n) :
    select (t1 n f) (-1) (-1) =
      .ok (t0 (f (n - 1))) := by
  tev_sel_last
  tevg0

@[tens] theorem select_t1_n1_nat (n : Nat) (f : Nat → α) (c : Nat) (h : c < n) :
    select (t1 n f) (-1) (c : Int) =
      .ok (t0 (f c)) := by
  tev_sel_nat
  tevg0

theorem select_t1_n1_idx (n : Nat) (f : Nat → α) (c : Int) (h : -(n : Int) ≤ c ∧ c < n) :
    select (t1 n f) (-1) c =
      .ok (t0 (f (nidx n c))) := by
  rw [select_norm (p := 0) (n := n) (by rfl) (by rfl) h, select_t1_n1_nat _ _ _  (nidx_lt h)]

@[tens] theorem select_t2_0_0 (n m : Nat) (f : Nat → Nat → α) (h : 0 < n) :
    select (t2 n m f) 0 0 =
      .ok (t1 m fun i => f 0 i) := by
  tev_sel_0
  tevg1

@[tens] theorem select_t2_0_last (n m : Nat) (f : Nat → Nat → α) (h : 0 < n) :
    select (t2 n m f) 0 (-1) =
      .ok (t1 m fun i => f (n - 1) i) := by
  tev_sel_last
  tevg1

@[tens] theorem select_t2_0_nat (n m : Nat) (f : Nat → Nat → α) (c : Nat) (h : c < n) :
    select (t2 n m f) 0 (c : Int) =
      .ok (t1 m fun i => f c i) := by
  tev_sel_nat
  tevg1

theorem select_t2_0_idx (n m : Nat) (f : Nat → Nat → α) (c : Int) (h : -(n : Int) ≤ c ∧ c < n) :
    select (t2 n m f) 0 c =
      .ok (t1 m fun i => f (nidx n c) i) := by
  rw [select_norm (p := 0) (n := n) (by rfl) (by rfl) h, select_t2_0_nat _ _ _ _  (nidx_lt h)]

@[tens] theorem select_t2_n2_0 (n m : Nat) (f : Nat → Nat → α) (h : 0 < n) :
    select (t2 n m f) (-2) 0 =
      .ok (t1 m fun i => f 0 i) := by
  tev_sel_0
  tevg1

@[tens] theorem select_t2_n2_last (n m : Nat) (f : Nat → Nat → α) (h : 0 < n) :
    select (t2 n m f) (-2) (-1) =
      .ok (t1 m fun i => f (n - 1) i) := by
  tev_sel_last
  tevg1

@[tens] theorem select_t2_n2_nat (n m : Nat) (f : Nat → Nat → α) (c : Nat) (h : c < n) :
    select (t2 n m f) (-2) (c : Int) =
      .ok (t1 m fun i => f c i) := by
  tev_sel_nat
  tevg1

theorem select_t2_n2_idx (n m : Nat) (f : Nat → Nat → α) (c : Int) (h : -(n : Int) ≤ c ∧ c < n) :
    select (t2 n m f) (-2) c =
      .ok (t1 m fun i => f (nidx n c) i) := by
  rw [select_norm (p := 0) (n := n) (by rfl) (by rfl) h, select_t2_n2_nat _ _ _ _  (nidx_lt h)]

@[tens] theorem select_t2_1_0 (n m : Nat) (f : Nat → Nat → α) (h : 0 < m) :
    select (t2 n m f) 1 0 =
      .ok (t1 n fun i => f i 0) := by
  tev_sel_0
  tevg1

@[tens] theorem select_t2_1_last (n m : Nat) (f : Nat → Nat → α) (h : 0 < m) :
    select (t2 n m f) 1 (-1) =
      .ok (t1 n fun i => f i (m - 1)) := by
  tev_sel_last
  tevg1

@[tens] theorem select_t2_1_nat (n m : Nat) (f : Nat → Nat → α) (c : Nat) (h : c < m) :
    select (t2 n m f) 1 (c : Int) =
      .ok (t1 n fun i => f i c) := by
  tev_sel_nat
  tevg1

theorem select_t2_1_idx (n m : Nat) (f : Nat → Nat → α) (c : Int) (h : -(m : Int) ≤ c ∧ c < m) :
    select (t2 n m f) 1 c =
      .ok (t1 n fun i => f i (nidx m c)) := by
  rw [select_norm (p := 1) (n := m) (by rfl) (by rfl) h, select_t2_1_nat _ _ _ _  (nidx_lt h)]

@[tens] theorem select_t2_n1_0 (n m : Nat) (f : Nat → Nat → α) (h : 0 < m) :
    select (t2 n m f) (-1) 0 =
      .ok (t1 n fun i => f i 0) := by
  tev_sel_0
  tevg1

@[tens] theorem select_t2_n1_last (n m : Nat) (f : Nat → Nat → α) (h : 0 < m) :
    select (t2 n m f) (-1) (-1) =
      .ok (t1 n fun i => f i (m - 1)) := by
  tev_sel_last
  tevg1

@[tens] theorem select_t2_n1_nat (n m : Nat) (f : Nat → Nat → α) (c : Nat) (h : c < m) :
    select (t2 n m f) (-1) (c : Int) =
      .ok (t1 n fun i => f i c) := by
  tev_sel_nat
  tevg1

theorem select_t2_n1_idx (n m : Nat) (f : Nat → Nat → α) (c : Int) (h : -(m : Int) ≤ c ∧ c < m) :
    select (t2 n m f) (-1) c =
      .ok (t1 n fun i => f i (nidx m c)) := by
  rw [select_norm (p := 1) (n := m) (by rfl) (by rfl) h, select_t2_n1_nat _ _ _ _  (nidx_lt h)]

@[tens] theorem select_t3_0_0 (n m p : Nat) (f : Nat → Nat → Nat → α) (h : 0 < n) :
    select (t3 n m p f) 0 0 =
      .ok (t2 m p fun i j => f 0 i j) := by
  tev_sel_0
  tevg2

@[tens] theorem select_t3_0_last (n m p : Nat) (f : Nat → Nat → Nat → α) (h : 0 < n) :
    select (t3 n m p f) 0 (-1) =
      .ok (t2 m p fun i j => f (n - 1) i j) := by
  tev_sel_last
  tevg2

@[tens] theorem select_t3_0_nat (n m p : Nat) (f : Nat → Nat → Nat → α) (c : Nat) (h : c < n) :
    select (t3 n m p f) 0 (c : Int) =
      .ok (t2 m p fun i j => f c i j) := by
  tev_sel_nat
  tevg2

theorem select_t3_0_idx (n m p : Nat) (f : Nat → Nat → Nat → α) (c : Int) (h : -(n : Int) ≤ c ∧ c < n) :
    select (t3 n m p f) 0 c =
      .ok (t2 m p fun i j => f (nidx n c) i j) := by
  rw [select_norm (p := 0) (n := n) (by rfl) (by rfl) h, select_t3_0_nat _ _ _ _ _  (nidx_lt h)]

@[tens] theorem select_t3_n3_0 (n m p : Nat) (f : Nat → Nat → Nat → α) (h : 0 < n) :
    select (t3 n m p f) (-3) 0 =
      .ok (t2 m p fun i j => f 0 i j) := by
  tev_sel_0
  tevg2

@[tens] theorem select_t3_n3_last (n m p : Nat) (f : Nat → Nat → Nat → α) (h : 0 < n) :
    select (t3 n m p f) (-3) (-1) =
      .ok (t2 m p fun i j => f (n - 1) i j) := by
  tev_sel_last
  tevg2

@[tens] theorem select_t3_n3_nat (n m p : Nat) (f : Nat → Nat → Nat → α) (c : Nat) (h : c < n) :
    select (t3 n m p f) (-3) (c : Int) =
      .ok (t2 m p fun i j => f c i j) := by
  tev_sel_nat
  tevg2

theorem select_t3_n3_idx (n m p : Nat) (f : Nat → Nat → Nat → α) (c : Int) (h : -(n : Int) ≤ c ∧ c < n) :
    select (t3 n m p f) (-3) c =
      .ok (t2 m p fun i j => f (nidx n c) i j) := by
  rw [select_norm (p := 0) (n := n) (by rfl) (by rfl) h, select_t3_n3_nat _ _ _ _ _  (nidx_lt h)]

@[tens] theorem select_t3_1_0 (n m p : Nat) (f : Nat → Nat → Nat → α) (h : 0 < m) :
    select (t3 n m p f) 1 0 =
      .ok (t2 n p fun i j => f i 0 j) := by
  tev_sel_0
  tevg2

@[tens] theorem select_t3_1_last (n m p : Nat) (f : Nat → Nat → Nat → α) (h : 0 < m) :
    select (t3 n m p f) 1 (-1) =
      .ok (t2 n p fun i j => f i (m - 1) j) := by
  tev_sel_last
  tevg2

@[tens] theorem select_t3_1_nat (n m p : Nat) (f : Nat → Nat → Nat → α) (c : Nat) (h : c < m) :
    select (t3 n m p f) 1 (c : Int) =
      .ok (t2 n p fun i j => f i c j) := by
  tev_sel_nat
  tevg2

theorem select_t3_1_idx (n m p : Nat) (f : Nat → Nat → Nat → α) (c : Int) (h : -(m : Int) ≤ c ∧ c < m) :
    select (t3 n m p f) 1 c =
      .ok (t2 n p fun i j => f i (nidx m c) j) := by
  rw [select_norm (p := 1) (n := m) (by rfl) (by rfl) h, select_t3_1_nat _ _ _ _ _  (nidx_lt h)]

@[tens] theorem select_t3_n2_0 (n m p : Nat) (f : Nat → Nat → Nat → α) (h : 0 < m) :
    select (t3 n m p f) (-2) 0 =
      .ok (t2 n p fun i j => f i 0 j) := by
  tev_sel_0
  tevg2

@[tens] theorem select_t3_n2_last (n m p : Nat) (f : Nat → Nat → Nat → α) (h : 0 < m) :
    select (t3 n m p f) (-2) (-1) =
      .ok (t2 n p fun i j => f i (m - 1) j) := by
  tev_sel_last
  tevg2

@[tens] theorem select_t3_n2_nat (n m p : Nat) (f : Nat → Nat → Nat → α) (c : Nat) (h : c < m) :
    select (t3 n m p f) (-2) (c : Int) =
      .ok (t2 n p fun i j => f i c j) := by
  tev_sel_nat
  tevg2

theorem select_t3_n2_idx (n m p : Nat) (f : Nat → Nat → Nat → α) (c : Int) (h : -(m : Int) ≤ c ∧ c < m) :
    select (t3 n m p f) (-2) c =
      .ok (t2 n p fun i j => f i (nidx m c) j) := by
  rw [select_norm (p := 1) (n := m) (by rfl) (by rfl) h, select_t3_n2_nat _ _ _ _ _  (nidx_lt h)]

@[tens] theorem select_t3_2_0 (n m p : Nat) (f : Nat → Nat → Nat → α) (h : 0 < p) :
    select (t3 n m p f) 2 0 =
      .ok (t2 n m fun i j => f i j 0) := by
  tev_sel_0
  tevg2

@[tens] theorem select_t3_2_last (n m p : Nat) (f : Nat → Nat → Nat → α) (h : 0 < p) :
    select (t3 n m p f) 2 (-1) =
      .ok (t2 n m fun i j => f i j (p - 1)) := by
  tev_sel_last
  tevg2

@[tens] theorem select_t3_2_nat (n m p : Nat) (f : Nat → Nat → Nat → α) (c : Nat) (h : c < p) :
    select (t3 n m p f) 2 (c : Int) =
      .ok (t2 n m fun i j => f i j c) := by
  tev_sel_nat
  tevg2

theorem select_t3_2_idx (n m p : Nat) (f : Nat → Nat → Nat → α) (c : Int) (h : -(p : Int) ≤ c ∧ c < p) :
    select (t3 n m p f) 2 c =
      .ok (t2 n m fun i j => f i j (nidx p c)) := by
  rw [select_norm (p := 2) (n := p) (by rfl) (by rfl) h, select_t3_2_nat _ _ _ _ _  (nidx_lt h)]

@[tens] theorem select_t3_n1_0 (n m p : Nat) (f : Nat → Nat → Nat → α) (h : 0 < p) :
    select (t3 n m p f) (-1) 0 =
      .ok (t2 n m fun i j => f i j 0) := by
  tev_sel_0
  tevg2

@[tens] theorem select_t3_n1_last (n m p : Nat) (f : Nat → Nat → Nat → α) (h : 0 < p) :
    select (t3 n m p f) (-1) (-1) =
      .ok (t2 n m fun i j => f i j (p - 1)) := by
  tev_sel_last
  tevg2

@[tens] theorem select_t3_n1_nat (n m p : Nat) (f : Nat → Nat → Nat → α) (c : Nat) (h : c < p) :
    select (t3 n m p f) (-1) (c : Int) =
      .ok (t2 n m fun i j => f i j c) := by
  tev_sel_nat
  tevg2

theorem select_t3_n1_idx (n m p : Nat) (f : Nat → Nat → Nat → α) (c : Int) (h : -(p : Int) ≤ c ∧ c < p) :
    select (t3 n m p f) (-1) c =
      .ok (t2 n m fun i j => f i j (nidx p c)) := by
  rw [select_norm (p := 2) (n := p) (by rfl) (by rfl) h, select_t3_n1_nat _ _ _ _ _  (nidx_lt h)]

@[tens] theorem select_t4_0_0 (n m p q : Nat) (f : Nat → Nat → Nat → Nat → α) (h : 0 < n) :
    select (t4 n m p q f) 0 0 =
      .ok (t3 m p q fun i j k => f 0 i j k) := by
  tev_sel_0
  tevg3

@[tens] theorem select_t4_0_last (n m p q : Nat) (f : Nat → Nat → Nat → Nat → α) (h : 0 < n) :
    select (t4 n m p q f) 0 (-1) =
      .ok (t3 m p q fun i j k => f (n - 1) i j k) := by
  tev_sel_last
  tevg3

@[tens] theorem select_t4_0_nat (n m p q : Nat) (f : Nat → Nat → Nat → Nat → α) (c : Nat) (h : c < n) :
    select (t4 n m p q f) 0 (c : Int) =
      .ok (t3 m p q fun i j k => f c i j k) := by
  tev_sel_nat
  tevg3

theorem select_t4_0_idx (n m p q : Nat) (f : Nat → Nat → Nat → Nat → α) (c : Int) (h : -(n : Int) ≤ c ∧ c < n) :
    select (t4 n m p q f) 0 c =
      .ok (t3 m p q fun i j k => f (nidx n c) i j k) := by
  rw [select_norm (p := 0) (n := n) (by rfl) (by rfl) h, select_t4_0_nat _ _ _ _ _ _  (nidx_lt h)]

@[tens] theorem select_t4_n4_0 (n m p q : Nat) (f : Nat → Nat → Nat → Nat → α) (h : 0 < n) :
    select (t4 n m p q f) (-4) 0 =
      .ok (t3 m p q fun i j k => f 0 i j k) := by
  tev_sel_0
  tevg3

@[tens] theorem select_t4_n4_last (n m p q : Nat) (f : Nat → Nat → Nat → Nat → α) (h : 0 < n) :
    select (t4 n m p q f) (-4) (-1) =
      .ok (t3 m p q fun i j k => f (n - 1) i j k) := by
  tev_sel_last
  tevg3

@[tens] theorem select_t4_n4_nat (n m p q : Nat) (f : Nat → Nat → Nat → Nat → α) (c : Nat) (h : c < n) :
    select (t4 n m p q f) (-4) (c : Int) =
      .ok (t3 m p q fun i j k => f c i j k) := by
  tev_sel_nat
  tevg3

theorem select_t4_n4_idx (n m p q : Nat) (f : Nat → Nat → Nat → Nat → α) (c : Int) (h : -(n : Int) ≤ c ∧ c < n) :
    select (t4 n m p q f) (-4) c =
      .ok (t3 m p q fun i j k => f (nidx n c) i j k) := by
  rw [select_norm (p := 0) (n := n) (by rfl) (by rfl) h, select_t4_n4_nat _ _ _ _ _ _  (nidx_lt h)]

@[tens] theorem select_t4_1_0 (n m p q : Nat) (f : Nat → Nat → Nat → Nat → α) (h : 0 < m) :
    select (t4 n m p q f) 1 0 =
      .ok (t3 n p q fun i j k => f i 0 j k) := by
  tev_sel_0
  tevg3

@[tens] theorem select_t4_1_last (n m p q : Nat) (f : Nat → Nat → Nat → Nat → α) (h : 0 < m) :
    select (t4 n m p q f) 1 (-1) =
      .ok (t3 n p q fun i j k => f i (m - 1) j k) := by
  tev_sel_last
  tevg3

@[tens] theorem select_t4_1_nat (n m p q : Nat) (f : Nat → Nat → Nat → Nat → α) (c : Nat) (h : c < m) :
    select (t4 n m p q f) 1 (c : Int) =
      .ok (t3 n p q fun i j k => f i c j k) := by
  tev_sel_nat
  tevg3

theorem select_t4_1_idx (n m p q : Nat) (f : Nat → Nat → Nat → Nat → α) (c : Int) (h : -(m : Int) ≤ c ∧ c < m) :
    select (t4 n m p q f) 1 c =
      .ok (t3 n p q fun i j k => f i (nidx m c) j k) := by
  rw [select_norm (p := 1) (n := m) (by rfl) (by rfl) h, select_t4_1_nat _ _ _ _ _ _  (nidx_lt h)]

@[tens] theorem select_t4_n3_0 (n m p q : Nat) (f : Nat → Nat → Nat → Nat → α) (h : 0 < m) :
    select (t4 n m p q f) (-3) 0 =
      .ok (t3 n p q fun i j k => f i 0 j k) := by
  tev_sel_0
  tevg3

@[tens] theorem select_t4_n3_last (n m p q : Nat) (f : Nat → Nat → Nat → Nat → α) (h : 0 < m) :
    select (t4 n m p q f) (-3) (-1) =
      .ok (t3 n p q fun i j k => f i (m - 1) j k) := by
  tev_sel_last
  tevg3

@[tens] theorem select_t4_n3_nat (n m p q : Nat) (f : Nat → Nat → Nat → Nat → α) (c : Nat) (h : c < m) :
    select (t4 n m p q f) (-3) (c : Int) =
      .ok (t3 n p q fun i j k => f i c j k) := by
  tev_sel_nat
  tevg3

theorem select_t4_n3_idx (n m p q : Nat) (f : Nat → Nat → Nat → Nat → α) (c : Int) (h : -(m : Int) ≤ c ∧ c < m) :
    select (t4 n m p q f) (-3) c =
      .ok (t3 n p q fun i j k => f i (nidx m c) j k) := by
  rw [select_norm (p := 1) (n := m) (by rfl) (by rfl) h, select_t4_n3_nat _ _ _ _ _ _  (nidx_lt h)]

@[tens] theorem select_t4_2_0 (n m p q : Nat) (f : Nat → Nat → Nat → Nat → α) (h : 0 < p) :
    select (t4 n m p q f) 2 0 =
      .ok (t3 n m q fun i j k => f i j 0 k) := by
  tev_sel_0
  tevg3

@[tens] theorem select_t4_2_last (n m p q : Nat) (f : Nat → Nat → Nat → Nat → α) (h : 0 < p) :
    select (t4 n m p q f) 2 (-1) =
      .ok (t3 n m q fun i j k => f i j (p - 1) k) := by
  tev_sel_last
  tevg3

@[tens] theorem select_t4_2_nat (n m p q : Nat) (f : Nat → Nat → Nat → Nat → α) (c : Nat) (h : c < p) :
    select (t4 n m p q f) 2 (c : Int) =
      .ok (t3 n m q fun i j k => f i j c k) := by
  tev_sel_nat
  tevg3

theorem select_t4_2_idx (n m p q : Nat) (f : Nat → Nat → Nat → Nat → α) (c : Int) (h : -(p : Int) ≤ c ∧ c < p) :
    select (t4 n m p q f) 2 c =
      .ok (t3 n m q fun i j k => f i j (nidx p c) k) := by
  rw [select_norm (p := 2) (n := p) (by rfl) (by rfl) h, select_t4_2_nat _ _ _ _ _ _  (nidx_lt h)]

@[tens] theorem select_t4_n2_0 (n m p q : Nat) (f : Nat → Nat → Nat → Nat → α) (h : 0 < p) :
    select (t4 n m p q f) (-2) 0 =
      .ok (t3 n m q fun i j k => f i j 0 k) := by
  tev_sel_0
  tevg3

@[tens] theorem select_t4_n2_last (n m p q : Nat) (f : Nat → Nat → Nat → Nat → α) (h : 0 < p) :
    select (t4 n m p q f) (-2) (-1) =
      .ok (t3 n m q fun i j k => f i j (p - 1) k) := by
  tev_sel_last
  tevg3

@[tens] theorem select_t4_n2_nat (n m p q : Nat) (f : Nat → Nat → Nat → Nat → α) (c : Nat) (h : c < p) :
    select (t4 n m p q f) (-2) (c : Int) =
      .ok (t3 n m q fun i j k => f i j c k) := by
  tev_sel_nat
  tevg3

theorem select_t4_n2_idx (n m p q : Nat) (f : Nat → Nat → Nat → Nat → α) (c : Int) (h : -(p : Int) ≤ c ∧ c < p) :
    select (t4 n m p q f) (-2) c =
      .ok (t3 n m q fun i j k => f i j (nidx p c) k) := by
  rw [select_norm (p := 2) (n := p) (by rfl) (by rfl) h, select_t4_n2_nat _ _ _ _ _ _  (nidx_lt h)]

@[tens] theorem select_t4_3_0 (n m p q : Nat) (f : Nat → Nat → Nat → Nat → α) (h : 0 < q) :
    select (t4 n m p q f) 3 0 =
      .ok (t3 n m p fun i j k => f i j k 0) := by
  tev_sel_0
  tevg3

@[tens] theorem select_t4_3_last (n m p q : Nat) (f : Nat → Nat → Nat → Nat → α) (h : 0 < q) :
    select (t4 n m p q f) 3 (-1) =
      .ok (t3 n m p fun i j k => f i j k (q - 1)) := by
  tev_sel_last
  tevg3

@[tens] theorem select_t4_3_nat (n m p q : Nat) (f : Nat → Nat → Nat → Nat → α) (c : Nat) (h : c < q) :
    select (t4 n m p q f) 3 (c : Int) =
      .ok (t3 n m p fun i j k => f i j k c) := by
  tev_sel_nat
  tevg3

theorem select_t4_3_idx (n m p q : Nat) (f : Nat → Nat → Nat → Nat → α) (c : Int) (h : -(q : Int) ≤ c ∧ c < q) :
    select (t4 n m p q f) 3 c =
      .ok (t3 n m p fun i j k => f i j k (nidx q c)) := by
  rw [select_norm (p := 3) (n := q) (by rfl) (by rfl) h, select_t4_3_nat _ _ _ _ _ _  (nidx_lt h)]

@[tens] theorem select_t4_n1_0 (n m p q : Nat) (f : Nat → Nat → Nat → Nat → α) (h : 0 < q) :
    select (t4 n m p q f) (-1) 0 =
      .ok (t3 n m p fun i j k => f i j k 0) := by
  tev_sel_0
  tevg3

@[tens] theorem select_t4_n1_last (n m p q : Nat) (f : Nat → Nat → Nat → Nat → α) (h : 0 < q) :
    select (t4 n m p q f) (-1) (-1) =
      .ok (t3 n m p fun i j k => f i j k (q - 1)) := by
  tev_sel_last
  tevg3

@[tens] theorem select_t4_n1_nat (n m p q : Nat) (f : Nat → Nat → Nat → Nat → α) (c : Nat) (h : c < q) :
    select (t4 n m p q f) (-1) (c : Int) =
      .ok (t3 n m p fun i j k => f i j k c) := by
  tev_sel_nat
  tevg3

theorem select_t4_n1_idx (n m p q : Nat) (f : Nat → Nat → Nat → Nat → α) (c : Int) (h : -(q : Int) ≤ c ∧ c < q) :
    select (t4 n m p q f) (-1) c =
      .ok (t3 n m p fun i j k => f i j k (nidx q c)) := by
  rw [select_norm (p := 3) (n := q) (by rfl) (by rfl) h, select_t4_n1_nat _ _ _ _ _ _  (nidx_lt h)]

@[tens] theorem select_t5_0_0 (n m p q r : Nat) (f : Nat → Nat → Nat → Nat → Nat → α) (h : 0 < n) :
    select (t5 n m p q r f) 0 0 =
      .ok (t4 m p q r fun i j k o => f 0 i j k o) := by
  tev_sel_0
  tevg4

@[tens] theorem select_t5_0_last (n m p q r : Nat) (f : Nat → Nat → Nat → Nat → Nat → α) (h : 0 < n) :
    select (t5 n m p q r f) 0 (-1) =
      .ok (t4 m p q r fun i j k o => f (n - 1) i j k o) := by
  tev_sel_last
  tevg4

@[tens] theorem select_t5_0_nat (n m p q r : Nat) (f : Nat → Nat → Nat → Nat → Nat → α) (c : Nat) (h : c < n) :
    select (t5 n m p q r f) 0 (c : Int) =
      .ok (t4 m p q r fun i j k o => f c i j k o) := by
  tev_sel_nat
  tevg4

theorem select_t5_0_idx (n m p q r : Nat) (f : Nat → Nat → Nat → Nat → Nat → α) (c : Int) (h : -(n : Int) ≤ c ∧ c < n) :
    select (t5 n m p q r f) 0 c =
      .ok (t4 m p q r fun i j k o => f (nidx n c) i j k o) := by
  rw [select_norm (p := 0) (n := n) (by rfl) (by rfl) h, select_t5_0_nat _ _ _ _ _ _ _  (nidx_lt h)]

@[tens] theorem select_t5_n5_0 (n m p q r : Nat) (f : Nat → Nat → Nat → Nat → Nat → α) (h : 0 < n) :
    select (t5 n m p q r f) (-5) 0 =
      .ok (t4 m p q r fun i j k o => f 0 i j k o) := by
  tev_sel_0
  tevg4

@[tens] theorem select_t5_n5_last (n m p q r : Nat) (f : Nat → Nat → Nat → Nat → Nat → α) (h : 0 < n) :
    select (t5 n m p q r f) (-5) (-1) =
      .ok (t4 m p q r fun i j k o => f (n - 1) i j k o) := by
  tev_sel_last
  tevg4

@[tens] theorem select_t5_n5_nat (n m p q r : Nat) (f : Nat → Nat → Nat → Nat → Nat → α) (c : Nat) (h : c < n) :
    select (t5 n m p q r f) (-5) (c : Int) =
      .ok (t4 m p q r fun i j k o => f c i j k o) := by
  tev_sel_nat
  tevg4

theorem select_t5_n5_idx (n m p q r : Nat) (f : Nat → Nat → Nat → Nat → Nat → α) (c : Int) (h : -(n : Int) ≤ c ∧ c < n) :
    select (t5 n m p q r f) (-5) c =
      .ok (t4 m p q r fun i j k o => f (nidx n c) i j k o) := by
  rw [select_norm (p := 0) (n := n) (by rfl) (by rfl) h, select_t5_n5_nat _ _ _ _ _ _ _  (nidx_lt h)]

@[tens] theorem select_t5_1_0 (n m p q r : Nat) (f : Nat → Nat → Nat → Nat → Nat → α) (h : 0 < m) :
    select (t5 n m p q r f) 1 0 =
      .ok (t4 n p q r fun i j k o => f i 0 j k o) := by
  tev_sel_0
  tevg4

@[tens] theorem select_t5_1_last (n m p q r : Nat) (f : Nat → Nat → Nat → Nat → Nat → α) (h : 0 < m) :
    select (t5 n m p q r f) 1 (-1) =
      .ok (t4 n p q r fun i j k o => f i (m - 1) j k o) := by
  tev_sel_last
  tevg4

@[tens] theorem select_t5_1_nat (n m p q r : Nat) (f : Nat → Nat → Nat → Nat → Nat → α) (c : Nat) (h : c < m) :
    select (t5 n m p q r f) 1 (c : Int) =
      .ok (t4 n p q r fun i j k o => f i c j k o) := by
  tev_sel_nat
  tevg4

theorem select_t5_1_idx (n m p q r : Nat) (f : Nat → Nat → Nat → Nat → Nat → α) (c : Int) (h : -(m : Int) ≤ c ∧ c < m) :
    select (t5 n m p q r f) 1 c =
      .ok (t4 n p q r fun i j k o => f i (nidx m c) j k o) := by
  rw [select_norm (p := 1) (n := m) (by rfl) (by rfl) h, select_t5_1_nat _ _ _ _ _ _ _  (nidx_lt h)]

@[tens] theorem select_t5_n4_0 (n m p q r : Nat) (f : Nat → Nat → Nat → Nat → Nat → α) (h : 0 < m) :
    select (t5 n m p q r f) (-4) 0 =
      .ok (t4 n p q r fun i j k o => f i 0 j k o) := by
  tev_sel_0
  tevg4

@[tens] theorem select_t5_n4_last (n m p q r : Nat) (f : Nat → Nat → Nat → Nat → Nat → α) (h : 0 < m) :
    select (t5 n m p q r f) (-4) (-1) =
      .ok (t4 n p q r fun i j k o => f i (m - 1) j k o) := by
  tev_sel_last
  tevg4

@[tens] theorem select_t5_n4_nat (n m p q r : Nat) (f : Nat → Nat → Nat → Nat → Nat → α) (c : Nat) (h : c < m) :
    select (t5 n m p q r f) (-4) (c : Int) =
      .ok (t4 n p q r fun i j k o => f i c j k o) := by
  tev_sel_nat
  tevg4

theorem select_t5_n4_idx (n m p q r : Nat) (f : Nat → Nat → Nat → Nat → Nat → α) (c : Int) (h : -(m : Int) ≤ c ∧ c < m) :
    select (t5 n m p q r f) (-4) c =
      .ok (t4 n p q r fun i j k o => f i (nidx m c) j k o) := by
  rw [select_norm (p := 1) (n := m) (by rfl) (by rfl) h, select_t5_n4_nat _ _ _ _ _ _ _  (nidx_lt h)]

@[tens] theorem select_t5_2_0 (n m p q r : Nat) (f : Nat → Nat → Nat → Nat → Nat → α) (h : 0 < p) :
    select (t5 n m p q r f) 2 0 =
      .ok (t4 n m q r fun i j k o => f i j 0 k o) := by
  tev_sel_0
  tevg4

@[tens] theorem select_t5_2_last (n m p q r : Nat) (f : Nat → Nat → Nat → Nat → Nat → α) (h : 0 < p) :
    select (t5 n m p q r f) 2 (-1) =
      .ok (t4 n m q r fun i j k o => f i j (p - 1) k o) := by
  tev_sel_last
  tevg4

@[tens] theorem select_t5_2_nat (n m p q r : Nat) (f : Nat → Nat → Nat → Nat → Nat → α) (c : Nat) (h : c < p) :
    select (t5 n m p q r f) 2 (c : Int) =
      .ok (t4 n m q r fun i j k o => f i j c k o) := by
  tev_sel_nat
  tevg4

theorem select_t5_2_idx (n m p q r : Nat) (f : Nat → Nat → Nat → Nat → Nat → α) (c : Int) (h : -(p : Int) ≤ c ∧ c < p) :
    select (t5 n m p q r f) 2 c =
      .ok (t4 n m q r fun i j k o => f i j (nidx p c) k o) := by
  rw [select_norm (p := 2) (n := p) (by rfl) (by rfl) h, select_t5_2_nat _ _ _ _ _ _ _  (nidx_lt h)]

@[tens] theorem select_t5_n3_0 (n m p q r : Nat) (f : Nat → Nat → Nat → Nat → Nat → α) (h : 0 < p) :
    select (t5 n m p q r f) (-3) 0 =
      .ok (t4 n m q r fun i j k o => f i j 0 k o) := by
  tev_sel_0
  tevg4

@[tens] theorem select_t5_n3_last (n m p q r : Nat) (f : Nat → Nat → Nat → Nat → Nat → α) (h : 0 < p) :
    select (t5 n m p q r f) (-3) (-1) =
      .ok (t4 n m q r fun i j k o => f i j (p - 1) k o) := by
  tev_sel_last
  tevg4

@[tens] theorem select_t5_n3_nat (n m p q r : Nat) (f : Nat → Nat → Nat → Nat → Nat → α) (c : Nat) (h : c < p) :
    select (t5 n m p q r f) (-3) (c : Int) =
      .ok (t4 n m q r fun i j k o => f i j c k o) := by
  tev_sel_nat
  tevg4

theorem select_t5_n3_idx (n m p q r : Nat) (f : Nat → Nat → Nat → Nat → Nat → α) (c : Int) (h : -(p : Int) ≤ c ∧ c < p) :
    select (t5 n m p q r f) (-3) c =
      .ok (t4 n m q r fun i j k o => f i j (nidx p c) k o) := by
  rw [select_norm (p := 2) (n := p) (by rfl) (by rfl) h, select_t5_n3_nat _ _ _ _ _ _ _  (nidx_lt h)]

@[tens] theorem select_t5_3_0 (n m p q r : Nat) (f : Nat → Nat → Nat → Nat → Nat → α) (h : 0 < q) :
    select (t5 n m p q r f) 3 0 =
      .ok (t4 n m p r fun i j k o => f i j k 0 o) := by
  tev_sel_0
  tevg4

@[tens] theorem select_t5_3_last (n m p q r : Nat) (f : Nat → Nat → Nat → Nat → Nat → α) (h : 0 < q) :
    select (t5 n m p q r f) 3 (-1) =
      .ok (t4 n m p r fun i j k o => f i j k (q - 1) o) := by
  tev_sel_last
  tevg4

@[tens] theorem select_t5_3_nat (n m p q r : Nat) (f : Nat → Nat → Nat → Nat → Nat → α) (c : Nat) (h : c < q) :
    select (t5 n m p q r f) 3 (c : Int) =
      .ok (t4 n m p r fun i j k o => f i j k c o) := by
  tev_sel_nat
  tevg4

theorem select_t5_3_idx (n m p q r : Nat) (f : Nat → Nat → Nat → Nat → Nat → α) (c : Int) (h : -(q : Int) ≤ c ∧ c < q) :
    select (t5 n m p q r f) 3 c =
      .ok (t4 n m p r fun i j k o => f i j k (nidx q c) o) := by
  rw [select_norm (p := 3) (n := q) (by rfl) (by rfl) h, select_t5_3_nat _ _ _ _ _ _ _  (nidx_lt h)]

@[tens] theorem select_t5_n2_0 (n m p q r : Nat) (f : Nat → Nat → Nat → Nat → Nat → α) (h : 0 < q) :
    select (t5 n m p q r f) (-2) 0 =
      .ok (t4 n m p r fun i j k o => f i j k 0 o) := by
  tev_sel_0
  tevg4

@[tens] theorem select_t5_n2_last (n m p q r : Nat) (f : Nat → Nat → Nat → Nat → Nat → α) (h : 0 < q) :
    select (t5 n m p q r f) (-2) (-1) =
      .ok (t4 n m p r fun i j k o => f i j k (q - 1) o) := by
  tev_sel_last
  tevg4

@[tens] theorem select_t5_n2_nat (n m p q r : Nat) (f : Nat → Nat → Nat → Nat → Nat → α) (c : Nat) (h : c < q) :
    select (t5 n m p q r f) (-2) (c : Int) =
      .ok (t4 n m p r fun i j k o => f i j k c o) := by
  tev_sel_nat
  tevg4

theorem select_t5_n2_idx (n m p q r : Nat) (f : Nat → Nat → Nat → Nat → Nat → α) (c : Int) (h : -(q : Int) ≤ c ∧ c < q) :
    select (t5 n m p q r f) (-2) c =
      .ok (t4 n m p r fun i j k o => f i j k (nidx q c) o) := by
  rw [select_norm (p := 3) (n := q) (by rfl) (by rfl) h, select_t5_n2_nat _ _ _ _ _ _ _  (nidx_lt h)]

@[tens] theorem select_t5_4_0 (n m p q r : Nat) (f : Nat → Nat → Nat → Nat → Nat → α) (h : 0 < r) :
    select (t5 n m p q r f) 4 0 =
      .ok (t4 n m p q fun i j k o => f i j k o 0) := by
  tev_sel_0
  tevg4

@[tens] theorem select_t5_4_last (n m p q r : Nat) (f : Nat → Nat → Nat → Nat → Nat → α) (h : 0 < r) :
    select (t5 n m p q r f) 4 (-1) =
      .ok (t4 n m p q fun i j k o => f i j k o (r - 1)) := by
  tev_sel_last
  tevg4

@[tens] theorem select_t5_4_nat (n m p q r : Nat) (f : Nat → Nat → Nat → Nat → Nat → α) (c : Nat) (h : c < r) :
    select (t5 n m p q r f) 4 (c : Int) =
      .ok (t4 n m p q fun i j k o => f i j k o c) := by
  tev_sel_nat
  tevg4

theorem select_t5_4_idx (n m p q r : Nat) (f : Nat → Nat → Nat → Nat → Nat → α) (c : Int) (h : -(r : Int) ≤ c ∧ c < r) :
    select (t5 n m p q r f) 4 c =
      .ok (t4 n m p q fun i j k o => f i j k o (nidx r c)) := by
  rw [select_norm (p := 4) (n := r) (by rfl) (by rfl) h, select_t5_4_nat _ _ _ _ _ _ _  (nidx_lt h)]

@[tens] theorem select_t5_n1_0 (n m p q r : Nat) (f : Nat → Nat → Nat → Nat → Nat → α) (h : 0 < r) :
    select (t5 n m p q r f) (-1) 0 =
      .ok (t4 n m p q fun i j k o => f i j k o 0) := by
  tev_sel_0
  tevg4

@[tens] theorem select_t5_n1_last (n m p q r : Nat) (f : Nat → Nat → Nat → Nat → Nat → α) (h : 0 < r) :
    select (t5 n m p q r f) (-1) (-1) =
      .ok (t4 n m p q fun i j k o => f i j k o (r - 1)) := by
  tev_sel_last
  tevg4

@[tens] theorem select_t5_n1_nat (n m p q r : Nat) (f : Nat → Nat → Nat → Nat → Nat → α) (c : Nat) (h : c < r) :
    select (t5 n m p q r f) (-1) (c : Int) =
      .ok (t4 n m p q fun i j k o => f i j k o c) := by
  tev_sel_nat
  tevg4

theorem select_t5_n1_idx (n m p q r : Nat) (f : Nat → Nat → Nat → Nat → Nat → α) (c : Int) (h : -(r : Int) ≤ c ∧ c < r) :
    select (t5 n m p q r f) (-1) c =
      .ok (t4 n m p q fun i j k o => f i j k o (nidx r c)) := by
  rw [select_norm (p := 4) (n := r) (by rfl) (by rfl) h, select_t5_n1_nat _ _ _ _ _ _ _  (nidx_lt h)]

@[tens] theorem unbind_t1_0 (n : Nat) (f : Nat → α) :
    unbind (t1 n f) 0 =
      .ok ((List.range n).map fun c => (t0 (f c))) := by
  tev_list
  refine congrArg Except.ok (List.map_congr_left fun c hc => ?_)
  simp only [List.mem_range] at hc
  tevc0

@[tens] theorem unbind_t1_n1 (n : Nat) (f : Nat → α) :
    unbind (t1 n f) (-1) =
      .ok ((List.range n).map fun c => (t0 (f c))) := by
  tev_list
  refine congrArg Except.ok (List.map_congr_left fun c hc => ?_)
  simp only [List.mem_range] at hc
  tevc0

@[tens] theorem unbind_t2_0 (n m : Nat) (f : Nat → Nat → α) :
    unbind (t2 n m f) 0 =
      .ok ((List.range n).map fun c => (t1 m fun i => f c i)) := by
  tev_list
  refine congrArg Except.ok (List.map_congr_left fun c hc => ?_)
  simp only [List.mem_range] at hc
  tevc1

@[tens] theorem unbind_t2_n2 (n m : Nat) (f : Nat → Nat → α) :
    unbind (t2 n m f) (-2) =
      .ok ((List.range n).map fun c => (t1 m fun i => f c i)) := by
  tev_list
  refine congrArg Except.ok (List.map_congr_left fun c hc => ?_)
  simp only [List.mem_range] at hc
  tevc1

@[tens] theorem unbind_t2_1 (n m : Nat) (f : Nat → Nat → α) :
    unbind (t2 n m f) 1 =
      .ok ((List.range m).map fun c => (t1 n fun i => f i c)) := by
  tev_list
  refine congrArg Except.ok (List.map_congr_left fun c hc => ?_)
  simp only [List.mem_range] at hc
  tevc1

@[tens] theorem unbind_t2_n1 (n m : Nat) (f : Nat → Nat → α) :
    unbind (t2 n m f) (-1) =
      .ok ((List.range m).map fun c => (t1 n fun i => f i c)) := by
  tev_list
  refine congrArg Except.ok (List.map_congr_left fun c hc => ?_)
  simp only [List.mem_range] at hc
  tevc1

@[tens] theorem unbind_t3_0 (n m p : Nat) (f : Nat → Nat → Nat → α) :
    unbind (t3 n m p f) 0 =
      .ok ((List.range n).map fun c => (t2 m p fun i j => f c i j)) := by
  tev_list
  refine congrArg Except.ok (List.map_congr_left fun c hc => ?_)
  simp only [List.mem_range] at hc
  tevc2

@[tens] theorem unbind_t3_n3 (n m p : Nat) (f : Nat → Nat → Nat → α) :
    unbind (t3 n m p f) (-3) =
      .ok ((List.range n).map fun c => (t2 m p fun i j => f c i j)) := by
  tev_list
  refine congrArg Except.ok (List.map_congr_left fun c hc => ?_)
  simp only [List.mem_range] at hc
  tevc2

@[tens] theorem unbind_t3_1 (n m p : Nat) (f : Nat → Nat → Nat → α) :
    unbind (t3 n m p f) 1 =
      .ok ((List.range m).map fun c => (t2 n p fun i j => f i c j)) := by
  tev_list
  refine congrArg Except.ok (List.map_congr_left fun c hc => ?_)
  simp only [List.mem_range] at hc
  tevc2

@[tens] theorem unbind_t3_n2 (n m p : Nat) (f : Nat → Nat → Nat → α) :
    unbind (t3 n m p f) (-2) =
      .ok ((List.range m).map fun c => (t2 n p fun i j => f i c j)) := by
  tev_list
  refine congrArg Except.ok (List.map_congr_left fun c hc => ?_)
  simp only [List.mem_range] at hc
  tevc2

@[tens] theorem unbind_t3_2 (n m p : Nat) (f : Nat → Nat → Nat → α) :
    unbind (t3 n m p f) 2 =
      .ok ((List.range p).map fun c => (t2 n m fun i j => f i j c)) := by
  tev_list
  refine congrArg Except.ok (List.map_congr_left fun c hc => ?_)
  simp only [List.mem_range] at hc
  tevc2

@[tens] theorem unbind_t3_n1 (n m p : Nat) (f : Nat → Nat → Nat → α) :
    unbind (t3 n m p f) (-1) =
      .ok ((List.range p).map fun c => (t2 n m fun i j => f i j c)) := by
  tev_list
  refine congrArg Except.ok (List.map_congr_left fun c hc => ?_)
  simp only [List.mem_range] at hc
  tevc2

@[tens] theorem unbind_t4_0 (n m p q : Nat) (f : Nat → Nat → Nat → Nat → α) :
    unbind (t4 n m p q f) 0 =
      .ok ((List.range n).map fun c => (t3 m p q fun i j k => f c i j k)) := by
  tev_list
  refine congrArg Except.ok (List.map_congr_left fun c hc => ?_)
  simp only [List.mem_range] at hc
  tevc3

@[tens] theorem unbind_t4_n4 (n m p q : Nat) (f : Nat → Nat → Nat → Nat → α) :
    unbind (t4 n m p q f) (-4) =
      .ok ((List.range n).map fun c => (t3 m p q fun i j k => f c i j k)) := by
  tev_list
  refine congrArg Except.ok (List.map_congr_left fun c hc => ?_)
  simp only [List.mem_range] at hc
  tevc3

@[tens] theorem unbind_t4_1 (n m p q : Nat) (f : Nat → Nat → Nat → Nat → α) :
    unbind (t4 n m p q f) 1 =
      .ok ((List.range m).map fun c => (t3 n p q fun i j k => f i c j k)) := by
  tev_list
  refine congrArg Except.ok (List.map_congr_left fun c hc => ?_)
  simp only [List.mem_range] at hc
  tevc3

@[tens] theorem unbind_t4_n3 (n m p q : Nat) (f : Nat → Nat → Nat → Nat → α) :
    unbind (t4 n m p q f) (-3) =
      .ok ((List.range m).map fun c => (t3 n p q fun i j k => f i c j k)) := by
  tev_list
  refine congrArg Except.ok (List.map_congr_left fun c hc => ?_)
  simp only [List.mem_range] at hc
  tevc3

@[tens] theorem unbind_t4_2 (n m p q : Nat) (f : Nat → Nat → Nat → Nat → α) :
    unbind (t4 n m p q f) 2 =
      .ok ((List.range p).map fun c => (t3 n m q fun i j k => f i j c k)) := by
  tev_list
  refine congrArg Except.ok (List.map_congr_left fun c hc => ?_)
  simp only [List.mem_range] at hc
  tevc3

@[tens] theorem unbind_t4_n2 (n m p q : Nat) (f : Nat → Nat → Nat → Nat → α) :
    unbind (t4 n m p q f) (-2) =
      .ok ((List.range p).map fun c => (t3 n m q fun i j k => f i j c k)) := by
  tev_list
  refine congrArg Except.ok (List.map_congr_left fun c hc => ?_)
  simp only [List.mem_range] at hc
  tevc3

@[tens] theorem unbind_t4_3 (n m p q : Nat) (f : Nat → Nat → Nat → Nat → α) :
    unbind (t4 n m p q f) 3 =
      .ok ((List.range q).map fun c => (t3 n m p fun i j k => f i j k c)) := by
  tev_list
  refine congrArg Except.ok (List.map_congr_left fun c hc => ?_)
  simp only [List.mem_range] at hc
  tevc3

@[tens] theorem unbind_t4_n1 (n m p q : Nat) (f : Nat → Nat → Nat → Nat → α) :
    unbind (t4 n m p q f) (-1) =
      .ok ((List.range q).map fun c => (t3 n m p fun i j k => f i j k c)) := by
  tev_list
  refine congrArg Except.ok (List.map_congr_left fun c hc => ?_)
  simp only [List.mem_range] at hc
  tevc3

@[tens] theorem unbind_t5_0 (n m p q r : Nat) (f : Nat → Nat → Nat → Nat → Nat → α) :
    unbind (t5 n m p q r f) 0 =
      .ok ((List.range n).map fun c => (t4 m p q r fun i j k o => f c i j k o)) := by
  tev_list
  refine congrArg Except.ok (List.map_congr_left fun c hc => ?_)
  simp only [List.mem_range] at hc
  tevc4

@[tens] theorem unbind_t5_n5 (n m p q r : Nat) (f : Nat → Nat → Nat → Nat → Nat → α) :
    unbind (t5 n m p q r f) (-5) =
      .ok ((List.range n).map fun c => (t4 m p q r fun i j k o => f c i j k o)) := by
  tev_list
  refine congrArg Except.ok (List.map_congr_left fun c hc => ?_)
  simp only [List.mem_range] at hc
  tevc4

@[tens] theorem unbind_t5_1 (n m p q r : Nat) (f : Nat → Nat → Nat → Nat → Nat → α) :
    unbind (t5 n m p q r f) 1 =
      .ok ((List.range m).map fun c => (t4 n p q r fun i j k o => f i c j k o)) := by
  tev_list
  refine congrArg Except.ok (List.map_congr_left fun c hc => ?_)
  simp only [List.mem_range] at hc
  tevc4

@[tens] theorem unbind_t5_n4 (n m p q r : Nat) (f : Nat → Nat → Nat → Nat → Nat → α) :
    unbind (t5 n m p q r f) (-4) =
      .ok ((List.range m).map fun c => (t4 n p q r fun i j k o => f i c j k o)) := by
  tev_list
  refine congrArg Except.ok (List.map_congr_left fun c hc => ?_)
  simp only [List.mem_range] at hc
  tevc4

@[tens] theorem unbind_t5_2 (n m p q r : Nat) (f : Nat → Nat → Nat → Nat → Nat → α) :
    unbind (t5 n m p q r f) 2 =
      .ok ((List.range p).map fun c => (t4 n m q r fun i j k o => f i j c k o)) := by
  tev_list
  refine congrArg Except.ok (List.map_congr_left fun c hc => ?_)
  simp only [List.mem_range] at hc
  tevc4

@[tens] theorem unbind_t5_n3 (n m p q r : Nat) (f : Nat → Nat → Nat → Nat → Nat → α) :
    unbind (t5 n m p q r f) (-3) =
      .ok ((List.range p).map fun c => (t4 n m q r fun i j k o => f i j c k o)) := by
  tev_list
  refine congrArg Except.ok (List.map_congr_left fun c hc => ?_)
  simp only [List.mem_range] at hc
  tevc4

@[tens] theorem unbind_t5_3 (n m p q r : Nat) (f : Nat → Nat → Nat → Nat → Nat → α) :
    unbind (t5 n m p q r f) 3 =
      .ok ((List.range q).map fun c => (t4 n m p r fun i j k o => f i j k c o)) := by
  tev_list
  refine congrArg Except.ok (List.map_congr_left fun c hc => ?_)
  simp only [List.mem_range] at hc
  tevc4

@[tens] theorem unbind_t5_n2 (n m p q r : Nat) (f : Nat → Nat → Nat → Nat → Nat → α) :
    unbind (t5 n m p q r f) (-2) =
      .ok ((List.range q).map fun c => (t4 n m p r fun i j k o => f i j k c o)) := by
  tev_list
  refine congrArg Except.ok (List.map_congr_left fun c hc => ?_)
  simp only [List.mem_range] at hc
  tevc4

@[tens] theorem unbind_t5_4 (n m p q r : Nat) (f : Nat → Nat → Nat → Nat → Nat → α) :
    unbind (t5 n m p q r f) 4 =
      .ok ((List.range r).map fun c => (t4 n m p q fun i j k o => f i j k o c)) := by
  tev_list
  refine congrArg Except.ok (List.map_congr_left fun c hc => ?_)
  simp only [List.mem_range] at hc
  tevc4

@[tens] theorem unbind_t5_n1 (n m p q r : Nat) (f : Nat → Nat → Nat → Nat → Nat → α) :
    unbind (t5 n m p q r f) (-1) =
      .ok ((List.range r).map fun c => (t4 n m p q fun i j k o => f i j k o c)) := by
  tev_list
  refine congrArg Except.ok (List.map_congr_left fun c hc => ?_)
  simp only [List.mem_range] at hc
  tevc4

@[tens] theorem stack_t0_0 (c : Nat) (f : Nat → α) (hc : 0 < c) :
    stack ((List.range c).map fun t => (t0 (f t))) 0 =
      .ok (t1 c fun i => f i) := by
  rw [stack_range_map _ (fun t => by rfl) hc]
  tev1

@[tens] theorem stack_t0_n1 (c : Nat) (f : Nat → α) (hc : 0 < c) :
    stack ((List.range c).map fun t => (t0 (f t))) (-1) =
      .ok (t1 c fun i => f i) := by
  rw [stack_range_map _ (fun t => by rfl) hc]
  tev1

@[tens] theorem stack_t1_0 (n : Nat) (c : Nat) (f : Nat → Nat → α) (hc : 0 < c) :
    stack ((List.range c).map fun t => (t1 n (f t))) 0 =
      .ok (t2 c n fun i j => f i j) := by
  rw [stack_range_map _ (fun t => by rfl) hc]
  tev2

@[tens] theorem stack_t1_n2 (n : Nat) (c : Nat) (f : Nat → Nat → α) (hc : 0 < c) :
    stack ((List.range c).map fun t => (t1 n (f t))) (-2) =
      .ok (t2 c n fun i j => f i j) := by
  rw [stack_range_map _ (fun t => by rfl) hc]
  tev2

@[tens] theorem stack_t1_1 (n : Nat) (c : Nat) (f : Nat → Nat → α) (hc : 0 < c) :
    stack ((List.range c).map fun t => (t1 n (f t))) 1 =
      .ok (t2 n c fun i j => f j i) := by
  rw [stack_range_map _ (fun t => by rfl) hc]
  tev2

@[tens] theorem stack_t1_n1 (n : Nat) (c : Nat) (f : Nat → Nat → α) (hc : 0 < c) :
    stack ((List.range c).map fun t => (t1 n (f t))) (-1) =
      .ok (t2 n c fun i j => f j i) := by
  rw [stack_range_map _ (fun t => by rfl) hc]
  tev2

@[tens] theorem stack_t2_0 (n m : Nat) (c : Nat) (f : Nat → Nat → Nat → α) (hc : 0 < c) :
    stack ((List.range c).map fun t => (t2 n m (f t))) 0 =
      .ok (t3 c n m fun i j k => f i j k) := by
  rw [stack_range_map _ (fun t => by rfl) hc]
  tev3

@[tens] theorem stack_t2_n3 (n m : Nat) (c : Nat) (f : Nat → Nat → Nat → α) (hc : 0 < c) :
    stack ((List.range c).map fun t => (t2 n m (f t))) (-3) =
      .ok (t3 c n m fun i j k => f i j k) := by
  rw [stack_range_map _ (fun t => by rfl) hc]
  tev3

@[tens] theorem stack_t2_1 (n m : Nat) (c : Nat) (f : Nat → Nat → Nat → α) (hc : 0 < c) :
    stack ((List.range c).map fun t => (t2 n m (f t))) 1 =
      .ok (t3 n c m fun i j k => f j i k) := by
  rw [stack_range_map _ (fun t => by rfl) hc]
  tev3

@[tens] theorem stack_t2_n2 (n m : Nat) (c : Nat) (f : Nat → Nat → Nat → α) (hc : 0 < c) :
    stack ((List.range c).map fun t => (t2 n m (f t))) (-2) =
      .ok (t3 n c m fun i j k => f j i k) := by
  rw [stack_range_map _ (fun t => by rfl) hc]
  tev3

@[tens] theorem stack_t2_2 (n m : Nat) (c : Nat) (f : Nat → Nat → Nat → α) (hc : 0 < c) :
    stack ((List.range c).map fun t => (t2 n m (f t))) 2 =
      .ok (t3 n m c fun i j k => f k i j) := by
  rw [stack_range_map _ (fun t => by rfl) hc]
  tev3

@[tens] theorem stack_t2_n1 (n m : Nat) (c : Nat) (f : Nat → Nat → Nat → α) (hc : 0 < c) :
    stack ((List.range c).map fun t => (t2 n m (f t))) (-1) =
      .ok (t3 n m c fun i j k => f k i j) := by
  rw [stack_range_map _ (fun t => by rfl) hc]
  tev3

@[tens] theorem stack_t3_0 (n m p : Nat) (c : Nat) (f : Nat → Nat → Nat → Nat → α) (hc : 0 < c) :
    stack ((List.range c).map fun t => (t3 n m p (f t))) 0 =
      .ok (t4 c n m p fun i j k o => f i j k o) := by
  rw [stack_range_map _ (fun t => by rfl) hc]
  tev4

@[tens] theorem stack_t3_n4 (n m p : Nat) (c : Nat) (f : Nat → Nat → Nat → Nat → α) (hc : 0 < c) :
    stack ((List.range c).map fun t => (t3 n m p (f t))) (-4) =
      .ok (t4 c n m p fun i j k o => f i j k o) := by
  rw [stack_range_map _ (fun t => by rfl) hc]
  tev4

@[tens] theorem stack_t3_1 (n m p : Nat) (c : Nat) (f : Nat → Nat → Nat → Nat → α) (hc : 0 < c) :
    stack ((List.range c).map fun t => (t3 n m p (f t))) 1 =
      .ok (t4 n c m p fun i j k o => f j i k o) := by
  rw [stack_range_map _ (fun t => by rfl) hc]
  tev4

@[tens] theorem stack_t3_n3 (n m p : Nat) (c : Nat) (f : Nat → Nat → Nat → Nat → α) (hc : 0 < c) :
    stack ((List.range c).map fun t => (t3 n m p (f t))) (-3) =
      .ok (t4 n c m p fun i j k o => f j i k o) := by
  rw [stack_range_map _ (fun t => by rfl) hc]
  tev4

@[tens] theorem stack_t3_2 (n m p : Nat) (c : Nat) (f : Nat → Nat → Nat → Nat → α) (hc : 0 < c) :
    stack ((List.range c).map fun t => (t3 n m p (f t))) 2 =
      .ok (t4 n m c p fun i j k o => f k i j o) := by
  rw [stack_range_map _ (fun t => by rfl) hc]
  tev4

@[tens] theorem stack_t3_n2 (n m p : Nat) (c : Nat) (f : Nat → Nat → Nat → Nat → α) (hc : 0 < c) :
    stack ((List.range c).map fun t => (t3 n m p (f t))) (-2) =
      .ok (t4 n m c p fun i j k o => f k i j o) := by
  rw [stack_range_map _ (fun t => by rfl) hc]
  tev4

@[tens] theorem stack_t3_3 (n m p : Nat) (c : Nat) (f : Nat → Nat → Nat → Nat → α) (hc : 0 < c) :
    stack ((List.range c).map fun t => (t3 n m p (f t))) 3 =
      .ok (t4 n m p c fun i j k o => f o i j k) := by
  rw [stack_range_map _ (fun t => by rfl) hc]
  tev4

@[tens] theorem stack_t3_n1 (n m p : Nat) (c : Nat) (f : Nat → Nat → Nat → Nat → α) (hc : 0 < c) :
    stack ((List.range c).map fun t => (t3 n m p (f t))) (-1) =
      .ok (t4 n m p c fun i j k o => f o i j k) := by
  rw [stack_range_map _ (fun t => by rfl) hc]
  tev4

@[tens] theorem stack_t4_0 (n m p q : Nat) (c : Nat) (f : Nat → Nat → Nat → Nat → Nat → α) (hc : 0 < c) :
    stack ((List.range c).map fun t => (t4 n m p q (f t))) 0 =
      .ok (t5 c n m p q fun i j k o u => f i j k o u) := by
  rw [stack_range_map _ (fun t => by rfl) hc]
  tev5

@[tens] theorem stack_t4_n5 (n m p q : Nat) (c : Nat) (f : Nat → Nat → Nat → Nat → Nat → α) (hc : 0 < c) :
    stack ((List.range c).map fun t => (t4 n m p q (f t))) (-5) =
      .ok (t5 c n m p q fun i j k o u => f i j k o u) := by
  rw [stack_range_map _ (fun t => by rfl) hc]
  tev5

@[tens] theorem stack_t4_1 (n m p q : Nat) (c : Nat) (f : Nat → Nat → Nat → Nat → Nat → α) (hc : 0 < c) :
    stack ((List.range c).map fun t => (t4 n m p q (f t))) 1 =
      .ok (t5 n c m p q fun i j k o u => f j i k o u) := by
  rw [stack_range_map _ (fun t => by rfl) hc]
  tev5

@[tens] theorem stack_t4_n4 (n m p q : Nat) (c : Nat) (f : Nat → Nat → Nat → Nat → Nat → α) (hc : 0 < c) :
    stack ((List.range c).map fun t => (t4 n m p q (f t))) (-4) =
      .ok (t5 n c m p q fun i j k o u => f j i k o u) := by
  rw [stack_range_map _ (fun t => by rfl) hc]
  tev5

@[tens] theorem stack_t4_2 (n m p q : Nat) (c : Nat) (f : Nat → Nat → Nat → Nat → Nat → α) (hc : 0 < c) :
    stack ((List.range c).map fun t => (t4 n m p q (f t))) 2 =
      .ok (t5 n m c p q fun i j k o u => f k i j o u) := by
  rw [stack_range_map _ (fun t => by rfl) hc]
  tev5

@[tens] theorem stack_t4_n3 (n m p q : Nat) (c : Nat) (f : Nat → Nat → Nat → Nat → Nat → α) (hc : 0 < c) :
    stack ((List.range c).map fun t => (t4 n m p q (f t))) (-3) =
      .ok (t5 n m c p q fun i j k o u => f k i j o u) := by
  rw [stack_range_map _ (fun t => by rfl) hc]
  tev5

@[tens] theorem stack_t4_3 (n m p q : Nat) (c : Nat) (f : Nat → Nat → Nat → Nat → Nat → α) (hc : 0 < c) :
    stack ((List.range c).map fun t => (t4 n m p q (f t))) 3 =
      .ok (t5 n m p c q fun i j k o u => f o i j k u) := by
  rw [stack_range_map _ (fun t => by rfl) hc]
  tev5

@[tens] theorem stack_t4_n2 (n m p q : Nat) (c : Nat) (f : Nat → Nat → Nat → Nat → Nat → α) (hc : 0 < c) :
    stack ((List.range c).map fun t => (t4 n m p q (f t))) (-2) =
      .ok (t5 n m p c q fun i j k o u => f o i j k u) := by
  rw [stack_range_map _ (fun t => by rfl) hc]
  tev5

@[tens] theorem stack_t4_4 (n m p q : Nat) (c : Nat) (f : Nat → Nat → Nat → Nat → Nat → α) (hc : 0 < c) :
    stack ((List.range c).map fun t => (t4 n m p q (f t))) 4 =
      .ok (t5 n m p q c fun i j k o u => f u i j k o) := by
  rw [stack_range_map _ (fun t => by rfl) hc]
  tev5

@[tens] theorem stack_t4_n1 (n m p q : Nat) (c : Nat) (f : Nat → Nat → Nat → Nat → Nat → α) (hc : 0 < c) :
    stack ((List.range c).map fun t => (t4 n m p q (f t))) (-1) =
      .ok (t5 n m p q c fun i j k o u => f u i j k o) := by
  rw [stack_range_map _ (fun t => by rfl) hc]
  tev5

@[tens] theorem cat2_t1_0 (c c' : Nat) (f : Nat → α) (g : Nat → α) :
    cat2 (t1 c f) (t1 c' g) 0 =
      .ok (t1 (c + c') fun i => if i < c then f i else g (i - c)) := by
  tev_list
  rw [check_true (by simp)]
  refine congrArg Except.ok (ext1 rfl rfl ?_)
  intro i hi
  tev_core

@[tens] theorem cat2_t1_n1 (c c' : Nat) (f : Nat → α) (g : Nat → α) :
    cat2 (t1 c f) (t1 c' g) (-1) =
      .ok (t1 (c + c') fun i => if i < c then f i else g (i - c)) := by
  tev_list
  rw [check_true (by simp)]
  refine congrArg Except.ok (ext1 rfl rfl ?_)
  intro i hi
  tev_core

@[tens] theorem cat2_t2_0 (m : Nat) (c c' : Nat) (f : Nat → Nat → α) (g : Nat → Nat → α) :
    cat2 (t2 c m f) (t2 c' m g) 0 =
      .ok (t2 (c + c') m fun i j => if i < c then f i j else g (i - c) j) := by
  tev_list
  rw [check_true (by simp)]
  refine congrArg Except.ok (ext2 rfl rfl ?_)
  intro i j hi hj
  tev_core

@[tens] theorem cat2_t2_n2 (m : Nat) (c c' : Nat) (f : Nat → Nat → α) (g : Nat → Nat → α) :
    cat2 (t2 c m f) (t2 c' m g) (-2) =
      .ok (t2 (c + c') m fun i j => if i < c then f i j else g (i - c) j) := by
  tev_list
  rw [check_true (by simp)]
  refine congrArg Except.ok (ext2 rfl rfl ?_)
  intro i j hi hj
  tev_core

@[tens] theorem cat2_t2_1 (n : Nat) (c c' : Nat) (f : Nat → Nat → α) (g : Nat → Nat → α) :
    cat2 (t2 n c f) (t2 n c' g) 1 =
      .ok (t2 n (c + c') fun i j => if j < c then f i j else g i (j - c)) := by
  tev_list
  rw [check_true (by simp)]
  refine congrArg Except.ok (ext2 rfl rfl ?_)
  intro i j hi hj
  tev_core

@[tens] theorem cat2_t2_n1 (n : Nat) (c c' : Nat) (f : Nat → Nat → α) (g : Nat → Nat → α) :
    cat2 (t2 n c f) (t2 n c' g) (-1) =
      .ok (t2 n (c + c') fun i j => if j < c then f i j else g i (j - c)) := by
  tev_list
  rw [check_true (by simp)]
  refine congrArg Except.ok (ext2 rfl rfl ?_)
  intro i j hi hj
  tev_core

@[tens] theorem cat2_t3_0 (m p : Nat) (c c' : Nat) (f : Nat → Nat → Nat → α) (g : Nat → Nat → Nat → α) :
    cat2 (t3 c m p f) (t3 c' m p g) 0 =
      .ok (t3 (c + c') m p fun i j k => if i < c then f i j k else g (i - c) j k) := by
  tev_list
  rw [check_true (by simp)]
  refine congrArg Except.ok (ext3 rfl rfl ?_)
  intro i j k hi hj hk
  tev_core

@[tens] theorem cat2_t3_n3 (m p : Nat) (c c' : Nat) (f : Nat → Nat → Nat → α) (g : Nat → Nat → Nat → α) :
    cat2 (t3 c m p f) (t3 c' m p g) (-3) =
      .ok (t3 (c + c') m p fun i j k => if i < c then f i j k else g (i - c) j k) := by
  tev_list
  rw [check_true (by simp)]
  refine congrArg Except.ok (ext3 rfl rfl ?_)
  intro i j k hi hj hk
  tev_core

@[tens] theorem cat2_t3_1 (n p : Nat) (c c' : Nat) (f : Nat → Nat → Nat → α) (g : Nat → Nat → Nat → α) :
    cat2 (t3 n c p f) (t3 n c' p g) 1 =
      .ok (t3 n (c + c') p fun i j k => if j < c then f i j k else g i (j - c) k) := by
  tev_list
  rw [check_true (by simp)]
  refine congrArg Except.ok (ext3 rfl rfl ?_)
  intro i j k hi hj hk
  tev_core

@[tens] theorem cat2_t3_n2 (n p : Nat) (c c' : Nat) (f : Nat → Nat → Nat → α) (g : Nat → Nat → Nat → α) :
    cat2 (t3 n c p f) (t3 n c' p g) (-2) =
      .ok (t3 n (c + c') p fun i j k => if j < c then f i j k else g i (j - c) k) := by
  tev_list
  rw [check_true (by simp)]
  refine congrArg Except.ok (ext3 rfl rfl ?_)
  intro i j k hi hj hk
  tev_core

@[tens] theorem cat2_t3_2 (n m : Nat) (c c' : Nat) (f : Nat → Nat → Nat → α) (g : Nat → Nat → Nat → α) :
    cat2 (t3 n m c f) (t3 n m c' g) 2 =
      .ok (t3 n m (c + c') fun i j k => if k < c then f i j k else g i j (k - c)) := by
  tev_list
  rw [check_true (by simp)]
  refine congrArg Except.ok (ext3 rfl rfl ?_)
  intro i j k hi hj hk
  tev_core

@[tens] theorem cat2_t3_n1 (n m : Nat) (c c' : Nat) (f : Nat → Nat → Nat → α) (g : Nat → Nat → Nat → α) :
    cat2 (t3 n m c f) (t3 n m c' g) (-1) =
      .ok (t3 n m (c + c') fun i j k => if k < c then f i j k else g i j (k - c)) := by
  tev_list
  rw [check_true (by simp)]
  refine congrArg Except.ok (ext3 rfl rfl ?_)
  intro i j k hi hj hk
  tev_core

@[tens] theorem cat2_t4_0 (m p q : Nat) (c c' : Nat) (f : Nat → Nat → Nat → Nat → α) (g : Nat → Nat → Nat → Nat → α) :
    cat2 (t4 c m p q f) (t4 c' m p q g) 0 =
      .ok (t4 (c + c') m p q fun i j k o => if i < c then f i j k o else g (i - c) j k o) := by
  tev_list
  rw [check_true (by simp)]
  refine congrArg Except.ok (ext4 rfl rfl ?_)
  intro i j k o hi hj hk ho
  tev_core

@[tens] theorem cat2_t4_n4 (m p q : Nat) (c c' : Nat) (f : Nat → Nat → Nat → Nat → α) (g : Nat → Nat → Nat → Nat → α) :
    cat2 (t4 c m p q f) (t4 c' m p q g) (-4) =
      .ok (t4 (c + c') m p q fun i j k o => if i < c then f i j k o else g (i - c) j k o) := by
  tev_list
  rw [check_true (by simp)]
  refine congrArg Except.ok (ext4 rfl rfl ?_)
  intro i j k o hi hj hk ho
  tev_core

@[tens] theorem cat2_t4_1 (n p q : Nat) (c c' : Nat) (f : Nat → Nat → Nat → Nat → α) (g : Nat → Nat → Nat → Nat → α) :
    cat2 (t4 n c p q f) (t4 n c' p q g) 1 =
      .ok (t4 n (c + c') p q fun i j k o => if j < c then f i j k o else g i (j - c) k o) := by
  tev_list
  rw [check_true (by simp)]
  refine congrArg Except.ok (ext4 rfl rfl ?_)
  intro i j k o hi hj hk ho
  tev_core

@[tens] theorem cat2_t4_n3 (n p q : Nat) (c c' : Nat) (f : Nat → Nat → Nat → Nat → α) (g : Nat → Nat → Nat → Nat → α) :
    cat2 (t4 n c p q f) (t4 n c' p q g) (-3) =
      .ok (t4 n (c + c') p q fun i j k o => if j < c then f i j k o else g i (j - c) k o) := by
  tev_list
  rw [check_true (by simp)]
  refine congrArg Except.ok (ext4 rfl rfl ?_)
  intro i j k o hi hj hk ho
  tev_core

@[tens] theorem cat2_t4_2 (n m q : Nat) (c c' : Nat) (f : Nat → Nat → Nat → Nat → α) (g : Nat → Nat → Nat → Nat → α) :
    cat2 (t4 n m c q f) (t4 n m c' q g) 2 =
      .ok (t4 n m (c + c') q fun i j k o => if k < c then f i j k o else g i j (k - c) o) := by
  tev_list
  rw [check_true (by simp)]
  refine congrArg Except.ok (ext4 rfl rfl ?_)
  intro i j k o hi hj hk ho
  tev_core

@[tens] theorem cat2_t4_n2 (n m q : Nat) (c c' : Nat) (f : Nat → Nat → Nat → Nat → α) (g : Nat → Nat → Nat → Nat → α) :
    cat2 (t4 n m c q f) (t4 n m c' q g) (-2) =
      .ok (t4 n m (c + c') q fun i j k o => if k < c then f i j k o else g i j (k - c) o) := by
  tev_list
  rw [check_true (by simp)]
  refine congrArg Except.ok (ext4 rfl rfl ?_)
  intro i j k o hi hj hk ho
  tev_core

@[tens] theorem cat2_t4_3 (n m p : Nat) (c c' : Nat) (f : Nat → Nat → Nat → Nat → α) (g : Nat → Nat → Nat → Nat → α) :
    cat2 (t4 n m p c f) (t4 n m p c' g) 3 =
      .ok (t4 n m p (c + c') fun i j k o => if o < c then f i j k o else g i j k (o - c)) := by
  tev_list
  rw [check_true (by simp)]
  refine congrArg Except.ok (ext4 rfl rfl ?_)
  intro i j k o hi hj hk ho
  tev_core

@[tens] theorem cat2_t4_n1 (n m p : Nat) (c c' : Nat) (f : Nat → Nat → Nat → Nat → α) (g : Nat → Nat → Nat → Nat → α) :
    cat2 (t4 n m p c f) (t4 n m p c' g) (-1) =
      .ok (t4 n m p (c + c') fun i j k o => if o < c then f i j k o else g i j k (o - c)) := by
  tev_list
  rw [check_true (by simp)]
  refine congrArg Except.ok (ext4 rfl rfl ?_)
  intro i j k o hi hj hk ho
  tev_core

@[tens] theorem cat2_t5_0 (m p q r : Nat) (c c' : Nat) (f : Nat → Nat → Nat → Nat → Nat → α) (g : Nat → Nat → Nat → Nat → Nat → α) :
    cat2 (t5 c m p q r f) (t5 c' m p q r g) 0 =
      .ok (t5 (c + c') m p q r fun i j k o u => if i < c then f i j k o u else g (i - c) j k o u) := by
  tev_list
  rw [check_true (by simp)]
  refine congrArg Except.ok (ext5 rfl rfl ?_)
  intro i j k o u hi hj hk ho hu
  tev_core

@[tens] theorem cat2_t5_n5 (m p q r : Nat) (c c' : Nat) (f : Nat → Nat → Nat → Nat → Nat → α) (g : Nat → Nat → Nat → Nat → Nat → α) :
    cat2 (t5 c m p q r f) (t5 c' m p q r g) (-5) =
      .ok (t5 (c + c') m p q r fun i j k o u => if i < c then f i j k o u else g (i - c) j k o u) := by
  tev_list
  rw [check_true (by simp)]
  refine congrArg Except.ok (ext5 rfl rfl ?_)
  intro i j k o u hi hj hk ho hu
  tev_core

@[tens] theorem cat2_t5_1 (n p q r : Nat) (c c' : Nat) (f : Nat → Nat → Nat → Nat → Nat → α) (g : Nat → Nat → Nat → Nat → Nat → α) :
    cat2 (t5 n c p q r f) (t5 n c' p q r g) 1 =
      .ok (t5 n (c + c') p q r fun i j k o u => if j < c then f i j k o u else g i (j - c) k o u) := by
  tev_list
  rw [check_true (by simp)]
  refine congrArg Except.ok (ext5 rfl rfl ?_)
  intro i j k o u hi hj hk ho hu
  tev_core

@[tens] theorem cat2_t5_n4 (n p q r : Nat) (c c' : Nat) (f : Nat → Nat → Nat → Nat → Nat → α) (g : Nat → Nat → Nat → Nat → Nat → α) :
    cat2 (t5 n c p q r f) (t5 n c' p q r g) (-4) =
      .ok (t5 n (c + c') p q r fun i j k o u => if j < c then f i j k o u else g i (j - c) k o u) := by
  tev_list
  rw [check_true (by simp)]
  refine congrArg Except.ok (ext5 rfl rfl ?_)
  intro i j k o u hi hj hk ho hu
  tev_core

@[tens] theorem cat2_t5_2 (n m q r : Nat) (c c' : Nat) (f : Nat → Nat → Nat → Nat → Nat → α) (g : Nat → Nat → Nat → Nat → Nat → α) :
    cat2 (t5 n m c q r f) (t5 n m c' q r g) 2 =
      .ok (t5 n m (c + c') q r fun i j k o u => if k < c then f i j k o u else g i j (k - c) o u) := by
  tev_list
  rw [check_true (by simp)]
  refine congrArg Except.ok (ext5 rfl rfl ?_)
  intro i j k o u hi hj hk ho hu
  tev_core

@[tens] theorem cat2_t5_n3 (n m q r : Nat) (c c' : Nat) (f : Nat → Nat → Nat → Nat → Nat → α) (g : Nat → Nat → Nat → Nat → Nat → α) :
    cat2 (t5 n m c q r f) (t5 n m c' q r g) (-3) =
      .ok (t5 n m (c + c') q r fun i j k o u => if k < c then f i j k o u else g i j (k - c) o u) := by
  tev_list
  rw [check_true (by simp)]
  refine congrArg Except.ok (ext5 rfl rfl ?_)
  intro i j k o u hi hj hk ho hu
  tev_core

@[tens] theorem cat2_t5_3 (n m p r : Nat) (c c' : Nat) (f : Nat → Nat → Nat → Nat → Nat → α) (g : Nat → Nat → Nat → Nat → Nat → α) :
    cat2 (t5 n m p c r f) (t5 n m p c' r g) 3 =
      .ok (t5 n m p (c + c') r fun i j k o u => if o < c then f i j k o u else g i j k (o - c) u) := by
  tev_list
  rw [check_true (by simp)]
  refine congrArg Except.ok (ext5 rfl rfl ?_)
  intro i j k o u hi hj hk ho hu
  tev_core

@[tens] theorem cat2_t5_n2 (n m p r : Nat) (c c' : Nat) (f : Nat → Nat → Nat → Nat → Nat → α) (g : Nat → Nat → Nat → Nat → Nat → α) :
    cat2 (t5 n m p c r f) (t5 n m p c' r g) (-2) =
      .ok (t5 n m p (c + c') r fun i j k o u => if o < c then f i j k o u else g i j k (o - c) u) := by
  tev_list
  rw [check_true (by simp)]
  refine congrArg Except.ok (ext5 rfl rfl ?_)
  intro i j k o u hi hj hk ho hu
  tev_core

@[tens] theorem cat2_t5_4 (n m p q : Nat) (c c' : Nat) (f : Nat → Nat → Nat → Nat → Nat → α) (g : Nat → Nat → Nat → Nat → Nat → α) :
    cat2 (t5 n m p q c f) (t5 n m p q c' g) 4 =
      .ok (t5 n m p q (c + c') fun i j k o u => if u < c then f i j k o u else g i j k o (u - c)) := by
  tev_list
  rw [check_true (by simp)]
  refine congrArg Except.ok (ext5 rfl rfl ?_)
  intro i j k o u hi hj hk ho hu
  tev_core

@[tens] theorem cat2_t5_n1 (n m p q : Nat) (c c' : Nat) (f : Nat → Nat → Nat → Nat → Nat → α) (g : Nat → Nat → Nat → Nat → Nat → α) :
    cat2 (t5 n m p q c f) (t5 n m p q c' g) (-1) =
      .ok (t5 n m p q (c + c') fun i j k o u => if u < c then f i j k o u else g i j k o (u - c)) := by
  tev_list
  rw [check_true (by simp)]
  refine congrArg Except.ok (ext5 rfl rfl ?_)
  intro i j k o u hi hj hk ho hu
  tev_core

@[tens] theorem padDim_t1_0_right (n : Nat) (c : Nat) (f : Nat → α) (v : α) :
    padDim (t1 n f) 0 0 (c : Int) v =
      .ok (t1 (n + c) fun i => if i < n then f i else v) := by
  tev_list
  rw [check_true (by omega)]
  refine congrArg Except.ok (ext1 (by simp; omega) rfl ?_)
  intro i hi
  tev_pad
  split_ifs <;> first | tev_core | omega

@[tens] theorem padDim_t1_0_left (n : Nat) (c : Nat) (f : Nat → α) (v : α) :
    padDim (t1 n f) 0 (c : Int) 0 v =
      .ok (t1 (n + c) fun i => if i < c then v else f (i - c)) := by
  tev_list
  rw [check_true (by omega)]
  refine congrArg Except.ok (ext1 (by simp; omega) rfl ?_)
  intro i hi
  tev_pad
  split_ifs <;> first | tev_core | omega

@[tens] theorem padDim_t1_n1_right (n : Nat) (c : Nat) (f : Nat → α) (v : α) :
    padDim (t1 n f) (-1) 0 (c : Int) v =
      .ok (t1 (n + c) fun i => if i < n then f i else v) := by
  tev_list
  rw [check_true (by omega)]
  refine congrArg Except.ok (ext1 (by simp; omega) rfl ?_)
  intro i hi
  tev_pad
  split_ifs <;> first | tev_core | omega

@[tens] theorem padDim_t1_n1_left (n : Nat) (c : Nat) (f : Nat → α) (v : α) :
    padDim (t1 n f) (-1) (c : Int) 0 v =
      .ok (t1 (n + c) fun i => if i < c then v else f (i - c)) := by
  tev_list
  rw [check_true (by omega)]
  refine congrArg Except.ok (ext1 (by simp; omega) rfl ?_)
  intro i hi
  tev_pad
  split_ifs <;> first | tev_core | omega

@[tens] theorem padDim_t2_0_right (n m : Nat) (c : Nat) (f : Nat → Nat → α) (v : α) :
    padDim (t2 n m f) 0 0 (c : Int) v =
      .ok (t2 (n + c) m fun i j => if i < n then f i j else v) := by
  tev_list
  rw [check_true (by omega)]
  refine congrArg Except.ok (ext2 (by simp; omega) rfl ?_)
  intro i j hi hj
  tev_pad
  split_ifs <;> first | tev_core | omega

@[tens] theorem padDim_t2_0_left (n m : Nat) (c : Nat) (f : Nat → Nat → α) (v : α) :
    padDim (t2 n m f) 0 (c : Int) 0 v =
      .ok (t2 (n + c) m fun i j => if i < c then v else f (i - c) j) := by
  tev_list
  rw [check_true (by omega)]
  refine congrArg Except.ok (ext2 (by simp; omega) rfl ?_)
  intro i j hi hj
  tev_pad
  split_ifs <;> first | tev_core | omega

@[tens] theorem padDim_t2_n2_right (n m : Nat) (c : Nat) (f : Nat → Nat → α) (v : α) :
    padDim (t2 n m f) (-2) 0 (c : Int) v =
      .ok (t2 (n + c) m fun i j => if i < n then f i j else v) := by
  tev_list
  rw [check_true (by omega)]
  refine congrArg Except.ok (ext2 (by simp; omega) rfl ?_)
  intro i j hi hj
  tev_pad
  split_ifs <;> first | tev_core | omega

@[tens] theorem padDim_t2_n2_left (n m : Nat) (c : Nat) (f : Nat → Nat → α) (v : α) :
    padDim (t2 n m f) (-2) (c : Int) 0 v =
      .ok (t2 (n + c) m fun i j => if i < c then v else f (i - c) j) := by
  tev_list
  rw [check_true (by omega)]
  refine congrArg Except.ok (ext2 (by simp; omega) rfl ?_)
  intro i j hi hj
  tev_pad
  split_ifs <;> first | tev_core | omega

@[tens] theorem padDim_t2_1_right (n m : Nat) (c : Nat) (f : Nat → Nat → α) (v : α) :
    padDim (t2 n m f) 1 0 (c : Int) v =
      .ok (t2 n (m + c) fun i j => if j < m then f i j else v) := by
  tev_list
  rw [check_true (by omega)]
  refine congrArg Except.ok (ext2 (by simp; omega) rfl ?_)
  intro i j hi hj
  tev_pad
  split_ifs <;> first | tev_core | omega

@[tens] theorem padDim_t2_1_left (n m : Nat) (c : Nat) (f : Nat → Nat → α) (v : α) :
    padDim (t2 n m f) 1 (c : Int) 0 v =
      .ok (t2 n (m + c) fun i j => if j < c then v else f i (j - c)) := by
  tev_list
  rw [check_true (by omega)]
  refine congrArg Except.ok (ext2 (by simp; omega) rfl ?_)
  intro i j hi hj
  tev_pad
  split_ifs <;> first | tev_core | omega

@[tens] theorem padDim_t2_n1_right (n m : Nat) (c : Nat) (f : Nat → Nat → α) (v : α) :
    padDim (t2 n m f) (-1) 0 (c : Int) v =
      .ok (t2 n (m + c) fun i j => if j < m then f i j else v) := by
  tev_list
  rw [check_true (by omega)]
  refine congrArg Except.ok (ext2 (by simp; omega) rfl ?_)
  intro i j hi hj
  tev_pad
  split_ifs <;> first | tev_core | omega

@[tens] theorem padDim_t2_n1_left (n m : Nat) (c : Nat) (f : Nat → Nat → α) (v : α) :
    padDim (t2 n m f) (-1) (c : Int) 0 v =
      .ok (t2 n (m + c) fun i j => if j < c then v else f i (j - c)) := by
  tev_list
  rw [check_true (by omega)]
  refine congrArg Except.ok (ext2 (by simp; omega) rfl ?_)
  intro i j hi hj
  tev_pad
  split_ifs <;> first | tev_core | omega

@[tens] theorem padDim_t3_0_right (n m p : Nat) (c : Nat) (f : Nat → Nat → Nat → α) (v : α) :
    padDim (t3 n m p f) 0 0 (c : Int) v =
      .ok (t3 (n + c) m p fun i j k => if i < n then f i j k else v) := by
  tev_list
  rw [check_true (by omega)]
  refine congrArg Except.ok (ext3 (by simp; omega) rfl ?_)
  intro i j k hi hj hk
  tev_pad
  split_ifs <;> first | tev_core | omega

@[tens] theorem padDim_t3_0_left (n m p : Nat) (c : Nat) (f : Nat → Nat → Nat → α) (v : α) :
    padDim (t3 n m p f) 0 (c : Int) 0 v =
      .ok (t3 (n + c) m p fun i j k => if i < c then v else f (i - c) j k) := by
  tev_list
  rw [check_true (by omega)]
  refine congrArg Except.ok (ext3 (by simp; omega) rfl ?_)
  intro i j k hi hj hk
  tev_pad
  split_ifs <;> first | tev_core | omega

@[tens] theorem padDim_t3_n3_right (n m p : Nat) (c : Nat) (f : Nat → Nat → Nat → α) (v : α) :
    padDim (t3 n m p f) (-3) 0 (c : Int) v =
      .ok (t3 (n + c) m p fun i j k => if i < n then f i j k else v) := by
  tev_list
  rw [check_true (by omega)]
  refine congrArg Except.ok (ext3 (by simp; omega) rfl ?_)
  intro i j k hi hj hk
  tev_pad
  split_ifs <;> first | tev_core | omega

@[tens] theorem padDim_t3_n3_left (n m p : Nat) (c : Nat) (f : Nat → Nat → Nat → α) (v : α) :
    padDim (t3 n m p f) (-3) (c : Int) 0 v =
      .ok (t3 (n + c) m p fun i j k => if i < c then v else f (i - c) j k) := by
  tev_list
  rw [check_true (by omega)]
  refine congrArg Except.ok (ext3 (by simp; omega) rfl ?_)
  intro i j k hi hj hk
  tev_pad
  split_ifs <;> first | tev_core | omega

@[tens] theorem padDim_t3_1_right (n m p : Nat) (c : Nat) (f : Nat → Nat → Nat → α) (v : α) :
    padDim (t3 n m p f) 1 0 (c : Int) v =
      .ok (t3 n (m + c) p fun i j k => if j < m then f i j k else v) := by
  tev_list
  rw [check_true (by omega)]
  refine congrArg Except.ok (ext3 (by simp; omega) rfl ?_)
  intro i j k hi hj hk
  tev_pad
  split_ifs <;> first | tev_core | omega

@[tens] theorem padDim_t3_1_left (n m p : Nat) (c : Nat) (f : Nat → Nat → Nat → α) (v : α) :
    padDim (t3 n m p f) 1 (c : Int) 0 v =
      .ok (t3 n (m + c) p fun i j k => if j < c then v else f i (j - c) k) := by
  tev_list
  rw [check_true (by omega)]
  refine congrArg Except.ok (ext3 (by simp; omega) rfl ?_)
  intro i j k hi hj hk
  tev_pad
  split_ifs <;> first | tev_core | omega

@[tens] theorem padDim_t3_n2_right (n m p : Nat) (c : Nat) (f : Nat → Nat → Nat → α) (v : α) :
    padDim (t3 n m p f) (-2) 0 (c : Int) v =
      .ok (t3 n (m + c) p fun i j k => if j < m then f i j k else v) := by
  tev_list
  rw [check_true (by omega)]
  refine congrArg Except.ok (ext3 (by simp; omega) rfl ?_)
  intro i j k hi hj hk
  tev_pad
  split_ifs <;> first | tev_core | omega

@[tens] theorem padDim_t3_n2_left (n m p : Nat) (c : Nat) (f : Nat → Nat → Nat → α) (v : α) :
    padDim (t3 n m p f) (-2) (c : Int) 0 v =
      .ok (t3 n (m + c) p fun i j k => if j < c then v else f i (j - c) k) := by
  tev_list
  rw [check_true (by omega)]
  refine congrArg Except.ok (ext3 (by simp; omega) rfl ?_)
  intro i j k hi hj hk
  tev_pad
  split_ifs <;> first | tev_core | omega

@[tens] theorem padDim_t3_2_right (n m p : Nat) (c : Nat) (f : Nat → Nat → Nat → α) (v : α) :
    padDim (t3 n m p f) 2 0 (c : Int) v =
      .ok (t3 n m (p + c) fun i j k => if k < p then f i j k else v) := by
  tev_list
  rw [check_true (by omega)]
  refine congrArg Except.ok (ext3 (by simp; omega) rfl ?_)
  intro i j k hi hj hk
  tev_pad
  split_ifs <;> first | tev_core | omega

@[tens] theorem padDim_t3_2_left (n m p : Nat) (c : Nat) (f : Nat → Nat → Nat → α) (v : α) :
    padDim (t3 n m p f) 2 (c : Int) 0 v =
      .ok (t3 n m (p + c) fun i j k => if k < c then v else f i j (k - c)) := by
  tev_list
  rw [check_true (by omega)]
  refine congrArg Except.ok (ext3 (by simp; omega) rfl ?_)
  intro i j k hi hj hk
  tev_pad
  split_ifs <;> first | tev_core | omega

@[tens] theorem padDim_t3_n1_right (n m p : Nat) (c : Nat) (f : Nat → Nat → Nat → α) (v : α) :
    padDim (t3 n m p f) (-1) 0 (c : Int) v =
      .ok (t3 n m (p + c) fun i j k => if k < p then f i j k else v) := by
  tev_list
  rw [check_true (by omega)]
  refine congrArg Except.ok (ext3 (by simp; omega) rfl ?_)
  intro i j k hi hj hk
  tev_pad
  split_ifs <;> first | tev_core | omega

@[tens] theorem padDim_t3_n1_left (n m p : Nat) (c : Nat) (f : Nat → Nat → Nat → α) (v : α) :
    padDim (t3 n m p f) (-1) (c : Int) 0 v =
      .ok (t3 n m (p + c) fun i j k => if k < c then v else f i j (k - c)) := by
  tev_list
  rw [check_true (by omega)]
  refine congrArg Except.ok (ext3 (by simp; omega) rfl ?_)
  intro i j k hi hj hk
  tev_pad
  split_ifs <;> first | tev_core | omega

@[tens] theorem padDim_t4_0_right (n m p q : Nat) (c : Nat) (f : Nat → Nat → Nat → Nat → α) (v : α) :
    padDim (t4 n m p q f) 0 0 (c : Int) v =
      .ok (t4 (n + c) m p q fun i j k o => if i < n then f i j k o else v) := by
  tev_list
  rw [check_true (by omega)]
  refine congrArg Except.ok (ext4 (by simp; omega) rfl ?_)
  intro i j k o hi hj hk ho
  tev_pad
  split_ifs <;> first | tev_core | omega

@[tens] theorem padDim_t4_0_left (n m p q : Nat) (c : Nat) (f : Nat → Nat → Nat → Nat → α) (v : α) :
    padDim (t4 n m p q f) 0 (c : Int) 0 v =
      .ok (t4 (n + c) m p q fun i j k o => if i < c then v else f (i - c) j k o) := by
  tev_list
  rw [check_true (by omega)]
  refine congrArg Except.ok (ext4 (by simp; omega) rfl ?_)
  intro i j k o hi hj hk ho
  tev_pad
  split_ifs <;> first | tev_core | omega

@[tens] theorem padDim_t4_n4_right (n m p q : Nat) (c : Nat) (f : Nat → Nat → Nat → Nat → α) (v : α) :
    padDim (t4 n m p q f) (-4) 0 (c : Int) v =
      .ok (t4 (n + c) m p q fun i j k o => if i < n then f i j k o else v) := by
  tev_list
  rw [check_true (by omega)]
  refine congrArg Except.ok (ext4 (by simp; omega) rfl ?_)
  intro i j k o hi hj hk ho
  tev_pad
  split_ifs <;> first | tev_core | omega

@[tens] theorem padDim_t4_n4_left (n m p q : Nat) (c : Nat) (f : Nat → Nat → Nat → Nat → α) (v : α) :
    padDim (t4 n m p q f) (-4) (c : Int) 0 v =
      .ok (t4 (n + c) m p q fun i j k o => if i < c then v else f (i - c) j k o) := by
  tev_list
  rw [check_true (by omega)]
  refine congrArg Except.ok (ext4 (by simp; omega) rfl ?_)
  intro i j k o hi hj hk ho
  tev_pad
  split_ifs <;> first | tev_core | omega

@[tens] theorem padDim_t4_1_right (n m p q : Nat) (c : Nat) (f : Nat → Nat → Nat → Nat → α) (v : α) :
    padDim (t4 n m p q f) 1 0 (c : Int) v =
      .ok (t4 n (m + c) p q fun i j k o => if j < m then f i j k o else v) := by
  tev_list
  rw [check_true (by omega)]
  refine congrArg Except.ok (ext4 (by simp; omega) rfl ?_)
  intro i j k o hi hj hk ho
  tev_pad
  split_ifs <;> first | tev_core | omega

@[tens] theorem padDim_t4_1_left (n m p q : Nat) (c : Nat) (f : Nat → Nat → Nat → Nat → α) (v : α) :
    padDim (t4 n m p q f) 1 (c : Int) 0 v =
      .ok (t4 n (m + c) p q fun i j k o => if j < c then v else f i (j - c) k o) := by
  tev_list
  rw [check_true (by omega)]
  refine congrArg Except.ok (ext4 (by simp; omega) rfl ?_)
  intro i j k o hi hj hk ho
  tev_pad
  split_ifs <;> first | tev_core | omega

@[tens] theorem padDim_t4_n3_right (n m p q : Nat) (c : Nat) (f : Nat → Nat → Nat → Nat → α) (v : α) :
    padDim (t4 n m p q f) (-3) 0 (c : Int) v =
      .ok (t4 n (m + c) p q fun i j k o => if j < m then f i j k o else v) := by
  tev_list
  rw [check_true (by omega)]
  refine congrArg Except.ok (ext4 (by simp; omega) rfl ?_)
  intro i j k o hi hj hk ho
  tev_pad
  split_ifs <;> first | tev_core | omega

@[tens] theorem padDim_t4_n3_left (n m p q : Nat) (c : Nat) (f : Nat → Nat → Nat → Nat → α) (v : α) :
    padDim (t4 n m p q f) (-3) (c : Int) 0 v =
      .ok (t4 n (m + c) p q fun i j k o => if j < c then v else f i (j - c) k o) := by
  tev_list
  rw [check_true (by omega)]
  refine congrArg Except.ok (ext4 (by simp; omega) rfl ?_)
  intro i j k o hi hj hk ho
  tev_pad
  split_ifs <;> first | tev_core | omega

@[tens] theorem padDim_t4_2_right (n m p q : Nat) (c : Nat) (f : Nat → Nat → Nat → Nat → α) (v : α) :
    padDim (t4 n m p q f) 2 0 (c : Int) v =
      .ok (t4 n m (p + c) q fun i j k o => if k < p then f i j k o else v) := by
  tev_list
  rw [check_true (by omega)]
  refine congrArg Except.ok (ext4 (by simp; omega) rfl ?_)
  intro i j k o hi hj hk ho
  tev_pad
  split_ifs <;> first | tev_core | omega

@[tens] theorem padDim_t4_2_left (n m p q : Nat) (c : Nat) (f : Nat → Nat → Nat → Nat → α) (v : α) :
    padDim (t4 n m p q f) 2 (c : Int) 0 v =
      .ok (t4 n m (p + c) q fun i j k o => if k < c then v else f i j (k - c) o) := by
  tev_list
  rw [check_true (by omega)]
  refine congrArg Except.ok (ext4 (by simp; omega) rfl ?_)
  intro i j k o hi hj hk ho
  tev_pad
  split_ifs <;> first | tev_core | omega

@[tens] theorem padDim_t4_n2_right (n m p q : Nat) (c : Nat) (f : Nat → Nat → Nat → Nat → α) (v : α) :
    padDim (t4 n m p q f) (-2) 0 (c : Int) v =
      .ok (t4 n m (p + c) q fun i j k o => if k < p then f i j k o else v) := by
  tev_list
  rw [check_true (by omega)]
  refine congrArg Except.ok (ext4 (by simp; omega) rfl ?_)
  intro i j k o hi hj hk ho
  tev_pad
  split_ifs <;> first | tev_core | omega

@[tens] theorem padDim_t4_n2_left (n m p q : Nat) (c : Nat) (f : Nat → Nat → Nat → Nat → α) (v : α) :
    padDim (t4 n m p q f) (-2) (c : Int) 0 v =
      .ok (t4 n m (p + c) q fun i j k o => if k < c then v else f i j (k - c) o) := by
  tev_list
  rw [check_true (by omega)]
  refine congrArg Except.ok (ext4 (by simp; omega) rfl ?_)
  intro i j k o hi hj hk ho
  tev_pad
  split_ifs <;> first | tev_core | omega

@[tens] theorem padDim_t4_3_right (n m p q : Nat) (c : Nat) (f : Nat → Nat → Nat → Nat → α) (v : α) :
    padDim (t4 n m p q f) 3 0 (c : Int) v =
      .ok (t4 n m p (q + c) fun i j k o => if o < q then f i j k o else v) := by
  tev_list
  rw [check_true (by omega)]
  refine congrArg Except.ok (ext4 (by simp; omega) rfl ?_)
  intro i j k o hi hj hk ho
  tev_pad
  split_ifs <;> first | tev_core | omega

@[tens] theorem padDim_t4_3_left (n m p q : Nat) (c : Nat) (f : Nat → Nat → Nat → Nat → α) (v : α) :
    padDim (t4 n m p q f) 3 (c : Int) 0 v =
      .ok (t4 n m p (q + c) fun i j k o => if o < c then v else f i j k (o - c)) := by
  tev_list
  rw [check_true (by omega)]
  refine congrArg Except.ok (ext4 (by simp; omega) rfl ?_)
  intro i j k o hi hj hk ho
  tev_pad
  split_ifs <;> first | tev_core | omega

@[tens] theorem padDim_t4_n1_right (n m p q : Nat) (c : Nat) (f : Nat → Nat → Nat → Nat → α) (v : α) :
    padDim (t4 n m p q f) (-1) 0 (c : Int) v =
      .ok (t4 n m p (q + c) fun i j k o => if o < q then f i j k o else v) := by
  tev_list
  rw [check_true (by omega)]
  refine congrArg Except.ok (ext4 (by simp; omega) rfl ?_)
  intro i j k o hi hj hk ho
  tev_pad
  split_ifs <;> first | tev_core | omega

@[tens] theorem padDim_t4_n1_left (n m p q : Nat) (c : Nat) (f : Nat → Nat → Nat → Nat → α) (v : α) :
    padDim (t4 n m p q f) (-1) (c : Int) 0 v =
      .ok (t4 n m p (q + c) fun i j k o => if o < c then v else f i j k (o - c)) := by
  tev_list
  rw [check_true (by omega)]
  refine congrArg Except.ok (ext4 (by simp; omega) rfl ?_)
  intro i j k o hi hj hk ho
  tev_pad
  split_ifs <;> first | tev_core | omega

@[tens] theorem transpose_t2_n2_n1 (n m : Nat) (f : Nat → Nat → α) :
    transpose (t2 n m f) (-2) (-1) =
      .ok (t2 m n fun i j => f j i) := by
  tev2

@[tens] theorem transpose_t2_0_1 (n m : Nat) (f : Nat → Nat → α) :
    transpose (t2 n m f) 0 1 =
      .ok (t2 m n fun i j => f j i) := by
  tev2

@[tens] theorem transpose_t3_n2_n1 (n m p : Nat) (f : Nat → Nat → Nat → α) :
    transpose (t3 n m p f) (-2) (-1) =
      .ok (t3 n p m fun i j k => f i k j) := by
  tev3

@[tens] theorem transpose_t3_0_1 (n m p : Nat) (f : Nat → Nat → Nat → α) :
    transpose (t3 n m p f) 0 1 =
      .ok (t3 m n p fun i j k => f j i k) := by
  tev3

@[tens] theorem transpose_t3_1_2 (n m p : Nat) (f : Nat → Nat → Nat → α) :
    transpose (t3 n m p f) 1 2 =
      .ok (t3 n p m fun i j k => f i k j) := by
  tev3

@[tens] theorem transpose_t4_n2_n1 (n m p q : Nat) (f : Nat → Nat → Nat → Nat → α) :
    transpose (t4 n m p q f) (-2) (-1) =
      .ok (t4 n m q p fun i j k o => f i j o k) := by
  tev4

@[tens] theorem transpose_t4_0_1 (n m p q : Nat) (f : Nat → Nat → Nat → Nat → α) :
    transpose (t4 n m p q f) 0 1 =
      .ok (t4 m n p q fun i j k o => f j i k o) := by
  tev4

@[tens] theorem transpose_t4_1_2 (n m p q : Nat) (f : Nat → Nat → Nat → Nat → α) :
    transpose (t4 n m p q f) 1 2 =
      .ok (t4 n p m q fun i j k o => f i k j o) := by
  tev4

@[tens] theorem transpose_t5_n2_n1 (n m p q r : Nat) (f : Nat → Nat → Nat → Nat → Nat → α) :
    transpose (t5 n m p q r f) (-2) (-1) =
      .ok (t5 n m p r q fun i j k o u => f i j k u o) := by
  tev5

@[tens] theorem transpose_t5_0_1 (n m p q r : Nat) (f : Nat → Nat → Nat → Nat → Nat → α) :
    transpose (t5 n m p q r f) 0 1 =
      .ok (t5 m n p q r fun i j k o u => f j i k o u) := by
  tev5

@[tens] theorem transpose_t5_1_2 (n m p q r : Nat) (f : Nat → Nat → Nat → Nat → Nat → α) :
    transpose (t5 n m p q r f) 1 2 =
      .ok (t5 n p m q r fun i j k o u => f i k j o u) := by
  tev5

@[tens] theorem map_t0 (g : α → α) (f : α) :
    map g (t0 f) =
      (t0 (g (f))) := by
  tevm0

@[tens] theorem map_t1 (n : Nat) (g : α → α) (f : Nat → α) :
    map g (t1 n f) =
      (t1 n fun i => g (f i)) := by
  tevm1

@[tens] theorem map_t2 (n m : Nat) (g : α → α) (f : Nat → Nat → α) :
    map g (t2 n m f) =
      (t2 n m fun i j => g (f i j)) := by
  tevm2

@[tens] theorem map_t3 (n m p : Nat) (g : α → α) (f : Nat → Nat → Nat → α) :
    map g (t3 n m p f) =
      (t3 n m p fun i j k => g (f i j k)) := by
  tevm3

@[tens] theorem map_t4 (n m p q : Nat) (g : α → α) (f : Nat → Nat → Nat → Nat → α) :
    map g (t4 n m p q f) =
      (t4 n m p q fun i j k o => g (f i j k o)) := by
  tevm4

@[tens] theorem map_t5 (n m p q r : Nat) (g : α → α) (f : Nat → Nat → Nat → Nat → Nat → α) :
    map g (t5 n m p q r f) =
      (t5 n m p q r fun i j k o u => g (f i j k o u)) := by
  tevm5

@[tens] theorem full_t0 (v : α) :
    full [] v =
      (t0 (v)) := by
  tevm0

@[tens] theorem full_t1 (n : Nat) (v : α) :
    full [n] v =
      (t1 n fun _ => v) := by
  tevm1

@[tens] theorem full_t2 (n m : Nat) (v : α) :
    full [n, m] v =
      (t2 n m fun _ _ => v) := by
  tevm2

@[tens] theorem full_t3 (n m p : Nat) (v : α) :
    full [n, m, p] v =
      (t3 n m p fun _ _ _ => v) := by
  tevm3

@[tens] theorem full_t4 (n m p q : Nat) (v : α) :
    full [n, m, p, q] v =
      (t4 n m p q fun _ _ _ _ => v) := by
  tevm4

@[tens] theorem full_t5 (n m p q r : Nat) (v : α) :
    full [n, m, p, q, r] v =
      (t5 n m p q r fun _ _ _ _ _ => v) := by
  tevm5

@[tens] theorem flatten_t2_0_1 (n m : Nat) (f : Nat → Nat → α) :
    flatten (t2 n m f) 0 1 =
      .ok (t1 (n * m) fun i => f (i / m) (i % m)) := by
  tev_list
  rw [check_true (by decide)]
  refine congrArg Except.ok (ext1 (by simp) rfl ?_)
  intro i hi
  have h1 := Nat.div_lt_of_lt_mul (Nat.mul_comm n m ▸ hi)
  have h2 := Nat.mod_lt i (Nat.pos_of_lt_mul_right' hi)
  tev_flat
  tev_core

@[tens] theorem flatten_t2_n2_n1 (n m : Nat) (f : Nat → Nat → α) :
    flatten (t2 n m f) (-2) (-1) =
      .ok (t1 (n * m) fun i => f (i / m) (i % m)) := by
  tev_list
  rw [check_true (by decide)]
  refine congrArg Except.ok (ext1 (by simp) rfl ?_)
  intro i hi
  have h1 := Nat.div_lt_of_lt_mul (Nat.mul_comm n m ▸ hi)
  have h2 := Nat.mod_lt i (Nat.pos_of_lt_mul_right' hi)
  tev_flat
  tev_core

@[tens] theorem flatten_t3_0_1 (n m p : Nat) (f : Nat → Nat → Nat → α) :
    flatten (t3 n m p f) 0 1 =
      .ok (t2 (n * m) p fun i j => f (i / m) (i % m) j) := by
  tev_list
  rw [check_true (by decide)]
  refine congrArg Except.ok (ext2 (by simp) rfl ?_)
  intro i j hi hj
  have h1 := Nat.div_lt_of_lt_mul (Nat.mul_comm n m ▸ hi)
  have h2 := Nat.mod_lt i (Nat.pos_of_lt_mul_right' hi)
  tev_flat
  tev_core

@[tens] theorem flatten_t3_n3_n2 (n m p : Nat) (f : Nat → Nat → Nat → α) :
    flatten (t3 n m p f) (-3) (-2) =
      .ok (t2 (n * m) p fun i j => f (i / m) (i % m) j) := by
  tev_list
  rw [check_true (by decide)]
  refine congrArg Except.ok (ext2 (by simp) rfl ?_)
  intro i j hi hj
  have h1 := Nat.div_lt_of_lt_mul (Nat.mul_comm n m ▸ hi)
  have h2 := Nat.mod_lt i (Nat.pos_of_lt_mul_right' hi)
  tev_flat
  tev_core

@[tens] theorem flatten_t3_1_2 (n m p : Nat) (f : Nat → Nat → Nat → α) :
    flatten (t3 n m p f) 1 2 =
      .ok (t2 n (m * p) fun i j => f i (j / p) (j % p)) := by
  tev_list
  rw [check_true (by decide)]
  refine congrArg Except.ok (ext2 (by simp) rfl ?_)
  intro i j hi hj
  have h1 := Nat.div_lt_of_lt_mul (Nat.mul_comm m p ▸ hj)
  have h2 := Nat.mod_lt j (Nat.pos_of_lt_mul_right' hj)
  tev_flat
  tev_core

@[tens] theorem flatten_t3_n2_n1 (n m p : Nat) (f : Nat → Nat → Nat → α) :
    flatten (t3 n m p f) (-2) (-1) =
      .ok (t2 n (m * p) fun i j => f i (j / p) (j % p)) := by
  tev_list
  rw [check_true (by decide)]
  refine congrArg Except.ok (ext2 (by simp) rfl ?_)
  intro i j hi hj
  have h1 := Nat.div_lt_of_lt_mul (Nat.mul_comm m p ▸ hj)
  have h2 := Nat.mod_lt j (Nat.pos_of_lt_mul_right' hj)
  tev_flat
  tev_core

@[tens] theorem flatten_t4_0_1 (n m p q : Nat) (f : Nat → Nat → Nat → Nat → α) :
    flatten (t4 n m p q f) 0 1 =
      .ok (t3 (n * m) p q fun i j k => f (i / m) (i % m) j k) := by
  tev_list
  rw [check_true (by decide)]
  refine congrArg Except.ok (ext3 (by simp) rfl ?_)
  intro i j k hi hj hk
  have h1 := Nat.div_lt_of_lt_mul (Nat.mul_comm n m ▸ hi)
  have h2 := Nat.mod_lt i (Nat.pos_of_lt_mul_right' hi)
  tev_flat
  tev_core

@[tens] theorem flatten_t4_n4_n3 (n m p q : Nat) (f : Nat → Nat → Nat → Nat → α) :
    flatten (t4 n m p q f) (-4) (-3) =
      .ok (t3 (n * m) p q fun i j k => f (i / m) (i % m) j k) := by
  tev_list
  rw [check_true (by decide)]
  refine congrArg Except.ok (ext3 (by simp) rfl ?_)
  intro i j k hi hj hk
  have h1 := Nat.div_lt_of_lt_mul (Nat.mul_comm n m ▸ hi)
  have h2 := Nat.mod_lt i (Nat.pos_of_lt_mul_right' hi)
  tev_flat
  tev_core

@[tens] theorem flatten_t4_1_2 (n m p q : Nat) (f : Nat → Nat → Nat → Nat → α) :
    flatten (t4 n m p q f) 1 2 =
      .ok (t3 n (m * p) q fun i j k => f i (j / p) (j % p) k) := by
  tev_list
  rw [check_true (by decide)]
  refine congrArg Except.ok (ext3 (by simp) rfl ?_)
  intro i j k hi hj hk
  have h1 := Nat.div_lt_of_lt_mul (Nat.mul_comm m p ▸ hj)
  have h2 := Nat.mod_lt j (Nat.pos_of_lt_mul_right' hj)
  tev_flat
  tev_core

@[tens] theorem flatten_t4_n3_n2 (n m p q : Nat) (f : Nat → Nat → Nat → Nat → α) :
    flatten (t4 n m p q f) (-3) (-2) =
      .ok (t3 n (m * p) q fun i j k => f i (j / p) (j % p) k) := by
  tev_list
  rw [check_true (by decide)]
  refine congrArg Except.ok (ext3 (by simp) rfl ?_)
  intro i j k hi hj hk
  have h1 := Nat.div_lt_of_lt_mul (Nat.mul_comm m p ▸ hj)
  have h2 := Nat.mod_lt j (Nat.pos_of_lt_mul_right' hj)
  tev_flat
  tev_core

@[tens] theorem flatten_t4_2_3 (n m p q : Nat) (f : Nat → Nat → Nat → Nat → α) :
    flatten (t4 n m p q f) 2 3 =
      .ok (t3 n m (p * q) fun i j k => f i j (k / q) (k % q)) := by
  tev_list
  rw [check_true (by decide)]
  refine congrArg Except.ok (ext3 (by simp) rfl ?_)
  intro i j k hi hj hk
  have h1 := Nat.div_lt_of_lt_mul (Nat.mul_comm p q ▸ hk)
  have h2 := Nat.mod_lt k (Nat.pos_of_lt_mul_right' hk)
  tev_flat
  tev_core

@[tens] theorem flatten_t4_n2_n1 (n m p q : Nat) (f : Nat → Nat → Nat → Nat → α) :
    flatten (t4 n m p q f) (-2) (-1) =
      .ok (t3 n m (p * q) fun i j k => f i j (k / q) (k % q)) := by
  tev_list
  rw [check_true (by decide)]
  refine congrArg Except.ok (ext3 (by simp) rfl ?_)
  intro i j k hi hj hk
  have h1 := Nat.div_lt_of_lt_mul (Nat.mul_comm p q ▸ hk)
  have h2 := Nat.mod_lt k (Nat.pos_of_lt_mul_right' hk)
  tev_flat
  tev_core

@[tens] theorem flatten_t5_0_1 (n m p q r : Nat) (f : Nat → Nat → Nat → Nat → Nat → α) :
    flatten (t5 n m p q r f) 0 1 =
      .ok (t4 (n * m) p q r fun i j k o => f (i / m) (i % m) j k o) := by
  tev_list
  rw [check_true (by decide)]
  refine congrArg Except.ok (ext4 (by simp) rfl ?_)
  intro i j k o hi hj hk ho
  have h1 := Nat.div_lt_of_lt_mul (Nat.mul_comm n m ▸ hi)
  have h2 := Nat.mod_lt i (Nat.pos_of_lt_mul_right' hi)
  tev_flat
  tev_core

@[tens] theorem flatten_t5_n5_n4 (n m p q r : Nat) (f : Nat → Nat → Nat → Nat → Nat → α) :
    flatten (t5 n m p q r f) (-5) (-4) =
      .ok (t4 (n * m) p q r fun i j k o => f (i / m) (i % m) j k o) := by
  tev_list
  rw [check_true (by decide)]
  refine congrArg Except.ok (ext4 (by simp) rfl ?_)
  intro i j k o hi hj hk ho
  have h1 := Nat.div_lt_of_lt_mul (Nat.mul_comm n m ▸ hi)
  have h2 := Nat.mod_lt i (Nat.pos_of_lt_mul_right' hi)
  tev_flat
  tev_core

@[tens] theorem flatten_t5_1_2 (n m p q r : Nat) (f : Nat → Nat → Nat → Nat → Nat → α) :
    flatten (t5 n m p q r f) 1 2 =
      .ok (t4 n (m * p) q r fun i j k o => f i (j / p) (j % p) k o) := by
  tev_list
  rw [check_true (by decide)]
  refine congrArg Except.ok (ext4 (by simp) rfl ?_)
  intro i j k o hi hj hk ho
  have h1 := Nat.div_lt_of_lt_mul (Nat.mul_comm m p ▸ hj)
  have h2 := Nat.mod_lt j (Nat.pos_of_lt_mul_right' hj)
  tev_flat
  tev_core

@[tens] theorem flatten_t5_n4_n3 (n m p q r : Nat) (f : Nat → Nat → Nat → Nat → Nat → α) :
    flatten (t5 n m p q r f) (-4) (-3) =
      .ok (t4 n (m * p) q r fun i j k o => f i (j / p) (j % p) k o) := by
  tev_list
  rw [check_true (by decide)]
  refine congrArg Except.ok (ext4 (by simp) rfl ?_)
  intro i j k o hi hj hk ho
  have h1 := Nat.div_lt_of_lt_mul (Nat.mul_comm m p ▸ hj)
  have h2 := Nat.mod_lt j (Nat.pos_of_lt_mul_right' hj)
  tev_flat
  tev_core

@[tens] theorem flatten_t5_2_3 (n m p q r : Nat) (f : Nat → Nat → Nat → Nat → Nat → α) :
    flatten (t5 n m p q r f) 2 3 =
      .ok (t4 n m (p * q) r fun i j k o => f i j (k / q) (k % q) o) := by
  tev_list
  rw [check_true (by decide)]
  refine congrArg Except.ok (ext4 (by simp) rfl ?_)
  intro i j k o hi hj hk ho
  have h1 := Nat.div_lt_of_lt_mul (Nat.mul_comm p q ▸ hk)
  have h2 := Nat.mod_lt k (Nat.pos_of_lt_mul_right' hk)
  tev_flat
  tev_core

@[tens] theorem flatten_t5_n3_n2 (n m p q r : Nat) (f : Nat → Nat → Nat → Nat → Nat → α) :
    flatten (t5 n m p q r f) (-3) (-2) =
      .ok (t4 n m (p * q) r fun i j k o => f i j (k / q) (k % q) o) := by
  tev_list
  rw [check_true (by decide)]
  refine congrArg Except.ok (ext4 (by simp) rfl ?_)
  intro i j k o hi hj hk ho
  have h1 := Nat.div_lt_of_lt_mul (Nat.mul_comm p q ▸ hk)
  have h2 := Nat.mod_lt k (Nat.pos_of_lt_mul_right' hk)
  tev_flat
  tev_core

@[tens] theorem flatten_t5_3_4 (n m p q r : Nat) (f : Nat → Nat → Nat → Nat → Nat → α) :
    flatten (t5 n m p q r f) 3 4 =
      .ok (t4 n m p (q * r) fun i j k o => f i j k (o / r) (o % r)) := by
  tev_list
  rw [check_true (by decide)]
  refine congrArg Except.ok (ext4 (by simp) rfl ?_)
  intro i j k o hi hj hk ho
  have h1 := Nat.div_lt_of_lt_mul (Nat.mul_comm q r ▸ ho)
  have h2 := Nat.mod_lt o (Nat.pos_of_lt_mul_right' ho)
  tev_flat
  tev_core

@[tens] theorem flatten_t5_n2_n1 (n m p q r : Nat) (f : Nat → Nat → Nat → Nat → Nat → α) :
    flatten (t5 n m p q r f) (-2) (-1) =
      .ok (t4 n m p (q * r) fun i j k o => f i j k (o / r) (o % r)) := by
  tev_list
  rw [check_true (by decide)]
  refine congrArg Except.ok (ext4 (by simp) rfl ?_)
  intro i j k o hi hj hk ho
  have h1 := Nat.div_lt_of_lt_mul (Nat.mul_comm q r ▸ ho)
  have h2 := Nat.mod_lt o (Nat.pos_of_lt_mul_right' ho)
  tev_flat
  tev_core

@[tens] theorem flatten_t3_2_n1 (n m p : Nat) (f : Nat → Nat → Nat → α) :
    flatten (t3 n m p f) 2 (-1) =
      .ok (t3 n m p f) := by
  rw [flatten_single (p := 2) (by rfl) (by rfl) (Nat.lt_of_sub_pos (by exact Nat.zero_lt_succ _))]

@[tens] theorem flatten_t4_2_n1 (n m p q : Nat) (f : Nat → Nat → Nat → Nat → α) :
    flatten (t4 n m p q f) 2 (-1) =
      .ok (t3 n m (p * q) fun i j k => f i j (k / q) (k % q)) := by
  exact flatten_t4_2_3 n m p q f

@[tens] theorem unflatten_t1_0_m1_c (n : Nat) (c : Nat) (f : Nat → α) (hc : 0 < c) (hd : n % c = 0) :
    unflatten (t1 n f) 0 [none, some c] =
      .ok (t2 (n / c) c fun i j => f (i * c + j)) := by
  tev_list
  rw [resolve_none_some hc hd]
  tev_list
  refine congrArg Except.ok (ext2 rfl rfl ?_)
  intro i j hi hj
  have h1 : i * c + j < n := unflatten_bound' hd hi hj
  tev_unfl2
  tev_core

@[tens] theorem unflatten_t1_0_c_c (c' c : Nat) (f : Nat → α) :
    unflatten (t1 (c' * c) f) 0 [some c', some c] =
      .ok (t2 (c') c fun i j => f (i * c + j)) := by
  tev_list
  rw [resolve_some_some]
  tev_list
  refine congrArg Except.ok (ext2 rfl rfl ?_)
  intro i j hi hj
  have h1 : i * c + j < c' * c := unflatten_bound hi hj
  tev_unfl2
  tev_core

@[tens] theorem unflatten_t1_n1_m1_c (n : Nat) (c : Nat) (f : Nat → α) (hc : 0 < c) (hd : n % c = 0) :
    unflatten (t1 n f) (-1) [none, some c] =
      .ok (t2 (n / c) c fun i j => f (i * c + j)) := by
  tev_list
  rw [resolve_none_some hc hd]
  tev_list
  refine congrArg Except.ok (ext2 rfl rfl ?_)
  intro i j hi hj
  have h1 : i * c + j < n := unflatten_bound' hd hi hj
  tev_unfl2
  tev_core

@[tens] theorem unflatten_t1_n1_c_c (c' c : Nat) (f : Nat → α) :
    unflatten (t1 (c' * c) f) (-1) [some c', some c] =
      .ok (t2 (c') c fun i j => f (i * c + j)) := by
  tev_list
  rw [resolve_some_some]
  tev_list
  refine congrArg Except.ok (ext2 rfl rfl ?_)
  intro i j hi hj
  have h1 : i * c + j < c' * c := unflatten_bound hi hj
  tev_unfl2
  tev_core

@[tens] theorem unflatten_t2_0_m1_c (n m : Nat) (c : Nat) (f : Nat → Nat → α) (hc : 0 < c) (hd : n % c = 0) :
    unflatten (t2 n m f) 0 [none, some c] =
      .ok (t3 (n / c) c m fun i j k => f (i * c + j) k) := by
  tev_list
  rw [resolve_none_some hc hd]
  tev_list
  refine congrArg Except.ok (ext3 rfl rfl ?_)
  intro i j k hi hj hk
  have h1 : i * c + j < n := unflatten_bound' hd hi hj
  tev_unfl2
  tev_core

@[tens] theorem unflatten_t2_0_c_c (m : Nat) (c' c : Nat) (f : Nat → Nat → α) :
    unflatten (t2 (c' * c) m f) 0 [some c', some c] =
      .ok (t3 (c') c m fun i j k => f (i * c + j) k) := by
  tev_list
  rw [resolve_some_some]
  tev_list
  refine congrArg Except.ok (ext3 rfl rfl ?_)
  intro i j k hi hj hk
  have h1 : i * c + j < c' * c := unflatten_bound hi hj
  tev_unfl2
  tev_core

@[tens] theorem unflatten_t2_n2_m1_c (n m : Nat) (c : Nat) (f : Nat → Nat → α) (hc : 0 < c) (hd : n % c = 0) :
    unflatten (t2 n m f) (-2) [none, some c] =
      .ok (t3 (n / c) c m fun i j k => f (i * c + j) k) := by
  tev_list
  rw [resolve_none_some hc hd]
  tev_list
  refine congrArg Except.ok (ext3 rfl rfl ?_)
  intro i j k hi hj hk
  have h1 : i * c + j < n := unflatten_bound' hd hi hj
  tev_unfl2
  tev_core

@[tens] theorem unflatten_t2_n2_c_c (m : Nat) (c' c : Nat) (f : Nat → Nat → α) :
    unflatten (t2 (c' * c) m f) (-2) [some c', some c] =
      .ok (t3 (c') c m fun i j k => f (i * c + j) k) := by
  tev_list
  rw [resolve_some_some]
  tev_list
  refine congrArg Except.ok (ext3 rfl rfl ?_)
  intro i j k hi hj hk
  have h1 : i * c + j < c' * c := unflatten_bound hi hj
  tev_unfl2
  tev_core

@[tens] theorem unflatten_t2_1_m1_c (n m : Nat) (c : Nat) (f : Nat → Nat → α) (hc : 0 < c) (hd : m % c = 0) :
    unflatten (t2 n m f) 1 [none, some c] =
      .ok (t3 n (m / c) c fun i j k => f i (j * c + k)) := by
  tev_list
  rw [resolve_none_some hc hd]
  tev_list
  refine congrArg Except.ok (ext3 rfl rfl ?_)
  intro i j k hi hj hk
  have h1 : j * c + k < m := unflatten_bound' hd hj hk
  tev_unfl2
  tev_core

@[tens] theorem unflatten_t2_1_c_c (n : Nat) (c' c : Nat) (f : Nat → Nat → α) :
    unflatten (t2 n (c' * c) f) 1 [some c', some c] =
      .ok (t3 n (c') c fun i j k => f i (j * c + k)) := by
  tev_list
  rw [resolve_some_some]
  tev_list
  refine congrArg Except.ok (ext3 rfl rfl ?_)
  intro i j k hi hj hk
  have h1 : j * c + k < c' * c := unflatten_bound hj hk
  tev_unfl2
  tev_core

@[tens] theorem unflatten_t2_n1_m1_c (n m : Nat) (c : Nat) (f : Nat → Nat → α) (hc : 0 < c) (hd : m % c = 0) :
    unflatten (t2 n m f) (-1) [none, some c] =
      .ok (t3 n (m / c) c fun i j k => f i (j * c + k)) := by
  tev_list
  rw [resolve_none_some hc hd]
  tev_list
  refine congrArg Except.ok (ext3 rfl rfl ?_)
  intro i j k hi hj hk
  have h1 : j * c + k < m := unflatten_bound' hd hj hk
  tev_unfl2
  tev_core

@[tens] theorem unflatten_t2_n1_c_c (n : Nat) (c' c : Nat) (f : Nat → Nat → α) :
    unflatten (t2 n (c' * c) f) (-1) [some c', some c] =
      .ok (t3 n (c') c fun i j k => f i (j * c + k)) := by
  tev_list
  rw [resolve_some_some]
  tev_list
  refine congrArg Except.ok (ext3 rfl rfl ?_)
  intro i j k hi hj hk
  have h1 : j * c + k < c' * c := unflatten_bound hj hk
  tev_unfl2
  tev_core

@[tens] theorem unflatten_t3_0_m1_c (n m p : Nat) (c : Nat) (f : Nat → Nat → Nat → α) (hc : 0 < c) (hd : n % c = 0) :
    unflatten (t3 n m p f) 0 [none, some c] =
      .ok (t4 (n / c) c m p fun i j k o => f (i * c + j) k o) := by
  tev_list
  rw [resolve_none_some hc hd]
  tev_list
  refine congrArg Except.ok (ext4 rfl rfl ?_)
  intro i j k o hi hj hk ho
  have h1 : i * c + j < n := unflatten_bound' hd hi hj
  tev_unfl2
  tev_core

@[tens] theorem unflatten_t3_0_c_c (m p : Nat) (c' c : Nat) (f : Nat → Nat → Nat → α) :
    unflatten (t3 (c' * c) m p f) 0 [some c', some c] =
      .ok (t4 (c') c m p fun i j k o => f (i * c + j) k o) := by
  tev_list
  rw [resolve_some_some]
  tev_list
  refine congrArg Except.ok (ext4 rfl rfl ?_)
  intro i j k o hi hj hk ho
  have h1 : i * c + j < c' * c := unflatten_bound hi hj
  tev_unfl2
  tev_core

@[tens] theorem unflatten_t3_n3_m1_c (n m p : Nat) (c : Nat) (f : Nat → Nat → Nat → α) (hc : 0 < c) (hd : n % c = 0) :
    unflatten (t3 n m p f) (-3) [none, some c] =
      .ok (t4 (n / c) c m p fun i j k o => f (i * c + j) k o) := by
  tev_list
  rw [resolve_none_some hc hd]
  tev_list
  refine congrArg Except.ok (ext4 rfl rfl ?_)
  intro i j k o hi hj hk ho
  have h1 : i * c + j < n := unflatten_bound' hd hi hj
  tev_unfl2
  tev_core

@[tens] theorem unflatten_t3_n3_c_c (m p : Nat) (c' c : Nat) (f : Nat → Nat → Nat → α) :
    unflatten (t3 (c' * c) m p f) (-3) [some c', some c] =
      .ok (t4 (c') c m p fun i j k o => f (i * c + j) k o) := by
  tev_list
  rw [resolve_some_some]
  tev_list
  refine congrArg Except.ok (ext4 rfl rfl ?_)
  intro i j k o hi hj hk ho
  have h1 : i * c + j < c' * c := unflatten_bound hi hj
  tev_unfl2
  tev_core

@[tens] theorem unflatten_t3_1_m1_c (n m p : Nat) (c : Nat) (f : Nat → Nat → Nat → α) (hc : 0 < c) (hd : m % c = 0) :
    unflatten (t3 n m p f) 1 [none, some c] =
      .ok (t4 n (m / c) c p fun i j k o => f i (j * c + k) o) := by
  tev_list
  rw [resolve_none_some hc hd]
  tev_list
  refine congrArg Except.ok (ext4 rfl rfl ?_)
  intro i j k o hi hj hk ho
  have h1 : j * c + k < m := unflatten_bound' hd hj hk
  tev_unfl2
  tev_core

@[tens] theorem unflatten_t3_1_c_c (n p : Nat) (c' c : Nat) (f : Nat → Nat → Nat → α) :
    unflatten (t3 n (c' * c) p f) 1 [some c', some c] =
      .ok (t4 n (c') c p fun i j k o => f i (j * c + k) o) := by
  tev_list
  rw [resolve_some_some]
  tev_list
  refine congrArg Except.ok (ext4 rfl rfl ?_)
  intro i j k o hi hj hk ho
  have h1 : j * c + k < c' * c := unflatten_bound hj hk
  tev_unfl2
  tev_core

@[tens] theorem unflatten_t3_n2_m1_c (n m p : Nat) (c : Nat) (f : Nat → Nat → Nat → α) (hc : 0 < c) (hd : m % c = 0) :
    unflatten (t3 n m p f) (-2) [none, some c] =
      .ok (t4 n (m / c) c p fun i j k o => f i (j * c + k) o) := by
  tev_list
  rw [resolve_none_some hc hd]
  tev_list
  refine congrArg Except.ok (ext4 rfl rfl ?_)
  intro i j k o hi hj hk ho
  have h1 : j * c + k < m := unflatten_bound' hd hj hk
  tev_unfl2
  tev_core

@[tens] theorem unflatten_t3_n2_c_c (n p : Nat) (c' c : Nat) (f : Nat → Nat → Nat → α) :
    unflatten (t3 n (c' * c) p f) (-2) [some c', some c] =
      .ok (t4 n (c') c p fun i j k o => f i (j * c + k) o) := by
  tev_list
  rw [resolve_some_some]
  tev_list
  refine congrArg Except.ok (ext4 rfl rfl ?_)
  intro i j k o hi hj hk ho
  have h1 : j * c + k < c' * c := unflatten_bound hj hk
  tev_unfl2
  tev_core

@[tens] theorem unflatten_t3_2_m1_c (n m p : Nat) (c : Nat) (f : Nat → Nat → Nat → α) (hc : 0 < c) (hd : p % c = 0) :
    unflatten (t3 n m p f) 2 [none, some c] =
      .ok (t4 n m (p / c) c fun i j k o => f i j (k * c + o)) := by
  tev_list
  rw [resolve_none_some hc hd]
  tev_list
  refine congrArg Except.ok (ext4 rfl rfl ?_)
  intro i j k o hi hj hk ho
  have h1 : k * c + o < p := unflatten_bound' hd hk ho
  tev_unfl2
  tev_core

@[tens] theorem unflatten_t3_2_c_c (n m : Nat) (c' c : Nat) (f : Nat → Nat → Nat → α) :
    unflatten (t3 n m (c' * c) f) 2 [some c', some c] =
      .ok (t4 n m (c') c fun i j k o => f i j (k * c + o)) := by
  tev_list
  rw [resolve_some_some]
  tev_list
  refine congrArg Except.ok (ext4 rfl rfl ?_)
  intro i j k o hi hj hk ho
  have h1 : k * c + o < c' * c := unflatten_bound hk ho
  tev_unfl2
  tev_core

@[tens] theorem unflatten_t3_n1_m1_c (n m p : Nat) (c : Nat) (f : Nat → Nat → Nat → α) (hc : 0 < c) (hd : p % c = 0) :
    unflatten (t3 n m p f) (-1) [none, some c] =
      .ok (t4 n m (p / c) c fun i j k o => f i j (k * c + o)) := by
  tev_list
  rw [resolve_none_some hc hd]
  tev_list
  refine congrArg Except.ok (ext4 rfl rfl ?_)
  intro i j k o hi hj hk ho
  have h1 : k * c + o < p := unflatten_bound' hd hk ho
  tev_unfl2
  tev_core

@[tens] theorem unflatten_t3_n1_c_c (n m : Nat) (c' c : Nat) (f : Nat → Nat → Nat → α) :
    unflatten (t3 n m (c' * c) f) (-1) [some c', some c] =
      .ok (t4 n m (c') c fun i j k o => f i j (k * c + o)) := by
  tev_list
  rw [resolve_some_some]
  tev_list
  refine congrArg Except.ok (ext4 rfl rfl ?_)
  intro i j k o hi hj hk ho
  have h1 : k * c + o < c' * c := unflatten_bound hk ho
  tev_unfl2
  tev_core

@[tens] theorem unflatten_t4_0_m1_c (n m p q : Nat) (c : Nat) (f : Nat → Nat → Nat → Nat → α) (hc : 0 < c) (hd : n % c = 0) :
    unflatten (t4 n m p q f) 0 [none, some c] =
      .ok (t5 (n / c) c m p q fun i j k o u => f (i * c + j) k o u) := by
  tev_list
  rw [resolve_none_some hc hd]
  tev_list
  refine congrArg Except.ok (ext5 rfl rfl ?_)
  intro i j k o u hi hj hk ho hu
  have h1 : i * c + j < n := unflatten_bound' hd hi hj
  tev_unfl2
  tev_core

@[tens] theorem unflatten_t4_0_c_c (m p q : Nat) (c' c : Nat) (f : Nat → Nat → Nat → Nat → α) :
    unflatten (t4 (c' * c) m p q f) 0 [some c', some c] =
      .ok (t5 (c') c m p q fun i j k o u => f (i * c + j) k o u) := by
  tev_list
  rw [resolve_some_some]
  tev_list
  refine congrArg Except.ok (ext5 rfl rfl ?_)
  intro i j k o u hi hj hk ho hu
  have h1 : i * c + j < c' * c := unflatten_bound hi hj
  tev_unfl2
  tev_core

@[tens] theorem unflatten_t4_n4_m1_c (n m p q : Nat) (c : Nat) (f : Nat → Nat → Nat → Nat → α) (hc : 0 < c) (hd : n % c = 0) :
    unflatten (t4 n m p q f) (-4) [none, some c] =
      .ok (t5 (n / c) c m p q fun i j k o u => f (i * c + j) k o u) := by
  tev_list
  rw [resolve_none_some hc hd]
  tev_list
  refine congrArg Except.ok (ext5 rfl rfl ?_)
  intro i j k o u hi hj hk ho hu
  have h1 : i * c + j < n := unflatten_bound' hd hi hj
  tev_unfl2
  tev_core

@[tens] theorem unflatten_t4_n4_c_c (m p q : Nat) (c' c : Nat) (f : Nat → Nat → Nat → Nat → α) :
    unflatten (t4 (c' * c) m p q f) (-4) [some c', some c] =
      .ok (t5 (c') c m p q fun i j k o u => f (i * c + j) k o u) := by
  tev_list
  rw [resolve_some_some]
  tev_list
  refine congrArg Except.ok (ext5 rfl rfl ?_)
  intro i j k o u hi hj hk ho hu
  have h1 : i * c + j < c' * c := unflatten_bound hi hj
  tev_unfl2
  tev_core

@[tens] theorem unflatten_t4_1_m1_c (n m p q : Nat) (c : Nat) (f : Nat → Nat → Nat → Nat → α) (hc : 0 < c) (hd : m % c = 0) :
    unflatten (t4 n m p q f) 1 [none, some c] =
      .ok (t5 n (m / c) c p q fun i j k o u => f i (j * c + k) o u) := by
  tev_list
  rw [resolve_none_some hc hd]
  tev_list
  refine congrArg Except.ok (ext5 rfl rfl ?_)
  intro i j k o u hi hj hk ho hu
  have h1 : j * c + k < m := unflatten_bound' hd hj hk
  tev_unfl2
  tev_core

@[tens] theorem unflatten_t4_1_c_c (n p q : Nat) (c' c : Nat) (f : Nat → Nat → Nat → Nat → α) :
    unflatten (t4 n (c' * c) p q f) 1 [some c', some c] =
      .ok (t5 n (c') c p q fun i j k o u => f i (j * c + k) o u) := by
  tev_list
  rw [resolve_some_some]
  tev_list
  refine congrArg Except.ok (ext5 rfl rfl ?_)
  intro i j k o u hi hj hk ho hu
  have h1 : j * c + k < c' * c := unflatten_bound hj hk
  tev_unfl2
  tev_core

@[tens] theorem unflatten_t4_n3_m1_c (n m p q : Nat) (c : Nat) (f : Nat → Nat → Nat → Nat → α) (hc : 0 < c) (hd : m % c = 0) :
    unflatten (t4 n m p q f) (-3) [none, some c] =
      .ok (t5 n (m / c) c p q fun i j k o u => f i (j * c + k) o u) := by
  tev_list
  rw [resolve_none_some hc hd]
  tev_list
  refine congrArg Except.ok (ext5 rfl rfl ?_)
  intro i j k o u hi hj hk ho hu
  have h1 : j * c + k < m := unflatten_bound' hd hj hk
  tev_unfl2
  tev_core

@[tens] theorem unflatten_t4_n3_c_c (n p q : Nat) (c' c : Nat) (f : Nat → Nat → Nat → Nat → α) :
    unflatten (t4 n (c' * c) p q f) (-3) [some c', some c] =
      .ok (t5 n (c') c p q fun i j k o u => f i (j * c + k) o u) := by
  tev_list
  rw [resolve_some_some]
  tev_list
  refine congrArg Except.ok (ext5 rfl rfl ?_)
  intro i j k o u hi hj hk ho hu
  have h1 : j * c + k < c' * c := unflatten_bound hj hk
  tev_unfl2
  tev_core

@[tens] theorem unflatten_t4_2_m1_c (n m p q : Nat) (c : Nat) (f : Nat → Nat → Nat → Nat → α) (hc : 0 < c) (hd : p % c = 0) :
    unflatten (t4 n m p q f) 2 [none, some c] =
      .ok (t5 n m (p / c) c q fun i j k o u => f i j (k * c + o) u) := by
  tev_list
  rw [resolve_none_some hc hd]
  tev_list
  refine congrArg Except.ok (ext5 rfl rfl ?_)
  intro i j k o u hi hj hk ho hu
  have h1 : k * c + o < p := unflatten_bound' hd hk ho
  tev_unfl2
  tev_core

@[tens] theorem unflatten_t4_2_c_c (n m q : Nat) (c' c : Nat) (f : Nat → Nat → Nat → Nat → α) :
    unflatten (t4 n m (c' * c) q f) 2 [some c', some c] =
      .ok (t5 n m (c') c q fun i j k o u => f i j (k * c + o) u) := by
  tev_list
  rw [resolve_some_some]
  tev_list
  refine congrArg Except.ok (ext5 rfl rfl ?_)
  intro i j k o u hi hj hk ho hu
  have h1 : k * c + o < c' * c := unflatten_bound hk ho
  tev_unfl2
  tev_core

@[tens] theorem unflatten_t4_n2_m1_c (n m p q : Nat) (c : Nat) (f : Nat → Nat → Nat → Nat → α) (hc : 0 < c) (hd : p % c = 0) :
    unflatten (t4 n m p q f) (-2) [none, some c] =
      .ok (t5 n m (p / c) c q fun i j k o u => f i j (k * c + o) u) := by
  tev_list
  rw [resolve_none_some hc hd]
  tev_list
  refine congrArg Except.ok (ext5 rfl rfl ?_)
  intro i j k o u hi hj hk ho hu
  have h1 : k * c + o < p := unflatten_bound' hd hk ho
  tev_unfl2
  tev_core

@[tens] theorem unflatten_t4_n2_c_c (n m q : Nat) (c' c : Nat) (f : Nat → Nat → Nat → Nat → α) :
    unflatten (t4 n m (c' * c) q f) (-2) [some c', some c] =
      .ok (t5 n m (c') c q fun i j k o u => f i j (k * c + o) u) := by
  tev_list
  rw [resolve_some_some]
  tev_list
  refine congrArg Except.ok (ext5 rfl rfl ?_)
  intro i j k o u hi hj hk ho hu
  have h1 : k * c + o < c' * c := unflatten_bound hk ho
  tev_unfl2
  tev_core

@[tens] theorem unflatten_t4_3_m1_c (n m p q : Nat) (c : Nat) (f : Nat → Nat → Nat → Nat → α) (hc : 0 < c) (hd : q % c = 0) :
    unflatten (t4 n m p q f) 3 [none, some c] =
      .ok (t5 n m p (q / c) c fun i j k o u => f i j k (o * c + u)) := by
  tev_list
  rw [resolve_none_some hc hd]
  tev_list
  refine congrArg Except.ok (ext5 rfl rfl ?_)
  intro i j k o u hi hj hk ho hu
  have h1 : o * c + u < q := unflatten_bound' hd ho hu
  tev_unfl2
  tev_core

@[tens] theorem unflatten_t4_3_c_c (n m p : Nat) (c' c : Nat) (f : Nat → Nat → Nat → Nat → α) :
    unflatten (t4 n m p (c' * c) f) 3 [some c', some c] =
      .ok (t5 n m p (c') c fun i j k o u => f i j k (o * c + u)) := by
  tev_list
  rw [resolve_some_some]
  tev_list
  refine congrArg Except.ok (ext5 rfl rfl ?_)
  intro i j k o u hi hj hk ho hu
  have h1 : o * c + u < c' * c := unflatten_bound ho hu
  tev_unfl2
  tev_core

@[tens] theorem unflatten_t4_n1_m1_c (n m p q : Nat) (c : Nat) (f : Nat → Nat → Nat → Nat → α) (hc : 0 < c) (hd : q % c = 0) :
    unflatten (t4 n m p q f) (-1) [none, some c] =
      .ok (t5 n m p (q / c) c fun i j k o u => f i j k (o * c + u)) := by
  tev_list
  rw [resolve_none_some hc hd]
  tev_list
  refine congrArg Except.ok (ext5 rfl rfl ?_)
  intro i j k o u hi hj hk ho hu
  have h1 : o * c + u < q := unflatten_bound' hd ho hu
  tev_unfl2
  tev_core

@[tens] theorem unflatten_t4_n1_c_c (n m p : Nat) (c' c : Nat) (f : Nat → Nat → Nat → Nat → α) :
    unflatten (t4 n m p (c' * c) f) (-1) [some c', some c] =
      .ok (t5 n m p (c') c fun i j k o u => f i j k (o * c + u)) := by
  tev_list
  rw [resolve_some_some]
  tev_list
  refine congrArg Except.ok (ext5 rfl rfl ?_)
  intro i j k o u hi hj hk ho hu
  have h1 : o * c + u < c' * c := unflatten_bound ho hu
  tev_unfl2
  tev_core

@[tens] theorem unflatten_t3_n3_c (n m p : Nat) (f : Nat → Nat → Nat → α) :
    unflatten (t3 n m p f) (-3) (List.map some [n].reverse) =
      .ok (t3 n m p f) := by
  rw [unflatten_single (p := 0) (by rfl) (by rfl) (Nat.lt_of_sub_pos (by exact Nat.zero_lt_succ _))]

@[tens] theorem flatten_t3_0_n3 (n m p : Nat) (f : Nat → Nat → Nat → α) :
    flatten (t3 n m p f) ((3 - 3 : Nat) : Int) (-3) =
      .ok (t3 n m p f) := by
  rw [flatten_single (p := 0) (by rfl) (by rfl) (Nat.lt_of_sub_pos (by exact Nat.zero_lt_succ _))]

@[tens] theorem unflatten_t4_n3_c (n m p q : Nat) (f : Nat → Nat → Nat → Nat → α) :
    unflatten (t4 n m p q f) (-3) (List.map some [m].reverse) =
      .ok (t4 n m p q f) := by
  rw [unflatten_single (p := 1) (by rfl) (by rfl) (Nat.lt_of_sub_pos (by exact Nat.zero_lt_succ _))]

@[tens] theorem flatten_t4_1_n3 (n m p q : Nat) (f : Nat → Nat → Nat → Nat → α) :
    flatten (t4 n m p q f) ((4 - 3 : Nat) : Int) (-3) =
      .ok (t4 n m p q f) := by
  rw [flatten_single (p := 1) (by rfl) (by rfl) (Nat.lt_of_sub_pos (by exact Nat.zero_lt_succ _))]

@[tens] theorem unflatten_t5_n3_c (n m p q r : Nat) (f : Nat → Nat → Nat → Nat → Nat → α) :
    unflatten (t5 n m p q r f) (-3) (List.map some [p].reverse) =
      .ok (t5 n m p q r f) := by
  rw [unflatten_single (p := 2) (by rfl) (by rfl) (Nat.lt_of_sub_pos (by exact Nat.zero_lt_succ _))]

@[tens] theorem flatten_t5_2_n3 (n m p q r : Nat) (f : Nat → Nat → Nat → Nat → Nat → α) :
    flatten (t5 n m p q r f) ((5 - 3 : Nat) : Int) (-3) =
      .ok (t5 n m p q r f) := by
  rw [flatten_single (p := 2) (by rfl) (by rfl) (Nat.lt_of_sub_pos (by exact Nat.zero_lt_succ _))]

@[tens] theorem unfold_t1_0 (n : Nat) (c : Nat) (f : Nat → α) (hc : c ≤ n) :
    unfold (t1 n f) 0 c =
      .ok (t2 (n - c + 1) c fun i j => f (i + j)) := by
  tev_list
  rw [check_true hc]
  refine congrArg Except.ok (ext2 rfl rfl ?_)
  intro i j hi hj
  tev_unfold
  tev_core

@[tens] theorem unfold_t1_n1 (n : Nat) (c : Nat) (f : Nat → α) (hc : c ≤ n) :
    unfold (t1 n f) (-1) c =
      .ok (t2 (n - c + 1) c fun i j => f (i + j)) := by
  tev_list
  rw [check_true hc]
  refine congrArg Except.ok (ext2 rfl rfl ?_)
  intro i j hi hj
  tev_unfold
  tev_core

@[tens] theorem unfold_t2_1 (n m : Nat) (c : Nat) (f : Nat → Nat → α) (hc : c ≤ m) :
    unfold (t2 n m f) 1 c =
      .ok (t3 n (m - c + 1) c fun i j k => f i (j + k)) := by
  tev_list
  rw [check_true hc]
  refine congrArg Except.ok (ext3 rfl rfl ?_)
  intro i j k hi hj hk
  tev_unfold
  tev_core

@[tens] theorem unfold_t2_n1 (n m : Nat) (c : Nat) (f : Nat → Nat → α) (hc : c ≤ m) :
    unfold (t2 n m f) (-1) c =
      .ok (t3 n (m - c + 1) c fun i j k => f i (j + k)) := by
  tev_list
  rw [check_true hc]
  refine congrArg Except.ok (ext3 rfl rfl ?_)
  intro i j k hi hj hk
  tev_unfold
  tev_core

@[tens] theorem unfold_t3_2 (n m p : Nat) (c : Nat) (f : Nat → Nat → Nat → α) (hc : c ≤ p) :
    unfold (t3 n m p f) 2 c =
      .ok (t4 n m (p - c + 1) c fun i j k o => f i j (k + o)) := by
  tev_list
  rw [check_true hc]
  refine congrArg Except.ok (ext4 rfl rfl ?_)
  intro i j k o hi hj hk ho
  tev_unfold
  tev_core

@[tens] theorem unfold_t3_n1 (n m p : Nat) (c : Nat) (f : Nat → Nat → Nat → α) (hc : c ≤ p) :
    unfold (t3 n m p f) (-1) c =
      .ok (t4 n m (p - c + 1) c fun i j k o => f i j (k + o)) := by
  tev_list
  rw [check_true hc]
  refine congrArg Except.ok (ext4 rfl rfl ?_)
  intro i j k o hi hj hk ho
  tev_unfold
  tev_core

@[tens] theorem unfold_t2_0 (n m : Nat) (c : Nat) (f : Nat → Nat → α) (hc : c ≤ n) :
    unfold (t2 n m f) 0 c =
      .ok (t3 (n - c + 1) m c fun i j k => f (i + k) j) := by
  tev_list
  rw [check_true hc]
  refine congrArg Except.ok (ext3 rfl rfl ?_)
  intro i j k hi hj hk
  tev_unfold
  tev_core

@[tens] theorem unfold_t2_n2 (n m : Nat) (c : Nat) (f : Nat → Nat → α) (hc : c ≤ n) :
    unfold (t2 n m f) (-2) c =
      .ok (t3 (n - c + 1) m c fun i j k => f (i + k) j) := by
  tev_list
  rw [check_true hc]
  refine congrArg Except.ok (ext3 rfl rfl ?_)
  intro i j k hi hj hk
  tev_unfold
  tev_core

@[tens] theorem unfold_t3_1 (n m p : Nat) (c : Nat) (f : Nat → Nat → Nat → α) (hc : c ≤ m) :
    unfold (t3 n m p f) 1 c =
      .ok (t4 n (m - c + 1) p c fun i j k o => f i (j + o) k) := by
  tev_list
  rw [check_true hc]
  refine congrArg Except.ok (ext4 rfl rfl ?_)
  intro i j k o hi hj hk ho
  tev_unfold
  tev_core

@[tens] theorem unfold_t3_n2 (n m p : Nat) (c : Nat) (f : Nat → Nat → Nat → α) (hc : c ≤ m) :
    unfold (t3 n m p f) (-2) c =
      .ok (t4 n (m - c + 1) p c fun i j k o => f i (j + o) k) := by
  tev_list
  rw [check_true hc]
  refine congrArg Except.ok (ext4 rfl rfl ?_)
  intro i j k o hi hj hk ho
  tev_unfold
  tev_core

@[tens] theorem unfold_t3_0 (n m p : Nat) (c : Nat) (f : Nat → Nat → Nat → α) (hc : c ≤ n) :
    unfold (t3 n m p f) 0 c =
      .ok (t4 (n - c + 1) m p c fun i j k o => f (i + o) j k) := by
  tev_list
  rw [check_true hc]
  refine congrArg Except.ok (ext4 rfl rfl ?_)
  intro i j k o hi hj hk ho
  tev_unfold
  tev_core

@[tens] theorem unfold_t3_n3 (n m p : Nat) (c : Nat) (f : Nat → Nat → Nat → α) (hc : c ≤ n) :
    unfold (t3 n m p f) (-3) c =
      .ok (t4 (n - c + 1) m p c fun i j k o => f (i + o) j k) := by
  tev_list
  rw [check_true hc]
  refine congrArg Except.ok (ext4 rfl rfl ?_)
  intro i j k o hi hj hk ho
  tev_unfold
  tev_core

@[tens] theorem unfold_t4_1 (n m p q : Nat) (c : Nat) (f : Nat → Nat → Nat → Nat → α) (hc : c ≤ m) :
    unfold (t4 n m p q f) 1 c =
      .ok (t5 n (m - c + 1) p q c fun i j k o u => f i (j + u) k o) := by
  tev_list
  rw [check_true hc]
  refine congrArg Except.ok (ext5 rfl rfl ?_)
  intro i j k o u hi hj hk ho hu
  tev_unfold
  tev_core

@[tens] theorem unfold_t4_n3 (n m p q : Nat) (c : Nat) (f : Nat → Nat → Nat → Nat → α) (hc : c ≤ m) :
    unfold (t4 n m p q f) (-3) c =
      .ok (t5 n (m - c + 1) p q c fun i j k o u => f i (j + u) k o) := by
  tev_list
  rw [check_true hc]
  refine congrArg Except.ok (ext5 rfl rfl ?_)
  intro i j k o u hi hj hk ho hu
  tev_unfold
  tev_core

@[tens] theorem zipWith_s_s (h : α → α → α) (f : α) (g : α) :
    zipWith h (t0 f) (t0 g) =
      .ok (t0 (h (f) (g))) := by
  tev_zip0

@[tens] theorem zipWith_n_n (n : Nat) (h : α → α → α) (f : Nat → α) (g : Nat → α) :
    zipWith h (t1 n f) (t1 n g) =
      .ok (t1 n fun i => h (f i) (g i)) := by
  tev_zip1

@[tens] theorem zipWith_nm_nm (n m : Nat) (h : α → α → α) (f : Nat → Nat → α) (g : Nat → Nat → α) :
    zipWith h (t2 n m f) (t2 n m g) =
      .ok (t2 n m fun i j => h (f i j) (g i j)) := by
  tev_zip2

@[tens] theorem zipWith_nmp_nmp (n m p : Nat) (h : α → α → α) (f : Nat → Nat → Nat → α) (g : Nat → Nat → Nat → α) :
    zipWith h (t3 n m p f) (t3 n m p g) =
      .ok (t3 n m p fun i j k => h (f i j k) (g i j k)) := by
  tev_zip3

@[tens] theorem zipWith_nmpq_nmpq (n m p q : Nat) (h : α → α → α) (f : Nat → Nat → Nat → Nat → α) (g : Nat → Nat → Nat → Nat → α) :
    zipWith h (t4 n m p q f) (t4 n m p q g) =
      .ok (t4 n m p q fun i j k o => h (f i j k o) (g i j k o)) := by
  tev_zip4

@[tens] theorem zipWith_nmpqr_nmpqr (n m p q r : Nat) (h : α → α → α) (f : Nat → Nat → Nat → Nat → Nat → α) (g : Nat → Nat → Nat → Nat → Nat → α) :
    zipWith h (t5 n m p q r f) (t5 n m p q r g) =
      .ok (t5 n m p q r fun i j k o u => h (f i j k o u) (g i j k o u)) := by
  tev_zip5

@[tens] theorem zipWith_n_s (n : Nat) (h : α → α → α) (f : Nat → α) (g : α) :
    zipWith h (t1 n f) (t0 g) =
      .ok (t1 n fun i => h (f i) (g)) := by
  tev_zip1

@[tens] theorem zipWith_s_n (n : Nat) (h : α → α → α) (f : α) (g : Nat → α) :
    zipWith h (t0 f) (t1 n g) =
      .ok (t1 n fun i => h (f) (g i)) := by
  tev_zip1

@[tens] theorem zipWith_nm_s (n m : Nat) (h : α → α → α) (f : Nat → Nat → α) (g : α) :
    zipWith h (t2 n m f) (t0 g) =
      .ok (t2 n m fun i j => h (f i j) (g)) := by
  tev_zip2

@[tens] theorem zipWith_s_nm (n m : Nat) (h : α → α → α) (f : α) (g : Nat → Nat → α) :
    zipWith h (t0 f) (t2 n m g) =
      .ok (t2 n m fun i j => h (f) (g i j)) := by
  tev_zip2

@[tens] theorem zipWith_nmp_s (n m p : Nat) (h : α → α → α) (f : Nat → Nat → Nat → α) (g : α) :
    zipWith h (t3 n m p f) (t0 g) =
      .ok (t3 n m p fun i j k => h (f i j k) (g)) := by
  tev_zip3

@[tens] theorem zipWith_s_nmp (n m p : Nat) (h : α → α → α) (f : α) (g : Nat → Nat → Nat → α) :
    zipWith h (t0 f) (t3 n m p g) =
      .ok (t3 n m p fun i j k => h (f) (g i j k)) := by
  tev_zip3

@[tens] theorem zipWith_1_n (n : Nat) (h : α → α → α) (f : Nat → α) (g : Nat → α) :
    zipWith h (t1 1 f) (t1 n g) =
      .ok (t1 n fun i => h (f 0) (g i)) := by
  tev_zip1

@[tens] theorem zipWith_n_1 (n : Nat) (h : α → α → α) (f : Nat → α) (g : Nat → α) :
    zipWith h (t1 n f) (t1 1 g) =
      .ok (t1 n fun i => h (f i) (g 0)) := by
  tev_zip1

@[tens] theorem zipWith_nm_m (n m : Nat) (h : α → α → α) (f : Nat → Nat → α) (g : Nat → α) :
    zipWith h (t2 n m f) (t1 m g) =
      .ok (t2 n m fun i j => h (f i j) (g j)) := by
  tev_zip2

@[tens] theorem zipWith_m_nm (m n : Nat) (h : α → α → α) (f : Nat → α) (g : Nat → Nat → α) :
    zipWith h (t1 m f) (t2 n m g) =
      .ok (t2 n m fun i j => h (f j) (g i j)) := by
  tev_zip2

@[tens] theorem zipWith_nm_1m (n m : Nat) (h : α → α → α) (f : Nat → Nat → α) (g : Nat → Nat → α) :
    zipWith h (t2 n m f) (t2 1 m g) =
      .ok (t2 n m fun i j => h (f i j) (g 0 j)) := by
  tev_zip2

@[tens] theorem zipWith_1m_nm (m n : Nat) (h : α → α → α) (f : Nat → Nat → α) (g : Nat → Nat → α) :
    zipWith h (t2 1 m f) (t2 n m g) =
      .ok (t2 n m fun i j => h (f 0 j) (g i j)) := by
  tev_zip2

@[tens] theorem zipWith_nm_n1 (n m : Nat) (h : α → α → α) (f : Nat → Nat → α) (g : Nat → Nat → α) :
    zipWith h (t2 n m f) (t2 n 1 g) =
      .ok (t2 n m fun i j => h (f i j) (g i 0)) := by
  tev_zip2

@[tens] theorem zipWith_n1_nm (n m : Nat) (h : α → α → α) (f : Nat → Nat → α) (g : Nat → Nat → α) :
    zipWith h (t2 n 1 f) (t2 n m g) =
      .ok (t2 n m fun i j => h (f i 0) (g i j)) := by
  tev_zip2

@[tens] theorem zipWith_nm_11 (n m : Nat) (h : α → α → α) (f : Nat → Nat → α) (g : Nat → Nat → α) :
    zipWith h (t2 n m f) (t2 1 1 g) =
      .ok (t2 n m fun i j => h (f i j) (g 0 0)) := by
  tev_zip2

@[tens] theorem zipWith_11_nm (n m : Nat) (h : α → α → α) (f : Nat → Nat → α) (g : Nat → Nat → α) :
    zipWith h (t2 1 1 f) (t2 n m g) =
      .ok (t2 n m fun i j => h (f 0 0) (g i j)) := by
  tev_zip2

@[tens] theorem zipWith_n1_1m (n m : Nat) (h : α → α → α) (f : Nat → Nat → α) (g : Nat → Nat → α) :
    zipWith h (t2 n 1 f) (t2 1 m g) =
      .ok (t2 n m fun i j => h (f i 0) (g 0 j)) := by
  tev_zip2

@[tens] theorem zipWith_1m_n1 (m n : Nat) (h : α → α → α) (f : Nat → Nat → α) (g : Nat → Nat → α) :
    zipWith h (t2 1 m f) (t2 n 1 g) =
      .ok (t2 n m fun i j => h (f 0 j) (g i 0)) := by
  tev_zip2

@[tens] theorem zipWith_n1_m (n m : Nat) (h : α → α → α) (f : Nat → Nat → α) (g : Nat → α) :
    zipWith h (t2 n 1 f) (t1 m g) =
      .ok (t2 n m fun i j => h (f i 0) (g j)) := by
  tev_zip2

@[tens] theorem zipWith_m_n1 (m n : Nat) (h : α → α → α) (f : Nat → α) (g : Nat → Nat → α) :
    zipWith h (t1 m f) (t2 n 1 g) =
      .ok (t2 n m fun i j => h (f j) (g i 0)) := by
  tev_zip2

@[tens] theorem zipWith_nmp_p (n m p : Nat) (h : α → α → α) (f : Nat → Nat → Nat → α) (g : Nat → α) :
    zipWith h (t3 n m p f) (t1 p g) =
      .ok (t3 n m p fun i j k => h (f i j k) (g k)) := by
  tev_zip3

@[tens] theorem zipWith_p_nmp (p n m : Nat) (h : α → α → α) (f : Nat → α) (g : Nat → Nat → Nat → α) :
    zipWith h (t1 p f) (t3 n m p g) =
      .ok (t3 n m p fun i j k => h (f k) (g i j k)) := by
  tev_zip3

@[tens] theorem zipWith_nmp_mp (n m p : Nat) (h : α → α → α) (f : Nat → Nat → Nat → α) (g : Nat → Nat → α) :
    zipWith h (t3 n m p f) (t2 m p g) =
      .ok (t3 n m p fun i j k => h (f i j k) (g j k)) := by
  tev_zip3

@[tens] theorem zipWith_mp_nmp (m p n : Nat) (h : α → α → α) (f : Nat → Nat → α) (g : Nat → Nat → Nat → α) :
    zipWith h (t2 m p f) (t3 n m p g) =
      .ok (t3 n m p fun i j k => h (f j k) (g i j k)) := by
  tev_zip3

@[tens] theorem zipWith_nmp_nm1 (n m p : Nat) (h : α → α → α) (f : Nat → Nat → Nat → α) (g : Nat → Nat → Nat → α) :
    zipWith h (t3 n m p f) (t3 n m 1 g) =
      .ok (t3 n m p fun i j k => h (f i j k) (g i j 0)) := by
  tev_zip3

@[tens] theorem zipWith_nm1_nmp (n m p : Nat) (h : α → α → α) (f : Nat → Nat → Nat → α) (g : Nat → Nat → Nat → α) :
    zipWith h (t3 n m 1 f) (t3 n m p g) =
      .ok (t3 n m p fun i j k => h (f i j 0) (g i j k)) := by
  tev_zip3

@[tens] theorem zipWith_nmp_n1p (n m p : Nat) (h : α → α → α) (f : Nat → Nat → Nat → α) (g : Nat → Nat → Nat → α) :
    zipWith h (t3 n m p f) (t3 n 1 p g) =
      .ok (t3 n m p fun i j k => h (f i j k) (g i 0 k)) := by
  tev_zip3

@[tens] theorem zipWith_n1p_nmp (n p m : Nat) (h : α → α → α) (f : Nat → Nat → Nat → α) (g : Nat → Nat → Nat → α) :
    zipWith h (t3 n 1 p f) (t3 n m p g) =
      .ok (t3 n m p fun i j k => h (f i 0 k) (g i j k)) := by
  tev_zip3

@[tens] theorem zipWith_nmp_1mp (n m p : Nat) (h : α → α → α) (f : Nat → Nat → Nat → α) (g : Nat → Nat → Nat → α) :
    zipWith h (t3 n m p f) (t3 1 m p g) =
      .ok (t3 n m p fun i j k => h (f i j k) (g 0 j k)) := by
  tev_zip3

@[tens] theorem zipWith_1mp_nmp (m p n : Nat) (h : α → α → α) (f : Nat → Nat → Nat → α) (g : Nat → Nat → Nat → α) :
    zipWith h (t3 1 m p f) (t3 n m p g) =
      .ok (t3 n m p fun i j k => h (f 0 j k) (g i j k)) := by
  tev_zip3

@[tens] theorem zipWith_nmp_11p (n m p : Nat) (h : α → α → α) (f : Nat → Nat → Nat → α) (g : Nat → Nat → Nat → α) :
    zipWith h (t3 n m p f) (t3 1 1 p g) =
      .ok (t3 n m p fun i j k => h (f i j k) (g 0 0 k)) := by
  tev_zip3

@[tens] theorem zipWith_11p_nmp (p n m : Nat) (h : α → α → α) (f : Nat → Nat → Nat → α) (g : Nat → Nat → Nat → α) :
    zipWith h (t3 1 1 p f) (t3 n m p g) =
      .ok (t3 n m p fun i j k => h (f 0 0 k) (g i j k)) := by
  tev_zip3

@[tens] theorem zipWith_nm1_n1p (n m p : Nat) (h : α → α → α) (f : Nat → Nat → Nat → α) (g : Nat → Nat → Nat → α) :
    zipWith h (t3 n m 1 f) (t3 n 1 p g) =
      .ok (t3 n m p fun i j k => h (f i j 0) (g i 0 k)) := by
  tev_zip3

@[tens] theorem zipWith_n1p_nm1 (n p m : Nat) (h : α → α → α) (f : Nat → Nat → Nat → α) (g : Nat → Nat → Nat → α) :
    zipWith h (t3 n 1 p f) (t3 n m 1 g) =
      .ok (t3 n m p fun i j k => h (f i 0 k) (g i j 0)) := by
  tev_zip3

@[tens] theorem zipWith_nm1_11p (n m p : Nat) (h : α → α → α) (f : Nat → Nat → Nat → α) (g : Nat → Nat → Nat → α) :
    zipWith h (t3 n m 1 f) (t3 1 1 p g) =
      .ok (t3 n m p fun i j k => h (f i j 0) (g 0 0 k)) := by
  tev_zip3

@[tens] theorem zipWith_11p_nm1 (p n m : Nat) (h : α → α → α) (f : Nat → Nat → Nat → α) (g : Nat → Nat → Nat → α) :
    zipWith h (t3 1 1 p f) (t3 n m 1 g) =
      .ok (t3 n m p fun i j k => h (f 0 0 k) (g i j 0)) := by
  tev_zip3

@[tens] theorem zipWith_nm1_p (n m p : Nat) (h : α → α → α) (f : Nat → Nat → Nat → α) (g : Nat → α) :
    zipWith h (t3 n m 1 f) (t1 p g) =
      .ok (t3 n m p fun i j k => h (f i j 0) (g k)) := by
  tev_zip3

@[tens] theorem zipWith_p_nm1 (p n m : Nat) (h : α → α → α) (f : Nat → α) (g : Nat → Nat → Nat → α) :
    zipWith h (t1 p f) (t3 n m 1 g) =
      .ok (t3 n m p fun i j k => h (f k) (g i j 0)) := by
  tev_zip3

@[tens] theorem zipWith_nmpq_nm1q (n m p q : Nat) (h : α → α → α) (f : Nat → Nat → Nat → Nat → α) (g : Nat → Nat → Nat → Nat → α) :
    zipWith h (t4 n m p q f) (t4 n m 1 q g) =
      .ok (t4 n m p q fun i j k o => h (f i j k o) (g i j 0 o)) := by
  tev_zip4

@[tens] theorem zipWith_nm1q_nmpq (n m q p : Nat) (h : α → α → α) (f : Nat → Nat → Nat → Nat → α) (g : Nat → Nat → Nat → Nat → α) :
    zipWith h (t4 n m 1 q f) (t4 n m p q g) =
      .ok (t4 n m p q fun i j k o => h (f i j 0 o) (g i j k o)) := by
  tev_zip4

@[tens] theorem zipWith_nmpq_nmp1 (n m p q : Nat) (h : α → α → α) (f : Nat → Nat → Nat → Nat → α) (g : Nat → Nat → Nat → Nat → α) :
    zipWith h (t4 n m p q f) (t4 n m p 1 g) =
      .ok (t4 n m p q fun i j k o => h (f i j k o) (g i j k 0)) := by
  tev_zip4

@[tens] theorem zipWith_nmp1_nmpq (n m p q : Nat) (h : α → α → α) (f : Nat → Nat → Nat → Nat → α) (g : Nat → Nat → Nat → Nat → α) :
    zipWith h (t4 n m p 1 f) (t4 n m p q g) =
      .ok (t4 n m p q fun i j k o => h (f i j k 0) (g i j k o)) := by
  tev_zip4

@[tens] theorem zipWith_nmp1_nm1q (n m p q : Nat) (h : α → α → α) (f : Nat → Nat → Nat → Nat → α) (g : Nat → Nat → Nat → Nat → α) :
    zipWith h (t4 n m p 1 f) (t4 n m 1 q g) =
      .ok (t4 n m p q fun i j k o => h (f i j k 0) (g i j 0 o)) := by
  tev_zip4

@[tens] theorem zipWith_nm1q_nmp1 (n m q p : Nat) (h : α → α → α) (f : Nat → Nat → Nat → Nat → α) (g : Nat → Nat → Nat → Nat → α) :
    zipWith h (t4 n m 1 q f) (t4 n m p 1 g) =
      .ok (t4 n m p q fun i j k o => h (f i j 0 o) (g i j k 0)) := by
  tev_zip4

@[tens] theorem zipWith_n1_n (n : Nat) (h : α → α → α) (f : Nat → Nat → α) (g : Nat → α) :
    zipWith h (t2 n 1 f) (t1 n g) =
      .ok (t2 n n fun i j => h (f i 0) (g j)) := by
  tev_zip2

@[tens] theorem zipWith_n_n1 (n : Nat) (h : α → α → α) (f : Nat → α) (g : Nat → Nat → α) :
    zipWith h (t1 n f) (t2 n 1 g) =
      .ok (t2 n n fun i j => h (f j) (g i 0)) := by
  tev_zip2

@[tens] theorem zipWith_nm1_mp (n m p : Nat) (h : α → α → α) (f : Nat → Nat → Nat → α) (g : Nat → Nat → α) :
    zipWith h (t3 n m 1 f) (t2 m p g) =
      .ok (t3 n m p fun i j k => h (f i j 0) (g j k)) := by
  tev_zip3

@[tens] theorem zipWith_mp_nm1 (m p n : Nat) (h : α → α → α) (f : Nat → Nat → α) (g : Nat → Nat → Nat → α) :
    zipWith h (t2 m p f) (t3 n m 1 g) =
      .ok (t3 n m p fun i j k => h (f j k) (g i j 0)) := by
  tev_zip3

@[tens] theorem zipWith_nm_1 (n m : Nat) (h : α → α → α) (f : Nat → Nat → α) (g : Nat → α) :
    zipWith h (t2 n m f) (t1 1 g) =
      .ok (t2 n m fun i j => h (f i j) (g 0)) := by
  tev_zip2

@[tens] theorem zipWith_1_nm (n m : Nat) (h : α → α → α) (f : Nat → α) (g : Nat → Nat → α) :
    zipWith h (t1 1 f) (t2 n m g) =
      .ok (t2 n m fun i j => h (f 0) (g i j)) := by
  tev_zip2

@[tens] theorem zipWith_nmp_1 (n m p : Nat) (h : α → α → α) (f : Nat → Nat → Nat → α) (g : Nat → α) :
    zipWith h (t3 n m p f) (t1 1 g) =
      .ok (t3 n m p fun i j k => h (f i j k) (g 0)) := by
  tev_zip3

@[tens] theorem zipWith_1_nmp (n m p : Nat) (h : α → α → α) (f : Nat → α) (g : Nat → Nat → Nat → α) :
    zipWith h (t1 1 f) (t3 n m p g) =
      .ok (t3 n m p fun i j k => h (f 0) (g i j k)) := by
  tev_zip3

end Tensor
end Torch
