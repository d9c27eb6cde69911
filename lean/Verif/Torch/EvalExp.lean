import Verif.Torch.Eval

/-!
# Evaluation lemmas (generated by tools/gen_eval.py)

`expand` / `broadcast_to`.
-/

namespace Torch
namespace Tensor
variable {α : Type} [Zero α]
set_option linter.unusedVariables false
set_option linter.unusedSimpArgs false

@[tens] theorem expand_s_1 (f : α) :
    expand (t0 f) [some 1] =
      .ok (t1 1 fun _ => f) := by
  tev_exp
  refine congrArg Except.ok (ext1 rfl rfl ?_)
  intro i hi
  tev_zipd

@[tens] theorem expand_1_n (n : Nat) (f : Nat → α) :
    expand (t1 1 f) [some n] =
      .ok (t1 n fun _ => f 0) := by
  tev_exp
  refine congrArg Except.ok (ext1 rfl rfl ?_)
  intro i hi
  tev_zipd

@[tens] theorem expand_n1_Xm (n m : Nat) (f : Nat → Nat → α) :
    expand (t2 n 1 f) [none, some m] =
      .ok (t2 n m fun i _ => f i 0) := by
  tev_exp
  refine congrArg Except.ok (ext2 rfl rfl ?_)
  intro i j hi hj
  tev_zipd

@[tens] theorem expand_n1_n1 (n : Nat) (f : Nat → Nat → α) :
    expand (t2 n 1 f) [some n, some 1] =
      .ok (t2 n 1 fun i j => f i j) := by
  tev_exp
  refine congrArg Except.ok (ext2 rfl rfl ?_)
  intro i j hi hj
  tev_zipd

@[tens] theorem expand_11_n1 (n : Nat) (f : Nat → Nat → α) :
    expand (t2 1 1 f) [some n, some 1] =
      .ok (t2 n 1 fun _ j => f 0 j) := by
  tev_exp
  refine congrArg Except.ok (ext2 rfl rfl ?_)
  intro i j hi hj
  tev_zipd

@[tens] theorem expand_1m_nm (m n : Nat) (f : Nat → Nat → α) :
    expand (t2 1 m f) [some n, some m] =
      .ok (t2 n m fun _ j => f 0 j) := by
  tev_exp
  refine congrArg Except.ok (ext2 rfl rfl ?_)
  intro i j hi hj
  tev_zipd

@[tens] theorem expand_1m_nX (m n : Nat) (f : Nat → Nat → α) :
    expand (t2 1 m f) [some n, none] =
      .ok (t2 n m fun _ j => f 0 j) := by
  tev_exp
  refine congrArg Except.ok (ext2 rfl rfl ?_)
  intro i j hi hj
  tev_zipd

@[tens] theorem expand_nm_nm (n m : Nat) (f : Nat → Nat → α) :
    expand (t2 n m f) [some n, some m] =
      .ok (t2 n m fun i j => f i j) := by
  tev_exp
  refine congrArg Except.ok (ext2 rfl rfl ?_)
  intro i j hi hj
  tev_zipd

@[tens] theorem expand_nm_nX (n m : Nat) (f : Nat → Nat → α) :
    expand (t2 n m f) [some n, none] =
      .ok (t2 n m fun i j => f i j) := by
  tev_exp
  refine congrArg Except.ok (ext2 rfl rfl ?_)
  intro i j hi hj
  tev_zipd

@[tens] theorem expand_1mp_nXX (m p n : Nat) (f : Nat → Nat → Nat → α) :
    expand (t3 1 m p f) [some n, none, none] =
      .ok (t3 n m p fun _ j k => f 0 j k) := by
  tev_exp
  refine congrArg Except.ok (ext3 rfl rfl ?_)
  intro i j k hi hj hk
  tev_zipd

@[tens] theorem expand_nmp_nXX (n m p : Nat) (f : Nat → Nat → Nat → α) :
    expand (t3 n m p f) [some n, none, none] =
      .ok (t3 n m p fun i j k => f i j k) := by
  tev_exp
  refine congrArg Except.ok (ext3 rfl rfl ?_)
  intro i j k hi hj hk
  tev_zipd

@[tens] theorem expand_mp_nmp (m p n : Nat) (f : Nat → Nat → α) :
    expand (t2 m p f) [some n, some m, some p] =
      .ok (t3 n m p fun _ j k => f j k) := by
  tev_exp
  refine congrArg Except.ok (ext3 rfl rfl ?_)
  intro i j k hi hj hk
  tev_zipd

@[tens] theorem expand_mp_nXX (m p n : Nat) (f : Nat → Nat → α) :
    expand (t2 m p f) [some n, none, none] =
      .ok (t3 n m p fun _ j k => f j k) := by
  tev_exp
  refine congrArg Except.ok (ext3 rfl rfl ?_)
  intro i j k hi hj hk
  tev_zipd

@[tens] theorem expand_1mp_nmp (m p n : Nat) (f : Nat → Nat → Nat → α) :
    expand (t3 1 m p f) [some n, some m, some p] =
      .ok (t3 n m p fun _ j k => f 0 j k) := by
  tev_exp
  refine congrArg Except.ok (ext3 rfl rfl ?_)
  intro i j k hi hj hk
  tev_zipd

@[tens] theorem expand_nmp_nmp (n m p : Nat) (f : Nat → Nat → Nat → α) :
    expand (t3 n m p f) [some n, some m, some p] =
      .ok (t3 n m p fun i j k => f i j k) := by
  tev_exp
  refine congrArg Except.ok (ext3 rfl rfl ?_)
  intro i j k hi hj hk
  tev_zipd

@[tens] theorem expand_m_nm (m n : Nat) (f : Nat → α) :
    expand (t1 m f) [some n, some m] =
      .ok (t2 n m fun _ j => f j) := by
  tev_exp
  refine congrArg Except.ok (ext2 rfl rfl ?_)
  intro i j hi hj
  tev_zipd

@[tens] theorem expand_s_n (n : Nat) (f : α) :
    expand (t0 f) [some n] =
      .ok (t1 n fun _ => f) := by
  tev_exp
  refine congrArg Except.ok (ext1 rfl rfl ?_)
  intro i hi
  tev_zipd

@[tens] theorem expand_m_nX (m n : Nat) (f : Nat → α) :
    expand (t1 m f) [some n, none] =
      .ok (t2 n m fun _ j => f j) := by
  tev_exp
  refine congrArg Except.ok (ext2 rfl rfl ?_)
  intro i j hi hj
  tev_zipd

@[tens] theorem expand_n_n (n : Nat) (f : Nat → α) :
    expand (t1 n f) [some n] =
      .ok (t1 n fun i => f i) := by
  tev_exp
  refine congrArg Except.ok (ext1 rfl rfl ?_)
  intro i hi
  tev_zipd

@[tens] theorem expand_m_1m (m : Nat) (f : Nat → α) :
    expand (t1 m f) [some 1, some m] =
      .ok (t2 1 m fun _ j => f j) := by
  tev_exp
  refine congrArg Except.ok (ext2 rfl rfl ?_)
  intro i j hi hj
  tev_zipd

@[tens] theorem expand_nm1_nmp (n m p : Nat) (f : Nat → Nat → Nat → α) :
    expand (t3 n m 1 f) [some n, some m, some p] =
      .ok (t3 n m p fun i j _ => f i j 0) := by
  tev_exp
  refine congrArg Except.ok (ext3 rfl rfl ?_)
  intro i j k hi hj hk
  tev_zipd

@[tens] theorem expand_n1p_nmp (n p m : Nat) (f : Nat → Nat → Nat → α) :
    expand (t3 n 1 p f) [some n, some m, some p] =
      .ok (t3 n m p fun i _ k => f i 0 k) := by
  tev_exp
  refine congrArg Except.ok (ext3 rfl rfl ?_)
  intro i j k hi hj hk
  tev_zipd

@[tens] theorem expand_pq_nmpq (p q n m : Nat) (f : Nat → Nat → α) :
    expand (t2 p q f) [some n, some m, some p, some q] =
      .ok (t4 n m p q fun _ _ k o => f k o) := by
  tev_exp
  refine congrArg Except.ok (ext4 rfl rfl ?_)
  intro i j k o hi hj hk ho
  tev_zipd

@[tens] theorem expand_qr_nmpqr (q r n m p : Nat) (f : Nat → Nat → α) :
    expand (t2 q r f) [some n, some m, some p, some q, some r] =
      .ok (t5 n m p q r fun _ _ _ o u => f o u) := by
  tev_exp
  refine congrArg Except.ok (ext5 rfl rfl ?_)
  intro i j k o u hi hj hk ho hu
  tev_zipd

end Tensor
end Torch
