import Lean.Meta.Tactic.Simp.RegisterCommand
import Lean.Elab.Tactic.Simp

/-! The simp set `tens` of tensor evaluation lemmas. -/

/-- Evaluation lemmas for tensor operations on canonical tensors. -/
register_simp_attr tens
