import Verif.Torch.Loop

namespace Torch

/-- A computation is seen to fail by evaluating it. -/
theorem fails_of_isOk {β : Type} {r : Res β} (h : r.isOk = false) : Fails r := by
  cases r with
  | error e => exact ⟨e, rfl⟩
  | ok v => cases h

end Torch
