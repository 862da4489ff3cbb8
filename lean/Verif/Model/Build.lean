import Mathlib.Algebra.BigOperators.Group.List.Basic
import Mathlib.Data.Real.Basic

/-! Model: scalar set-up in class `build` (`solver_classes/build_problem.py`). -/

namespace Verif.Model

/-- build_problem.py 103: `self.ws = ws/np.sum(ws)`. -/
noncomputable def normalizedWeights (ws : List ℝ) : List ℝ := ws.map (· / ws.sum)

end Verif.Model
