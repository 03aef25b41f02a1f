import Verif.Spec.Rigid
import Verif.Model.Steering
import Verif.Model.Pick
import Verif.Model.Shape

/-! Specification vocabulary for C211: state vectors in other coordinates. -/
namespace Bark.Rigid.Spec
open Bark.Ln

/-- `x'` is the state vector `x` in the new coordinates (entries: time, x, y, heading, velocity, others); the heading may
differ by whole turns -/
structure MovedVec (M : Motion) (x x' : Dyn.State) : Prop where
  time : x' 0 = x 0
  pos : (x' 1, x' 2) = M.pt (x 1, x 2)
  theta : Angle.Spec.SameDir (x' 3) (x 3 + M.turn)
  rest : ∀ i, 4 ≤ i → x' i = x i

end Bark.Rigid.Spec
