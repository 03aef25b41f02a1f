import Verif.Model.FrontRear

/-! Specification vocabulary for the front/rear search and the frenet difference. -/
namespace Bark.Spec
set_option linter.unusedSectionVars false
variable {K St Act B E Sh Box O Lane : Type} [Field K] [LinearOrder K] [IsStrictOrderedRing K]

/-- Signed gap between two closed intervals `[l1,u1]` (centre `c1`) and `[l2,u2]` (centre `c2`):
positive if the second lies beyond the first, negative if it lies before it; if they overlap, the
distance of the centres. -/
def signedGap (l1 u1 c1 l2 u2 c2 : K) : K :=
  if u1 < l2 then l2 - u1 else if u2 < l1 then u2 - l1 else c2 - c1

/-- the closed intervals have a common point -/
def Overlap (l1 u1 l2 u2 : K) : Prop := ∃ x, l1 ≤ x ∧ x ≤ u1 ∧ l2 ≤ x ∧ x ≤ u2

/-- extensions are distances -/
def Ext.NonNeg (e : Ext K) : Prop := 0 ≤ e.front ∧ 0 ≤ e.rear ∧ 0 ≤ e.left ∧ 0 ≤ e.right

/-- agent `a` (in state `s`) is another active agent with valid behaviour that passes the lateral and
angular thresholds; `d` is its difference to the ego. -/
structure Qualifies (P : Plug K St Act B E Sh Box O) (G : FRPlug K St Act B E Sh Box Lane)
    (p : FRParams K) (w : World K St Act B E Sh Box O) (lane : Lane) (ego : Nat) (egoSt : St)
    (egoSh : Sh) (a : Agent K St Act B E Sh) (d : FDiff K) : Prop where
  other : a.id ≠ ego
  valid : P.status a.behavior = .valid
  active : a.firstValid ≤ w.time + 1 / 2 ^ 52
  state : ∃ s, a.currentState = .ok s ∧
    d = frenetDiff (G.frenet lane egoSt) (G.frenet lane s) (G.ext egoSh (G.frenet lane egoSt).angle)
      (G.ext a.shape (G.frenet lane s).angle) ∧
    |(G.frenet lane s).angle| ≤ p.angThr
  lateral : d.latZeroed = true ∧ 0 ≤ p.latThr ∨ d.latZeroed = false ∧ |d.lat| ≤ p.latThr

end Bark.Spec
