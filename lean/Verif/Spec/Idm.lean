import Verif.Model.Idm

/-! Specification vocabulary for the IDM properties (C21–C25, C57). -/
namespace Bark.Idm.Spec

/-- sensible parameters: the acceleration bounds are ordered, maximal acceleration and comfortable braking
are positive, the desired velocity is not zero and the coolness factor is in `[0,1)` -/
structure Sane (p : Params) : Prop where
  bounds : p.accLower ≤ p.accUpper
  maxAcc : 0 < p.maxAcc
  comf : 0 < p.comfBraking
  desired : p.desiredVel ≠ 0
  cool0 : 0 ≤ p.coolness
  cool1 : p.coolness < 1
  tiny : 0 < p.tiny

/-- The one situation in which the cruise-control heuristic has no value: ego and leader drive in opposite directions
and the squared velocity of the leader is exactly twice the smallest positive `double` times its usable acceleration. -/
def Singular (p : Params) (r : Rel) (v : ℝ) : Prop :=
  0 < p.coolness ∧ r.hasLeader = true ∧ r.velocity * v < 0 ∧ r.velocity ^ 2 = 2 * p.tiny * min r.leadAcc p.maxAcc

/-- the call returned the real number `a` -/
def Returns (x : Res Num) (a : ℝ) : Prop := x = .ok (.fin a)

/-- desired gap of the textbook IDM -/
noncomputable def desiredGap (p : Params) (v vo : ℝ) : ℝ :=
  p.minSpacing + v * p.headway + v * (v - vo) / (2 * Real.sqrt (p.maxAcc * p.comfBraking))

/-- acceleration of the textbook IDM behind a leader at a positive gap `d` -/
noncomputable def textbook (p : Params) (d v vo : ℝ) : ℝ :=
  p.maxAcc * (1 - (v / p.desiredVel) ^ p.exponent - (desiredGap p v vo / d) ^ 2)

open Classical in
/-- the constant-acceleration heuristic of the textbook (eq. 11.25) for a positive gap `d` and an effective
acceleration `E` of the leader: a leader that comes to a stop within the gap, otherwise braking to its velocity -/
noncomputable def heuristic (d v vo E : ℝ) : ℝ :=
  if vo * (v - vo) < -2 * d * E then v ^ 2 * E / (vo ^ 2 - 2 * d * E)
  else if vo ≤ v then E - (v - vo) ^ 2 / (2 * d) else E

open Classical in
/-- blending of the IDM acceleration `x` and the heuristic `y` (eq. 11.26) with coolness factor `c` and comfortable
braking `b` -/
noncomputable def blend (c b x y : ℝ) : ℝ :=
  if y ≤ x then x else (1 - c) * x + c * (y + b * Real.tanh ((x - y) / b))

end Bark.Idm.Spec
