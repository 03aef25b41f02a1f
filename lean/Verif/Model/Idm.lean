import Verif.Model.Num
import Verif.Model.Basic

/-!
Model of `bark/models/behavior/idm/base_idm.cpp` (longitudinal acceleration functions) and
`bark/models/behavior/idm/idm_classic.cpp` (trajectory generation). Numbers are `Num`
(reals with infinities and NaN, no rounding).
-/
namespace Bark.Idm

/-- base_idm.hpp:141-170 parameters. `tiny` is `numeric_limits<double>::min()` (base_idm.cpp:310). The
exponent (an `int` in the code) is taken to be non-negative. -/
structure Params where
  minSpacing : ℝ
  headway : ℝ
  maxAcc : ℝ
  desiredVel : ℝ
  comfBraking : ℝ
  minVel : ℝ
  maxVel : ℝ
  accLower : ℝ
  accUpper : ℝ
  exponent : Nat
  numPoints : Nat
  coolness : ℝ
  tiny : ℝ

open Num

/-- base_idm.cpp:93-98 `CalcFreeRoadTerm` -/
noncomputable def freeRoad (p : Params) (v : ℝ) : Num :=
  sub (fin 1) (pow (div (fin v) (fin p.desiredVel)) p.exponent)

/-- base_idm.cpp:110-113 `helper_state` -/
noncomputable def helper (p : Params) (v vo : ℝ) : Num :=
  add (fin (p.minSpacing + v * p.headway))
    (div (fin (v * (v - vo))) (mul (fin 2) (Num.sqrt (fin (p.maxAcc * p.comfBraking)))))

open Classical in
/-- base_idm.cpp:100-121 `CalcInteractionTerm` -/
noncomputable def interaction (p : Params) (d v vo : ℝ) : Num :=
  let q := div (helper p v vo) (fin (max d 0))
  let r := mul q q
  match r with
  | nan => pinf
  | r => r

/-- base_idm.cpp:258-264 `CalcRawIDMAcc` -/
noncomputable def rawAcc (p : Params) (d v vo : ℝ) : Num :=
  mul (fin p.maxAcc) (sub (freeRoad p v) (interaction p d v vo))

/-- `std::max(std::min(acc, acc_upper_bound), acc_lower_bound)` (base_idm.cpp:166, 305, 328, 360) -/
noncomputable def clamp (p : Params) (a : Num) : Num :=
  cmax (cmin a (fin p.accUpper)) (fin p.accLower)

/-- base_idm.cpp:159-168 `CalcIDMAcc` -/
noncomputable def idmAcc (p : Params) (d v vo : ℝ) : Num := clamp p (rawAcc p d v vo)

open Classical in
/-- base_idm.cpp:271-289 `CalcCAHAcc` -/
noncomputable def cahAcc (p : Params) (d v vo ao : ℝ) : Num :=
  let eff := min ao p.maxAcc
  if vo * (v - vo) < -2 * d * eff then
    div (fin (v * v * eff)) (fin (vo * vo - 2 * d * eff))
  else
    let stepf : ℝ := if 0 ≤ v - vo then 1 else 0
    sub (fin eff) (div (fin ((v - vo) * (v - vo) * stepf)) (fin (2 * d)))

open Classical in
/-- base_idm.cpp:296-330 `CalcACCAcc`; a NaN heuristic aborts the process (`LOG(FATAL)`). -/
noncomputable def accAcc (p : Params) (d v vo ao : ℝ) : Res Num :=
  let raw := rawAcc p d v vo
  if p.coolness = 0 then .ok (clamp p raw)
  else
    match cahAcc p (if d = 0 then p.tiny else d) v vo ao with
    | nan => .error .thrown
    | cah =>
      if ge raw cah then .ok (clamp p raw)
      else
        .ok (clamp p (add (mul (fin (1 - p.coolness)) raw)
          (mul (fin p.coolness) (add cah (mul (fin p.comfBraking)
            (Num.tanh (div (sub raw cah) (fin p.comfBraking))))))))

/-- base_idm.hpp:32-38 `IDMRelativeValues` (`ego_acc` is never used). -/
structure Rel where
  distance : ℝ
  velocity : ℝ
  leadAcc : ℝ
  hasLeader : Bool

open Classical in
/-- base_idm.cpp:337-363 `GetTotalAcc`, acceleration component; `v` is the velocity of the ego's *current*
state. -/
noncomputable def totalAcc (p : Params) (r : Rel) (v relDist : ℝ) : Res Num :=
  if r.hasLeader then
    if 0 < p.coolness then accAcc p relDist v r.velocity r.leadAcc
    else .ok (idmAcc p relDist v r.velocity)
  else .ok (clamp p (mul (fin p.maxAcc) (freeRoad p v)))

/-- base_idm.cpp:337-363 `GetTotalAcc`, relative distance after the step for a finite acceleration. -/
noncomputable def nextDist (r : Rel) (v relDist acc dt : ℝ) : ℝ :=
  if r.hasLeader then relDist + (r.velocity * dt - (1 / 2 * acc * dt * dt + v * dt)) else relDist

/-- a row of the trajectory: time, arc length along the centre line, velocity (position and heading are the
point and tangent of the centre line at the arc length) -/
structure Row where
  t : ℝ
  s : ℝ
  v : ℝ

/-- idm_classic.cpp:59-86: rows `i, i+1, …` of the trajectory (`n` rows to go). `v0` is the ego's current
velocity, used for the acceleration in every iteration. A NaN acceleration makes the rest NaN. -/
noncomputable def genLoop (p : Params) (r : Rel) (start dt v0 : ℝ) :
    (n i : Nat) → (s v rel : ℝ) → Res (List (ℝ × Row))
  | 0, _, _, _, _ => .ok []
  | n + 1, i, s, v, rel =>
    match totalAcc p r v0 rel with
    | .error f => .error f
    | .ok (fin acc) =>
      let s' := s + (1 / 2 * acc * dt * dt + v * dt)
      let v' := max (min (v + acc * dt) p.maxVel) p.minVel
      match genLoop p r start dt v0 n (i + 1) s' v' (nextDist r v0 rel acc dt) with
      | .ok l => .ok ((acc, ⟨i * dt + start, s', v'⟩) :: l)
      | .error f => .error f
    | .ok _ => .error .nan

/-- idm_classic.cpp:34-91 `GenerateTrajectory` on a non-empty centre line: the accelerations used and the
rows 1 … numPoints-1. Row 0 is the ego's current state itself. `s0` is its arc length. -/
noncomputable def generate (p : Params) (r : Rel) (start dt s0 v0 : ℝ) : Res (List (ℝ × Row)) :=
  genLoop p r start dt v0 (p.numPoints - 1) 1 s0 v0 r.distance

/-- base_idm.cpp:390 time between trajectory points -/
noncomputable def stepSize (p : Params) (horizon : ℝ) : ℝ := horizon / ((p.numPoints : ℝ) - 1)

end Bark.Idm
