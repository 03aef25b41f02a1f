import Verif.Model.Basic
import Mathlib.Algebra.Order.Field.Basic
import Mathlib.Algebra.Order.Field.Rat
import Mathlib.Algebra.Order.Group.Abs

/-!
Model of `bark/world/evaluation/ltl/label_functions/safe_distance_label_function.{hpp,cpp}` and of
`bark/world/evaluation/safe_distances/evaluator_dynamic_safe_dist.cpp`, over an ordered field.

Simplifications: exact arithmetic (the narrowing of velocities and distances to `float` in the parameter lists is
ignored); the accelerations passed in are nonzero (division by zero is not modelled).  The nearest agents and their
front/rear agents are inputs (see `Model/World.lean`, `Model/FrontRear.lean`).
-/
namespace Bark.SafeDist
open Bark
set_option linter.unusedSectionVars false

section
variable {K : Type} [Field K] [LinearOrder K] [IsStrictOrderedRing K]

/-- safe_distance_label_function.cpp:148-161 `CalcVelFrontStar` -/
def velFrontStar (v_f a_f delta : K) : K :=
  if delta ≤ -v_f / a_f then v_f + a_f * delta else 0

/-- safe_distance_label_function.cpp:163-167 -/
def safeDist0 (v_r a_r delta : K) : K := v_r * delta - v_r ^ 2 / (2 * a_r)

/-- safe_distance_label_function.cpp:169-175 -/
def safeDist1 (v_r v_f a_r a_f delta : K) : K := v_r * delta - v_r ^ 2 / (2 * a_r) + v_f ^ 2 / (2 * a_f)

/-- safe_distance_label_function.cpp:177-185 -/
def safeDist2 (v_r v_f a_r a_f delta : K) : K :=
  (v_f + a_f * delta - v_r) ^ 2 / (2 * (a_f - a_r)) - v_f * delta - 1 / 2 * a_f * delta ^ 2 + v_r * delta

/-- safe_distance_label_function.cpp:187-194 -/
def safeDist3 (v_r v_f a_r a_f delta : K) : K :=
  v_r * delta - v_r ^ 2 / (2 * a_r) - v_f * delta - a_f * delta ^ 2 / 2

/-- the lambda safe_distance_label_function.cpp:126-128 -/
def zeroToPositive (x : K) : K := if x < 0 then 0 else x

/-- safe_distance_label_function.cpp:112-146 `CheckSafeDistanceLongitudinal(v_f, v_r, dist, a_r, a_f, delta)` -/
def checkLon (v_f v_r dist a_r a_f delta : K) : Bool :=
  if dist < 0 then true
  else
    let v_f_star := velFrontStar v_f a_f delta
    let t_stop_f_star := -v_f_star / a_r
    let t_stop_r := -v_r / a_r
    let t_stop_f := -v_f / a_f
    if dist > zeroToPositive (safeDist0 v_r a_r delta) ∨
        (delta ≤ t_stop_f ∧ dist > zeroToPositive (safeDist3 v_r v_f a_r a_f delta)) then true
    else if delta ≤ t_stop_f ∧ a_f > a_r ∧ v_f_star < v_r ∧ t_stop_r < t_stop_f_star then
      decide (dist > zeroToPositive (safeDist2 v_r v_f a_r a_f delta))
    else decide (dist > zeroToPositive (safeDist1 v_r v_f a_r a_f delta))

/-- `v == 0.0 ? 0.0 : v*v / (2 * a)` -/
def brakeTerm (v a : K) : K := if v = 0 then 0 else v * v / (2 * a)

/-- safe_distance_label_function.cpp:290-299 `CheckSafeDistanceLateral(v_1, v_2, dist, a_1, a_2, delta1, delta2)` -/
def checkLat (v1 v2 dist a1 a2 delta1 delta2 : K) : Bool :=
  decide (dist > v1 * delta1 + brakeTerm v1 a1 - (v2 * delta2 - brakeTerm v2 a2))

/-- the fields of `FrenetStateDifference` that are used: the differences, the flags, and of `from`/`to` the velocities
and road angles (frenet_state.hpp:53-71) -/
structure Diff (K : Type) where
  lon : K
  lat : K
  lonZeroed : Bool
  latZeroed : Bool
  fromVlon : K
  toVlon : K
  fromVlat : K
  toVlat : K
  fromAngle : K
  toAngle : K

/-- `FrontRearAgents` (world.hpp:53-57): agent id and difference, if there is such an agent -/
structure FrontRear (K : Type) where
  front : Option (Nat × Diff K)
  rear : Option (Nat × Diff K)

/-- parameters of the label function, safe_distance_label_function.hpp:75-86 -/
structure Cfg (K : Type) where
  deltaEgo : K
  deltaOthers : K
  aEgo : K
  aOthers : K
  crossing : Bool
  checkLat : Bool

/-- the entry of `ego`, `fr_agents.front.first && ….GetAgentId() == ego` -/
def isAgent (ego : Nat) : Option (Nat × Diff K) → Option (Diff K)
  | none => none
  | some x => if x.1 = ego then some x.2 else none

/-- safe_distance_label_function.cpp:82-110 `CheckSafeDistanceLongitudinal(fr_agents, ego_agent)`; note the fixed order
of the last two accelerations in the call, line 107-108 -/
def labelLon (c : Cfg K) (fr : FrontRear K) (ego : Nat) : Bool :=
  match isAgent ego fr.front with
  | some d => checkLon d.toVlon d.fromVlon (if d.lonZeroed then 0 else d.lon) c.aOthers c.aEgo c.deltaOthers
  | none =>
    match isAgent ego fr.rear with
    | some d => checkLon d.fromVlon d.toVlon (if d.lonZeroed then 0 else |d.lon|) c.aOthers c.aEgo c.deltaEgo
    | none => true

/-- safe_distance_label_function.cpp:244-267, from the velocities on -/
def lateralCases (v1 v2 dist a1 a2 delta1 delta2 : K) : Bool :=
  if dist = 0 then false
  else if 0 ≤ v1 ∧ v2 ≤ 0 ∧ dist < 0 then true
  else if v1 ≤ 0 ∧ 0 ≤ v2 ∧ 0 < dist then true
  else if v1 < v2 then checkLat v2 v1 |dist| a2 a1 delta2 delta1
  else checkLat v1 v2 |dist| a1 a2 delta1 delta2

/-- safe_distance_label_function.cpp:198-268; `maxAcc agent angle total left` is the lambda `GetMaxAccLat` (lines 199-214).
In both cases the first acceleration is computed for `fr_agents.front.first` (`rear.first`), which is the ego. -/
def labelLat (c : Cfg K) (maxAcc : Nat → K → K → Bool → K) (fr : FrontRear K) (ego : Nat) : Bool :=
  match isAgent ego fr.front with
  | some d => lateralCases d.fromVlat d.toVlat (if d.latZeroed then 0 else d.lat)
      (maxAcc ego d.fromAngle c.aOthers (decide (0 ≤ d.lat))) (maxAcc ego d.toAngle c.aEgo (decide (0 ≤ d.lat)))
      c.deltaOthers c.deltaEgo
  | none =>
    match isAgent ego fr.rear with
    | some d => lateralCases d.fromVlat d.toVlat (if d.latZeroed then 0 else d.lat)
        (maxAcc ego d.fromAngle c.aOthers (decide (0 ≤ d.lat))) (maxAcc ego d.toAngle c.aEgo (decide (0 ≤ d.lat)))
        c.deltaOthers c.deltaEgo
    | none => true

/-- safe_distance_label_function.cpp:63-79: the loop over the nearest agents, each with its front and rear agent -/
def crossingLoop (c : Cfg K) (maxAcc : Nat → K → K → Bool → K) (ego : Nat) : List (Nat × FrontRear K) → Bool
  | [] => true
  | x :: l =>
    if x.1 = ego then crossingLoop c maxAcc ego l
    else
      let lon := labelLon c x.2 ego
      let safe := if lon = false ∧ c.checkLat = true then labelLat c maxAcc x.2 ego else lon
      if safe = false then false else crossingLoop c maxAcc ego l

/-- safe_distance_label_function.cpp:44-50 `Evaluate`: the value of the label -/
def labelValue (c : Cfg K) (maxAcc : Nat → K → K → Bool → K) (ego : Nat) (nearest : List (Nat × FrontRear K)) : Bool :=
  if c.crossing = true then crossingLoop c maxAcc ego nearest else true

/-- evaluator_dynamic_safe_dist.cpp:16-31: the default parameters (`ReactionTimeEgo` 0.2, `ReactionTimeOthers` 0.8, both
decelerations **+5**, `ConsiderCrossingCorridors` false, `CheckLateralSafeDist` false) -/
def dynamicDefaults : Cfg K :=
  { deltaEgo := 1 / 5, deltaOthers := 4 / 5, aEgo := 5, aOthers := 5, crossing := false, checkLat := false }

end
end Bark.SafeDist
