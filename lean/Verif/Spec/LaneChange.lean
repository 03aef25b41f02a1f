import Verif.Model.FrontRear
import Verif.Model.Idm

/-! Specification for the lane-change decisions (C45, C46, C86). Only the public queries of the world appear here: the
front/rear search in a lane corridor, the ego's state and the length until the end of a corridor. -/
namespace Bark.LaneSpec
set_option linter.unusedSectionVars false
variable {K St Act B E Sh Box O Lane : Type} [Field K] [LinearOrder K] [IsStrictOrderedRing K]

/-- what is known about a lane: the length left, the gap to the vehicle ahead (if any), gap (negative) and relative
velocity of the vehicle behind (if any) -/
structure Facts (K : Type) where
  remaining : K
  front : Option K
  rear : Option (K × K)

/-- `f` is what the queries of the world `w` tell about `lane` -/
structure Measured (P : Plug K St Act B E Sh Box O) (G : FRPlug K St Act B E Sh Box Lane) (pi : K) (n : Nat)
    (vel : St → K) (len : Lane → St → K) (ego : Nat) (w : World K St Act B E Sh Box O) (lane : Lane)
    (f : Facts K) : Prop where
  ex : ∃ e s fr, w.getAgent ego = some e ∧ e.currentState = .ok s ∧
    getAgentFrontRear P G { latThr := 100, angThr := pi, lonThr := 0 } n true (some lane) ego w = .ok fr ∧
    f.remaining = len lane s ∧
    f.front = fr.front.1.map (fun _ => fr.front.2.lon) ∧
    (fr.rear.1 = none → f.rear = none) ∧
    ∀ a, fr.rear.1 = some a → ∃ sa, a.currentState = .ok sa ∧ f.rear = some (fr.rear.2.lon, vel sa - vel s)

/-- free space ahead: to the vehicle in front (a million if there is none), at most to the end of the lane -/
def free (f : Facts K) : K := min f.remaining (f.front.getD (10 ^ 6))

/-- the three conditions of the lane-change model -/
structure Safe (minRemaining minRear minFront timeGap : K) (f : Facts K) : Prop where
  remaining : minRemaining ≤ f.remaining
  front : minFront ≤ free f
  rear : ∀ d dv, f.rear = some (d, dv) → d ≤ -minRear - |dv| * timeGap
  noRear : f.rear = none → minRear ≤ 1000

/-! ### MOBIL (C46) -/

/-- the traffic on a lane as MOBIL sees it: the ego's speed and the length it has left there, the vehicle ahead (gap, speed)
and the vehicle behind (gap, speed, length it has left) -/
structure Scene where
  vEgo : ℝ
  len : ℝ
  front : Option (ℝ × ℝ)
  rear : Option (ℝ × ℝ × ℝ)

/-- `sc` is the traffic on `lane` according to the queries of the world -/
structure SceneAt (P : Plug ℝ St Act B E Sh Box O) (G : FRPlug ℝ St Act B E Sh Box Lane) (pi : ℝ) (n : Nat)
    (vel : St → ℝ) (len : Lane → St → ℝ) (ego : Nat) (w : World ℝ St Act B E Sh Box O) (lane : Lane)
    (sc : Scene) : Prop where
  ex : ∃ e s fr, w.getAgent ego = some e ∧ e.currentState = .ok s ∧
    getAgentFrontRear P G { latThr := 100, angThr := pi, lonThr := 0 } n true (some lane) ego w = .ok fr ∧
    sc.vEgo = vel s ∧ sc.len = len lane s ∧
    (fr.front.1 = none → sc.front = none) ∧
    (∀ a, fr.front.1 = some a → ∃ sa, a.currentState = .ok sa ∧
      sc.front = some (min (len lane s) fr.front.2.lon, vel sa)) ∧
    (fr.rear.1 = none → sc.rear = none) ∧
    ∀ a, fr.rear.1 = some a → ∃ sa, a.currentState = .ok sa ∧ sc.rear = some (-fr.rear.2.lon, vel sa, len lane sa)

/-- what the IDM formula gives without a leader: full free-road acceleration, or braking for the end of the lane -/
noncomputable def leaderless (p : Idm.Params) (brakeForEnd : Prop) [Decidable brakeForEnd] (stopAt v : ℝ) : Num :=
  if brakeForEnd then Idm.rawAcc p stopAt v 0 else Num.mul (.fin p.maxAcc) (Idm.freeRoad p v)

open Classical in
/-- acceleration of the ego on the lane -/
noncomputable def egoAcc (p : Idm.Params) (brake : Bool) (enabled offset : ℝ) (sc : Scene) : Num :=
  match sc.front with
  | some (d, v) => Idm.rawAcc p d sc.vEgo v
  | none => leaderless p (brake = true ∧ sc.len - offset ≤ enabled) (sc.len - offset) sc.vEgo

open Classical in
/-- acceleration of the vehicle behind as long as the ego is elsewhere -/
noncomputable def followerNow (p : Idm.Params) (brake : Bool) (enabled offset : ℝ) (sc : Scene) : Num :=
  match sc.rear with
  | none => .fin 0
  | some (g, v, l) =>
    match sc.front with
    | some (d, vf) => Idm.rawAcc p (d + g) v vf
    | none => leaderless p (brake = true ∧ l - offset ≤ enabled) (l - offset) v

/-- acceleration of the vehicle behind with the ego in front of it -/
noncomputable def followerThen (p : Idm.Params) (sc : Scene) : Num :=
  match sc.rear with
  | none => .fin 0
  | some (g, v, _) => Idm.rawAcc p g v sc.vEgo

/-- what the ego gains by going from the traffic `sc0` to the traffic `sc` -/
noncomputable def gain (p : Idm.Params) (brake : Bool) (enabled offset : ℝ) (sc0 sc : Scene) : Num :=
  Num.sub (egoAcc p brake enabled offset sc) (egoAcc p brake enabled offset sc0)

/-- safety criterion (the follower need not brake with `safeDec` or more) and incentive criterion of MOBIL -/
structure Admissible (p : Idm.Params) (brake : Bool) (enabled offset : ℝ) (aThr politeness safeDec : ℝ)
    (sc0 sc : Scene) : Prop where
  safety : ¬ Num.ge (.fin (-safeDec)) (followerThen p sc)
  incentive : Num.lt
    (Num.add (Num.mul (.fin politeness)
      (Num.sub (followerNow p brake enabled offset sc) (followerThen p sc))) (.fin aThr))
    (gain p brake enabled offset sc0 sc)

end Bark.LaneSpec
