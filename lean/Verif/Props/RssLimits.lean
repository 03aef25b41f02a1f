import Verif.Props.Rss
import Mathlib.Tactic.FieldSimp

/-!
C55 (second half): the conversion of RSS restrictions to acceleration limits.
-/
namespace Bark.Rss
open Spec Real

theorem sin_sad (a b : ℝ) : sin (Angle.signedAngleDiff id a b) = sin (a - b) := by
  obtain ⟨_, _, ⟨k, hk⟩, _⟩ := Angle.C31_signed_difference a b
  rw [hk, mul_comm (2 * π) (k : ℝ)]
  exact Real.sin_add_int_mul_two_pi _ _

theorem cos_sad (a b : ℝ) : cos (Angle.signedAngleDiff id a b) = cos (a - b) := by
  obtain ⟨_, _, ⟨k, hk⟩, _⟩ := Angle.C31_signed_difference a b
  rw [hk, mul_comm (2 * π) (k : ℝ)]
  exact Real.cos_add_int_mul_two_pi _ _

theorem sad_self (a : ℝ) : Angle.signedAngleDiff id a a = 0 := by
  obtain ⟨_, _, _, h⟩ := Angle.C31_signed_difference a a
  have := h 0 ⟨0, by simp⟩
  rw [abs_zero] at this
  exact abs_nonpos_iff.mp this

/-- **C99** (street to vehicle frame).  For a vehicle whose heading is not perpendicular to the road:
if speed `v`, heading `th` and road heading `ro` vary with time, the speed with rate `accLon`, the
road heading with the rate the two road angles and the time step stand for, and the vehicle's own
lateral acceleration `v·th'` is the value the conversion returns for `x`, then the lateral velocity
in the street frame changes with rate exactly `x`. -/
theorem C99_lateral_acceleration (v th ro : ℝ → ℝ) (t x accLon dt last th' ro' : ℝ)
    (hv : HasDerivAt v accLon t) (hth : HasDerivAt th th' t) (hro : HasDerivAt ro ro' t)
    (hrate : Angle.signedAngleDiff id (ro t) last / dt = ro')
    (hcos : cos (th t - ro t) ≠ 0)
    (hlat : v t * th' = latAccStreetToVehicle x accLon dt (th t) (v t) (ro t) last) :
    HasDerivAt (fun u => v u * sin (th u - ro u)) x t := by
  have h := hv.mul ((hth.sub hro).sin)
  have e : accLon * sin (th t - ro t) + v t * (cos (th t - ro t) * (th' - ro')) = x := by
    have e1 : v t * (cos (th t - ro t) * (th' - ro')) =
        cos (th t - ro t) * (v t * th' - v t * ro') := by ring
    rw [e1, hlat]
    simp only [latAccStreetToVehicle, sin_sad, cos_sad, hrate]
    field_simp
    ring
  rw [← e]
  exact h

/-- Non-vacuous: a straight road, a vehicle driving along it, street acceleration 1. -/
example : latAccStreetToVehicle 1 0 1 0 10 0 0 = 1 := by
  simp [latAccStreetToVehicle, sad_self]

/-- **C99** (limits, street frame).  The lateral accelerations the street limits allow are those the
RSS restriction of the side the vehicle moves to allows; when it moves sideways with no more than
the threshold, those both restrictions allow.  The longitudinal limits are the RSS range. -/
theorem C99_street_limits (r : Restriction) (e : Ego) (accLon dt thr : ℝ) (ht : 0 ≤ thr) (a b : ℝ) :
    let l := (convertRestrictions r e accLon dt thr).2
    ((l.latMin ≤ a ∧ a ≤ l.latMax) ↔
      ((-thr ≤ e.vlat → r.left.lo ≤ a ∧ a ≤ r.left.hi) ∧
       (e.vlat ≤ thr → r.right.lo ≤ a ∧ a ≤ r.right.hi))) ∧
    ((l.lonMin ≤ b ∧ b ≤ l.lonMax) ↔ (r.lon.lo ≤ b ∧ b ≤ r.lon.hi)) := by
  simp only
  unfold convertRestrictions
  by_cases g1 : e.vlat > thr
  · simp only [if_pos g1]
    refine ⟨⟨fun h => ⟨fun _ => h, fun h2 => absurd h2 (not_le.mpr g1)⟩,
      fun h => h.1 (by linarith)⟩, trivial⟩
  · by_cases g2 : e.vlat < -thr
    · simp only [if_neg g1, if_pos g2]
      refine ⟨⟨fun h => ⟨fun h2 => absurd h2 (not_le.mpr g2), fun _ => h⟩,
        fun h => h.2 (by linarith)⟩, trivial⟩
    · simp only [if_neg g1, if_neg g2]
      refine ⟨⟨fun h => ?_, fun h => ?_⟩, trivial⟩
      · rw [max_le_iff, le_min_iff] at h
        exact ⟨fun _ => ⟨h.1.1, h.2.1⟩, fun _ => ⟨h.1.2, h.2.2⟩⟩
      · have h1 := h.1 (by linarith [not_lt.mp g2])
        have h2 := h.2 (by linarith [not_lt.mp g1])
        exact ⟨max_le h1.1 h2.1, le_min h1.2 h2.2⟩

theorem conv_le_iff (e : Ego) (accLon dt x n a : ℝ) (hx : e.onX = false)
    (hcos : 0 < cos (e.theta - e.road)) :
    (conv e accLon dt x n ≤ a ↔
      x ≤ a * cos (e.theta - e.road) + accLon * sin (e.theta - e.road)) ∧
    (a ≤ conv e accLon dt x n ↔
      a * cos (e.theta - e.road) + accLon * sin (e.theta - e.road) ≤ x) := by
  have hc : conv e accLon dt x n =
      (x - accLon * sin (e.theta - e.road)) / cos (e.theta - e.road) := by
    simp [conv, hx, latAccStreetToVehicle, Ego.lastRoad, sad_self, sin_sad, cos_sad]
  rw [hc, div_le_iff₀ hcos, le_div_iff₀ hcos]
  constructor
  · constructor <;> intro h <;> linarith
  · constructor <;> intro h <;> linarith

/-- **C99** (limits, vehicle frame).  The longitudinal limits are the RSS range.  Off road x, for a vehicle heading along the road (less than a
right angle off) on a straight road: a lateral acceleration of the vehicle is within the vehicle
limits exactly when the lateral acceleration it causes in the street frame is within the street
limits. -/
theorem C99_vehicle_limits_partial (r : Restriction) (e : Ego) (accLon dt thr : ℝ)
    (hx : e.onX = false) (hcos : 0 < cos (e.theta - e.road)) (a : ℝ) :
    let l := convertRestrictions r e accLon dt thr
    (l.1.lonMax = r.lon.hi ∧ l.1.lonMin = r.lon.lo) ∧
    ((l.1.latMin ≤ a ∧ a ≤ l.1.latMax) ↔
      (l.2.latMin ≤ a * cos (e.theta - e.road) + accLon * sin (e.theta - e.road) ∧
       a * cos (e.theta - e.road) + accLon * sin (e.theta - e.road) ≤ l.2.latMax)) := by
  have K := fun x n => conv_le_iff e accLon dt x n a hx hcos
  simp only
  unfold convertRestrictions
  by_cases g1 : e.vlat > thr
  · simp only [if_pos g1, (K _ _).1, (K _ _).2, and_self]
  · by_cases g2 : e.vlat < -thr
    · simp only [if_neg g1, if_pos g2, (K _ _).1, (K _ _).2, and_self]
    · simp only [if_neg g1, if_neg g2, max_le_iff, le_min_iff, (K _ _).1, (K _ _).2, and_self]

example : (convertRestrictions ⟨⟨-4, 2⟩, ⟨-1, 1⟩, ⟨-2, 3⟩⟩ ⟨0, 10, 0, 0, false⟩ 0 1 (1/10)).1.latMax
    = 1 := by
  simp [convertRestrictions, conv, latAccStreetToVehicle, Ego.lastRoad, sad_self]
  norm_num

/-- **C99** fails against the driving direction: for a vehicle heading opposite to the road the
vehicle limits exclude every acceleration although the restriction allows [-1, 1]. -/
theorem C99_reversed_violated (vel dt : ℝ) :
    let l := (convertRestrictions ⟨⟨-4, 2⟩, ⟨-1, 1⟩, ⟨-1, 1⟩⟩ ⟨π, vel, 0, 0, false⟩ 0 dt (1/10)).1
    ∀ a, ¬ (l.latMin ≤ a ∧ a ≤ l.latMax) := by
  simp only
  have h : (convertRestrictions ⟨⟨-4, 2⟩, ⟨-1, 1⟩, ⟨-1, 1⟩⟩ ⟨π, vel, 0, 0, false⟩ 0 dt (1/10)).1 =
      ⟨-1, 1, 2, -4⟩ := by
    simp [convertRestrictions, conv, latAccStreetToVehicle, Ego.lastRoad, sad_self, sin_sad, cos_sad]
  rw [h]
  rintro a ⟨h1, h2⟩
  simp only at h1 h2
  linarith

/-- **C99** fails on bends: the road angle "one step ago" is taken from the current state, so the
road's heading rate `om` is never accounted for.  For a vehicle driving along a bend (`vel·om ≠ 0`)
the acceleration at the upper limit does not cause the lateral acceleration of the street limit. -/
theorem C99_bend_violated (r : Restriction) (e : Ego) (accLon dt thr om : ℝ) (v th ro : ℝ → ℝ)
    (t th' : ℝ) (hx : e.onX = false) (hvl : thr < e.vlat) (hcos : cos (e.theta - e.road) ≠ 0)
    (hv0 : v t = e.vel) (hth0 : th t = e.theta) (hro0 : ro t = e.road)
    (hv : HasDerivAt v accLon t) (hth : HasDerivAt th th' t) (hro : HasDerivAt ro om t)
    (hbend : e.vel * om ≠ 0)
    (hlat : v t * th' = (convertRestrictions r e accLon dt thr).1.latMax) :
    ¬ HasDerivAt (fun u => v u * sin (th u - ro u)) (convertRestrictions r e accLon dt thr).2.latMax t
      := by
  intro h
  have h' := hv.mul ((hth.sub hro).sin)
  have := h.unique h'
  unfold convertRestrictions at this hlat
  simp only [if_pos hvl, hth0, hro0, hv0] at this hlat
  simp only [conv, hx, latAccStreetToVehicle, Ego.lastRoad, sad_self, sin_sad, cos_sad, zero_div,
    mul_zero, add_zero] at hlat
  have e1 : e.vel * (cos (e.theta - e.road) * (th' - om)) =
      cos (e.theta - e.road) * (e.vel * th') - cos (e.theta - e.road) * (e.vel * om) := by ring
  rw [show ((th - ro) t) = e.theta - e.road by simp [hth0, hro0]] at this
  rw [e1, hlat] at this
  simp only [Bool.false_eq_true, if_false] at this
  rw [mul_div_cancel₀ _ hcos] at this
  have hz : cos (e.theta - e.road) * (e.vel * om) = 0 := by linarith
  exact (mul_ne_zero hcos hbend) hz

/-- On road x the two sets of limits disagree: the vehicle limits are ±1000 while the street limits
keep the restriction. -/
theorem C99_road_x_violated (r : Restriction) (e : Ego) (accLon dt thr : ℝ) (hx : e.onX = true) :
    (convertRestrictions r e accLon dt thr).1.latMax = 1000 ∧
    (convertRestrictions r e accLon dt thr).1.latMin = -1000 ∧
    (thr < e.vlat → (convertRestrictions r e accLon dt thr).2.latMax = r.left.hi) := by
  refine ⟨?_, ?_, fun h => ?_⟩
  · unfold convertRestrictions
    split_ifs <;> simp [conv, hx]
  · unfold convertRestrictions
    split_ifs <;> simp [conv, hx]
  · unfold convertRestrictions
    rw [if_pos h]

end Bark.Rss
