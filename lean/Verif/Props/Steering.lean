import Verif.Model.Steering
import Verif.Spec.Steering
import Verif.Props.Frenet
import Verif.Props.Dynamics

/-! C194: steering towards the reference line. -/
namespace Bark.Str
open Bark Bark.Ln Bark.Ln.Spec Bark.Dyn Bark.Fren Bark.Fren.Spec Bark.Angle Bark.Angle.Spec Spec Real

theorem axle_front (l : ℝ) (x : State) : axle l x = ((front l x).x, (front l x).y) := rfl

/-- the velocity of the front axle is the derivative of its position -/
theorem axleVel_deriv (l : ℝ) (x : ℝ → State) (d : State) (t : ℝ) (h : ∀ i, HasDerivAt (fun u => x u i) (d i) t) :
    HasDerivAt (fun u => (axle l (x u)).1) (axleVel l (x t) d).1 t ∧
    HasDerivAt (fun u => (axle l (x u)).2) (axleVel l (x t) d).2 t := by
  constructor
  · refine ((h 1).add ((h 3).cos.const_mul l)).congr_deriv ?_
    unfold axleVel; ring
  · refine ((h 2).add ((h 3).sin.const_mul l)).congr_deriv ?_
    unfold axleVel; ring

theorem ofState_total {ref : Line} (h : TableRight ref) (h2 : 2 ≤ ref.pts.length) (hnd : NoDup ref.pts) (x : VState) :
    ∃ f s q θ, ofState id ref x = .ok f ∧ Foot ref (x.x, x.y) s q θ ∧
      f.lat = latVal q (x.x, x.y) * sideSign id θ (sub (x.x, x.y) q) ∧ f.angle = signedAngleDiff id θ x.theta := by
  obtain ⟨q, s, i, θ, h1, h3, h4⟩ := foot_exists h h2 hnd (x.x, x.y)
  exact ⟨_, s, q, θ, by unfold ofState; rw [h1, Res.ok_bind, h3, Res.ok_bind], h4, rfl, rfl⟩

theorem atan2_pos (y : ℝ) {v : ℝ} (hv : 0 < v) : |atan2 y v| < π / 2 ∧ tan (atan2 y v) = y / v := by
  unfold atan2
  exact ⟨Complex.abs_arg_lt_pi_div_two_iff.2 (Or.inl hv), Complex.tan_arg _⟩

/-- **C194, direction of the front wheels.** For every reference line of at least two points without coinciding
neighbours, every state moving forward and every gain, the unlimited steering angle is defined; the front wheels then
point into the direction of the line at the point nearest to the front axle, turned towards the line by the arc tangent
of gain times distance over velocity. -/
theorem C194_direction {ref : Line} (h : TableRight ref) (h2 : 2 ≤ ref.pts.length) (hnd : NoDup ref.pts) (m : Steer)
    (x : State) (gain : ℝ) (hv : 0 < x 4) :
    ∃ δ s q θ φ, steering id m ref x gain false = .ok δ ∧ Foot ref (axle m.wheelBase x) s q θ ∧
      SameDir (x 3 + δ) (θ + φ) ∧ |φ| < π / 2 ∧
      (0 < leftward θ (vec q (axle m.wheelBase x)) → tan φ = -(gain * pdist (axle m.wheelBase x) q / x 4)) ∧
      (leftward θ (vec q (axle m.wheelBase x)) < 0 → tan φ = gain * pdist (axle m.wheelBase x) q / x 4) ∧
      (axle m.wheelBase x = q → φ = 0) := by
  obtain ⟨f, s, q, θ, h1, hf, hlat, hang⟩ := ofState_total h h2 hnd (front m.wheelBase x)
  rw [← axle_front] at hf hlat
  obtain ⟨b1, b2⟩ := atan2_pos (-gain * f.lat) hv
  refine ⟨calcSteering id m f.angle f.lat (x 4) gain false, s, q, θ, atan2 (-gain * f.lat) (x 4), ?_, hf, ?_, b1, ?_, ?_, ?_⟩
  · unfold steering; rw [h1, Res.ok_bind]
  · unfold calcSteering
    simp only [Bool.false_eq_true, if_false]
    obtain ⟨⟨-, -, n3⟩, -⟩ := C31_normToPI f.angle
    obtain ⟨-, -, d3, -⟩ := C31_signed_difference θ (front m.wheelBase x).theta
    rw [← hang] at d3
    have hx : (front m.wheelBase x).theta = x 3 := rfl
    rw [hx] at d3
    obtain ⟨k, hk⟩ := n3
    obtain ⟨j, hj⟩ := d3
    exact ⟨k + j, by push_cast; linarith⟩
  · intro g
    rw [b2, hlat, (lat_spec θ _ q).1 g]; ring
  · intro g
    rw [b2, hlat, (lat_spec θ _ q).2.1 g]; ring
  · intro e
    have : f.lat = 0 := by
      rw [hlat, e, latVal_eq, pdist_eq_zero.2 rfl, zero_mul]
    rw [this, mul_zero]
    unfold atan2
    exact Complex.arg_ofReal_of_nonneg hv.le

theorem sameDir_sin {a b : ℝ} (h : SameDir a b) : sin a = sin b ∧ cos a = cos b := by
  obtain ⟨k, rfl⟩ := h
  rw [show b + 2 * π * k = b + k * (2 * π) by ring]
  exact ⟨sin_add_int_mul_two_pi b k, cos_add_int_mul_two_pi b k⟩

/-- **C194, approaching the line.** Where the point of the line nearest to the front axle lies inside a segment, the
front axle of the single-track model steered this way moves towards the line: its signed distance `e` from the line
(left positive) changes at the rate `-gain · e · cos φ / cos δ`, where `φ` is the angle between wheels and line, less than
a quarter turn. -/
theorem C194_approach {ref : Line} (h : TableRight ref) (h2 : 2 ≤ ref.pts.length) (hnd : NoDup ref.pts) (m : Steer)
    (hw : m.wheelBase ≠ 0) (x : State) (gain : ℝ) (hv : 0 < x 4)
    (hin : ∀ s q θ, Foot ref (axle m.wheelBase x) s q θ → ∃ (i : Nat) (a b : Pt) (t : ℝ), ref.pts[i]? = some a ∧
      ref.pts[i + 1]? = some b ∧ 0 < t ∧ t < 1 ∧ q = lerp a b t ∧
      s = Ln.length (ref.pts.take (i + 1)) + t * pdist a b) :
    ∃ δ s q θ φ e, steering id m ref x gain false = .ok δ ∧ Foot ref (axle m.wheelBase x) s q θ ∧
      e = leftward θ (vec q (axle m.wheelBase x)) ∧ |e| = pdist (axle m.wheelBase x) q ∧ 0 < cos φ ∧
      ∀ acc, cos δ ≠ 0 → leftward θ (axleVel m.wheelBase x (singleTrack m.wheelBase acc δ x)) = -gain * e * cos φ / cos δ := by
  obtain ⟨δ, s, q, θ, φ, h1, hf, hd, hφ, t1, t2, t3⟩ := C194_direction h h2 hnd m x gain hv
  obtain ⟨i, a, b, t, ha, hb, g0, g1, hq, hs⟩ := hin s q θ hf
  obtain ⟨-, hperp⟩ := interior_foot h h2 hnd hf ha hb g0 g1 hq hs
  obtain ⟨-, he⟩ := lat_perp θ (axle m.wheelBase x) q hperp
  have hcos : 0 < cos φ := cos_pos_of_mem_Ioo ⟨(abs_lt.1 hφ).1, (abs_lt.1 hφ).2⟩
  have htan : tan φ = -(gain * leftward θ (vec q (axle m.wheelBase x)) / x 4) := by
    rcases lt_trichotomy 0 (leftward θ (vec q (axle m.wheelBase x))) with g | g | g
    · rw [t1 g, ← he, abs_of_pos g]
    · have e0 : axle m.wheelBase x = q := by
        rw [← g, abs_zero] at he
        exact pdist_eq_zero.1 he.symm
      rw [t3 e0, ← g]; simp
    · rw [t2 g, ← he, abs_of_neg g]; ring
  refine ⟨δ, s, q, θ, φ, _, h1, hf, rfl, he, hcos, fun acc hδ => ?_⟩
  generalize leftward θ (vec q (axle m.wheelBase x)) = e at *
  obtain ⟨hs1, hc1⟩ := sameDir_sin hd
  have hsin : sin φ = cos φ * tan φ := by rw [tan_eq_sin_div_cos]; field_simp
  rw [eq_div_iff hδ]
  have key : leftward θ (axleVel m.wheelBase x (singleTrack m.wheelBase acc δ x)) * cos δ =
      x 4 * (sin (x 3 + δ) * cos θ - cos (x 3 + δ) * sin θ) := by
    unfold leftward axleVel
    rw [sin_add, cos_add, show singleTrack m.wheelBase acc δ x 1 = x 4 * cos (x 3) from rfl,
      show singleTrack m.wheelBase acc δ x 2 = x 4 * sin (x 3) from rfl,
      show singleTrack m.wheelBase acc δ x 3 = x 4 * tan δ / m.wheelBase from rfl]
    have e1 : m.wheelBase * (x 4 * tan δ / m.wheelBase) = x 4 * tan δ := by field_simp
    have e2 : tan δ * cos δ = sin δ := tan_mul_cos hδ
    dsimp only
    linear_combination (cos δ * (cos (x 3) * cos θ + sin (x 3) * sin θ)) * e1 +
      (x 4 * (cos (x 3) * cos θ + sin (x 3) * sin θ)) * e2
  rw [key, hs1, hc1, ← sin_sub, add_sub_cancel_left, hsin, htan]
  field_simp

/-- **C194, limits.** The limited steering angle lies between the angles of the lateral acceleration limits; if some angle
respects both kinds of limits, it respects both, and of all angles that do it is the one closest to the unlimited steering
angle. -/
theorem C194_limits (m : Steer) (ref : Line) (x : State) (gain : ℝ) {δ : ℝ} (hs : steering id m ref x gain false = .ok δ)
    (hw : 0 < m.wheelBase) (hv : x 4 ≠ 0) (ha : ∃ a, |a| ≤ m.deltaMax ∧ |a| < π / 2 ∧
      m.latAccMin ≤ x 4 ^ 2 * tan a / m.wheelBase ∧ x 4 ^ 2 * tan a / m.wheelBase ≤ m.latAccMax) :
    ∃ δ', steering id m ref x gain true = .ok δ' ∧ (|δ'| ≤ m.deltaMax ∧ |δ'| < π / 2 ∧
      m.latAccMin ≤ x 4 ^ 2 * tan δ' / m.wheelBase ∧ x 4 ^ 2 * tan δ' / m.wheelBase ≤ m.latAccMax) ∧
      ∀ a, |a| ≤ m.deltaMax → |a| < π / 2 → m.latAccMin ≤ x 4 ^ 2 * tan a / m.wheelBase →
        x 4 ^ 2 * tan a / m.wheelBase ≤ m.latAccMax → |δ - δ'| ≤ |δ - a| := by
  unfold steering at hs ⊢
  obtain ⟨f, h1, h2⟩ := Res.bind_ok hs
  rw [h1, Res.ok_bind]
  obtain ⟨p1, p2, p3⟩ := steeringFor_range m.latAccMax (x 4) m.wheelBase hv
  obtain ⟨q1, q2, q3⟩ := steeringFor_range m.latAccMin (x 4) m.wheelBase hv
  have hpos : 0 < x 4 * x 4 := mul_self_pos.2 hv
  have lo : ∀ a, |a| < π / 2 → (m.latAccMin ≤ x 4 ^ 2 * tan a / m.wheelBase ↔ steeringFor m.latAccMin (x 4) m.wheelBase ≤ a) := by
    intro a ha
    have hm : a ∈ Set.Ioo (-(π / 2)) (π / 2) := ⟨(abs_lt.1 ha).1, (abs_lt.1 ha).2⟩
    rw [← strictMonoOn_tan.le_iff_le ⟨q1, q2⟩ hm, q3, le_div_iff₀ hw, div_le_iff₀ hpos]
    constructor <;> intro hh <;> linarith
  have hi : ∀ a, |a| < π / 2 → (x 4 ^ 2 * tan a / m.wheelBase ≤ m.latAccMax ↔ a ≤ steeringFor m.latAccMax (x 4) m.wheelBase) := by
    intro a ha
    have hm : a ∈ Set.Ioo (-(π / 2)) (π / 2) := ⟨(abs_lt.1 ha).1, (abs_lt.1 ha).2⟩
    rw [← strictMonoOn_tan.le_iff_le hm ⟨p1, p2⟩, p3, div_le_iff₀ hw, le_div_iff₀ hpos]
    constructor <;> intro hh <;> linarith
  have hδ : δ = normToPI id f.angle + atan2 (-gain * f.lat) (x 4) := by
    have : calcSteering id m f.angle f.lat (x 4) gain false = δ := by injection h2
    rw [← this]; simp [calcSteering]
  have hv' : calcSteering id m f.angle f.lat (x 4) gain true = boundValue (boundValue δ (-m.deltaMax) m.deltaMax)
      (steeringFor m.latAccMin (x 4) m.wheelBase) (steeringFor m.latAccMax (x 4) m.wheelBase) := by
    rw [hδ]; simp [calcSteering]
  rw [hv']
  obtain ⟨a, a1, a2, a3, a4⟩ := ha
  rw [lo a a2] at a3
  rw [hi a a2] at a4
  rw [abs_le] at a1
  generalize steeringFor m.latAccMin (x 4) m.wheelBase = L at *
  generalize steeringFor m.latAccMax (x 4) m.wheelBase = H at *
  generalize m.deltaMax = M at *
  have hLH : L ≤ H := le_trans a3 a4
  have hM : -M ≤ M := le_trans a1.1 a1.2
  set r := boundValue (boundValue δ (-M) M) L H with hr
  have r1 : L ≤ r := le_max_right _ _
  have r2 : r ≤ H := max_le (min_le_right _ _) hLH
  have r3 : -M ≤ r := by
    rw [hr]; unfold boundValue
    rcases le_total (max (min δ M) (-M)) H with g | g
    · rw [min_eq_left g]; exact le_max_of_le_left (le_max_right _ _)
    · rw [min_eq_right g]; exact le_max_of_le_left (le_trans a1.1 a4)
  have r4 : r ≤ M := by
    rw [hr]; unfold boundValue
    exact max_le (le_trans (min_le_left _ _) (max_le (min_le_right _ _) hM)) (le_trans a3 a1.2)
  have r5 : |r| < π / 2 := abs_lt.2 ⟨lt_of_lt_of_le q1 r1, lt_of_le_of_lt r2 p2⟩
  refine ⟨r, rfl, ⟨abs_le.2 ⟨r3, r4⟩, r5, (lo r r5).2 r1, (hi r r5).2 r2⟩, ?_⟩
  intro b b1 b2 b3 b4
  rw [lo b b2] at b3
  rw [hi b b2] at b4
  rw [abs_le] at b1
  rcases lt_or_ge δ (max (-M) L) with g | g
  · have : r = max (-M) L := by
      refine le_antisymm ?_ (max_le r3 r1)
      rw [hr]; unfold boundValue
      refine max_le ?_ (le_max_right _ _)
      refine le_trans (min_le_left _ _) (max_le (le_trans (min_le_left _ _) g.le) (le_max_left _ _))
    have hb : max (-M) L ≤ b := max_le b1.1 b3
    rw [this, abs_of_neg (by linarith), abs_of_neg (by linarith)]
    linarith
  · rcases lt_or_ge (min M H) δ with g' | g'
    · have : r = min M H := by
        refine le_antisymm (le_min r4 r2) ?_
        rw [hr]; unfold boundValue
        refine le_max_of_le_left (le_min ?_ (min_le_right _ _))
        refine le_max_of_le_left (le_min g'.le (min_le_left _ _))
      have hb : b ≤ min M H := le_min b1.2 b4
      rw [this, abs_of_pos (by linarith), abs_of_pos (by linarith)]
      linarith
    · have : r = δ := by
        have g1 := le_trans (le_max_left _ _) g
        have g2 := le_trans (le_max_right _ _) g
        have g3 := le_trans g' (min_le_left _ _)
        have g4 := le_trans g' (min_le_right _ _)
        rw [hr]; unfold boundValue
        rw [min_eq_left g3, max_eq_left g1, min_eq_left g4, max_eq_left g2]
      rw [this, sub_self, abs_zero]
      exact abs_nonneg _

end Bark.Str
