import Verif.Model.Dynamics
import Verif.Props.Angle
import Verif.Props.Idm
import Mathlib.Analysis.SpecialFunctions.Trigonometric.ArctanDeriv

/-!
C26, C27, C58–C60 – vehicle dynamics, integration and steering.
-/
namespace Bark.Dyn
open Real

/-! ### C26 -/

/-- a run of integration steps with its own step length and inputs each -/
def runSteps (step : ℝ × ℝ × ℝ → State → State) (x : State) (us : List (ℝ × ℝ × ℝ)) : State :=
  us.foldl (fun x u => step u x) x

/-- **C26, Euler, single track.** After any sequence of steps (length, acceleration, steering angle) time has advanced by
the sum of the lengths and velocity by the sum of length times acceleration. -/
theorem C26_euler_single_track (rnd : ℝ → ℝ) (l : ℝ) (us : List (ℝ × ℝ × ℝ)) : ∀ x : State,
    runSteps (fun u => euler rnd (singleTrack l u.2.1 u.2.2) u.1) x us 0 = x 0 + (us.map (fun u => u.1)).sum ∧
    runSteps (fun u => euler rnd (singleTrack l u.2.1 u.2.2) u.1) x us 4
      = x 4 + (us.map (fun u => u.1 * u.2.1)).sum := by
  induction us with
  | nil => intro x; simp [runSteps]
  | cons u us ih =>
    intro x
    have := ih (euler rnd (singleTrack l u.2.1 u.2.2) u.1 x)
    simp only [runSteps, List.foldl_cons, List.map_cons, List.sum_cons] at this ⊢
    rw [this.1, this.2]
    simp only [euler, singleTrack, show (0 : ℕ) ≠ 3 by decide, show (4 : ℕ) ≠ 3 by decide, if_false]
    constructor <;> ring

/-- **C26, RK4, single track.** -/
theorem C26_rk4_single_track (l : ℝ) (us : List (ℝ × ℝ × ℝ)) : ∀ x : State,
    runSteps (fun u => rk4 (singleTrack l u.2.1 u.2.2) u.1) x us 0 = x 0 + (us.map (fun u => u.1)).sum ∧
    runSteps (fun u => rk4 (singleTrack l u.2.1 u.2.2) u.1) x us 4
      = x 4 + (us.map (fun u => u.1 * u.2.1)).sum := by
  induction us with
  | nil => intro x; simp [runSteps]
  | cons u us ih =>
    intro x
    have := ih (rk4 (singleTrack l u.2.1 u.2.2) u.1 x)
    simp only [runSteps, List.foldl_cons, List.map_cons, List.sum_cons] at this ⊢
    rw [this.1, this.2]
    simp only [rk4, singleTrack]
    constructor <;> ring

/-- **C26, steering-rate model.** Both integrators advance time, velocity and steering angle by length times input. -/
theorem C26_steering_rate (rnd : ℝ → ℝ) (l a d dt : ℝ) (x : State) :
    (euler rnd (steeringRate l a d) dt x 0 = x 0 + dt ∧ euler rnd (steeringRate l a d) dt x 4 = x 4 + dt * a ∧
      euler rnd (steeringRate l a d) dt x 5 = x 5 + dt * d) ∧
    (rk4 (steeringRate l a d) dt x 0 = x 0 + dt ∧ rk4 (steeringRate l a d) dt x 4 = x 4 + dt * a ∧
      rk4 (steeringRate l a d) dt x 5 = x 5 + dt * d) := by
  simp only [euler, rk4, steeringRate, show (0 : ℕ) ≠ 3 by decide, show (4 : ℕ) ≠ 3 by decide,
    show (5 : ℕ) ≠ 3 by decide, if_false]
  refine ⟨⟨?_, ?_, ?_⟩, ?_, ?_, ?_⟩ <;> first | trivial | ring

/-- **C26 violated by the triple integrator**: its time advances by `dt` only when the time happens to be 1; from time
0 it stands still for ever. -/
theorem C26_triple_integrator_violated (rnd : ℝ → ℝ) (ux uy uz : ℝ) {dt : ℝ} (hdt : dt ≠ 0) (x : State) :
    (euler rnd (tripleIntegrator ux uy uz) dt x 0 = x 0 + dt ↔ x 0 = 1) ∧
    (x 0 = 0 → ∀ n : ℕ, (euler rnd (tripleIntegrator ux uy uz) dt)^[n] x 0 = 0) := by
  constructor
  · simp only [euler, tripleIntegrator, show (0 : ℕ) ≠ 3 by decide, if_false, add_right_inj]
    constructor
    · intro h
      have : dt * (x 0 - 1) = 0 := by linarith
      rcases mul_eq_zero.1 this with h | h
      · exact absurd h hdt
      · linarith
    · intro h; rw [h, mul_one]
  · intro h n
    induction n with
    | zero => exact h
    | succ n ih =>
      rw [Function.iterate_succ', Function.comp_apply]
      simp only [euler, tripleIntegrator, show (0 : ℕ) ≠ 3 by decide, if_false]
      rw [ih]; ring

/-- **C26, straight driving.** Without steering RK4 reproduces uniformly accelerated motion exactly; the Euler step lacks
the term `a dt²/2`. -/
theorem C26_straight (rnd : ℝ → ℝ) (l a dt : ℝ) (x : State) :
    (rk4 (singleTrack l a 0) dt x 1 = x 1 + (x 4 * dt + a * dt ^ 2 / 2) * cos (x 3) ∧
     rk4 (singleTrack l a 0) dt x 2 = x 2 + (x 4 * dt + a * dt ^ 2 / 2) * sin (x 3) ∧
     rk4 (singleTrack l a 0) dt x 3 = x 3) ∧
    (euler rnd (singleTrack l a 0) dt x 1 = x 1 + (x 4 * dt) * cos (x 3) ∧
     euler rnd (singleTrack l a 0) dt x 2 = x 2 + (x 4 * dt) * sin (x 3)) := by
  simp only [euler, rk4, singleTrack, tan_zero, show (1 : ℕ) ≠ 3 by decide, show (2 : ℕ) ≠ 3 by decide, if_false]
  have e5 : ∀ k : ℝ, x 3 + dt * (k * 0 / l) / 2 = x 3 := by intro k; ring
  have e6 : ∀ k : ℝ, x 3 + dt * (k * 0 / l) = x 3 := by intro k; ring
  simp only [e5, e6]
  refine ⟨⟨?_, ?_, ?_⟩, ?_, ?_⟩ <;> ring

/-- **C26, turning**: a Runge-Kutta step turns the vehicle by travelled distance over turning radius
(wheel base / tan of the steering angle); an Euler step by the distance at the initial speed, up to whole turns. -/
theorem C26_turning (l a d dt : ℝ) (x : State) :
    rk4 (singleTrack l a d) dt x 3 = x 3 + (x 4 * dt + a * dt ^ 2 / 2) / l * tan d ∧
    Angle.Spec.SameDir (euler id (singleTrack l a d) dt x 3) (x 3 + (x 4 * dt) / l * tan d) := by
  constructor
  · simp only [rk4, singleTrack]; ring
  · have h := (Bark.Angle.C31_normToPI (x 3 + dt * singleTrack l a d x 3)).1.2.2
    simp only [euler, if_true]
    have e : x 3 + dt * singleTrack l a d x 3 = x 3 + (x 4 * dt) / l * tan d := by
      simp only [singleTrack]; ring
    rw [e] at h ⊢
    exact h

/-- **C26, steering-rate model**: the heading changes by the distance travelled over the turning radius at the current
steering angle, and Euler moves straight along the heading. -/
theorem C26_steering_rate_motion (rnd : ℝ → ℝ) (l a d dt : ℝ) (x : State) :
    euler rnd (steeringRate l a d) dt x 1 = x 1 + (x 4 * dt) * cos (x 3) ∧
    euler rnd (steeringRate l a d) dt x 2 = x 2 + (x 4 * dt) * sin (x 3) ∧
    euler rnd (steeringRate l a d) dt x 3 = Bark.Angle.normToPI rnd (x 3 + (x 4 * dt) / l * tan (x 5)) := by
  simp only [euler, steeringRate, show (1 : ℕ) ≠ 3 by decide, show (2 : ℕ) ≠ 3 by decide, if_false, if_true]
  refine ⟨by ring, by ring, ?_⟩
  congr 1
  ring

/-- **C26, distance.** An Euler step moves the vehicle by velocity times step length, in its current direction, whatever
the steering. -/
theorem C26_euler_distance (rnd : ℝ → ℝ) (l a d dt : ℝ) (x : State) :
    (euler rnd (singleTrack l a d) dt x 1 - x 1) ^ 2 + (euler rnd (singleTrack l a d) dt x 2 - x 2) ^ 2
      = (x 4 * dt) ^ 2 := by
  simp only [euler, singleTrack, show (1 : ℕ) ≠ 3 by decide, show (2 : ℕ) ≠ 3 by decide, if_false]
  have := sin_sq_add_cos_sq (x 3)
  linear_combination (x 4 * dt) ^ 2 * this

/-! ### C58 heading normalised -/

/-- **C58, Euler.** The heading after an Euler step of any model is the integrated heading up to whole turns, and lies in
`[-π, π)` (exact conversion). -/
theorem C58_euler_heading (f : State → State) (dt : ℝ) (x : State) :
    Angle.Spec.SameDir (euler id f dt x 3) (x 3 + dt * f x 3) ∧ -π ≤ euler id f dt x 3 ∧ euler id f dt x 3 < π := by
  have h := Angle.C31_normToPI (x 3 + dt * f x 3)
  simp only [euler, if_true]
  exact ⟨h.1.2.2, h.1.1, h.1.2.1⟩

/-- **C58 violated by RK4**: the heading of an RK4 step is not normalised – from any heading in `[-π, π)` there is a step
after which it is at least `π`. -/
theorem C58_rk4_violated (x : State) (hv : x 4 = 1) : ∃ dt, 0 < dt ∧ π ≤ rk4 (singleTrack 1 0 (π / 4)) dt x 3 := by
  refine ⟨|x 3| + π, by positivity, ?_⟩
  simp only [rk4, singleTrack, tan_pi_div_four, hv]
  have := neg_abs_le (x 3)
  linarith

/-! ### C27 -/

theorem atan2_nonneg {y x : ℝ} (hy : 0 ≤ y) : 0 ≤ atan2 y x := Complex.arg_nonneg_iff.2 hy

theorem atan2_nonpos {y x : ℝ} (hx : 0 ≤ x) (hy : y ≤ 0) : atan2 y x ≤ 0 := by
  rcases hy.lt_or_eq with h | h
  · exact (Complex.arg_neg_iff.2 h).le
  · subst h
    have : atan2 0 x = 0 := Complex.arg_eq_zero_iff.2 ⟨hx, rfl⟩
    rw [this]

/-- **C27.** With the limitation on, the steering angle is at most the configured maximum in magnitude (for a
non-negative maximum and lateral acceleration limits of either sign around zero). -/
theorem C27_steering_saturated (rnd : ℝ → ℝ) (m : Steer) (hm : 0 ≤ m.deltaMax) (hw : 0 ≤ m.wheelBase)
    (hlo : m.latAccMin ≤ 0) (hhi : 0 ≤ m.latAccMax) (fAngle fLat vel gain : ℝ) :
    |calcSteering rnd m fAngle fLat vel gain true| ≤ m.deltaMax := by
  have h1 : 0 ≤ steeringFor m.latAccMax vel m.wheelBase := atan2_nonneg (mul_nonneg hhi hw)
  have h2 : steeringFor m.latAccMin vel m.wheelBase ≤ 0 :=
    atan2_nonpos (mul_self_nonneg vel) (mul_nonpos_of_nonpos_of_nonneg hlo hw)
  simp only [calcSteering, if_true]
  set d := Angle.normToPI rnd fAngle + atan2 (-gain * fLat) vel
  have hd1 : -m.deltaMax ≤ boundValue d (-m.deltaMax) m.deltaMax := le_max_right _ _
  have hd2 : boundValue d (-m.deltaMax) m.deltaMax ≤ m.deltaMax := max_le (min_le_right _ _) (by linarith)
  rw [abs_le]
  constructor
  · exact le_max_of_le_left (le_min hd1 (by linarith))
  · exact max_le ((min_le_left _ _).trans hd2) (h2.trans hm)

/-- Without the limitation the angle is unbounded by the configured maximum: any maximum below π/4 is exceeded. -/
theorem C27_unlimited_violated (m : Steer) (hm : m.deltaMax < π / 4) :
    ∃ fAngle fLat vel gain, m.deltaMax < |calcSteering id m fAngle fLat vel gain false| := by
  refine ⟨0, -1, 1, 1, ?_⟩
  have h0 : Angle.normToPI id 0 = 0 := by
    exact ((Bark.Angle.C31_normToPI 0).2 0 (by linarith [pi_pos]) pi_pos ⟨0, by simp⟩).symm
  have h1 : atan2 1 1 = π / 4 := by
    unfold atan2
    rw [Complex.arg_of_re_nonneg (by norm_num)]
    have : (1 : ℝ) / ‖(⟨1, 1⟩ : ℂ)‖ = sin (π / 4) := by
      have : ‖(⟨1, 1⟩ : ℂ)‖ = √2 := by
        rw [Complex.norm_def, Complex.normSq_mk]
        norm_num
      rw [this, sin_pi_div_four]
      field_simp
      norm_num
    show arcsin ((1 : ℝ) / _) = _
    rw [this, arcsin_sin] <;> linarith [pi_pos]
  simp only [calcSteering, h0, mul_neg, neg_mul, one_mul, neg_neg, h1, zero_add]
  simpa using lt_of_lt_of_le hm (le_abs_self _)

/-! ### C59 lateral acceleration -/

theorem steeringFor_range (a v wb : ℝ) (hv : v ≠ 0) :
    -(π / 2) < steeringFor a v wb ∧ steeringFor a v wb < π / 2 ∧ tan (steeringFor a v wb) = a * wb / (v * v) := by
  have hpos : 0 < v * v := mul_self_pos.2 hv
  have h := Complex.abs_arg_lt_pi_div_two_iff.2 (Or.inl (show 0 < (⟨v * v, a * wb⟩ : ℂ).re from hpos))
  rw [abs_lt] at h
  exact ⟨h.1, h.2, Complex.tan_arg _⟩

/-- **C59.** At any velocity other than standstill, the lateral acceleration produced by the limited steering angle lies
within the lateral acceleration limits. -/
theorem C59_lateral_acceleration_limited (rnd : ℝ → ℝ) (m : Steer) (hw : 0 < m.wheelBase) (hlim : m.latAccMin ≤ m.latAccMax)
    (fAngle fLat gain : ℝ) {vel : ℝ} (hv : vel ≠ 0) :
    m.latAccMin ≤ lateralAcc m (calcSteering rnd m fAngle fLat vel gain true) vel ∧
      lateralAcc m (calcSteering rnd m fAngle fLat vel gain true) vel ≤ m.latAccMax := by
  obtain ⟨a1, a2, a3⟩ := steeringFor_range m.latAccMax vel m.wheelBase hv
  obtain ⟨b1, b2, b3⟩ := steeringFor_range m.latAccMin vel m.wheelBase hv
  have hpos : 0 < vel * vel := mul_self_pos.2 hv
  have hle : steeringFor m.latAccMin vel m.wheelBase ≤ steeringFor m.latAccMax vel m.wheelBase := by
    by_contra h
    have := strictMonoOn_tan (Set.mem_Ioo.2 ⟨a1, a2⟩) (Set.mem_Ioo.2 ⟨b1, b2⟩) (not_le.1 h)
    rw [a3, b3, div_lt_div_iff_of_pos_right hpos] at this
    nlinarith
  set δ := calcSteering rnd m fAngle fLat vel gain true with hδ
  have h1 : steeringFor m.latAccMin vel m.wheelBase ≤ δ := by
    rw [hδ]; simp only [calcSteering, if_true]; exact le_max_right _ _
  have h2 : δ ≤ steeringFor m.latAccMax vel m.wheelBase := by
    rw [hδ]; simp only [calcSteering, if_true]; exact max_le (min_le_right _ _) hle
  have hδr : δ ∈ Set.Ioo (-(π / 2)) (π / 2) := ⟨b1.trans_le h1, h2.trans_lt a2⟩
  have t1 : m.latAccMin * m.wheelBase / (vel * vel) ≤ tan δ := by
    rw [← b3]; exact strictMonoOn_tan.monotoneOn ⟨b1, b2⟩ hδr h1
  have t2 : tan δ ≤ m.latAccMax * m.wheelBase / (vel * vel) := by
    rw [← a3]; exact strictMonoOn_tan.monotoneOn hδr ⟨a1, a2⟩ h2
  rw [div_le_iff₀ hpos] at t1
  rw [le_div_iff₀ hpos] at t2
  have e : lateralAcc m δ vel = tan δ * (vel * vel) / m.wheelBase := by unfold lateralAcc; ring
  rw [e, le_div_iff₀ hw, div_le_iff₀ hw]
  exact ⟨t1, t2⟩

example : ∃ m : Steer, 0 ≤ m.deltaMax ∧ 0 < m.wheelBase ∧ m.latAccMin ≤ 0 ∧ 0 ≤ m.latAccMax ∧
    m.latAccMin ≤ m.latAccMax ∧ m.deltaMax < π / 4 :=
  ⟨⟨2.7, 0.2, 4, -4⟩, by norm_num, by norm_num, by norm_num, by norm_num, by norm_num,
    by have := pi_gt_three; show (0.2 : ℝ) < π / 4; linarith⟩

/-! ### C60 lane tracking -/

theorem trackLoop_spec {rnd : ℝ → ℝ} {p : Idm.Params} {r : Idm.Rel} {l : ℝ} {steer : State → ℝ} {start dt v0 : ℝ}
    (n : Nat) : ∀ (i : Nat) (prev : State) (rel : ℝ) {t}, trackLoop rnd p r l steer start dt v0 n i prev rel = .ok t →
      t.length = n ∧ ∀ k (hk : k < t.length), (t[k]) 0 = ((i + k : Nat) : ℝ) * dt + start ∧ p.minVel ≤ (t[k]) 4 := by
  induction n with
  | zero =>
    intro i prev rel t h
    simp only [trackLoop, Except.ok.injEq] at h
    subst h
    simp
  | succ n ih =>
    intro i prev rel t h
    unfold trackLoop at h
    split at h
    · cases h
    · dsimp only at h
      split at h
      · next t' ht' =>
        cases h
        obtain ⟨h1, h2⟩ := ih _ _ _ ht'
        refine ⟨by simp [h1], ?_⟩
        intro k hk
        cases k with
        | zero => simp
        | succ k =>
          have := h2 k (by simpa using hk)
          simp only [List.getElem_cons_succ]
          refine ⟨?_, this.2⟩
          rw [this.1]
          congr 2
          push_cast
          ring
      · cases h
    · cases h

theorem trackLoop_total {rnd : ℝ → ℝ} {p : Idm.Params} (hp : Idm.Spec.Sane p) {r : Idm.Rel} {l : ℝ} {steer : State → ℝ}
    {start dt v0 : ℝ} (hv : ¬ Idm.Spec.Singular p r v0) (n : Nat) : ∀ (i : Nat) (prev : State) (rel : ℝ),
      ∃ t, trackLoop rnd p r l steer start dt v0 n i prev rel = .ok t := by
  induction n with
  | zero => intro i prev rel; exact ⟨[], rfl⟩
  | succ n ih =>
    intro i prev rel
    obtain ⟨a, ha, _⟩ := Idm.C21_acc_within_bounds hp r v0 rel (fun _ => hv)
    unfold trackLoop
    rw [show Idm.totalAcc p r v0 rel = .ok (.fin a) from ha]
    dsimp only
    obtain ⟨t, ht⟩ := ih (i + 1) (fun j => if j = 4 then max (euler rnd (singleTrack l a (steer prev)) dt prev 4) p.minVel
      else if j = 0 then (i : ℝ) * dt + start else euler rnd (singleTrack l a (steer prev)) dt prev j)
      (Idm.nextDist r v0 rel a dt)
    rw [ht]
    exact ⟨_, rfl⟩

/-- **C60, lane tracking.** A lane-tracking plan with sensible parameters exists, has one row per time point, row `k` is
stamped world time + k·dt (row 0 included), starts at the ego's position, heading and velocity, and all later velocities
are at least the minimum velocity. -/
theorem C60_lane_tracking (rnd : ℝ → ℝ) {p : Idm.Params} (hp : Idm.Spec.Sane p) (hn : 1 ≤ p.numPoints) (r : Idm.Rel)
    (l : ℝ) (steer : State → ℝ) (start dt : ℝ) (ego : State) (hv : ¬ Idm.Spec.Singular p r (ego 4)) :
    ∃ t, laneTracking rnd p r l steer start dt ego = .ok t ∧ t.length = p.numPoints ∧
      (∀ k (hk : k < t.length), (t[k]) 0 = start + k * dt) ∧
      (∀ x0 ∈ t.head?, ∀ j, j ≠ 0 → x0 j = ego j) ∧
      (∀ k (hk : k < t.length), 1 ≤ k → p.minVel ≤ (t[k]) 4) := by
  obtain ⟨t, ht⟩ := trackLoop_total hp (rnd := rnd) (l := l) (steer := steer) (start := start) (dt := dt) hv
    (p.numPoints - 1) 1 (fun j => if j = 0 then start else ego j) r.distance
  obtain ⟨h1, h2⟩ := trackLoop_spec _ _ _ _ ht
  refine ⟨(fun j => if j = 0 then start else ego j) :: t, ?_, ?_, ?_, ?_, ?_⟩
  · unfold laneTracking
    dsimp only
    rw [ht]
  · rw [List.length_cons, h1]; omega
  · intro k hk
    cases k with
    | zero => simp
    | succ k =>
      simp only [List.getElem_cons_succ]
      rw [(h2 k (by simpa using hk)).1]
      push_cast
      ring
  · intro x0 hx j hj
    have hx : (fun j => if j = 0 then start else ego j) = x0 := by simpa using hx
    rw [← hx]
    exact if_neg hj
  · intro k hk hk1
    obtain ⟨k, rfl⟩ := Nat.exists_eq_succ_of_ne_zero (by omega : k ≠ 0)
    simp only [Nat.succ_eq_add_one, List.getElem_cons_succ]
    exact (h2 k (by simpa using hk)).2

/-- parameters of the witness: maximum velocity 5 m/s, otherwise those of `Idm.wp` with 2 points -/
noncomputable def slow : Idm.Params := { Idm.wp with maxVel := 5, numPoints := 2 }

/-- **C60, upper velocity bound violated**: on a free road an ego at 4 m/s with maximum velocity 5 m/s is planned to drive
more than 5 m/s after one second – the maximum velocity is not applied by the lane-tracking model. -/
theorem C60_max_velocity_violated (rnd : ℝ → ℝ) (l : ℝ) (steer : State → ℝ) (start : ℝ) (ego : State) (he : ego 4 = 4) :
    ∃ x0 x1, laneTracking rnd slow ⟨0, 0, 0, false⟩ l steer start 1 ego = .ok [x0, x1] ∧ slow.maxVel < x1 4 := by
  have hs : Idm.Spec.Sane slow := by constructor <;> norm_num [slow, Idm.wp]
  have hval := Idm.free_value hs (r := ⟨0, 0, 0, false⟩) rfl 4 0
  unfold laneTracking
  simp only [show slow.numPoints - 1 = 1 from rfl, trackLoop, he]
  rw [show Idm.totalAcc slow ⟨0, 0, 0, false⟩ 4 0 = _ from hval]
  refine ⟨_, _, rfl, ?_⟩
  simp only [if_true]
  refine lt_max_of_lt_left ?_
  simp only [euler, singleTrack, show (4 : ℕ) ≠ 3 by decide, show (4 : ℕ) ≠ 0 by decide, if_false, he]
  norm_num [slow, Idm.wp]

end Bark.Dyn
