import Verif.Model.TrackLimits
import Verif.Spec.TrackLimits
import Verif.Props.Steering

/-! C223: lane tracking trajectories respect the limits of the vehicle. -/
namespace Bark.Trk
open Bark Bark.Ln Bark.Ln.Spec Bark.Dyn Bark.Fren Bark.Fren.Spec Bark.Angle Bark.Angle.Spec Bark.Str Spec Real

/-- the steering angle exists and respects the limits -/
theorem steer_within {ref : Line} (h : TableRight ref) (h2 : 2 ≤ ref.pts.length) (hnd : NoDup ref.pts) {m : Steer}
    (hM : 0 ≤ m.deltaMax) (hw : 0 < m.wheelBase) (hlo : m.latAccMin ≤ 0) (hhi : 0 ≤ m.latAccMax) (gain : ℝ) (x : State) :
    ∃ δ, steering id m ref x gain true = .ok δ ∧ |δ| ≤ m.deltaMax ∧
      m.latAccMin ≤ x 4 ^ 2 * tan δ / m.wheelBase ∧ x 4 ^ 2 * tan δ / m.wheelBase ≤ m.latAccMax := by
  obtain ⟨f, s, q, θ, hf, -⟩ := ofState_total h h2 hnd (front m.wheelBase x)
  refine ⟨calcSteering id m f.angle f.lat (x 4) gain true, by unfold steering; rw [hf, Res.ok_bind], ?_, ?_⟩
  · exact C27_steering_saturated id m hM hw.le hlo hhi _ _ _ _
  · by_cases hv : x 4 = 0
    · rw [hv]
      norm_num
      exact ⟨hlo, hhi⟩
    · obtain ⟨l1, l2⟩ := C59_lateral_acceleration_limited id m hw (hlo.trans hhi) f.angle f.lat gain hv
      have e : ∀ δ, x 4 ^ 2 * tan δ / m.wheelBase = lateralAcc m δ (x 4) := by intro δ; unfold lateralAcc; ring
      rw [e]
      exact ⟨l1, l2⟩

theorem loop_gets {p : Idm.Params} (hp : Idm.Spec.Sane p) {m : Steer} {steer : State → ℝ} {r : Idm.Rel} {start dt v0 : ℝ}
    (hv : ¬ Idm.Spec.Singular p r v0) : ∀ (n i : Nat) (prev : State) (rel : ℝ) {l : List State}, prev 0 + dt = i * dt + start →
      trackLoop id p r m.wheelBase steer start dt v0 n i prev rel = .ok l →
      ∀ (k : Nat) x y, (prev :: l)[k]? = some x → (prev :: l)[k + 1]? = some y →
        ∃ a, p.accLower ≤ a ∧ a ≤ p.accUpper ∧ Gets m.wheelBase p.minVel dt a (steer x) x y
  | 0, i, prev, rel, l, _, h => by
    simp only [trackLoop, Except.ok.injEq] at h
    subst h
    intro k x y _ h2
    simp at h2
  | n + 1, i, prev, rel, l, ht, h => by
    obtain ⟨a, ha, b1, b2⟩ := Idm.C21_acc_within_bounds hp r v0 rel (fun _ => hv)
    unfold trackLoop at h
    rw [show Idm.totalAcc p r v0 rel = .ok (.fin a) from ha] at h
    dsimp only at h
    split at h
    · next l' hl' =>
      cases h
      obtain ⟨⟨n1, n2, n3⟩, -⟩ := C31_normToPI (prev 3 + dt * (prev 4 * tan (steer prev) / m.wheelBase))
      intro k x y hx hy
      cases k with
      | zero =>
        simp only [List.getElem?_cons_zero, List.getElem?_cons_succ, Option.some.injEq] at hx hy
        subst hx; subst hy
        refine ⟨a, b1, b2, ht.symm, ?_, ?_, ⟨n1, n2⟩, ?_⟩
        · show (prev 1 + dt * (prev 4 * cos (prev 3)), prev 2 + dt * (prev 4 * sin (prev 3))) = _
          ext <;> dsimp only <;> ring
        · have e : prev 3 + prev 4 * dt * tan (steer prev) / m.wheelBase =
            prev 3 + dt * (prev 4 * tan (steer prev) / m.wheelBase) := by ring
          rw [e]
          exact n3
        · show max (prev 4 + dt * a) p.minVel = _
          rw [mul_comm]
      | succ k =>
        rw [List.getElem?_cons_succ] at hx hy
        refine loop_gets hp hv n _ _ _ ?_ hl' k x y hx hy
        show (i : ℝ) * dt + start + dt = ((i + 1 : Nat) : ℝ) * dt + start
        push_cast; ring
    · cases h

/-- **C223, steps.** Lane tracking along a line of at least two points without coinciding neighbours, with limited steering, gets from
each state of its trajectory to the next like a vehicle does whose acceleration, steering angle and lateral acceleration respect the
limits; the steering angle is the one calculated for that state. -/
theorem C223_steps {ref : Line} (h : TableRight ref) (h2 : 2 ≤ ref.pts.length) (hnd : NoDup ref.pts) {m : Steer}
    (hM : 0 ≤ m.deltaMax) (hw : 0 < m.wheelBase) (hlo : m.latAccMin ≤ 0) (hhi : 0 ≤ m.latAccMax) (gain : ℝ) {steer : State → ℝ}
    (hst : ∀ y δ, steering id m ref y gain true = .ok δ → steer y = δ) {p : Idm.Params} (hp : Idm.Spec.Sane p)
    (hn : 1 ≤ p.numPoints) (r : Idm.Rel) (start dt : ℝ) (ego : State) (hv : ¬ Idm.Spec.Singular p r (ego 4)) :
    ∃ l, laneTracking id p r m.wheelBase steer start dt ego = .ok l ∧ l.length = p.numPoints ∧
      ∀ (k : Nat) x y, l[k]? = some x → l[k + 1]? = some y →
        ∃ a δ, steering id m ref x gain true = .ok δ ∧
          Within m.wheelBase p.accLower p.accUpper m.deltaMax m.latAccMin m.latAccMax a δ (x 4) ∧
          Gets m.wheelBase p.minVel dt a δ x y := by
  obtain ⟨l, h1, hlen, -⟩ := C60_lane_tracking id hp hn r m.wheelBase steer start dt ego hv
  refine ⟨l, h1, hlen, ?_⟩
  unfold laneTracking at h1
  dsimp only at h1
  split at h1
  · next l' hl' =>
    cases h1
    intro k x y hx hy
    have h0 : (fun j => if j = 0 then start else ego j : State) 0 + dt = ((1 : Nat) : ℝ) * dt + start := by
      simp [add_comm]
    obtain ⟨a, a1, a2, hg⟩ := loop_gets hp hv _ _ _ _ h0 hl' k x y hx hy
    obtain ⟨δ, d1, d2, d3⟩ := steer_within h h2 hnd hM hw hlo hhi gain x
    rw [hst x δ d1] at hg
    exact ⟨a, δ, d1, ⟨⟨a1, a2⟩, d2, d3⟩, hg⟩
  · cases h1

theorem rates {l vmin dt a δ lo hi δmax latLo latHi : ℝ} (hdt : 0 < dt) {x y : State}
    (hg : Gets l vmin dt a δ x y) (hin : Within l lo hi δmax latLo latHi a δ (x 4)) :
    (y 1 - x 1) ^ 2 + (y 2 - x 2) ^ 2 = (x 4 * dt) ^ 2 ∧
    (∃ turn, SameDir (y 3) (x 3 + turn) ∧ latLo * dt ≤ x 4 * turn ∧ x 4 * turn ≤ latHi * dt) ∧
    (x 4 + lo * dt ≤ y 4 ∧ (vmin < y 4 → y 4 ≤ x 4 + hi * dt)) := by
  obtain ⟨p1, p2⟩ := Prod.mk.inj hg.pos
  refine ⟨?_, ⟨x 4 * dt * tan δ / l, hg.heading, ?_, ?_⟩, ?_, ?_⟩
  · rw [p1, p2]
    linear_combination (x 4 * dt) ^ 2 * sin_sq_add_cos_sq (x 3)
  · have : x 4 * (x 4 * dt * tan δ / l) = x 4 ^ 2 * tan δ / l * dt := by ring
    rw [this]
    exact mul_le_mul_of_nonneg_right hin.lat.1 hdt.le
  · have : x 4 * (x 4 * dt * tan δ / l) = x 4 ^ 2 * tan δ / l * dt := by ring
    rw [this]
    exact mul_le_mul_of_nonneg_right hin.lat.2 hdt.le
  · rw [hg.vel]
    exact le_max_of_le_left (by nlinarith [hin.acc.1])
  · intro hc
    rw [hg.vel] at hc ⊢
    rcases le_total (x 4 + a * dt) vmin with hle | hle
    · rw [max_eq_right hle] at hc; exact absurd hc (lt_irrefl _)
    · rw [max_eq_left hle]
      nlinarith [hin.acc.2]

/-- **C223, distances and turns.** Two states of a trajectory one step apart are as far apart as the velocity takes; the heading (up
to full turns) changes by a turn that, times the velocity, respects the lateral limits; and the velocity, unless it is cut off at the
minimum, changes at a rate within the longitudinal limits. -/
theorem C223_rates {ref : Line} (h : TableRight ref) (h2 : 2 ≤ ref.pts.length) (hnd : NoDup ref.pts) {m : Steer}
    (hM : 0 ≤ m.deltaMax) (hw : 0 < m.wheelBase) (hlo : m.latAccMin ≤ 0) (hhi : 0 ≤ m.latAccMax) (gain : ℝ) {steer : State → ℝ}
    (hst : ∀ y δ, steering id m ref y gain true = .ok δ → steer y = δ) {p : Idm.Params} (hp : Idm.Spec.Sane p)
    (hn : 1 ≤ p.numPoints) (r : Idm.Rel) {start dt : ℝ} (hdt : 0 < dt) (ego : State) (hv : ¬ Idm.Spec.Singular p r (ego 4))
    {l : List State} (hl : laneTracking id p r m.wheelBase steer start dt ego = .ok l) (k : Nat) {x y : State}
    (hx : l[k]? = some x) (hy : l[k + 1]? = some y) :
    (y 1 - x 1) ^ 2 + (y 2 - x 2) ^ 2 = (x 4 * dt) ^ 2 ∧
    (∃ turn, SameDir (y 3) (x 3 + turn) ∧ m.latAccMin * dt ≤ x 4 * turn ∧ x 4 * turn ≤ m.latAccMax * dt) ∧
    (x 4 + p.accLower * dt ≤ y 4 ∧ (p.minVel < y 4 → y 4 ≤ x 4 + p.accUpper * dt)) := by
  obtain ⟨l', h1, -, h3⟩ := C223_steps h h2 hnd hM hw hlo hhi gain hst hp hn r start dt ego hv
  rw [hl, Except.ok.injEq] at h1
  subst h1
  obtain ⟨a, δ, -, hin, hg⟩ := h3 k x y hx hy
  exact rates hdt hg hin

/-- **C223, messages.** If the acceleration is within its limits, a message about a state is logged exactly if its velocity together
with the steering angle that led to it gives a lateral acceleration a tenth or more outside of the limits; and no message is logged
about a state that is not faster than the one before, if the limits were respected there. -/
theorem C223_messages {p : Idm.Params} {m : Steer} (hw : 0 < m.wheelBase) (hlo : m.latAccMin ≤ 0) (hhi : 0 ≤ m.latAccMax) {a δ : ℝ}
    (h1 : p.accLower ≤ a) (h2 : a ≤ p.accUpper) (y : State) :
    (checkRow p m a δ y = [] ↔
      m.latAccMin - 1 / 10 < y 4 ^ 2 * tan δ / m.wheelBase ∧ y 4 ^ 2 * tan δ / m.wheelBase < m.latAccMax + 1 / 10) ∧
    ∀ x : State, Within m.wheelBase p.accLower p.accUpper m.deltaMax m.latAccMin m.latAccMax a δ (x 4) → |y 4| ≤ |x 4| →
      checkRow p m a δ y = [] := by
  have e : lateralAcc m δ (y 4) = y 4 ^ 2 * tan δ / m.wheelBase := by unfold lateralAcc; ring
  have main : checkRow p m a δ y = [] ↔
      m.latAccMin - 1 / 10 < y 4 ^ 2 * tan δ / m.wheelBase ∧ y 4 ^ 2 * tan δ / m.wheelBase < m.latAccMax + 1 / 10 := by
    unfold checkRow check
    rw [e]
    generalize y 4 ^ 2 * tan δ / m.wheelBase = t
    rw [if_neg (fun g => g.2 (Or.inl h2)), if_neg (fun g => g.2 (Or.inl h1)), List.nil_append, List.nil_append]
    rcases le_or_gt t 0 with ht | ht
    · rw [if_neg (show ¬ (0 < t ∧ ¬ almostSmaller t m.latAccMax) from fun g => absurd g.1 (not_lt.2 ht)), List.append_nil]
      by_cases hc : almostLarger t m.latAccMin
      · rw [if_neg (fun g => g.2 hc)]
        refine ⟨fun _ => ⟨?_, by linarith⟩, fun _ => rfl⟩
        rcases hc with hc | hc
        · linarith
        · linarith [(abs_lt.1 hc).1]
      · rw [if_pos ⟨ht, hc⟩]
        refine ⟨fun g => absurd g (List.cons_ne_nil _ _), fun g => absurd ?_ hc⟩
        by_cases g1 : m.latAccMin ≤ t
        · exact Or.inl g1
        · exact Or.inr (abs_lt.2 ⟨by linarith [g.1], by linarith⟩)
    · rw [if_neg (show ¬ (t ≤ 0 ∧ ¬ almostLarger t m.latAccMin) from fun g => absurd g.1 (not_le.2 ht)), List.nil_append]
      by_cases hc : almostSmaller t m.latAccMax
      · rw [if_neg (fun g => g.2 hc)]
        refine ⟨fun _ => ⟨by linarith, ?_⟩, fun _ => rfl⟩
        rcases hc with hc | hc
        · linarith
        · linarith [(abs_lt.1 hc).2]
      · rw [if_pos ⟨ht, hc⟩]
        refine ⟨fun g => absurd g (List.cons_ne_nil _ _), fun g => absurd ?_ hc⟩
        by_cases g1 : t ≤ m.latAccMax
        · exact Or.inl g1
        · exact Or.inr (abs_lt.2 ⟨by linarith, by linarith [g.2]⟩)
  refine ⟨main, fun x hin hle => main.2 ?_⟩
  have hsq : y 4 ^ 2 ≤ x 4 ^ 2 := sq_le_sq.2 hle
  obtain ⟨l1, l2⟩ := hin.lat
  have e1 : y 4 ^ 2 * tan δ / m.wheelBase = y 4 ^ 2 * (tan δ / m.wheelBase) := by ring
  have e2 : x 4 ^ 2 * tan δ / m.wheelBase = x 4 ^ 2 * (tan δ / m.wheelBase) := by ring
  rw [e2] at l1 l2
  rw [e1]
  rcases le_total 0 (tan δ / m.wheelBase) with hc | hc
  · exact ⟨by nlinarith [mul_nonneg (sq_nonneg (y 4)) hc], by nlinarith [mul_le_mul_of_nonneg_right hsq hc]⟩
  · exact ⟨by nlinarith [mul_le_mul_of_nonpos_right hsq hc], by nlinarith [mul_nonpos_of_nonneg_of_nonpos (sq_nonneg (y 4)) hc]⟩

/-- **C223, action.** The action reported for a trajectory of at least two points is the acceleration and the steering angle that lead
from its first state to its second. -/
theorem C223_action {ref : Line} {m : Steer} (gain : ℝ) {steer : State → ℝ}
    (hst : ∀ y, steering id m ref y gain true = .ok (steer y)) {p : Idm.Params} (hp : Idm.Spec.Sane p)
    (hn : 2 ≤ p.numPoints) (r : Idm.Rel) (start dt : ℝ) (ego : State) (hv : ¬ Idm.Spec.Singular p r (ego 4)) :
    ∃ a δ x y l, initialInput p r steer start ego = .ok (some (a, δ)) ∧
      laneTracking id p r m.wheelBase steer start dt ego = .ok (x :: y :: l) ∧
      p.accLower ≤ a ∧ a ≤ p.accUpper ∧ steering id m ref x gain true = .ok δ ∧ Gets m.wheelBase p.minVel dt a δ x y := by
  obtain ⟨n, hnn⟩ : ∃ n, p.numPoints - 1 = n + 1 := ⟨p.numPoints - 2, by omega⟩
  obtain ⟨a, ha, b1, b2⟩ := Idm.C21_acc_within_bounds hp r (ego 4) r.distance (fun _ => hv)
  have ha : Idm.totalAcc p r (ego 4) r.distance = .ok (.fin a) := ha
  obtain ⟨l, h1, hlen, -⟩ := C60_lane_tracking id hp (by omega) r m.wheelBase steer start dt ego hv
  have h1' := h1
  unfold laneTracking at h1
  dsimp only at h1
  split at h1
  · next l' hl' =>
    cases h1
    rw [hnn] at hl'
    unfold trackLoop at hl'
    rw [ha] at hl'
    dsimp only at hl'
    split at hl'
    · next l2 hl2 =>
      cases hl'
      refine ⟨a, steer (fun j => if j = 0 then start else ego j), _, _, l2, ?_, h1', b1, b2, hst _, ?_⟩
      · unfold initialInput
        rw [if_neg (by omega), ha]
      · obtain ⟨⟨n1, n2, n3⟩, -⟩ :=
          C31_normToPI (ego 3 + dt * (ego 4 * tan (steer (fun j => if j = 0 then start else ego j)) / m.wheelBase))
        refine ⟨?_, ?_, ?_, ⟨n1, n2⟩, ?_⟩
        · show ((1 : Nat) : ℝ) * dt + start = start + dt
          push_cast; ring
        · show (ego 1 + dt * (ego 4 * cos (ego 3)), ego 2 + dt * (ego 4 * sin (ego 3))) =
            (ego 1 + ego 4 * dt * cos (ego 3), ego 2 + ego 4 * dt * sin (ego 3))
          ext <;> dsimp only <;> ring
        · show SameDir (normToPI id (ego 3 + dt * (ego 4 * tan (steer (fun j => if j = 0 then start else ego j)) / m.wheelBase)))
            (ego 3 + ego 4 * dt * tan (steer (fun j => if j = 0 then start else ego j)) / m.wheelBase)
          have e : ego 3 + ego 4 * dt * tan (steer (fun j => if j = 0 then start else ego j)) / m.wheelBase =
            ego 3 + dt * (ego 4 * tan (steer (fun j => if j = 0 then start else ego j)) / m.wheelBase) := by ring
          rw [e]
          exact n3
        · show max (ego 4 + dt * a) p.minVel = max (ego 4 + a * dt) p.minVel
          rw [mul_comm]
    · cases hl'
  · cases h1

/-- A trajectory of one point has no action. -/
theorem C223_no_action (p : Idm.Params) (hn : p.numPoints ≤ 1) (r : Idm.Rel) (steer : State → ℝ) (start : ℝ) (ego : State) :
    initialInput p r steer start ego = .ok none := by
  unfold initialInput
  rw [if_pos hn]

/-- the hypotheses are met: the default vehicle on a line with a bend behind a leader -/
example : TableRight (ofArray [(0, 0), (10, 0), (20, 5)]) ∧ 2 ≤ (ofArray [(0, 0), (10, 0), (20, 5)]).pts.length ∧
    NoDup (ofArray [((0 : ℝ), (0 : ℝ)), (10, 0), (20, 5)]).pts ∧
    (∃ m : Steer, 0 ≤ m.deltaMax ∧ 0 < m.wheelBase ∧ m.latAccMin ≤ 0 ∧ 0 ≤ m.latAccMax ∧
      ∃ steer : State → ℝ, ∀ y, steering id m (ofArray [(0, 0), (10, 0), (20, 5)]) y 1 true = .ok (steer y)) ∧
    Idm.Spec.Sane Idm.wp ∧ 2 ≤ Idm.wp.numPoints ∧ ¬ Idm.Spec.Singular Idm.wp ⟨20, 5, 0, true⟩ 10 := by
  have t := (C28_constructed [(0, 0), (10, 0), (20, 5)]).2
  have t2 : 2 ≤ (ofArray [(0, 0), (10, 0), (20, 5)]).pts.length := by decide
  have t3 : NoDup (ofArray [((0 : ℝ), (0 : ℝ)), (10, 0), (20, 5)]).pts := by
    show List.IsChain _ [((0 : ℝ), (0 : ℝ)), (10, 0), (20, 5)]
    simp
  refine ⟨t, t2, t3, ⟨⟨2.7, 0.2, 4, -4⟩, by norm_num, by norm_num, by norm_num, by norm_num, ?_⟩, Idm.wp_sane, by decide, ?_⟩
  · choose f hf _ using fun y => steer_within (m := ⟨2.7, 0.2, 4, -4⟩) t t2 t3 (by norm_num) (by norm_num) (by norm_num) (by norm_num) 1 y
    exact ⟨f, hf⟩
  · rintro ⟨h, -⟩
    norm_num [Idm.wp] at h

end Bark.Trk
