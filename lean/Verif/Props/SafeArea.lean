import Verif.Spec.SafeArea
import Verif.Props.Evaluators
import Verif.Props.FrontRear
import Verif.Props.Labels
import Verif.Props.Shape2
import Mathlib.Tactic.Linarith
import Mathlib.Tactic.LinearCombination
import Mathlib.Tactic.FieldSimp
import Mathlib.Tactic.Ring

/-!
C177–C179: safe distance to the border of the drivable area, evasive lateral acceleration, further labels.
-/
set_option linter.unusedSectionVars false
namespace Bark.Area
open Bark Bark.Eval

section
variable {K St Act B E Sh Box O Lane Poly : Type} [Field K] [LinearOrder K] [IsStrictOrderedRing K]

/-! ### C177 -/

theorem inside_eq (inflated : Sh → St → Poly) (within : Poly → Poly → Bool) (road : Agent K St Act B E Sh → Option Poly) {id : Nat}
    {w : World K St Act B E Sh Box O} {a : Agent K St Act B E Sh} {s : St} {r : Poly} (ha : w.getAgent id = some a)
    (hs : a.currentState = .ok s) (hr : road a = some r) :
    inside inflated within road id w = .ok (within (inflated a.shape s) r) := by
  unfold inside
  rw [ha]
  simp only [polygon_eq inflated hs, Res.ok_bind, hr]

/-- C177: each evaluation returns the number of evaluations so far in which the agent's outline, enlarged by the required distances and
placed at the agent's current state, was not strictly inside the polygon of its road corridor -/
theorem C177_counts (inflated : Sh → St → Poly) (within : Poly → Poly → Bool) (road : Agent K St Act B E Sh → Option Poly) (id : Nat)
    (w : World K St Act B E Sh Box O) (a : Agent K St Act B E Sh) (s : St) (r : Poly) (n : Int) (ha : w.getAgent id = some a)
    (hs : a.currentState = .ok s) (hr : road a = some r) :
    (within (inflated a.shape s) r = true → safeArea inflated within road id w n = .ok (n, n)) ∧
    (within (inflated a.shape s) r = false → safeArea inflated within road id w n = .ok (n + 1, n + 1)) := by
  have h := inside_eq inflated within road ha hs hr
  unfold safeArea safeDist
  rw [ha]
  simp only [h, Res.ok_bind]
  constructor <;> intro g <;> simp [g]

/-- C177: over a history of evaluations the k-th result is the number of those up to then in which the enlarged outline was not strictly inside (`out`) -/
theorem C177_history (inflated : Sh → St → Poly) (within : Poly → Poly → Bool) (road : Agent K St Act B E Sh → Option Poly) (id : Nat)
    (out : World K St Act B E Sh Box O → Bool) (ws : List (World K St Act B E Sh Box O))
    (h : ∀ w ∈ ws, ∃ a s r, w.getAgent id = some a ∧ a.currentState = .ok s ∧ road a = some r ∧ out w = !within (inflated a.shape s) r) :
    ∃ st r, evalAll (safeArea inflated within road id) ws 0 = .ok (st, r) ∧ r.length = ws.length ∧
      ∀ (k : Nat) x, r[k]? = some x → x = (((ws.take (k + 1)).filter out).length : Int) := by
  have gen : ∀ (ws : List (World K St Act B E Sh Box O)) (n : Int),
      (∀ w ∈ ws, ∃ a s r, w.getAgent id = some a ∧ a.currentState = .ok s ∧ road a = some r ∧ out w = !within (inflated a.shape s) r) →
      ∃ st r, evalAll (safeArea inflated within road id) ws n = .ok (st, r) ∧ r.length = ws.length ∧
        ∀ (k : Nat) x, r[k]? = some x → x = n + (((ws.take (k + 1)).filter out).length : Int) := by
    intro ws
    induction ws with
    | nil => intro n _; exact ⟨n, [], rfl, rfl, by simp⟩
    | cons w ws ih =>
      intro n hp
      obtain ⟨a, s, r, ha, hs, hr, ho⟩ := hp w (by simp)
      have hc := C177_counts inflated within road id w a s r n ha hs hr
      have hstep : safeArea inflated within road id w n = .ok (n + (if out w then 1 else 0), n + (if out w then 1 else 0)) := by
        cases hw : within (inflated a.shape s) r <;> rw [hw] at ho
        · rw [hc.2 hw, ho]; rfl
        · rw [hc.1 hw, ho]; simp
      obtain ⟨st, rs, h1, h2, h3⟩ := ih (n + (if out w then 1 else 0)) (fun v hv => hp v (by simp [hv]))
      refine ⟨st, (n + (if out w then 1 else 0)) :: rs, ?_, by simp [h2], ?_⟩
      · unfold evalAll
        rw [hstep, Res.ok_bind]
        dsimp only
        rw [h1, Res.ok_bind]
      · intro k x hx
        cases k with
        | zero =>
          simp only [List.getElem?_cons_zero, Option.some.injEq] at hx
          subst hx
          cases hc : out w <;> simp [hc]
        | succ k =>
          rw [List.getElem?_cons_succ] at hx
          rw [h3 k x hx, List.take_succ_cons]
          cases hc : out w <;> simp [hc] <;> ring
  obtain ⟨st, r, h1, h2, h3⟩ := gen ws 0 h
  exact ⟨st, r, h1, h2, by simpa using h3⟩

/-- C177: an agent that is not in the world makes the evaluation throw; an agent without a road corridor is undefined behaviour -/
theorem C177_faults (inflated : Sh → St → Poly) (within : Poly → Poly → Bool) (road : Agent K St Act B E Sh → Option Poly) (id : Nat)
    (w : World K St Act B E Sh Box O) (n : Int) :
    (w.getAgent id = none → safeArea inflated within road id w n = .error .thrown) ∧
    (∀ a s, w.getAgent id = some a → a.currentState = .ok s → road a = none →
      safeArea inflated within road id w n = .error .ub) := by
  constructor
  · intro h; unfold safeArea safeDist; rw [h]
  · intro a s ha hs hr
    unfold safeArea safeDist inside
    rw [ha]
    simp only [polygon_eq inflated hs, Res.ok_bind, hr]
    rfl

end

/-! #### straight roads -/

theorem outline_extents (big : ℝ) {shape : Shape.Poly} {f r d l : ℝ} (h : Spec.Outline shape f r d l) (lon lat x y a : ℝ)
    (hlon : 0 ≤ lon) (hlat : 0 ≤ lat) :
    Shape.Spec.Extents ⟨x, y, a⟩ (checkedOutline big shape lon lat x y a).pts (f + lon) (r + lon) (d + lat) (l + lat) := by
  have h1 := Shape.C154_inflated_extents_partial big shape lon lat f r d l hlon hlat (by rw [h.origin]; exact h.extents) h.ahead h.behind
    h.right h.left
  have h2 := (Shape.C153_transformed _ ⟨x, y, a⟩ _ _ _ _ h1).1
  have h3 := (Shape.C154_inflate big shape lon lat).1
  have e : (checkedOutline big shape lon lat x y a).center = ⟨x, y, a⟩ := by
    have : (Shape.transform (Shape.inflate big shape lon lat) ⟨x, y, a⟩).center = _ := (Shape.C151_rigid _ _).1
    unfold checkedOutline
    rw [this, h3, h.origin]
    simp [Shape.Spec.plus]
  unfold checkedOutline at e ⊢
  rw [e] at h2
  exact h2

theorem isMax_below {g : ℝ × ℝ → ℝ} {ps : List (ℝ × ℝ)} {m b : ℝ} (h : Shape.Spec.IsMax g ps m) : (∀ p ∈ ps, g p < b) ↔ m < b := by
  obtain ⟨⟨p, hp, e⟩, hall⟩ := h
  exact ⟨fun g => e ▸ g p hp, fun g q hq => lt_of_le_of_lt (hall q hq) g⟩

/-- C177: on a straight road a vehicle that looks along the road satisfies the check exactly if it is further than the required lateral
distance from both borders -/
theorem C177_along (big : ℝ) (shape : Shape.Poly) (f r d l : ℝ) (h : Spec.Outline shape f r d l) (lon lat x y φ lo hi : ℝ)
    (hlon : 0 ≤ lon) (hlat : 0 ≤ lat) :
    Spec.InStrip φ lo hi (checkedOutline big shape lon lat x y φ).pts ↔
      lat < Spec.lateral φ (x, y) - d - lo ∧ lat < hi - (Spec.lateral φ (x, y) + l) := by
  obtain ⟨-, -, h3, h4⟩ := outline_extents big h lon lat x y φ hlon hlat
  have e1 := isMax_below (b := Spec.lateral φ (x, y) - lo) h3
  have e2 := isMax_below (b := hi - Spec.lateral φ (x, y)) h4
  constructor
  · intro g
    constructor
    · have := e1.1 fun p hp => by
        have := (g p hp).1; unfold Spec.lateral at this ⊢; unfold Shape.Spec.leftward; dsimp only at this ⊢; linarith
      linarith
    · have := e2.1 fun p hp => by
        have := (g p hp).2; unfold Spec.lateral at this ⊢; unfold Shape.Spec.leftward; dsimp only at this ⊢; linarith
      linarith
  · rintro ⟨g1, g2⟩ p hp
    have a1 := e1.2 (by linarith) p hp
    have a2 := e2.2 (by linarith) p hp
    unfold Shape.Spec.leftward at a1 a2
    unfold Spec.lateral at a1 a2 ⊢
    dsimp only at a1 a2 ⊢
    constructor <;> linarith

/-- C177: the distances are meant in the vehicle's own directions: a vehicle across the road has to keep the longitudinal distance -/
theorem C177_across (big : ℝ) (shape : Shape.Poly) (f r d l : ℝ) (h : Spec.Outline shape f r d l) (lon lat x y φ lo hi : ℝ)
    (hlon : 0 ≤ lon) (hlat : 0 ≤ lat) :
    Spec.InStrip φ lo hi (checkedOutline big shape lon lat x y (φ + Real.pi / 2)).pts ↔
      lon < Spec.lateral φ (x, y) - r - lo ∧ lon < hi - (Spec.lateral φ (x, y) + f) := by
  obtain ⟨h1, h2, -, -⟩ := outline_extents big h lon lat x y (φ + Real.pi / 2) hlon hlat
  have e1 := isMax_below (b := Spec.lateral φ (x, y) - lo) h2
  have e2 := isMax_below (b := hi - Spec.lateral φ (x, y)) h1
  have k : ∀ p : ℝ × ℝ, Shape.Spec.ahead ⟨x, y, φ + Real.pi / 2⟩ p = Spec.lateral φ p - Spec.lateral φ (x, y) := by
    intro p
    unfold Shape.Spec.ahead Spec.lateral
    dsimp only
    rw [Real.cos_add_pi_div_two, Real.sin_add_pi_div_two]
    ring
  simp only [k] at e1 e2
  constructor
  · intro g
    constructor
    · have := e1.1 fun p hp => by have := (g p hp).1; linarith
      linarith
    · have := e2.1 fun p hp => by have := (g p hp).2; linarith
      linarith
  · rintro ⟨g1, g2⟩ p hp
    have a1 := e1.2 (by linarith) p hp
    have a2 := e2.2 (by linarith) p hp
    constructor <;> linarith

/-- C177: greater required distances never make a situation safe that was not -/
theorem C177_monotone (big : ℝ) (shape : Shape.Poly) (f r d l : ℝ) (h : Spec.Outline shape f r d l) (lon lat lon' lat' x y φ lo hi : ℝ)
    (hlon : 0 ≤ lon) (hlat : 0 ≤ lat) (hlon' : lon ≤ lon') (hlat' : lat ≤ lat')
    (hs : Spec.InStrip φ lo hi (checkedOutline big shape lon' lat' x y φ).pts) :
    Spec.InStrip φ lo hi (checkedOutline big shape lon lat x y φ).pts := by
  rw [C177_along big shape f r d l h lon lat x y φ lo hi hlon hlat]
  rw [C177_along big shape f r d l h lon' lat' x y φ lo hi (by linarith) (by linarith)] at hs
  exact ⟨by linarith [hs.1], by linarith [hs.2]⟩

/-- a car 4 m long and 2 m wide, seen from its middle -/
def exCar : Shape.Poly := ⟨[(-2, -1), (-2, 1), (2, 1), (2, -1), (-2, -1)], ⟨0, 0, 0⟩, 2, 2, 1, 1⟩

theorem exCar_outline : Spec.Outline exCar 2 2 1 1 := by
  refine ⟨rfl, ?_, by norm_num, by norm_num, by norm_num, by norm_num⟩
  unfold Shape.Spec.Extents Shape.Spec.IsMax
  simp only [Shape.ahead_straight (c := ⟨0, 0, 0⟩) rfl, Shape.leftward_straight (c := ⟨0, 0, 0⟩) rfl]
  simp only [exCar, List.mem_cons, List.not_mem_nil, or_false, exists_eq_or_imp, forall_eq_or_imp, exists_eq_left, forall_eq]
  norm_num

/-- on a road of 4 m width it keeps half a metre when it drives along it in the middle, but not 20 cm off the middle when a metre is
required, and not across the road -/
example (big : ℝ) : Spec.InStrip 0 (-2) 2 (checkedOutline big exCar (1 / 2) (1 / 2) 0 0 0).pts ∧
    ¬Spec.InStrip 0 (-2) 2 (checkedOutline big exCar (1 / 2) 1 0 (1 / 5) 0).pts ∧
    ¬Spec.InStrip 0 (-2) 2 (checkedOutline big exCar (1 / 2) (1 / 2) 0 0 (0 + Real.pi / 2)).pts := by
  rw [C177_along big exCar 2 2 1 1 exCar_outline _ _ _ _ _ _ _ (by norm_num) (by norm_num),
    C177_along big exCar 2 2 1 1 exCar_outline _ _ _ _ _ _ _ (by norm_num) (by norm_num),
    C177_across big exCar 2 2 1 1 exCar_outline _ _ _ _ _ _ _ (by norm_num) (by norm_num)]
  unfold Spec.lateral
  norm_num

/-! ### C178 -/

open Real

/-- C178: the value is non-negative and at most the sum of the magnitudes of the two limits -/
theorem C178_bounds (wb latMax v θ τ total : ℝ) (left : Bool) (hw : 0 < wb) :
    0 ≤ latAccMax wb latMax v θ τ total left ∧ latAccMax wb latMax v θ τ total left ≤ |total| + |latMax| := by
  refine ⟨abs_nonneg _, ?_⟩
  unfold latAccMax
  dsimp only
  have hs : |v * v * sin (Dyn.atan2 (latMax * wb) (v * v)) / wb| ≤ |latMax| := by
    unfold Dyn.atan2
    rw [Complex.sin_arg]
    dsimp only
    set z : ℂ := ⟨v * v, latMax * wb⟩
    have hre : v * v ≤ ‖z‖ := le_trans (le_abs_self _) (Complex.abs_re_le_norm z)
    have hv : 0 ≤ v * v := mul_self_nonneg v
    rw [abs_div, abs_of_pos hw, div_le_iff₀ hw, abs_mul, abs_div, abs_of_nonneg hv, abs_mul, abs_of_pos hw,
      abs_of_nonneg (norm_nonneg z)]
    by_cases hz : ‖z‖ = 0
    · rw [hz, div_zero, mul_zero]; positivity
    · have hz' : 0 < ‖z‖ := lt_of_le_of_ne (norm_nonneg z) (Ne.symm hz)
      rw [mul_div_assoc', div_le_iff₀ hz', mul_comm]
      exact mul_le_mul_of_nonneg_left hre (by positivity)
  calc _ ≤ |(|total| * sin (τ - θ))| + |v * v * sin (Dyn.atan2 (latMax * wb) (v * v)) / wb * cos (τ + θ)| := abs_sub _ _
    _ ≤ |total| + |latMax| := by
      rw [abs_mul, abs_mul, abs_abs]
      refine add_le_add ?_ ?_
      · exact mul_le_of_le_one_right (abs_nonneg _) (abs_sin_le_one _)
      · exact le_trans (mul_le_of_le_one_right (abs_nonneg _) (abs_cos_le_one _)) hs

/-- C178 violated: the side of the centre line, documented to select the evasive direction, never matters -/
theorem C178_side_violated (wb latMax v θ τ total : ℝ) (left right : Bool) :
    latAccMax wb latMax v θ τ total left = latAccMax wb latMax v θ τ total right := rfl

/-- C178 violated: the value changes when the map is turned. Driving along the road at 2 m/s with a wheel base of 1 m and a lateral limit of 4 m/s²
it is 2√2 m/s² if the road points along the x-axis and 0 if the road points to the north-east -/
theorem C178_turned_violated (total : ℝ) (left : Bool) :
    latAccMax 1 4 2 0 0 total left = 2 * √2 ∧ latAccMax 1 4 2 (π / 4) (π / 4) total left = 0 := by
  have h : sin (Dyn.atan2 (4 * 1) (2 * 2)) = √2 / 2 := by
    have : Dyn.atan2 (4 * 1) (2 * 2) = π / 4 := by
      unfold Dyn.atan2
      have e : (⟨2 * 2, 4 * 1⟩ : ℂ) = ((4 * √2 : ℝ) : ℂ) * (Complex.cos (π / 4 : ℝ) + Complex.sin (π / 4 : ℝ) * Complex.I) := by
        have hs : √2 * √2 = 2 := Real.mul_self_sqrt (by norm_num)
        apply Complex.ext
        · rw [← Complex.ofReal_cos, ← Complex.ofReal_sin]
          simp [cos_pi_div_four, sin_pi_div_four]
          linear_combination (-2) * hs
        · rw [← Complex.ofReal_cos, ← Complex.ofReal_sin]
          simp [cos_pi_div_four, sin_pi_div_four]
          linear_combination (-2) * hs
      rw [e]
      exact Complex.arg_mul_cos_add_sin_mul_I (by positivity) ⟨by linarith [pi_pos], by linarith [pi_pos]⟩
    rw [this, sin_pi_div_four]
  have hp : (0 : ℝ) ≤ √2 := Real.sqrt_nonneg _
  constructor
  · unfold latAccMax
    dsimp only
    rw [h]
    simp only [sub_self, sin_zero, mul_zero, add_zero, cos_zero, zero_sub, abs_neg, mul_one, div_one]
    rw [abs_of_nonneg (by positivity)]
    ring
  · unfold latAccMax
    simp only [h, sub_self, sin_zero, mul_zero, show π / 4 + π / 4 = π / 2 by ring, cos_pi_div_two, abs_zero]

/-- C178: along a road in direction of the x-axis it is the limit times the cosine of the steering angle -/
theorem C178_straight_partial (wb latMax v total : ℝ) (left : Bool) (hw : 0 < wb) (hl : 0 ≤ latMax) (hv : v ≠ 0) :
    latAccMax wb latMax v 0 0 total left = latMax * cos (Dyn.atan2 (latMax * wb) (v * v)) := by
  have hvv : 0 < v * v := mul_self_pos.2 hv
  unfold latAccMax
  simp only [sub_self, sin_zero, mul_zero, add_zero, cos_zero, zero_sub, abs_neg, mul_one]
  have hne : (⟨v * v, latMax * wb⟩ : ℂ) ≠ 0 := by
    intro h
    have : v * v = 0 := congrArg Complex.re h
    linarith
  unfold Dyn.atan2
  rw [Complex.sin_arg, Complex.cos_arg hne]
  dsimp only
  have hz : 0 < ‖(⟨v * v, latMax * wb⟩ : ℂ)‖ := norm_pos_iff.2 hne
  rw [abs_of_nonneg (by positivity)]
  field_simp

/-! ### C179 -/

section
variable {K St Act B E Sh Box O Lane Poly : Type} [Field K] [LinearOrder K] [IsStrictOrderedRing K]

/-- C179: an agent is near if the distance of the outlines at the current states is below the threshold -/
theorem C179_near (poly : Sh → St → Poly) (dist : Poly → Poly → K) (thr : K) (w : World K St Act B E Sh Box O) (ego : Nat)
    (e o : Agent K St Act B E Sh) (s t : St) (he : w.getAgent ego = some e) (hs : e.currentState = .ok s)
    (ht : o.currentState = .ok t) (hd : ∀ p q, 0 ≤ dist p q) :
    ∃ b, near poly dist thr w ego o = .ok b ∧ (b = true ↔ dist (poly e.shape s) (poly o.shape t) < thr) := by
  refine ⟨decide (|dist (poly e.shape s) (poly o.shape t)| < thr), ?_, ?_⟩
  · unfold near
    rw [he]
    simp only [polygon_eq poly hs, polygon_eq poly ht, Res.ok_bind]
  · rw [decide_eq_true_iff, abs_of_nonneg (hd _ _)]

/-- C179: nearness is mutual, and no agent is near with the threshold 0 -/
theorem C179_near_mutual (poly : Sh → St → Poly) (dist : Poly → Poly → K) (thr : K) (w : World K St Act B E Sh Box O) (i j : Nat)
    (e o : Agent K St Act B E Sh) (s t : St) (he : w.getAgent i = some e) (ho : w.getAgent j = some o) (hs : e.currentState = .ok s)
    (ht : o.currentState = .ok t) (hsym : ∀ p q, dist p q = dist q p) :
    near poly dist thr w i o = near poly dist thr w j e ∧ (thr ≤ 0 → near poly dist thr w i o = .ok false) := by
  unfold near
  rw [he, ho]
  simp only [polygon_eq poly hs, polygon_eq poly ht, Res.ok_bind, hsym (poly o.shape t) (poly e.shape s), true_and]
  intro h
  congr 1
  rw [decide_eq_false_iff_not, not_lt]
  exact le_trans h (abs_nonneg _)

/-- C179: the label is given for exactly the valid other agents, with this meaning -/
theorem C179_near_labels (P : Plug K St Act B E Sh Box O) (poly : Sh → St → Poly) (dist : Poly → Poly → K) (thr : K)
    (w : World K St Act B E Sh Box O) (hw : Props.WellFormed w) (ego : Nat) (e : Agent K St Act B E Sh) (s : St)
    (he : w.getAgent ego = some e) (hs : e.currentState = .ok s) (hd : ∀ p q, 0 ≤ dist p q) :
    ∃ r, nearLabels P poly dist thr w ego = .ok r ∧ ∀ id b, OMap.find id r = some b ↔
      ∃ a t, w.getAgent id = some a ∧ id ≠ ego ∧ P.status a.behavior = .valid ∧ Bark.Spec.Active w.time a ∧
        a.currentState = .ok t ∧ (b = true ↔ dist (poly e.shape s) (poly a.shape t) < thr) := by
  obtain ⟨hsrt, hag, -⟩ := hw
  have hst : ∀ id a, w.getAgent id = some a → ∃ t, a.currentState = .ok t := fun id a h => currentState_total (hag id a h).1
  obtain ⟨r, h1, h2⟩ := Labels.C105_labels P w hsrt ego (near poly dist thr w ego) fun id a h => by
    obtain ⟨t, ht⟩ := hst id a h
    obtain ⟨b, hb, -⟩ := C179_near poly dist thr w ego e a s t he hs ht hd
    exact ⟨b, hb⟩
  refine ⟨r, h1, fun id b => ?_⟩
  rw [h2]
  constructor
  · rintro ⟨a, g1, g2, g3, g4, g5⟩
    obtain ⟨t, ht⟩ := hst id a g1
    obtain ⟨b', hb, hb'⟩ := C179_near poly dist thr w ego e a s t he hs ht hd
    rw [g5] at hb; cases hb
    exact ⟨a, t, g1, g2, g3, g4, ht, hb'⟩
  · rintro ⟨a, t, g1, g2, g3, g4, g5, g6⟩
    obtain ⟨b', hb, hb'⟩ := C179_near poly dist thr w ego e a s t he hs g5 hd
    refine ⟨a, g1, g2, g3, g4, ?_⟩
    rw [hb]
    congr 1
    rw [Bool.eq_iff_iff, hb', g6]

/-- C179: no agent is the succeeding one without a lane corridor of the ego -/
theorem C179_no_lane (P : Plug K St Act B E Sh Box O) (G : FRPlug K St Act B E Sh Box Lane) (pi : K) (n : Nat) (u : Bool) (wt ot : K)
    (w : World K St Act B E Sh Box O) (ego : Nat) (o : Agent K St Act B E Sh) :
    succeeding P G pi n u wt ot none w ego o = .ok false := rfl

theorem succeeding_true {P : Plug K St Act B E Sh Box O} {G : FRPlug K St Act B E Sh Box Lane} {pi : K} {n : Nat} {u : Bool} {wt ot : K}
    {w : World K St Act B E Sh Box O} {ego : Nat} {lane : Lane} {o : Agent K St Act B E Sh}
    (h : succeeding P G pi n u wt ot (some lane) w ego o = .ok true) :
    ∃ r f, getAgentFrontRear P G ⟨if u = true then wt else ot, pi, 0⟩ n false (some lane) ego w = .ok r ∧ r.front.1 = some f ∧
      f.id = o.id := by
  unfold succeeding at h
  obtain ⟨r, hr, h⟩ := Res.bind_ok h
  cases hf : r.front.1 with
  | none => rw [hf] at h; cases h
  | some f =>
    rw [hf] at h
    simp only [Except.ok.injEq, decide_eq_true_iff] at h
    exact ⟨r, f, hr, hf, h⟩

/-- C179: at most one agent is labelled -/
theorem C179_one (P : Plug K St Act B E Sh Box O) (G : FRPlug K St Act B E Sh Box Lane) (pi : K) (n : Nat) (u : Bool) (wt ot : K)
    (lane : Option Lane) (w : World K St Act B E Sh Box O) (ego : Nat) (o o' : Agent K St Act B E Sh)
    (h : succeeding P G pi n u wt ot lane w ego o = .ok true) (h' : succeeding P G pi n u wt ot lane w ego o' = .ok true) :
    o.id = o'.id := by
  cases lane with
  | none => cases h
  | some l =>
    obtain ⟨r, f, h1, h2, h3⟩ := succeeding_true h
    obtain ⟨r', f', h1', h2', h3'⟩ := succeeding_true h'
    rw [h1] at h1'; cases h1'
    rw [h2] at h2'; cases h2'
    exact h3.symm.trans h3'

/-- C179: the labelled agent is in front of the ego (the gap is not negative), within the lateral threshold selected, and of the agents considered
(those nearest to the ego) none in front is closer -/
theorem C179_succeeding (P : Plug K St Act B E Sh Box O) (G : FRPlug K St Act B E Sh Box Lane) (pi : K) (n : Nat) (u : Bool) (wt ot : K)
    (lane : Lane) (w : World K St Act B E Sh Box O) (ego : Nat) (e o : Agent K St Act B E Sh) (s : St)
    (he : w.getAgent ego = some e) (hs : e.currentState = .ok s)
    (hbig : ∀ id a d, w.getAgent id = some a → Bark.Spec.Qualifies P G ⟨if u = true then wt else ot, pi, 0⟩ w lane ego s e.shape a d → d.lon < G.big)
    (h : succeeding P G pi n u wt ot (some lane) w ego o = .ok true) :
    ∃ m, w.getNearestAgents P (G.nearest s (n + 1)) = .ok m ∧ ∃ a d, a ∈ m.map Prod.snd ∧ a.id = o.id ∧
      Bark.Spec.Qualifies P G ⟨if u = true then wt else ot, pi, 0⟩ w lane ego s e.shape a d ∧ 0 ≤ d.lon ∧
      ∀ a' d', a' ∈ m.map Prod.snd → Bark.Spec.Qualifies P G ⟨if u = true then wt else ot, pi, 0⟩ w lane ego s e.shape a' d' →
        0 ≤ d'.lon → d.lon ≤ d'.lon := by
  obtain ⟨r, f, h1, h2, h3⟩ := succeeding_true h
  unfold getAgentFrontRear at h1
  obtain ⟨m, hm, h1⟩ := Res.bind_ok h1
  have hm' : w.getNearestAgents P (G.nearest s (n + 1)) = .ok m := by
    unfold frConsidered at hm
    simp only [Bool.false_eq_true, if_false, he, hs, Res.ok_bind] at hm
    exact hm
  obtain ⟨-, g⟩ := FrontRearProps.C14_front_is_nearest P G ⟨if u = true then wt else ot, pi, 0⟩ he hs (fun a d ha hq => by
    obtain ⟨x, hx, rfl⟩ := List.mem_map.1 ha
    exact hbig x.1 x.2 d (FrontRearProps.collectHits_mem P _ m hm' x hx) hq) h1
  obtain ⟨g1, g2, g3, g4⟩ := g f h2
  exact ⟨m, hm', f, r.front.2, g1, h3, g2, g3, fun a' d' ha' hq hl => g4 a' ha' d' hq hl⟩

/-- C179: the label is given for exactly the valid other agents -/
theorem C179_succeeding_labels (P : Plug K St Act B E Sh Box O) (G : FRPlug K St Act B E Sh Box Lane) (pi : K) (n : Nat) (u : Bool) (wt ot : K)
    (lane : Option Lane) (w : World K St Act B E Sh Box O) (hw : Props.WellFormed w) (ego : Nat)
    (hf : ∀ id a, w.getAgent id = some a → ∃ b, succeeding P G pi n u wt ot lane w ego a = .ok b) :
    ∃ r, succeedingLabels P G pi n u wt ot lane w ego = .ok r ∧
      (∀ id, (OMap.find id r).isSome ↔ ∃ a, w.getAgent id = some a ∧ id ≠ ego ∧ P.status a.behavior = .valid ∧ Bark.Spec.Active w.time a) ∧
      (∀ id id', OMap.find id r = some true → OMap.find id' r = some true → id = id') := by
  obtain ⟨r, h1, h2⟩ := Labels.C105_labels P w hw.1 ego (succeeding P G pi n u wt ot lane w ego) hf
  refine ⟨r, h1, fun id => ?_, fun id id' a1 a2 => ?_⟩
  · rw [Option.isSome_iff_exists]
    constructor
    · rintro ⟨b, hb⟩
      obtain ⟨a, g1, g2, g3, g4, -⟩ := (h2 id b).1 hb
      exact ⟨a, g1, g2, g3, g4⟩
    · rintro ⟨a, g1, g2, g3, g4⟩
      obtain ⟨b, hb⟩ := hf id a g1
      exact ⟨b, (h2 id b).2 ⟨a, g1, g2, g3, g4, hb⟩⟩
  · obtain ⟨a, g1, -, -, -, g5⟩ := (h2 id true).1 a1
    obtain ⟨a', g1', -, -, -, g5'⟩ := (h2 id' true).1 a2
    have := C179_one P G pi n u wt ot lane w ego a a' g5 g5'
    rw [(hw.2.1 id a g1).2, (hw.2.1 id' a' g1').2] at this
    exact this

/-- C179 violated: an agent directly in front of the ego is not labelled if enough other agents are nearer -/
theorem C179_succeeding_violated :
    succeeding FrontRearProps.toyP FrontRearProps.toyG 4 4 false 0 1 (some ()) (FrontRearProps.toyW [0, -1, -2, -3, -4, 10]) 0
      (FrontRearProps.toyA 5 10).2 = .ok false ∧
    succeeding FrontRearProps.toyP FrontRearProps.toyG 4 5 false 0 1 (some ()) (FrontRearProps.toyW [0, -1, -2, -3, -4, 10]) 0
      (FrontRearProps.toyA 5 10).2 = .ok true := by
  constructor <;> decide +kernel

/-- non-vacuity: of three agents, the nearer of the two in front is labelled -/
example : (succeeding FrontRearProps.toyP FrontRearProps.toyG 4 4 true 1 0 (some ()) (FrontRearProps.toyW [0, 20, 7]) 0
      (FrontRearProps.toyA 2 7).2 = .ok true) ∧
    (succeeding FrontRearProps.toyP FrontRearProps.toyG 4 4 true 1 0 (some ()) (FrontRearProps.toyW [0, 20, 7]) 0
      (FrontRearProps.toyA 1 20).2 = .ok false) := by
  constructor <;> decide +kernel

/-- non-vacuity: two of the crash scene's cars are 2 m apart -/
example : near (fun sh s => (s, sh)) (fun p q : QBox => max (|p.1.1 - q.1.1| - p.2.1 - q.2.1) (max (|p.1.2 - q.1.2| - p.2.2 - q.2.2) 0)) 2
      crash 1 (car 2 (0, 3) (1, 1)).2 = .ok true ∧
    near (fun sh s => (s, sh)) (fun p q : QBox => max (|p.1.1 - q.1.1| - p.2.1 - q.2.1) (max (|p.1.2 - q.1.2| - p.2.2 - q.2.2) 0)) 1
      crash 1 (car 2 (0, 3) (1, 1)).2 = .ok false := by
  constructor <;> decide +kernel

end

/-- C179: each evaluation of a label made from an evaluator gives what a fresh copy of the evaluator gives, whatever was evaluated before; without
ego it is false; an evaluator whose result is not a truth value makes it throw -/
theorem C179_generic {S W : Type} (eval : S → W → Res (S × Ret)) (hasEgo : W → Bool) (s : S) (ws : List W) (bs : List Bool)
    (h : genericAll eval hasEgo ws s = .ok bs) :
    List.Forall₂ (fun w b => (hasEgo w = false ∧ b = false) ∨ (hasEgo w = true ∧ ∃ s', eval s w = .ok (s', .bool b))) ws bs := by
  induction ws generalizing bs with
  | nil => cases h; exact .nil
  | cons w ws ih =>
    unfold genericAll at h
    cases hg : genericEgo eval hasEgo s w with
    | error f => rw [hg] at h; cases h
    | ok r =>
      have key : r.1 = s ∧ ((hasEgo w = false ∧ r.2 = false) ∨ (hasEgo w = true ∧ ∃ s', eval s w = .ok (s', .bool r.2))) := by
        unfold genericEgo at hg
        by_cases he : hasEgo w = true
        · rw [if_pos he] at hg
          cases hev : eval s w with
          | error f => rw [hev] at hg; cases hg
          | ok q =>
            rw [hev] at hg
            obtain ⟨s', x⟩ := q
            cases x with
            | bool b => simp only [getBool, Except.ok.injEq] at hg; subst hg; exact ⟨rfl, Or.inr ⟨he, s', rfl⟩⟩
            | int n => cases hg
            | other => cases hg
        · rw [if_neg he] at hg
          simp only [Except.ok.injEq] at hg
          subst hg
          exact ⟨rfl, Or.inl ⟨by simpa using he, rfl⟩⟩
      rw [hg] at h
      dsimp only at h
      rw [key.1] at h
      cases hr : genericAll eval hasEgo ws s with
      | error f => rw [hr] at h; cases h
      | ok l =>
        rw [hr] at h
        simp only [Except.ok.injEq] at h
        subst h
        exact .cons key.2 (ih l hr)

/-- C179: a result that is not a truth value -/
theorem C179_generic_type {S W : Type} (eval : S → W → Res (S × Ret)) (hasEgo : W → Bool) (s : S) (w : W) (s' : S) (n : Int)
    (he : hasEgo w = true) (h : eval s w = .ok (s', .int n)) : genericEgo eval hasEgo s w = .error .thrown := by
  unfold genericEgo
  rw [if_pos he, h]
  rfl

/-- C179 (constant label): the value set last, true before any -/
theorem C179_constant (sets : List Bool) (b : Bool) : constantLabel [] = true ∧ constantLabel (sets ++ [b]) = b := by
  unfold constantLabel
  simp

/-- non-vacuity: a counting evaluator asked three times, the second time without ego; the count is never kept -/
example : genericAll (fun (n : Nat) (_ : Bool) => .ok (n + 1, Ret.bool (decide (n = 0)))) id [true, false, true] 0 = .ok [true, false, true] := by
  rfl

end Bark.Area
