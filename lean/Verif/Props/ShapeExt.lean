import Verif.Spec.ShapeExt
import Verif.Props.Angle

/-!
C56 – the extension of a vehicle's shape along and across the road.
The frenet angle `a` is road direction minus vehicle direction (frenet_state.hpp:48), so the heading of
the vehicle relative to the road is `-a`; it comes from `SignedAngleDiff`, so it is in [-π, π).
-/
namespace Bark.ShapeExt
open Real Spec

theorem normToPI_self {a : ℝ} (h1 : -π ≤ a) (h2 : a < π) : Angle.normToPI id a = a :=
  ((Angle.C31_normToPI a).2 a h1 h2 ⟨0, by simp⟩).symm

/-- cos and sin of the positive angle used by the code. -/
theorem posAngle {a : ℝ} (h1 : -π ≤ a) (h2 : a < π) :
    let pa := if |a| < π / 2 then |Angle.normToPI id a| else |(|Angle.normToPI id a| - π)|
    cos pa = |cos a| ∧ sin pa = |sin a| := by
  have hp := pi_pos
  rw [normToPI_self h1 h2]
  simp only
  have hle : |a| ≤ π := abs_le.2 ⟨h1, h2.le⟩
  have hs : |sin a| = sin |a| := by
    rcases abs_cases a with ⟨e, h⟩ | ⟨e, h⟩
    · rw [e, abs_of_nonneg (sin_nonneg_of_nonneg_of_le_pi h h2.le)]
    · rw [e, sin_neg, abs_of_nonpos (sin_nonpos_of_nonpos_of_neg_pi_le h.le h1)]
  split_ifs with h
  · have hc : 0 ≤ cos a := cos_nonneg_of_mem_Icc ⟨by linarith [(abs_lt.1 h).1], by linarith [(abs_lt.1 h).2]⟩
    rw [cos_abs, abs_of_nonneg hc, hs]; exact ⟨rfl, rfl⟩
  · have h' : |(|a| - π)| = π - |a| := by rw [abs_of_nonpos (by linarith)]; ring
    rw [h', cos_pi_sub, sin_pi_sub, cos_abs, hs]
    refine ⟨?_, rfl⟩
    have : cos |a| ≤ 0 := cos_nonpos_of_pi_div_two_le_of_le (not_lt.1 h) (by linarith)
    rw [cos_abs] at this
    rw [abs_of_nonpos this]

/-- largest value of `x*p + y*q` on the rectangle -/
theorem reach_linear (d : Dims) (hf : 0 ≤ d.front) (hr : 0 ≤ d.rear) (hs : 0 ≤ d.side) (p q : ℝ) :
    IsReach d (fun x y => x * p + y * q)
      ((if 0 ≤ p then d.front * |p| else d.rear * |p|) + d.side * |q|) := by
  constructor
  · rintro x y ⟨x1, x2, y1, y2⟩
    have hy : y * q ≤ d.side * |q| := by
      rcases abs_cases q with ⟨e, h⟩ | ⟨e, h⟩ <;> rw [e] <;> nlinarith
    have hx : x * p ≤ (if 0 ≤ p then d.front * |p| else d.rear * |p|) := by
      split_ifs with h
      · rw [abs_of_nonneg h]; nlinarith
      · rw [abs_of_neg (not_le.1 h)]; nlinarith [not_le.1 h]
    simp only; linarith
  · refine ⟨if 0 ≤ p then d.front else -d.rear, if 0 ≤ q then d.side else -d.side, ?_, ?_⟩
    · refine ⟨?_, ?_, ?_, ?_⟩ <;> split_ifs <;> linarith
    · split_ifs with h1 h2 h2
      · rw [abs_of_nonneg h1, abs_of_nonneg h2]
      · rw [abs_of_nonneg h1, abs_of_neg (not_le.1 h2)]; ring
      · rw [abs_of_neg (not_le.1 h1), abs_of_nonneg h2]; ring
      · rw [abs_of_neg (not_le.1 h1), abs_of_neg (not_le.1 h2)]; ring

theorem Spec.IsReach.congr {d : Dims} {g g' : ℝ → ℝ → ℝ} {m m' : ℝ} (h : IsReach d g m)
    (hg : ∀ x y, g' x y = g x y) (hm : m' = m) : IsReach d g' m' := by
  subst hm
  obtain ⟨h1, x, y, h2, h3⟩ := h
  exact ⟨fun x y hr => by rw [hg]; exact h1 x y hr, x, y, h2, by rw [hg]; exact h3⟩

theorem cos_sign {a : ℝ} (h1 : -π ≤ a) (h2 : a < π) :
    (|a| ≤ π / 2 → 0 ≤ cos a) ∧ (π / 2 < |a| → cos a < 0) := by
  have hp := pi_pos
  constructor
  · intro h; exact cos_nonneg_of_mem_Icc ⟨by linarith [(abs_le.1 h).1], by linarith [(abs_le.1 h).2]⟩
  · intro h
    rw [← cos_abs]
    exact cos_neg_of_pi_div_two_lt_of_lt h (by have : |a| ≤ π := abs_le.2 ⟨h1, h2.le⟩; linarith)

/-- **C56** (along the road): for every orientation, the front and rear extensions are exactly how far the
shape reaches ahead of and behind its reference point along the road. -/
theorem C56_front_rear_exact (a : ℝ) (h1 : -π ≤ a) (h2 : a < π) (d : Dims) (hf : 0 ≤ d.front)
    (hr : 0 ≤ d.rear) (hs : 0 ≤ d.side) :
    IsReach d (along (-a)) (shapeExtension id a d).front ∧
    IsReach d (fun x y => - along (-a) x y) (shapeExtension id a d).rear := by
  have hp := pi_pos
  obtain ⟨pc, ps⟩ := posAngle h1 h2
  obtain ⟨c1, c2⟩ := cos_sign h1 h2
  unfold shapeExtension
  simp only [pc, ps]
  have e1 := reach_linear d hf hr hs (cos a) (sin a)
  have e2 := reach_linear d hf hr hs (-cos a) (-sin a)
  have g1 : ∀ x y, along (-a) x y = x * cos a + y * sin a := by intro x y; simp [along]
  have g2 : ∀ x y, - along (-a) x y = x * (-cos a) + y * (-sin a) := by
    intro x y; simp [along]; ring
  by_cases hA : π / 2 < a
  · have hc := c2 (lt_of_lt_of_le hA (le_abs_self a))
    rw [if_pos hA]
    refine ⟨e1.congr g1 ?_, e2.congr g2 ?_⟩
    · rw [if_neg (not_le.2 hc)]; ring
    · rw [if_pos (by linarith), abs_neg, abs_neg]; ring
  · by_cases hB : a < -(π / 2)
    · have hc := c2 (lt_of_lt_of_le (by linarith) (neg_le_abs a))
      rw [if_neg hA, if_pos hB]
      refine ⟨e1.congr g1 ?_, e2.congr g2 ?_⟩
      · rw [if_neg (not_le.2 hc)]; ring
      · rw [if_pos (by linarith), abs_neg, abs_neg]; ring
    · have hc := c1 (abs_le.2 ⟨not_lt.1 hB, not_lt.1 hA⟩)
      rw [if_neg hA, if_neg hB]
      refine ⟨e1.congr g1 ?_, e2.congr g2 ?_⟩
      · rw [if_pos hc]; ring
      · rcases hc.lt_or_eq with h | h
        · rw [if_neg (by linarith), abs_neg, abs_neg]; ring
        · rw [← h]; simp; ring

/-- **C56** (across the road, what holds): the left and right extensions are exact for frenet angles in
[0, π/2], or if the shape reaches equally far to the front and the rear. Missing: all other angles with
different front and rear, where left and right are exchanged (`C56_sides_violated`). -/
theorem C56_sides (a : ℝ) (h1 : -π ≤ a) (h2 : a < π) (d : Dims) (hf : 0 ≤ d.front)
    (hr : 0 ≤ d.rear) (hs : 0 ≤ d.side) (hc : (0 ≤ a ∧ a ≤ π / 2) ∨ d.front = d.rear) :
    IsReach d (leftOf (-a)) (shapeExtension id a d).left ∧
    IsReach d (fun x y => - leftOf (-a) x y) (shapeExtension id a d).right := by
  have hp := pi_pos
  obtain ⟨pc, ps⟩ := posAngle h1 h2
  unfold shapeExtension
  simp only [pc, ps]
  have e1 := reach_linear d hf hr hs (-sin a) (cos a)
  have e2 := reach_linear d hf hr hs (sin a) (-cos a)
  have g1 : ∀ x y, leftOf (-a) x y = x * (-sin a) + y * cos a := by intro x y; simp [leftOf]
  have g2 : ∀ x y, - leftOf (-a) x y = x * sin a + y * (-cos a) := by
    intro x y; simp [leftOf]; ring
  rcases hc with ⟨h0, h3⟩ | heq
  · have hsn : 0 ≤ sin a := sin_nonneg_of_nonneg_of_le_pi h0 (by linarith)
    rw [if_neg (by linarith), if_neg (by linarith)]
    refine ⟨e1.congr g1 ?_, e2.congr g2 ?_⟩
    · rcases hsn.lt_or_eq with h | h
      · rw [if_neg (by linarith), abs_neg]; ring
      · rw [← h]; simp; ring
    · rw [if_pos hsn, abs_neg]; ring
  · rw [heq] at e1 e2
    simp only [abs_neg, ite_self] at e1 e2
    simp only [heq]
    split_ifs <;> exact ⟨e1.congr g1 (by ring), e2.congr g2 (by ring)⟩

/-- For every frenet angle strictly between -π/2 and 0 (vehicle turned left of the road) the left
extension is too small whenever the shape reaches further to the front than to the rear. -/
theorem C56_sides_too_small (a : ℝ) (h1 : -(π / 2) < a) (h2 : a < 0) (d : Dims) (hr : 0 ≤ d.rear)
    (hfr : d.rear < d.front) (hs : 0 ≤ d.side) :
    ∃ x y, InRect d x y ∧ (shapeExtension id a d).left < leftOf (-a) x y := by
  have hp := pi_pos
  obtain ⟨pc, ps⟩ := posAngle (a := a) (by linarith) (by linarith)
  refine ⟨d.front, d.side, ⟨by linarith, le_refl _, by linarith, le_refl _⟩, ?_⟩
  unfold shapeExtension
  simp only [pc, ps]
  rw [if_neg (by linarith), if_neg (by linarith)]
  have hsn : sin a < 0 := sin_neg_of_neg_of_neg_pi_lt h2 (by linarith)
  have hc : 0 ≤ cos a := cos_nonneg_of_mem_Icc ⟨by linarith, by linarith⟩
  rw [abs_of_neg hsn, abs_of_nonneg hc]
  simp only [leftOf, sin_neg, cos_neg]
  nlinarith

/-- **C56 is violated across the road**: a vehicle (3 m to the front, 1 m to the rear, 1 m to each side)
turned 30° to the left of the road reaches further to the left than the computed left extension. -/
theorem C56_sides_violated : ∃ (a : ℝ) (d : Dims), 0 ≤ d.front ∧ 0 ≤ d.rear ∧ 0 ≤ d.side ∧
    ¬ IsReach d (leftOf (-a)) (shapeExtension id a d).left := by
  have hp := pi_pos
  refine ⟨-(π / 6), ⟨3, 1, 1⟩, by norm_num, by norm_num, by norm_num, ?_⟩
  intro h
  obtain ⟨x, y, hr, hlt⟩ := C56_sides_too_small (-(π / 6)) (by linarith) (by linarith) ⟨3, 1, 1⟩
    (by norm_num) (by norm_num) (by norm_num)
  exact absurd (h.1 x y hr) (not_le.2 hlt)

/-- non-vacuity of `C56_front_rear_exact`: an aligned vehicle reaches 3 ahead. -/
example : (shapeExtension id 0 ⟨3, 1, 1⟩).front = 3 := by
  have hp := pi_pos
  obtain ⟨pc, ps⟩ := posAngle (a := 0) (by linarith) (by linarith)
  unfold shapeExtension
  simp only [pc, ps]
  rw [if_neg (by linarith), if_neg (by linarith)]
  simp

end Bark.ShapeExt
