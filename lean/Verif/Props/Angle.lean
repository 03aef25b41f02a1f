import Verif.Model.Angle
import Verif.Spec.Angle
import Mathlib.Tactic.Linarith
import Mathlib.Tactic.Ring
import Mathlib.Tactic.Positivity
import Mathlib.Tactic.FieldSimp

/-!
C31 – angle normalisation.
-/
namespace Bark.Angle
open Real Spec

theorem trunc_nonneg_bounds {x : ℝ} (h : 0 ≤ x) : (trunc x : ℝ) ≤ x ∧ x < trunc x + 1 := by
  unfold trunc; rw [if_pos h]; exact ⟨Int.floor_le x, Int.lt_floor_add_one x⟩

theorem trunc_neg_bounds {x : ℝ} (h : x < 0) : x ≤ trunc x ∧ (trunc x : ℝ) < x + 1 := by
  unfold trunc; rw [if_neg (not_le.2 h)]; exact ⟨Int.le_ceil x, Int.ceil_lt_add_one x⟩

theorem fmod_nonneg {a b : ℝ} (hb : 0 < b) (ha : 0 ≤ a) : 0 ≤ fmod a b ∧ fmod a b < b := by
  obtain ⟨h1, h2⟩ := trunc_nonneg_bounds (div_nonneg ha hb.le)
  unfold fmod
  have e : a = b * (a / b) := by field_simp
  constructor <;> nlinarith

theorem fmod_neg {a b : ℝ} (hb : 0 < b) (ha : a < 0) : -b < fmod a b ∧ fmod a b ≤ 0 := by
  obtain ⟨h1, h2⟩ := trunc_neg_bounds (div_neg_of_neg_of_pos ha hb)
  unfold fmod
  have e : a = b * (a / b) := by field_simp
  constructor <;> nlinarith

theorem fmod_of_range {a b : ℝ} (h0 : 0 ≤ a) (h : a < b) : fmod a b = a := by
  have hb : 0 < b := lt_of_le_of_lt h0 h
  unfold fmod trunc
  rw [if_pos (div_nonneg h0 hb.le)]
  have : ⌊a / b⌋ = 0 := by
    rw [Int.floor_eq_zero_iff]
    exact ⟨div_nonneg h0 hb.le, (div_lt_one hb).2 h⟩
  simp [this]

/-- The non-negative representative used by both normalisations. -/
theorem wrap_spec (a : ℝ) :
    let n := fmod a (2 * π)
    let r := if n < 0 then n + 2 * π else n
    0 ≤ r ∧ r < 2 * π ∧ SameDir r a := by
  have hp : (0 : ℝ) < 2 * π := by positivity
  rcases le_or_gt 0 a with ha | ha
  · obtain ⟨h1, h2⟩ := fmod_nonneg hp ha
    simp only [not_lt.2 h1, if_false]
    refine ⟨h1, h2, -(trunc (a / (2 * π))), ?_⟩
    unfold fmod; push_cast; ring
  · obtain ⟨h1, h2⟩ := fmod_neg hp ha
    rcases h2.lt_or_eq with h | h
    · simp only [h, if_true]
      refine ⟨by linarith, by linarith, 1 - (trunc (a / (2 * π))), ?_⟩
      unfold fmod; push_cast; ring
    · simp only [h, lt_irrefl, if_false]
      refine ⟨le_refl _, hp, -(trunc (a / (2 * π))), ?_⟩
      unfold fmod at h; push_cast; linarith

theorem sameDir_unique {c x y : ℝ} (hx : c ≤ x ∧ x < c + 2 * π) (hy : c ≤ y ∧ y < c + 2 * π)
    (h : SameDir x y) : x = y := by
  obtain ⟨k, hk⟩ := h
  have hp : (0 : ℝ) < π := pi_pos
  have h1 : (-1 : ℝ) < k := by by_contra hc; push Not at hc; nlinarith
  have h2 : (k : ℝ) < 1 := by by_contra hc; push Not at hc; nlinarith
  have : k = 0 := by
    have a1 : (-1 : ℤ) < k := by exact_mod_cast h1
    have a2 : k < (1 : ℤ) := by exact_mod_cast h2
    omega
  rw [hk, this]; simp

theorem Spec.SameDir.symm {a b : ℝ} (h : SameDir a b) : SameDir b a := by
  obtain ⟨k, hk⟩ := h; exact ⟨-k, by rw [hk]; push_cast; ring⟩

theorem Spec.SameDir.trans {a b c : ℝ} (h : SameDir a b) (h' : SameDir b c) : SameDir a c := by
  obtain ⟨k, hk⟩ := h; obtain ⟨l, hl⟩ := h'
  exact ⟨k + l, by rw [hk, hl]; push_cast; ring⟩

/-- `Norm0To2PI` returns the one angle in [0, 2π) with the same direction. -/
theorem C31_norm0To2PI (a : ℝ) :
    (0 ≤ norm0To2PI a ∧ norm0To2PI a < 2 * π ∧ SameDir (norm0To2PI a) a) ∧
    ∀ r, 0 ≤ r → r < 2 * π → SameDir r a → r = norm0To2PI a := by
  have h := wrap_spec a
  simp only at h
  refine ⟨h, fun r h0 h1 h2 => ?_⟩
  refine sameDir_unique (c := 0) ⟨h0, by linarith⟩ ⟨h.1, by unfold norm0To2PI; simp only; linarith [h.2.1]⟩
    (h2.trans h.2.2.symm)

/-- `NormToPI` (before the conversion to `float`) returns the one angle in [-π, π) with the same
direction, for every real argument. -/
theorem C31_normToPI (a : ℝ) :
    (-π ≤ normToPI id a ∧ normToPI id a < π ∧ SameDir (normToPI id a) a) ∧
    ∀ r, -π ≤ r → r < π → SameDir r a → r = normToPI id a := by
  have h := wrap_spec (a + π)
  simp only at h
  have hh : -π ≤ normToPI id a ∧ normToPI id a < π ∧ SameDir (normToPI id a) a := by
    unfold normToPI
    simp only [id]
    obtain ⟨h0, h1, k, hk⟩ := h
    refine ⟨by linarith, by linarith, k, by linarith⟩
  refine ⟨hh, fun r h0 h1 h2 => ?_⟩
  exact sameDir_unique (c := -π) ⟨h0, by linarith⟩ ⟨hh.1, by linarith [hh.2.1]⟩
    (h2.trans hh.2.2.symm)

theorem signedAngleDiff_eq (a b : ℝ) : signedAngleDiff id a b = normToPI id (a - b) := by
  obtain ⟨⟨h1, h2, _⟩, _⟩ := C31_normToPI (a - b)
  unfold signedAngleDiff
  simp only
  rw [fmod_of_range (by linarith) (by linarith)]; ring

/-- The signed difference of two angles lies in [-π, π), is the difference up to whole turns, and is
a shortest such rotation. -/
theorem C31_signed_difference (a b : ℝ) :
    -π ≤ signedAngleDiff id a b ∧ signedAngleDiff id a b < π ∧
    SameDir (signedAngleDiff id a b) (a - b) ∧
    ∀ r, SameDir r (a - b) → |signedAngleDiff id a b| ≤ |r| := by
  rw [signedAngleDiff_eq]
  obtain ⟨⟨h1, h2, h3⟩, _⟩ := C31_normToPI (a - b)
  refine ⟨h1, h2, h3, fun r hr => ?_⟩
  obtain ⟨k, hk⟩ := hr.trans h3.symm
  have hp : (0 : ℝ) < π := pi_pos
  set d := normToPI id (a - b) with hd
  by_cases hk0 : k = 0
  · rw [hk, hk0]; simp
  · have hd' : |d| ≤ π := abs_le.2 ⟨h1, h2.le⟩
    refine le_trans hd' ?_
    rcases lt_or_gt_of_ne hk0 with h | h
    · have : (k : ℝ) ≤ -1 := by exact_mod_cast (by omega : k ≤ -1)
      rw [le_abs]; right; nlinarith
    · have : (1 : ℝ) ≤ k := by exact_mod_cast (by omega : 1 ≤ k)
      rw [le_abs]; left; nlinarith

/-- Swapping the arguments negates the signed difference, except for exactly opposite directions,
where both orders return -π. -/
theorem C31_antisymmetric (a b : ℝ) :
    (¬ SameDir (a - b) π → signedAngleDiff id b a = - signedAngleDiff id a b) ∧
    (SameDir (a - b) π → signedAngleDiff id a b = -π ∧ signedAngleDiff id b a = -π) := by
  simp only [signedAngleDiff_eq]
  obtain ⟨⟨h1, h2, h3⟩, _⟩ := C31_normToPI (a - b)
  obtain ⟨_, hu⟩ := C31_normToPI (b - a)
  obtain ⟨_, hu'⟩ := C31_normToPI (a - b)
  have hp : (0 : ℝ) < π := pi_pos
  constructor
  · intro hn
    have hne : normToPI id (a - b) ≠ -π := by
      intro e
      apply hn
      rw [e] at h3
      obtain ⟨k, hk⟩ := h3
      exact ⟨-k - 1, by push_cast; linarith⟩
    have hlt : -π < normToPI id (a - b) := lt_of_le_of_ne h1 (Ne.symm hne)
    symm
    apply hu _ (by linarith) (by linarith)
    obtain ⟨k, hk⟩ := h3
    exact ⟨-k, by rw [hk]; push_cast; ring⟩
  · rintro ⟨k, hk⟩
    constructor
    · symm; exact hu' _ (le_refl _) (by linarith) ⟨-k - 1, by rw [hk]; push_cast; ring⟩
    · symm; exact hu _ (le_refl _) (by linarith) ⟨k, by push_cast; linarith⟩

/-- With the `float` result of `NormToPI` (relative error at most `u ≤ 1`, e.g. 2⁻²⁴) the signed
difference is still a rotation from `b` to `a` up to an error of `u·π`, and lies in
[-(1+u)π, π). -/
theorem C31_float_error (u : ℝ) (hu0 : 0 ≤ u) (hu1 : u ≤ 1) (rnd : ℝ → ℝ) (hr : RelErr u rnd)
    (a b : ℝ) :
    (∃ r, SameDir r (a - b) ∧ |signedAngleDiff rnd a b - r| ≤ u * π) ∧
    -(1 + u) * π ≤ signedAngleDiff rnd a b ∧ signedAngleDiff rnd a b < π := by
  obtain ⟨⟨h1, h2, h3⟩, _⟩ := C31_normToPI (a - b)
  have hp : (0 : ℝ) < π := pi_pos
  have hrn : normToPI rnd (a - b) = rnd (normToPI id (a - b)) := by simp [normToPI]
  set x := normToPI id (a - b) with hx
  have hx' : |x| ≤ π := abs_le.2 ⟨h1, h2.le⟩
  have he : |rnd x - x| ≤ u * π := le_trans (hr x) (mul_le_mul_of_nonneg_left hx' hu0)
  obtain ⟨e1, e2⟩ := abs_le.1 he
  unfold signedAngleDiff
  simp only [hrn]
  have hp2 : (0 : ℝ) < 2 * π := by positivity
  refine ⟨⟨x - 2 * π * trunc ((rnd x + π) / (2 * π)), ?_, ?_⟩, ?_⟩
  · obtain ⟨k, hk⟩ := h3
    exact ⟨k - trunc ((rnd x + π) / (2 * π)), by rw [hk]; push_cast; ring⟩
  · unfold fmod
    have : rnd x + π - 2 * π * ↑(trunc ((rnd x + π) / (2 * π))) - π -
        (x - 2 * π * ↑(trunc ((rnd x + π) / (2 * π)))) = rnd x - x := by ring
    rw [this]; exact he
  · rcases le_or_gt 0 (rnd x + π) with h | h
    · obtain ⟨f1, f2⟩ := fmod_nonneg hp2 h
      constructor <;> nlinarith
    · have hq : trunc ((rnd x + π) / (2 * π)) = 0 := by
        have hneg := div_neg_of_neg_of_pos h hp2
        unfold trunc; rw [if_neg (not_le.2 hneg), Int.ceil_eq_zero_iff]
        refine ⟨?_, hneg.le⟩
        rw [lt_div_iff₀ hp2]; nlinarith
      have hf : fmod (rnd x + π) (2 * π) = rnd x + π := by unfold fmod; rw [hq]; simp
      rw [hf]
      constructor <;> nlinarith

/-- Non-vacuity: a conversion with relative error 2⁻²⁴ that is not exact. -/
example : RelErr (1 / 2 ^ 24) (fun x => x * (1 + 1 / 2 ^ 25)) := by
  intro x
  have : x * (1 + 1 / 2 ^ 25) - x = (1 / 2 ^ 25) * x := by ring
  rw [this, abs_mul]
  have : |(1 / 2 ^ 25 : ℝ)| ≤ 1 / 2 ^ 24 := by rw [abs_of_nonneg] <;> norm_num
  exact mul_le_mul_of_nonneg_right this (abs_nonneg _)

/-- Non-vacuity of the range claim: 3π normalises to -π (and π does too). -/
example : normToPI id (3 * π) = -π := by
  obtain ⟨_, hu⟩ := C31_normToPI (3 * π)
  exact (hu _ (le_refl _) (by linarith [pi_pos]) ⟨-2, by push_cast; ring⟩).symm

/-- `AngleDiff` is *not* the size of the rotation between two directions: it is not wrapped, and
for directions 0.9·π and -0.9·π it returns 1.8·π although they are 0.2·π apart. -/
theorem C31_angleDiff_violated :
    ∃ a b : ℝ, angleDiff id a b = 9 / 5 * π ∧ |signedAngleDiff id a b| = 1 / 5 * π := by
  have hp : (0 : ℝ) < π := pi_pos
  refine ⟨9 / 10 * π, -(9 / 10 * π), ?_, ?_⟩
  · obtain ⟨_, hu⟩ := C31_normToPI (9 / 10 * π)
    obtain ⟨_, hu'⟩ := C31_normToPI (-(9 / 10 * π))
    unfold angleDiff
    rw [← hu (9 / 10 * π) (by linarith) (by linarith) ⟨0, by simp⟩,
      ← hu' (-(9 / 10 * π)) (by linarith) (by linarith) ⟨0, by simp⟩]
    rw [abs_of_nonneg] <;> linarith
  · rw [signedAngleDiff_eq]
    obtain ⟨_, hu⟩ := C31_normToPI (9 / 10 * π - -(9 / 10 * π))
    rw [← hu (-(1 / 5 * π)) (by linarith) (by linarith) ⟨-1, by push_cast; ring⟩]
    rw [abs_neg, abs_of_nonneg] <;> linarith

/-- What holds for `AngleDiff`: it is the size of the shortest rotation exactly when it does not
exceed π. -/
theorem C31_angleDiff (a b : ℝ) :
    angleDiff id a b = |signedAngleDiff id a b| ↔ angleDiff id a b ≤ π := by
  have hp : (0 : ℝ) < π := pi_pos
  obtain ⟨h1, h2, h3, h4⟩ := C31_signed_difference a b
  obtain ⟨⟨a1, a2, a3⟩, _⟩ := C31_normToPI a
  obtain ⟨⟨b1, b2, b3⟩, _⟩ := C31_normToPI b
  have hsd : SameDir (normToPI id a - normToPI id b) (a - b) := by
    obtain ⟨k, hk⟩ := a3; obtain ⟨l, hl⟩ := b3
    exact ⟨k - l, by rw [hk, hl]; push_cast; ring⟩
  unfold angleDiff
  constructor
  · intro h; rw [h, abs_le]; exact ⟨h1, h2.le⟩
  · intro h
    refine le_antisymm ?_ (h4 _ hsd)
    obtain ⟨k, hk⟩ := hsd.trans h3.symm
    set d := normToPI id a - normToPI id b
    set e := signedAngleDiff id a b
    obtain ⟨d1, d2⟩ := abs_le.1 h
    by_cases hk0 : k = 0
    · rw [hk, hk0]; simp
    · -- only possible at the boundary
      rcases lt_or_gt_of_ne hk0 with hh | hh
      · have : (k : ℝ) ≤ -1 := by exact_mod_cast (by omega : k ≤ -1)
        nlinarith
      · have : (1 : ℝ) ≤ k := by exact_mod_cast (by omega : 1 ≤ k)
        have h5 : d = π := by nlinarith
        have h6 : e = -π := by nlinarith
        rw [h5, h6, abs_neg]

end Bark.Angle
