import Verif.Props.SafeDistance

/-! C44: the formula for the case in which the rear brakes harder, is faster and stops earlier is right, but never used. -/
namespace Bark.SafeDist
open Bark Bark.SafeDistSpec
set_option linter.unusedSectionVars false
variable {K : Type} [Field K] [LinearOrder K] [IsStrictOrderedRing K]

/-- both vehicles braking: the gap is a parabola -/
theorem gap_parabola {v_f v_r b_r b_f delta u : K} (hf : 0 < b_f) (hr : 0 < b_r) (hd : 0 ≤ delta) (hu : 0 ≤ u)
    (hru : u ≤ v_r / b_r) (hfu : delta + u ≤ v_f / b_f) :
    braking v_f b_f (delta + u) - reacting v_r b_r delta (delta + u) =
      (v_f * delta - b_f * delta ^ 2 / 2 - v_r * delta) - (v_r - (v_f - b_f * delta)) * u + (b_r - b_f) * u ^ 2 / 2 := by
  unfold reacting braking
  rw [if_pos hfu]
  by_cases h : delta + u ≤ delta
  · have : u = 0 := le_antisymm (by linarith) hu
    subst this
    rw [if_pos h]
    ring
  · rw [if_neg h, add_sub_cancel_left, if_pos hru]
    ring

/-- **C44, the overlooked case.** When, after the reaction time, the rear brakes harder, is faster and stops earlier, the
second safe distance of the code is exactly the distance at which the vehicles begin to touch. -/
theorem C44_overlooked_formula {v_f v_r dist a_r a_f delta : K} (hr : a_r < 0) (hf : a_f < 0) (hvr : 0 ≤ v_r)
    (hdel : 0 ≤ delta) (hmov : delta ≤ v_f / (-a_f)) (hharder : a_r < a_f) (hfaster : v_f + a_f * delta < v_r)
    (hearlier : v_r / (-a_r) < (v_f + a_f * delta) / (-a_f)) :
    (safeDist2 v_r v_f a_r a_f delta < dist ∧ 0 < dist) ↔ NeverTouch v_f v_r dist (-a_r) (-a_f) delta := by
  obtain ⟨br, rfl⟩ : ∃ b, a_r = -b := ⟨-a_r, by ring⟩
  obtain ⟨bf, rfl⟩ : ∃ b, a_f = -b := ⟨-a_f, by ring⟩
  simp only [neg_neg] at *
  have hr' : 0 < br := by linarith
  have hf' : 0 < bf := by linarith
  have hD : 0 < br - bf := by linarith
  have hvr' : 0 ≤ v_r / br := div_nonneg hvr hr'.le
  have hcross : v_r * bf < (v_f + -bf * delta) * br := by rwa [div_lt_div_iff₀ hr' hf'] at hearlier
  have hfin : delta + v_r / br ≤ v_f / bf := by
    have e : (v_f + -bf * delta) / bf = v_f / bf - delta := by field_simp; ring
    rw [e] at hearlier
    linarith
  have hsd : safeDist2 v_r v_f (-br) (-bf) delta =
      (v_r - (v_f - bf * delta)) ^ 2 / (2 * (br - bf)) - (v_f * delta - bf * delta ^ 2 / 2 - v_r * delta) := by
    unfold safeDist2
    rw [show -bf - -br = br - bf by ring]
    ring
  have hsq : 0 ≤ (v_r - (v_f - bf * delta)) ^ 2 / (2 * (br - bf)) := by positivity
  rw [hsd]
  constructor
  · rintro ⟨h1, h2⟩
    have key : ∀ u, 0 ≤ u → u ≤ v_r / br →
        reacting v_r br delta (delta + u) < dist + braking v_f bf (delta + u) := by
      intro u hu hle
      have e := gap_parabola (v_f := v_f) (v_r := v_r) hf' hr' hdel hu hle (by linarith)
      have hq : 0 ≤ (br - bf) * u ^ 2 / 2 - (v_r - (v_f - bf * delta)) * u +
          (v_r - (v_f - bf * delta)) ^ 2 / (2 * (br - bf)) := by
        have : (br - bf) * u ^ 2 / 2 - (v_r - (v_f - bf * delta)) * u +
            (v_r - (v_f - bf * delta)) ^ 2 / (2 * (br - bf)) =
            ((br - bf) * u - (v_r - (v_f - bf * delta))) ^ 2 / (2 * (br - bf)) := by
          field_simp
          ring
        rw [this]
        positivity
      linarith
    intro t ht
    rcases le_or_gt t delta with htd | htd
    · -- the rear still keeps its speed; the gap is concave there
      have e1 : reacting v_r br delta t = v_r * t := by unfold reacting; rw [if_pos htd]
      have e2 : braking v_f bf t = v_f * t - bf * t ^ 2 / 2 := by unfold braking; rw [if_pos (by linarith)]
      rw [e1, e2]
      have hend : 0 < dist + (v_f * delta - bf * delta ^ 2 / 2 - v_r * delta) := by linarith
      rcases ht.lt_or_eq with ht0 | rfl
      · have hdp : 0 < delta := lt_of_lt_of_le ht0 htd
        have h3 : 0 < delta * (dist + (v_f * t - bf * t ^ 2 / 2 - v_r * t)) := by
          have i1 : 0 ≤ (delta - t) * dist := mul_nonneg (by linarith) h2.le
          have i2 : 0 < t * (dist + (v_f * delta - bf * delta ^ 2 / 2 - v_r * delta)) := mul_pos ht0 hend
          have i3 : 0 ≤ bf / 2 * (t * delta * (delta - t)) :=
            mul_nonneg (by linarith) (mul_nonneg (mul_nonneg ht0.le hdel) (by linarith))
          nlinarith
        have := (mul_pos_iff_of_pos_left hdp).1 h3
        linarith
      · simpa using h2
    · obtain ⟨u, hu, rfl⟩ : ∃ u, 0 ≤ u ∧ t = delta + u := ⟨t - delta, by linarith, by ring⟩
      rcases le_or_gt u (v_r / br) with hle | hgt
      · exact key u hu hle
      · have h0 := key _ hvr' le_rfl
        have e1 : reacting v_r br delta (delta + u) = reacting v_r br delta (delta + v_r / br) := by
          have e3 : ∀ x, v_r / br ≤ x → reacting v_r br delta (delta + x) = v_r * delta + v_r ^ 2 / (2 * br) := by
            intro x hx
            unfold reacting
            by_cases hc : delta + x ≤ delta
            · have hx0 : x = 0 := le_antisymm (by linarith) (le_trans hvr' hx)
              have hv0 : v_r / br = 0 := le_antisymm (by linarith) hvr'
              have : v_r = 0 := by
                rcases div_eq_zero_iff.1 hv0 with h | h
                · exact h
                · exact absurd h hr'.ne'
              rw [if_pos hc, hx0, this]
              simp
            · rw [if_neg hc, add_sub_cancel_left, braking_eq hr']
              unfold braking at *
              have : B br (v_r / br) x = v_r ^ 2 / (2 * br) := by
                rw [← braking_eq hr']
                unfold braking
                split_ifs with hh
                · have : x = v_r / br := le_antisymm hh hx
                  rw [this]
                  field_simp
                  ring
                · rfl
              rw [this]
          rw [e3 u hgt.le, e3 _ le_rfl]
        have e2 : braking v_f bf (delta + v_r / br) ≤ braking v_f bf (delta + u) := by
          rw [braking_eq hf', braking_eq hf']
          exact B_mono hf' (by linarith)
        rw [e1]
        linarith
  · intro h
    have h2 : 0 < dist := by
      have := h 0 le_rfl
      have hvf : 0 ≤ v_f / bf := le_trans hdel hmov
      simp only [reacting, braking, if_pos hdel, if_pos hvf] at this
      simpa using this
    refine ⟨?_, h2⟩
    have hu : 0 ≤ (v_r - (v_f - bf * delta)) / (br - bf) := div_nonneg (by linarith) hD.le
    have hle : (v_r - (v_f - bf * delta)) / (br - bf) ≤ v_r / br := by
      rw [div_le_div_iff₀ hD hr']
      nlinarith
    have e := gap_parabola (v_f := v_f) (v_r := v_r) hf' hr' hdel hu hle (by linarith)
    have h3 := h (delta + (v_r - (v_f - bf * delta)) / (br - bf)) (by linarith)
    have e4 : (v_r - (v_f - bf * delta)) * ((v_r - (v_f - bf * delta)) / (br - bf)) -
        (br - bf) * ((v_r - (v_f - bf * delta)) / (br - bf)) ^ 2 / 2 =
        (v_r - (v_f - bf * delta)) ^ 2 / (2 * (br - bf)) := by
      field_simp
      ring
    linarith

/-- … but it is never consulted: for every input the check accepts exactly from the smallest of three other distances
on – the braking distance of the rear, the difference of the braking distances, and, if the front is still moving after the
reaction time, the distance the front covers until then less the braking distance of the rear. -/
theorem C44_acceptance {v_f v_r dist a_r a_f delta : K} (hr : a_r < 0) (hf : a_f < 0) (hd : 0 ≤ dist) :
    checkLon v_f v_r dist a_r a_f delta = true ↔ 0 < dist ∧
      (v_r * delta + v_r ^ 2 / (2 * -a_r) < dist ∨
       (delta ≤ v_f / (-a_f) ∧ v_r * delta + v_r ^ 2 / (2 * -a_r) < dist + (v_f * delta + a_f * delta ^ 2 / 2)) ∨
       v_r * delta + v_r ^ 2 / (2 * -a_r) < dist + v_f ^ 2 / (2 * -a_f)) := by
  rw [checkLon_iff hr hf hd]
  have e1 : v_r ^ 2 / (2 * -a_r) = - (v_r ^ 2 / (2 * a_r)) := by rw [mul_neg, div_neg]
  have e2 : v_f ^ 2 / (2 * -a_f) = - (v_f ^ 2 / (2 * a_f)) := by rw [mul_neg, div_neg]
  have e3 : v_f / (-a_f) = -v_f / a_f := by rw [div_neg, neg_div]
  rw [e1, e2, e3]
  refine and_congr_right fun _ => or_congr ?_ (or_congr (and_congr_right fun _ => ?_) ?_) <;>
    constructor <;> intro h <;> linarith

/-- the case occurs -/
example : (-8 : ℚ) < -2 ∧ (0 : ℚ) ≤ 10 / (-(-2)) ∧ (10 : ℚ) + -2 * 0 < 20 ∧ (20 : ℚ) / (-(-8)) < (10 + -2 * 0) / (-(-2)) := by
  norm_num

end Bark.SafeDist
