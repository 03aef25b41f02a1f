import Verif.Spec.Frenet
import Verif.Props.Line
import Verif.Props.Angle

/-!
C108–C110: frenet coordinates.
-/
namespace Bark.Fren
open Bark.Ln Bark.Ln.Spec Bark.Angle Bark.Angle.Spec Spec

/-! ### Preliminaries -/

theorem atArc_bounds {pts : List Pt} {s : ℝ} {q : Pt} (h : AtArc pts s q) : 0 ≤ s ∧ s ≤ Ln.length pts := by
  obtain ⟨i, a, b, t, ha, hb, h0, h1, rfl, rfl⟩ := h
  have hp := pdist_nonneg a b
  refine ⟨add_nonneg (length_nonneg _) (mul_nonneg h0 hp), ?_⟩
  have e := arc_step pts i a b ha hb
  have hi := (List.getElem?_eq_some_iff.1 hb).1
  have m := arc_mono pts (show i + 1 ≤ pts.length - 1 by omega)
  rw [show pts.length - 1 + 1 = pts.length by omega, List.take_length] at m
  rw [show i + 1 + 1 = i + 2 by rfl] at m
  nlinarith

theorem pointAtS_eq {l : Line} (h : TableRight l) (h2 : 2 ≤ l.pts.length) {s : ℝ} {q : Pt} (hq : AtArc l.pts s q) :
    pointAtS l s = .ok q := by
  obtain ⟨b0, b1⟩ := atArc_bounds hq
  obtain ⟨q', h1, h3⟩ := pointAtS_atArc h h2 b0 b1
  have := C29_lipschitz l.pts h3 hq
  rw [sub_self, abs_zero] at this
  rw [h1, pdist_eq_zero.1 (le_antisymm this (pdist_nonneg _ _))]

theorem dist2_le_iff (p q q' : Pt) : dist2 p q ≤ dist2 p q' ↔ pdist p q ≤ pdist p q' := by
  have h0 : 0 ≤ dist2 p q' := by unfold dist2; nlinarith [sq_nonneg (p.1 - q'.1), sq_nonneg (p.2 - q'.2)]
  exact (Real.sqrt_le_sqrt_iff h0).symm

theorem foot_exists {l : Line} (h : TableRight l) (h2 : 2 ≤ l.pts.length) (hnd : NoDup l.pts) (p : Pt) :
    ∃ q s i θ, nearest l p = .ok (q, s, i) ∧ tangentAngleAtS l s = .ok θ ∧ Foot l p s q θ := by
  obtain ⟨q, s, i, h1, h3, h4⟩ := C30_nearest_point h h2 hnd p
  obtain ⟨θ, h5, -⟩ := C61_tangent h h2 hnd s
  exact ⟨q, s, i, θ, h1, h5, h3, fun q' hq' => (dist2_le_iff _ _ _).1 (h4 q' hq'), h5⟩

theorem latVal_eq (q p : Pt) : latVal q p = pdist p q := by
  unfold latVal pdist
  congr 1
  ring

theorem decompose (θ : ℝ) (v : Pt) :
    v.1 = along θ v * Real.cos θ - leftward θ v * Real.sin θ ∧
    v.2 = along θ v * Real.sin θ + leftward θ v * Real.cos θ := by
  have := Real.sin_sq_add_cos_sq θ
  unfold along leftward
  constructor
  · linear_combination (-v.1) * this
  · linear_combination (-v.2) * this

theorem pdist_decompose (θ : ℝ) (p q : Pt) :
    pdist p q = Real.sqrt (along θ (vec q p) ^ 2 + leftward θ (vec q p) ^ 2) := by
  unfold pdist along leftward vec
  congr 1
  have := Real.sin_sq_add_cos_sq θ
  simp only
  linear_combination (-((p.1 - q.1) ^ 2 + (p.2 - q.2) ^ 2)) * this

theorem sub_vec (p q : Pt) : sub p q = vec q p := rfl

/-- the sign, for a vector that is not zero -/
theorem sideSign_spec (θ : ℝ) (v : Pt) (hv : v ≠ (0, 0)) :
    (0 < leftward θ v → sideSign id θ v = 1) ∧ (leftward θ v < 0 → sideSign id θ v = -1) ∧
    (leftward θ v = 0 → 0 < along θ v → sideSign id θ v = 0) ∧
    (leftward θ v = 0 → along θ v < 0 → sideSign id θ v = 1) := by
  obtain ⟨c, hc, e⟩ := atan2_dir v.1 v.2 hv
  set φ := Dyn.atan2 v.2 v.1 with hφ
  have e1 : v.1 = c * Real.cos φ := congrArg Prod.fst e
  have e2 : v.2 = c * Real.sin φ := congrArg Prod.snd e
  obtain ⟨d1, d2, ⟨k, d3⟩, -⟩ := C31_signed_difference θ φ
  unfold sideSign
  rw [← hφ]
  set d := signedAngleDiff id θ φ with hd
  have hs : Real.sin d = Real.sin (θ - φ) := by
    rw [d3, show θ - φ + 2 * Real.pi * k = θ - φ + k * (2 * Real.pi) by ring, Real.sin_add_int_mul_two_pi]
  have hcs : Real.cos d = Real.cos (θ - φ) := by
    rw [d3, show θ - φ + 2 * Real.pi * k = θ - φ + k * (2 * Real.pi) by ring, Real.cos_add_int_mul_two_pi]
  have hl : leftward θ v = -(c * Real.sin d) := by
    rw [hs, Real.sin_sub]; unfold leftward; rw [e1, e2]; ring
  have ha : along θ v = c * Real.cos d := by
    rw [hcs, Real.cos_sub]; unfold along; rw [e1, e2]; ring
  have hpos : 0 < d → 0 < Real.sin d := fun g => Real.sin_pos_of_pos_of_lt_pi g d2
  have hneg : -Real.pi < d → d < 0 → Real.sin d < 0 := fun g g' => Real.sin_neg_of_neg_of_neg_pi_lt g' g
  rw [hl, ha]
  rcases lt_trichotomy 0 d with g | g | g
  · have := mul_pos hc (hpos g)
    rw [if_pos g]
    exact ⟨fun h => by linarith, fun _ => rfl, fun h => by linarith, fun h => by linarith⟩
  · rw [← g, if_neg (lt_irrefl _), if_neg (lt_irrefl _), Real.sin_zero, Real.cos_zero]
    exact ⟨fun h => by linarith, fun h => by linarith, fun _ _ => rfl, fun _ h => by linarith⟩
  · rw [if_neg g.not_gt, if_pos g]
    rcases d1.eq_or_lt with g' | g'
    · rw [← g', Real.sin_neg, Real.sin_pi, Real.cos_neg, Real.cos_pi]
      exact ⟨fun _ => rfl, fun h => by linarith, fun _ h => by linarith, fun _ _ => rfl⟩
    · have := mul_neg_of_pos_of_neg hc (hneg g' g)
      exact ⟨fun _ => rfl, fun h => by linarith, fun h => by linarith, fun h => by linarith⟩

/-- distance and sign together -/
theorem lat_spec (θ : ℝ) (p q : Pt) :
    (0 < leftward θ (vec q p) → latVal q p * sideSign id θ (sub p q) = pdist p q) ∧
    (leftward θ (vec q p) < 0 → latVal q p * sideSign id θ (sub p q) = -pdist p q) ∧
    (leftward θ (vec q p) = 0 → 0 ≤ along θ (vec q p) → latVal q p * sideSign id θ (sub p q) = 0) ∧
    (leftward θ (vec q p) = 0 → along θ (vec q p) ≤ 0 → latVal q p * sideSign id θ (sub p q) = pdist p q) := by
  rw [latVal_eq, sub_vec]
  by_cases hv : vec q p = (0, 0)
  · have e : pdist p q = 0 := by
      rw [pdist_decompose 0, hv]; simp [along, leftward]
    rw [e]
    exact ⟨fun _ => by simp, fun _ => by simp, fun _ _ => by simp, fun _ _ => by simp⟩
  · obtain ⟨s1, s2, s3, s4⟩ := sideSign_spec θ (vec q p) hv
    have hne : leftward θ (vec q p) = 0 → along θ (vec q p) ≠ 0 := by
      intro h0 h1
      obtain ⟨d1, d2⟩ := decompose θ (vec q p)
      rw [h0, h1] at d1 d2
      exact hv (Prod.ext (by linarith) (by linarith))
    refine ⟨fun g => by rw [s1 g, mul_one], fun g => by rw [s2 g]; ring, fun g g' => ?_, fun g g' => ?_⟩
    · rw [s3 g (lt_of_le_of_ne g' (hne g).symm), mul_zero]
    · rw [s4 g (lt_of_le_of_ne g' (hne g)), mul_one]

/-! ### C108 -/

/-- **C108.** For a line whose consecutive points differ, the frenet position of every point is defined: the
longitudinal coordinate is the arc length of the nearest point of the line, within the line; the lateral one
is the distance from it if the point lies to the left of the tangent there, the negated distance if it lies
to the right.  Points straight ahead of the nearest point have lateral coordinate 0, points straight behind
it their distance. -/
theorem C108_position_partial {l : Line} (h : TableRight l) (h2 : 2 ≤ l.pts.length) (hnd : NoDup l.pts) (p : Pt) :
    ∃ lon lat q θ, position id l p = .ok (lon, lat) ∧ 0 ≤ lon ∧ lon ≤ Ln.length l.pts ∧ Foot l p lon q θ ∧
      (0 < leftward θ (vec q p) → lat = pdist p q) ∧ (leftward θ (vec q p) < 0 → lat = -pdist p q) ∧
      (leftward θ (vec q p) = 0 → 0 ≤ along θ (vec q p) → lat = 0) ∧
      (leftward θ (vec q p) = 0 → along θ (vec q p) ≤ 0 → lat = pdist p q) := by
  obtain ⟨q, s, i, θ, h1, h3, h4⟩ := foot_exists h h2 hnd p
  obtain ⟨b0, b1⟩ := atArc_bounds h4.1
  refine ⟨s, _, q, θ, ?_, b0, b1, h4, lat_spec θ p q⟩
  unfold position
  rw [h1, Res.ok_bind, h3, Res.ok_bind]

theorem interior_perp {a b p : Pt} {t : ℝ} (h0 : 0 < t) (h1 : t < 1)
    (hmin : ∀ u, 0 ≤ u → u ≤ 1 → dist2 p (lerp a b t) ≤ dist2 p (lerp a b u)) : dot a b p = t * len2 a b := by
  have hl := len2_nonneg a b
  have key : ∀ u, 0 ≤ u → u ≤ 1 → 0 ≤ (u - t) * (-2 * dot a b p + (u + t) * len2 a b) := by
    intro u g0 g1
    have := hmin u g0 g1
    rw [dist2_lerp, dist2_lerp] at this
    nlinarith
  by_contra hne
  rcases lt_or_gt_of_ne hne with g | g
  · -- decrease t
    set e := min t ((t * len2 a b - dot a b p) / (len2 a b + 1)) with he
    have hpos : 0 < t * len2 a b - dot a b p := by linarith
    have hd : 0 < len2 a b + 1 := by linarith
    have e0 : 0 < e := lt_min h0 (div_pos hpos hd)
    have e1 : e ≤ t := min_le_left _ _
    have e2 : e * (len2 a b + 1) ≤ t * len2 a b - dot a b p := by
      rw [← le_div_iff₀ hd]; exact min_le_right _ _
    have := key (t - e) (by linarith) (by linarith)
    have h3 : (t - e - t) * (-2 * dot a b p + (t - e + t) * len2 a b) < 0 := by
      apply mul_neg_of_neg_of_pos (by linarith)
      nlinarith
    linarith
  · set e := min (1 - t) ((dot a b p - t * len2 a b) / (len2 a b + 1)) with he
    have hpos : 0 < dot a b p - t * len2 a b := by linarith
    have hd : 0 < len2 a b + 1 := by linarith
    have e0 : 0 < e := lt_min (by linarith) (div_pos hpos hd)
    have e1 : e ≤ 1 - t := min_le_left _ _
    have e2 : e * (len2 a b + 1) ≤ dot a b p - t * len2 a b := by
      rw [← le_div_iff₀ hd]; exact min_le_right _ _
    have := key (t + e) (by linarith) (by linarith)
    have h3 : (t + e - t) * (-2 * dot a b p + (t + e + t) * len2 a b) < 0 := by
      apply mul_neg_of_pos_of_neg (by linarith)
      nlinarith
    linarith

/-- strictly inside a segment the foot is perpendicular -/
theorem interior_foot {l : Line} (h : TableRight l) (h2 : 2 ≤ l.pts.length) (hnd : NoDup l.pts) {p q : Pt} {s θ : ℝ}
    (hf : Foot l p s q θ) {i : Nat} {a b : Pt} {t : ℝ} (ha : l.pts[i]? = some a) (hb : l.pts[i + 1]? = some b)
    (h0 : 0 < t) (h1 : t < 1) (hq : q = lerp a b t) (hs : s = Ln.length (l.pts.take (i + 1)) + t * pdist a b) :
    HasDir (vec a b) θ ∧ along θ (vec q p) = 0 := by
  have hab := noDup_seg hnd ha hb
  have hpos : 0 < pdist a b := lt_of_le_of_ne (pdist_nonneg a b) (fun e => hab (pdist_eq_zero.1 e.symm))
  obtain ⟨θ', h3, -, -, h4, -⟩ := C61_tangent h h2 hnd s
  rw [hf.2.2] at h3
  cases h3
  have hd : HasDir (vec a b) θ := by
    refine h4 i a b ha hb (by rw [hs]; nlinarith) ?_
    rw [arc_step l.pts i a b ha hb, hs]; nlinarith
  refine ⟨hd, ?_⟩
  have hp := interior_perp (p := p) h0 h1 (fun u g0 g1 => by
    rw [dist2_le_iff, ← hq]
    exact hf.2.1 _ ⟨i, a, b, u, ha, hb, g0, g1, rfl⟩)
  obtain ⟨c, hc, e⟩ := hd
  have e1 : b.1 - a.1 = c * Real.cos θ := congrArg Prod.fst e
  have e2 : b.2 - a.2 = c * Real.sin θ := congrArg Prod.snd e
  have : c * along θ (vec q p) = 0 := by
    unfold along vec
    rw [hq]
    unfold dot len2 at hp
    simp only [lerp]
    linear_combination hp - (p.1 - (a.1 + t * (b.1 - a.1))) * e1 - (p.2 - (a.2 + t * (b.2 - a.2))) * e2
  rcases mul_eq_zero.1 this with g | g
  · exact absurd g hc.ne'
  · exact g

/-- perpendicular feet: the lateral coordinate is the component to the left -/
theorem lat_perp (θ : ℝ) (p q : Pt) (h : along θ (vec q p) = 0) :
    latVal q p * sideSign id θ (sub p q) = leftward θ (vec q p) ∧ |leftward θ (vec q p)| = pdist p q := by
  have hd : pdist p q = |leftward θ (vec q p)| := by
    rw [pdist_decompose θ, h, zero_pow two_ne_zero, zero_add, Real.sqrt_sq_eq_abs]
  obtain ⟨s1, s2, s3, s4⟩ := lat_spec θ p q
  refine ⟨?_, hd.symm⟩
  rcases lt_trichotomy 0 (leftward θ (vec q p)) with g | g | g
  · rw [s1 g, hd, abs_of_pos g]
  · rw [s3 g.symm h.ge, ← g]
  · rw [s2 g, hd, abs_of_neg g, neg_neg]

theorem hasDir_left {a b : Pt} {θ : ℝ} (hab : a ≠ b) (hd : HasDir (vec a b) θ) (v : Pt) :
    leftward θ v = ((b.1 - a.1) * v.2 - (b.2 - a.2) * v.1) / pdist a b := by
  obtain ⟨c, hc, e⟩ := hd
  have e1 : b.1 - a.1 = c * Real.cos θ := congrArg Prod.fst e
  have e2 : b.2 - a.2 = c * Real.sin θ := congrArg Prod.snd e
  have hl : pdist a b = c := by
    rw [pdist_comm]
    unfold pdist
    rw [e1, e2, show c * Real.cos θ * (c * Real.cos θ) + c * Real.sin θ * (c * Real.sin θ) =
      c ^ 2 * (Real.sin θ ^ 2 + Real.cos θ ^ 2) by ring, Real.sin_sq_add_cos_sq, mul_one, Real.sqrt_sq hc.le]
  rw [hl, e1, e2]
  unfold leftward
  field_simp

/-- **C108, beside a segment.** If the nearest point is strictly inside a segment, the lateral coordinate is
the signed distance from the straight line through that segment, positive to the left of its direction, and
its absolute value is the distance from the whole line. -/
theorem C108_beside {l : Line} (h : TableRight l) (h2 : 2 ≤ l.pts.length) (hnd : NoDup l.pts) (p : Pt) :
    ∃ lon lat q, position id l p = .ok (lon, lat) ∧ AtArc l.pts lon q ∧
      (∀ q', OnLine l.pts q' → pdist p q ≤ pdist p q') ∧
      ∀ (i : Nat) (a b : Pt) (t : ℝ), l.pts[i]? = some a → l.pts[i + 1]? = some b → 0 < t → t < 1 → q = lerp a b t →
        lon = Ln.length (l.pts.take (i + 1)) + t * pdist a b →
        |lat| = pdist p q ∧ lat = ((b.1 - a.1) * (p.2 - a.2) - (b.2 - a.2) * (p.1 - a.1)) / pdist a b := by
  obtain ⟨q, s, i, θ, h1, h3, h4⟩ := foot_exists h h2 hnd p
  refine ⟨s, latVal q p * sideSign id θ (sub p q), q, ?_, h4.1, h4.2.1, ?_⟩
  · unfold position
    rw [h1, Res.ok_bind, h3, Res.ok_bind]
  intro i a b t ha hb h0 h1' hq hs
  obtain ⟨hd, hp⟩ := interior_foot h h2 hnd h4 ha hb h0 h1' hq hs
  obtain ⟨e1, e2⟩ := lat_perp θ p q hp
  rw [e1]
  refine ⟨e2, ?_⟩
  rw [hasDir_left (noDup_seg hnd ha hb) hd, hq]
  congr 1
  simp only [vec, lerp]
  ring

theorem dir_of_hasDir {v : Pt} {φ ψ : ℝ} (h1 : HasDir v φ) (h2 : HasDir v ψ) : SameDir φ ψ := by
  obtain ⟨c, hc, e⟩ := h1
  obtain ⟨d, hd, e'⟩ := h2
  have e1 : c * Real.cos φ = d * Real.cos ψ := (congrArg Prod.fst e).symm.trans (congrArg Prod.fst e')
  have e2 : c * Real.sin φ = d * Real.sin ψ := (congrArg Prod.snd e).symm.trans (congrArg Prod.snd e')
  have hcd : c = d := by
    have : c ^ 2 = d ^ 2 := by
      have t1 := Real.sin_sq_add_cos_sq φ
      have t2 := Real.sin_sq_add_cos_sq ψ
      calc c ^ 2 = (c * Real.cos φ) ^ 2 + (c * Real.sin φ) ^ 2 := by linear_combination (-c ^ 2) * t1
        _ = (d * Real.cos ψ) ^ 2 + (d * Real.sin ψ) ^ 2 := by rw [e1, e2]
        _ = d ^ 2 := by linear_combination (d ^ 2) * t2
    exact (pow_left_inj₀ hc.le hd.le two_ne_zero).1 this
  rw [hcd] at e1 e2
  have c1 : Real.cos φ = Real.cos ψ := mul_left_cancel₀ hd.ne' e1
  have c2 : Real.sin φ = Real.sin ψ := mul_left_cancel₀ hd.ne' e2
  obtain ⟨k, hk⟩ := Real.Angle.angle_eq_iff_two_pi_dvd_sub.1 (Real.Angle.cos_sin_inj c1 c2)
  exact ⟨k, by linarith⟩

theorem trig_same {a b : ℝ} (h : SameDir a b) : Real.cos a = Real.cos b ∧ Real.sin a = Real.sin b := by
  obtain ⟨k, rfl⟩ := h
  rw [show b + 2 * Real.pi * k = b + k * (2 * Real.pi) by ring]
  exact ⟨Real.cos_add_int_mul_two_pi _ _, Real.sin_add_int_mul_two_pi _ _⟩

theorem hasDir_congr {v : Pt} {a b : ℝ} (h : SameDir a b) (h1 : HasDir v a) : HasDir v b := by
  obtain ⟨c, hc, e⟩ := h1
  obtain ⟨t1, t2⟩ := trig_same h
  exact ⟨c, hc, by rw [e, t1, t2]⟩

/-- the sign beside a segment does not depend on the rounding of angles to `float` -/
theorem sideSign_float {u : ℝ} (hu0 : 0 ≤ u) (hu1 : u ≤ 1 / 5) {rnd : ℝ → ℝ} (hr : RelErr u rnd) (θ : ℝ) (v : Pt)
    (h : along θ v = 0) : latVal (0, 0) v * sideSign rnd θ v = latVal (0, 0) v * sideSign id θ v := by
  by_cases hv : v = (0, 0)
  · have : latVal (0, 0) v = 0 := by rw [hv]; simp [latVal]
    rw [this, zero_mul, zero_mul]
  · congr 1
    obtain ⟨c, hc, e⟩ := atan2_dir v.1 v.2 hv
    have e1 : v.1 = c * Real.cos (Dyn.atan2 v.2 v.1) := congrArg Prod.fst e
    have e2 : v.2 = c * Real.sin (Dyn.atan2 v.2 v.1) := congrArg Prod.snd e
    obtain ⟨⟨r, ⟨k, hr1⟩, hr2⟩, b0, b1⟩ := C31_float_error u hu0 (by linarith) rnd hr θ (Dyn.atan2 v.2 v.1)
    obtain ⟨d1, d2, ⟨k', hd⟩, -⟩ := C31_signed_difference θ (Dyn.atan2 v.2 v.1)
    unfold sideSign
    generalize Dyn.atan2 v.2 v.1 = φ at *
    generalize signedAngleDiff rnd θ φ = x at *
    generalize signedAngleDiff id θ φ = d at *
    have hp := Real.pi_pos
    -- the exact difference is ±π/2
    have hcos : Real.cos d = 0 := by
      have : c * Real.cos (θ - φ) = 0 := by
        rw [Real.cos_sub]; unfold along at h; rw [e1, e2] at h; linarith
      rw [(trig_same ⟨k', hd⟩).1]
      exact (mul_eq_zero.1 this).resolve_left hc.ne'
    have hcase : d = Real.pi / 2 ∨ d = -(Real.pi / 2) := by
      obtain ⟨m, hm⟩ := Real.cos_eq_zero_iff.1 hcos
      have m1 : (m : ℝ) < 1 := by nlinarith
      have m2 : (-2 : ℝ) < m := by nlinarith
      have m1' : m < 1 := by exact_mod_cast m1
      have m2' : -2 < m := by exact_mod_cast m2
      have : m = 0 ∨ m = -1 := by omega
      rcases this with rfl | rfl
      · left; rw [hm]; push_cast; ring
      · right; rw [hm]; push_cast; ring
    rw [abs_le] at hr2
    have hur : u * Real.pi ≤ Real.pi / 5 := by nlinarith
    have hrd : r = d + 2 * Real.pi * ((k - k' : ℤ) : ℝ) := by rw [hr1, hd]; push_cast; ring
    generalize hn : k - k' = n at hrd
    rcases hcase with g | g
    · have n1 : (n : ℝ) < 1 := by nlinarith
      have n2 : (-1 : ℝ) < n := by nlinarith
      have n1' : n < 1 := by exact_mod_cast n1
      have n2' : -1 < n := by exact_mod_cast n2
      have n0 : n = 0 := by omega
      rw [n0] at hrd
      have hx : 0 < x := by push_cast at hrd; nlinarith
      rw [if_pos hx, if_pos (by rw [g]; linarith)]
    · have n1 : (n : ℝ) < 1 := by nlinarith
      have n2 : (-1 : ℝ) < n := by nlinarith
      have n1' : n < 1 := by exact_mod_cast n1
      have n2' : -1 < n := by exact_mod_cast n2
      have n0 : n = 0 := by omega
      rw [n0] at hrd
      have hx : x < 0 := by push_cast at hrd; nlinarith
      have hd' : d < 0 := by rw [g]; linarith
      rw [if_neg hx.not_gt, if_pos hx, if_neg hd'.not_gt, if_pos hd']

/-- **C108, rounding.** Beside a segment the frenet position is the same whatever the rounding of angles to
`float` does, as long as its relative error is at most 1/5. -/
theorem C108_rounding {l : Line} (h : TableRight l) (h2 : 2 ≤ l.pts.length) (hnd : NoDup l.pts) (p : Pt) {u : ℝ}
    (hu0 : 0 ≤ u) (hu1 : u ≤ 1 / 5) {rnd : ℝ → ℝ} (hr : RelErr u rnd) {q : Pt} {s θ : ℝ} (hf : Foot l p s q θ)
    {i : Nat} {a b : Pt} {t : ℝ} (ha : l.pts[i]? = some a) (hb : l.pts[i + 1]? = some b)
    (h0 : 0 < t) (h1 : t < 1) (hq : q = lerp a b t) (hs : s = Ln.length (l.pts.take (i + 1)) + t * pdist a b)
    (hfirst : ∃ i, nearest l p = .ok (q, s, i)) :
    position rnd l p = position id l p := by
  obtain ⟨j, hn⟩ := hfirst
  obtain ⟨-, hp⟩ := interior_foot h h2 hnd hf ha hb h0 h1 hq hs
  unfold position
  rw [hn, Res.ok_bind, Res.ok_bind]
  simp only
  rw [hf.2.2, Res.ok_bind, Res.ok_bind]
  have := sideSign_float hu0 hu1 hr θ (vec q p) hp
  have e : latVal (0, 0) (vec q p) = latVal q p := by
    unfold latVal vec
    congr 1
    simp only
    ring
  rw [e] at this
  rw [sub_vec, this]

/-! ### C108 at the ends -/

theorem ofArray2 {a b : Pt} (hab : a ≠ b) : TableRight (ofArray [a, b]) ∧ 2 ≤ (ofArray [a, b]).pts.length ∧
    NoDup (ofArray [a, b]).pts :=
  ⟨tableRight_recompute _, le_rfl, List.isChain_pair.2 hab⟩

theorem length2 (a b : Pt) : Ln.length [a, b] = pdist a b := by
  show pdist a b + 0 = _
  rw [add_zero]

/-- the tangent of a straight line is its direction, everywhere -/
theorem tangent2 {a b : Pt} (hab : a ≠ b) (s : ℝ) :
    ∃ θ, tangentAngleAtS (ofArray [a, b]) s = .ok θ ∧ HasDir (vec a b) θ := by
  obtain ⟨t1, t2, t3⟩ := ofArray2 hab
  obtain ⟨θ, h1, h2, h3, h4, -⟩ := C61_tangent t1 t2 t3 s
  refine ⟨θ, h1, ?_⟩
  have hl : Ln.length (ofArray [a, b]).pts = pdist a b := length2 a b
  rcases le_or_gt s 0 with g | g
  · exact h2 g a b rfl rfl
  · rcases le_or_gt (pdist a b) s with g' | g'
    · exact h3 (by rw [hl]; exact g') a b rfl rfl
    · refine h4 0 a b rfl rfl ?_ ?_
      · show (0 : ℝ) < s
        exact g
      · show s < Ln.length [a, b]
        rw [length2]; exact g'

theorem atArc2 {a b q : Pt} {s : ℝ} (h : AtArc [a, b] s q) : ∃ t, 0 ≤ t ∧ t ≤ 1 ∧ q = lerp a b t ∧ s = t * pdist a b := by
  obtain ⟨i, c, d, t, hc, hd, h0, h1, hq, hs⟩ := h
  have hi : i = 0 := by
    have := (List.getElem?_eq_some_iff.1 hd).1
    simp at this
    omega
  subst hi
  cases hc
  cases hd
  refine ⟨t, h0, h1, hq, ?_⟩
  rw [hs]
  show 0 + _ = _
  rw [zero_add]

/-- **C108** is violated on the extensions of a line: `d` metres straight beyond the end the lateral
coordinate is 0 although the distance from the line is `d`; `d` metres straight before the start it is `d`,
as if the point were to the left. -/
theorem C108_ends_violated {a b : Pt} (hab : a ≠ b) {d : ℝ} (hd : 0 < d) :
    position id (ofArray [a, b]) (lerp a b (1 + d / pdist a b)) = .ok (pdist a b, 0) ∧
    (∀ q, OnLine [a, b] q → d ≤ pdist (lerp a b (1 + d / pdist a b)) q) ∧
    position id (ofArray [a, b]) (lerp a b (-(d / pdist a b))) = .ok (0, d) := by
  obtain ⟨t1, t2, t3⟩ := ofArray2 hab
  have hL : 0 < pdist a b := lt_of_le_of_ne (pdist_nonneg a b) (fun e => hab (pdist_eq_zero.1 e.symm))
  have hdl : d / pdist a b * pdist a b = d := div_mul_cancel₀ _ hL.ne'
  have hdp : 0 < d / pdist a b := div_pos hd hL
  have out : ∀ t, 0 ≤ t → t ≤ 1 → pdist (lerp a b (1 + d / pdist a b)) (lerp a b t) = d + (1 - t) * pdist a b := by
    intro t g0 g1
    rw [pdist_lerp, abs_of_nonneg (by linarith)]
    nlinarith
  have inn : ∀ t, 0 ≤ t → t ≤ 1 → pdist (lerp a b (-(d / pdist a b))) (lerp a b t) = d + t * pdist a b := by
    intro t g0 g1
    rw [pdist_lerp, abs_of_nonpos (by linarith)]
    nlinarith
  have comp : ∀ {θ}, HasDir (vec a b) θ → ∀ t u : ℝ,
      leftward θ (vec (lerp a b u) (lerp a b t)) = 0 ∧ ∃ c : ℝ, 0 < c ∧
        along θ (vec (lerp a b u) (lerp a b t)) = (t - u) * c := by
    rintro θ ⟨c, hc, e⟩ t u
    have e1 : b.1 - a.1 = c * Real.cos θ := congrArg Prod.fst e
    have e2 : b.2 - a.2 = c * Real.sin θ := congrArg Prod.snd e
    refine ⟨?_, c, hc, ?_⟩
    · unfold leftward vec lerp
      simp only
      rw [e1, e2]; ring
    · unfold along vec lerp
      simp only
      rw [e1, e2]
      linear_combination ((t - u) * c) * Real.sin_sq_add_cos_sq θ
  refine ⟨?_, ?_, ?_⟩
  · obtain ⟨lon, lat, q, θ, h1, -, -, h4, -, -, h7, -⟩ := C108_position_partial t1 t2 t3 (lerp a b (1 + d / pdist a b))
    obtain ⟨t, g0, g1, rfl, rfl⟩ := atArc2 h4.1
    have hm := h4.2.1 b ⟨0, a, b, 1, rfl, rfl, zero_le_one, le_rfl, (lerp_one a b).symm⟩
    have e1 := out 1 zero_le_one le_rfl
    rw [lerp_one] at e1
    rw [out t g0 g1, e1] at hm
    have ht : t = 1 := by
      refine le_antisymm g1 ?_
      by_contra g
      push Not at g
      nlinarith [mul_pos (sub_pos.2 g) hL]
    subst ht
    obtain ⟨θ', hθ, hdir⟩ := tangent2 hab (1 * pdist a b)
    rw [h4.2.2] at hθ
    cases hθ
    obtain ⟨c1, c, hc, c2⟩ := comp hdir (1 + d / pdist a b) 1
    rw [h1, h7 c1 (by rw [c2, add_sub_cancel_left]; positivity), one_mul]
  · rintro q ⟨i, c, e, t, hc, he, g0, g1, rfl⟩
    have hi : i = 0 := by
      have := (List.getElem?_eq_some_iff.1 he).1
      simp at this
      omega
    subst hi
    cases hc
    cases he
    rw [out t g0 g1]
    nlinarith [mul_nonneg (sub_nonneg.2 g1) hL.le]
  · obtain ⟨lon, lat, q, θ, h1, -, -, h4, -, -, -, h8⟩ := C108_position_partial t1 t2 t3 (lerp a b (-(d / pdist a b)))
    obtain ⟨t, g0, g1, rfl, rfl⟩ := atArc2 h4.1
    have hm := h4.2.1 a ⟨0, a, b, 0, rfl, rfl, le_rfl, zero_le_one, (lerp_zero a b).symm⟩
    have e1 := inn 0 le_rfl zero_le_one
    rw [lerp_zero] at e1
    rw [inn t g0 g1, e1] at hm
    have ht : t = 0 := by
      refine le_antisymm ?_ g0
      by_contra g
      push Not at g
      nlinarith [mul_pos g hL]
    subst ht
    obtain ⟨θ', hθ, hdir⟩ := tangent2 hab (0 * pdist a b)
    rw [h4.2.2] at hθ
    cases hθ
    obtain ⟨c1, c, hc, c2⟩ := comp hdir (-(d / pdist a b)) 0
    rw [h1, h8 c1 (by rw [c2]; nlinarith [mul_pos hdp hc]), inn 0 le_rfl zero_le_one]
    simp

/-! ### C109 -/

/-- **C109.** Converting a state to frenet coordinates and back.  The position is restored exactly if the
state's position is perpendicularly beside the nearest point of the line; the speed becomes its absolute
value; the heading is restored (up to whole turns, into [-π, π)) for positive speeds, reversed for negative
ones, and replaced by the direction of the line for a standing vehicle; the time becomes 0.  The frenet
angle is the direction of the line minus the heading. -/
theorem C109_round_trip {l : Line} (h : TableRight l) (h2 : 2 ≤ l.pts.length) (hnd : NoDup l.pts) (x : VState) :
    ∃ f x' q θ, ofState id l x = .ok f ∧ toState id l f = .ok x' ∧ Foot l (x.x, x.y) f.lon q θ ∧
      ((x'.x, x'.y) = (x.x, x.y) ↔ along θ (vec q (x.x, x.y)) = 0) ∧
      x'.vel = |x.vel| ∧ -Real.pi ≤ x'.theta ∧ x'.theta < Real.pi ∧
      (0 < x.vel → SameDir x'.theta x.theta) ∧ (x.vel < 0 → SameDir x'.theta (x.theta + Real.pi)) ∧
      (x.vel = 0 → SameDir x'.theta θ) ∧ x'.time = 0 ∧
      f.angleRoad = θ ∧ SameDir f.angle (θ - x.theta) ∧ -Real.pi ≤ f.angle ∧ f.angle < Real.pi := by
  obtain ⟨q, s, i, θ, h1, h3, h4⟩ := foot_exists h h2 hnd (x.x, x.y)
  have hps := pointAtS_eq h h2 h4.1
  set lat := latVal q (x.x, x.y) * sideSign id θ (sub (x.x, x.y) q) with hlat
  set δ := signedAngleDiff id x.theta θ with hδ
  obtain ⟨-, -, d3, -⟩ := C31_signed_difference x.theta θ
  rw [← hδ] at d3
  refine ⟨⟨s, lat, Real.cos δ * x.vel, Real.sin δ * x.vel, signedAngleDiff id θ x.theta, θ⟩,
    ⟨0, q.1 + Real.cos (θ + Real.pi / 2) * lat, q.2 + Real.sin (θ + Real.pi / 2) * lat,
      normToPI id (Dyn.atan2 (Real.sin δ * x.vel) (Real.cos δ * x.vel) + θ),
      Real.sqrt (Real.cos δ * x.vel * (Real.cos δ * x.vel) + Real.sin δ * x.vel * (Real.sin δ * x.vel))⟩,
    q, θ, ?_, ?_, h4, ?_, ?_, ?_, ?_, ?_, ?_, ?_, rfl, rfl, (C31_signed_difference θ x.theta).2.2.1,
    (C31_signed_difference θ x.theta).1, (C31_signed_difference θ x.theta).2.1⟩
  · unfold ofState
    rw [h1, Res.ok_bind, h3, Res.ok_bind]
  · unfold toState Goal.normalAtS
    simp only
    rw [hps, h3, Res.ok_bind, Res.ok_bind, Res.ok_bind, Res.ok_bind]
  · simp only
    rw [Real.cos_add_pi_div_two, Real.sin_add_pi_div_two]
    constructor
    · intro e
      have e1 : q.1 + -Real.sin θ * lat = x.x := congrArg Prod.fst e
      have e2 : q.2 + Real.cos θ * lat = x.y := congrArg Prod.snd e
      unfold along vec
      simp only
      rw [← e1, ← e2]; ring
    · intro e
      obtain ⟨g1, -⟩ := lat_perp θ (x.x, x.y) q e
      rw [hlat, g1]
      obtain ⟨v1, v2⟩ := decompose θ (vec q (x.x, x.y))
      rw [e] at v1 v2
      have v1' : x.x - q.1 = 0 * Real.cos θ - leftward θ (vec q (x.x, x.y)) * Real.sin θ := v1
      have v2' : x.y - q.2 = 0 * Real.sin θ + leftward θ (vec q (x.x, x.y)) * Real.cos θ := v2
      exact Prod.ext (by linarith) (by linarith)
  · simp only
    rw [show Real.cos δ * x.vel * (Real.cos δ * x.vel) + Real.sin δ * x.vel * (Real.sin δ * x.vel) =
      (Real.sin δ ^ 2 + Real.cos δ ^ 2) * x.vel ^ 2 by ring, Real.sin_sq_add_cos_sq, one_mul, Real.sqrt_sq_eq_abs]
  · exact (C31_normToPI _).1.1
  · exact (C31_normToPI _).1.2.1
  all_goals
    intro hv
    refine (C31_normToPI _).1.2.2.trans ?_
    obtain ⟨k, hk⟩ := d3
  · have hdir : HasDir (Real.cos δ * x.vel, Real.sin δ * x.vel) (Dyn.atan2 (Real.sin δ * x.vel) (Real.cos δ * x.vel)) := by
      apply atan2_dir
      intro e
      have e1 : Real.cos δ * x.vel = 0 := congrArg Prod.fst e
      have e2 : Real.sin δ * x.vel = 0 := congrArg Prod.snd e
      have := Real.sin_sq_add_cos_sq δ
      rw [(mul_eq_zero.1 e1).resolve_right hv.ne', (mul_eq_zero.1 e2).resolve_right hv.ne'] at this
      norm_num at this
    obtain ⟨m, hm⟩ := dir_of_hasDir hdir ⟨x.vel, hv, by rw [mul_comm, mul_comm (Real.sin δ)]⟩
    exact ⟨m + k, by rw [hm, hk]; push_cast; ring⟩
  · have hdir : HasDir (Real.cos δ * x.vel, Real.sin δ * x.vel) (Dyn.atan2 (Real.sin δ * x.vel) (Real.cos δ * x.vel)) := by
      apply atan2_dir
      intro e
      have e1 : Real.cos δ * x.vel = 0 := congrArg Prod.fst e
      have e2 : Real.sin δ * x.vel = 0 := congrArg Prod.snd e
      have := Real.sin_sq_add_cos_sq δ
      rw [(mul_eq_zero.1 e1).resolve_right hv.ne, (mul_eq_zero.1 e2).resolve_right hv.ne] at this
      norm_num at this
    obtain ⟨m, hm⟩ := dir_of_hasDir hdir (ψ := δ + Real.pi) ⟨-x.vel, by linarith, by
      rw [Real.cos_add_pi, Real.sin_add_pi]; exact Prod.ext (by simp only; ring) (by simp only; ring)⟩
    exact ⟨m + k, by rw [hm, hk]; push_cast; ring⟩
  · rw [hv, mul_zero, mul_zero]
    have : Dyn.atan2 0 0 = 0 := by
      unfold Dyn.atan2
      exact Complex.arg_zero
    exact ⟨0, by rw [this]; push_cast; ring⟩

/-- **C109, beside a segment.** If the nearest point of the line is strictly inside a segment, the position is
restored. -/
theorem C109_beside {l : Line} (h : TableRight l) (h2 : 2 ≤ l.pts.length) (hnd : NoDup l.pts) (x : VState)
    (hin : ∀ s q θ, Foot l (x.x, x.y) s q θ → ∃ (i : Nat) (a b : Pt) (t : ℝ), l.pts[i]? = some a ∧
      l.pts[i + 1]? = some b ∧ 0 < t ∧ t < 1 ∧ q = lerp a b t ∧
      s = Ln.length (l.pts.take (i + 1)) + t * pdist a b) :
    ∃ f x', ofState id l x = .ok f ∧ toState id l f = .ok x' ∧ x'.x = x.x ∧ x'.y = x.y := by
  obtain ⟨f, x', q, θ, h1, h3, h4, h5, -⟩ := C109_round_trip h h2 hnd x
  obtain ⟨i, a, b, t, ha, hb, g0, g1, hq, hs⟩ := hin _ _ _ h4
  have e := h5.2 (interior_foot h h2 hnd h4 ha hb g0 g1 hq hs).2
  exact ⟨f, x', h1, h3, congrArg Prod.fst e, congrArg Prod.snd e⟩

theorem position_of_state {l : Line} {x : VState} {f : FState} (h : ofState id l x = .ok f) :
    position id l (x.x, x.y) = .ok (f.lon, f.lat) := by
  unfold ofState at h
  obtain ⟨n, h1, h⟩ := Res.bind_ok h
  obtain ⟨th, h2, h⟩ := Res.bind_ok h
  cases h
  unfold position
  rw [h1, Res.ok_bind, h2, Res.ok_bind]

/-- **C109** is violated beyond the ends: a vehicle `d` metres straight beyond the end of the line is put back
on the end of the line. -/
theorem C109_ends_violated {a b : Pt} (hab : a ≠ b) {d : ℝ} (hd : 0 < d) (θ v : ℝ) :
    ∃ f x', ofState id (ofArray [a, b]) ⟨0, (lerp a b (1 + d / pdist a b)).1, (lerp a b (1 + d / pdist a b)).2, θ, v⟩ = .ok f ∧
      toState id (ofArray [a, b]) f = .ok x' ∧ (x'.x, x'.y) = b ∧ pdist (lerp a b (1 + d / pdist a b)) b = d := by
  obtain ⟨t1, t2, t3⟩ := ofArray2 hab
  have hL : 0 < pdist a b := lt_of_le_of_ne (pdist_nonneg a b) (fun e => hab (pdist_eq_zero.1 e.symm))
  obtain ⟨f, x', q, θ', h1, h3, h4, -⟩ := C109_round_trip t1 t2 t3
    ⟨0, (lerp a b (1 + d / pdist a b)).1, (lerp a b (1 + d / pdist a b)).2, θ, v⟩
  refine ⟨f, x', h1, h3, ?_, ?_⟩
  · have h5 := position_of_state h1
    have h6 := (C108_ends_violated hab hd).1
    have h7 : (.ok (f.lon, f.lat) : Res (ℝ × ℝ)) = .ok (pdist a b, 0) := h5.symm.trans h6
    injection h7 with h7
    have e1 : f.lon = pdist a b := congrArg Prod.fst h7
    have e2 : f.lat = 0 := congrArg Prod.snd h7
    have hb : pointAtS (ofArray [a, b]) f.lon = .ok b := by
      rw [e1]
      refine pointAtS_eq t1 t2 ⟨0, a, b, 1, rfl, rfl, zero_le_one, le_rfl, (lerp_one a b).symm, ?_⟩
      show pdist a b = 0 + 1 * pdist a b
      ring
    unfold toState at h3
    obtain ⟨p, g1, h3⟩ := Res.bind_ok h3
    obtain ⟨th, g2, h3⟩ := Res.bind_ok h3
    obtain ⟨n, g3, h3⟩ := Res.bind_ok h3
    rw [hb] at g1
    cases g1
    cases h3
    simp only
    rw [e2, mul_zero, mul_zero, add_zero, add_zero]
  · have := pdist_lerp a b (1 + d / pdist a b) 1
    rw [lerp_one, add_sub_cancel_left, abs_of_pos (div_pos hd hL), div_mul_cancel₀ _ hL.ne'] at this
    exact this

/-- The hypotheses of the theorems above are met by a position 3 m to the left of the middle of a straight
line. -/
example (s : ℝ) (q : Pt) (θ : ℝ) (hf : Foot (ofArray [(0, 0), (10, 0)]) (5, 3) s q θ) :
    ∃ (i : Nat) (a b : Pt) (t : ℝ), (ofArray [(0, 0), (10, 0)]).pts[i]? = some a ∧
      (ofArray [(0, 0), (10, 0)]).pts[i + 1]? = some b ∧ 0 < t ∧ t < 1 ∧ q = lerp a b t ∧
      s = Ln.length ((ofArray [(0, 0), (10, 0)]).pts.take (i + 1)) + t * pdist a b := by
  obtain ⟨t, g0, g1, hq, hs⟩ := atArc2 hf.1
  have := (dist2_le_iff _ _ _).2 (hf.2.1 (5, 0) ⟨0, (0, 0), (10, 0), 1 / 2, rfl, rfl, by norm_num, by norm_num, by unfold lerp; norm_num⟩)
  rw [hq] at this
  unfold dist2 lerp at this
  norm_num at this
  have ht : t = 1 / 2 := by nlinarith [sq_nonneg (5 - t * 10)]
  refine ⟨0, (0, 0), (10, 0), t, rfl, rfl, by rw [ht]; norm_num, by rw [ht]; norm_num, hq, ?_⟩
  show s = 0 + _
  rw [zero_add]; exact hs

/-! ### C110 -/

/-- the point `lat` to the left of `q`, seen in direction `θ` -/
noncomputable def beside (q : Pt) (θ lat : ℝ) : Pt := (q.1 - Real.sin θ * lat, q.2 + Real.cos θ * lat)

theorem beside_spec (q : Pt) (θ lat : ℝ) :
    along θ (vec q (beside q θ lat)) = 0 ∧ leftward θ (vec q (beside q θ lat)) = lat := by
  have := Real.sin_sq_add_cos_sq θ
  unfold along leftward vec beside
  simp only
  constructor
  · ring
  · linear_combination lat * this

/-- **C110.** Converting frenet coordinates to a state and back: if the point at `lon` is the only point of
the line nearest to the resulting position, the longitudinal and lateral coordinates and speeds are
restored. -/
theorem C110_round_trip {l : Line} (h : TableRight l) (h2 : 2 ≤ l.pts.length) (hnd : NoDup l.pts) (f : FState)
    {q : Pt} {θ : ℝ} (hq : AtArc l.pts f.lon q) (hθ : tangentAngleAtS l f.lon = .ok θ)
    (hu : ∀ s' q', AtArc l.pts s' q' → s' ≠ f.lon → pdist (beside q θ f.lat) q < pdist (beside q θ f.lat) q') :
    ∃ x f', toState id l f = .ok x ∧ (x.x, x.y) = beside q θ f.lat ∧ ofState id l x = .ok f' ∧
      f'.lon = f.lon ∧ f'.lat = f.lat ∧ f'.vlon = f.vlon ∧ f'.vlat = f.vlat ∧ f'.angleRoad = θ := by
  have hps := pointAtS_eq h h2 hq
  refine ⟨⟨0, q.1 + Real.cos (θ + Real.pi / 2) * f.lat, q.2 + Real.sin (θ + Real.pi / 2) * f.lat,
    normToPI id (Dyn.atan2 f.vlat f.vlon + θ), Real.sqrt (f.vlon * f.vlon + f.vlat * f.vlat)⟩, ?_⟩
  have hpos : (q.1 + Real.cos (θ + Real.pi / 2) * f.lat, q.2 + Real.sin (θ + Real.pi / 2) * f.lat) =
      beside q θ f.lat := by
    rw [Real.cos_add_pi_div_two, Real.sin_add_pi_div_two]
    exact Prod.ext (by unfold beside; simp only; ring) (by unfold beside; simp only)
  obtain ⟨q1, s1, i, θ1, n1, n2, n3⟩ := foot_exists h h2 hnd (beside q θ f.lat)
  have hs : s1 = f.lon := by
    by_contra hne
    have g1 := hu s1 q1 n3.1 hne
    obtain ⟨j, a, b, t, ha, hb, g0, g1', g2, -⟩ := hq
    exact absurd (n3.2.1 q ⟨j, a, b, t, ha, hb, g0, g1', g2⟩) (not_le.2 g1)
  subst hs
  have hqq : q1 = q := by
    have := C29_lipschitz l.pts n3.1 hq
    rw [sub_self, abs_zero] at this
    exact pdist_eq_zero.1 (le_antisymm this (pdist_nonneg _ _))
  subst hqq
  rw [n2] at hθ
  cases hθ
  obtain ⟨p1, p2⟩ := beside_spec q1 θ f.lat
  obtain ⟨g1, -⟩ := lat_perp θ (beside q1 θ f.lat) q1 p1
  have hv : ∀ φ, SameDir φ (Dyn.atan2 f.vlat f.vlon) →
      Real.cos φ * Real.sqrt (f.vlon * f.vlon + f.vlat * f.vlat) = f.vlon ∧
      Real.sin φ * Real.sqrt (f.vlon * f.vlon + f.vlat * f.vlat) = f.vlat := by
    intro φ hφ
    obtain ⟨t1, t2⟩ := trig_same hφ
    rw [t1, t2]
    have hn : Real.sqrt (f.vlon * f.vlon + f.vlat * f.vlat) = ‖(⟨f.vlon, f.vlat⟩ : ℂ)‖ := by
      rw [Complex.norm_def, Complex.normSq_apply]
    unfold Dyn.atan2
    rw [hn, mul_comm, Complex.norm_mul_cos_arg, mul_comm, Complex.norm_mul_sin_arg]
    exact ⟨rfl, rfl⟩
  have hsd : SameDir (signedAngleDiff id (normToPI id (Dyn.atan2 f.vlat f.vlon + θ)) θ) (Dyn.atan2 f.vlat f.vlon) := by
    obtain ⟨-, -, ⟨k, e1⟩, -⟩ := C31_signed_difference (normToPI id (Dyn.atan2 f.vlat f.vlon + θ)) θ
    obtain ⟨⟨-, -, ⟨m, e2⟩⟩, -⟩ := C31_normToPI (Dyn.atan2 f.vlat f.vlon + θ)
    exact ⟨m + k, by rw [e1, e2]; push_cast; ring⟩
  refine ⟨⟨f.lon, latVal q1 (beside q1 θ f.lat) * sideSign id θ (sub (beside q1 θ f.lat) q1),
    Real.cos (signedAngleDiff id (normToPI id (Dyn.atan2 f.vlat f.vlon + θ)) θ) *
      Real.sqrt (f.vlon * f.vlon + f.vlat * f.vlat),
    Real.sin (signedAngleDiff id (normToPI id (Dyn.atan2 f.vlat f.vlon + θ)) θ) *
      Real.sqrt (f.vlon * f.vlon + f.vlat * f.vlat),
    signedAngleDiff id θ (normToPI id (Dyn.atan2 f.vlat f.vlon + θ)), θ⟩, ?_, hpos, ?_, rfl, ?_, (hv _ hsd).1,
    (hv _ hsd).2, rfl⟩
  · unfold toState Goal.normalAtS
    rw [hps, n2, Res.ok_bind, Res.ok_bind, Res.ok_bind, Res.ok_bind]
  · unfold ofState
    simp only
    rw [hpos, n1, Res.ok_bind]
    simp only
    rw [n2, Res.ok_bind]
  · simp only
    rw [g1, p2]

/-- **C110, straight lines.** On a straight line every frenet state within the line is restored. -/
theorem C110_straight {a b : Pt} (hab : a ≠ b) (f : FState) (h0 : 0 ≤ f.lon) (h1 : f.lon ≤ pdist a b) :
    ∃ x f', toState id (ofArray [a, b]) f = .ok x ∧ ofState id (ofArray [a, b]) x = .ok f' ∧
      f'.lon = f.lon ∧ f'.lat = f.lat ∧ f'.vlon = f.vlon ∧ f'.vlat = f.vlat := by
  obtain ⟨t1, t2, t3⟩ := ofArray2 hab
  have hL : 0 < pdist a b := lt_of_le_of_ne (pdist_nonneg a b) (fun e => hab (pdist_eq_zero.1 e.symm))
  obtain ⟨θ, hθ, hdir⟩ := tangent2 hab f.lon
  have hq : AtArc (ofArray [a, b]).pts f.lon (lerp a b (f.lon / pdist a b)) := by
    refine ⟨0, a, b, f.lon / pdist a b, rfl, rfl, div_nonneg h0 hL.le, (div_le_one hL).2 h1, rfl, ?_⟩
    show f.lon = 0 + _
    rw [zero_add, div_mul_cancel₀ _ hL.ne']
  obtain ⟨x, f', h3, -, h4, h5, h6, h7, h8, -⟩ := C110_round_trip t1 t2 t3 f hq hθ (by
    intro s' q' hs' hne
    obtain ⟨t, g0, g1, rfl, rfl⟩ := atArc2 hs'
    obtain ⟨c, hc, e⟩ := hdir
    have e1 : b.1 - a.1 = c * Real.cos θ := congrArg Prod.fst e
    have e2 : b.2 - a.2 = c * Real.sin θ := congrArg Prod.snd e
    set u := f.lon / pdist a b with hu
    have hut : u - t ≠ 0 := by
      intro e3
      apply hne
      have : u = t := by linarith
      rw [← this, hu, div_mul_cancel₀ _ hL.ne']
    rw [pdist_decompose θ, pdist_decompose θ (beside (lerp a b u) θ f.lat) (lerp a b t)]
    obtain ⟨p1, p2⟩ := beside_spec (lerp a b u) θ f.lat
    rw [p1, p2]
    have ea : along θ (vec (lerp a b t) (beside (lerp a b u) θ f.lat)) = (u - t) * c := by
      unfold along vec beside lerp
      simp only
      rw [e1, e2]
      linear_combination ((u - t) * c) * Real.sin_sq_add_cos_sq θ
    have el : leftward θ (vec (lerp a b t) (beside (lerp a b u) θ f.lat)) = f.lat := by
      unfold leftward vec beside lerp
      simp only
      rw [e1, e2]
      linear_combination f.lat * Real.sin_sq_add_cos_sq θ
    rw [ea, el]
    apply Real.sqrt_lt_sqrt (by positivity)
    have : 0 < ((u - t) * c) ^ 2 := by
      have := mul_ne_zero hut hc.ne'
      positivity
    linarith)
  exact ⟨x, f', h3, h4, h5, h6, h7, h8⟩

/-- a bend: 10 m east, then 10 m north -/
noncomputable def bend : Line := ofArray [(0, 0), (10, 0), (10, 10)]

theorem bend_ok : TableRight bend ∧ 2 ≤ bend.pts.length ∧ NoDup bend.pts := by
  refine ⟨tableRight_recompute _, by decide, ?_⟩
  show List.IsChain (· ≠ ·) [((0 : ℝ), (0 : ℝ)), (10, 0), (10, 10)]
  rw [List.isChain_cons_cons]
  refine ⟨by intro e; have := congrArg Prod.fst e; norm_num at this, List.isChain_pair.2 ?_⟩
  intro e; have := congrArg Prod.snd e; norm_num at this

/-- **C110** is violated inside bends: 9 m along and 5 m to the left of a line that turns left after 10 m, the
position is 1 m from the second leg, and is converted back to a point on that leg. -/
theorem C110_bend_violated (v : ℝ) :
    ∃ x f', toState id bend ⟨9, 5, v, 0, 0, 0⟩ = .ok x ∧ x.x = 9 ∧ x.y = 5 ∧ ofState id bend x = .ok f' ∧
      f'.lon ≠ 9 ∧ f'.lat ≠ 5 := by
  obtain ⟨t1, t2, t3⟩ := bend_ok
  have hp10 : pdist ((0 : ℝ), (0 : ℝ)) (10, 0) = 10 := by
    unfold pdist; norm_num
    rw [show (100 : ℝ) = 10 * 10 by norm_num]
    exact Real.sqrt_mul_self (by norm_num)
  have hq : AtArc bend.pts 9 (9, 0) := by
    refine ⟨0, (0, 0), (10, 0), 9 / 10, rfl, rfl, by norm_num, by norm_num, ?_, ?_⟩
    · unfold lerp; norm_num
    · rw [hp10]; show (9 : ℝ) = 0 + _; norm_num
  have hθ : tangentAngleAtS bend 9 = .ok 0 := by
    obtain ⟨θ, h1, -, -, h4, -⟩ := C61_tangent t1 t2 t3 9
    have hd := h4 0 (0, 0) (10, 0) rfl rfl (by show (0 : ℝ) < 9; norm_num) (by
      show (9 : ℝ) < pdist (0, 0) (10, 0) + 0
      rw [hp10]; norm_num)
    -- the angle itself
    have h5 : segmentEndIdx bend 9 = 1 := by
      obtain ⟨i, a, b, u1, u2, u3, u4, -, -, u5, u6⟩ := upperBound_spec t1 (by simp [bend, ofArray, recomputeS])
        (s := 9) (by norm_num) (by
          show (9 : ℝ) < pdist (0, 0) (10, 0) + (pdist (10, 0) (10, 10) + 0)
          rw [hp10]; have := pdist_nonneg ((10 : ℝ), (0 : ℝ)) (10, 10); linarith)
      have hi : i = 0 := by
        by_contra hne
        obtain ⟨j, rfl⟩ := Nat.exists_eq_succ_of_ne_zero hne
        have m := arc_mono bend.pts (show 1 ≤ j + 1 by omega)
        have : Ln.length (bend.pts.take 2) = 10 := by
          show pdist (0, 0) (10, 0) + 0 = 10
          rw [hp10]; norm_num
        rw [show (1 : Nat) + 1 = 2 by rfl, this] at m
        have u5' : Ln.length (bend.pts.take (j + 1 + 1)) ≤ 9 := u5
        linarith
      rw [u2, hi]; rfl
    have h6 : ¬ (atCorner bend 9 = true) := by
      intro hc
      unfold atCorner at hc
      rw [h5] at hc
      have hl : lowerBound bend.s 9 = 1 := by
        have hs : bend.s = [0, 10, 10 + pdist ((10 : ℝ), (10 : ℝ)) (10, 0)] := by
          show table [((0 : ℝ), (0 : ℝ)), (10, 0), (10, 10)] = _
          unfold table
          simp only [sLoop]
          rw [pdist_self, pdist_comm (10, 0) (0, 0), hp10]
          norm_num
        rw [hs]
        unfold lowerBound
        norm_num [List.findIdx_cons]
      rw [hl] at hc
      exact absurd hc (by decide)
    unfold tangentAngleAtS at h1 ⊢
    have hb : back bend.s = .ok (Ln.length bend.pts) := back_eq t1 (by simp [bend, ofArray, recomputeS])
    rw [hb, Res.ok_bind] at h1 ⊢
    have hlen : ¬ Ln.length bend.pts ≤ 9 := by
      show ¬ (pdist (0, 0) (10, 0) + (pdist (10, 0) (10, 10) + 0) ≤ (9 : ℝ))
      rw [hp10]; have := pdist_nonneg ((10 : ℝ), (0 : ℝ)) (10, 10); push Not; linarith
    rw [if_neg hlen, if_neg (by norm_num), if_neg h6, h5]
    show (.ok (segAngle (0, 0) (10, 0)) : Res ℝ) = .ok 0
    unfold segAngle Dyn.atan2
    congr 1
    rw [Complex.arg_eq_zero_iff]
    norm_num
  obtain ⟨x, hx⟩ : ∃ x, toState id bend ⟨9, 5, v, 0, 0, 0⟩ = .ok x ∧ x.x = 9 ∧ x.y = 5 := by
    refine ⟨⟨0, 9 + Real.cos (0 + Real.pi / 2) * 5, 0 + Real.sin (0 + Real.pi / 2) * 5,
        normToPI id (Dyn.atan2 0 v + 0), Real.sqrt (v * v + 0 * 0)⟩, ?_, ?_, ?_⟩
    · unfold toState Goal.normalAtS
      simp only
      rw [pointAtS_eq t1 t2 hq, hθ, Res.ok_bind, Res.ok_bind, Res.ok_bind, Res.ok_bind]
    · simp
    · simp
  obtain ⟨hx0, hx1, hx2⟩ := hx
  obtain ⟨q, s, i, θ, n1, n2, n3⟩ := foot_exists t1 t2 t3 (x.x, x.y)
  refine ⟨x, _, hx0, hx1, hx2, by unfold ofState; rw [n1, Res.ok_bind, n2, Res.ok_bind], ?_, ?_⟩
  all_goals
    have hd : pdist (x.x, x.y) q ≤ 1 := by
      have := n3.2.1 (10, 5) ⟨1, (10, 0), (10, 10), 1 / 2, rfl, rfl, by norm_num, by norm_num, by unfold lerp; norm_num⟩
      rw [hx1, hx2] at this ⊢
      have e : pdist ((9 : ℝ), (5 : ℝ)) (10, 5) = 1 := by unfold pdist; norm_num
      rwa [e] at this
  · intro e
    have e' : s = 9 := e
    have hqq : q = (9, 0) := by
      have hl := C29_lipschitz bend.pts n3.1 hq
      rw [e', sub_self, abs_zero] at hl
      exact pdist_eq_zero.1 (le_antisymm hl (pdist_nonneg _ _))
    rw [hqq, hx1, hx2] at hd
    have : pdist ((9 : ℝ), (5 : ℝ)) (9, 0) = 5 := by
      unfold pdist; norm_num
      rw [show (25 : ℝ) = 5 * 5 by norm_num]
      exact Real.sqrt_mul_self (by norm_num)
    rw [this] at hd
    norm_num at hd
  · intro e
    have e' : latVal q (x.x, x.y) * sideSign id θ (sub (x.x, x.y) q) = 5 := e
    rw [latVal_eq] at e'
    have hs : sideSign id θ (sub (x.x, x.y) q) ≤ 1 := by
      unfold sideSign; split_ifs <;> norm_num
    have := pdist_nonneg (x.x, x.y) q
    nlinarith

end Bark.Fren
