import Verif.Props.Traffic

/-!
C202: lanes whose centre line is a polyline that does not meet itself.
-/
set_option linter.unusedSectionVars false
namespace Bark.Flow
open Bark Bark.Ln Bark.Ln.Spec Bark.Fren Bark.Flow.Spec Bark.Angle

variable {Box Lane : Type}

/-- the tangent angle and the heading are the same direction -/
theorem heading_dir {pts : List Pt} (hp : Simple pts) {s θ τ : ℝ} (hh : Heading pts s θ) (ht : tangentAngleAtS (ofArray pts) s = .ok τ) :
    ∃ d, HasDir d θ ∧ HasDir d τ := by
  obtain ⟨τ', e, c1, c2, c3, c4⟩ := C61_tangent (l := ofArray pts) (tableRight_recompute _) hp.two hp.noDup s
  rw [ht] at e
  cases e
  rcases hh with ⟨rfl, a, b, h1, h2, h3⟩ | ⟨rfl, a, b, h1, h2, h3⟩ | ⟨i, a, b, h1, h2, h3, h4, h5⟩ | ⟨i, a, b, c, h1, h2, h3, h4, h5⟩
  · exact ⟨_, h3, c1 (le_refl _) a b h1 h2⟩
  · exact ⟨_, h3, c2 (le_refl _) a b h1 h2⟩
  · exact ⟨_, h5, c3 i a b h1 h2 h3 h4⟩
  · exact ⟨_, h5, c4 i a b c h1 h2 h3 h4 (hp.spike i a b c h1 h2 h3)⟩

/-- the tangent angle is a heading -/
theorem tangent_heading {pts : List Pt} (hp : Simple pts) {s τ : ℝ} {p : Pt} (ha : AtArc pts s p) (ht : tangentAngleAtS (ofArray pts) s = .ok τ) : Heading pts s τ := by
  obtain ⟨τ', e, c1, c2, c3, c4⟩ := C61_tangent (l := ofArray pts) (tableRight_recompute _) hp.two hp.noDup s
  rw [ht] at e
  cases e
  have hlen := hp.two
  have g : ∀ i (hi : i < pts.length), pts[i]? = some pts[i] := fun i hi => List.getElem?_eq_getElem hi
  obtain ⟨i, a, b, t, h1, h2, t0, t1, -, hs⟩ := ha
  have hi : i + 1 < pts.length := (List.getElem?_eq_some_iff.1 h2).1
  have hd := pdist_pos (noDup_seg hp.noDup h1 h2)
  have hstep := arc_step pts i a b h1 h2
  have corner : ∀ k, k + 2 < pts.length → s = Ln.length (pts.take (k + 2)) → Heading pts s τ := fun k hk e =>
    Or.inr (Or.inr (Or.inr ⟨k, pts[k], pts[k + 1], pts[k + 2], g _ (by omega), g _ (by omega), g _ hk, e,
      c4 k _ _ _ (g _ (by omega)) (g _ (by omega)) (g _ hk) e (hp.spike k _ _ _ (g _ (by omega)) (g _ (by omega)) (g _ hk))⟩))
  rcases t0.eq_or_lt with e | t0
  · rw [← e, zero_mul, add_zero] at hs
    cases i with
    | zero =>
      have z : s = 0 := by
        rw [hs]
        obtain ⟨x, r, hx⟩ := List.exists_cons_of_ne_nil (show pts ≠ [] by rw [← List.length_pos_iff]; omega)
        rw [hx]
        rfl
      exact Or.inl ⟨z, a, b, h1, h2, c1 z.le a b h1 h2⟩
    | succ k => exact corner k (by omega) hs
  · rcases t1.eq_or_lt with e | t1
    · rw [e, one_mul, ← hstep] at hs
      by_cases hl : i + 2 < pts.length
      · exact corner i hl hs
      · have hl' : pts.length = i + 2 := by omega
        have hz : s = Ln.length pts := by rw [hs, ← hl', List.take_length]
        have e1 : pts[pts.length - 2]? = some a := by rw [hl']; exact h1
        have e2 : pts[pts.length - 1]? = some b := by rw [hl']; exact h2
        exact Or.inr (Or.inl ⟨hz, a, b, e1, e2, c2 hz.ge a b e1 e2⟩)
    · have k1 : Ln.length (pts.take (i + 1)) < s := by rw [hs]; linarith [mul_pos t0 hd]
      have k2 : s < Ln.length (pts.take (i + 2)) := by
        rw [hs, hstep]
        have := mul_lt_mul_of_pos_right t1 hd
        linarith
      exact Or.inr (Or.inr (Or.inl ⟨i, a, b, h1, h2, k1, k2, c3 i a b h1 h2 k1 k2⟩))

theorem setting_winding {u : Setup Box Lane} {lane : Lane} {pts : List Pt} (hu : Winding u lane pts) : Setting u lane (Ln.length pts) (alongAt pts) := by
  have hp := hu.simple
  have htr : TableRight (ofArray pts) := tableRight_recompute _
  have near : ∀ s p, AtArc pts s p → ∃ i, nearest (ofArray pts) p = .ok (p, s, i) := by
    intro s p ha
    obtain ⟨q, s', i, τ, k1, -, k4⟩ := foot_exists htr hp.two hp.noDup p
    have hon : OnLine pts p := by
      obtain ⟨i, a, b, t, h1, h2, h3, h4, h5, -⟩ := ha
      exact ⟨i, a, b, t, h1, h2, h3, h4, h5⟩
    have hq : p = q := by
      have := k4.2.1 p hon
      rw [pdist_eq_zero.2 rfl] at this
      exact pdist_eq_zero.1 (le_antisymm this (pdist_nonneg _ _))
    subst hq
    have hs : s' = s := hp.once s' s p k4.1 ha
    subst hs
    exact ⟨i, k1⟩
  refine ⟨hu.toDefault, ?_, hu.big, ?_, ?_, ?_, ?_⟩
  · rintro s p θ - - ⟨⟨i, a, b, t, h1, h2, h3, h4, h5, -⟩, -⟩
    exact hu.corridor p ⟨i, a, b, t, h1, h2, h3, h4, h5⟩
  · rw [hu.line]
    intro h
    have h' : pts = [] := h
    have := hp.two
    rw [h'] at this
    simp at this
  · rintro s p θ t v - - ⟨ha, hh⟩
    rw [hu.line]
    obtain ⟨i, hn⟩ := near s p ha
    obtain ⟨τ, ht, -⟩ := C61_tangent htr hp.two hp.noDup s
    obtain ⟨d, d1, d2⟩ := heading_dir hp hh ht
    unfold frenetOf ofState entries
    dsimp only
    rw [Prod.mk.eta, hn, Res.ok_bind]
    dsimp only
    rw [ht, Res.ok_bind]
    dsimp only
    rw [turn_zero d1 d2, turn_zero d2 d1]
    simp [latVal]
  · rintro s p θ - - ⟨ha, -⟩
    rw [hu.line]
    obtain ⟨i, hn⟩ := near s p ha
    unfold nearestS
    rw [hn, Res.ok_bind]
  · intro s
    rw [hu.line]
    obtain ⟨p, hpt, -⟩ := C29_point_at_s htr hp.two s
    obtain ⟨τ, ht, -⟩ := C61_tangent htr hp.two hp.noDup s
    refine ⟨p, τ, hpt, ht, fun h0 h1 => ?_⟩
    obtain ⟨q, hq, ha⟩ := pointAtS_atArc htr hp.two h0 h1
    rw [hpt] at hq
    cases hq
    exact ⟨ha, tangent_heading hp ha ht⟩

end Bark.Flow
