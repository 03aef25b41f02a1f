import Verif.Model.Intersection
import Verif.Props.Angle
import Mathlib.Tactic.Linarith
import Mathlib.Algebra.Order.Archimedean.Real.Basic

/-! C87 – intersection behaviour ("right before left"). -/
namespace Bark.Inter
open Bark Angle Real

/-- a vehicle with heading `o` crosses from the right of one with heading `e` (it moves to the left of it) -/
def FromRight (e o : ℝ) : Prop := 0 < sin (o - e)
/-- it crosses from the left -/
def FromLeft (e o : ℝ) : Prop := sin (o - e) < 0

theorem sin_same {a b : ℝ} (h : Angle.Spec.SameDir a b) : sin a = sin b := by
  obtain ⟨k, rfl⟩ := h
  rw [show b + 2 * π * k = b + k * (2 * π) by ring]
  exact Real.sin_add_int_mul_two_pi b k

theorem diff_range (a b : ℝ) : -π ≤ signedAngleDiff id a b ∧ signedAngleDiff id a b < π ∧
    sin (signedAngleDiff id a b) = - sin (b - a) := by
  rw [signedAngleDiff_eq]
  obtain ⟨⟨h1, h2, h3⟩, _⟩ := C31_normToPI (a - b)
  refine ⟨h1, h2, ?_⟩
  rw [sin_same h3, ← Real.sin_neg]
  congr 1
  ring

/-- what `intersecting` finds: the first agent that meets the conditions, if no null agent comes before it -/
theorem intersecting_some {p : Prm} {cs : List Cand} {i : Nat} (h : intersecting p cs = some i) :
    ∃ pre c post, cs = pre ++ c :: post ∧ c.id = i ∧ c.otherLane = true ∧ c.other = true ∧
      p.angleDiff < signedAngleDiff id c.egoAngle c.angle ∧ c.sEgo < c.sOther ∧ c.sOther - c.sEgo < p.braking ∧
      ∀ x ∈ pre, ¬ (x.otherLane = true ∧ x.other = true ∧ p.angleDiff < signedAngleDiff id x.egoAngle x.angle ∧
        x.sEgo < x.sOther ∧ x.sOther - x.sEgo < p.braking) := by
  induction cs with
  | nil => cases h
  | cons c cs ih =>
    unfold intersecting at h
    by_cases g1 : c.alive = false
    · rw [if_pos g1] at h; cases h
    rw [if_neg g1] at h
    split_ifs at h with g2
    · injection h with h
      exact ⟨[], c, cs, rfl, h, g2.1, g2.2.1, g2.2.2.1, g2.2.2.2.1, g2.2.2.2.2, by simp⟩
    · obtain ⟨pre, x, post, e, k1, k2, k3, k4, k5, k6, k7⟩ := ih h
      refine ⟨c :: pre, x, post, by rw [e]; rfl, k1, k2, k3, k4, k5, k6, fun y hy => ?_⟩
      rcases List.mem_cons.1 hy with rfl | hy
      · exact g2
      · exact k7 y hy

/-- the loop returns the first prediction time with a hit -/
theorem checkLoop_some {p : Prm} {pred : ℝ → List Cand} {agents : Nat → Option Cur} {fuel : Nat} {t0 t : ℝ} {a : Cur}
    (h : checkLoop p pred agents fuel t0 = .ok (some (t, a))) :
    ∃ k : Nat, t = t0 + k * p.inc ∧ t < p.horizon ∧ (∃ i, intersecting p (pred t) = some i ∧ agents i = some a) ∧
      ∀ j < k, (intersecting p (pred (t0 + j * p.inc))).bind agents = none := by
  induction fuel generalizing t0 with
  | zero => cases h
  | succ fuel ih =>
    unfold checkLoop at h
    split_ifs at h with g
    swap
    · injection h with h; cases h
    cases hx : (intersecting p (pred t0)).bind agents with
    | some b =>
      rw [hx] at h
      simp only at h
      injection h with h
      injection h with h
      injection h with h1 h2
      subst h1
      subst h2
      refine ⟨0, by simp, g, ?_, by simp⟩
      exact Option.bind_eq_some_iff.1 hx
    | none =>
      rw [hx] at h
      simp only at h
      obtain ⟨k, k1, k2, k3, k4⟩ := ih h
      refine ⟨k + 1, by rw [k1]; push_cast; ring, k2, k3, fun j hj => ?_⟩
      cases j with
      | zero => simpa using hx
      | succ j =>
        have := k4 j (by omega)
        rw [show t0 + ((j + 1 : ℕ) : ℝ) * p.inc = t0 + p.inc + j * p.inc by push_cast; ring]
        exact this

/-- **C87** (who is braked for): the relative values are changed only if an agent was found at some prediction time, that agent *now*
crosses from the right (or heads exactly the opposite way), and then a standing obstacle at most as far as the leader so far is
put in. -/
theorem C87_brakes_only_for_right {p : Prm} {pred : ℝ → List Cand} {agents : Nat → Option Cur} {fuel : Nat} {egoAngle : ℝ}
    {found : Option (ℝ × Cur)} (h : checkLoop p pred agents fuel 0 = .ok found) (r : Idm.Rel)
    (hne : planRel egoAngle found r ≠ r) :
    ∃ (k : Nat) (i : Nat) (a : Cur), (k : ℝ) * p.inc < p.horizon ∧ agents i = some a ∧
      intersecting p (pred (k * p.inc)) = some i ∧
      (FromRight egoAngle a.angle ∨ sin (a.angle - egoAngle) = 0) ∧
      planRel egoAngle found r = ⟨min (a.vel * (k * p.inc)) r.distance, 0, r.leadAcc, true⟩ := by
  cases found with
  | none => exact absurd rfl hne
  | some x =>
    obtain ⟨t, a⟩ := x
    obtain ⟨k, k1, k2, ⟨i, k3, k4⟩, _⟩ := checkLoop_some h
    rw [zero_add] at k1
    subst k1
    refine ⟨k, i, a, k2, k4, k3, ?_⟩
    by_cases g : signedAngleDiff id egoAngle a.angle < 0
    · refine ⟨?_, by unfold planRel; simp only; rw [if_pos g]⟩
      obtain ⟨h1, h2, h3⟩ := diff_range egoAngle a.angle
      have : sin (signedAngleDiff id egoAngle a.angle) ≤ 0 := by
        have := Real.sin_nonneg_of_nonneg_of_le_pi (x := -signedAngleDiff id egoAngle a.angle) (by linarith) (by linarith)
        rw [Real.sin_neg] at this
        linarith
      rw [h3] at this
      rcases lt_or_eq_of_le (show (0 : ℝ) ≤ sin (a.angle - egoAngle) by linarith) with h | h
      · exact .inl h
      · exact .inr h.symm
    · exact absurd (by unfold planRel; simp only; rw [if_neg g]) hne

/-- **C87** (who is found): with a non-negative angle threshold (default 1.4) the agents found in the prediction cross from the
*left*. -/
theorem C87_finds_left {p : Prm} (hp : 0 ≤ p.angleDiff) {cs : List Cand} {i : Nat} (h : intersecting p cs = some i) :
    ∃ c ∈ cs, c.id = i ∧ FromLeft c.egoAngle c.angle := by
  obtain ⟨pre, c, post, e, k1, _, _, k4, _⟩ := intersecting_some h
  refine ⟨c, by rw [e]; simp, k1, ?_⟩
  obtain ⟨h1, h2, h3⟩ := diff_range c.egoAngle c.angle
  have := Real.sin_pos_of_pos_of_lt_pi (lt_of_le_of_lt hp k4) h2
  unfold FromLeft
  linarith

/-- **C87 is violated**: with a non-negative angle threshold the behaviour never brakes for a crossing vehicle as long as ego and
other vehicle keep their headings in the prediction (straight roads): those found come from the left, those braked for from the
right. -/
theorem C87_violated {p : Prm} (hp : 0 ≤ p.angleDiff) {pred : ℝ → List Cand} {agents : Nat → Option Cur} {fuel : Nat}
    {egoAngle : ℝ} {found : Option (ℝ × Cur)} (h : checkLoop p pred agents fuel 0 = .ok found)
    (hstraight : ∀ t, ∀ c ∈ pred t, c.egoAngle = egoAngle ∧ ∀ a, agents c.id = some a → a.angle = c.angle) (r : Idm.Rel) :
    planRel egoAngle found r = r := by
  cases found with
  | none => rfl
  | some x =>
    obtain ⟨t, a⟩ := x
    obtain ⟨k, k1, k2, ⟨i, k3, k4⟩, _⟩ := checkLoop_some h
    obtain ⟨pre, c, post, e, c1, _, _, c4, _⟩ := intersecting_some k3
    obtain ⟨s1, s2⟩ := hstraight t c (by rw [e]; simp)
    rw [c1] at s2
    rw [s1, ← s2 a k4] at c4
    unfold planRel
    simp only
    rw [if_neg (not_lt.2 (hp.trans c4.le))]

/-- a situation of that kind: a vehicle from the right 5 m ahead is ignored (it is not even found), one from the left is found -/
example : intersecting ⟨5, 1 / 2, 10, 7 / 5⟩ [⟨2, true, true, true, 0, 5, 0, π / 2⟩] = none ∧
    intersecting ⟨5, 1 / 2, 10, 7 / 5⟩ [⟨2, true, true, true, 0, 5, 0, -(π / 2)⟩] = some 2 ∧ FromRight 0 (π / 2) := by
  have hp := Real.pi_gt_d2
  have e1 : signedAngleDiff id 0 (π / 2) = -(π / 2) := by
    rw [signedAngleDiff_eq]
    exact ((C31_normToPI _).2 (-(π / 2)) (by linarith) (by linarith) ⟨0, by simp⟩).symm
  have e2 : signedAngleDiff id 0 (-(π / 2)) = π / 2 := by
    rw [signedAngleDiff_eq]
    exact ((C31_normToPI _).2 (π / 2) (by linarith) (by linarith) ⟨0, by simp⟩).symm
  refine ⟨?_, ?_, ?_⟩
  · simp only [intersecting, e1]
    rw [if_neg (by simp), if_neg]
    rintro ⟨_, _, h, _⟩
    linarith
  · simp only [intersecting, e2]
    rw [if_neg (by simp), if_pos]
    refine ⟨trivial, trivial, by linarith, by norm_num, by norm_num⟩
  · simp [FromRight]

/-- **C87** (termination): with a positive increment the loop ends; with an increment of zero or less, a positive horizon and nobody
found it never does. -/
theorem C87_termination (p : Prm) (pred : ℝ → List Cand) (agents : Nat → Option Cur) :
    (0 < p.inc → ∃ n r, ∀ fuel ≥ n, checkLoop p pred agents fuel 0 = .ok r) ∧
    (p.inc ≤ 0 → 0 < p.horizon → (∀ t, pred t = []) → ∀ n, checkLoop p pred agents n 0 = .error .diverges) := by
  constructor
  · intro hi
    obtain ⟨N, hN⟩ := exists_nat_gt (p.horizon / p.inc)
    have key : ∀ (m : Nat) (t : ℝ), p.horizon ≤ t + m * p.inc → ∃ r, ∀ fuel ≥ m + 1, checkLoop p pred agents fuel t = .ok r := by
      intro m
      induction m with
      | zero =>
        intro t ht
        refine ⟨none, fun fuel hf => ?_⟩
        obtain ⟨f, rfl⟩ := Nat.exists_eq_add_of_le' hf
        unfold checkLoop
        rw [if_neg]
        simp only [Nat.cast_zero, zero_mul, add_zero] at ht
        linarith
      | succ m ih =>
        intro t ht
        obtain ⟨r, hr⟩ := ih (t + p.inc) (by push_cast at ht; linarith)
        by_cases g : t < p.horizon
        · cases hx : (intersecting p (pred t)).bind agents with
          | some a =>
            refine ⟨some (t, a), fun fuel hf => ?_⟩
            obtain ⟨f, rfl⟩ := Nat.exists_eq_add_of_le' hf
            show checkLoop p pred agents ((f + (m + 1)) + 1) t = _
            unfold checkLoop
            rw [if_pos g, hx]
          | none =>
            refine ⟨r, fun fuel hf => ?_⟩
            obtain ⟨f, rfl⟩ := Nat.exists_eq_add_of_le' hf
            show checkLoop p pred agents ((f + (m + 1)) + 1) t = _
            unfold checkLoop
            rw [if_pos g, hx]
            exact hr _ (by omega)
        · refine ⟨none, fun fuel hf => ?_⟩
          obtain ⟨f, rfl⟩ := Nat.exists_eq_add_of_le' hf
          show checkLoop p pred agents ((f + (m + 1)) + 1) t = _
          unfold checkLoop
          rw [if_neg g]
    obtain ⟨r, hr⟩ := key N 0 (by rw [div_lt_iff₀ hi] at hN; linarith)
    exact ⟨N + 1, r, hr⟩
  · intro hi hh hp n
    have : ∀ n t, t ≤ 0 → checkLoop p pred agents n t = .error .diverges := by
      intro n
      induction n with
      | zero => intro t _; rfl
      | succ n ih =>
        intro t ht
        unfold checkLoop
        rw [if_pos (by linarith), hp]
        exact ih _ (by linarith)
    exact this n 0 le_rfl

end Bark.Inter
