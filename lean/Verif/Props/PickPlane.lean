import Verif.Props.Pick
import Verif.Props.Bounds

/-!
C199: trajectories of the IDM in the plane; examples for C198.
-/
namespace Bark.Pick
open Bark Bark.Ln Bark.Fren Bark.Ln.Spec Bark.Fren.Spec Bark.Pick.Spec

theorem at_exists {l : Line} (h : TableRight l) (h2 : 2 ≤ l.pts.length) (hnd : NoDup l.pts) (s : ℝ) : ∃ q, pointAtS l s = .ok q ∧ At l s q := by
  obtain ⟨q, hq, g1, g2, g3⟩ := C29_point_at_s h h2 s
  refine ⟨q, hq, ?_⟩
  have hL := length_nonneg l.pts
  unfold At
  rcases le_or_gt s 0 with h0 | h0
  · obtain ⟨q0, hq0, ha⟩ := pointAtS_atArc h h2 (le_refl (0 : ℝ)) hL
    obtain ⟨q1, hq1, f1, -, -⟩ := C29_point_at_s h h2 0
    rw [max_eq_left ((min_le_left _ _).trans h0)]
    have e1 : q1 = q0 := by rw [hq1] at hq0; simpa using hq0
    have e2 : q = q1 := by
      have := (g1 h0).symm.trans (f1 le_rfl)
      simpa using this
    rw [e2, e1]
    exact ha
  · rcases le_or_gt (Ln.length l.pts) s with h1 | h1
    · rw [min_eq_right h1, max_eq_right hL]
      obtain ⟨q0, hq0, ha⟩ := pointAtS_atArc h h2 hL le_rfl
      obtain ⟨q1, hq1, f1, f2, -⟩ := C29_point_at_s h h2 (Ln.length l.pts)
      have e1 : q1 = q0 := by rw [hq1] at hq0; simpa using hq0
      have e0 : 0 < Ln.length l.pts := Bnd.length_pos h2 hnd
      · have e2 : q = q1 := by
          have := (g2 h0 h1).symm.trans (f2 e0 le_rfl)
          simpa using this
        rw [e2, e1]
        exact ha
    · rw [min_eq_left h1.le, max_eq_right h0.le]
      exact g3 h0 h1

theorem planar_ok {l : Line} (h : TableRight l) (h2 : 2 ≤ l.pts.length) (hnd : NoDup l.pts) (r : Idm.Row) :
    ∃ x, planar l r = .ok x ∧ x.time = r.t ∧ x.vel = r.v ∧ At l r.s (x.x, x.y) ∧ tangentAngleAtS l r.s = .ok x.theta := by
  obtain ⟨q, hq, ha⟩ := at_exists h h2 hnd r.s
  obtain ⟨θ, hθ, -⟩ := C61_tangent h h2 hnd r.s
  refine ⟨⟨r.t, q.1, q.2, θ, r.v⟩, ?_, rfl, rfl, ha, hθ⟩
  simp only [planar, hq, hθ]

theorem along_loop {p : Idm.Params} (hp : Idm.Spec.Sane p) (hm : p.minVel ≤ p.maxVel) {r : Idm.Rel} {start dt v0 : ℝ}
    (hv : ¬ Idm.Spec.Singular p r v0) {l : Line} (h : TableRight l) (h2 : 2 ≤ l.pts.length) (hnd : NoDup l.pts) (n : Nat) :
    ∀ (i : Nat) (s v rel : ℝ), ∃ rows xs, Idm.genLoop p r start dt v0 n i s v rel = .ok rows ∧ planars l rows = .ok xs ∧ xs.length = n ∧
      Along l p.accLower p.accUpper p.minVel p.maxVel dt s v (start + ((i : ℝ) - 1) * dt) xs := by
  induction n with
  | zero => intro i s v rel; exact ⟨[], [], rfl, rfl, rfl, trivial⟩
  | succ n ih =>
    intro i s v rel
    obtain ⟨a, ha, b1, b2⟩ := Idm.C21_acc_within_bounds hp r v0 rel (fun _ => hv)
    obtain ⟨rows, xs, g1, g2, g3, g4⟩ := ih (i + 1) (s + (1 / 2 * a * dt * dt + v * dt)) (max (min (v + a * dt) p.maxVel) p.minVel)
      (Idm.nextDist r v0 rel a dt)
    obtain ⟨x, k1, k2, k3, k4, k5⟩ := planar_ok h h2 hnd
      ⟨i * dt + start, s + (1 / 2 * a * dt * dt + v * dt), max (min (v + a * dt) p.maxVel) p.minVel⟩
    refine ⟨(a, ⟨i * dt + start, s + (1 / 2 * a * dt * dt + v * dt), max (min (v + a * dt) p.maxVel) p.minVel⟩) :: rows, x :: xs, ?_, ?_, by simp [g3], a, s + (1 / 2 * a * dt * dt + v * dt), b1, b2, by ring, ?_, ?_, k4, k5, ?_⟩
    · unfold Idm.genLoop
      rw [show Idm.totalAcc p r v0 rel = .ok (.fin a) from ha]
      dsimp only
      rw [g1]
    · simp only [planars, k1, g2]
    · rw [k3, max_comm, min_comm]
    · rw [k2]; ring
    · rw [k3, k2]
      have e : start + (((i + 1 : Nat) : ℝ) - 1) * dt = (i : ℝ) * dt + start := by push_cast; ring
      rw [← e]
      exact g4

/-- The planned trajectory: the ego's state, then states of a vehicle driving along the centre line from the point nearest to the ego. -/
theorem C199_plane {p : Idm.Params} (hp : Idm.Spec.Sane p) (hn : 1 ≤ p.numPoints) (hm : p.minVel ≤ p.maxVel) {r : Idm.Rel} {start dt : ℝ} {ego : VState}
    (hv : ¬ Idm.Spec.Singular p r ego.vel) {l : Line} (h : TableRight l) (h2 : 2 ≤ l.pts.length) (hnd : NoDup l.pts) :
    ∃ s0 q0 xs, classic p l r start dt ego = .ok (ego :: xs) ∧ xs.length = p.numPoints - 1 ∧
      AtArc l.pts s0 q0 ∧ (∀ q', OnLine l.pts q' → pdist (pos ego) q0 ≤ pdist (pos ego) q') ∧
      Along l p.accLower p.accUpper p.minVel p.maxVel dt s0 ego.vel start xs := by
  obtain ⟨q0, s0, -, k2, k3, k4⟩ := Goal.C30_nearest_queries h h2 hnd (ego.x, ego.y)
  obtain ⟨rows, xs, g1, g2, g3, g4⟩ := along_loop hp hm hv h h2 hnd (start := start) (dt := dt) (p.numPoints - 1) 1 s0 ego.vel r.distance
  refine ⟨s0, q0, xs, ?_, g3, k3, k4, ?_⟩
  · have hne : l.pts ≠ [] := by intro e; rw [e] at h2; simp at h2
    unfold classic
    rw [if_neg hne, k2]
    simp only [Idm.generate, g1, g2]
  · simpa using g4

theorem along_online {l : Line} {lo hi vmin vmax dt : ℝ} : ∀ {s v t : ℝ} {xs : List VState}, Along l lo hi vmin vmax dt s v t xs →
    ∀ x ∈ xs, OnLine l.pts (pos x) ∧ vmin ≤ x.vel ∧ (vmin ≤ vmax → x.vel ≤ vmax)
  | _, _, _, [], _ => by simp
  | s, v, t, y :: ys, h => by
    obtain ⟨a, s', -, -, -, hv, -, hat, -, hr⟩ := h
    intro x hx
    rcases List.mem_cons.1 hx with rfl | hx
    · obtain ⟨i, a, b, t, k1, k2, k3, k4, k5, -⟩ := hat
      refine ⟨⟨i, a, b, t, k1, k2, k3, k4, k5⟩, by rw [hv]; exact le_max_left _ _, fun hm => ?_⟩
      rw [hv]; exact max_le hm (min_le_left _ _)
    · exact along_online hr x hx

theorem along_get {l : Line} {lo hi vmin vmax dt : ℝ} : ∀ {s v t : ℝ} {xs : List VState}, Along l lo hi vmin vmax dt s v t xs →
    ∀ (k : Nat) (x : VState), xs[k]? = some x → x.time = t + ((k : ℝ) + 1) * dt ∧
      ∃ s', At l s' (pos x) ∧ ∀ y, xs[k + 1]? = some y → ∃ a, lo ≤ a ∧ a ≤ hi ∧ At l (s' + x.vel * dt + a * dt ^ 2 / 2) (pos y) ∧
        y.vel = max vmin (min vmax (x.vel + a * dt))
  | _, _, _, [], _ => by intro k x hx; simp at hx
  | s, v, t, y :: ys, h => by
    obtain ⟨a, s', -, -, -, hv, ht, hat, -, hr⟩ := h
    intro k x hx
    cases k with
    | zero =>
      simp only [List.getElem?_cons_zero, Option.some.injEq] at hx
      subst hx
      refine ⟨by rw [ht]; push_cast; ring, s', hat, fun z hz => ?_⟩
      cases ys with
      | nil => simp at hz
      | cons w ws =>
        simp only [Nat.zero_add, List.getElem?_cons_succ, List.getElem?_cons_zero, Option.some.injEq] at hz
        subst hz
        obtain ⟨a', s'', c1, c2, c3, c4, -, c5, -, -⟩ := hr
        exact ⟨a', c1, c2, c3 ▸ c5, c4⟩
    | succ k =>
      rw [List.getElem?_cons_succ] at hx
      obtain ⟨g1, s2, g2, g3⟩ := along_get hr k x hx
      refine ⟨by rw [g1, ht]; push_cast; ring, s2, g2, fun z hz => ?_⟩
      rw [List.getElem?_cons_succ] at hz
      exact g3 z hz

theorem clamp_lip (L s s' : ℝ) : |max 0 (min s L) - max 0 (min s' L)| ≤ |s - s'| := by
  have h1 := abs_max_sub_max_le_max 0 (min s L) 0 (min s' L)
  have h2 := abs_min_sub_min_le_max s L s' L
  have e1 : max |(0 : ℝ) - 0| |min s L - min s' L| = |min s L - min s' L| := by
    rw [sub_self, abs_zero]; exact max_eq_right (abs_nonneg _)
  have e2 : max |s - s'| |L - L| = |s - s'| := by
    rw [sub_self, abs_zero]; exact max_eq_left (abs_nonneg _)
  rw [e1] at h1
  rw [e2] at h2
  exact h1.trans h2

/-- From the first planned state on the vehicle is on the centre line, its velocity is within the limits, it is stamped with the time of its step, and
consecutive states are not further apart than the vehicle gets with its velocity and an acceleration within the bounds. -/
theorem C199_steps {p : Idm.Params} (hp : Idm.Spec.Sane p) (hn : 1 ≤ p.numPoints) (hm : p.minVel ≤ p.maxVel) {r : Idm.Rel} {start dt : ℝ} {ego : VState}
    (hv : ¬ Idm.Spec.Singular p r ego.vel) {l : Line} (h : TableRight l) (h2 : 2 ≤ l.pts.length) (hnd : NoDup l.pts) :
    ∃ tr, classic p l r start dt ego = .ok tr ∧ tr.length = p.numPoints ∧ tr[0]? = some ego ∧
      ∀ (k : Nat) (x : VState), tr[k + 1]? = some x → x.time = start + ((k : ℝ) + 1) * dt ∧ OnLine l.pts (pos x) ∧ p.minVel ≤ x.vel ∧ x.vel ≤ p.maxVel ∧
        ∀ y, tr[k + 2]? = some y → ∃ a, p.accLower ≤ a ∧ a ≤ p.accUpper ∧ pdist (pos x) (pos y) ≤ |x.vel * dt + a * dt ^ 2 / 2| ∧
          y.vel = max p.minVel (min p.maxVel (x.vel + a * dt)) := by
  obtain ⟨s0, q0, xs, h1, h3, -, -, h4⟩ := C199_plane hp hn hm hv h h2 hnd (start := start) (dt := dt)
  refine ⟨_, h1, by rw [List.length_cons, h3]; omega, rfl, fun k x hx => ?_⟩
  rw [List.getElem?_cons_succ] at hx
  obtain ⟨g1, s', g2, g3⟩ := along_get h4 k x hx
  obtain ⟨g5, g6, g7⟩ := along_online h4 x (List.mem_of_getElem? hx)
  refine ⟨g1, g5, g6, g7 hm, fun y hy => ?_⟩
  rw [List.getElem?_cons_succ] at hy
  obtain ⟨a, c1, c2, c3, c4⟩ := g3 y hy
  refine ⟨a, c1, c2, ?_, c4⟩
  refine (C29_lipschitz l.pts g2 c3).trans ((clamp_lip _ _ _).trans (le_of_eq ?_))
  rw [abs_sub_comm]
  congr 1
  ring

/-- In the first step this does not hold: the vehicle is put on the centre line, however far away it was. -/
theorem C199_first_step_violated {p : Idm.Params} (hp : Idm.Spec.Sane p) (hn : 2 ≤ p.numPoints) (hm : p.minVel ≤ p.maxVel) {r : Idm.Rel} {start dt : ℝ} {ego : VState}
    (hv : ¬ Idm.Spec.Singular p r ego.vel) {l : Line} (h : TableRight l) (h2 : 2 ≤ l.pts.length) (hnd : NoDup l.pts) {d : ℝ}
    (hd : ∀ q, OnLine l.pts q → d ≤ pdist (pos ego) q) :
    ∃ x xs, classic p l r start dt ego = .ok (ego :: x :: xs) ∧ x.time = start + dt ∧ d ≤ pdist (pos ego) (pos x) := by
  obtain ⟨s0, q0, xs, h1, h3, -, -, h4⟩ := C199_plane hp (by omega) hm hv h h2 hnd (start := start) (dt := dt)
  cases xs with
  | nil => simp at h3; omega
  | cons x xs =>
    obtain ⟨g5, -, -⟩ := along_online h4 x List.mem_cons_self
    obtain ⟨g1, -⟩ := along_get h4 0 x rfl
    exact ⟨x, xs, h1, by rw [g1]; push_cast; ring, hd _ g5⟩

theorem stand_loop {p : Idm.Params} {r : Idm.Rel} {start dt v0 : ℝ} (hdt : 0 ≤ dt) (hv0 : 0 ≤ v0) (hlo : p.minVel ≤ v0) (hhi : v0 ≤ p.maxVel)
    (hacc : ∀ rel, Idm.totalAcc p r v0 rel = .ok (.fin 0)) {l : Line} (h : TableRight l) (h2 : 2 ≤ l.pts.length) (hnd : NoDup l.pts) {e : Pt}
    (he : l.pts.getLast? = some e) (n : Nat) :
    ∀ (i : Nat) (s rel : ℝ), Ln.length l.pts ≤ s → ∃ rows xs, Idm.genLoop p r start dt v0 n i s v0 rel = .ok rows ∧ planars l rows = .ok xs ∧
      xs.length = n ∧ ∀ x ∈ xs, pos x = e ∧ x.vel = v0 := by
  induction n with
  | zero => intro i s rel _; exact ⟨[], [], rfl, rfl, rfl, by simp⟩
  | succ n ih =>
    intro i s rel hs
    have hs' : Ln.length l.pts ≤ s + (1 / 2 * 0 * dt * dt + v0 * dt) := by
      have := mul_nonneg hv0 hdt
      linarith
    have hvv : max (min (v0 + 0 * dt) p.maxVel) p.minVel = v0 := by
      rw [zero_mul, add_zero, min_eq_left hhi, max_eq_left hlo]
    obtain ⟨rows, xs, g1, g2, g3, g4⟩ := ih (i + 1) (s + (1 / 2 * 0 * dt * dt + v0 * dt)) (Idm.nextDist r v0 rel 0 dt) hs'
    obtain ⟨q, hq, -, hq2, -⟩ := C29_point_at_s h h2 (s + (1 / 2 * 0 * dt * dt + v0 * dt))
    obtain ⟨θ, hθ, -⟩ := C61_tangent h h2 hnd (s + (1 / 2 * 0 * dt * dt + v0 * dt))
    have hqe : q = e := by
      have := (hq2 (lt_of_lt_of_le (Bnd.length_pos h2 hnd) hs') hs').symm.trans he
      simpa using this
    refine ⟨(0, ⟨i * dt + start, s + (1 / 2 * 0 * dt * dt + v0 * dt), v0⟩) :: rows, ⟨i * dt + start, q.1, q.2, θ, v0⟩ :: xs, ?_, ?_, by simp [g3], ?_⟩
    · unfold Idm.genLoop
      rw [hacc]
      dsimp only
      rw [hvv, g1]
    · simp only [planars, planar, hq, hθ, g2]
    · intro x hx
      rcases List.mem_cons.1 hx with rfl | hx
      · exact ⟨hqe, rfl⟩
      · exact g4 x hx

/-- Nor does the position follow the velocity at the end of the line: a vehicle that has reached it stays there while all its states report the
desired velocity. -/
theorem C199_end_violated {p : Idm.Params} (hp : Idm.Spec.Sane p) (hv0 : 0 ≤ p.desiredVel) (hlo : p.minVel ≤ p.desiredVel)
    (hhi : p.desiredVel ≤ p.maxVel) (hl : p.accLower ≤ 0) (hu : 0 ≤ p.accUpper) {r : Idm.Rel} (hr : r.hasLeader = false) {start dt : ℝ} (hdt : 0 ≤ dt)
    {l : Line} (h : TableRight l) (h2 : 2 ≤ l.pts.length) (hnd : NoDup l.pts) {e : Pt} (he : l.pts.getLast? = some e)
    (ego : VState) (hego : ∀ q s, AtArc l.pts s q → pdist (pos ego) e < pdist (pos ego) q ∨ s = Ln.length l.pts) (hvel : ego.vel = p.desiredVel) :
    ∃ xs, classic p l r start dt ego = .ok (ego :: xs) ∧ xs.length = p.numPoints - 1 ∧ ∀ x ∈ xs, pos x = e ∧ x.vel = p.desiredVel := by
  obtain ⟨q0, s0, -, k2, k3, k4⟩ := Goal.C30_nearest_queries h h2 hnd (ego.x, ego.y)
  have honl : OnLine l.pts e := by
    obtain ⟨q, hq, ha⟩ := at_exists h h2 hnd (Ln.length l.pts)
    obtain ⟨q', hq', -, hq2, -⟩ := C29_point_at_s h h2 (Ln.length l.pts)
    have hpos := Bnd.length_pos h2 hnd
    have e1 : q = q' := by rw [hq] at hq'; simpa using hq'
    have e2 : q' = e := by
      have := (hq2 hpos le_rfl).symm.trans he
      simpa using this
    rw [e1, e2] at ha
    obtain ⟨i, a, b, t, c1, c2, c3, c4, c5, -⟩ := ha
    exact ⟨i, a, b, t, c1, c2, c3, c4, c5⟩
  have hs : s0 = Ln.length l.pts := by
    rcases hego q0 s0 k3 with g | g
    · exact absurd (k4 e honl) (not_le.2 g)
    · exact g
  have hacc : ∀ rel, Idm.totalAcc p r p.desiredVel rel = .ok (.fin 0) := by
    intro rel
    have := Idm.free_value hp hr p.desiredVel rel
    rw [div_self hp.desired, one_pow, sub_self, mul_zero, min_eq_left hu, max_eq_left hl] at this
    exact this
  obtain ⟨rows, xs, g1, g2, g3, g4⟩ := stand_loop (start := start) hdt hv0 hlo hhi hacc h h2 hnd he (p.numPoints - 1) 1 s0 r.distance hs.ge
  refine ⟨xs, ?_, g3, g4⟩
  have hne : l.pts ≠ [] := by intro e; rw [e] at h2; simp at h2
  unfold classic
  rw [if_neg hne, k2]
  simp only [Idm.generate, hvel, g1, g2]

/-! ### Examples -/

/-- two parallel lanes along the x-axis, 4 m apart and 4 m wide -/
noncomputable def twoLanes : Roads Nat where
  line k := ofArray [(0, 4 * k), (100, 4 * k)]
  inside k q := 0 < q.1 ∧ q.1 < 100 ∧ 4 * (k : ℝ) - 2 < q.2 ∧ q.2 < 4 * k + 2

/-- a car of 5 m × 2 m, its reference point 1 m from the rear -/
def car : Shape.Poly := { center := ⟨0, 0, 0⟩, pts := [(-1, -1), (-1, 1), (4, 1), (4, -1), (-1, -1)], front := 4, rear := 1, left := 1, right := 1 }

theorem twoLanes_good (k : Nat) : TableRight (twoLanes.line k) ∧ 2 ≤ (twoLanes.line k).pts.length ∧ NoDup (twoLanes.line k).pts :=
  ofArray2 (by simp)

theorem tenth : 0.995 ≤ Real.cos (1 / 10) ∧ Real.cos (1 / 10) ≤ 1 ∧ 0.0998 ≤ Real.sin (1 / 10) ∧ Real.sin (1 / 10) ≤ 0.1 := by
  refine ⟨?_, Real.cos_le_one _, ?_, ?_⟩
  · have := Real.one_sub_sq_div_two_le_cos (x := (1 / 10 : ℝ)); norm_num at this ⊢; linarith
  · have := Real.sin_gt_sub_cube (x := (1 / 10 : ℝ)) (by norm_num); norm_num at this ⊢; linarith
  · have := Real.sin_le (x := (1 / 10 : ℝ)) (by norm_num); norm_num at this ⊢; linarith

/-- The documentation of the choice counts the front points of the vehicle only ("the other one is selected if the front points of the agent are within
the other lane corridor. This models an entering"). The code counts every outline point: a car that is leaving the lane 1, its front completely in lane 0,
still reacts to lane 1. -/
theorem C198_leaving_violated :
    reaction id twoLanes car ⟨0, 50, 1, -(1 / 10), 10⟩ (some 1) 0 = .ok 1 ∧
    ¬ Enters (twoLanes.inside 1) (car.pts.filter fun q => 0 < q.1) ⟨0, 50, 1, -(1 / 10), 10⟩ ∧
    Enters (twoLanes.inside 0) (car.pts.filter fun q => 0 < q.1) ⟨0, 50, 1, -(1 / 10), 10⟩ := by
  obtain ⟨c1, c2, s1, s2⟩ := tenth
  obtain ⟨h1, h2, h3⟩ := twoLanes_good 1
  have hf : (car.pts.filter fun q => 0 < q.1) = [(4, 1), (4, -1)] := by
    norm_num [car, List.filter_cons]
  refine ⟨?_, ?_, ?_⟩
  · obtain ⟨s, q, θ, lane, -, g1, g2, -⟩ := C198_reacts twoLanes (shape := car) rfl rfl ⟨0, 50, 1, -(1 / 10), 10⟩ 0 1 h1 h2 h3
    rw [g1, g2]
    left
    refine ⟨(-1, 1), by simp [car], ?_⟩
    simp only [twoLanes, Shape.Spec.placed, Real.cos_neg, Real.sin_neg]
    push_cast
    norm_num at c1 c2 s1 s2 ⊢
    refine ⟨?_, ?_, ?_, ?_⟩ <;> linarith
  · rw [hf]
    rintro ⟨p, hp, hi⟩
    simp only [twoLanes, Shape.Spec.placed, Real.cos_neg, Real.sin_neg] at hi
    simp only [List.mem_cons, List.not_mem_nil, or_false] at hp
    push_cast at hi
    norm_num at c1 c2 s1 s2
    rcases hp with rfl | rfl
    · have := hi.2.2.1; dsimp only at this; linarith
    · have := hi.2.2.1; dsimp only at this; linarith
  · rw [hf]
    refine ⟨(4, 1), by simp, ?_⟩
    simp only [twoLanes, Shape.Spec.placed, Real.cos_neg, Real.sin_neg]
    push_cast
    norm_num at c1 c2 s1 s2 ⊢
    refine ⟨?_, ?_, ?_, ?_⟩ <;> linarith

/-- hypotheses of `C198_reacts` met with a car that is completely in its lane and drives along it: it reacts to its own lane -/
example : reaction id twoLanes car ⟨0, 50, 0, 0, 10⟩ (some 1) 0 = .ok 0 := by
  obtain ⟨h1, h2, h3⟩ := twoLanes_good 1
  obtain ⟨s, q, θ, lane, hF, g1, -, g2⟩ := C198_reacts twoLanes (shape := car) rfl rfl ⟨0, 50, 0, 0, 10⟩ 0 1 h1 h2 h3
  rw [g1, g2]
  · rintro ⟨p, hp, hi⟩
    simp only [car, List.mem_cons, List.not_mem_nil, or_false] at hp
    have hi' := hi.2.2.1
    simp only [Shape.Spec.placed, Real.cos_zero, Real.sin_zero] at hi'
    push_cast at hi'
    rcases hp with rfl | rfl | rfl | rfl | rfl <;> norm_num at hi'
  · intro hap
    obtain ⟨θ', ht, c, hc, hd⟩ := tangent2 (a := (0, 4 * ((1 : Nat) : ℝ))) (b := (100, 4 * ((1 : Nat) : ℝ))) (by simp) s
    have e : θ = θ' := by
      have := hF.2.2
      rw [show twoLanes.line 1 = ofArray [(0, 4 * ((1 : Nat) : ℝ)), (100, 4 * ((1 : Nat) : ℝ))] from rfl, ht] at this
      simpa using this.symm
    subst e
    have hs0 : Real.sin θ = 0 := by
      have := congrArg Prod.snd hd
      simp only [vec, sub_self] at this
      rcases mul_eq_zero.1 this.symm with h | h
      · exact absurd h hc.ne'
      · exact h
    have hc0 : 0 < Real.cos θ := by
      have := congrArg Prod.fst hd
      simp only [vec, sub_zero] at this
      by_contra hn
      have := mul_nonpos_of_nonneg_of_nonpos hc.le (not_lt.1 hn)
      linarith
    have hc1 : Real.cos θ = 1 := by
      have := Real.sin_sq_add_cos_sq θ
      rw [hs0] at this
      nlinarith
    obtain ⟨k, hk⟩ := (Real.cos_eq_one_iff θ).1 hc1
    have := hap 0 ⟨k, by rw [← hk]; ring⟩
    norm_num at this

/-- hypotheses of `C199_steps` met -/
example : ∃ tr, classic Idm.wp (ofArray [(0, 0), (100, 0)]) ⟨0, 10 ^ 6, 0, false⟩ 0 (1 / 10) ⟨0, 5, 3, 0, 0⟩ = .ok tr ∧ tr.length = 11 := by
  obtain ⟨h1, h2, h3⟩ := ofArray2 (a := (0, 0)) (b := (100, 0)) (by simp)
  obtain ⟨tr, g1, g2, -⟩ := C199_steps Idm.wp_sane (by simp [Idm.wp]) (by simp [Idm.wp]) (r := ⟨0, 10 ^ 6, 0, false⟩) (start := 0) (dt := 1 / 10)
    (ego := ⟨0, 5, 3, 0, 0⟩) (fun hs => absurd hs.2.1 (by simp)) h1 h2 h3
  exact ⟨tr, g1, g2⟩

/-- the jump: a standing vehicle 3 m beside its lane moves at least 3 m in the first step, however short the step -/
theorem C199_jump_witness (dt : ℝ) : ∃ x xs, classic Idm.wp (ofArray [(0, 0), (100, 0)]) ⟨0, 10 ^ 6, 0, false⟩ 0 dt ⟨0, 5, 3, 0, 0⟩ = .ok (⟨0, 5, 3, 0, 0⟩ :: x :: xs) ∧
    3 ≤ pdist (5, 3) (pos x) := by
  obtain ⟨h1, h2, h3⟩ := ofArray2 (a := (0, 0)) (b := (100, 0)) (by simp)
  obtain ⟨x, xs, g1, -, g2⟩ := C199_first_step_violated Idm.wp_sane (by simp [Idm.wp]) (by simp [Idm.wp]) (r := ⟨0, 10 ^ 6, 0, false⟩) (start := 0) (dt := dt)
    (ego := ⟨0, 5, 3, 0, 0⟩) (fun hs => absurd hs.2.1 (by simp)) h1 h2 h3 (d := 3) (fun q hq => by
      obtain ⟨i, a, b, t, c1, c2, -, -, rfl⟩ := hq
      have hi : i = 0 := by
        have := (List.getElem?_eq_some_iff.1 c2).1
        have : i + 1 < 2 := this
        omega
      subst hi
      have ea : a = (0, 0) := by
        have : some (0, 0) = some a := c1
        simpa using this.symm
      have eb : b = (100, 0) := by
        have : some (100, 0) = some b := c2
        simpa using this.symm
      subst ea eb
      unfold pdist pos
      refine Real.le_sqrt_of_sq_le ?_
      simp only [lerp]
      nlinarith [mul_self_nonneg (5 - (0 + t * (100 - 0)))])
  exact ⟨x, xs, g1, g2⟩

/-- hypotheses of `C199_end_violated` met: a vehicle at the end of its lane -/
example (dt : ℝ) (hdt : 0 ≤ dt) : ∃ xs, classic Idm.wp (ofArray [(0, 0), (100, 0)]) ⟨0, 10 ^ 6, 0, false⟩ 0 dt ⟨0, 100, 0, 0, 15⟩ = .ok (⟨0, 100, 0, 0, 15⟩ :: xs) ∧
    xs.length = 10 ∧ ∀ x ∈ xs, pos x = (100, 0) ∧ x.vel = 15 := by
  obtain ⟨h1, h2, h3⟩ := ofArray2 (a := (0, 0)) (b := (100, 0)) (by simp)
  exact C199_end_violated Idm.wp_sane (by norm_num [Idm.wp]) (by norm_num [Idm.wp]) (by norm_num [Idm.wp]) (by norm_num [Idm.wp]) (by norm_num [Idm.wp]) rfl hdt
    h1 h2 h3 (e := (100, 0)) rfl ⟨0, 100, 0, 0, 15⟩ (fun q s ha => by
      obtain ⟨t, t0, t1, rfl, rfl⟩ := atArc2 ha
      have hl : Ln.length (ofArray [((0 : ℝ), (0 : ℝ)), (100, 0)]).pts = pdist (0, 0) (100, 0) := length2 _ _
      rw [hl]
      rcases eq_or_lt_of_le t1 with rfl | t1
      · right; ring
      · left
        have : pdist (pos ⟨0, 100, 0, 0, 15⟩) (100, 0) = 0 := pdist_eq_zero.2 rfl
        rw [this]
        refine lt_of_le_of_ne (pdist_nonneg _ _) (fun h => ?_)
        have := pdist_eq_zero.1 h.symm
        have := congrArg Prod.fst this
        simp only [pos, lerp] at this
        linarith) rfl

end Bark.Pick
