import Verif.Spec.RigidDrive
import Verif.Props.Rigid
import Verif.Props.Angle
import Verif.Props.Steering
import Mathlib.Analysis.Convex.Hull

/-! C211: how a vehicle drives does not depend on the choice of the coordinate system. -/
namespace Bark.Rigid
open Bark.Ln Bark.Rigid.Spec Bark.Angle.Spec

/-! ### classic IDM -/

theorem planar_moved {M : Motion} {l l' : Line} (h : MovedLine M l l') (h2 : 2 ≤ l.pts.length) (hnd : Ln.Spec.NoDup l.pts)
    (hu : NoUTurn l.pts) {r : Idm.Row} {x : Fren.VState} (hx : Pick.planar l r = .ok x) :
    ∃ x', Pick.planar l' r = .ok x' ∧ MovedState M x x' := by
  unfold Pick.planar at hx ⊢
  rw [C210_point h h2]
  cases e1 : pointAtS l r.s with
  | error e => rw [e1] at hx; cases hx
  | ok p =>
    rw [e1] at hx
    simp only [Except.map] at hx ⊢
    cases e2 : tangentAngleAtS l r.s with
    | error e => rw [e2] at hx; cases hx
    | ok θ =>
      rw [e2] at hx
      obtain ⟨θ', g1, g2⟩ := C210_tangent h hnd hu _ _ e2
      rw [g1]
      simp only [Except.ok.injEq] at hx
      subst hx
      exact ⟨_, rfl, rfl, rfl, g2, rfl⟩

theorem planars_moved {M : Motion} {l l' : Line} (h : MovedLine M l l') (h2 : 2 ≤ l.pts.length) (hnd : Ln.Spec.NoDup l.pts)
    (hu : NoUTurn l.pts) {rs : List (ℝ × Idm.Row)} {xs : List Fren.VState} (hx : Pick.planars l rs = .ok xs) :
    ∃ xs', Pick.planars l' rs = .ok xs' ∧ List.Forall₂ (MovedState M) xs xs' := by
  induction rs generalizing xs with
  | nil =>
    simp only [Pick.planars, Except.ok.injEq] at hx
    subst hx
    exact ⟨[], rfl, .nil⟩
  | cons r rs ih =>
    unfold Pick.planars at hx
    cases e1 : Pick.planar l r.2 with
    | error e => rw [e1] at hx; cases hx
    | ok x =>
      rw [e1] at hx
      simp only at hx
      cases e2 : Pick.planars l rs with
      | error e => rw [e2] at hx; cases hx
      | ok ys =>
        rw [e2] at hx
        simp only [Except.ok.injEq] at hx
        subst hx
        obtain ⟨x', g1, g2⟩ := planar_moved h h2 hnd hu e1
        obtain ⟨ys', g3, g4⟩ := ih e2
        exact ⟨x' :: ys', by unfold Pick.planars; rw [g1]; simp only [g3], .cons g2 g4⟩

/-- C211: a vehicle following a lane with the classic IDM plans the same drive in any coordinate system. -/
theorem C211_classic {M : Motion} {l l' : Line} (h : MovedLine M l l') (h2 : 2 ≤ l.pts.length) (hnd : Ln.Spec.NoDup l.pts)
    (hu : NoUTurn l.pts) (p : Idm.Params) (r : Idm.Rel) (start dt : ℝ) {ego ego' : Fren.VState} (he : MovedState M ego ego')
    {xs : List Fren.VState} (hx : Pick.classic p l r start dt ego = .ok xs) :
    ∃ xs', Pick.classic p l' r start dt ego' = .ok xs' ∧ List.Forall₂ (MovedState M) xs xs' := by
  have hne : l.pts ≠ [] := by rw [← List.length_pos_iff]; omega
  have hne' : l'.pts ≠ [] := by rw [h.pts]; simpa using hne
  unfold Pick.classic at hx ⊢
  rw [if_neg hne] at hx
  rw [if_neg hne', he.pos, he.vel]
  have hn : nearestS l' (M.pt (ego.x, ego.y)) = nearestS l (ego.x, ego.y) := by
    unfold nearestS
    rw [C210_nearest h hne]
    cases nearest l (ego.x, ego.y) <;> rfl
  rw [hn]
  cases e1 : nearestS l (ego.x, ego.y) with
  | error e => rw [e1] at hx; cases hx
  | ok s0 =>
    rw [e1] at hx
    simp only at hx ⊢
    cases e2 : Idm.generate p r start dt s0 ego.vel with
    | error e => rw [e2] at hx; cases hx
    | ok rows =>
      rw [e2] at hx
      simp only at hx ⊢
      cases e3 : Pick.planars l rows with
      | error e => rw [e3] at hx; cases hx
      | ok ys =>
        rw [e3] at hx
        simp only [Except.ok.injEq] at hx
        subst hx
        obtain ⟨ys', g1, g2⟩ := planars_moved h h2 hnd hu e3
        exact ⟨ego' :: ys', by rw [g1], .cons he g2⟩

/-! ### the single track model -/

theorem moved_x {M : Motion} {x x' : Dyn.State} (h : MovedVec M x x') :
    x' 1 = Real.cos M.turn * x 1 - Real.sin M.turn * x 2 + M.dx ∧
    x' 2 = Real.sin M.turn * x 1 + Real.cos M.turn * x 2 + M.dy :=
  ⟨congrArg Prod.fst h.pos, congrArg Prod.snd h.pos⟩

theorem moved_trig {M : Motion} {a b : ℝ} (h : SameDir b (a + M.turn)) :
    Real.cos b = Real.cos a * Real.cos M.turn - Real.sin a * Real.sin M.turn ∧
    Real.sin b = Real.sin a * Real.cos M.turn + Real.cos a * Real.sin M.turn := by
  obtain ⟨t1, t2⟩ := Fren.trig_same h
  rw [t1, t2, Real.cos_add, Real.sin_add]
  exact ⟨rfl, rfl⟩

/-- `f'` does in the new coordinates what `f` does in the old ones: a derivative is a free vector -/
structure MovedField (M : Motion) (f f' : Dyn.State → Dyn.State) : Prop where
  time : ∀ x x', MovedVec M x x' → f' x' 0 = f x 0
  pos : ∀ x x', MovedVec M x x' → (f' x' 1, f' x' 2) = M.vec (f x 1, f x 2)
  rest : ∀ x x', MovedVec M x x' → ∀ i, 3 ≤ i → f' x' i = f x i

theorem field_single (M : Motion) (l a δ : ℝ) : MovedField M (Dyn.singleTrack l a δ) (Dyn.singleTrack l a δ) where
  time _ _ _ := rfl
  pos x x' h := by
    obtain ⟨t1, t2⟩ := moved_trig h.theta
    unfold Motion.vec Dyn.singleTrack
    simp only [h.rest 4 (le_refl _), t1, t2]
    ext <;> simp only <;> ring
  rest x x' h i hi := by
    match i, hi with
    | 3, _ => simp only [Dyn.singleTrack, h.rest 4 (le_refl _)]
    | 4, _ => rfl
    | n + 5, _ => rfl

theorem field_rate (M : Motion) (l a δ : ℝ) : MovedField M (Dyn.steeringRate l a δ) (Dyn.steeringRate l a δ) where
  time _ _ _ := rfl
  pos x x' h := by
    obtain ⟨t1, t2⟩ := moved_trig h.theta
    unfold Motion.vec Dyn.steeringRate
    simp only [h.rest 4 (le_refl _), t1, t2]
    ext <;> simp only <;> ring
  rest x x' h i hi := by
    match i, hi with
    | 3, _ => simp only [Dyn.steeringRate, h.rest 4 (le_refl _), h.rest 5 (by norm_num)]
    | 4, _ => rfl
    | 5, _ => rfl
    | n + 6, _ => rfl

/-- adding a moved increment -/
theorem moved_add {M : Motion} {x x' d d' : Dyn.State} (h : MovedVec M x x') (h0 : d' 0 = d 0)
    (hp : (d' 1, d' 2) = M.vec (d 1, d 2)) (hr : ∀ i, 3 ≤ i → d' i = d i) :
    MovedVec M (fun i => x i + d i) (fun i => x' i + d' i) := by
  obtain ⟨e1, e2⟩ := moved_x h
  have e3 : d' 1 = _ := congrArg Prod.fst hp
  have e4 : d' 2 = _ := congrArg Prod.snd hp
  simp only [Motion.vec] at e3 e4
  refine ⟨by simp only [h.time, h0], ?_, ?_, fun i hi => by simp only [h.rest i hi, hr i (by omega)]⟩
  · unfold Motion.pt
    simp only [e1, e2, e3, e4]
    ext <;> simp only <;> ring
  · obtain ⟨k, hk⟩ := h.theta
    exact ⟨k, by simp only [hk, hr 3 (le_refl _)]; ring⟩

theorem moved_scaled {M : Motion} {f f' : Dyn.State → Dyn.State} (hf : MovedField M f f') (c : ℝ) {x x' y y' : Dyn.State}
    (h : MovedVec M x x') (hy : MovedVec M y y') :
    MovedVec M (fun i => x i + c * f y i) (fun i => x' i + c * f' y' i) := by
  have e3 : f' y' 1 = _ := congrArg Prod.fst (hf.pos y y' hy)
  have e4 : f' y' 2 = _ := congrArg Prod.snd (hf.pos y y' hy)
  refine moved_add h (by simp only [hf.time y y' hy]) ?_ (fun i hi => by simp only [hf.rest y y' hy i hi])
  simp only [Motion.vec] at e3 e4 ⊢
  rw [e3, e4]
  ext <;> simp only <;> ring

theorem euler_moved {M : Motion} {f f' : Dyn.State → Dyn.State} (hf : MovedField M f f') (dt : ℝ) {x x' : Dyn.State}
    (h : MovedVec M x x') : MovedVec M (Dyn.euler id f dt x) (Dyn.euler id f' dt x') := by
  have g := moved_scaled hf dt h h
  refine ⟨g.time, g.pos, ?_, fun i hi => ?_⟩
  · have h1 := (Angle.C31_normToPI (x 3 + dt * f x 3)).1.2.2
    have h2 := (Angle.C31_normToPI (x' 3 + dt * f' x' 3)).1.2.2
    have h3 := g.theta
    simp only [Dyn.euler, if_true]
    obtain ⟨k, h1⟩ := h1
    obtain ⟨m, h2⟩ := h2
    obtain ⟨n, h3⟩ := h3
    exact ⟨n + m - k, by rw [h2, h3, h1]; push_cast; ring⟩
  · have := g.rest i hi
    simp only [Dyn.euler, if_neg (show i ≠ 3 by omega)]
    exact this

theorem rk4_moved {M : Motion} {f f' : Dyn.State → Dyn.State} (hf : MovedField M f f') (dt : ℝ) {x x' : Dyn.State}
    (h : MovedVec M x x') : MovedVec M (Dyn.rk4 f dt x) (Dyn.rk4 f' dt x') := by
  have e : ∀ (f : Dyn.State → Dyn.State) (x : Dyn.State), Dyn.rk4 f dt x =
      fun i => (((x i + dt / 6 * f x i) + dt / 3 * f (fun j => x j + dt / 2 * f x j) i) +
        dt / 3 * f (fun j => x j + dt / 2 * f (fun j => x j + dt / 2 * f x j) j) i) +
        dt / 6 * f (fun j => x j + dt * f (fun j => x j + dt / 2 * f (fun j => x j + dt / 2 * f x j) j) j) i := by
    intro f x
    have r : ∀ a b : ℝ, dt / 2 * a = dt * a / 2 := fun a b => by ring
    funext i
    unfold Dyn.rk4
    simp only [fun a : ℝ => (by ring : dt / 2 * a = dt * a / 2)]
    ring
  rw [e, e]
  have k0 := moved_scaled hf (dt / 2) h h
  have k1 := moved_scaled hf (dt / 2) h k0
  have k2 := moved_scaled hf dt h k1
  exact moved_scaled hf _ (moved_scaled hf _ (moved_scaled hf _ (moved_scaled hf _ h h) k0) k1) k2

/-- C211: a step of the single track model, in either integrator and with either kind of steering input, is the same step
in any coordinate system. -/
theorem C211_dynamics (M : Motion) (l a δ dt : ℝ) {x x' : Dyn.State} (h : MovedVec M x x') :
    MovedVec M (Dyn.euler id (Dyn.singleTrack l a δ) dt x) (Dyn.euler id (Dyn.singleTrack l a δ) dt x') ∧
    MovedVec M (Dyn.rk4 (Dyn.singleTrack l a δ) dt x) (Dyn.rk4 (Dyn.singleTrack l a δ) dt x') ∧
    MovedVec M (Dyn.euler id (Dyn.steeringRate l a δ) dt x) (Dyn.euler id (Dyn.steeringRate l a δ) dt x') ∧
    MovedVec M (Dyn.rk4 (Dyn.steeringRate l a δ) dt x) (Dyn.rk4 (Dyn.steeringRate l a δ) dt x') :=
  ⟨euler_moved (field_single M l a δ) dt h, rk4_moved (field_single M l a δ) dt h,
    euler_moved (field_rate M l a δ) dt h, rk4_moved (field_rate M l a δ) dt h⟩

/-! ### steering and lane tracking -/

theorem front_moved {M : Motion} (l : ℝ) {x x' : Dyn.State} (h : MovedVec M x x') :
    MovedState M (Str.front l x) (Str.front l x') := by
  obtain ⟨e1, e2⟩ := moved_x h
  obtain ⟨t1, t2⟩ := moved_trig h.theta
  refine ⟨h.time, ?_, h.theta, h.rest 4 (le_refl _)⟩
  unfold Str.front Motion.pt
  simp only [e1, e2, t1, t2]
  ext <;> simp only <;> ring

/-- C211: the steering angle towards a line is the same in any coordinate system, whatever the rounding to `float`. -/
theorem C211_steering {M : Motion} {l l' : Line} (h : MovedLine M l l') (hne : l.pts ≠ []) (hnd : Ln.Spec.NoDup l.pts)
    (hu : NoUTurn l.pts) (rnd : ℝ → ℝ) (m : Dyn.Steer) {x x' : Dyn.State} (hx : MovedVec M x x') (gain : ℝ) (limit : Bool)
    {δ : ℝ} (hδ : Str.steering rnd m l x gain limit = .ok δ) : Str.steering rnd m l' x' gain limit = .ok δ := by
  unfold Str.steering at hδ ⊢
  cases e1 : Fren.ofState rnd l (Str.front m.wheelBase x) with
  | error e => rw [e1] at hδ; cases hδ
  | ok f =>
    rw [e1] at hδ
    obtain ⟨f', g1, g2, g3, g4, g5, g6, g7⟩ := C210_frenet h hne hnd hu rnd (front_moved m.wheelBase hx) f e1
    rw [g1]
    simp only [bind, Except.bind] at hδ ⊢
    rw [g3, g6, hx.rest 4 (le_refl _)]
    exact hδ

theorem trackLoop_moved {M : Motion} (p : Idm.Params) (r : Idm.Rel) (wb : ℝ) {steer steer' : Dyn.State → ℝ}
    (hs : ∀ x x', MovedVec M x x' → steer' x' = steer x) (start dt v0 : ℝ) (n i : Nat) {x x' : Dyn.State} (hx : MovedVec M x x')
    (rel : ℝ) {xs : List Dyn.State} (h : Dyn.trackLoop id p r wb steer start dt v0 n i x rel = .ok xs) :
    ∃ xs', Dyn.trackLoop id p r wb steer' start dt v0 n i x' rel = .ok xs' ∧ List.Forall₂ (MovedVec M) xs xs' := by
  induction n generalizing i x x' rel xs with
  | zero =>
    simp only [Dyn.trackLoop, Except.ok.injEq] at h
    subst h
    exact ⟨[], rfl, .nil⟩
  | succ n ih =>
    unfold Dyn.trackLoop at h ⊢
    cases ha : Idm.totalAcc p r v0 rel with
    | error e => rw [ha] at h; cases h
    | ok a =>
      rw [ha] at h
      cases a with
      | fin acc =>
        simp only at h ⊢
        rw [hs x x' hx]
        have g := euler_moved (field_single M wb acc (steer x)) dt hx
        have g' : MovedVec M
            (fun j => if j = 4 then max (Dyn.euler id (Dyn.singleTrack wb acc (steer x)) dt x 4) p.minVel
              else if j = 0 then i * dt + start else Dyn.euler id (Dyn.singleTrack wb acc (steer x)) dt x j)
            (fun j => if j = 4 then max (Dyn.euler id (Dyn.singleTrack wb acc (steer x)) dt x' 4) p.minVel
              else if j = 0 then i * dt + start else Dyn.euler id (Dyn.singleTrack wb acc (steer x)) dt x' j) := by
          refine ⟨by simp, by simpa using g.pos, by simpa using g.theta, fun k hk => ?_⟩
          by_cases h4 : k = 4
          · subst h4
            simp only [if_true, g.rest 4 (le_refl _)]
          · simp only [if_neg h4, if_neg (show k ≠ 0 by omega), g.rest k hk]
        generalize ht : Dyn.trackLoop id p r wb steer start dt v0 n (i + 1) _ _ = w at h
        cases w with
        | error e => cases h
        | ok ys =>
          obtain ⟨ys', k1, k2⟩ := ih (i + 1) g' _ ht
          simp only [Except.ok.injEq] at h
          subst h
          rw [k1]
          exact ⟨_, rfl, .cons g' k2⟩
      | _ => cases h

/-- C211: a vehicle tracking a lane plans the same drive in any coordinate system. -/
theorem C211_lane_tracking {M : Motion} {l l' : Line} (h : MovedLine M l l') (hne : l.pts ≠ []) (hnd : Ln.Spec.NoDup l.pts)
    (hu : NoUTurn l.pts) (p : Idm.Params) (r : Idm.Rel) (m : Dyn.Steer) (gain : ℝ) (limit : Bool) {steer steer' : Dyn.State → ℝ}
    (hs : ∀ x, Str.steering id m l x gain limit = .ok (steer x)) (hs' : ∀ x, Str.steering id m l' x gain limit = .ok (steer' x))
    (start dt : ℝ) {ego ego' : Dyn.State} (he : MovedVec M ego ego') {xs : List Dyn.State}
    (hx : Dyn.laneTracking id p r m.wheelBase steer start dt ego = .ok xs) :
    ∃ xs', Dyn.laneTracking id p r m.wheelBase steer' start dt ego' = .ok xs' ∧ List.Forall₂ (MovedVec M) xs xs' := by
  have hst : ∀ x x', MovedVec M x x' → steer' x' = steer x := by
    intro x x' hxx
    have := C211_steering h hne hnd hu id m hxx gain limit (hs x)
    rw [hs' x', Except.ok.injEq] at this
    exact this
  unfold Dyn.laneTracking at hx ⊢
  simp only at hx ⊢
  have g : MovedVec M (fun j => if j = 0 then start else ego j) (fun j => if j = 0 then start else ego' j) := by
    refine ⟨by simp, by simpa using he.pos, by simpa using he.theta, fun k hk => ?_⟩
    simp only [if_neg (show k ≠ 0 by omega), he.rest k hk]
  rw [he.rest 4 (le_refl _)]
  generalize ht : Dyn.trackLoop id p r m.wheelBase steer start dt _ _ _ _ _ = w at hx
  cases w with
  | error e => cases hx
  | ok ys =>
    obtain ⟨ys', k1, k2⟩ := trackLoop_moved p r m.wheelBase hst start dt _ _ _ g _ ht
    simp only [Except.ok.injEq] at hx
    subst hx
    rw [k1]
    exact ⟨_, rfl, .cons g k2⟩

/-! ### bodies -/

/-- C211: the outline of a body whose shape is described about its reference point occupies the same place in any coordinate
system. -/
theorem C211_outline (M : Motion) (shape : Shape.Poly) (hc : shape.center.x = 0 ∧ shape.center.y = 0) {x y a x' y' a' : ℝ}
    (hp : (x', y') = M.pt (x, y)) (ha : SameDir a' (a + M.turn)) :
    (Shape.outlineAt shape x' y' a').pts = (Shape.outlineAt shape x y a).pts.map M.pt := by
  obtain ⟨t1, t2⟩ := moved_trig ha
  have e1 : x' = _ := congrArg Prod.fst hp
  have e2 : y' = _ := congrArg Prod.snd hp
  simp only [Motion.pt] at e1 e2
  unfold Shape.outlineAt Shape.transform
  simp only [List.map_map]
  refine List.map_congr_left (fun p _ => ?_)
  unfold Shape.shift Shape.clockwise Motion.pt
  simp only [Function.comp, hc.1, hc.2, Real.cos_neg, Real.sin_neg, t1, t2, e1, e2]
  ext <;> simp only <;> ring

/-- a change of coordinates as an affine map -/
noncomputable def affine (M : Motion) : Pt →ᵃ[ℝ] Pt where
  toFun := M.pt
  linear := { toFun := M.vec
              map_add' := fun u v => by unfold Motion.vec; ext <;> simp <;> ring
              map_smul' := fun c v => by unfold Motion.vec; ext <;> simp <;> ring }
  map_vadd' p v := by
    show M.pt (v + p) = M.vec v + M.pt p
    unfold Motion.vec Motion.pt
    ext <;> simp <;> ring

/-- C211: whether two bodies touch does not depend on the coordinate system. -/
theorem C211_contact (M : Motion) (s t : Shape.Poly) (hs : s.center.x = 0 ∧ s.center.y = 0) (ht : t.center.x = 0 ∧ t.center.y = 0)
    {x x' : Fren.VState} (hx : MovedState M x x') {y y' : Fren.VState} (hy : MovedState M y y') :
    (convexHull ℝ {p | p ∈ (Shape.outlineAt s x'.x x'.y x'.theta).pts} ∩
        convexHull ℝ {p | p ∈ (Shape.outlineAt t y'.x y'.y y'.theta).pts}).Nonempty ↔
      (convexHull ℝ {p | p ∈ (Shape.outlineAt s x.x x.y x.theta).pts} ∩
        convexHull ℝ {p | p ∈ (Shape.outlineAt t y.x y.y y.theta).pts}).Nonempty := by
  have e : ∀ ps : List Pt, convexHull ℝ {p | p ∈ ps.map M.pt} = M.pt '' convexHull ℝ {p | p ∈ ps} := by
    intro ps
    have h1 := (affine M).image_convexHull {p | p ∈ ps}
    have h2 : (affine M) '' {p | p ∈ ps} = {p | p ∈ ps.map M.pt} := by
      ext q
      simp only [Set.mem_image, Set.mem_setOf_eq, List.mem_map]
      rfl
    rw [h2] at h1
    exact h1.symm
  rw [C211_outline M s hs hx.pos hx.theta, C211_outline M t ht hy.pos hy.theta, e, e,
    ← Set.image_inter (fun a b h => pt_inj M h), Set.image_nonempty]

/-- C211 fails for a shape whose centre is not at its reference point: after a quarter turn of the coordinate system such a body
lies elsewhere. -/
theorem C211_centre_violated : ∃ (M : Motion) (shape : Shape.Poly) (x y a : ℝ),
    (Shape.outlineAt shape (M.pt (x, y)).1 (M.pt (x, y)).2 (a + M.turn)).pts ≠ (Shape.outlineAt shape x y a).pts.map M.pt := by
  refine ⟨⟨Real.pi / 2, 0, 0⟩, ⟨[(1, 0)], ⟨1, 0, 0⟩, 0, 0, 0, 0⟩, 0, 0, 0, fun h => ?_⟩
  unfold Shape.outlineAt Shape.transform Shape.shift Shape.clockwise Motion.pt at h
  simp only [List.map_cons, List.map_nil, List.cons.injEq, and_true, Prod.mk.injEq] at h
  have h1 := h.1
  simp at h1

theorem uturn_tangent {a b : Pt} (hab : a ≠ b) : tangentAngleAtS (ofArray [a, b, a]) (pdist a b) = .ok 0 := by
  have hd : 0 < pdist a b := lt_of_le_of_ne (pdist_nonneg a b) (fun e => hab (pdist_eq_zero.1 e.symm))
  have hs : (ofArray [a, b, a]).s = [0, pdist a b, pdist a b + pdist a b] := by
    show [0 + pdist a a, 0 + pdist a a + pdist b a, 0 + pdist a a + pdist b a + pdist a b] = _
    rw [pdist_eq_zero.2 (rfl : a = a), pdist_comm b a]
    simp only [zero_add]
  have hb : back (ofArray [a, b, a]).s = .ok (pdist a b + pdist a b) := by rw [hs]; rfl
  have hup : segmentEndIdx (ofArray [a, b, a]) (pdist a b) = 2 := by
    unfold segmentEndIdx upperBound
    rw [hs]
    simp [List.findIdx_cons, hd, not_lt.2 hd.le, not_le.2 hd]
  have hlo : lowerBound (ofArray [a, b, a]).s (pdist a b) = 1 := by
    unfold lowerBound
    rw [hs]
    simp [List.findIdx_cons, hd, not_lt.2 hd.le, not_le.2 hd]
  have hk : atCorner (ofArray [a, b, a]) (pdist a b) = true := by
    unfold atCorner
    rw [hup, hlo]
    rfl
  unfold tangentAngleAtS
  rw [hb, hup]
  simp only [bind, Except.bind]
  rw [if_neg (by linarith), if_neg (by linarith), if_pos hk]
  show Except.ok _ = _
  obtain ⟨c1, s1⟩ := segAngle_unit hab
  obtain ⟨c2, s2⟩ := segAngle_unit (Ne.symm hab)
  have g : ∀ u v : ℝ, u = 0 → v = 0 → (Except.ok (Dyn.atan2 u v) : Res ℝ) = .ok 0 := by
    rintro _ _ rfl rfl
    have : (⟨0, 0⟩ : ℂ) = 0 := rfl
    unfold Dyn.atan2
    rw [this, Complex.arg_zero]
  refine g _ _ ?_ ?_
  · rw [s1, s2]
    unfold Ln.Spec.unit
    simp only [pdist_comm b a]
    ring
  · rw [c1, c2]
    unfold Ln.Spec.unit
    simp only [pdist_comm b a]
    ring

/-- C210 fails at a point where a line turns back onto itself: the tangent direction reported there is that of the first axis,
whatever the axes. -/
theorem C210_uturn_violated : ∃ (M : Motion) (l l' : Line) (s θ θ' : ℝ), MovedLine M l l' ∧ Ln.Spec.NoDup l.pts ∧
    tangentAngleAtS l s = .ok θ ∧ tangentAngleAtS l' s = .ok θ' ∧ ¬ SameDir θ' (θ + M.turn) := by
  have hab : ((0, 0) : Pt) ≠ (1, 0) := fun e => by simpa using congrArg Prod.fst e
  refine ⟨⟨Real.pi, 0, 0⟩, ofArray [(0, 0), (1, 0), (0, 0)], ofArray ([(0, 0), (1, 0), (0, 0)].map (Motion.pt ⟨Real.pi, 0, 0⟩)),
    pdist (0, 0) (1, 0), 0, 0, ⟨tableRight_recompute _, tableRight_recompute _, rfl⟩, ?_, uturn_tangent hab, ?_, ?_⟩
  · show List.IsChain (· ≠ ·) _
    simp [ofArray, recomputeS]
  · rw [← pdist_pt ⟨Real.pi, 0, 0⟩]
    exact uturn_tangent (fun e => hab (pt_inj _ e))
  · rintro ⟨k, hk⟩
    simp only at hk
    have hp := Real.pi_pos
    have : (0 : ℝ) = Real.pi * (1 + 2 * k) := by linarith
    have h1 : (1 + 2 * k : ℝ) = 0 := by
      rcases mul_eq_zero.1 this.symm with h | h
      · exact absurd h hp.ne'
      · exact h
    have h2 : (1 + 2 * k : ℤ) = 0 := by exact_mod_cast h1
    omega

/-! ### a case that meets the hypotheses: a lane around a corner and the same lane in coordinates turned by 90° and shifted -/

/-- a lane around a corner -/
def cornerPts : List Pt := [(0, 0), (10, 0), (10, 10)]

example : ∃ (M : Motion) (l l' : Line) (x x' : Fren.VState) (f : Fren.FState), M.turn ≠ 0 ∧ MovedLine M l l' ∧ 2 < l.pts.length ∧
    Ln.Spec.NoDup l.pts ∧ NoUTurn l.pts ∧ MovedState M x x' ∧ x'.theta ≠ x.theta ∧ Fren.ofState id l x = .ok f := by
  have hnd : Ln.Spec.NoDup cornerPts := by
    show List.IsChain (· ≠ ·) _
    simp [cornerPts]
  obtain ⟨f, s, q, θ, h1, -⟩ := Str.ofState_total (ref := ofArray cornerPts) (tableRight_recompute _)
    (by simp [ofArray, recomputeS, cornerPts]) hnd ⟨0, 3, 1, 0, 5⟩
  refine ⟨⟨Real.pi / 2, 7, -4⟩, ofArray cornerPts, ofArray (cornerPts.map (Motion.pt ⟨Real.pi / 2, 7, -4⟩)), ⟨0, 3, 1, 0, 5⟩,
    ⟨0, 6, -1, Real.pi / 2, 5⟩, f, ?_, ⟨tableRight_recompute _, tableRight_recompute _, rfl⟩, ?_, hnd, ?_, ⟨rfl, ?_, ⟨0, ?_⟩, rfl⟩, ?_, h1⟩
  · have := Real.pi_pos; simp only; positivity
  · simp [ofArray, recomputeS, cornerPts]
  · intro i a b c ha hb hc e
    match i with
    | 0 =>
      simp only [ofArray, recomputeS, cornerPts, List.getElem?_cons_zero, List.getElem?_cons_succ, Option.some.injEq] at ha hb hc
      subst ha hb hc
      have := congrArg Prod.fst e
      simp [Ln.Spec.unit, pdist] at this
    | n + 1 => simp [ofArray, recomputeS, cornerPts] at hc
  · simp [Motion.pt]; constructor <;> norm_num
  · simp
  · have := Real.pi_pos; simp only; positivity

end Bark.Rigid
