import Verif.Spec.Shape
import Mathlib.Tactic.Linarith
import Mathlib.Tactic.Ring
import Mathlib.Tactic.NormNum
import Mathlib.Tactic.LinearCombination

/-!
C151–C153: transformations of shapes, outlines of vehicles, extents of shapes.
-/
set_option linter.unusedSectionVars false
namespace Bark.Shape
open Real

theorem forall₂_map_self {α β : Type} (f : α → β) (R : α → β → Prop) (l : List α) (h : ∀ x ∈ l, R x (f x)) :
    List.Forall₂ R l (l.map f) := by
  induction l with
  | nil => exact List.Forall₂.nil
  | cons x l ih =>
    exact List.Forall₂.cons (h x (by simp)) (ih fun y hy => h y (by simp [hy]))

/-! ### C151 -/

/-- C151: a transformed shape has moved as a rigid body: its center pose is shifted by the given one and every point has
the same position relative to the center pose as before -/
theorem C151_rigid (s : Poly) (q : Pose) :
    (transform s q).center = Spec.plus s.center q ∧
    List.Forall₂ (fun p p' => Spec.ahead (transform s q).center p' = Spec.ahead s.center p ∧
      Spec.leftward (transform s q).center p' = Spec.leftward s.center p) s.pts (transform s q).pts := by
  refine ⟨rfl, forall₂_map_self _ _ _ fun p _ => ?_⟩
  have h := sin_sq_add_cos_sq q.a
  simp only [transform, Spec.ahead, Spec.leftward, shift, clockwise, cos_add, sin_add, cos_neg, sin_neg]
  constructor
  · linear_combination (cos s.center.a * (p.1 - s.center.x) + sin s.center.a * (p.2 - s.center.y)) * h
  · linear_combination (cos s.center.a * (p.2 - s.center.y) - sin s.center.a * (p.1 - s.center.x)) * h

/-- relative positions determine the point -/
theorem frame_inj (c : Pose) {p q : Pt} (h1 : Spec.ahead c p = Spec.ahead c q)
    (h2 : Spec.leftward c p = Spec.leftward c q) : p = q := by
  have h := sin_sq_add_cos_sq c.a
  unfold Spec.ahead at h1
  unfold Spec.leftward at h2
  refine Prod.ext ?_ ?_
  · linear_combination cos c.a * h1 - sin c.a * h2 - (p.1 - q.1) * h
  · linear_combination sin c.a * h1 + cos c.a * h2 - (p.2 - q.2) * h

theorem frame_dist (c : Pose) (p q : Pt) :
    Spec.dist2 p q = (Spec.ahead c p - Spec.ahead c q) ^ 2 + (Spec.leftward c p - Spec.leftward c q) ^ 2 := by
  have h := sin_sq_add_cos_sq c.a
  unfold Spec.dist2 Spec.ahead Spec.leftward
  linear_combination -((p.1 - q.1) ^ 2 + (p.2 - q.2) ^ 2) * h

theorem forall₂_get {α β : Type} {R : α → β → Prop} {l : List α} {l' : List β} (h : List.Forall₂ R l l') (i : Nat) :
    ∀ x y, l[i]? = some x → l'[i]? = some y → R x y := by
  induction h generalizing i with
  | nil => intro x y hx; simp at hx
  | cons hab _ ih =>
    intro x y hx hy
    cases i with
    | zero => simp at hx hy; subst hx hy; exact hab
    | succ i => exact ih i x y (by simpa using hx) (by simpa using hy)

/-- C151: distances between points of the shape are kept -/
theorem C151_distances (s : Poly) (q : Pose) (i j : Nat) (p1 p2 p1' p2' : Pt) (h1 : s.pts[i]? = some p1)
    (h2 : s.pts[j]? = some p2) (h1' : (transform s q).pts[i]? = some p1') (h2' : (transform s q).pts[j]? = some p2') :
    Spec.dist2 p1' p2' = Spec.dist2 p1 p2 := by
  obtain ⟨-, h⟩ := C151_rigid s q
  obtain ⟨a1, a2⟩ := forall₂_get h i p1 p1' h1 h1'
  obtain ⟨b1, b2⟩ := forall₂_get h j p2 p2' h2 h2'
  rw [frame_dist (transform s q).center, frame_dist s.center, a1, a2, b1, b2]

theorem poly_ext {s t : Poly} (h1 : s.pts = t.pts) (h2 : s.center = t.center) (h3 : s.front = t.front)
    (h4 : s.rear = t.rear) (h5 : s.left = t.left) (h6 : s.right = t.right) : s = t := by
  cases s; cases t; simp_all

/-- C151: transforming twice is transforming by the sum of the poses -/
theorem C151_additive (s : Poly) (q r : Pose) : transform (transform s q) r = transform s (Spec.plus q r) := by
  refine poly_ext ?_ ?_ rfl rfl rfl rfl
  · simp only [transform, List.map_map]
    apply List.map_congr_left
    intro p _
    simp only [Function.comp, shift, clockwise, Spec.plus, neg_add, cos_add, sin_add, cos_neg, sin_neg, Prod.mk.injEq]
    constructor <;> ring
  · simp only [transform, Spec.plus, Pose.mk.injEq]
    refine ⟨by ring, by ring, by ring⟩

/-- C151: the zero pose changes nothing -/
theorem C151_zero (s : Poly) : transform s ⟨0, 0, 0⟩ = s := by
  refine poly_ext ?_ ?_ rfl rfl rfl rfl
  · simp only [transform]
    conv_rhs => rw [← List.map_id s.pts]
    apply List.map_congr_left
    intro p _
    simp only [shift, clockwise, neg_zero, cos_zero, sin_zero, id]
    refine Prod.ext ?_ ?_ <;> simp
  · simp [transform]

/-- C151: hence the opposite pose undoes a transformation -/
theorem C151_undo (s : Poly) (q : Pose) : transform (transform s q) (Spec.minus q) = s := by
  rw [C151_additive]
  have : Spec.plus q (Spec.minus q) = ⟨0, 0, 0⟩ := by simp [Spec.plus, Spec.minus]
  rw [this, C151_zero]

/-- C151: rotating and translating are the transformations without the other part -/
theorem C151_parts (s : Poly) (a : ℝ) (t : Pt) :
    rotate s a = transform s ⟨0, 0, a⟩ ∧ translate s t = transform s ⟨t.1, t.2, 0⟩ := by
  constructor
  · refine poly_ext ?_ ?_ rfl rfl rfl rfl
    · simp only [rotate, transform, add_zero]
    · simp only [rotate, transform, add_zero]
  · refine poly_ext ?_ ?_ rfl rfl rfl rfl
    · simp only [translate, transform]
      apply List.map_congr_left
      intro p _
      simp only [shift, clockwise, neg_zero, cos_zero, sin_zero, Prod.mk.injEq]
      constructor <;> ring
    · simp only [translate, transform, add_zero]

theorem shoelace_cons2 (p q : Pt) (ps : List Pt) :
    shoelace (p :: q :: ps) = (p.1 * q.2 - q.1 * p.2) + shoelace (q :: ps) := rfl

/-- the shoelace sum of a list moved by an affine map -/
theorem shoelace_affine (a b c d u v : ℝ) (f : Pt → Pt)
    (hf : ∀ p, f p = (a * p.1 + b * p.2 + u, c * p.1 + d * p.2 + v)) (ps : List Pt) :
    ∀ p, shoelace ((p :: ps).map f) = (a * d - b * c) * shoelace (p :: ps) +
      (u * (c * ((p :: ps).getLast (by simp)).1 + d * ((p :: ps).getLast (by simp)).2 - (c * p.1 + d * p.2)) -
       v * (a * ((p :: ps).getLast (by simp)).1 + b * ((p :: ps).getLast (by simp)).2 - (a * p.1 + b * p.2))) := by
  induction ps with
  | nil =>
    intro p
    simp only [List.map_cons, List.map_nil, shoelace, List.getLast_singleton]
    ring
  | cons q ps ih =>
    intro p
    rw [List.map_cons, List.map_cons, shoelace_cons2, shoelace_cons2]
    have h := ih q
    rw [List.map_cons] at h
    rw [h, hf p, hf q]
    have hl : (p :: q :: ps).getLast (by simp) = (q :: ps).getLast (by simp) := List.getLast_cons (by simp)
    rw [hl]
    simp only
    ring

theorem shoelace_closed (a b c d u v : ℝ) (f : Pt → Pt)
    (hf : ∀ p, f p = (a * p.1 + b * p.2 + u, c * p.1 + d * p.2 + v)) (ps : List Pt) (hc : Spec.Closed ps) :
    shoelace (ps.map f) = (a * d - b * c) * shoelace ps := by
  obtain ⟨p, mid, rfl⟩ := hc
  have h := shoelace_affine a b c d u v f hf (mid ++ [p]) p
  have hl : (p :: (mid ++ [p])).getLast (by simp) = p := by
    rw [List.getLast_cons (by simp)]
    simp
  rw [hl] at h
  rw [List.cons_append, h]
  ring

/-- C151: the area is kept, and scaled by the square of the factor -/
theorem C151_area (s : Poly) (hc : Spec.Closed s.pts) (f : ℝ) (q : Pose) :
    calculateArea (transform s q) = calculateArea s ∧
    calculateArea (scalingTransform s f q) = f ^ 2 * calculateArea s := by
  have hsc := sin_sq_add_cos_sq q.a
  unfold calculateArea area
  constructor
  · have h := shoelace_closed (cos q.a) (-sin q.a) (sin q.a) (cos q.a)
      (s.center.x + q.x - (cos q.a * s.center.x - sin q.a * s.center.y))
      (s.center.y + q.y - (sin q.a * s.center.x + cos q.a * s.center.y))
      (fun p => shift (s.center.x + q.x) (s.center.y + q.y) (clockwise (-q.a) (shift (-s.center.x) (-s.center.y) p)))
      (fun p => by
        simp only [shift, clockwise, cos_neg, sin_neg, Prod.mk.injEq]
        constructor <;> ring) s.pts hc
    simp only [transform, List.length_map]
    rw [h]
    split_ifs
    · rfl
    · linear_combination -(shoelace s.pts) / 2 * hsc
  · have h := shoelace_closed (f * cos q.a) (-(f * sin q.a)) (f * sin q.a) (f * cos q.a)
      (s.center.x + q.x - f * (cos q.a * s.center.x - sin q.a * s.center.y))
      (s.center.y + q.y - f * (sin q.a * s.center.x + cos q.a * s.center.y))
      (fun p => shift (s.center.x + q.x) (s.center.y + q.y)
        (clockwise (-q.a) (zoom f (shift (-s.center.x) (-s.center.y) p))))
      (fun p => by
        simp only [shift, clockwise, zoom, cos_neg, sin_neg, Prod.mk.injEq]
        constructor <;> ring) s.pts hc
    simp only [scalingTransform, List.length_map]
    rw [h]
    split_ifs
    · ring
    · linear_combination -(f ^ 2 * shoelace s.pts) / 2 * hsc

/-- C151: a scaled transformation multiplies the relative positions by the factor -/
theorem C151_scaled (s : Poly) (f : ℝ) (q : Pose) :
    (scalingTransform s f q).center = Spec.plus s.center q ∧
    List.Forall₂ (fun p p' => Spec.ahead (scalingTransform s f q).center p' = f * Spec.ahead s.center p ∧
      Spec.leftward (scalingTransform s f q).center p' = f * Spec.leftward s.center p) s.pts
      (scalingTransform s f q).pts := by
  refine ⟨rfl, forall₂_map_self _ _ _ fun p _ => ?_⟩
  have h := sin_sq_add_cos_sq q.a
  simp only [scalingTransform, Spec.ahead, Spec.leftward, shift, clockwise, zoom, cos_add, sin_add, cos_neg, sin_neg]
  constructor
  · linear_combination f * (cos s.center.a * (p.1 - s.center.x) + sin s.center.a * (p.2 - s.center.y)) * h
  · linear_combination f * (cos s.center.a * (p.2 - s.center.y) - sin s.center.a * (p.1 - s.center.x)) * h

/-! ### C152 -/

/-- C152: the outline of a vehicle at a state is its shape placed at that pose exactly if the rotation by its heading
leaves the center of the shape where it is; in particular for shapes with center (0,0). The full claim fails for other
shapes: `C152_car_rectangle_violated`. -/
theorem C152_outline (shape : Poly) (x y a : ℝ) (hne : shape.pts ≠ []) :
    (outlineAt shape x y a).pts = shape.pts.map (Spec.placed ⟨x, y, a⟩) ↔
      cos a * shape.center.x - sin a * shape.center.y = shape.center.x ∧
      sin a * shape.center.x + cos a * shape.center.y = shape.center.y := by
  have key : ∀ p : Pt, shift (shape.center.x + x) (shape.center.y + y)
      (clockwise (-a) (shift (-shape.center.x) (-shape.center.y) p)) = Spec.placed ⟨x, y, a⟩ p ↔
      cos a * shape.center.x - sin a * shape.center.y = shape.center.x ∧
      sin a * shape.center.x + cos a * shape.center.y = shape.center.y := by
    intro p
    simp only [shift, clockwise, Spec.placed, cos_neg, sin_neg, Prod.mk.injEq]
    constructor
    · rintro ⟨h1, h2⟩
      exact ⟨by linarith, by linarith⟩
    · rintro ⟨h1, h2⟩
      exact ⟨by linarith, by linarith⟩
  unfold outlineAt transform
  simp only
  rw [List.map_inj_left]
  constructor
  · intro h
    obtain ⟨p, hp⟩ := List.exists_mem_of_ne_nil _ hne
    exact (key p).1 (h p hp)
  · intro h p _
    exact (key p).2 h

/-- C152: for a shape centered at (0,0) -/
theorem C152_centered (shape : Poly) (x y a : ℝ) (hx : shape.center.x = 0) (hy : shape.center.y = 0) :
    (outlineAt shape x y a).pts = shape.pts.map (Spec.placed ⟨x, y, a⟩) ∧
    (outlineAt shape x y a).center = ⟨x, y, shape.center.a + a⟩ := by
  constructor
  · by_cases hne : shape.pts = []
    · simp [outlineAt, transform, hne]
    · rw [C152_outline shape x y a hne, hx, hy]
      simp
  · simp [outlineAt, transform, hx, hy]

/-! ### C153 -/

theorem lo_cons_cons (big x y : ℝ) (l : List ℝ) : lo big (x :: y :: l) = min x (lo big (y :: l)) := rfl

theorem hi_cons_cons (big x y : ℝ) (l : List ℝ) : hi big (x :: y :: l) = max x (hi big (y :: l)) := rfl

theorem lo_spec (big : ℝ) (l : List ℝ) : ∀ x, lo big (x :: l) ∈ x :: l ∧ ∀ y ∈ x :: l, lo big (x :: l) ≤ y := by
  induction l with
  | nil => intro x; simp [lo]
  | cons z l ih =>
    intro x
    rw [lo_cons_cons]
    obtain ⟨h1, h2⟩ := ih z
    constructor
    · rcases min_choice x (lo big (z :: l)) with h | h
      · rw [h]; simp
      · rw [h]; exact List.mem_cons_of_mem _ h1
    · intro y hy
      rcases List.mem_cons.1 hy with rfl | hy
      · exact min_le_left _ _
      · exact (min_le_right _ _).trans (h2 y hy)

theorem hi_spec (big : ℝ) (l : List ℝ) : ∀ x, hi big (x :: l) ∈ x :: l ∧ ∀ y ∈ x :: l, y ≤ hi big (x :: l) := by
  induction l with
  | nil => intro x; simp [hi]
  | cons z l ih =>
    intro x
    rw [hi_cons_cons]
    obtain ⟨h1, h2⟩ := ih z
    constructor
    · rcases max_choice x (hi big (z :: l)) with h | h
      · rw [h]; simp
      · rw [h]; exact List.mem_cons_of_mem _ h1
    · intro y hy
      rcases List.mem_cons.1 hy with rfl | hy
      · exact le_max_left _ _
      · exact (h2 y hy).trans (le_max_right _ _)

theorem lo_ne (big : ℝ) {l : List ℝ} (h : l ≠ []) : lo big l ∈ l ∧ ∀ y ∈ l, lo big l ≤ y := by
  cases l with
  | nil => exact absurd rfl h
  | cons x l => exact lo_spec big l x

theorem hi_ne (big : ℝ) {l : List ℝ} (h : l ≠ []) : hi big l ∈ l ∧ ∀ y ∈ l, y ≤ hi big l := by
  cases l with
  | nil => exact absurd rfl h
  | cons x l => exact hi_spec big l x

/-- coordinates in the frame of an unturned pose -/
theorem ahead_straight {c : Pose} (h : c.a = 0) (p : Pt) : Spec.ahead c p = p.1 - c.x := by
  simp [Spec.ahead, h]

theorem leftward_straight {c : Pose} (h : c.a = 0) (p : Pt) : Spec.leftward c p = p.2 - c.y := by
  simp [Spec.leftward, h]

/-- C153: the distances of a constructed, unturned shape that surrounds its center are its extents: `front_dist_` and
`rear_dist_` those ahead and behind, but `left_dist_` the one to the right and `right_dist_` the one to the left. The
full claim (each distance is the extent it is named after) fails: `C153_left_right_violated`. -/
theorem C153_extents_partial (big : ℝ) (s : Poly) (ha : s.center.a = 0) (hc : Spec.CenterInside s.center s.pts) :
    Spec.Extents s.center s.pts (updateDistances big s).front (updateDistances big s).rear
      (updateDistances big s).left (updateDistances big s).right := by
  obtain ⟨⟨p1, m1, h1⟩, ⟨p2, m2, h2⟩, ⟨p3, m3, h3⟩, ⟨p4, m4, h4⟩⟩ := hc
  have hx : s.pts.map Prod.fst ≠ [] := by
    intro h; rw [List.map_eq_nil_iff] at h; rw [h] at m1; simp at m1
  have hy : s.pts.map Prod.snd ≠ [] := by
    intro h; rw [List.map_eq_nil_iff] at h; rw [h] at m1; simp at m1
  obtain ⟨lx1, lx2⟩ := lo_ne big hx
  obtain ⟨hx1, hx2⟩ := hi_ne big hx
  obtain ⟨ly1, ly2⟩ := lo_ne big hy
  obtain ⟨hy1, hy2⟩ := hi_ne big hy
  have fst_mem : ∀ {p : Pt}, p ∈ s.pts → p.1 ∈ s.pts.map Prod.fst := fun hp => List.mem_map.2 ⟨_, hp, rfl⟩
  have snd_mem : ∀ {p : Pt}, p ∈ s.pts → p.2 ∈ s.pts.map Prod.snd := fun hp => List.mem_map.2 ⟨_, hp, rfl⟩
  have e1 : (updateDistances big s).front = hi big (s.pts.map Prod.fst) - s.center.x :=
    abs_of_nonneg (by have := hx2 _ (fst_mem m2); linarith)
  have e2 : (updateDistances big s).rear = s.center.x - lo big (s.pts.map Prod.fst) := by
    show |_| = _
    rw [abs_of_nonpos (by have := lx2 _ (fst_mem m1); linarith)]; ring
  have e3 : (updateDistances big s).left = s.center.y - lo big (s.pts.map Prod.snd) := by
    show |_| = _
    rw [abs_of_nonpos (by have := ly2 _ (snd_mem m3); linarith)]; ring
  have e4 : (updateDistances big s).right = hi big (s.pts.map Prod.snd) - s.center.y :=
    abs_of_nonneg (by have := hy2 _ (snd_mem m4); linarith)
  rw [e1, e2, e3, e4]
  refine ⟨⟨?_, ?_⟩, ⟨?_, ?_⟩, ⟨?_, ?_⟩, ⟨?_, ?_⟩⟩
  · obtain ⟨p, hp, e⟩ := List.mem_map.1 hx1
    exact ⟨p, hp, by rw [ahead_straight ha, e]⟩
  · intro p hp; rw [ahead_straight ha]; have := hx2 _ (fst_mem hp); linarith
  · obtain ⟨p, hp, e⟩ := List.mem_map.1 lx1
    exact ⟨p, hp, by beta_reduce; rw [ahead_straight ha, e]; ring⟩
  · intro p hp; beta_reduce; rw [ahead_straight ha]; have := lx2 _ (fst_mem hp); linarith
  · obtain ⟨p, hp, e⟩ := List.mem_map.1 ly1
    exact ⟨p, hp, by beta_reduce; rw [leftward_straight ha, e]; ring⟩
  · intro p hp; beta_reduce; rw [leftward_straight ha]; have := ly2 _ (snd_mem hp); linarith
  · obtain ⟨p, hp, e⟩ := List.mem_map.1 hy1
    exact ⟨p, hp, by rw [leftward_straight ha, e]⟩
  · intro p hp; rw [leftward_straight ha]; have := hy2 _ (snd_mem hp); linarith

theorem isMax_transport {f g : Pt → ℝ} {ps qs : List Pt} (h : List.Forall₂ (fun p q => g q = f p) ps qs) {m : ℝ}
    (hm : Spec.IsMax f ps m) : Spec.IsMax g qs m := by
  obtain ⟨⟨p, hp, e⟩, hall⟩ := hm
  have hex : ∀ p ∈ ps, ∃ q ∈ qs, g q = f p := by
    clear e hall hp p
    induction h with
    | nil => intro p hp; simp at hp
    | cons hab _ ih =>
      intro p hp
      rcases List.mem_cons.1 hp with rfl | hp
      · exact ⟨_, List.mem_cons_self, hab⟩
      · obtain ⟨q, hq, e⟩ := ih p hp; exact ⟨q, List.mem_cons_of_mem _ hq, e⟩
  have hle : ∀ q ∈ qs, ∃ p ∈ ps, g q = f p := by
    clear e hall hp p hex
    induction h with
    | nil => intro p hp; simp at hp
    | cons hab _ ih =>
      intro q hq
      rcases List.mem_cons.1 hq with rfl | hq
      · exact ⟨_, List.mem_cons_self, hab⟩
      · obtain ⟨p, hp, e⟩ := ih q hq; exact ⟨p, List.mem_cons_of_mem _ hp, e⟩
  constructor
  · obtain ⟨q, hq, e'⟩ := hex p hp
    exact ⟨q, hq, e'.trans e⟩
  · intro q hq
    obtain ⟨p', hp', e'⟩ := hle q hq
    rw [e']; exact hall p' hp'

/-- C153: extents stay right under transformations, as the distances are kept and mean the shape's own directions -/
theorem C153_transformed (s : Poly) (q : Pose) (f r d l : ℝ) (h : Spec.Extents s.center s.pts f r d l) :
    Spec.Extents (transform s q).center (transform s q).pts f r d l ∧ (transform s q).front = s.front ∧
    (transform s q).rear = s.rear ∧ (transform s q).left = s.left ∧ (transform s q).right = s.right := by
  obtain ⟨-, hf⟩ := C151_rigid s q
  obtain ⟨h1, h2, h3, h4⟩ := h
  refine ⟨⟨isMax_transport (hf.imp fun _ _ h => h.1) h1, isMax_transport (hf.imp fun _ _ h => by rw [h.1]) h2,
    isMax_transport (hf.imp fun _ _ h => by rw [h.2]) h3, isMax_transport (hf.imp fun _ _ h => h.2) h4⟩,
    rfl, rfl, rfl, rfl⟩

/-- a triangle that reaches 1 to the right and 2 to the left of its center -/
def lopsided : Poly := ⟨[(0, -1), (0, 2), (1, 0), (0, -1)], ⟨0, 0, 0⟩, 0, 0, 0, 0⟩

theorem C153_left_right_violated (big : ℝ) :
    (updateDistances big lopsided).left = 1 ∧ (updateDistances big lopsided).right = 2 ∧
    Spec.IsMax (Spec.leftward lopsided.center) lopsided.pts 2 ∧
    Spec.IsMax (fun p => -Spec.leftward lopsided.center p) lopsided.pts 1 := by
  refine ⟨?_, ?_, ⟨⟨(0, 2), by simp [lopsided], by simp [lopsided, Spec.leftward]⟩, ?_⟩,
    ⟨⟨(0, -1), by simp [lopsided], by simp [lopsided, Spec.leftward]⟩, ?_⟩⟩
  · simp only [updateDistances, lopsided, List.map_cons, List.map_nil, lo]
    norm_num
  · simp only [updateDistances, lopsided, List.map_cons, List.map_nil, hi]
    norm_num
  · intro p hp
    simp only [lopsided, List.mem_cons, List.not_mem_nil, or_false] at hp
    rcases hp with rfl | rfl | rfl | rfl <;> norm_num [lopsided, Spec.leftward]
  · intro p hp
    simp only [lopsided, List.mem_cons, List.not_mem_nil, or_false] at hp
    rcases hp with rfl | rfl | rfl | rfl <;> norm_num [lopsided, Spec.leftward]

example : Spec.CenterInside lopsided.center lopsided.pts := by
  refine ⟨⟨(0, -1), ?_, ?_⟩, ⟨(0, -1), ?_, ?_⟩, ⟨(0, -1), ?_, ?_⟩, ⟨(0, 2), ?_, ?_⟩⟩ <;> norm_num [lopsided]

/-- C153: a shape that lies entirely ahead of its center is given a positive extent to the rear -/
theorem C153_outside_violated (big : ℝ) :
    let s : Poly := ⟨[(1, -1), (1, 1), (3, 1), (3, -1), (1, -1)], ⟨0, 0, 0⟩, 0, 0, 0, 0⟩
    (updateDistances big s).rear = 1 ∧ ∀ p ∈ s.pts, 1 ≤ Spec.ahead s.center p := by
  refine ⟨?_, ?_⟩
  · simp only [updateDistances, List.map_cons, List.map_nil, lo]
    norm_num
  · intro p hp
    simp only [List.mem_cons, List.not_mem_nil, or_false] at hp
    rcases hp with rfl | rfl | rfl | rfl | rfl <;> norm_num [Spec.ahead]

/-- C153: the distances of a shape scaled by `ScalingTransform` are those from before the scaling -/
theorem C153_scaling_violated (s : Poly) (f : ℝ) (q : Pose) (m : ℝ) (hm : 0 < m) (hf : 1 < f)
    (h : Spec.IsMax (Spec.ahead s.center) s.pts m) (hs : s.front = m) :
    Spec.IsMax (Spec.ahead (scalingTransform s f q).center) (scalingTransform s f q).pts (f * m) ∧
    (scalingTransform s f q).front ≠ f * m := by
  obtain ⟨-, hr⟩ := C151_scaled s f q
  refine ⟨?_, ?_⟩
  · have h' : Spec.IsMax (fun p => f * Spec.ahead s.center p) s.pts (f * m) := by
      obtain ⟨⟨p, hp, e⟩, hall⟩ := h
      exact ⟨⟨p, hp, by beta_reduce; rw [e]⟩, fun p hp => mul_le_mul_of_nonneg_left (hall p hp) (by linarith)⟩
    exact isMax_transport (hr.imp fun _ _ h => h.1) h'
  · show s.front ≠ f * m
    rw [hs]
    intro e
    nlinarith

end Bark.Shape
