import Verif.Spec.RigidBox
import Verif.Props.Rigid
import Verif.Props.Bounds

/-! C212: what is decided by bounding boxes depends on the directions of the axes. -/
namespace Bark.Rigid
open Bark.Ln Bark.Rigid.Spec

theorem sq_one {a : ℝ} (h : a ^ 2 = 1) : a = 1 ∨ a = -1 := by
  have : (a - 1) * (a + 1) = 0 := by linear_combination h
  rcases mul_eq_zero.1 this with h | h
  · left; linarith
  · right; linarith

/-- every point of `ps` lies between points of `qs` in the coordinate `f` -/
def Between (f : Pt → ℝ) (ps qs : List Pt) : Prop := (∀ p ∈ ps, ∃ q ∈ qs, f q ≤ f p) ∧ (∀ p ∈ ps, ∃ q ∈ qs, f p ≤ f q) ∧
  ∃ p ∈ ps, ∃ q ∈ ps, f p < f q

theorem within_between (big : ℝ) {ps qs : List Pt} (hp : ps ≠ []) (hq : qs ≠ []) :
    Bnd.within (Bnd.envelope big ps) (Bnd.envelope big qs) = true ↔ Between Prod.fst ps qs ∧ Between Prod.snd ps qs := by
  have hx : qs.map Prod.fst ≠ [] := fun e => hq (List.map_eq_nil_iff.1 e)
  have hy : qs.map Prod.snd ≠ [] := fun e => hq (List.map_eq_nil_iff.1 e)
  rw [Bnd.within_iff big hp]
  have lows : ∀ (f : Pt → ℝ), qs.map f ≠ [] → ∀ x, Shape.lo big (qs.map f) ≤ x ↔ ∃ q ∈ qs, f q ≤ x := by
    intro f hf x
    obtain ⟨l1, l2⟩ := Shape.lo_ne big hf
    constructor
    · intro h
      obtain ⟨q, m, e⟩ := List.mem_map.1 l1
      exact ⟨q, m, by rw [e]; exact h⟩
    · rintro ⟨q, m, e⟩
      exact (l2 _ (List.mem_map.2 ⟨q, m, rfl⟩)).trans e
  have his : ∀ (f : Pt → ℝ), qs.map f ≠ [] → ∀ x, x ≤ Shape.hi big (qs.map f) ↔ ∃ q ∈ qs, x ≤ f q := by
    intro f hf x
    obtain ⟨l1, l2⟩ := Shape.hi_ne big hf
    constructor
    · intro h
      obtain ⟨q, m, e⟩ := List.mem_map.1 l1
      exact ⟨q, m, by rw [e]; exact h⟩
    · rintro ⟨q, m, e⟩
      exact e.trans (l2 _ (List.mem_map.2 ⟨q, m, rfl⟩))
  have hin : ∀ p : Pt, Bnd.Spec.Inside (Bnd.envelope big qs) p ↔ (∃ q ∈ qs, q.1 ≤ p.1) ∧ (∃ q ∈ qs, p.1 ≤ q.1) ∧
      (∃ q ∈ qs, q.2 ≤ p.2) ∧ ∃ q ∈ qs, p.2 ≤ q.2 := by
    intro p
    rw [← lows Prod.fst hx, ← his Prod.fst hx, ← lows Prod.snd hy, ← his Prod.snd hy]
    rfl
  simp only [hin, Between]
  constructor
  · rintro ⟨h1, h2, h3⟩
    exact ⟨⟨fun p m => (h1 p m).1, fun p m => (h1 p m).2.1, h2⟩, fun p m => (h1 p m).2.2.1, fun p m => (h1 p m).2.2.2, h3⟩
  · rintro ⟨⟨h1, h2, h3⟩, h4, h5, h6⟩
    exact ⟨fun p m => ⟨h1 p m, h2 p m, h4 p m, h5 p m⟩, h3, h6⟩

/-- a coordinate may be shifted or reversed -/
theorem between_affine {f g : Pt → ℝ} {T : Pt → Pt} {c d : ℝ} (hc : c = 1 ∨ c = -1) (h : ∀ p, f (T p) = c * g p + d)
    (ps qs : List Pt) : Between f (ps.map T) (qs.map T) ↔ Between g ps qs := by
  unfold Between
  simp only [List.mem_map, forall_exists_index, and_imp, forall_apply_eq_imp_iff₂, exists_exists_and_eq_and, h]
  rcases hc with rfl | rfl
  · simp
  · simp only [neg_mul, one_mul, add_le_add_iff_right, neg_le_neg_iff, add_lt_add_iff_right, neg_lt_neg_iff]
    constructor
    · rintro ⟨h1, h2, p, m, q, n, h3⟩
      exact ⟨h2, h1, q, n, p, m, h3⟩
    · rintro ⟨h1, h2, p, m, q, n, h3⟩
      exact ⟨h2, h1, q, n, p, m, h3⟩

/-- C212: whether a body lies within the map's bounding box (a vehicle outside it is removed) is the same in coordinates with
parallel axes. -/
theorem C212_removal_partial (M : Motion) (hM : KeepsAxes M) (big : ℝ) {body map : List Pt} (hb : body ≠ []) (hm : map ≠ []) :
    Bnd.within (Bnd.envelope big (body.map M.pt)) (Bnd.envelope big (map.map M.pt)) =
      Bnd.within (Bnd.envelope big body) (Bnd.envelope big map) := by
  rw [Bool.eq_iff_iff, within_between big (by simpa using hb) (by simpa using hm), within_between big hb hm]
  have h1 := cs M
  rcases hM with h | h
  · rw [h] at h1
    have hc := sq_one (a := Real.cos M.turn) (by linarith)
    rw [between_affine (f := Prod.fst) (g := Prod.fst) (c := Real.cos M.turn) (d := M.dx) hc
        (fun p => by unfold Motion.pt; rw [h]; ring),
      between_affine (f := Prod.snd) (g := Prod.snd) (c := Real.cos M.turn) (d := M.dy) hc
        (fun p => by unfold Motion.pt; rw [h]; ring)]
  · rw [h] at h1
    have hc := sq_one (a := Real.sin M.turn) (by linarith)
    have hc' : -Real.sin M.turn = 1 ∨ -Real.sin M.turn = -1 := by
      rcases hc with e | e
      · right; rw [e]
      · left; rw [e]; norm_num
    rw [between_affine (f := Prod.fst) (g := Prod.snd) (c := -Real.sin M.turn) (d := M.dx) hc'
        (fun p => by unfold Motion.pt; rw [h]; ring),
      between_affine (f := Prod.snd) (g := Prod.fst) (c := Real.sin M.turn) (d := M.dy) hc
        (fun p => by unfold Motion.pt; rw [h]; ring), and_comm]

/-- C212 fails for other turns: a vehicle beside a diagonal road is inside the map's box, and outside it (hence removed) if the
coordinate system is turned so that the road runs along an axis. -/
theorem C212_removal_violated : ∃ (M : Motion) (body map : List Pt), body ≠ [] ∧ map ≠ [] ∧ ∀ big,
    Bnd.within (Bnd.envelope big body) (Bnd.envelope big map) = true ∧
    Bnd.within (Bnd.envelope big (body.map M.pt)) (Bnd.envelope big (map.map M.pt)) = false := by
  refine ⟨⟨-(Real.pi / 4), 0, 0⟩, [(1, 8), (2, 9)], [(0, 0), (10, 10)], by simp, by simp, fun big => ⟨?_, ?_⟩⟩
  · rw [within_between big (by simp) (by simp)]
    unfold Between
    simp
    norm_num
  · rw [Bool.eq_false_iff, Ne, within_between big (by simp) (by simp)]
    rintro ⟨-, -, h, -⟩
    obtain ⟨q, m, e⟩ := h _ (List.mem_map.2 ⟨(1, 8), by simp, rfl⟩)
    have h2 : (0 : ℝ) < √2 := by positivity
    simp only [List.map_cons, List.map_nil, List.mem_cons, List.not_mem_nil, or_false] at m
    rcases m with rfl | rfl <;>
    · simp only [Motion.pt, Real.cos_neg, Real.sin_neg, Real.cos_pi_div_four, Real.sin_pi_div_four] at e
      linarith

/-- C212 fails for the search for the nearest vehicles: of two bodies the one whose box is nearer changes with the axes. -/
theorem C212_nearest_violated : ∃ (M : Motion) (p : Pt) (a b : List Pt), ∀ big,
    boxDist2 (Bnd.envelope big b) p < boxDist2 (Bnd.envelope big a) p ∧
    boxDist2 (Bnd.envelope big (a.map M.pt)) (M.pt p) < boxDist2 (Bnd.envelope big (b.map M.pt)) (M.pt p) := by
  refine ⟨⟨Real.pi / 4, 0, 0⟩, (0, 0), [(3, 0)], [(1, 9), (9, 1)], fun big => ⟨?_, ?_⟩⟩
  · simp only [boxDist2, Bnd.envelope, Shape.lo, Shape.hi, out, List.map_cons, List.map_nil]
    norm_num
  · have h2 : (0 : ℝ) < √2 := by positivity
    have h3 : √2 * √2 = 2 := Real.mul_self_sqrt (by norm_num)
    simp only [boxDist2, Bnd.envelope, Shape.lo, Shape.hi, out, List.map_cons, List.map_nil, Motion.pt, Real.cos_pi_div_four,
      Real.sin_pi_div_four]
    rw [show √2 / 2 * 1 - √2 / 2 * 9 + 0 = -(4 * √2) by ring, show √2 / 2 * 9 - √2 / 2 * 1 + 0 = 4 * √2 by ring,
      show √2 / 2 * 1 + √2 / 2 * 9 + 0 = 5 * √2 by ring, show √2 / 2 * 9 + √2 / 2 * 1 + 0 = 5 * √2 by ring,
      show √2 / 2 * 3 - √2 / 2 * 0 + 0 = 3 / 2 * √2 by ring, show √2 / 2 * 3 + √2 / 2 * 0 + 0 = 3 / 2 * √2 by ring,
      show √2 / 2 * 0 - √2 / 2 * 0 + 0 = 0 by ring, show √2 / 2 * 0 + √2 / 2 * 0 + 0 = 0 by ring, min_self, max_self,
      min_eq_left (by linarith : -(4 * √2) ≤ 4 * √2), max_eq_right (by linarith : -(4 * √2) ≤ 4 * √2)]
    simp only [sub_zero, zero_sub]
    rw [max_eq_left (by linarith : -(3 / 2 * √2) ≤ 3 / 2 * √2), max_eq_right (by linarith : (0 : ℝ) ≤ 3 / 2 * √2),
      max_eq_left (by linarith : -(5 * √2) ≤ 5 * √2), max_eq_right (by linarith : (0 : ℝ) ≤ 5 * √2), max_self,
      max_eq_left (by linarith : -(4 * √2) ≤ 0)]
    nlinarith

/-- C212: distances from boxes are the same in shifted coordinates. -/
theorem C212_nearest_shift_partial (M : Motion) (hM : M.turn = 0) (big : ℝ) {ps : List Pt} (hp : ps ≠ []) (p : Pt) :
    boxDist2 (Bnd.envelope big (ps.map M.pt)) (M.pt p) = boxDist2 (Bnd.envelope big ps) p := by
  have hl : ∀ (d : ℝ) (l : List ℝ), l ≠ [] → Shape.lo big (l.map (· + d)) = Shape.lo big l + d ∧
      Shape.hi big (l.map (· + d)) = Shape.hi big l + d := by
    intro d l hl
    induction l with
    | nil => exact absurd rfl hl
    | cons a l ih =>
      cases l with
      | nil => exact ⟨rfl, rfl⟩
      | cons b l =>
        obtain ⟨i1, i2⟩ := ih (by simp)
        simp only [List.map_cons, Shape.lo, Shape.hi] at i1 i2 ⊢
        rw [i1, i2, min_add_add_right, max_add_add_right]
        exact ⟨rfl, rfl⟩
  have e1 : (ps.map M.pt).map Prod.fst = (ps.map Prod.fst).map (· + M.dx) := by
    simp only [List.map_map]
    refine List.map_congr_left (fun q _ => ?_)
    simp [Motion.pt, hM]
  have e2 : (ps.map M.pt).map Prod.snd = (ps.map Prod.snd).map (· + M.dy) := by
    simp only [List.map_map]
    refine List.map_congr_left (fun q _ => ?_)
    simp [Motion.pt, hM]
  have h1 := hl M.dx (ps.map Prod.fst) (fun e => hp (List.map_eq_nil_iff.1 e))
  have h2 := hl M.dy (ps.map Prod.snd) (fun e => hp (List.map_eq_nil_iff.1 e))
  have p1 : (M.pt p).1 = p.1 + M.dx := by simp [Motion.pt, hM]
  have p2 : (M.pt p).2 = p.2 + M.dy := by simp [Motion.pt, hM]
  unfold boxDist2 Bnd.envelope
  simp only [e1, e2, h1.1, h1.2, h2.1, h2.2, p1, p2, out]
  simp only [add_sub_add_right_eq_sub]

example : KeepsAxes ⟨Real.pi / 2, 3, 4⟩ := Or.inr (by simp)

end Bark.Rigid
