import Verif.Spec.Rigid
import Verif.Props.Line
import Verif.Props.Frenet

/-! C210: the answers about a line do not depend on the choice of the coordinate system. -/
namespace Bark.Rigid
open Bark.Ln Bark.Rigid.Spec Bark.Angle.Spec Bark.Ln.Spec

theorem cs (M : Motion) : Real.sin M.turn ^ 2 + Real.cos M.turn ^ 2 = 1 := Real.sin_sq_add_cos_sq _

theorem pdist_pt (M : Motion) (a b : Pt) : pdist (M.pt a) (M.pt b) = pdist a b := by
  unfold pdist Motion.pt
  congr 1
  linear_combination ((a.1 - b.1) ^ 2 + (a.2 - b.2) ^ 2) * cs M

theorem dist2_pt (M : Motion) (a b : Pt) : dist2 (M.pt a) (M.pt b) = dist2 a b := by
  unfold dist2 Motion.pt
  linear_combination ((a.1 - b.1) ^ 2 + (a.2 - b.2) ^ 2) * cs M

theorem len2_pt (M : Motion) (a b : Pt) : len2 (M.pt a) (M.pt b) = len2 a b := by
  unfold len2 Motion.pt
  linear_combination ((a.1 - b.1) ^ 2 + (a.2 - b.2) ^ 2) * cs M

theorem dot_pt (M : Motion) (a b p : Pt) : dot (M.pt a) (M.pt b) (M.pt p) = dot a b p := by
  unfold dot Motion.pt
  linear_combination ((p.1 - a.1) * (b.1 - a.1) + (p.2 - a.2) * (b.2 - a.2)) * cs M

theorem lerp_pt (M : Motion) (a b : Pt) (t : ℝ) : lerp (M.pt a) (M.pt b) t = M.pt (lerp a b t) := by
  unfold lerp Motion.pt
  ext <;> simp only <;> ring

theorem pt_inj (M : Motion) {a b : Pt} (h : M.pt a = M.pt b) : a = b := by
  have := pdist_pt M a b
  rw [h, (pdist_eq_zero (a := M.pt b) (b := M.pt b)).2 rfl] at this
  exact pdist_eq_zero.1 this.symm

theorem length_pt (M : Motion) (ps : List Pt) : length (ps.map M.pt) = length ps := by
  induction ps with
  | nil => rfl
  | cons a t ih =>
    cases t with
    | nil => rfl
    | cons b t =>
      simp only [List.map_cons, length] at ih ⊢
      rw [ih, pdist_pt]

theorem same_table {M : Motion} {l l' : Line} (h : MovedLine M l l') : l'.s = l.s := by
  have h1 := h.right.1
  have h2 := h.right'.1
  have hp : l'.pts.length = l.pts.length := by rw [h.pts, List.length_map]
  refine List.ext_getElem (by omega) (fun i h3 h4 => ?_)
  rw [h.right.2 i h4, h.right'.2 i h3, h.pts, ← List.map_take, length_pt]

theorem at'_map {α β : Type} (f : α → β) (l : List α) (i : Int) : at' (l.map f) i = (at' l i).map f := by
  unfold at'
  split_ifs
  · rfl
  · rw [List.getElem?_map]
    cases l[i.toNat]? <;> rfl

theorem segDist2_pt (M : Motion) (a b p : Pt) : segDist2 (M.pt a) (M.pt b) (M.pt p) = segDist2 a b p := by
  unfold segDist2
  rw [dot_pt, len2_pt, lerp_pt, dist2_pt, dist2_pt, dist2_pt]

theorem nearestLoop_pt (M : Motion) (p : Pt) (ps : List Pt) (i : Nat) (best : Option ℝ) (bi : Nat) :
    nearestLoop (M.pt p) (ps.map M.pt) i best bi = nearestLoop p ps i best bi := by
  induction ps generalizing i best bi with
  | nil => rfl
  | cons a t ih =>
    cases t with
    | nil => rfl
    | cons b t =>
      simp only [List.map_cons] at ih ⊢
      simp only [nearestLoop, ih]
      rw [segDist2_pt]

theorem projectOn_pt (M : Motion) (a b p : Pt) (s0 s1 : ℝ) (i : Nat) :
    projectOn (M.pt a) (M.pt b) s0 s1 i (M.pt p) = (projectOn a b s0 s1 i p).map (fun r => (M.pt r.1, r.2)) := by
  rw [projectOn_eq, projectOn_eq, dot_pt, len2_pt, lerp_pt]
  split_ifs <;> rfl

/-- C210: the point closest to `p` is the same point, at the same arc length, on the same segment. -/
theorem C210_nearest {M : Motion} {l l' : Line} (h : MovedLine M l l') (hne : l.pts ≠ []) (p : Pt) :
    nearest l' (M.pt p) = (nearest l p).map (fun r => (M.pt r.1, r.2)) := by
  have hs := same_table h
  obtain ⟨ps, s⟩ := l
  obtain ⟨ps', s'⟩ := l'
  have e := h.pts
  simp only at e hs hne
  subst e hs
  match ps, hne with
  | [a], _ => rfl
  | a :: b :: t, _ =>
    show (do
      let a' ← at' ((a :: b :: t).map M.pt) (nearestLoop (M.pt p) ((a :: b :: t).map M.pt) 0 none 0 : Nat)
      let b' ← at' ((a :: b :: t).map M.pt) (nearestLoop (M.pt p) ((a :: b :: t).map M.pt) 0 none 0 + 1 : Nat)
      let s0 ← at' s' (nearestLoop (M.pt p) ((a :: b :: t).map M.pt) 0 none 0 : Nat)
      let s1 ← at' s' (nearestLoop (M.pt p) ((a :: b :: t).map M.pt) 0 none 0 + 1 : Nat)
      projectOn a' b' s0 s1 (nearestLoop (M.pt p) ((a :: b :: t).map M.pt) 0 none 0) (M.pt p)) = Except.map _ (do
      let a' ← at' (a :: b :: t) (nearestLoop p (a :: b :: t) 0 none 0 : Nat)
      let b' ← at' (a :: b :: t) (nearestLoop p (a :: b :: t) 0 none 0 + 1 : Nat)
      let s0 ← at' s' (nearestLoop p (a :: b :: t) 0 none 0 : Nat)
      let s1 ← at' s' (nearestLoop p (a :: b :: t) 0 none 0 + 1 : Nat)
      projectOn a' b' s0 s1 (nearestLoop p (a :: b :: t) 0 none 0) p)
    rw [nearestLoop_pt, at'_map, at'_map]
    generalize nearestLoop p (a :: b :: t) 0 none 0 = k
    cases at' (a :: b :: t) (k : Int) with
    | error e => rfl
    | ok u =>
      cases at' (a :: b :: t) ((k + 1 : Nat) : Int) with
      | error e => rfl
      | ok v =>
        cases at' s' (k : Int) with
        | error e => rfl
        | ok x =>
          cases at' s' ((k + 1 : Nat) : Int) with
          | error e => rfl
          | ok y => exact projectOn_pt M u v p x y k

/-- C210: the point at an arc length is the same point. -/
theorem C210_point {M : Motion} {l l' : Line} (h : MovedLine M l l') (h2 : 2 ≤ l.pts.length) (s : ℝ) :
    pointAtS l' s = (pointAtS l s).map M.pt := by
  have hs := same_table h
  obtain ⟨ps, t⟩ := l
  obtain ⟨ps', t'⟩ := l'
  have e := h.pts
  simp only at e hs h2
  subst e hs
  unfold pointAtS
  simp only [List.length_map]
  have h3 : ¬ ps.length ≤ 1 := by omega
  rw [if_neg h3, if_neg h3]
  simp only [at'_map]
  by_cases h0 : s ≤ 0
  · rw [if_pos h0, if_pos h0]
  rw [if_neg h0, if_neg h0]
  cases back t' with
  | error e => rfl
  | ok x =>
    simp only [bind, Except.bind]
    by_cases h1 : x ≤ s
    · rw [if_pos h1, if_pos h1]
    rw [if_neg h1, if_neg h1]
    have hi : segmentEndIdx ⟨ps.map M.pt, t'⟩ s = segmentEndIdx ⟨ps, t'⟩ s := rfl
    rw [hi]
    generalize segmentEndIdx ⟨ps, t'⟩ s = k
    cases at' t' (k - 1) with
    | error e => rfl
    | ok a =>
      cases at' t' k with
      | error e => rfl
      | ok b =>
        cases at' ps (k - 1) with
        | error e => rfl
        | ok u =>
          cases at' ps k with
          | error e => rfl
          | ok v =>
            simp only [Except.map]
            split_ifs
            · rfl
            · rw [lerp_pt]

/-- C210: the length is the same. -/
theorem C210_length {M : Motion} {l l' : Line} (h : MovedLine M l l') : length l'.pts = length l.pts ∧ l'.s = l.s :=
  ⟨by rw [h.pts, length_pt], same_table h⟩

/-! ### directions -/

theorem hasDir_turn {M : Motion} {v : Pt} {θ : ℝ} (h : HasDir v θ) : HasDir (M.vec v) (θ + M.turn) := by
  obtain ⟨c, hc, rfl⟩ := h
  refine ⟨c, hc, ?_⟩
  unfold Motion.vec
  rw [Real.cos_add, Real.sin_add]
  ext <;> simp only <;> ring

theorem vec_pt (M : Motion) (a b : Pt) : Spec.vec (M.pt a) (M.pt b) = M.vec (Spec.vec a b) := by
  unfold Spec.vec Motion.pt Motion.vec
  ext <;> simp only <;> ring

theorem unit_pt (M : Motion) (a b : Pt) : Spec.unit (M.pt a) (M.pt b) = M.vec (Spec.unit a b) := by
  unfold Spec.unit
  rw [pdist_pt]
  unfold Motion.pt Motion.vec
  ext <;> simp only <;> ring

theorem seg_turn (M : Motion) {a b : Pt} (h : a ≠ b) :
    SameDir (segAngle (M.pt a) (M.pt b)) (segAngle a b + M.turn) := by
  have h1 := segAngle_dir (fun e => h (pt_inj M e) : M.pt a ≠ M.pt b)
  have h2 := hasDir_turn (M := M) (segAngle_dir h)
  rw [vec_pt] at h1
  exact Fren.dir_of_hasDir h1 h2

theorem at'_ok {α : Type} {l : List α} {i : Int} {x : α} (h : at' l i = .ok x) : 0 ≤ i ∧ l[i.toNat]? = some x := by
  unfold at' at h
  split_ifs at h with h0
  refine ⟨by omega, ?_⟩
  cases e : l[i.toNat]? with
  | none => rw [e] at h; cases h
  | some y => rw [e] at h; rw [Except.ok.injEq] at h; rw [h]

theorem next_ne {ps : List Pt} (hnd : NoDup ps) {i : Int} {a b : Pt} (h1 : at' ps (i - 1) = .ok a) (h2 : at' ps i = .ok b) :
    a ≠ b := by
  obtain ⟨g1, g2⟩ := at'_ok h1
  obtain ⟨g3, g4⟩ := at'_ok h2
  rw [show i.toNat = (i - 1).toNat + 1 by omega] at g4
  exact noDup_seg hnd g2 g4

/-- mean direction of two unit vectors, as the code computes it -/
theorem mean_turn (M : Motion) {a b c : Pt} (hab : a ≠ b) (hbc : b ≠ c) (hu : Spec.unit a b + Spec.unit b c ≠ 0) :
    SameDir
      (Dyn.atan2 (1 / 2 * (Real.sin (segAngle (M.pt a) (M.pt b)) + Real.sin (segAngle (M.pt b) (M.pt c))))
        (1 / 2 * (Real.cos (segAngle (M.pt a) (M.pt b)) + Real.cos (segAngle (M.pt b) (M.pt c)))))
      (Dyn.atan2 (1 / 2 * (Real.sin (segAngle a b) + Real.sin (segAngle b c)))
        (1 / 2 * (Real.cos (segAngle a b) + Real.cos (segAngle b c))) + M.turn) := by
  obtain ⟨c1, s1⟩ := segAngle_unit hab
  obtain ⟨c2, s2⟩ := segAngle_unit hbc
  obtain ⟨c3, s3⟩ := segAngle_unit (fun e => hab (pt_inj M e) : M.pt a ≠ M.pt b)
  obtain ⟨c4, s4⟩ := segAngle_unit (fun e => hbc (pt_inj M e) : M.pt b ≠ M.pt c)
  rw [c1, s1, c2, s2, c3, s3, c4, s4, unit_pt, unit_pt]
  generalize Spec.unit a b = u at hu ⊢
  generalize Spec.unit b c = w at hu ⊢
  have hne : ((1 / 2 * (u.1 + w.1), 1 / 2 * (u.2 + w.2)) : Pt) ≠ (0, 0) := by
    intro e
    have e1 : 1 / 2 * (u.1 + w.1) = 0 := congrArg Prod.fst e
    have e2 : 1 / 2 * (u.2 + w.2) = 0 := congrArg Prod.snd e
    exact hu (Prod.ext (by simp only [Prod.fst_add, Prod.fst_zero]; linarith) (by simp only [Prod.snd_add, Prod.snd_zero]; linarith))
  have h1 := hasDir_turn (M := M) (atan2_dir _ _ hne)
  have hx : M.vec (1 / 2 * (u.1 + w.1), 1 / 2 * (u.2 + w.2)) =
      (1 / 2 * ((M.vec u).1 + (M.vec w).1), 1 / 2 * ((M.vec u).2 + (M.vec w).2)) := by
    unfold Motion.vec
    ext <;> simp only <;> ring
  rw [hx] at h1
  refine Fren.dir_of_hasDir (atan2_dir _ _ ?_) h1
  intro e
  rw [e] at h1
  obtain ⟨k, hk, e'⟩ := h1
  have e1 : 0 = k * Real.cos _ := congrArg Prod.fst e'
  have e2 : 0 = k * Real.sin _ := congrArg Prod.snd e'
  have e3 := Real.sin_sq_add_cos_sq (Dyn.atan2 (1 / 2 * (u.2 + w.2)) (1 / 2 * (u.1 + w.1)) + M.turn)
  rcases mul_eq_zero.1 e1.symm with h | h
  · linarith
  rcases mul_eq_zero.1 e2.symm with h' | h'
  · linarith
  rw [h, h'] at e3
  norm_num at e3

theorem two_points {M : Motion} {ps : List Pt} (hnd : NoDup ps) {θ : ℝ} (i : Int)
    (hh : Except.bind (at' ps (i - 1)) (fun u => Except.bind (at' ps i) fun v => (.ok (segAngle u v) : Res ℝ)) = .ok θ) :
    ∃ θ', Except.bind (Except.map M.pt (at' ps (i - 1))) (fun u => Except.bind (Except.map M.pt (at' ps i))
      fun v => (.ok (segAngle u v) : Res ℝ)) = .ok θ' ∧ SameDir θ' (θ + M.turn) := by
  cases e1 : at' ps (i - 1) with
  | error e => rw [e1] at hh; cases hh
  | ok u =>
    cases e2 : at' ps i with
    | error e => rw [e1, e2] at hh; cases hh
    | ok v =>
      rw [e1, e2] at hh
      simp only [Except.bind, Except.ok.injEq] at hh
      subst hh
      exact ⟨_, rfl, seg_turn M (next_ne hnd e1 e2)⟩

/-- C210: the tangent direction turns with the coordinate system. -/
theorem C210_tangent {M : Motion} {l l' : Line} (h : MovedLine M l l') (hnd : NoDup l.pts) (hu : NoUTurn l.pts)
    (s θ : ℝ) (hθ : tangentAngleAtS l s = .ok θ) :
    ∃ θ', tangentAngleAtS l' s = .ok θ' ∧ SameDir θ' (θ + M.turn) := by
  have hs := same_table h
  obtain ⟨ps, t⟩ := l
  obtain ⟨ps', t'⟩ := l'
  have e := h.pts
  simp only at e hs hnd hu
  subst e hs
  unfold tangentAngleAtS at hθ ⊢
  have hi : segmentEndIdx ⟨ps.map M.pt, t'⟩ s = segmentEndIdx ⟨ps, t'⟩ s := rfl
  have hc : atCorner ⟨ps.map M.pt, t'⟩ s = atCorner ⟨ps, t'⟩ s := rfl
  simp only [List.length_map, at'_map, hi, hc] at hθ ⊢
  generalize segmentEndIdx ⟨ps, t'⟩ s = k at hθ ⊢
  cases hb : back t' with
  | error e => rw [hb] at hθ; cases hθ
  | ok x =>
    rw [hb] at hθ
    simp only [bind, Except.bind] at hθ ⊢
    by_cases h1 : x ≤ s
    · rw [if_pos h1] at hθ ⊢
      have := two_points (M := M) (θ := θ) hnd ((ps.length : Int) - 1)
      rw [show (ps.length : Int) - 1 - 1 = ps.length - 2 by ring] at this
      exact this hθ
    rw [if_neg h1] at hθ ⊢
    by_cases h0 : s ≤ 0
    · rw [if_pos h0] at hθ ⊢
      exact two_points hnd 1 hθ
    rw [if_neg h0] at hθ ⊢
    by_cases hk : atCorner ⟨ps, t'⟩ s = true
    · rw [if_pos hk] at hθ ⊢
      cases e1 : at' ps (k - 2) with
      | error e => rw [e1] at hθ; cases hθ
      | ok u =>
        cases e2 : at' ps (k - 1) with
        | error e => rw [e1, e2] at hθ; cases hθ
        | ok v =>
          cases e3 : at' ps k with
          | error e => rw [e1, e2, e3] at hθ; cases hθ
          | ok w =>
            rw [e1, e2, e3] at hθ
            simp only [Except.ok.injEq] at hθ
            subst hθ
            have n1 : u ≠ v := next_ne (i := k - 1) hnd (by rw [show k - 1 - 1 = k - 2 by ring]; exact e1) e2
            have n2 : v ≠ w := next_ne hnd e2 e3
            obtain ⟨g1, g2⟩ := at'_ok e1
            obtain ⟨g3, g4⟩ := at'_ok e2
            obtain ⟨g5, g6⟩ := at'_ok e3
            refine ⟨_, rfl, mean_turn M n1 n2 (hu (k - 2).toNat u v w g2 ?_ ?_)⟩
            · rw [show (k - 2).toNat + 1 = (k - 1).toNat by omega]; exact g4
            · rw [show (k - 2).toNat + 2 = k.toNat by omega]; exact g6
    · rw [if_neg hk] at hθ ⊢
      exact two_points hnd k hθ

/-! ### Frenet coordinates -/

theorem norm_same (rnd : ℝ → ℝ) {a b : ℝ} (h : SameDir a b) : Angle.normToPI rnd a = Angle.normToPI rnd b := by
  obtain ⟨⟨h1, h2, h3⟩, -⟩ := Angle.C31_normToPI a
  have := (Angle.C31_normToPI b).2 _ h1 h2 (h3.trans h)
  exact congrArg rnd this

/-- differences of angles do not depend on the reference direction, whatever the rounding to `float` -/
theorem diff_same (rnd : ℝ → ℝ) {a b a' b' : ℝ} (φ : ℝ) (ha : SameDir a' (a + φ)) (hb : SameDir b' (b + φ)) :
    Angle.signedAngleDiff rnd a' b' = Angle.signedAngleDiff rnd a b := by
  unfold Angle.signedAngleDiff
  rw [norm_same rnd (a := a' - b') (b := a - b)]
  obtain ⟨k, rfl⟩ := ha
  obtain ⟨m, rfl⟩ := hb
  exact ⟨k - m, by push_cast; ring⟩

theorem lat_pt (M : Motion) (rnd : ℝ → ℝ) (q p : Pt) {θ θ' : ℝ} (h : SameDir θ' (θ + M.turn)) :
    Fren.latVal (M.pt q) (M.pt p) * Fren.sideSign rnd θ' (Fren.sub (M.pt p) (M.pt q)) =
      Fren.latVal q p * Fren.sideSign rnd θ (Fren.sub p q) := by
  have hl : Fren.latVal (M.pt q) (M.pt p) = Fren.latVal q p := pdist_pt M q p
  rw [hl]
  by_cases e : q = p
  · have : Fren.latVal q p = 0 := pdist_eq_zero.2 e
    rw [this, zero_mul, zero_mul]
  · congr 1
    have n1 : Fren.sub p q ≠ (0, 0) := by
      intro h
      have e1 : p.1 - q.1 = 0 := congrArg Prod.fst h
      have e2 : p.2 - q.2 = 0 := congrArg Prod.snd h
      exact e (Prod.ext (by linarith) (by linarith))
    have n2 : Fren.sub (M.pt p) (M.pt q) ≠ (0, 0) := by
      intro h
      have e1 : (M.pt p).1 - (M.pt q).1 = 0 := congrArg Prod.fst h
      have e2 : (M.pt p).2 - (M.pt q).2 = 0 := congrArg Prod.snd h
      exact e (pt_inj M (Prod.ext (by linarith) (by linarith)))
    have d1 : HasDir (Fren.sub p q) (Dyn.atan2 (Fren.sub p q).2 (Fren.sub p q).1) := atan2_dir _ _ n1
    have d2 : HasDir (Fren.sub (M.pt p) (M.pt q)) (Dyn.atan2 (Fren.sub (M.pt p) (M.pt q)).2 (Fren.sub (M.pt p) (M.pt q)).1) :=
      atan2_dir _ _ n2
    have d3 := hasDir_turn (M := M) d1
    have hv : M.vec (Fren.sub p q) = Fren.sub (M.pt p) (M.pt q) := by
      unfold Fren.sub Motion.vec Motion.pt
      ext <;> simp only <;> ring
    rw [hv] at d3
    unfold Fren.sideSign
    rw [diff_same rnd M.turn h (Fren.dir_of_hasDir d2 d3)]

/-- C210: the coordinates of a point relative to a line do not depend on the coordinate system. -/
theorem C210_position {M : Motion} {l l' : Line} (h : MovedLine M l l') (hne : l.pts ≠ []) (hnd : NoDup l.pts)
    (hu : NoUTurn l.pts) (rnd : ℝ → ℝ) (p : Pt) (f : ℝ × ℝ) (hf : Fren.position rnd l p = .ok f) :
    Fren.position rnd l' (M.pt p) = .ok f := by
  unfold Fren.position at hf ⊢
  rw [C210_nearest h hne]
  cases e1 : nearest l p with
  | error e => rw [e1] at hf; cases hf
  | ok n =>
    rw [e1] at hf
    simp only [bind, Except.bind, Except.map] at hf ⊢
    cases e2 : tangentAngleAtS l n.2.1 with
    | error e => rw [e2] at hf; cases hf
    | ok θ =>
      rw [e2] at hf
      obtain ⟨θ', g1, g2⟩ := C210_tangent h hnd hu _ _ e2
      rw [g1]
      simp only [Except.ok.injEq] at hf ⊢
      rw [← hf, lat_pt M rnd n.1 p g2]

/-- C210: so are those of a vehicle: its position along the line and beside it, its velocities along and across and its
heading relative to the line are the same, whatever the rounding of angles to `float`. -/
theorem C210_frenet {M : Motion} {l l' : Line} (h : MovedLine M l l') (hne : l.pts ≠ []) (hnd : NoDup l.pts)
    (hu : NoUTurn l.pts) (rnd : ℝ → ℝ) {x x' : Fren.VState} (hx : MovedState M x x') (f : Fren.FState)
    (hf : Fren.ofState rnd l x = .ok f) :
    ∃ f', Fren.ofState rnd l' x' = .ok f' ∧ f'.lon = f.lon ∧ f'.lat = f.lat ∧ f'.vlon = f.vlon ∧ f'.vlat = f.vlat ∧
      f'.angle = f.angle ∧ SameDir f'.angleRoad (f.angleRoad + M.turn) := by
  unfold Fren.ofState at hf ⊢
  rw [hx.pos, C210_nearest h hne]
  cases e1 : nearest l (x.x, x.y) with
  | error e => rw [e1] at hf; cases hf
  | ok n =>
    rw [e1] at hf
    simp only [bind, Except.bind, Except.map] at hf ⊢
    cases e2 : tangentAngleAtS l n.2.1 with
    | error e => rw [e2] at hf; cases hf
    | ok θ =>
      rw [e2] at hf
      obtain ⟨θ', g1, g2⟩ := C210_tangent h hnd hu _ _ e2
      rw [g1]
      simp only [Except.ok.injEq] at hf
      subst hf
      refine ⟨_, rfl, rfl, lat_pt M rnd n.1 _ g2, ?_, ?_, diff_same rnd M.turn g2 hx.theta, g2⟩
      · simp only [diff_same rnd M.turn hx.theta g2, hx.vel]
      · simp only [diff_same rnd M.turn hx.theta g2, hx.vel]

/-- C210: and back: a vehicle described relative to the line is the same vehicle. -/
theorem C210_from_frenet {M : Motion} {l l' : Line} (h : MovedLine M l l') (h2 : 2 ≤ l.pts.length) (hnd : NoDup l.pts)
    (hu : NoUTurn l.pts) (f : Fren.FState) (x : Fren.VState) (hx : Fren.toState id l f = .ok x) :
    ∃ x', Fren.toState id l' f = .ok x' ∧ MovedState M x x' := by
  unfold Fren.toState Goal.normalAtS at hx ⊢
  rw [C210_point h h2]
  cases e1 : pointAtS l f.lon with
  | error e => rw [e1] at hx; cases hx
  | ok p =>
    rw [e1] at hx
    simp only [bind, Except.bind, Except.map] at hx ⊢
    cases e2 : tangentAngleAtS l f.lon with
    | error e => rw [e2] at hx; cases hx
    | ok θ =>
      rw [e2] at hx
      obtain ⟨θ', g1, g2⟩ := C210_tangent h hnd hu _ _ e2
      rw [g1]
      simp only [Except.ok.injEq] at hx
      subst hx
      refine ⟨_, rfl, rfl, ?_, ?_, rfl⟩
      · obtain ⟨t1, t2⟩ := Fren.trig_same g2
        unfold Motion.pt
        simp only [Real.cos_add, Real.sin_add, Real.cos_pi_div_two, Real.sin_pi_div_two] at t1 t2 ⊢
        rw [t1, t2]
        ext <;> simp only <;> ring
      · have h1 := (Angle.C31_normToPI (Dyn.atan2 f.vlat f.vlon + θ)).1.2.2
        have h2 := (Angle.C31_normToPI (Dyn.atan2 f.vlat f.vlon + θ')).1.2.2
        obtain ⟨k, h1⟩ := h1
        obtain ⟨m, h2⟩ := h2
        obtain ⟨n, g2⟩ := g2
        exact ⟨n + m - k, by show Angle.normToPI id (Dyn.atan2 f.vlat f.vlon + θ') = _; rw [h2, g2]; simp only [h1]; push_cast; ring⟩

end Bark.Rigid
