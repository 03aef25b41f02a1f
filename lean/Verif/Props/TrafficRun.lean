import Verif.Props.TrafficLane

/-!
C201: any number of steps of the traffic on a straight lane, and no collision at its end.
-/
set_option linter.unusedSectionVars false
namespace Bark.Flow
open Bark Bark.Ln Bark.Ln.Spec Bark.Fren Bark.Flow.Spec Bark.Angle

variable {Box Lane : Type}

theorem unit_of_dir {a b : Pt} {θ : ℝ} (h : HasDir (vec a b) θ) : unit a b = (Real.cos θ, Real.sin θ) := by
  obtain ⟨c, hc, e⟩ := h
  have e1 : b.1 - a.1 = c * Real.cos θ := congrArg Prod.fst e
  have e2 : b.2 - a.2 = c * Real.sin θ := congrArg Prod.snd e
  have hd : pdist a b = c := by
    unfold pdist
    rw [show (a.1 - b.1) * (a.1 - b.1) + (a.2 - b.2) * (a.2 - b.2) = c ^ 2 by
      have := Real.sin_sq_add_cos_sq θ
      calc _ = (b.1 - a.1) ^ 2 + (b.2 - a.2) ^ 2 := by ring
        _ = c ^ 2 * (Real.sin θ ^ 2 + Real.cos θ ^ 2) := by rw [e1, e2]; ring
        _ = c ^ 2 := by rw [this, mul_one], Real.sqrt_sq hc.le]
  unfold unit
  rw [hd, e1, e2, mul_div_cancel_left₀ _ hc.ne', mul_div_cancel_left₀ _ hc.ne']

/-- the position of a point along the lane -/
theorem along_lin (e : ℝ × ℝ) : IsLinearMap ℝ fun p : ℝ × ℝ => p.1 * e.1 + p.2 * e.2 :=
  ⟨fun p q => by simp only [Prod.fst_add, Prod.snd_add]; ring, fun c p => by simp only [Prod.smul_fst, Prod.smul_snd, smul_eq_mul]; ring⟩

/-- a body lies between its rear and its front -/
theorem body_between {a b : Pt} {θ s : ℝ} (hθ : HasDir (vec a b) θ) {sh : Shape.Poly} (hp : Placed sh) :
    ∀ p ∈ body sh (onLane a b s) θ, (a.1 * Real.cos θ + a.2 * Real.sin θ) + s - sh.rear ≤ p.1 * Real.cos θ + p.2 * Real.sin θ ∧
      p.1 * Real.cos θ + p.2 * Real.sin θ ≤ (a.1 * Real.cos θ + a.2 * Real.sin θ) + s + sh.front := by
  have hu := unit_of_dir hθ
  have key : ∀ p ∈ {r : ℝ × ℝ | ∃ p ∈ sh.pts, r = ((onLane a b s).1 + (Real.cos θ * p.1 - Real.sin θ * p.2), (onLane a b s).2 + (Real.sin θ * p.1 + Real.cos θ * p.2))},
      (a.1 * Real.cos θ + a.2 * Real.sin θ) + s - sh.rear ≤ p.1 * Real.cos θ + p.2 * Real.sin θ ∧
      p.1 * Real.cos θ + p.2 * Real.sin θ ≤ (a.1 * Real.cos θ + a.2 * Real.sin θ) + s + sh.front := by
    rintro p ⟨q, hq, rfl⟩
    have hsc := Real.sin_sq_add_cos_sq θ
    have := hp.outline q hq
    unfold onLane
    rw [hu]
    dsimp only
    have e : (a.1 + s * Real.cos θ + (Real.cos θ * q.1 - Real.sin θ * q.2)) * Real.cos θ + (a.2 + s * Real.sin θ + (Real.sin θ * q.1 + Real.cos θ * q.2)) * Real.sin θ =
        (a.1 * Real.cos θ + a.2 * Real.sin θ) + (s + q.1) * (Real.sin θ ^ 2 + Real.cos θ ^ 2) := by ring
    rw [e, hsc]
    constructor <;> linarith [this.1, this.2]
  intro p h
  have h1 := convexHull_min (fun p hp => (key p hp).1) (convex_halfSpace_ge (along_lin (Real.cos θ, Real.sin θ)) _) h
  have h2 := convexHull_min (fun p hp => (key p hp).2) (convex_halfSpace_le (along_lin (Real.cos θ, Real.sin θ)) _) h
  exact ⟨h1, h2⟩

/-- with a gap between them two bodies have nothing in common -/
theorem bodies_apart {a b : Pt} {θ θ' s s' : ℝ} (hθ : HasDir (vec a b) θ) (hθ' : HasDir (vec a b) θ') {sh sh' : Shape.Poly} (hp : Placed sh)
    (hp' : Placed sh') (hg : 0 < gap sh sh' s s') : Disjoint (body sh (onLane a b s) θ) (body sh' (onLane a b s') θ') := by
  rw [Set.disjoint_left]
  intro p h1 h2
  have k1 := (body_between hθ hp p h1).2
  have k2 := (body_between hθ' hp' p h2).1
  have e := (unit_of_dir hθ).symm.trans (unit_of_dir hθ')
  simp only [Prod.mk.injEq] at e
  rw [← e.1, ← e.2] at k2
  unfold gap at hg
  linarith

/-- the outline of a vehicle is that of its body -/
theorem outline_body {sh : Shape.Poly} (hp : Placed sh) (t x y θ v : ℝ) : convexHull ℝ {r : ℝ × ℝ | r ∈ (outline sh (t, x, y, θ, v)).pts} = body sh (x, y) θ := by
  unfold body outline entries Shape.outlineAt Shape.transform
  dsimp only
  congr 1
  ext r
  rw [hp.center]
  simp only [Set.mem_setOf_eq, List.mem_map, Shape.shift, Shape.clockwise, Real.cos_neg, Real.sin_neg]
  constructor
  · rintro ⟨p, h, rfl⟩
    refine ⟨p, h, ?_⟩
    ext <;> simp <;> ring
  · rintro ⟨p, h, rfl⟩
    refine ⟨p, h, ?_⟩
    ext <;> simp <;> ring

/-- any number of steps -/
theorem good_run {u : Setup Box Lane} {lane : Lane} {L : ℝ} {At : ℝ → Pt → ℝ → Prop} (hu : Setting u lane L At) (dts : List ℝ) (hpos : ∀ d ∈ dts, 0 < d ∧ d ≤ 1 / 5) :
    ∀ {w : W Box} {x : Nat → ℝ × ℝ}, Good u L At dts.sum w x → ∃ (w' : W Box) (x' : Nat → ℝ × ℝ), World.run (plug u) w (Loop.Spec.steps dts) = .ok w' ∧ Good u L At 0 w' x' ∧
      (∀ i, w'.getAgent i = none ↔ w.getAgent i = none) ∧
      (∀ i ag a1, w.getAgent i = some ag → w'.getAgent i = some a1 → a1.shape = ag.shape) ∧
      ∀ i j ai aj, w.getAgent i = some ai → w.getAgent j = some aj → i ≠ j → (x i).1 ≤ (x j).1 → (x' i).1 ≤ (x' j).1 := by
  induction dts with
  | nil =>
    intro w x hg
    refine ⟨w, x, rfl, by simpa using hg, fun i => Iff.rfl, ?_, fun i j ai aj _ _ _ h => h⟩
    intro i ag a1 h1 h2
    rw [h1] at h2; cases h2; rfl
  | cons dt dts ih =>
    intro w x hg
    obtain ⟨w1, h1, hw1⟩ := Props.apply_wf (plug u) hg.wf (World.Op.step dt) trivial
    have h1s : World.step (plug u) dt w = .ok w1 := h1
    obtain ⟨hdt, hdt5⟩ := hpos dt (by simp)
    have hsum : 0 ≤ dts.sum := List.sum_nonneg fun d hd => (hpos d (by simp [hd])).1.le
    rw [List.sum_cons] at hg
    obtain ⟨x1, g1, n1, s1, o1⟩ := good_step hu hg hdt hdt5 hsum h1s
    obtain ⟨w', x', r, g2, n2, s2, o2⟩ := ih (fun d hd => hpos d (by simp [hd])) g1
    have ex : ∀ i ag, w.getAgent i = some ag → ∃ a1, w1.getAgent i = some a1 := by
      intro i ag hi
      refine Option.ne_none_iff_exists'.1 fun e => ?_
      rw [(n1 i).1 e] at hi; cases hi
    refine ⟨w', x', ?_, g2, fun i => (n2 i).trans (n1 i), ?_, ?_⟩
    · unfold Loop.Spec.steps
      rw [List.map_cons]
      unfold World.run
      rw [h1, Res.ok_bind]
      exact r
    · intro i ag a2 hi h2
      obtain ⟨a1, e1⟩ := ex i ag hi
      rw [s2 i a1 a2 e1 h2, s1 i ag a1 hi e1]
    · intro i j ai aj hi hj hij hle
      obtain ⟨a1, e1⟩ := ex i ai hi
      obtain ⟨a2, e2⟩ := ex j aj hj
      exact o2 i j a1 a2 e1 e2 hij (o1 i j ai aj hi hj hij hle)

/-- the run of C201 and C202 -/
theorem traffic_run {u : Setup Box Lane} {lane : Lane} {L : ℝ} {At : ℝ → Pt → ℝ → Prop} (hu : Setting u lane L At) {w : W Box} (hw : Props.WellFormed w)
    (hoff : w.removeAgents = false)
    (hmany : w.agents.length ≤ u.maxAgents + 1) (dts : List ℝ) (hpos : ∀ d ∈ dts, 0 < d ∧ d ≤ 1 / 5) {x : Nat → ℝ × ℝ}
    (hride : ∀ i ag, w.getAgent i = some ag → Rides At w.time (x i).1 (x i).2 ag ∧ 0 ≤ (x i).2 ∧ (x i).2 ≤ 15 ∧
      dts.sum / 20 ≤ (x i).1 ∧ (x i).1 + 16 * dts.sum ≤ L)
    (hclear : AllClear w x) :
    ∃ (w' : W Box) (x' : Nat → ℝ × ℝ), World.run (plug u) w (Loop.Spec.steps dts) = .ok w' ∧ w'.time = w.time + dts.sum ∧
      (∀ i, w'.getAgent i = none ↔ w.getAgent i = none) ∧
      (∀ i ag a1, w.getAgent i = some ag → w'.getAgent i = some a1 → a1.shape = ag.shape) ∧
      (∀ i a1, w'.getAgent i = some a1 → Rides At w'.time (x' i).1 (x' i).2 a1 ∧ 0 ≤ (x' i).2 ∧ (x' i).2 ≤ 15 ∧ 0 ≤ (x' i).1 ∧ (x' i).1 ≤ L) ∧
      (∀ i j ai aj, w.getAgent i = some ai → w.getAgent j = some aj → i ≠ j → (x i).1 ≤ (x j).1 → (x' i).1 ≤ (x' j).1) ∧
      AllClear w' x' ∧ Props.WellFormed w' := by
  obtain ⟨w', x', r, g, n, s, o⟩ := good_run hu dts hpos (w := w) (x := x) ⟨hw, hoff, hmany, hride, hclear⟩
  obtain ⟨w2, r2, ht⟩ := Loop.C180_clock (plug u) hw dts
  rw [r] at r2; cases r2
  refine ⟨w', x', r, ?_, n, s, ?_, o, g.clear, g.wf⟩
  · rw [ht]; unfold Loop.Spec.timeAt; rw [List.take_length]
  · intro i a1 hi
    obtain ⟨k1, k2, k3, k4, k5⟩ := g.rides i a1 hi
    exact ⟨k1, k2, k3, by linarith, by linarith⟩

/-- vehicles that are clear of each other on a straight lane do not touch -/
theorem no_contact {u : Setup Box Lane} {a b : Pt} {w' : W Box} {x' : Nat → ℝ × ℝ} (hcl : AllClear w' x') (hwf : Props.WellFormed w')
    (hrd : ∀ i a1, w'.getAgent i = some a1 → Rides (straightAt a b) w'.time (x' i).1 (x' i).2 a1) :
    (∀ i j ai aj t p θ v t' p' θ' v', w'.getAgent i = some ai → w'.getAgent j = some aj → i ≠ j → ai.currentState = .ok (t, p.1, p.2, θ, v) →
        aj.currentState = .ok (t', p'.1, p'.2, θ', v') → Disjoint (body ai.shape p θ) (body aj.shape p' θ')) ∧
      ∀ collide, Sound collide → Eval.collisionAgents (plug u) outline collide w' = .ok false := by
  have hb : ∀ i j ai aj t p θ v t' p' θ' v', w'.getAgent i = some ai → w'.getAgent j = some aj → i ≠ j → ai.currentState = .ok (t, p.1, p.2, θ, v) →
      aj.currentState = .ok (t', p'.1, p'.2, θ', v') → Disjoint (body ai.shape p θ) (body aj.shape p' θ') := by
    intro i j ai aj t p θ v t' p' θ' v' hi hj hij ei ej
    obtain ⟨_, θ₁, ⟨rfl, d1⟩, c1⟩ := (hrd i ai hi).state
    obtain ⟨_, θ₂, ⟨rfl, d2⟩, c2⟩ := (hrd j aj hj).state
    rw [c1] at ei; rw [c2] at ej
    simp only [Except.ok.injEq, Prod.mk.injEq] at ei ej
    obtain ⟨-, ex, ey, eθ, -⟩ := ei
    obtain ⟨-, ex', ey', eθ', -⟩ := ej
    rw [show p = onLane a b (x' i).1 from Prod.ext ex.symm ey.symm, show p' = onLane a b (x' j).1 from Prod.ext ex'.symm ey'.symm, ← eθ, ← eθ']
    have pi := (hrd i ai hi).shape
    have pj := (hrd j aj hj).shape
    rcases le_total (x' i).1 (x' j).1 with h | h
    · exact bodies_apart d1 d2 pi pj (hcl i j ai aj hi hj hij h).1
    · exact (bodies_apart d2 d1 pj pi (hcl j i aj ai hj hi hij.symm h).1).symm
  refine ⟨hb, ?_⟩
  · intro collide hc
    obtain ⟨res, e1, e2⟩ := Eval.C40_agents (plug u) outline collide hwf.1 (fun p hp => (hwf.2.1 p.1 p.2 (OMap.mem_find_some hwf.1 hp)).1)
    rw [e1]
    cases res with
    | false => rfl
    | true =>
      obtain ⟨i, j, ai, aj, si, sj, hij, ⟨ti, -, -, hi⟩, ⟨tj, -, -, hj⟩, hcol⟩ := e2.1 rfl
      have ci := (Eval.currentState_iff ai si).2 hi
      have cj := (Eval.currentState_iff aj sj).2 hj
      have ne := hc _ _ hcol
      obtain ⟨t, x1, y1, θ, v⟩ := si
      obtain ⟨t', x2, y2, θ', v'⟩ := sj
      rw [outline_body (hrd i ai ti).shape, outline_body (hrd j aj tj).shape] at ne
      have := hb i j ai aj t (x1, y1) θ v t' (x2, y2) θ' v' ti tj hij ci cj
      exact absurd ne (by rw [Set.not_nonempty_iff_eq_empty]; exact Set.disjoint_iff_inter_eq_empty.1 this)

/-- C201: any number of vehicles (at most one more than the search looks at) with the classic IDM in its default configuration on a straight lane, all with room
to the one ahead and able to stop before it: after any number of simulation steps of at most 0.2 s that leave everyone on the lane, no planning and no execution
went wrong, all are still there in the same order, centred on the lane and directed along it, not reversing and no faster than desired, any two again have
room and could stop, no two bodies touch, and the collision evaluator reports nothing -/
theorem C201_traffic {u : Setup Box Lane} {lane : Lane} {a b : Pt} (hu : Straight u lane a b) {w : W Box} (hw : Props.WellFormed w) (hoff : w.removeAgents = false)
    (hmany : w.agents.length ≤ u.maxAgents + 1) (dts : List ℝ) (hpos : ∀ d ∈ dts, 0 < d ∧ d ≤ 1 / 5) {x : Nat → ℝ × ℝ}
    (hride : ∀ i ag, w.getAgent i = some ag → Rides (straightAt a b) w.time (x i).1 (x i).2 ag ∧ 0 ≤ (x i).2 ∧ (x i).2 ≤ 15 ∧
      dts.sum / 20 ≤ (x i).1 ∧ (x i).1 + 16 * dts.sum ≤ pdist a b)
    (hclear : AllClear w x) :
    ∃ (w' : W Box) (x' : Nat → ℝ × ℝ), World.run (plug u) w (Loop.Spec.steps dts) = .ok w' ∧ w'.time = w.time + dts.sum ∧
      (∀ i, w'.getAgent i = none ↔ w.getAgent i = none) ∧
      (∀ i ag a1, w.getAgent i = some ag → w'.getAgent i = some a1 → a1.shape = ag.shape) ∧
      (∀ i a1, w'.getAgent i = some a1 → Rides (straightAt a b) w'.time (x' i).1 (x' i).2 a1 ∧ 0 ≤ (x' i).2 ∧ (x' i).2 ≤ 15 ∧ 0 ≤ (x' i).1 ∧ (x' i).1 ≤ pdist a b) ∧
      (∀ i j ai aj, w.getAgent i = some ai → w.getAgent j = some aj → i ≠ j → (x i).1 ≤ (x j).1 → (x' i).1 ≤ (x' j).1) ∧
      AllClear w' x' ∧
      (∀ i j ai aj t p θ v t' p' θ' v', w'.getAgent i = some ai → w'.getAgent j = some aj → i ≠ j → ai.currentState = .ok (t, p.1, p.2, θ, v) →
        aj.currentState = .ok (t', p'.1, p'.2, θ', v') → Disjoint (body ai.shape p θ) (body aj.shape p' θ')) ∧
      ∀ collide, Sound collide → Eval.collisionAgents (plug u) outline collide w' = .ok false := by
  obtain ⟨w', x', r, ht, n, s, hrd, o, hcl, hwf⟩ := traffic_run (setting_straight hu) hw hoff hmany dts hpos hride hclear
  obtain ⟨hb, hn⟩ := no_contact hcl hwf (fun i a1 hi => (hrd i a1 hi).1)
  exact ⟨w', x', r, ht, n, s, hrd, o, hcl, hb, hn⟩

/-- C202: the same on any lane whose centre line does not meet itself: after any number of steps nothing went wrong, all are still there in the same order, on the
centre line and directed along it, not reversing, no faster than desired, and along the line any two again have room and could stop -/
theorem C202_winding {u : Setup Box Lane} {lane : Lane} {pts : List Pt} (hu : Winding u lane pts) {w : W Box} (hw : Props.WellFormed w) (hoff : w.removeAgents = false)
    (hmany : w.agents.length ≤ u.maxAgents + 1) (dts : List ℝ) (hpos : ∀ d ∈ dts, 0 < d ∧ d ≤ 1 / 5) {x : Nat → ℝ × ℝ}
    (hride : ∀ i ag, w.getAgent i = some ag → Rides (alongAt pts) w.time (x i).1 (x i).2 ag ∧ 0 ≤ (x i).2 ∧ (x i).2 ≤ 15 ∧
      dts.sum / 20 ≤ (x i).1 ∧ (x i).1 + 16 * dts.sum ≤ Ln.length pts)
    (hclear : AllClear w x) :
    ∃ (w' : W Box) (x' : Nat → ℝ × ℝ), World.run (plug u) w (Loop.Spec.steps dts) = .ok w' ∧ w'.time = w.time + dts.sum ∧
      (∀ i, w'.getAgent i = none ↔ w.getAgent i = none) ∧
      (∀ i ag a1, w.getAgent i = some ag → w'.getAgent i = some a1 → a1.shape = ag.shape) ∧
      (∀ i a1, w'.getAgent i = some a1 → Rides (alongAt pts) w'.time (x' i).1 (x' i).2 a1 ∧ 0 ≤ (x' i).2 ∧ (x' i).2 ≤ 15) ∧
      (∀ i j ai aj, w.getAgent i = some ai → w.getAgent j = some aj → i ≠ j → (x i).1 ≤ (x j).1 → (x' i).1 ≤ (x' j).1) ∧
      AllClear w' x' := by
  obtain ⟨w', x', r, ht, n, s, hrd, o, hcl, -⟩ := traffic_run (setting_winding hu) hw hoff hmany dts hpos hride hclear
  exact ⟨w', x', r, ht, n, s, fun i a1 hi => ⟨(hrd i a1 hi).1, (hrd i a1 hi).2.1, (hrd i a1 hi).2.2.1⟩, o, hcl⟩

/-- only the nearest `MaxAgentsFrontRear` + 1 vehicles are considered, in whatever direction they are: if all of these are behind, a vehicle drives
as on a free road, whatever is ahead and however close -/
theorem unseen {u : Setup Box Lane} {lane : Lane} {L : ℝ} {At : ℝ → Pt → ℝ → Prop} (hu : Setting u lane L At) {w w1 : W Box} (hw : Props.WellFormed w) (hoff : w.removeAgents = false)
    {x : Nat → ℝ × ℝ} (hride : ∀ i ag, w.getAgent i = some ag → Rides At w.time (x i).1 (x i).2 ag ∧ 0 ≤ (x i).1 ∧ (x i).1 ≤ L)
    (hclear : AllClear w x) {i : Nat} {ag : Agent ℝ V5 CAcc.Act Beh (Res (Interp.Exec V5)) Shape.Poly} (hi : w.getAgent i = some ag) (hv0 : 0 ≤ (x i).2) (h15 : (x i).2 ≤ 15)
    (hun : ∀ index, World.rtreeOf (plug u) w.agents = .ok index → ∀ ex, ag.currentState = .ok ex → ∀ j aj bx, w.getAgent j = some aj →
      (bx, j) ∈ u.nearest ex (u.maxAgents + 1) index → j ≠ i → (x j).1 < (x i).1)
    {dt : ℝ} (hdt : 0 < dt) (hdt5 : dt ≤ 1 / 5) (hs : dt / 20 ≤ (x i).1) (hL : (x i).1 + 16 * dt ≤ L) (h : World.step (plug u) dt w = .ok w1) :
    ∃ a1, w1.getAgent i = some a1 ∧ a1.shape = ag.shape ∧ Rides At w1.time
      ((x i).1 + (x i).2 * dt + 1 / 2 * (1.7 * (1 - ((x i).2 / 15) ^ 4)) * dt ^ 2) ((x i).2 + 1.7 * (1 - ((x i).2 / 15) ^ 4) * dt) a1 := by
  obtain ⟨hr, h0, -⟩ := hride i ag hi
  obtain ⟨_, _, _, hst⟩ := hr.state
  obtain ⟨o, index, -, f1, -, -⟩ := step_fresh (plug u) hw h hi
  have f1' := f1
  rw [rtreeOf_same] at f1
  obtain ⟨r, hrel, -, hcase⟩ := reacts_near hu (w := { w with rtree := index }) hw f1 (x := x) hride hclear hi hst 0 hr.action
  have hno : r.hasLeader = false := by
    rcases hcase with ⟨e, -⟩ | ⟨j, aj, hj, ⟨bx, hb⟩, hne, hle, -⟩
    · exact e
    · exact absurd (hun index f1' _ hst j aj bx hj hb hne) (not_lt.2 hle)
  obtain ⟨tr, z, e1, -, e3, e4, -, -, -, e5⟩ := Loop.planIdm_desired (r := r) Loop.dflt_sane rfl (by norm_num [Loop.dflt]) (by norm_num [Loop.dflt])
    (by norm_num [Loop.dflt]) (by norm_num [Loop.dflt]) (by norm_num [Loop.dflt]) (by norm_num [Loop.dflt]) (by norm_num [Loop.dflt]) hdt.le
    (by norm_num [Loop.dflt]; linarith) (w.time, (x i).1, (x i).2) (by norm_num [Loop.dflt]; exact hv0) (by norm_num [Loop.dflt]; exact h15)
  obtain ⟨k1, k2⟩ := e5 hno (by norm_num [Loop.dflt])
  have hacc : Loop.freeAcc Loop.dflt (x i).2 = 1.7 * (1 - ((x i).2 / 15) ^ 4) := by
    have h1 : ((x i).2 / 15) ^ 4 ≤ 1 := pow_le_one₀ (by positivity) (by linarith)
    have h2 : 0 ≤ ((x i).2 / 15) ^ 4 := by positivity
    unfold Loop.freeAcc Loop.dflt
    dsimp only
    rw [min_eq_left (by norm_num at h1 h2 ⊢; linarith), max_eq_left (by norm_num at h1 h2 ⊢; linarith)]
  dsimp only at k1 k2
  rw [hacc] at k1 k2
  obtain ⟨a1, g1, g2, g3⟩ := agent_step hu hw hoff hdt hdt5 h hi hr hv0 h15 hs hL
    (fun len index' hidx => by
      rw [f1] at hidx; cases hidx
      rw [observed_len hu.brake len 0]
      exact hrel) e1 e3 e4
  refine ⟨a1, g1, g2, ?_⟩
  rw [← k1, ← k2]
  exact g3

/-- C201: only the nearest `MaxAgentsFrontRear` + 1 vehicles are considered, in whatever direction they are: if all of these are behind, a vehicle drives
as on a free road, whatever is ahead and however close -/
theorem C201_unseen {u : Setup Box Lane} {lane : Lane} {a b : Pt} (hu : Straight u lane a b) {w w1 : W Box} (hw : Props.WellFormed w) (hoff : w.removeAgents = false)
    {x : Nat → ℝ × ℝ} (hride : ∀ i ag, w.getAgent i = some ag → Rides (straightAt a b) w.time (x i).1 (x i).2 ag ∧ 0 ≤ (x i).1 ∧ (x i).1 ≤ pdist a b)
    (hclear : AllClear w x) {i : Nat} {ag : Agent ℝ V5 CAcc.Act Beh (Res (Interp.Exec V5)) Shape.Poly} (hi : w.getAgent i = some ag) (hv0 : 0 ≤ (x i).2) (h15 : (x i).2 ≤ 15)
    (hun : ∀ index, World.rtreeOf (plug u) w.agents = .ok index → ∀ ex, ag.currentState = .ok ex → ∀ j aj bx, w.getAgent j = some aj →
      (bx, j) ∈ u.nearest ex (u.maxAgents + 1) index → j ≠ i → (x j).1 < (x i).1)
    {dt : ℝ} (hdt : 0 < dt) (hdt5 : dt ≤ 1 / 5) (hs : dt / 20 ≤ (x i).1) (hL : (x i).1 + 16 * dt ≤ pdist a b) (h : World.step (plug u) dt w = .ok w1) :
    ∃ a1, w1.getAgent i = some a1 ∧ a1.shape = ag.shape ∧ Rides (straightAt a b) w1.time
      ((x i).1 + (x i).2 * dt + 1 / 2 * (1.7 * (1 - ((x i).2 / 15) ^ 4)) * dt ^ 2) ((x i).2 + 1.7 * (1 - ((x i).2 / 15) ^ 4) * dt) a1 :=
  unseen (setting_straight hu) hw hoff hride hclear hi hv0 h15 hun hdt hdt5 hs hL h

/-! ### a road -/

/-- one metre long -/
noncomputable def block : Shape.Poly := ⟨[(-1/2, -1/2), (-1/2, 1/2), (1/2, 1/2), (1/2, -1/2)], ⟨0, 0, 0⟩, 1/2, 1/2, 1/2, 1/2⟩

theorem block_placed : Placed block := by
  refine ⟨rfl, ?_, by norm_num [block], by norm_num [block], by norm_num [block]⟩
  intro p hp
  simp only [block, List.mem_cons, List.not_mem_nil, or_false] at hp ⊢
  rcases hp with rfl | rfl | rfl | rfl <;> norm_num

/-- vehicle `i` at `s` with velocity `v` -/
noncomputable def mover (i : Nat) (s v : ℝ) : Agent ℝ V5 CAcc.Act Beh (Res (Interp.Exec V5)) Shape.Poly :=
  { id := i, behavior := ⟨.valid, .ok [], .continuous 0⟩, exec := .ok ⟨none, [], .valid⟩, history := [((0, s, 0, 0, v), .continuous 0)], maxHist := 20, firstValid := 0,
    shape := block }

/-- a road of 1 km; the index keeps the position of every vehicle -/
noncomputable def road : Setup ℝ Unit where
  idm := Loop.dflt
  thr := ⟨0, 3 / 4 * Real.pi, 0⟩
  maxAgents := 4
  laneEnd := ⟨false, 0, 0⟩
  roads := ⟨fun _ => ofArray [(0, 0), (1000, 0)], fun _ _ => True⟩
  corridor _ := some ()
  lengthLeft _ p := 1000 - p.1
  envelope _ x := x.2.1
  within _ _ := true
  nearest x k index := (index.insertionSort fun p q => |p.1 - x.2.1| ≤ |q.1 - x.2.1|).take k
  boxHit _ _ := true
  collide _ _ := true
  big := 10 ^ 300

theorem nearest_sorted {α : Type} (f : α → ℝ) (k : Nat) (l : List α) :
    EvalSpec.IsKNearest k f l ((l.insertionSort fun p q => f p ≤ f q).take k) := by
  have hp : (l.insertionSort fun p q => f p ≤ f q).Perm l := List.perm_insertionSort _ l
  haveI : Std.Total (fun p q => f p ≤ f q) := ⟨fun p q => le_total _ _⟩
  haveI : IsTrans α (fun p q => f p ≤ f q) := ⟨fun p q r h1 h2 => le_trans h1 h2⟩
  have hs := List.pairwise_insertionSort (fun p q => f p ≤ f q) l
  refine ⟨by rw [List.length_take, hp.length_eq], (List.take_sublist _ _).subperm.trans hp.subperm, ?_⟩
  intro x hx y hy hn
  have hy' := hp.symm.subset hy
  rw [← List.take_append_drop k (l.insertionSort fun p q => f p ≤ f q)] at hy' hs
  rcases List.mem_append.1 hy' with h | h
  · exact absurd h hn
  · exact (List.pairwise_append.1 hs).2.2 x hx y h

theorem road_len : pdist (0, 0) (1000, 0) = 1000 := by
  unfold pdist
  norm_num
  rw [show (1000000 : ℝ) = 1000 ^ 2 by norm_num, Real.sqrt_sq (by norm_num)]

theorem road_straight : Straight road () (0, 0) (1000, 0) := by
  refine ⟨⟨rfl, rfl, rfl, fun x => ⟨fun p => |p.1 - x.2.1|, fun k index => nearest_sorted (fun p => |p.1 - x.2.1|) k index⟩⟩, ?_, rfl, fun _ _ _ => rfl, ?_⟩
  · intro h
    have := congrArg Prod.fst h
    norm_num at this
  · rw [road_len]
    show (1000 : ℝ) < 10 ^ 300
    exact lt_of_lt_of_le (by norm_num : (1000 : ℝ) < 10 ^ 4) (pow_le_pow_right₀ (by norm_num) (by norm_num))

theorem road_point (s : ℝ) : onLane (0, 0) (1000, 0) s = (s, 0) := by
  unfold onLane unit
  rw [road_len]
  norm_num

theorem mover_rides (i : Nat) (s v : ℝ) : Rides (straightAt (0, 0) (1000, 0)) 0 s v (mover i s v) := by
  refine ⟨le_refl _, rfl, .continuous 0, ⟨_, rfl, rfl⟩, ⟨_, 0, ⟨rfl, 1000, by norm_num, by simp [vec]⟩, ?_⟩, block_placed⟩
  rw [road_point]
  rfl

/-- a world of such vehicles -/
noncomputable def traffic (l : List (Nat × Agent ℝ V5 CAcc.Act Beh (Res (Interp.Exec V5)) Shape.Poly)) : W ℝ :=
  { agents := l, time := 0, rtree := [], removeAgents := false, mapBox := none, observer := () }

/-- a standing vehicle, one approaching it from 80 m with 15 m/s, a third one right behind -/
noncomputable def three : W ℝ := traffic [(0, mover 0 300 0), (1, mover 1 220 15), (2, mover 2 215 14)]

theorem three_get {i : Nat} {ag} (h : three.getAgent i = some ag) : (i = 0 ∧ ag = mover 0 300 0) ∨ (i = 1 ∧ ag = mover 1 220 15) ∨ (i = 2 ∧ ag = mover 2 215 14) := by
  have hm := OMap.find_some_mem h
  simpa only [three, traffic, List.mem_cons, List.not_mem_nil, or_false, Prod.mk.injEq] using hm

theorem three_wf : Props.WellFormed three := by
  refine ⟨by simp [OMap.Sorted, three, traffic], ?_, by simp [three, traffic]⟩
  intro id a h
  rcases three_get h with ⟨rfl, rfl⟩ | ⟨rfl, rfl⟩ | ⟨rfl, rfl⟩ <;> simp [mover]

/-- the hypotheses are met: whatever the step, up to 40 s these never collide -/
example (n : Nat) (hn : n ≤ 200) : ∃ w' : W ℝ, World.run (plug road) three (Loop.Spec.steps (List.replicate n (1 / 5))) = .ok w' ∧ w'.time = n / 5 ∧
    ∀ collide, Sound collide → Eval.collisionAgents (plug road) outline collide w' = .ok false := by
  have hsum : (List.replicate n (1 / 5 : ℝ)).sum = n / 5 := by rw [List.sum_replicate]; simp; ring
  have hn' : (n : ℝ) ≤ 200 := by exact_mod_cast hn
  have hn0 : (0 : ℝ) ≤ n := Nat.cast_nonneg n
  obtain ⟨w', x', h1, h2, -, -, -, -, -, -, h3⟩ := C201_traffic road_straight three_wf rfl (by decide) (List.replicate n (1 / 5))
    (by intro d hd; rw [List.eq_of_mem_replicate hd]; norm_num) (x := fun i => if i = 0 then (300, 0) else if i = 1 then (220, 15) else (215, 14))
    (by
      intro i ag h
      rw [hsum, road_len]
      rcases three_get h with ⟨rfl, rfl⟩ | ⟨rfl, rfl⟩ | ⟨rfl, rfl⟩
      · exact ⟨mover_rides _ _ _, by norm_num, by norm_num, by norm_num; linarith, by norm_num; linarith⟩
      · exact ⟨mover_rides _ _ _, by norm_num, by norm_num, by norm_num; linarith, by norm_num; linarith⟩
      · exact ⟨mover_rides _ _ _, by norm_num, by norm_num, by norm_num; linarith, by norm_num; linarith⟩)
    (by
      intro i j ai aj hi hj hij hle
      rcases three_get hi with ⟨rfl, rfl⟩ | ⟨rfl, rfl⟩ | ⟨rfl, rfl⟩ <;> rcases three_get hj with ⟨rfl, rfl⟩ | ⟨rfl, rfl⟩ | ⟨rfl, rfl⟩ <;>
        first
        | exact absurd rfl hij
        | (norm_num at hle; done)
        | (unfold Loop.Spec.Clear gap mover block; norm_num))
  refine ⟨w', h1, ?_, h3⟩
  rw [h2, hsum]
  exact zero_add _

/-- a slow vehicle, one approaching it, and four more right behind that one -/
noncomputable def six : W ℝ := traffic [(0, mover 0 524 0), (1, mover 1 500 15), (2, mover 2 498 15), (3, mover 3 496 15), (4, mover 4 494 15), (5, mover 5 492 15)]

theorem six_get {i : Nat} {ag} (h : six.getAgent i = some ag) : (i = 0 ∧ ag = mover 0 524 0) ∨ (i = 1 ∧ ag = mover 1 500 15) ∨ (i = 2 ∧ ag = mover 2 498 15) ∨
    (i = 3 ∧ ag = mover 3 496 15) ∨ (i = 4 ∧ ag = mover 4 494 15) ∨ (i = 5 ∧ ag = mover 5 492 15) := by
  have hm := OMap.find_some_mem h
  simpa only [six, traffic, List.mem_cons, List.not_mem_nil, or_false, Prod.mk.injEq] using hm

theorem six_wf : Props.WellFormed six := by
  refine ⟨by simp [OMap.Sorted, six, traffic], ?_, by simp [six, traffic]⟩
  intro id a h
  rcases six_get h with ⟨rfl, rfl⟩ | ⟨rfl, rfl⟩ | ⟨rfl, rfl⟩ | ⟨rfl, rfl⟩ | ⟨rfl, rfl⟩ | ⟨rfl, rfl⟩ <;> simp [mover]

/-- where they are and how fast -/
noncomputable def sixAt (i : Nat) : ℝ × ℝ := if i = 0 then (524, 0) else (502 - 2 * i, 15)

theorem six_ride (i : Nat) (ag) (h : six.getAgent i = some ag) : Rides (straightAt (0, 0) (1000, 0)) six.time (sixAt i).1 (sixAt i).2 ag ∧ 0 ≤ (sixAt i).1 ∧ (sixAt i).1 ≤ pdist (0, 0) (1000, 0) := by
  rw [road_len]
  rcases six_get h with ⟨rfl, rfl⟩ | ⟨rfl, rfl⟩ | ⟨rfl, rfl⟩ | ⟨rfl, rfl⟩ | ⟨rfl, rfl⟩ | ⟨rfl, rfl⟩
  all_goals
    unfold sixAt
    norm_num
    exact mover_rides _ _ _

theorem six_clear : AllClear six sixAt := by
  intro i j ai aj hi hj hij hle
  rcases six_get hi with ⟨rfl, rfl⟩ | ⟨rfl, rfl⟩ | ⟨rfl, rfl⟩ | ⟨rfl, rfl⟩ | ⟨rfl, rfl⟩ | ⟨rfl, rfl⟩ <;>
    rcases six_get hj with ⟨rfl, rfl⟩ | ⟨rfl, rfl⟩ | ⟨rfl, rfl⟩ | ⟨rfl, rfl⟩ | ⟨rfl, rfl⟩ | ⟨rfl, rfl⟩ <;>
    first
    | exact absurd rfl hij
    | (exfalso; unfold sixAt at hle; norm_num at hle; done)
    | (unfold Loop.Spec.Clear gap mover block sixAt; norm_num)

theorem six_index : World.rtreeOf (plug road) six.agents = .ok [(524, 0), (500, 1), (498, 2), (496, 3), (494, 4), (492, 5)] := rfl

/-- the slow vehicle is not among the five nearest to the one approaching it -/
theorem six_unseen (ex : V5) (hex : ex.2.1 = 500) : ∀ bx, (bx, 0) ∉ road.nearest ex 5 [(524, 0), (500, 1), (498, 2), (496, 3), (494, 4), (492, 5)] := by
  intro bx hb
  obtain ⟨h1, h2, h3⟩ := nearest_sorted (fun p : ℝ × Nat => |p.1 - ex.2.1|) 5 [(524, 0), (500, 1), (498, 2), (496, 3), (494, 4), (492, 5)]
  set r := List.take 5 (List.insertionSort (fun p q : ℝ × Nat => |p.1 - ex.2.1| ≤ |q.1 - ex.2.1|) [(524, 0), (500, 1), (498, 2), (496, 3), (494, 4), (492, 5)]) with hr
  have hb' : (bx, 0) ∈ r := hb
  have hbx : bx = 524 := by
    have := h2.subset hb'
    simpa using this
  subst hbx
  have hmiss : ∃ y ∈ ([(524, 0), (500, 1), (498, 2), (496, 3), (494, 4), (492, 5)] : List (ℝ × Nat)), y ∉ r := by
    by_contra hcon
    push Not at hcon
    have hnd : ([(524, 0), (500, 1), (498, 2), (496, 3), (494, 4), (492, 5)] : List (ℝ × Nat)).Nodup := by
      apply List.Nodup.of_map Prod.snd
      decide
    have := (List.subperm_of_subset hnd hcon).length_le
    rw [h1] at this
    simp at this
  obtain ⟨y, hy, hn⟩ := hmiss
  have hd := h3 (524, 0) hb' y hy hn
  simp only [List.mem_cons, List.not_mem_nil, or_false] at hy
  rcases hy with rfl | rfl | rfl | rfl | rfl | rfl
  · exact hn hb'
  all_goals
    dsimp only at hd
    rw [hex] at hd
    norm_num at hd

/-- C201: with more vehicles than the search looks at, the conclusion fails: all six have room and could stop, and after one step the second one cannot -/
theorem C201_crowd_violated : Straight road () (0, 0) (1000, 0) ∧ Props.WellFormed six ∧ six.agents.length = road.maxAgents + 2 ∧
    (∀ i ag, six.getAgent i = some ag → Rides (straightAt (0, 0) (1000, 0)) six.time (sixAt i).1 (sixAt i).2 ag) ∧ AllClear six sixAt ∧
    ∃ w1, World.step (plug road) (1 / 5) six = .ok w1 ∧
      ¬∃ x' : Nat → ℝ × ℝ, (∀ i a1, w1.getAgent i = some a1 → Rides (straightAt (0, 0) (1000, 0)) w1.time (x' i).1 (x' i).2 a1) ∧ AllClear w1 x' := by
  obtain ⟨w1, h1, -⟩ := Props.apply_wf (plug road) six_wf (World.Op.step (1 / 5)) trivial
  have h1s : World.step (plug road) (1 / 5) six = .ok w1 := h1
  refine ⟨road_straight, six_wf, rfl, fun i ag h => (six_ride i ag h).1, six_clear, w1, h1s, ?_⟩
  rintro ⟨x', hx, hc⟩
  obtain ⟨a0, g0, s0, r0⟩ := C201_unseen road_straight six_wf rfl six_ride six_clear (i := 0) (ag := mover 0 524 0) rfl (by norm_num [sixAt]) (by norm_num [sixAt])
    (by
      intro index hidx ex hex j aj bx hj hb hne
      rcases six_get hj with ⟨rfl, rfl⟩ | ⟨rfl, rfl⟩ | ⟨rfl, rfl⟩ | ⟨rfl, rfl⟩ | ⟨rfl, rfl⟩ | ⟨rfl, rfl⟩
      · exact absurd rfl hne
      all_goals norm_num [sixAt])
    (by norm_num) (by norm_num) (by norm_num [sixAt]) (by rw [road_len]; norm_num [sixAt]) h1s
  obtain ⟨a1, g1, s1, r1⟩ := C201_unseen road_straight six_wf rfl six_ride six_clear (i := 1) (ag := mover 1 500 15) rfl (by norm_num [sixAt]) (by norm_num [sixAt])
    (by
      intro index hidx ex hex j aj bx hj hb hne
      rw [six_index] at hidx
      injection hidx with hidx
      subst hidx
      have hex' : ex = (0, 500, 0, 0, 15) := by
        have : (mover 1 500 15).currentState = .ok (0, 500, 0, 0, 15) := rfl
        rw [this] at hex
        injection hex with e
        exact e.symm
      rcases six_get hj with ⟨rfl, rfl⟩ | ⟨rfl, rfl⟩ | ⟨rfl, rfl⟩ | ⟨rfl, rfl⟩ | ⟨rfl, rfl⟩ | ⟨rfl, rfl⟩
      · exact absurd hb (six_unseen ex (by rw [hex']) bx)
      · exact absurd rfl hne
      all_goals norm_num [sixAt])
    (by norm_num) (by norm_num) (by norm_num [sixAt]) (by rw [road_len]; norm_num [sixAt]) h1s
  have pos : ∀ i ai s v, w1.getAgent i = some ai → Rides (straightAt (0, 0) (1000, 0)) w1.time s v ai → (x' i).1 = s ∧ (x' i).2 = v := by
    intro i ai s v hi hr
    obtain ⟨_, θ, ⟨rfl, -⟩, e⟩ := (hx i ai hi).state
    obtain ⟨_, θ', ⟨rfl, -⟩, e'⟩ := hr.state
    rw [e, road_point, road_point] at e'
    simp only [Except.ok.injEq, Prod.mk.injEq] at e'
    exact ⟨e'.2.1, e'.2.2.2.2⟩
  obtain ⟨p0, v0⟩ := pos 0 a0 _ _ g0 r0
  obtain ⟨p1, v1⟩ := pos 1 a1 _ _ g1 r1
  have hcl := (hc 1 0 a1 a0 g1 g0 (by decide) (by rw [p0, p1]; norm_num [sixAt])).2
  unfold gap at hcl
  rw [p0, p1, v0, v1, s0, s1] at hcl
  norm_num [sixAt, mover, block] at hcl

end Bark.Flow
