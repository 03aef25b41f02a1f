import Verif.Model.Bounds
import Verif.Spec.Bounds
import Verif.Props.Shape
import Verif.Props.World
import Verif.Props.Concat

/-! C195 (bounding boxes), C196 (smoothed lines). -/
namespace Bark.Bnd
open Bark Bark.Ln Spec
open Bark.Shape (lo hi lo_ne hi_ne)

theorem envelope_smallest (big : ℝ) {ps : List Pt} (h : ps ≠ []) : Smallest (· ∈ ps) (envelope big ps) := by
  have hx : ps.map Prod.fst ≠ [] := fun e => h (List.map_eq_nil_iff.1 e)
  have hy : ps.map Prod.snd ≠ [] := fun e => h (List.map_eq_nil_iff.1 e)
  obtain ⟨lx1, lx2⟩ := lo_ne big hx
  obtain ⟨hx1, hx2⟩ := hi_ne big hx
  obtain ⟨ly1, ly2⟩ := lo_ne big hy
  obtain ⟨hy1, hy2⟩ := hi_ne big hy
  have mx : ∀ p ∈ ps, p.1 ∈ ps.map Prod.fst := fun p hp => List.mem_map.2 ⟨p, hp, rfl⟩
  have my : ∀ p ∈ ps, p.2 ∈ ps.map Prod.snd := fun p hp => List.mem_map.2 ⟨p, hp, rfl⟩
  refine ⟨fun p hp => ⟨lx2 _ (mx p hp), hx2 _ (mx p hp), ly2 _ (my p hp), hy2 _ (my p hp)⟩, fun c hc => ?_⟩
  obtain ⟨p1, m1, e1⟩ := List.mem_map.1 lx1
  obtain ⟨p2, m2, e2⟩ := List.mem_map.1 hx1
  obtain ⟨p3, m3, e3⟩ := List.mem_map.1 ly1
  obtain ⟨p4, m4, e4⟩ := List.mem_map.1 hy1
  have c1 := hc p1 m1
  have c2 := hc p2 m2
  have c3 := hc p3 m3
  have c4 := hc p4 m4
  unfold Inside at c1 c2 c3 c4
  rw [e1] at c1; rw [e2] at c2; rw [e3] at c3; rw [e4] at c4
  exact ⟨⟨c1.1, c1.2.1, c3.2.2.1, c3.2.2.2⟩, ⟨c2.1, c2.2.1, c4.2.2.1, c4.2.2.2⟩⟩

theorem foldl_append {α : Type} (f : α → List Pt) (g : Line → α → Line) (hg : ∀ l x, (g l x).pts = l.pts ++ f x) :
    ∀ (xs : List α) (l : Line), (xs.foldl g l).pts = l.pts ++ xs.flatMap f
  | [], l => by simp
  | x :: xs, l => by rw [List.foldl_cons, foldl_append f g hg xs, hg, List.flatMap_cons, List.append_assoc]

theorem mapLine_pts (m : Xodr.XMap) :
    (mapLine m).pts = m.roads.flatMap fun r => r.2.sections.flatMap fun s => s.lanes.flatMap fun l => l.line.pts := by
  unfold mapLine
  rw [foldl_append (fun r : ℕ × Xodr.Road => r.2.sections.flatMap fun s => s.lanes.flatMap fun l => l.line.pts)]
  · rfl
  · intro acc r
    refine foldl_append (fun s : Xodr.Section => s.lanes.flatMap fun l => l.line.pts) _ ?_ _ _
    intro acc s
    exact foldl_append (fun l : Xodr.Lane => l.line.pts) _ (fun _ _ => rfl) _ _

theorem mem_mapLine (m : Xodr.XMap) (p : Pt) : p ∈ (mapLine m).pts ↔ LanePoint m p := by
  rw [mapLine_pts]
  simp only [List.mem_flatMap, LanePoint]

/-- **C195, maps.** The bounding box of a map is the smallest box containing the lines of all lanes of all lane sections of
all roads; a map without such points has the largest box there is. -/
theorem C195_map (big : ℝ) (m : Xodr.XMap) :
    ((∃ p, LanePoint m p) → Smallest (LanePoint m) (mapBox big m)) ∧
      ((¬ ∃ p, LanePoint m p) → mapBox big m = ((-big, -big), (big, big))) := by
  refine ⟨fun ⟨p, hp⟩ => ?_, fun h => ?_⟩
  · have hne : (mapLine m).pts ≠ [] := List.ne_nil_of_mem ((mem_mapLine m p).2 hp)
    obtain ⟨h1, h2⟩ := envelope_smallest big hne
    exact ⟨fun p hp => h1 p ((mem_mapLine m p).2 hp), fun c hc => h2 c (fun p hp => hc p ((mem_mapLine m p).1 hp))⟩
  · have : (mapLine m).pts = [] := by
      rw [List.eq_nil_iff_forall_not_mem]
      exact fun p hp => h ⟨p, (mem_mapLine m p).1 hp⟩
    unfold mapBox envelope
    rw [this]
    rfl

/-- **C195, merging.** Merging two boxes gives the smallest box around the corners of both, for proper boxes therefore the
smallest box containing both. -/
theorem C195_merge (big : ℝ) (a b : Pt × Pt) :
    Smallest (fun p => p = a.1 ∨ p = a.2 ∨ p = b.1 ∨ p = b.2) (merge big a b) ∧
      ∀ p, Inside a p ∨ Inside b p → Inside (merge big a b) p := by
  have hp : (addPoint (addPoint (addPoint (addPoint empty a.1) a.2) b.1) b.2).pts = [a.1, a.2, b.1, b.2] := rfl
  have h : Smallest (fun p => p = a.1 ∨ p = a.2 ∨ p = b.1 ∨ p = b.2) (merge big a b) := by
    unfold merge
    rw [hp]
    have := envelope_smallest big (ps := [a.1, a.2, b.1, b.2]) (by simp)
    simpa using this
  refine ⟨h, ?_⟩
  have a1 := h.1 a.1 (by simp)
  have a2 := h.1 a.2 (by simp)
  have b1 := h.1 b.1 (by simp)
  have b2 := h.1 b.2 (by simp)
  unfold Inside at *
  rintro p (hp | hp)
  · refine ⟨?_, ?_, ?_, ?_⟩ <;> linarith
  · refine ⟨?_, ?_, ?_, ?_⟩ <;> linarith

/-- **C195, tables.** A map read from a table has one lane: its center line has the centers of the rows, in order, moved by
the offset, with right arc lengths, and its box is the smallest one around all left and right points. -/
theorem C195_table (big : ℝ) (o : Pt) {rows : List Row} (h : rows ≠ []) :
    (csvCenter o rows).pts = rows.map (fun r => (r.center.1 - o.1, r.center.2 - o.2)) ∧
      Smallest (fun p => ∃ r ∈ rows, p = (r.left.1 - o.1, r.left.2 - o.2) ∨ p = (r.right.1 - o.1, r.right.2 - o.2))
        (csvBox big o rows) := by
  refine ⟨?_, ?_⟩
  · unfold csvCenter
    rw [foldl_addPoint]
    rfl
  · have hne : csvOutline o rows ≠ [] := by
      intro e
      have := (List.append_eq_nil_iff.1 e).1
      exact h (List.map_eq_nil_iff.1 this)
    have hm : ∀ p, p ∈ csvOutline o rows ↔
        ∃ r ∈ rows, p = (r.left.1 - o.1, r.left.2 - o.2) ∨ p = (r.right.1 - o.1, r.right.2 - o.2) := by
      intro p
      unfold csvOutline moved
      simp only [List.mem_append, List.mem_reverse, List.mem_map]
      constructor
      · rintro (⟨r, hr, rfl⟩ | ⟨r, hr, rfl⟩)
        · exact ⟨r, hr, Or.inl rfl⟩
        · exact ⟨r, hr, Or.inr rfl⟩
      · rintro ⟨r, hr, rfl | rfl⟩
        · exact Or.inl ⟨r, hr, rfl⟩
        · exact Or.inr ⟨r, hr, rfl⟩
    obtain ⟨h1, h2⟩ := envelope_smallest big hne
    exact ⟨fun p hp => h1 p ((hm p).2 hp), fun c hc => h2 c (fun p hp => hc p ((hm p).1 hp))⟩

theorem within_iff (big : ℝ) {ps : List Pt} (h : ps ≠ []) (b : Box) :
    within (envelope big ps) b = true ↔ (∀ p ∈ ps, Inside b p) ∧ (∃ p ∈ ps, ∃ q ∈ ps, p.1 < q.1) ∧ ∃ p ∈ ps, ∃ q ∈ ps, p.2 < q.2 := by
  obtain ⟨h1, h2⟩ := envelope_smallest big h
  have hx : ps.map Prod.fst ≠ [] := fun e => h (List.map_eq_nil_iff.1 e)
  have hy : ps.map Prod.snd ≠ [] := fun e => h (List.map_eq_nil_iff.1 e)
  obtain ⟨p1, m1, e1⟩ := List.mem_map.1 (lo_ne big hx).1
  obtain ⟨p2, m2, e2⟩ := List.mem_map.1 (hi_ne big hx).1
  obtain ⟨p3, m3, e3⟩ := List.mem_map.1 (lo_ne big hy).1
  obtain ⟨p4, m4, e4⟩ := List.mem_map.1 (hi_ne big hy).1
  unfold within
  simp only [Bool.and_eq_true, decide_eq_true_eq]
  constructor
  · rintro ⟨⟨g1, g2, g3⟩, g4, g5, g6⟩
    refine ⟨fun p hp => ?_, ⟨p1, m1, p2, m2, ?_⟩, ⟨p3, m3, p4, m4, ?_⟩⟩
    · obtain ⟨k1, k2, k3, k4⟩ := h1 p hp
      exact ⟨le_trans g1 k1, le_trans k2 g2, le_trans g4 k3, le_trans k4 g5⟩
    · rw [e1, e2]; exact g3
    · rw [e3, e4]; exact g6
  · rintro ⟨g1, ⟨p, hp, q, hq, hpq⟩, ⟨p', hp', q', hq', hpq'⟩⟩
    obtain ⟨⟨a1, a2, a3, a4⟩, b1, b2, b3, b4⟩ := h2 b g1
    refine ⟨⟨a1, b2, ?_⟩, a3, b4, ?_⟩
    · exact lt_of_le_of_lt (h1 p hp).1 (lt_of_lt_of_le hpq (h1 q hq).2.1)
    · exact lt_of_le_of_lt (h1 p' hp').2.2.1 (lt_of_lt_of_le hpq' (h1 q' hq').2.2.2)

/-- **C195, leaving the map.** With removal switched on and a map with lanes, a step keeps an active agent whose behaviour is
valid exactly if every corner of its outline before the step lies between the leftmost and rightmost, and between the lowest
and highest point of the lane lines of the map, and the outline is not flat. -/
theorem C195_removal {K St Act B E Sh O : Type} [Field K] [LinearOrder K] [IsStrictOrderedRing K]
    {P : Plug K St Act B E Sh (Pt × Pt) O} (big : ℝ) (outline : Sh → St → List Pt) (hne : ∀ sh s, outline sh s ≠ [])
    (hbox : ∀ sh s, P.envelope sh s = envelope big (outline sh s)) (hin : P.within = within) {m : Xodr.XMap}
    (hm : ∃ p, LanePoint m p) {w w' : World K St Act B E Sh (Pt × Pt) O} (hw : Props.WellFormed w) {dt : K}
    (hon : w.removeAgents = true) (hmb : w.mapBox = some (mapBox big m)) (h : World.step P dt w = .ok w') {id : Nat}
    {a a1 : Agent K St Act B E Sh} (ha : w.getAgent id = some a) {w1 : World K St Act B E Sh (Pt × Pt) O}
    (hp : World.planAgents P dt w = .ok w1) (ha1 : w1.getAgent id = some a1) (hact : Bark.Spec.Active w.time a)
    (hval : P.status a1.behavior = .valid) {s : St} (hs : a.currentState = .ok s) :
    (w'.getAgent id).isSome ↔
      (∀ p ∈ outline a.shape s, (∃ q, LanePoint m q ∧ q.1 ≤ p.1) ∧ (∃ q, LanePoint m q ∧ p.1 ≤ q.1) ∧
        (∃ q, LanePoint m q ∧ q.2 ≤ p.2) ∧ ∃ q, LanePoint m q ∧ p.2 ≤ q.2) ∧
      (∃ p ∈ outline a.shape s, ∃ q ∈ outline a.shape s, p.1 < q.1) ∧
      ∃ p ∈ outline a.shape s, ∃ q ∈ outline a.shape s, p.2 < q.2 := by
  rw [Props.C07_removal_uses_old_position P hw hon hmb h ha hp ha1 hact hval hs, hbox, hin, within_iff big (hne _ _)]
  obtain ⟨p0, hp0⟩ := hm
  have hne' : (mapLine m).pts ≠ [] := List.ne_nil_of_mem ((mem_mapLine m p0).2 hp0)
  have hx : (mapLine m).pts.map Prod.fst ≠ [] := fun e => hne' (List.map_eq_nil_iff.1 e)
  have hy : (mapLine m).pts.map Prod.snd ≠ [] := fun e => hne' (List.map_eq_nil_iff.1 e)
  obtain ⟨p1, m1, e1⟩ := List.mem_map.1 (lo_ne big hx).1
  obtain ⟨p2, m2, e2⟩ := List.mem_map.1 (hi_ne big hx).1
  obtain ⟨p3, m3, e3⟩ := List.mem_map.1 (lo_ne big hy).1
  obtain ⟨p4, m4, e4⟩ := List.mem_map.1 (hi_ne big hy).1
  rw [mem_mapLine] at m1 m2 m3 m4
  obtain ⟨k1, -⟩ := (C195_map big m).1 ⟨p0, hp0⟩
  refine and_congr_left fun _ => forall₂_congr fun p _ => ?_
  constructor
  · rintro ⟨g1, g2, g3, g4⟩
    exact ⟨⟨p1, m1, by rw [e1]; exact g1⟩, ⟨p2, m2, by rw [e2]; exact g2⟩, ⟨p3, m3, by rw [e3]; exact g3⟩,
      ⟨p4, m4, by rw [e4]; exact g4⟩⟩
  · rintro ⟨⟨q1, n1, g1⟩, ⟨q2, n2, g2⟩, ⟨q3, n3, g3⟩, ⟨q4, n4, g4⟩⟩
    exact ⟨le_trans (k1 q1 n1).1 g1, le_trans g2 (k1 q2 n2).2.1, le_trans (k1 q3 n3).2.2.1 g3, le_trans g4 (k1 q4 n4).2.2.2⟩

/-- a map with one lane -/
noncomputable def oneLane : Xodr.XMap :=
  ⟨[(1, ⟨1, "", _root_.Bark.PV.PlanView.new, Xodr.noEnd, Xodr.noEnd, [⟨0, [⟨1, -1, .driving, .forward, 0, 0, none, none, ofArray [(0, 0), (10, 4)]⟩]⟩]⟩)], [], []⟩

example : ∃ p, LanePoint oneLane p :=
  ⟨(0, 0), _, List.mem_singleton_self _, _, List.mem_singleton_self _, _, List.mem_singleton_self _, by
    unfold ofArray recomputeS; simp⟩

/-- a plug-in with the boxes of this file: states are positions, every vehicle is a unit square -/
noncomputable def boxPlug : Plug ℚ Pt Unit Unit Pt Unit (Pt × Pt) Unit where
  status _ := .valid
  lastAction _ := ()
  plan b _ _ _ := b
  execute e _ _ := e
  execStatus _ := .valid
  executedState e := e
  observe o w _ := (o, w)
  envelope _ s := envelope 1000000 [s, (s.1 + 1, s.2 + 1)]
  within := within

/-- a world with the map `oneLane` and one vehicle at `p` -/
noncomputable def boxWorld (p : Pt) : World ℚ Pt Unit Unit Pt Unit (Pt × Pt) Unit :=
  { agents := [(1, { id := 1, behavior := (), exec := p, history := [(p, ())], maxHist := 2, firstValid := 0, shape := () })]
    time := 0, rtree := [], removeAgents := true, mapBox := some (mapBox 1000000 oneLane), observer := () }

theorem boxWorld_wf (p : Pt) : Props.WellFormed (boxWorld p) := by
  refine ⟨by simp [OMap.Sorted, boxWorld], ?_, by simp [boxWorld]⟩
  intro id a h
  simp only [boxWorld, OMap.find] at h
  split_ifs at h with h1
  all_goals first | (cases h; done) | (injection h with h; subst h; simp [*])

theorem lanePoint_oneLane (p : Pt) : LanePoint oneLane p ↔ p = (0, 0) ∨ p = (10, 4) := by
  simp [LanePoint, oneLane, ofArray, recomputeS]

/-- the hypotheses of `C195_removal` are met: the vehicle at (1, 1) is kept, the one at (1, 20) is removed -/
example : ∀ p : Pt, ∃ w', World.step boxPlug 1 (boxWorld p) = .ok w' ∧
    ((w'.getAgent 1).isSome ↔ 0 ≤ p.1 ∧ p.1 + 1 ≤ 10 ∧ 0 ≤ p.2 ∧ p.2 + 1 ≤ 4) := by
  intro p
  obtain ⟨w', h, -⟩ := Props.C04_no_fault boxPlug (boxWorld_wf p) [.step 1] (by simp [Props.GoodOp])
  obtain ⟨w1, h1, -⟩ := Res.bind_ok (show (World.step boxPlug 1 (boxWorld p) >>= _) = _ from h)
  obtain ⟨-, e2⟩ := Props.step_effect boxPlug (boxWorld_wf p) h1 1
  obtain ⟨obs, s', -, ⟨w2, hp, hp2⟩, -⟩ := e2 _ rfl
  refine ⟨w1, h1, ?_⟩
  rw [C195_removal (P := boxPlug) 1000000 (fun _ s => [s, (s.1 + 1, s.2 + 1)]) (by simp) (fun _ _ => rfl) rfl
    ⟨(0, 0), (lanePoint_oneLane _).2 (Or.inl rfl)⟩ (boxWorld_wf p) rfl rfl h1 (id := 1) rfl hp hp2
    (by unfold Bark.Spec.Active; norm_num [boxWorld]) rfl rfl]
  simp only [lanePoint_oneLane]
  simp
  constructor
  · rintro ⟨⟨a, -, c, -⟩, -, b, -, d⟩
    refine ⟨?_, ?_, ?_, ?_⟩
    · rcases a with a | a <;> linarith
    · rcases b with b | b <;> linarith
    · rcases c with c | c <;> linarith
    · rcases d with d | d <;> linarith
  · rintro ⟨a, b, c, d⟩
    exact ⟨⟨.inl a, .inr (by linarith), .inl c, .inr (by linarith)⟩, .inl (by linarith), .inr b, .inl (by linarith), .inr d⟩

/-! ### C196 -/

/-- a spline as assumed below exists -/
noncomputable def someSpline (xs ys : List ℝ) (x : ℝ) : ℝ :=
  open Classical in
  if h : ∃ c : ℝ × ℝ, ys = xs.map fun t => c.1 + t * c.2 then h.choose.1 + x * h.choose.2
  else if h : ∃ y, ∃ i : ℕ, xs[i]? = some x ∧ ys[i]? = some y then h.choose else 0

theorem someSpline_ok : Interpolates someSpline ∧ Straight someSpline := by
  constructor
  · intro xs ys hl hinc i x y hx hy
    unfold someSpline
    by_cases h : ∃ c : ℝ × ℝ, ys = xs.map fun t => c.1 + t * c.2
    · rw [dif_pos h]
      have e := h.choose_spec
      rw [e, List.getElem?_map, hx] at hy
      exact Option.some.inj hy
    · have h' : ∃ y, ∃ i : ℕ, xs[i]? = some x ∧ ys[i]? = some y := ⟨y, i, hx, hy⟩
      rw [dif_neg h, dif_pos h']
      obtain ⟨k, hk, hy'⟩ := h'.choose_spec
      obtain ⟨g1, e1⟩ := List.getElem?_eq_some_iff.1 hx
      obtain ⟨g2, e2⟩ := List.getElem?_eq_some_iff.1 hk
      have : i = k := by
        rcases Nat.lt_trichotomy i k with g | g | g
        · have := List.pairwise_iff_getElem.1 hinc _ _ g1 g2 g; rw [e1, e2] at this; exact absurd this (lt_irrefl _)
        · exact g
        · have := List.pairwise_iff_getElem.1 hinc _ _ g2 g1 g; rw [e1, e2] at this; exact absurd this (lt_irrefl _)
      subst this
      rw [hy] at hy'
      exact (Option.some.inj hy').symm
  · intro xs h3 hinc a b x
    unfold someSpline
    have h : ∃ c : ℝ × ℝ, (xs.map fun t => a + t * b) = xs.map fun t => c.1 + t * c.2 := ⟨(a, b), rfl⟩
    rw [dif_pos h]
    have e := List.map_inj_left.1 h.choose_spec
    have e0 := e _ (List.getElem_mem (show 0 < xs.length by omega))
    have e1 := e _ (List.getElem_mem (show 1 < xs.length by omega))
    have hlt := List.pairwise_iff_getElem.1 hinc 0 1 (by omega) (by omega) (by omega)
    have hb : b = h.choose.2 := by
      have : (xs[1] - xs[0]) * (b - h.choose.2) = 0 := by linarith
      rcases mul_eq_zero.1 this with g | g <;> linarith
    rw [← hb] at e0 ⊢
    linarith

theorem inc_of_table {l : Line} (h : TableRight l) (h2 : 2 ≤ l.pts.length) (hnd : NoDup l.pts) : l.s.Pairwise (· < ·) :=
  (proper_of_table h h2 hnd).inc

theorem length_pos {l : Line} (h2 : 2 ≤ l.pts.length) (hnd : NoDup l.pts) : 0 < Ln.length l.pts := by
  obtain ⟨pts, s⟩ := l
  match pts, h2, hnd with
  | a :: b :: r, _, hnd =>
    have hab : a ≠ b := (List.isChain_cons_cons.1 hnd).1
    have h1 := lt_of_le_of_ne (pdist_nonneg a b) (fun e => hab (pdist_eq_zero.1 e.symm))
    have h3 := length_nonneg (b :: r)
    show 0 < pdist a b + Ln.length (b :: r)
    linarith

theorem foldl_right (ps : List Pt) : ∀ l : Line, TableRight l → TableRight (ps.foldl addPoint l) := by
  induction ps with
  | nil => exact fun l h => h
  | cons p ps ih => exact fun l _ => ih _ (tableRight_recompute _)

/-- **C196.** Smoothing a line with at least three points, none repeated, and a positive step width succeeds. The result has
a right arc-length table, starts and ends where the line does, has `⌈length / ds⌉ + 1` points, and its `j`-th point is the
point of the spline at `j * ds` as long as that is on the line. -/
theorem C196_smooth {spline : List ℝ → List ℝ → ℝ → ℝ} (hsp : Interpolates spline) {l : Line} (h : TableRight l)
    (h3 : 3 ≤ l.pts.length) (hnd : NoDup l.pts) {ds : ℝ} (hds : 0 < ds) :
    ∃ r, smoothLine spline l ds = .ok r ∧ TableRight r ∧ r.pts.head? = l.pts.head? ∧ r.pts.getLast? = l.pts.getLast? ∧
      r.pts.length = ⌈Ln.length l.pts / ds⌉₊ + 1 ∧
      ∀ j : ℕ, j * ds ≤ Ln.length l.pts →
        r.pts[j]? = some (spline l.s (l.pts.map Prod.fst) (j * ds), spline l.s (l.pts.map Prod.snd) (j * ds)) := by
  have hinc := inc_of_table h (by omega) hnd
  have hpos := length_pos (l := l) (by omega) hnd
  have hq : 0 < Ln.length l.pts / ds := div_pos hpos hds
  unfold smoothLine
  rw [if_neg (by omega), if_neg (not_not.2 hinc), if_neg hds.ne', if_neg (by linarith)]
  dsimp only
  set n := ⌊Ln.length l.pts / ds⌋₊ with hn
  set f : ℕ → Pt := fun j => (spline l.s (l.pts.map Prod.fst) (j * ds), spline l.s (l.pts.map Prod.snd) (j * ds)) with hf
  have hle : (n : ℝ) * ds ≤ Ln.length l.pts := (le_div_iff₀ hds).1 (Nat.floor_le hq.le)
  have hlt : Ln.length l.pts < (n + 1 : ℝ) * ds := (div_lt_iff₀ hds).1 (Nat.lt_floor_add_one _)
  have hpts : (((List.range (n + 1)).map f).foldl addPoint empty).pts = (List.range (n + 1)).map f := by
    rw [foldl_addPoint]; rfl
  have htab : TableRight (((List.range (n + 1)).map f).foldl addPoint empty) :=
    foldl_right _ _ ⟨rfl, by intro i hi; simp [empty] at hi⟩
  have hat : ∀ {i : ℕ} {p : Pt}, l.pts[i]? = some p → ∀ x, l.s[i]? = some x →
      (spline l.s (l.pts.map Prod.fst) x, spline l.s (l.pts.map Prod.snd) x) = p := by
    intro i p hp x hx
    rw [hsp _ _ (by rw [List.length_map, h.1]) hinc hx (y := p.1) (by rw [List.getElem?_map, hp]; rfl),
      hsp _ _ (by rw [List.length_map, h.1]) hinc hx (y := p.2) (by rw [List.getElem?_map, hp]; rfl)]
  have h0 : f 0 = l.pts[0] := by
    have hp : l.pts[0]? = some l.pts[0] := List.getElem?_eq_getElem (by omega)
    refine hat hp _ ?_
    rw [table_at h hp]
    have : ∀ ps : List Pt, Ln.length (ps.take 1) = 0 := by
      intro ps; cases ps <;> rfl
    rw [zero_add, this]; simp
  obtain ⟨k, hk⟩ : ∃ k, l.pts.length = k + 1 := ⟨l.pts.length - 1, by omega⟩
  have hkp : l.pts[k]? = some l.pts[k] := List.getElem?_eq_getElem (by omega)
  have hks : l.s[k]? = some (Ln.length l.pts) := by
    rw [table_at h hkp, List.take_of_length_le (by omega)]
  have hlast : l.pts.getLast? = some l.pts[k] := by
    rw [List.getLast?_eq_getElem?, show l.pts.length - 1 = k by omega]; exact hkp
  have hj : ∀ j : ℕ, j * ds ≤ Ln.length l.pts → j ≤ n := fun j hj => Nat.le_floor ((le_div_iff₀ hds).2 hj)
  have hhead : l.pts.head? = some (f 0) := by rw [h0, List.head?_eq_getElem?]; exact List.getElem?_eq_getElem (by omega)
  by_cases hc : (n : ℝ) * ds < Ln.length l.pts
  · rw [if_pos hc]
    have ha : at' l.pts ((l.pts.length : Int) - 1) = .ok l.pts[k] := by
      have := at'_nat hkp
      rwa [show ((k : ℕ) : Int) = (l.pts.length : Int) - 1 by omega] at this
    rw [ha]
    refine ⟨_, rfl, tableRight_recompute _, ?_, ?_, ?_, ?_⟩
    · show ((((List.range (n + 1)).map f).foldl addPoint empty).pts ++ [l.pts[k]]).head? = _
      rw [hpts, hhead, List.range_succ_eq_map]
      rfl
    · show ((((List.range (n + 1)).map f).foldl addPoint empty).pts ++ [l.pts[k]]).getLast? = _
      rw [List.getLast?_concat, hlast]
    · show ((((List.range (n + 1)).map f).foldl addPoint empty).pts ++ [l.pts[k]]).length = _
      rw [hpts]
      have : ⌈Ln.length l.pts / ds⌉₊ = n + 1 := by
        rw [Nat.ceil_eq_iff (by omega)]
        refine ⟨by rw [lt_div_iff₀ hds]; simpa using hc, ?_⟩
        rw [div_le_iff₀ hds]; push_cast; exact hlt.le
      rw [this]; simp
    · intro j hjl
      show ((((List.range (n + 1)).map f).foldl addPoint empty).pts ++ [l.pts[k]])[j]? = some (f j)
      rw [hpts, List.getElem?_append_left (by simpa using hj j hjl), List.getElem?_map,
        List.getElem?_range (by have := hj j hjl; omega)]
      rfl
  · rw [if_neg hc]
    have he : (n : ℝ) * ds = Ln.length l.pts := le_antisymm hle (not_lt.1 hc)
    refine ⟨_, rfl, htab, ?_, ?_, ?_, ?_⟩
    · rw [hpts, hhead, List.range_succ_eq_map]
      rfl
    · rw [hpts, List.range_succ, List.map_append, List.map_singleton, List.getLast?_concat, hlast]
      refine congrArg some (hat hkp _ ?_)
      rw [hks, he]
    · rw [hpts]
      have : ⌈Ln.length l.pts / ds⌉₊ = n := by
        rw [← he, mul_div_cancel_right₀ _ hds.ne', Nat.ceil_natCast]
      rw [this]; simp
    · intro j hjl
      rw [hpts, List.getElem?_map, List.getElem?_range (by have := hj j hjl; omega)]
      rfl

/-- **C196, straight lines.** If the points lie on a straight line, in order, so do those of the smoothed line: its `j`-th
point is the point at arc length `j * ds`. The spline is only assumed to reproduce straight data. -/
theorem C196_straight {spline : List ℝ → List ℝ → ℝ → ℝ} (hsp : Interpolates spline) (hlin : Straight spline) {l : Line}
    (h : TableRight l) (h3 : 3 ≤ l.pts.length) (hnd : NoDup l.pts) {ds : ℝ} (hds : 0 < ds) {o u : Pt}
    (hl : ∀ (i : ℕ) p, l.pts[i]? = some p → ∃ x, l.s[i]? = some x ∧ p = (o.1 + x * u.1, o.2 + x * u.2)) :
    ∃ r, smoothLine spline l ds = .ok r ∧
      ∀ j : ℕ, j * ds ≤ Ln.length l.pts → r.pts[j]? = some (o.1 + j * ds * u.1, o.2 + j * ds * u.2) := by
  obtain ⟨r, hr, -, -, -, -, hj⟩ := C196_smooth hsp h h3 hnd hds
  refine ⟨r, hr, fun j hjl => ?_⟩
  have e1 : l.pts.map Prod.fst = l.s.map fun x => o.1 + x * u.1 := by
    refine List.ext_getElem? fun i => ?_
    rw [List.getElem?_map, List.getElem?_map]
    cases hp : l.pts[i]? with
    | none => rw [List.getElem?_eq_none (by rw [h.1]; exact List.getElem?_eq_none_iff.1 hp)]; rfl
    | some p => obtain ⟨x, hx, rfl⟩ := hl i p hp; rw [hx]; rfl
  have e2 : l.pts.map Prod.snd = l.s.map fun x => o.2 + x * u.2 := by
    refine List.ext_getElem? fun i => ?_
    rw [List.getElem?_map, List.getElem?_map]
    cases hp : l.pts[i]? with
    | none => rw [List.getElem?_eq_none (by rw [h.1]; exact List.getElem?_eq_none_iff.1 hp)]; rfl
    | some p => obtain ⟨x, hx, rfl⟩ := hl i p hp; rw [hx]; rfl
  have hinc := inc_of_table h (by omega) hnd
  have hs3 : 3 ≤ l.s.length := by rw [h.1]; exact h3
  rw [hj j hjl, e1, e2, hlin _ hs3 hinc, hlin _ hs3 hinc]

/-- **C196, few points.** Fewer than three points are returned unchanged, whatever the step width. -/
theorem C196_few (spline : List ℝ → List ℝ → ℝ → ℝ) (l : Line) (h : l.pts.length < 3) (ds : ℝ) :
    smoothLine spline l ds = .ok l := by
  unfold smoothLine
  rw [if_pos h]

/-- **C196, bad step widths.** For lines with at least three points, none repeated: a step width of zero is undefined
behaviour, a negative one that is not longer than the line never returns, and a longer negative one gives the straight line
between the end points. -/
theorem C196_bad_width {spline : List ℝ → List ℝ → ℝ → ℝ} (hsp : Interpolates spline) {l : Line} (h : TableRight l)
    (h3 : 3 ≤ l.pts.length) (hnd : NoDup l.pts) {ds : ℝ} (hds : ds ≤ 0) :
    (ds = 0 → smoothLine spline l ds = .error .ub) ∧
      (ds ≠ 0 → -ds ≤ Ln.length l.pts → smoothLine spline l ds = .error .diverges) ∧
      (Ln.length l.pts < -ds → ∃ r p q, l.pts.head? = some p ∧ l.pts.getLast? = some q ∧ smoothLine spline l ds = .ok r ∧
        r.pts = [p, q]) := by
  have hinc := inc_of_table h (by omega) hnd
  have hpos := length_pos (l := l) (by omega) hnd
  unfold smoothLine
  rw [if_neg (by omega), if_neg (not_not.2 hinc)]
  refine ⟨fun e => by rw [if_pos e], fun hne hle => ?_, fun hlt => ?_⟩
  · have hneg : ds < 0 := lt_of_le_of_ne hds hne
    rw [if_neg hne, if_pos (by rw [div_le_iff_of_neg hneg]; linarith)]
  · have hneg : ds < 0 := by linarith
    have hq : Ln.length l.pts / ds ≤ 0 := div_nonpos_of_nonneg_of_nonpos hpos.le hds
    rw [if_neg hneg.ne, if_neg (by rw [div_le_iff_of_neg hneg]; linarith)]
    dsimp only
    rw [Nat.floor_of_nonpos hq, if_pos (by simpa using hpos)]
    obtain ⟨k, hk⟩ : ∃ k, l.pts.length = k + 1 := ⟨l.pts.length - 1, by omega⟩
    have hkp : l.pts[k]? = some l.pts[k] := List.getElem?_eq_getElem (by omega)
    have ha : at' l.pts ((l.pts.length : Int) - 1) = .ok l.pts[k] := by
      have := at'_nat hkp
      rwa [show ((k : ℕ) : Int) = (l.pts.length : Int) - 1 by omega] at this
    have hp : l.pts[0]? = some l.pts[0] := List.getElem?_eq_getElem (by omega)
    have h0 : l.s[0]? = some 0 := by
      rw [table_at h hp]
      have : ∀ ps : List Pt, Ln.length (ps.take 1) = 0 := by
        intro ps; cases ps <;> rfl
      rw [zero_add, this]
    rw [ha]
    refine ⟨_, l.pts[0], l.pts[k], by rw [List.head?_eq_getElem?]; exact hp, ?_, rfl, ?_⟩
    · rw [List.getLast?_eq_getElem?, show l.pts.length - 1 = k by omega]; exact hkp
    · have e : (spline l.s (l.pts.map Prod.fst) 0, spline l.s (l.pts.map Prod.snd) 0) = l.pts[0] := by
        rw [hsp _ _ (by rw [List.length_map, h.1]) hinc h0 (y := l.pts[0].1) (by rw [List.getElem?_map, hp]; rfl),
          hsp _ _ (by rw [List.length_map, h.1]) hinc h0 (y := l.pts[0].2) (by rw [List.getElem?_map, hp]; rfl)]
      show [(spline l.s (l.pts.map Prod.fst) ((0 : ℕ) * ds), spline l.s (l.pts.map Prod.snd) ((0 : ℕ) * ds)), l.pts[k]] = _
      rw [Nat.cast_zero, zero_mul, e]

/-- **C196, repeated points.** A line with a repeated consecutive point and a right table cannot be smoothed. -/
theorem C196_repeated (spline : List ℝ → List ℝ → ℝ → ℝ) {l : Line} (h : TableRight l) (h3 : 3 ≤ l.pts.length)
    (hd : ¬ NoDup l.pts) (ds : ℝ) : smoothLine spline l ds = .error .thrown := by
  unfold smoothLine
  rw [if_neg (by omega), if_pos]
  intro hinc
  apply hd
  refine List.isChain_iff_getElem.2 fun i hi e => ?_
  have ha : l.pts[i]? = some l.pts[i] := List.getElem?_eq_getElem (by omega)
  have hb : l.pts[i + 1]? = some l.pts[i + 1] := List.getElem?_eq_getElem hi
  have := List.pairwise_iff_getElem.1 hinc i (i + 1) (by rw [h.1]; omega) (by rw [h.1]; exact hi) (Nat.lt_succ_self i)
  rw [h.2, h.2, arc_step _ _ _ _ ha hb, pdist_eq_zero.2 e] at this
  linarith

/-- the hypotheses are met, by a straight line with unequal segments -/
example : ∃ r, smoothLine someSpline (ofArray [(0, 0), (3, 0), (5, 0)]) 2 = .ok r ∧ r.pts.length = 4 ∧
    r.pts.getLast? = some (5, 0) := by
  have hl : Ln.length [((0 : ℝ), (0 : ℝ)), (3, 0), (5, 0)] = 5 := by
    have h1 : pdist ((0 : ℝ), (0 : ℝ)) (3, 0) = 3 := by
      unfold pdist; dsimp only; rw [show ((0 : ℝ) - 3) * (0 - 3) + (0 - 0) * (0 - 0) = 3 ^ 2 by norm_num, Real.sqrt_sq (by norm_num)]
    have h2 : pdist ((3 : ℝ), (0 : ℝ)) (5, 0) = 2 := by
      unfold pdist; dsimp only; rw [show ((3 : ℝ) - 5) * (3 - 5) + (0 - 0) * (0 - 0) = 2 ^ 2 by norm_num, Real.sqrt_sq (by norm_num)]
    show pdist _ _ + (pdist _ _ + 0) = _
    rw [h1, h2]; norm_num
  obtain ⟨r, hr, -, -, hlast, hlen, -⟩ := C196_smooth someSpline_ok.1 (l := ofArray [(0, 0), (3, 0), (5, 0)])
    (tableRight_recompute _) (le_refl 3) (by unfold NoDup ofArray recomputeS; simp) (ds := 2) (by norm_num)
  refine ⟨r, hr, ?_, by rw [hlast]; rfl⟩
  rw [hlen]
  show ⌈Ln.length [((0 : ℝ), (0 : ℝ)), (3, 0), (5, 0)] / 2⌉₊ + 1 = 4
  rw [hl, show ⌈(5 : ℝ) / 2⌉₊ = 3 by rw [Nat.ceil_eq_iff (by omega)]; norm_num]

end Bark.Bnd
