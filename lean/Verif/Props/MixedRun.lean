import Verif.Props.Mixed

/-!
C219: the run, and examples.
-/
namespace Bark.Mix
open Bark Bark.Ln Bark.Ln.Spec Bark.Flow Bark.Flow.Spec Bark.Mix.Spec

variable {Box Lane : Type}

theorem fine_run {u : Setup Box Lane} {F : Nat → Bool} {lane : Lane} {L : ℝ} {At : ℝ → Pt → ℝ → Prop} (hu : Setting u lane L At) :
    ∀ (l : List (ℝ × Planner Box)) (_ : ∀ d ∈ l, 0 < d.1 ∧ d.1 ≤ 1 / 5) {w : W Box} {x : Nat → ℝ × ℝ}, Fine u F L At (l.map Prod.fst).sum w x →
      Behave u F At L l w → ∃ (w' : W Box) (x' : Nat → ℝ × ℝ), drive u F l w = .ok w' ∧ w'.time = w.time + (l.map Prod.fst).sum ∧ Fine u F L At 0 w' x' ∧
      (∀ i, w'.getAgent i = none ↔ w.getAgent i = none) ∧
      (∀ i ag a1, w.getAgent i = some ag → w'.getAgent i = some a1 → a1.shape = ag.shape) ∧
      ∀ i j ai aj, w.getAgent i = some ai → w.getAgent j = some aj → i ≠ j → (x i).1 ≤ (x j).1 → (x' i).1 ≤ (x' j).1
  | [], _, w, x, hg, _ => by
    refine ⟨w, x, rfl, by simp, by simpa using hg, fun i => Iff.rfl, ?_, fun i j ai aj _ _ _ h => h⟩
    intro i ag a1 h1 h2
    rw [h1] at h2; cases h2; rfl
  | (dt, f) :: l, hpos, w, x, hg, hb => by
    obtain ⟨w1, h1', -⟩ := Props.apply_wf (mixed u F f) hg.wf (World.Op.step dt) trivial
    have h1 : World.step (mixed u F f) dt w = .ok w1 := h1'
    obtain ⟨hdt, hdt5⟩ := hpos (dt, f) (by simp)
    have hsum : 0 ≤ (l.map Prod.fst).sum := List.sum_nonneg fun d hd => by
      obtain ⟨p, hp, rfl⟩ := List.mem_map.1 hd
      exact (hpos p (by simp [hp])).1.le
    rw [List.map_cons, List.sum_cons] at hg
    obtain ⟨hd, hb1⟩ := hb w1 h1
    obtain ⟨x1, g1, n1, s1, o1⟩ := fine_step hu hg hdt hdt5 hsum h1 hd
    obtain ⟨w', x', r, ht, g2, n2, s2, o2⟩ := fine_run hu l (fun d hd => hpos d (by simp [hd])) g1 hb1
    have ex : ∀ i ag, w.getAgent i = some ag → ∃ a1, w1.getAgent i = some a1 := by
      intro i ag hi
      refine Option.ne_none_iff_exists'.1 fun e => ?_
      rw [(n1 i).1 e] at hi; cases hi
    refine ⟨w', x', ?_, ?_, g2, fun i => (n2 i).trans (n1 i), ?_, ?_⟩
    · unfold drive
      rw [h1]
      exact r
    · rw [ht, (Loop.step_keeps _ h1).1, List.map_cons, List.sum_cons, add_assoc]
    · intro i ag a2 hi h2
      obtain ⟨a1, e1⟩ := ex i ag hi
      rw [s2 i a1 a2 e1 h2, s1 i ag a1 hi e1]
    · intro i j ai aj hi hj hne hle
      obtain ⟨ai', ei⟩ := ex i ai hi
      obtain ⟨aj', ej⟩ := ex j aj hj
      exact o2 i j ai' aj' ei ej hne (o1 i j ai aj hi hj hne hle)

/-- C219: traffic on a straight lane in which some vehicles (`foreign`) are driven by anything, possibly by something else in every step, and the others by the classic
IDM in its default configuration. Everyone has room to whoever is ahead and could stop before it. As long as the foreign vehicles stay on the lane, do not reverse, do
not brake harder than 5 m/s² and mind whoever is ahead of them, after any number of steps of at most 0.2 s nothing went wrong, all are still there in the same order,
directed along the lane, not reversing, the IDM vehicles no faster than desired, any two again have room and could stop, no two bodies touch, and the collision
evaluator reports nothing: no IDM vehicle has run into anything, and nothing that behaves like this has run into an IDM vehicle. -/
theorem C219_mixed {u : Setup Box Lane} {lane : Lane} {a b : Pt} (hu : Straight u lane a b) (foreign : Nat → Bool) {w : W Box} (hw : Props.WellFormed w)
    (hoff : w.removeAgents = false) (hmany : w.agents.length ≤ u.maxAgents + 1) (l : List (ℝ × Planner Box)) (hpos : ∀ d ∈ l, 0 < d.1 ∧ d.1 ≤ 1 / 5) {x : Nat → ℝ × ℝ}
    (hride : ∀ i ag, w.getAgent i = some ag → Rides (straightAt a b) w.time (x i).1 (x i).2 ag ∧ 0 ≤ (x i).2 ∧ 0 ≤ (x i).1 ∧ (x i).1 ≤ pdist a b ∧
      (foreign i = false → (x i).2 ≤ 15 ∧ (l.map Prod.fst).sum / 20 ≤ (x i).1 ∧ (x i).1 + 16 * (l.map Prod.fst).sum ≤ pdist a b))
    (hclear : AllClear w x) (hb : Behave u foreign (straightAt a b) (pdist a b) l w) :
    ∃ (w' : W Box) (x' : Nat → ℝ × ℝ), drive u foreign l w = .ok w' ∧ w'.time = w.time + (l.map Prod.fst).sum ∧
      (∀ i, w'.getAgent i = none ↔ w.getAgent i = none) ∧
      (∀ i ag a1, w.getAgent i = some ag → w'.getAgent i = some a1 → a1.shape = ag.shape) ∧
      (∀ i a1, w'.getAgent i = some a1 → Rides (straightAt a b) w'.time (x' i).1 (x' i).2 a1 ∧ 0 ≤ (x' i).2 ∧ (foreign i = false → (x' i).2 ≤ 15) ∧
        0 ≤ (x' i).1 ∧ (x' i).1 ≤ pdist a b) ∧
      (∀ i j ai aj, w.getAgent i = some ai → w.getAgent j = some aj → i ≠ j → (x i).1 ≤ (x j).1 → (x' i).1 ≤ (x' j).1) ∧
      AllClear w' x' ∧
      (∀ i j ai aj t p θ v t' p' θ' v', w'.getAgent i = some ai → w'.getAgent j = some aj → i ≠ j → ai.currentState = .ok (t, p.1, p.2, θ, v) →
        aj.currentState = .ok (t', p'.1, p'.2, θ', v') → Disjoint (body ai.shape p θ) (body aj.shape p' θ')) ∧
      ∀ collide, Sound collide → Eval.collisionAgents (plug u) outline collide w' = .ok false := by
  obtain ⟨w', x', r, ht, g, n, s, o⟩ := fine_run (setting_straight hu) l hpos (w := w) (x := x) ⟨hw, hoff, hmany, hride, hclear⟩ hb
  obtain ⟨hbd, hn⟩ := no_contact (u := u) g.clear g.wf (fun i a1 hi => (g.rides i a1 hi).1)
  exact ⟨w', x', r, ht, n, s, fun i a1 hi => ⟨(g.rides i a1 hi).1, (g.rides i a1 hi).2.1, fun hF => ((g.rides i a1 hi).2.2.2.2 hF).1, (g.rides i a1 hi).2.2.1,
    (g.rides i a1 hi).2.2.2.1⟩, o, g.clear, hbd, hn⟩

/-- C219: the same on any lane whose centre line does not meet itself, along the line -/
theorem C219_winding {u : Setup Box Lane} {lane : Lane} {pts : List Pt} (hu : Winding u lane pts) (foreign : Nat → Bool) {w : W Box} (hw : Props.WellFormed w)
    (hoff : w.removeAgents = false) (hmany : w.agents.length ≤ u.maxAgents + 1) (l : List (ℝ × Planner Box)) (hpos : ∀ d ∈ l, 0 < d.1 ∧ d.1 ≤ 1 / 5) {x : Nat → ℝ × ℝ}
    (hride : ∀ i ag, w.getAgent i = some ag → Rides (alongAt pts) w.time (x i).1 (x i).2 ag ∧ 0 ≤ (x i).2 ∧ 0 ≤ (x i).1 ∧ (x i).1 ≤ Ln.length pts ∧
      (foreign i = false → (x i).2 ≤ 15 ∧ (l.map Prod.fst).sum / 20 ≤ (x i).1 ∧ (x i).1 + 16 * (l.map Prod.fst).sum ≤ Ln.length pts))
    (hclear : AllClear w x) (hb : Behave u foreign (alongAt pts) (Ln.length pts) l w) :
    ∃ (w' : W Box) (x' : Nat → ℝ × ℝ), drive u foreign l w = .ok w' ∧ w'.time = w.time + (l.map Prod.fst).sum ∧
      (∀ i, w'.getAgent i = none ↔ w.getAgent i = none) ∧
      (∀ i ag a1, w.getAgent i = some ag → w'.getAgent i = some a1 → a1.shape = ag.shape) ∧
      (∀ i a1, w'.getAgent i = some a1 → Rides (alongAt pts) w'.time (x' i).1 (x' i).2 a1 ∧ 0 ≤ (x' i).2 ∧ (foreign i = false → (x' i).2 ≤ 15)) ∧
      (∀ i j ai aj, w.getAgent i = some ai → w.getAgent j = some aj → i ≠ j → (x i).1 ≤ (x j).1 → (x' i).1 ≤ (x' j).1) ∧
      AllClear w' x' := by
  obtain ⟨w', x', r, ht, g, n, s, o⟩ := fine_run (setting_winding hu) l hpos (w := w) (x := x) ⟨hw, hoff, hmany, hride, hclear⟩ hb
  exact ⟨w', x', r, ht, n, s, fun i a1 hi => ⟨(g.rides i a1 hi).1, (g.rides i a1 hi).2.1, fun hF => ((g.rides i a1 hi).2.2.2.2 hF).1⟩, o, g.clear⟩

/-- C219: how an IDM vehicle moves in a step depends on where the others are, not on what drives them -/
theorem C219_only_where {u : Setup Box Lane} {foreign foreign' : Nat → Bool} {f f' : Planner Box} {w w1 w2 : W Box} (hw : Props.WellFormed w) {dt : ℝ}
    (h1 : World.step (mixed u foreign f) dt w = .ok w1) (h2 : World.step (mixed u foreign' f') dt w = .ok w2) {i : Nat} (hi : foreign i = false)
    (hi' : foreign' i = false) : w1.getAgent i = w2.getAgent i := by
  obtain ⟨w3, h3, -⟩ := Props.apply_wf (plug u) hw (World.Op.step dt) trivial
  rw [same_effect hw h1 h3 hi, same_effect hw h2 h3 hi']

/-! ### examples -/

/-- a foreign vehicle whose trajectory begins before and ends with the step goes to where the trajectory ends -/
theorem foreign_step {u : Setup Box Lane} {F : Nat → Bool} {f : Planner Box} {w w1 : W Box} (hw : Props.WellFormed w) (hoff : w.removeAgents = false) {dt : ℝ}
    (h : World.step (mixed u F f) dt w = .ok w1) {i : Nat} (hF : F i = true) {At : ℝ → Pt → ℝ → Prop} {s v : ℝ}
    {ag : Agent ℝ V5 CAcc.Act Beh (Res (Interp.Exec V5)) Shape.Poly} (hi : w.getAgent i = some ag) (hr : Rides At w.time s v ag) (hdt : 0 < dt) {s1 v1 θ1 : ℝ} {p1 : Pt}
    (hf : ∀ index, ∃ st, f ag.behavior dt { w with rtree := index } i =
      ⟨.valid, .ok [(w.time, st), (w.time + dt, p1.1, p1.2, θ1, v1)], .continuous 0⟩) (hA : At s1 p1 θ1) :
    ∃ a1, w1.getAgent i = some a1 ∧ a1.shape = ag.shape ∧ Rides At w1.time s1 v1 a1 := by
  obtain ⟨e, he, hes⟩ := hr.exec
  obtain ⟨o, index, x, f1, f2, f3⟩ := step_fresh (mixed u F f) hw h hi
  obtain ⟨st, hst⟩ := hf index
  have hobs : ((mixed u F f).observe o { w with rtree := index } i).2 = { w with rtree := index } := rfl
  rw [hobs] at f3
  have hplan : (mixed u F f).plan ag.behavior dt { w with rtree := index } i = ⟨.valid, .ok [(w.time, st), (w.time + dt, p1.1, p1.2, θ1, v1)], .continuous 0⟩ := by
    show (if F i = true then f ag.behavior dt { w with rtree := index } i else _) = _
    rw [if_pos hF, hst]
  generalize hT : [(w.time, st), (w.time + dt, p1.1, p1.2, θ1, v1)] = T at hplan
  have hact' : ag.firstValid ≤ w.time + 1 / 2 ^ 52 := by
    have : (0 : ℝ) < 1 / 2 ^ 52 := by positivity
    linarith [hr.entered]
  have hpl : Bark.Spec.planned (mixed u F f) w.time dt { w with rtree := index } i ag =
      { ag with behavior := ⟨.valid, .ok T, .continuous 0⟩, exec := .ok ⟨some (w.time + dt, p1.1, p1.2, θ1, v1), T, .valid⟩ } := by
    unfold Bark.Spec.planned
    rw [if_pos hact', hplan, he]
    have hex := Interp.C17_last_stamp (LinearMap.fst ℝ ℝ (ℝ × ℝ × ℝ × ℝ)) e hes T (w.time, st) (w.time + dt, p1.1, p1.2, θ1, v1) (by rw [← hT]; rfl) (by rw [← hT]; rfl) (by
      show w.time < w.time + dt
      linarith)
    have e4 : (mixed u F f).execute (.ok e) (w.time + dt) ⟨.valid, .ok T, .continuous 0⟩ =
        .ok ⟨some (w.time + dt, p1.1, p1.2, θ1, v1), T, .valid⟩ := hex
    rw [e4]
    rfl
  rw [hpl] at f3
  have hcond : (ag.firstValid ≤ w.time + 1 / 2 ^ 52 ∧ (mixed u F f).status ⟨.valid, .ok T, .continuous 0⟩ = .valid ∧
      (mixed u F f).execStatus (.ok ⟨some (w.time + dt, p1.1, p1.2, θ1, v1), T, .valid⟩) = .valid) := ⟨hact', rfl, rfl⟩
  have hhist : ag.history ≠ [] := (hw.2.1 i ag hi).1
  have hcur := Loop.moved_current (mixed u F f) w.time
    { ag with behavior := ⟨.valid, .ok T, .continuous 0⟩, exec := .ok ⟨some (w.time + dt, p1.1, p1.2, θ1, v1), T, .valid⟩ } hhist hcond
  obtain ⟨m1, m2, m3, m4⟩ := moved_fields (mixed u F f) w.time
    { ag with behavior := ⟨.valid, .ok T, .continuous 0⟩, exec := .ok ⟨some (w.time + dt, p1.1, p1.2, θ1, v1), T, .valid⟩ }
  have ht := (Loop.step_keeps (mixed u F f) h).1
  refine ⟨_, f3 ?_, ?_, ?_⟩
  · rintro (k | ⟨k, -⟩)
    · cases k
    · rw [hoff] at k; cases k
  · rw [m4]
  · refine ⟨?_, ?_, ?_, ?_, ⟨p1, θ1, hA, ?_⟩, ?_⟩
    · rw [m3, ht]; dsimp only; linarith [hr.entered]
    · rw [m1]
    · rw [m1]; exact .continuous 0
    · rw [m2]; exact ⟨_, rfl, rfl⟩
    · rw [hcur, ht]
      rfl
    · rw [m4]; exact hr.shape

/-- stays at, or gets to and stops at, `q` metres -/
noncomputable def halt (q : ℝ) : Planner ℝ := fun _ dt obs _ => ⟨.valid, .ok [(obs.time, q, 0, 0, 0), (obs.time + dt, q, 0, 0, 0)], .continuous 0⟩

/-- vehicle 0 is the foreign one -/
def zeroth (i : Nat) : Bool := i == 0

/-- vehicle 0 stands at `q` -/
def Parked (q : ℝ) (w : W ℝ) : Prop := ∃ ag, w.getAgent 0 = some ag ∧ Rides (straightAt (0, 0) (1000, 0)) w.time q 0 ag

theorem at_road (q : ℝ) : straightAt (0, 0) (1000, 0) q (q, 0) 0 := by
  refine ⟨(road_point q).symm, 1000, by norm_num, by simp [vec]⟩

theorem road_unique {t s v s' v' : ℝ} {ag} (h : Rides (straightAt (0, 0) (1000, 0)) t s v ag) (h' : Rides (straightAt (0, 0) (1000, 0)) t s' v' ag) : s = s' ∧ v = v' := by
  obtain ⟨_, θ, ⟨rfl, -⟩, e⟩ := h.state
  obtain ⟨_, θ', ⟨rfl, -⟩, e'⟩ := h'.state
  rw [e, road_point, road_point] at e'
  simp only [Except.ok.injEq, Prod.mk.injEq] at e'
  exact ⟨e'.2.1, e'.2.2.2.2⟩

theorem parked_step {q : ℝ} (hq0 : 0 ≤ q) (hq : q ≤ 1000) {dt : ℝ} (hdt : 0 < dt) {w w1 : W ℝ} (hw : Props.WellFormed w) (hoff : w.removeAgents = false)
    (hp : Parked q w) (hbehind : ∀ j aj sj vj, w.getAgent j = some aj → On (straightAt (0, 0) (1000, 0)) (pdist (0, 0) (1000, 0)) w.time sj vj aj → j ≠ 0 → sj < q)
    (h : World.step (mixed road zeroth (halt q)) dt w = .ok w1) :
    Decent zeroth (straightAt (0, 0) (1000, 0)) (pdist (0, 0) (1000, 0)) dt w w1 ∧ Parked q w1 := by
  obtain ⟨ag, hag, hr⟩ := hp
  obtain ⟨a1, k1, k2, k3⟩ := foreign_step (At := straightAt (0, 0) (1000, 0)) hw hoff h (i := 0) rfl hag hr hdt (p1 := (q, 0)) (θ1 := 0) (v1 := 0)
    (fun index => ⟨(q, 0, 0, 0), rfl⟩) (at_road q)
  refine ⟨?_, a1, k1, k3⟩
  intro i ai s v hF hi hri
  have hi0 : i = 0 := by simpa [zeroth] using hF
  subst hi0
  rw [hag] at hi
  cases hi
  obtain ⟨e1, e2⟩ := road_unique hri.1 hr
  subst e1 e2
  refine ⟨a1, s, 0, k1, k2, ⟨k3, hq0, by rw [road_len]; exact hq⟩, ⟨rfl, le_refl _, by dsimp only; linarith, ?_⟩, ?_⟩
  · dsimp only
    unfold Loop.Spec.brakingWay
    rw [if_neg (by linarith)]
    norm_num
  · intro j aj sj vj aj1 sj1 vj1 hne hj hrj hle _ _
    exact absurd (hbehind j aj sj vj hj hrj hne) (not_lt.2 hle)

theorem parked_run {q : ℝ} (hq0 : 0 ≤ q) (hq : q ≤ 1000) {dt : ℝ} (hdt : 0 < dt) (hdt5 : dt ≤ 1 / 5) : ∀ (n : Nat) {w : W ℝ} {x : Nat → ℝ × ℝ},
    Fine road zeroth (pdist (0, 0) (1000, 0)) (straightAt (0, 0) (1000, 0)) (n * dt) w x → Parked q w → x 0 = (q, 0) →
    (∀ j aj, w.getAgent j = some aj → j ≠ 0 → (x j).1 < q) →
    Behave road zeroth (straightAt (0, 0) (1000, 0)) (pdist (0, 0) (1000, 0)) (List.replicate n (dt, halt q)) w
  | 0, _, _, _, _, _, _ => trivial
  | n + 1, w, x, hg, hp, hx, hlt => by
    show ∀ w1, _ → _
    intro w1 h
    have hbehind : ∀ j aj sj vj, w.getAgent j = some aj → On (straightAt (0, 0) (1000, 0)) (pdist (0, 0) (1000, 0)) w.time sj vj aj → j ≠ 0 → sj < q := by
      intro j aj sj vj hj hr hne
      rw [(road_unique hr.1 (hg.rides j aj hj).1).1]
      exact hlt j aj hj hne
    obtain ⟨hd, hp1⟩ := parked_step hq0 hq hdt hg.wf hg.off hp hbehind h
    refine ⟨hd, ?_⟩
    have hg' : Fine road zeroth (pdist (0, 0) (1000, 0)) (straightAt (0, 0) (1000, 0)) (dt + n * dt) w x := by
      have e : ((n + 1 : ℕ) : ℝ) * dt = dt + n * dt := by push_cast; ring
      rw [← e]; exact hg
    obtain ⟨x1, g1, n1, -, o1⟩ := fine_step (setting_straight road_straight) hg' hdt hdt5 (by positivity) h hd
    obtain ⟨ag, hag, -⟩ := hp
    obtain ⟨a1, ha1, hr1⟩ := hp1
    obtain ⟨e1, e2⟩ := road_unique (g1.rides 0 a1 ha1).1 hr1
    refine parked_run hq0 hq hdt hdt5 n g1 ⟨a1, ha1, hr1⟩ (Prod.ext e1 e2) fun j aj1 hj1 hne => ?_
    obtain ⟨aj, hj⟩ := Option.ne_none_iff_exists'.1 fun e => by rw [(n1 j).2 e] at hj1; cases hj1
    have hle := o1 j 0 aj ag hj hag hne (by rw [hx]; exact (hlt j aj hj hne).le)
    have hc := (g1.clear j 0 aj1 a1 hj1 ha1 hne hle).1
    have h2 := (g1.rides j aj1 hj1).1.shape.front
    have h3 := (g1.rides 0 a1 ha1).1.shape.rear
    unfold gap at hc
    linarith

/-- the hypotheses are met: two IDM vehicles come up behind a parked vehicle that something else drives, and never hit it -/
example (n : Nat) (hn : n ≤ 200) : ∃ w' : W ℝ, drive road zeroth (List.replicate n (1 / 5, halt 300)) three = .ok w' ∧ w'.time = n / 5 ∧
    ∀ collide, Sound collide → Eval.collisionAgents (plug road) outline collide w' = .ok false := by
  have hsum : ((List.replicate n ((1 / 5 : ℝ), halt 300)).map Prod.fst).sum = n / 5 := by rw [List.map_replicate, List.sum_replicate]; simp; ring
  have hn' : (n : ℝ) ≤ 200 := by exact_mod_cast hn
  have hn0 : (0 : ℝ) ≤ n := Nat.cast_nonneg n
  have hride : ∀ i ag, three.getAgent i = some ag → Rides (straightAt (0, 0) (1000, 0)) three.time
      ((if i = 0 then (300, 0) else if i = 1 then (220, 15) else (215, 14) : ℝ × ℝ)).1 ((if i = 0 then (300, 0) else if i = 1 then (220, 15) else (215, 14) : ℝ × ℝ)).2 ag ∧
      0 ≤ ((if i = 0 then (300, 0) else if i = 1 then (220, 15) else (215, 14) : ℝ × ℝ)).2 ∧
      0 ≤ ((if i = 0 then (300, 0) else if i = 1 then (220, 15) else (215, 14) : ℝ × ℝ)).1 ∧
      ((if i = 0 then (300, 0) else if i = 1 then (220, 15) else (215, 14) : ℝ × ℝ)).1 ≤ pdist (0, 0) (1000, 0) ∧
      (zeroth i = false → ((if i = 0 then (300, 0) else if i = 1 then (220, 15) else (215, 14) : ℝ × ℝ)).2 ≤ 15 ∧
        (n / 5 : ℝ) / 20 ≤ ((if i = 0 then (300, 0) else if i = 1 then (220, 15) else (215, 14) : ℝ × ℝ)).1 ∧
        ((if i = 0 then (300, 0) else if i = 1 then (220, 15) else (215, 14) : ℝ × ℝ)).1 + 16 * (n / 5 : ℝ) ≤ pdist (0, 0) (1000, 0)) := by
    intro i ag h
    rw [road_len]
    rcases three_get h with ⟨rfl, rfl⟩ | ⟨rfl, rfl⟩ | ⟨rfl, rfl⟩
    · exact ⟨mover_rides _ _ _, by norm_num, by norm_num, by norm_num, fun _ => ⟨by norm_num, by norm_num; linarith, by norm_num; linarith⟩⟩
    · exact ⟨mover_rides _ _ _, by norm_num, by norm_num, by norm_num, fun _ => ⟨by norm_num, by norm_num; linarith, by norm_num; linarith⟩⟩
    · exact ⟨mover_rides _ _ _, by norm_num, by norm_num, by norm_num, fun _ => ⟨by norm_num, by norm_num; linarith, by norm_num; linarith⟩⟩
  have hclear : AllClear three (fun i => if i = 0 then (300, 0) else if i = 1 then (220, 15) else (215, 14)) := by
    intro i j ai aj hi hj hij hle
    rcases three_get hi with ⟨rfl, rfl⟩ | ⟨rfl, rfl⟩ | ⟨rfl, rfl⟩ <;> rcases three_get hj with ⟨rfl, rfl⟩ | ⟨rfl, rfl⟩ | ⟨rfl, rfl⟩ <;>
      first
      | exact absurd rfl hij
      | (norm_num at hle; done)
      | (unfold Loop.Spec.Clear gap mover block; norm_num)
  have hb : Behave road zeroth (straightAt (0, 0) (1000, 0)) (pdist (0, 0) (1000, 0)) (List.replicate n (1 / 5, halt 300)) three := by
    refine parked_run (by norm_num) (by norm_num) (by norm_num) (by norm_num) n (x := fun i => if i = 0 then (300, 0) else if i = 1 then (220, 15) else (215, 14))
      ⟨three_wf, rfl, by decide, fun i ag h => ?_, hclear⟩ ⟨_, rfl, mover_rides 0 300 0⟩ rfl ?_
    · rw [show (n : ℝ) * (1 / 5) = n / 5 by ring]
      exact hride i ag h
    · intro j aj hj hne
      rcases three_get hj with ⟨rfl, rfl⟩ | ⟨rfl, rfl⟩ | ⟨rfl, rfl⟩
      · exact absurd rfl hne
      · norm_num
      · norm_num
  obtain ⟨w', x', h1, h2, -, -, -, -, -, -, h3⟩ := C219_mixed road_straight zeroth three_wf rfl (by decide) (List.replicate n (1 / 5, halt 300))
    (by intro d hd; rw [List.eq_of_mem_replicate hd]; norm_num) (x := fun i => if i = 0 then (300, 0) else if i = 1 then (220, 15) else (215, 14))
    (by rw [hsum]; exact hride) hclear hb
  refine ⟨w', h1, ?_, h3⟩
  rw [h2, hsum]
  exact zero_add _

/-- two vehicles with 15 m/s, one metre between them -/
noncomputable def tail : W ℝ := traffic [(0, mover 0 200 15), (1, mover 1 198 15)]

theorem tail_get {i : Nat} {ag} (h : tail.getAgent i = some ag) : (i = 0 ∧ ag = mover 0 200 15) ∨ (i = 1 ∧ ag = mover 1 198 15) := by
  have hm := OMap.find_some_mem h
  simpa only [tail, traffic, List.mem_cons, List.not_mem_nil, or_false, Prod.mk.injEq] using hm

theorem tail_wf : Props.WellFormed tail := by
  refine ⟨by simp [OMap.Sorted, tail, traffic], ?_, by simp [tail, traffic]⟩
  intro id a h
  rcases tail_get h with ⟨rfl, rfl⟩ | ⟨rfl, rfl⟩ <;> simp [mover]

/-- the limit on braking is needed: if the vehicle ahead stops dead, the IDM vehicle behind it, one metre away and as fast, which was clear of it (both could brake
equally hard), is inside it after one step -/
theorem C219_hard_stop : ∃ (w1 : W ℝ) (a0 a1 : Agent ℝ V5 CAcc.Act Beh (Res (Interp.Exec V5)) Shape.Poly) (s1 v1 : ℝ),
    AllClear tail (fun i => if i = 0 then (200, 15) else (198, 15)) ∧ drive road zeroth [(1 / 5, halt 200)] tail = .ok w1 ∧
    w1.getAgent 0 = some a0 ∧ w1.getAgent 1 = some a1 ∧ Rides (straightAt (0, 0) (1000, 0)) w1.time 200 0 a0 ∧ Rides (straightAt (0, 0) (1000, 0)) w1.time s1 v1 a1 ∧
    gap a1.shape a0.shape s1 200 < 0 := by
  have hclear : AllClear tail (fun i => if i = 0 then (200, 15) else (198, 15)) := by
    intro i j ai aj hi hj hij hle
    rcases tail_get hi with ⟨rfl, rfl⟩ | ⟨rfl, rfl⟩ <;> rcases tail_get hj with ⟨rfl, rfl⟩ | ⟨rfl, rfl⟩ <;>
      first
      | exact absurd rfl hij
      | (norm_num at hle; done)
      | (unfold Loop.Spec.Clear gap mover block; norm_num)
  obtain ⟨w1, h1', -⟩ := Props.apply_wf (mixed road zeroth (halt 200)) tail_wf (World.Op.step (1 / 5)) trivial
  have h1 : World.step (mixed road zeroth (halt 200)) (1 / 5) tail = .ok w1 := h1'
  obtain ⟨a0, k1, k2, k3⟩ := foreign_step (At := straightAt (0, 0) (1000, 0)) tail_wf rfl h1 (i := 0) rfl rfl (mover_rides 0 200 15) (by norm_num)
    (p1 := (200, 0)) (θ1 := 0) (v1 := 0) (fun index => ⟨(200, 0, 0, 0), rfl⟩) (at_road 200)
  have hfine : Fine road zeroth (pdist (0, 0) (1000, 0)) (straightAt (0, 0) (1000, 0)) (1 / 5) tail (fun i => if i = 0 then (200, 15) else (198, 15)) := by
    refine ⟨tail_wf, rfl, by decide, fun i ag h => ?_, hclear⟩
    rw [road_len]
    rcases tail_get h with ⟨rfl, rfl⟩ | ⟨rfl, rfl⟩
    · exact ⟨mover_rides _ _ _, by norm_num, by norm_num, by norm_num, fun _ => ⟨by norm_num, by norm_num, by norm_num⟩⟩
    · exact ⟨mover_rides _ _ _, by norm_num, by norm_num, by norm_num, fun _ => ⟨by norm_num, by norm_num, by norm_num⟩⟩
  obtain ⟨z, ⟨a1, m1, m2, m3⟩, -, -, ⟨m4, -⟩, -⟩ := fine_idm (setting_straight road_straight) hfine (by norm_num) (by norm_num) (le_refl _) h1 (i := 1) rfl (ag := mover 1 198 15) rfl
  refine ⟨w1, a0, a1, z.1, z.2, hclear, ?_, k1, m1, k3, m3, ?_⟩
  · unfold drive
    rw [h1]
    rfl
  · rw [m2, k2]
    have : (Loop.brk (1 / 5 / 10) 10 198 15).1 = 198 + 29 / 10 := by
      norm_num [Loop.brk]
    have m4' : (Loop.brk (1 / 5 / 10) 10 198 15).1 ≤ z.1 := m4
    rw [this] at m4'
    unfold gap mover block
    dsimp only
    linarith

end Bark.Mix
