import Verif.Spec.MixedLong
import Verif.Props.MixedRun

/-!
C219 for runs of any length.
-/
namespace Bark.Mix
open Bark Bark.Ln Bark.Ln.Spec Bark.Flow Bark.Flow.Spec Bark.Mix.Spec

variable {Box Lane : Type}

theorem fine_run_long {u : Setup Box Lane} {F : Nat → Bool} {lane : Lane} {L : ℝ} {At : ℝ → Pt → ℝ → Prop} (hu : Setting u lane L At) :
    ∀ (l : List (ℝ × Planner Box)) (_ : ∀ d ∈ l, 0 < d.1 ∧ d.1 ≤ 1 / 5) {w : W Box} {x : Nat → ℝ × ℝ}, Fine u F L At 0 w x →
    (∀ j aj, F j = false → w.getAgent j = some aj → (l.map Prod.fst).sum / 20 ≤ (x j).1) →
    (∀ j aj, F j = false → w.getAgent j = some aj → ∃ i ai, F i = true ∧ w.getAgent i = some ai ∧ (x j).1 < (x i).1) → Until u F At L (L - 16 / 5) l w →
      Behave u F At L l w → ∃ (w' : W Box) (x' : Nat → ℝ × ℝ), drive u F l w = .ok w' ∧ w'.time = w.time + (l.map Prod.fst).sum ∧ Fine u F L At 0 w' x' ∧
      (∀ i, w'.getAgent i = none ↔ w.getAgent i = none) ∧
      (∀ i ag a1, w.getAgent i = some ag → w'.getAgent i = some a1 → a1.shape = ag.shape) ∧
      ∀ i j ai aj, w.getAgent i = some ai → w.getAgent j = some aj → i ≠ j → (x i).1 ≤ (x j).1 → (x' i).1 ≤ (x' j).1
  | [], _, w, x, hg, _, _, _, _ => by
    refine ⟨w, x, rfl, by simp, by simpa using hg, fun i => Iff.rfl, ?_, fun i j ai aj _ _ _ h => h⟩
    intro i ag a1 h1 h2
    rw [h1] at h2; cases h2; rfl
  | (dt, f) :: l, hpos, w, x, hg0, hlate, hbehind, hunt, hb => by
    obtain ⟨w1, h1', -⟩ := Props.apply_wf (mixed u F f) hg0.wf (World.Op.step dt) trivial
    have h1 : World.step (mixed u F f) dt w = .ok w1 := h1'
    obtain ⟨hdt, hdt5⟩ := hpos (dt, f) (by simp)
    have hsum : 0 ≤ (l.map Prod.fst).sum := List.sum_nonneg fun d hd => by
      obtain ⟨p, hp, rfl⟩ := List.mem_map.1 hd
      exact (hpos p (by simp [hp])).1.le
    rw [List.map_cons, List.sum_cons] at hlate
    dsimp only at hlate hdt hdt5
    obtain ⟨hhere, hunt1⟩ := hunt
    have hg : Fine u F L At (dt + 0) w x := by
      refine ⟨hg0.wf, hg0.off, hg0.many, fun i ag hi => ?_, hg0.clear⟩
      obtain ⟨r1, r2, r3, r4, r5⟩ := hg0.rides i ag hi
      refine ⟨r1, r2, r3, r4, fun hF => ?_⟩
      obtain ⟨k, ak, hFk, hk, e2⟩ := hbehind i ag hF hi
      have e1 := hlate i ag hF hi
      obtain ⟨q1, -, q3, q4, -⟩ := hg0.rides k ak hk
      have e3 := hhere k ak (x k).1 (x k).2 hFk hk ⟨q1, q3, q4⟩
      exact ⟨(r5 hF).1, by linarith, by linarith⟩
    obtain ⟨hd, hb1⟩ := hb w1 h1
    obtain ⟨x1, g1, n1, s1, o1⟩ := fine_step hu hg hdt hdt5 (le_refl _) h1 hd
    have ex : ∀ i ag, w.getAgent i = some ag → ∃ a1, w1.getAgent i = some a1 := by
      intro i ag hi
      refine Option.ne_none_iff_exists'.1 fun e => ?_
      rw [(n1 i).1 e] at hi; cases hi
    have back : ∀ i a1, w1.getAgent i = some a1 → ∃ ag, w.getAgent i = some ag := by
      intro i a1 hi
      refine Option.ne_none_iff_exists'.1 fun e => ?_
      rw [(n1 i).2 e] at hi; cases hi
    obtain ⟨w', x', r, ht, g2, n2, s2, o2⟩ := fine_run_long hu l (fun d hd => hpos d (by simp [hd])) g1
      (fun j aj1 hFj hj1 => by
        obtain ⟨aj, hj⟩ := back j aj1 hj1
        obtain ⟨z, ⟨b1, q1, -, q3⟩, -, -, -, q4, q5, -⟩ := fine_idm hu hg hdt hdt5 (by linarith) h1 (i := j) hFj hj
        rw [hj1] at q1; cases q1
        obtain ⟨-, -, f3⟩ := (hg.rides j aj hj).2.2.2.2 hFj
        obtain ⟨p1, -, p3, p4, -⟩ := g1.rides j aj1 hj1
        have hl := hlate j aj hFj hj
        obtain ⟨e1, -⟩ := rides_unique hu p1 q3 p3 p4 (by linarith) (by linarith)
        rw [e1]
        linarith)
      (fun j aj1 hFj hj1 => by
        obtain ⟨aj, hj⟩ := back j aj1 hj1
        obtain ⟨k, ak, hFk, hk, hlt⟩ := hbehind j aj hFj hj
        obtain ⟨ak1, hk1⟩ := ex k ak hk
        have hne : j ≠ k := by rintro rfl; rw [hFj] at hFk; cases hFk
        have hle := o1 j k aj ak hj hk hne hlt.le
        have c := (g1.clear j k aj1 ak1 hj1 hk1 hne hle).1
        have h2 := (g1.rides k ak1 hk1).1.shape.rear
        have h3 := (g1.rides j aj1 hj1).1.shape.front
        unfold gap at c
        exact ⟨k, ak1, hFk, hk1, by linarith⟩)
      (hunt1 w1 h1) hb1
    refine ⟨w', x', ?_, ?_, g2, fun i => (n2 i).trans (n1 i), ?_, ?_⟩
    · unfold drive
      rw [h1]
      exact r
    · rw [ht, (Loop.step_keeps _ h1).1, List.map_cons, List.sum_cons, add_assoc]
    · intro i ag a2 hi h2
      obtain ⟨a1, e1⟩ := ex i ag hi
      rw [s2 i a1 a2 e1 h2, s1 i ag a1 hi e1]
    · intro i j ai aj hi hj hne hle
      obtain ⟨ai', ei⟩ := ex i ai hi
      obtain ⟨aj', ej⟩ := ex j aj hj
      exact o2 i j ai' aj' ei ej hne (o1 i j ai aj hi hj hne hle)

/-- **C219, however long.** If every IDM vehicle has a foreign one somewhere ahead, and the foreign ones never get closer than 3.2 m to the end of the lane, the IDM vehicles
need no room to the end of the lane, however long the drive is (they may only not creep back to its beginning, by at most 5 cm per second). -/
theorem C219_however_long {u : Setup Box Lane} {lane : Lane} {a b : Pt} (hu : Straight u lane a b) (foreign : Nat → Bool) {w : W Box} (hw : Props.WellFormed w)
    (hoff : w.removeAgents = false) (hmany : w.agents.length ≤ u.maxAgents + 1) (l : List (ℝ × Planner Box)) (hpos : ∀ d ∈ l, 0 < d.1 ∧ d.1 ≤ 1 / 5) {x : Nat → ℝ × ℝ}
    (hride : ∀ i ag, w.getAgent i = some ag → Rides (straightAt a b) w.time (x i).1 (x i).2 ag ∧ 0 ≤ (x i).2 ∧ 0 ≤ (x i).1 ∧ (x i).1 ≤ pdist a b ∧
      (foreign i = false → (x i).2 ≤ 15 ∧ (l.map Prod.fst).sum / 20 ≤ (x i).1))
    (hbehind : ∀ j aj, foreign j = false → w.getAgent j = some aj → ∃ i ai, foreign i = true ∧ w.getAgent i = some ai ∧ (x j).1 < (x i).1)
    (huntil : Until u foreign (straightAt a b) (pdist a b) (pdist a b - 16 / 5) l w) (hclear : AllClear w x) (hb : Behave u foreign (straightAt a b) (pdist a b) l w) :
    ∃ (w' : W Box) (x' : Nat → ℝ × ℝ), drive u foreign l w = .ok w' ∧ w'.time = w.time + (l.map Prod.fst).sum ∧
      (∀ i, w'.getAgent i = none ↔ w.getAgent i = none) ∧
      (∀ i ag a1, w.getAgent i = some ag → w'.getAgent i = some a1 → a1.shape = ag.shape) ∧
      (∀ i a1, w'.getAgent i = some a1 → Rides (straightAt a b) w'.time (x' i).1 (x' i).2 a1 ∧ 0 ≤ (x' i).2 ∧ (foreign i = false → (x' i).2 ≤ 15) ∧
        0 ≤ (x' i).1 ∧ (x' i).1 ≤ pdist a b) ∧
      (∀ i j ai aj, w.getAgent i = some ai → w.getAgent j = some aj → i ≠ j → (x i).1 ≤ (x j).1 → (x' i).1 ≤ (x' j).1) ∧
      AllClear w' x' ∧
      (∀ i j ai aj t p θ v t' p' θ' v', w'.getAgent i = some ai → w'.getAgent j = some aj → i ≠ j → ai.currentState = .ok (t, p.1, p.2, θ, v) →
        aj.currentState = .ok (t', p'.1, p'.2, θ', v') → Disjoint (body ai.shape p θ) (body aj.shape p' θ')) ∧
      ∀ collide, Sound collide → Eval.collisionAgents (plug u) outline collide w' = .ok false := by
  obtain ⟨w', x', r, ht, g, n, s, o⟩ := fine_run_long (setting_straight hu) l hpos (w := w) (x := x) ⟨hw, hoff, hmany, fun i ag hi => by
      obtain ⟨r1, r2, r3, r4, r5⟩ := hride i ag hi
      exact ⟨r1, r2, r3, r4, fun hF => ⟨(r5 hF).1, by simpa using r3, by simpa using r4⟩⟩, hclear⟩
    (fun j aj hF hj => ((hride j aj hj).2.2.2.2 hF).2) hbehind huntil hb
  obtain ⟨hbd, hn⟩ := no_contact (u := u) g.clear g.wf (fun i a1 hi => (g.rides i a1 hi).1)
  exact ⟨w', x', r, ht, n, s, fun i a1 hi => ⟨(g.rides i a1 hi).1, (g.rides i a1 hi).2.1, fun hF => ((g.rides i a1 hi).2.2.2.2 hF).1, (g.rides i a1 hi).2.2.1,
    (g.rides i a1 hi).2.2.2.1⟩, o, g.clear, hbd, hn⟩

/-- **C219, however long,** on any lane whose centre line does not meet itself, along the line -/
theorem C219_however_long_winding {u : Setup Box Lane} {lane : Lane} {pts : List Pt} (hu : Winding u lane pts) (foreign : Nat → Bool) {w : W Box} (hw : Props.WellFormed w)
    (hoff : w.removeAgents = false) (hmany : w.agents.length ≤ u.maxAgents + 1) (l : List (ℝ × Planner Box)) (hpos : ∀ d ∈ l, 0 < d.1 ∧ d.1 ≤ 1 / 5) {x : Nat → ℝ × ℝ}
    (hride : ∀ i ag, w.getAgent i = some ag → Rides (alongAt pts) w.time (x i).1 (x i).2 ag ∧ 0 ≤ (x i).2 ∧ 0 ≤ (x i).1 ∧ (x i).1 ≤ Ln.length pts ∧
      (foreign i = false → (x i).2 ≤ 15 ∧ (l.map Prod.fst).sum / 20 ≤ (x i).1))
    (hbehind : ∀ j aj, foreign j = false → w.getAgent j = some aj → ∃ i ai, foreign i = true ∧ w.getAgent i = some ai ∧ (x j).1 < (x i).1)
    (huntil : Until u foreign (alongAt pts) (Ln.length pts) (Ln.length pts - 16 / 5) l w) (hclear : AllClear w x) (hb : Behave u foreign (alongAt pts) (Ln.length pts) l w) :
    ∃ (w' : W Box) (x' : Nat → ℝ × ℝ), drive u foreign l w = .ok w' ∧ w'.time = w.time + (l.map Prod.fst).sum ∧
      (∀ i, w'.getAgent i = none ↔ w.getAgent i = none) ∧
      (∀ i ag a1, w.getAgent i = some ag → w'.getAgent i = some a1 → a1.shape = ag.shape) ∧
      (∀ i a1, w'.getAgent i = some a1 → Rides (alongAt pts) w'.time (x' i).1 (x' i).2 a1 ∧ 0 ≤ (x' i).2 ∧ (foreign i = false → (x' i).2 ≤ 15)) ∧
      (∀ i j ai aj, w.getAgent i = some ai → w.getAgent j = some aj → i ≠ j → (x i).1 ≤ (x j).1 → (x' i).1 ≤ (x' j).1) ∧
      AllClear w' x' := by
  obtain ⟨w', x', r, ht, g, n, s, o⟩ := fine_run_long (setting_winding hu) l hpos (w := w) (x := x) ⟨hw, hoff, hmany, fun i ag hi => by
      obtain ⟨r1, r2, r3, r4, r5⟩ := hride i ag hi
      exact ⟨r1, r2, r3, r4, fun hF => ⟨(r5 hF).1, by simpa using r3, by simpa using r4⟩⟩, hclear⟩
    (fun j aj hF hj => ((hride j aj hj).2.2.2.2 hF).2) hbehind huntil hb
  exact ⟨w', x', r, ht, n, s, fun i a1 hi => ⟨(g.rides i a1 hi).1, (g.rides i a1 hi).2.1, fun hF => ((g.rides i a1 hi).2.2.2.2 hF).1⟩, o, g.clear⟩

/-! ### example -/

theorem parked_long {q : ℝ} (hq0 : 0 ≤ q) (hq : q ≤ 1000 - 16 / 5) {dt : ℝ} (hdt : 0 < dt) (hdt5 : dt ≤ 1 / 5) : ∀ (n : Nat) {w : W ℝ} {x : Nat → ℝ × ℝ},
    Fine road zeroth (pdist (0, 0) (1000, 0)) (straightAt (0, 0) (1000, 0)) 0 w x → Parked q w → x 0 = (q, 0) →
    (∀ j aj, w.getAgent j = some aj → j ≠ 0 → (x j).1 < q ∧ n * dt / 20 ≤ (x j).1) →
    Behave road zeroth (straightAt (0, 0) (1000, 0)) (pdist (0, 0) (1000, 0)) (List.replicate n (dt, halt q)) w ∧
    Until road zeroth (straightAt (0, 0) (1000, 0)) (pdist (0, 0) (1000, 0)) (pdist (0, 0) (1000, 0) - 16 / 5) (List.replicate n (dt, halt q)) w := by
  have hhere : ∀ {w : W ℝ}, Parked q w → ∀ i ag s v, zeroth i = true → w.getAgent i = some ag →
      On (straightAt (0, 0) (1000, 0)) (pdist (0, 0) (1000, 0)) w.time s v ag → s ≤ pdist (0, 0) (1000, 0) - 16 / 5 := by
    rintro w ⟨a0, h0, hr0⟩ i ag s v hF hi hr
    have hi0 : i = 0 := by simpa [zeroth] using hF
    subst hi0
    rw [h0] at hi; cases hi
    rw [(road_unique hr.1 hr0).1, road_len]
    exact hq
  intro n
  induction n with
  | zero => exact fun hg hp _ _ => ⟨trivial, hhere hp⟩
  | succ n ih =>
    intro w x hg0 hp hx hlt
    have hnn : (0 : ℝ) ≤ n * dt := by positivity
    have hg : Fine road zeroth (pdist (0, 0) (1000, 0)) (straightAt (0, 0) (1000, 0)) (dt + 0) w x := by
      refine ⟨hg0.wf, hg0.off, hg0.many, fun i ag hi => ?_, hg0.clear⟩
      obtain ⟨r1, r2, r3, r4, r5⟩ := hg0.rides i ag hi
      refine ⟨r1, r2, r3, r4, fun hF => ?_⟩
      obtain ⟨e1, e2⟩ := hlt i ag hi (by rintro rfl; cases hF)
      push_cast at e2
      rw [road_len]
      exact ⟨(r5 hF).1, by linarith, by linarith⟩
    have hbehind : ∀ j aj sj vj, w.getAgent j = some aj → On (straightAt (0, 0) (1000, 0)) (pdist (0, 0) (1000, 0)) w.time sj vj aj → j ≠ 0 → sj < q := by
      intro j aj sj vj hj hr hne
      rw [(road_unique hr.1 (hg.rides j aj hj).1).1]
      exact (hlt j aj hj hne).1
    have hstep : ∀ w1, World.step (mixed road zeroth (halt q)) dt w = .ok w1 → Decent zeroth (straightAt (0, 0) (1000, 0)) (pdist (0, 0) (1000, 0)) dt w w1 ∧
        Behave road zeroth (straightAt (0, 0) (1000, 0)) (pdist (0, 0) (1000, 0)) (List.replicate n (dt, halt q)) w1 ∧
        Until road zeroth (straightAt (0, 0) (1000, 0)) (pdist (0, 0) (1000, 0)) (pdist (0, 0) (1000, 0) - 16 / 5) (List.replicate n (dt, halt q)) w1 := by
      intro w1 h
      obtain ⟨hd, hp1⟩ := parked_step hq0 (by linarith) hdt hg.wf hg.off hp hbehind h
      refine ⟨hd, ?_⟩
      obtain ⟨x1, g1, n1, -, o1⟩ := fine_step (setting_straight road_straight) hg hdt hdt5 (le_refl _) h hd
      obtain ⟨ag, hag, -⟩ := hp
      obtain ⟨a1, ha1, hr1⟩ := hp1
      obtain ⟨e1, e2⟩ := road_unique (g1.rides 0 a1 ha1).1 hr1
      refine ih g1 ⟨a1, ha1, hr1⟩ (Prod.ext e1 e2) fun j aj1 hj1 hne => ?_
      obtain ⟨aj, hj⟩ := Option.ne_none_iff_exists'.1 fun e => by rw [(n1 j).2 e] at hj1; cases hj1
      obtain ⟨l1, l2⟩ := hlt j aj hj hne
      constructor
      · have hle := o1 j 0 aj ag hj hag hne (by rw [hx]; exact l1.le)
        have hc := (g1.clear j 0 aj1 a1 hj1 ha1 hne hle).1
        have h2 := (g1.rides j aj1 hj1).1.shape.front
        have h3 := (g1.rides 0 a1 ha1).1.shape.rear
        unfold gap at hc
        linarith
      · obtain ⟨z, ⟨b1, q1, -, q3⟩, -, -, -, q4, q5, -⟩ := fine_idm (setting_straight road_straight) hg hdt hdt5 (by linarith) h (i := j) (by simpa [zeroth] using hne) hj
        rw [hj1] at q1; cases q1
        rw [(road_unique (g1.rides j aj1 hj1).1 q3).1]
        push_cast at l2
        linarith
    exact ⟨fun w1 h => ⟨(hstep w1 h).1, (hstep w1 h).2.1⟩, hhere hp, fun w1 h => (hstep w1 h).2.2⟩

/-- the hypotheses are met: for more than an hour two IDM vehicles never hit a parked vehicle ahead that something else drives -/
example (n : Nat) (hn : n ≤ 21000) : ∃ w' : W ℝ, drive road zeroth (List.replicate n (1 / 5, halt 300)) three = .ok w' ∧ w'.time = n / 5 ∧
    ∀ collide, Sound collide → Eval.collisionAgents (plug road) outline collide w' = .ok false := by
  have hsum : ((List.replicate n ((1 / 5 : ℝ), halt 300)).map Prod.fst).sum = n / 5 := by rw [List.map_replicate, List.sum_replicate]; simp; ring
  have hn' : (n : ℝ) ≤ 21000 := by exact_mod_cast hn
  have hn0 : (0 : ℝ) ≤ n := Nat.cast_nonneg n
  have hride : ∀ i ag, three.getAgent i = some ag → Rides (straightAt (0, 0) (1000, 0)) three.time
      ((if i = 0 then (300, 0) else if i = 1 then (220, 15) else (215, 14) : ℝ × ℝ)).1 ((if i = 0 then (300, 0) else if i = 1 then (220, 15) else (215, 14) : ℝ × ℝ)).2 ag ∧
      0 ≤ ((if i = 0 then (300, 0) else if i = 1 then (220, 15) else (215, 14) : ℝ × ℝ)).2 ∧
      0 ≤ ((if i = 0 then (300, 0) else if i = 1 then (220, 15) else (215, 14) : ℝ × ℝ)).1 ∧
      ((if i = 0 then (300, 0) else if i = 1 then (220, 15) else (215, 14) : ℝ × ℝ)).1 ≤ pdist (0, 0) (1000, 0) ∧
      (zeroth i = false → ((if i = 0 then (300, 0) else if i = 1 then (220, 15) else (215, 14) : ℝ × ℝ)).2 ≤ 15 ∧ (n / 5 : ℝ) / 20 ≤ ((if i = 0 then (300, 0) else if i = 1 then (220, 15) else (215, 14) : ℝ × ℝ)).1) := by
    intro i ag h
    rw [road_len]
    rcases three_get h with ⟨rfl, rfl⟩ | ⟨rfl, rfl⟩ | ⟨rfl, rfl⟩
    · exact ⟨mover_rides _ _ _, by norm_num, by norm_num, by norm_num, fun _ => ⟨by norm_num, by norm_num; linarith⟩⟩
    · exact ⟨mover_rides _ _ _, by norm_num, by norm_num, by norm_num, fun _ => ⟨by norm_num, by norm_num; linarith⟩⟩
    · exact ⟨mover_rides _ _ _, by norm_num, by norm_num, by norm_num, fun _ => ⟨by norm_num, by norm_num; linarith⟩⟩
  have hclear : AllClear three (fun i => if i = 0 then (300, 0) else if i = 1 then (220, 15) else (215, 14)) := by
    intro i j ai aj hi hj hij hle
    rcases three_get hi with ⟨rfl, rfl⟩ | ⟨rfl, rfl⟩ | ⟨rfl, rfl⟩ <;> rcases three_get hj with ⟨rfl, rfl⟩ | ⟨rfl, rfl⟩ | ⟨rfl, rfl⟩ <;>
      first
      | exact absurd rfl hij
      | (norm_num at hle; done)
      | (unfold Loop.Spec.Clear gap mover block; norm_num)
  have hlt : ∀ j aj, three.getAgent j = some aj → j ≠ 0 → ((if j = 0 then (300, 0) else if j = 1 then (220, 15) else (215, 14) : ℝ × ℝ)).1 < 300 ∧
      (n : ℝ) * (1 / 5) / 20 ≤ ((if j = 0 then (300, 0) else if j = 1 then (220, 15) else (215, 14) : ℝ × ℝ)).1 := by
    intro j aj hj hne
    rcases three_get hj with ⟨rfl, rfl⟩ | ⟨rfl, rfl⟩ | ⟨rfl, rfl⟩
    · exact absurd rfl hne
    · exact ⟨by norm_num, by norm_num; linarith⟩
    · exact ⟨by norm_num, by norm_num; linarith⟩
  obtain ⟨hb, hu⟩ := parked_long (q := 300) (dt := 1 / 5) (by norm_num) (by norm_num) (by norm_num) (by norm_num) n
    (x := fun i => if i = 0 then (300, 0) else if i = 1 then (220, 15) else (215, 14))
    ⟨three_wf, rfl, by decide, fun i ag h => by
      obtain ⟨r1, r2, r3, r4, r5⟩ := hride i ag h
      exact ⟨r1, r2, r3, r4, fun hF => ⟨(r5 hF).1, by simpa using r3, by simpa using r4⟩⟩, hclear⟩ ⟨_, rfl, mover_rides 0 300 0⟩ rfl hlt
  obtain ⟨w', x', h1, h2, -, -, -, -, -, -, h3⟩ := C219_however_long road_straight zeroth three_wf rfl (by decide) (List.replicate n (1 / 5, halt 300))
    (by intro d hd; rw [List.eq_of_mem_replicate hd]; norm_num) (x := fun i => if i = 0 then (300, 0) else if i = 1 then (220, 15) else (215, 14))
    (by rw [hsum]; exact hride)
    (fun j aj hF hj => ⟨0, _, rfl, rfl, by
      have := (hlt j aj hj (by rintro rfl; cases hF)).1
      exact this⟩) hu hclear hb
  refine ⟨w', h1, ?_, h3⟩
  rw [h2, hsum]
  exact zero_add _

end Bark.Mix
