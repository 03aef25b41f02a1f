import Verif.Props.ReplayMixed

/-!
C220 for drives of any length: the IDM vehicles behind a replayed vehicle need no room to the end of the lane if the replayed ones stay 3.2 m before it.
-/
namespace Bark.Mix
open Bark Bark.Ln Bark.Ln.Spec Bark.Flow Bark.Flow.Spec Bark.Mix.Spec

variable {Box Lane : Type}

theorem replay_run_long {u : Setup Box Lane} {lane : Lane} {L : ℝ} {At : ℝ → Pt → ℝ → Prop} (hu : Setting u lane L At) {F : Nat → Bool} {recording : Nat → List V5}
    {Y : Nat → ℝ → ℝ × ℝ} {t0 t1 : ℝ} : ∀ (dts : List ℝ) (_ : ∀ d ∈ dts, 0 < d ∧ d ≤ 1 / 5) {w : W Box} {x : Nat → ℝ × ℝ}, Fine u F L At 0 w x →
    (∀ j aj, F j = false → w.getAgent j = some aj → dts.sum / 20 ≤ (x j).1) → (∃ i ai, F i = true ∧ w.getAgent i = some ai) →
    (∀ i ag, F i = true → w.getAgent i = some ag → ∀ t, t0 ≤ t → t ≤ t1 → (Y i t).1 ≤ L - 16 / 5) →
    t0 ≤ w.time → w.time + dts.sum ≤ t1 →
    (∀ i ag, F i = true → w.getAgent i = some ag → Recorded At L t0 t1 (recording i) (Y i) ∧ x i = Y i w.time) →
    (∀ i j ai aj, F i = true → F j = false → w.getAgent i = some ai → w.getAgent j = some aj → (x j).1 < (x i).1) →
    Apart t0 t1 F Y w →
    ∃ (w' : W Box) (x' : Nat → ℝ × ℝ), World.run (mixed u F (replayer u recording)) w (Loop.Spec.steps dts) = .ok w' ∧ w'.time = w.time + dts.sum ∧ Fine u F L At 0 w' x' ∧
      (∀ i, w'.getAgent i = none ↔ w.getAgent i = none) ∧
      (∀ i ag a1, w.getAgent i = some ag → w'.getAgent i = some a1 → a1.shape = ag.shape) ∧
      (∀ i j ai aj, w.getAgent i = some ai → w.getAgent j = some aj → i ≠ j → (x i).1 ≤ (x j).1 → (x' i).1 ≤ (x' j).1) ∧
      ∀ i ag, F i = true → w'.getAgent i = some ag → x' i = Y i w'.time
  | [], _, w, x, hg, _, _, _, _, _, hrec, _, _ => by
    refine ⟨w, x, rfl, by simp, by simpa using hg, fun i => Iff.rfl, ?_, fun i j ai aj _ _ _ h => h, fun i ag hF hi => (hrec i ag hF hi).2⟩
    intro i ag a1 h1 h2
    rw [h1] at h2; cases h2; rfl
  | dt :: dts, hpos, w, x, hg0, hlate, hsomeone, hbound, ht0, ht1, hrec, hlead, hapart => by
    obtain ⟨w1, h1', -⟩ := Props.apply_wf (mixed u F (replayer u recording)) hg0.wf (World.Op.step dt) trivial
    have h1 : World.step (mixed u F (replayer u recording)) dt w = .ok w1 := h1'
    obtain ⟨hdt, hdt5⟩ := hpos dt (by simp)
    have hsum : 0 ≤ dts.sum := List.sum_nonneg fun d hd => (hpos d (by simp [hd])).1.le
    rw [List.sum_cons] at ht1 hlate
    have hwt : w1.time = w.time + dt := (Loop.step_keeps _ h1).1
    have hg : Fine u F L At (dt + 0) w x := by
      refine ⟨hg0.wf, hg0.off, hg0.many, fun i ag hi => ?_, hg0.clear⟩
      obtain ⟨r1, r2, r3, r4, r5⟩ := hg0.rides i ag hi
      refine ⟨r1, r2, r3, r4, fun hF => ?_⟩
      obtain ⟨k, ak, hFk, hk⟩ := hsomeone
      have e1 := hlate i ag hF hi
      have e2 := hlead k i ak ag hFk hF hk hi
      have e3 := hbound k ak hFk hk w.time ht0 (by linarith)
      rw [← (hrec k ak hFk hk).2] at e3
      exact ⟨(r5 hF).1, by linarith, by linarith⟩
    obtain ⟨hd, hnew⟩ := replay_decent hu hg hdt hdt5 h1 ht0 (by linarith) hrec hlead hapart
    obtain ⟨x1, g1, n1, s1, o1⟩ := fine_step hu hg hdt hdt5 (le_refl _) h1 hd
    have back : ∀ i a1, w1.getAgent i = some a1 → ∃ ag, w.getAgent i = some ag := by
      intro i a1 hi
      refine Option.ne_none_iff_exists'.1 fun e => ?_
      rw [(n1 i).2 e] at hi; cases hi
    have ex : ∀ i ag, w.getAgent i = some ag → ∃ a1, w1.getAgent i = some a1 := by
      intro i ag hi
      refine Option.ne_none_iff_exists'.1 fun e => ?_
      rw [(n1 i).1 e] at hi; cases hi
    obtain ⟨w', x', r, ht, g2, n2, s2, o2, y2⟩ := replay_run_long hu (recording := recording) (Y := Y) (t0 := t0) (t1 := t1) dts (fun d hd => hpos d (by simp [hd])) g1
      (fun j aj1 hFj hj1 => by
        obtain ⟨aj, hj⟩ := back j aj1 hj1
        obtain ⟨z, ⟨b1, q1, -, q3⟩, -, -, -, q4, q5, -⟩ := fine_idm hu hg hdt hdt5 (by linarith) h1 (i := j) hFj hj
        rw [hj1] at q1; cases q1
        obtain ⟨-, -, f3⟩ := (hg.rides j aj hj).2.2.2.2 hFj
        obtain ⟨p1, -, p3, p4, -⟩ := g1.rides j aj1 hj1
        have hl := hlate j aj hFj hj
        obtain ⟨e1, -⟩ := rides_unique hu p1 q3 p3 p4 (by linarith) (by linarith)
        rw [e1]
        linarith)
      (by
        obtain ⟨k, ak, hFk, hk⟩ := hsomeone
        obtain ⟨a1, e1⟩ := ex k ak hk
        exact ⟨k, a1, hFk, e1⟩)
      (fun i a1 hF hi => by
        obtain ⟨ag, hag⟩ := back i a1 hi
        exact hbound i ag hF hag)
      (by rw [hwt]; linarith) (by rw [hwt]; linarith)
      (fun i a1 hF hi => by
        obtain ⟨ag, hag⟩ := back i a1 hi
        obtain ⟨b1, c1, c2⟩ := hnew i ag hF hag
        rw [hi] at c1
        cases c1
        obtain ⟨k1, -, k2, k3, -⟩ := g1.rides i a1 hi
        obtain ⟨e1, e2⟩ := rides_unique hu k1 c2.1 k2 k3 c2.2.1 c2.2.2
        exact ⟨(hrec i ag hF hag).1, Prod.ext e1 e2⟩)
      (fun i j ai aj hFi hFj hi hj => by
        obtain ⟨bi, hbi⟩ := back i ai hi
        obtain ⟨bj, hbj⟩ := back j aj hj
        have hne : j ≠ i := by rintro rfl; rw [hFi] at hFj; cases hFj
        have hle := o1 j i bj bi hbj hbi hne (hlead i j bi bj hFi hFj hbi hbj).le
        have c := (g1.clear j i aj ai hj hi hne hle).1
        have h2 := (g1.rides i ai hi).1.shape.rear
        have h3 := (g1.rides j aj hj).1.shape.front
        unfold gap at c
        linarith)
      (fun i j ai aj hFi hFj hne hi hj => by
        obtain ⟨bi, hbi⟩ := back i ai hi
        obtain ⟨bj, hbj⟩ := back j aj hj
        rw [s1 i bi ai hbi hi, s1 j bj aj hbj hj]
        exact hapart i j bi bj hFi hFj hne hbi hbj)
    refine ⟨w', x', ?_, ?_, g2, fun i => (n2 i).trans (n1 i), ?_, ?_, y2⟩
    · unfold Loop.Spec.steps
      rw [List.map_cons]
      unfold World.run
      rw [h1', Res.ok_bind]
      exact r
    · rw [ht, hwt, List.sum_cons, add_assoc]
    · intro i ag a2 hi h2
      obtain ⟨a1, e1⟩ := ex i ag hi
      rw [s2 i a1 a2 e1 h2, s1 i ag a1 hi e1]
    · intro i j ai aj hi hj hne hle
      obtain ⟨ai', ei⟩ := ex i ai hi
      obtain ⟨aj', ej⟩ := ex j aj hj
      exact o2 i j ai' aj' ei ej hne (o1 i j ai aj hi hj hne hle)

/-- **C220, however long.** If there is a replayed vehicle and all of them stay at least 3.2 m before the end of the lane, the IDM vehicles behind need no room to the
end of the lane, however long the drive is (they may only not creep back to its beginning, by at most 5 cm per second). -/
theorem C220_however_long {u : Setup Box Lane} {lane : Lane} {a b : Pt} (hu : Straight u lane a b) (replayed : Nat → Bool) (recording : Nat → List V5) (Y : Nat → ℝ → ℝ × ℝ)
    {w : W Box} (hw : Props.WellFormed w) (hoff : w.removeAgents = false) (hmany : w.agents.length ≤ u.maxAgents + 1) (dts : List ℝ) (hpos : ∀ d ∈ dts, 0 < d ∧ d ≤ 1 / 5)
    {x : Nat → ℝ × ℝ}
    (hride : ∀ i ag, w.getAgent i = some ag → Rides (straightAt a b) w.time (x i).1 (x i).2 ag ∧ 0 ≤ (x i).2 ∧ 0 ≤ (x i).1 ∧
      (replayed i = false → (x i).2 ≤ 15 ∧ dts.sum / 20 ≤ (x i).1))
    (hclear : AllClear w x)
    (hsomeone : ∃ i ai, replayed i = true ∧ w.getAgent i = some ai)
    (hbound : ∀ i ag, replayed i = true → w.getAgent i = some ag → ∀ t, w.time ≤ t → t ≤ w.time + dts.sum → (Y i t).1 ≤ pdist a b - 16 / 5)
    (hrec : ∀ i ag, replayed i = true → w.getAgent i = some ag →
      Recorded (straightAt a b) (pdist a b) w.time (w.time + dts.sum) (recording i) (Y i) ∧ x i = Y i w.time)
    (hlead : ∀ i j ai aj, replayed i = true → replayed j = false → w.getAgent i = some ai → w.getAgent j = some aj → (x j).1 < (x i).1)
    (hapart : ∀ i j ai aj, replayed i = true → replayed j = true → i ≠ j → w.getAgent i = some ai → w.getAgent j = some aj →
      (∀ t, w.time ≤ t → t ≤ w.time + dts.sum → Loop.Spec.Clear (gap ai.shape aj.shape (Y i t).1 (Y j t).1) (Y i t).2 (Y j t).2) ∨
      ∀ t, w.time ≤ t → t ≤ w.time + dts.sum → Loop.Spec.Clear (gap aj.shape ai.shape (Y j t).1 (Y i t).1) (Y j t).2 (Y i t).2) :
    ∃ (w' : W Box) (x' : Nat → ℝ × ℝ), World.run (mixed u replayed (replayer u recording)) w (Loop.Spec.steps dts) = .ok w' ∧ w'.time = w.time + dts.sum ∧
      (∀ i, w'.getAgent i = none ↔ w.getAgent i = none) ∧
      (∀ i ag a1, w.getAgent i = some ag → w'.getAgent i = some a1 → a1.shape = ag.shape) ∧
      (∀ i a1, w'.getAgent i = some a1 → Rides (straightAt a b) w'.time (x' i).1 (x' i).2 a1 ∧ 0 ≤ (x' i).2 ∧ (replayed i = false → (x' i).2 ≤ 15) ∧
        (replayed i = true → x' i = Y i w'.time)) ∧
      (∀ i j ai aj, w.getAgent i = some ai → w.getAgent j = some aj → i ≠ j → (x i).1 ≤ (x j).1 → (x' i).1 ≤ (x' j).1) ∧
      AllClear w' x' ∧
      (∀ i j ai aj t p θ v t' p' θ' v', w'.getAgent i = some ai → w'.getAgent j = some aj → i ≠ j → ai.currentState = .ok (t, p.1, p.2, θ, v) →
        aj.currentState = .ok (t', p'.1, p'.2, θ', v') → Disjoint (body ai.shape p θ) (body aj.shape p' θ')) ∧
      ∀ collide, Sound collide → Eval.collisionAgents (plug u) outline collide w' = .ok false := by
  have h0 : 0 ≤ dts.sum := List.sum_nonneg fun d hd => (hpos d hd).1.le
  have hall : ∀ i ag, w.getAgent i = some ag → (x i).1 ≤ pdist a b := by
    intro i ag hi
    cases hF : replayed i with
    | true =>
      have := hbound i ag hF hi w.time (le_refl _) (by linarith)
      rw [← (hrec i ag hF hi).2] at this
      linarith
    | false =>
      obtain ⟨k, ak, hFk, hk⟩ := hsomeone
      have e2 := hlead k i ak ag hFk hF hk hi
      have e3 := hbound k ak hFk hk w.time (le_refl _) (by linarith)
      rw [← (hrec k ak hFk hk).2] at e3
      linarith
  have hfine : Fine u replayed (pdist a b) (straightAt a b) 0 w x := by
    refine ⟨hw, hoff, hmany, fun i ag hi => ?_, hclear⟩
    obtain ⟨r1, r2, r3, r5⟩ := hride i ag hi
    exact ⟨r1, r2, r3, hall i ag hi, fun hF => ⟨(r5 hF).1, by simpa using r3, by simpa using hall i ag hi⟩⟩
  obtain ⟨w', x', r, ht, g, n, s, o, hy⟩ := replay_run_long (setting_straight hu) dts hpos (w := w) (x := x) hfine (fun j aj hF hj => ((hride j aj hj).2.2.2 hF).2) hsomeone hbound (le_refl _) (le_refl _) hrec hlead hapart
  obtain ⟨hbd, hn⟩ := no_contact (u := u) g.clear g.wf (fun i a1 hi => (g.rides i a1 hi).1)
  exact ⟨w', x', r, ht, n, s, fun i a1 hi => ⟨(g.rides i a1 hi).1, (g.rides i a1 hi).2.1, fun hF => ((g.rides i a1 hi).2.2.2.2 hF).1, fun hF => hy i a1 hF hi⟩,
    o, g.clear, hbd, hn⟩

/-- **C220, however long,** on any lane whose centre line does not meet itself, along the line -/
theorem C220_however_long_winding {u : Setup Box Lane} {lane : Lane} {pts : List Pt} (hu : Winding u lane pts) (replayed : Nat → Bool) (recording : Nat → List V5) (Y : Nat → ℝ → ℝ × ℝ)
    {w : W Box} (hw : Props.WellFormed w) (hoff : w.removeAgents = false) (hmany : w.agents.length ≤ u.maxAgents + 1) (dts : List ℝ) (hpos : ∀ d ∈ dts, 0 < d ∧ d ≤ 1 / 5)
    {x : Nat → ℝ × ℝ}
    (hride : ∀ i ag, w.getAgent i = some ag → Rides (alongAt pts) w.time (x i).1 (x i).2 ag ∧ 0 ≤ (x i).2 ∧ 0 ≤ (x i).1 ∧
      (replayed i = false → (x i).2 ≤ 15 ∧ dts.sum / 20 ≤ (x i).1))
    (hclear : AllClear w x)
    (hsomeone : ∃ i ai, replayed i = true ∧ w.getAgent i = some ai)
    (hbound : ∀ i ag, replayed i = true → w.getAgent i = some ag → ∀ t, w.time ≤ t → t ≤ w.time + dts.sum → (Y i t).1 ≤ Ln.length pts - 16 / 5)
    (hrec : ∀ i ag, replayed i = true → w.getAgent i = some ag →
      Recorded (alongAt pts) (Ln.length pts) w.time (w.time + dts.sum) (recording i) (Y i) ∧ x i = Y i w.time)
    (hlead : ∀ i j ai aj, replayed i = true → replayed j = false → w.getAgent i = some ai → w.getAgent j = some aj → (x j).1 < (x i).1)
    (hapart : ∀ i j ai aj, replayed i = true → replayed j = true → i ≠ j → w.getAgent i = some ai → w.getAgent j = some aj →
      (∀ t, w.time ≤ t → t ≤ w.time + dts.sum → Loop.Spec.Clear (gap ai.shape aj.shape (Y i t).1 (Y j t).1) (Y i t).2 (Y j t).2) ∨
      ∀ t, w.time ≤ t → t ≤ w.time + dts.sum → Loop.Spec.Clear (gap aj.shape ai.shape (Y j t).1 (Y i t).1) (Y j t).2 (Y i t).2) :
    ∃ (w' : W Box) (x' : Nat → ℝ × ℝ), World.run (mixed u replayed (replayer u recording)) w (Loop.Spec.steps dts) = .ok w' ∧ w'.time = w.time + dts.sum ∧
      (∀ i, w'.getAgent i = none ↔ w.getAgent i = none) ∧
      (∀ i ag a1, w.getAgent i = some ag → w'.getAgent i = some a1 → a1.shape = ag.shape) ∧
      (∀ i a1, w'.getAgent i = some a1 → Rides (alongAt pts) w'.time (x' i).1 (x' i).2 a1 ∧ 0 ≤ (x' i).2 ∧ (replayed i = false → (x' i).2 ≤ 15) ∧
        (replayed i = true → x' i = Y i w'.time)) ∧
      (∀ i j ai aj, w.getAgent i = some ai → w.getAgent j = some aj → i ≠ j → (x i).1 ≤ (x j).1 → (x' i).1 ≤ (x' j).1) ∧
      AllClear w' x' := by
  have h0 : 0 ≤ dts.sum := List.sum_nonneg fun d hd => (hpos d hd).1.le
  have hall : ∀ i ag, w.getAgent i = some ag → (x i).1 ≤ Ln.length pts := by
    intro i ag hi
    cases hF : replayed i with
    | true =>
      have := hbound i ag hF hi w.time (le_refl _) (by linarith)
      rw [← (hrec i ag hF hi).2] at this
      linarith
    | false =>
      obtain ⟨k, ak, hFk, hk⟩ := hsomeone
      have e2 := hlead k i ak ag hFk hF hk hi
      have e3 := hbound k ak hFk hk w.time (le_refl _) (by linarith)
      rw [← (hrec k ak hFk hk).2] at e3
      linarith
  have hfine : Fine u replayed (Ln.length pts) (alongAt pts) 0 w x := by
    refine ⟨hw, hoff, hmany, fun i ag hi => ?_, hclear⟩
    obtain ⟨r1, r2, r3, r5⟩ := hride i ag hi
    exact ⟨r1, r2, r3, hall i ag hi, fun hF => ⟨(r5 hF).1, by simpa using r3, by simpa using hall i ag hi⟩⟩
  obtain ⟨w', x', r, ht, g, n, s, o, hy⟩ := replay_run_long (setting_winding hu) dts hpos (w := w) (x := x) hfine (fun j aj hF hj => ((hride j aj hj).2.2.2 hF).2) hsomeone hbound (le_refl _) (le_refl _) hrec hlead hapart
  exact ⟨w', x', r, ht, n, s, fun i a1 hi => ⟨(g.rides i a1 hi).1, (g.rides i a1 hi).2.1, fun hF => ((g.rides i a1 hi).2.2.2.2 hF).1, fun hF => hy i a1 hF hi⟩,
    o, g.clear⟩

/-- **C220** on any lane whose centre line does not meet itself, along the line -/
theorem C220_winding {u : Setup Box Lane} {lane : Lane} {pts : List Pt} (hu : Winding u lane pts) (replayed : Nat → Bool) (recording : Nat → List V5) (Y : Nat → ℝ → ℝ × ℝ)
    {w : W Box} (hw : Props.WellFormed w) (hoff : w.removeAgents = false) (hmany : w.agents.length ≤ u.maxAgents + 1) (dts : List ℝ) (hpos : ∀ d ∈ dts, 0 < d ∧ d ≤ 1 / 5)
    {x : Nat → ℝ × ℝ}
    (hride : ∀ i ag, w.getAgent i = some ag → Rides (alongAt pts) w.time (x i).1 (x i).2 ag ∧ 0 ≤ (x i).2 ∧ 0 ≤ (x i).1 ∧ (x i).1 ≤ Ln.length pts ∧
      (replayed i = false → (x i).2 ≤ 15 ∧ dts.sum / 20 ≤ (x i).1 ∧ (x i).1 + 16 * dts.sum ≤ Ln.length pts))
    (hclear : AllClear w x)
    (hrec : ∀ i ag, replayed i = true → w.getAgent i = some ag →
      Recorded (alongAt pts) (Ln.length pts) w.time (w.time + dts.sum) (recording i) (Y i) ∧ x i = Y i w.time)
    (hlead : ∀ i j ai aj, replayed i = true → replayed j = false → w.getAgent i = some ai → w.getAgent j = some aj → (x j).1 < (x i).1)
    (hapart : ∀ i j ai aj, replayed i = true → replayed j = true → i ≠ j → w.getAgent i = some ai → w.getAgent j = some aj →
      (∀ t, w.time ≤ t → t ≤ w.time + dts.sum → Loop.Spec.Clear (gap ai.shape aj.shape (Y i t).1 (Y j t).1) (Y i t).2 (Y j t).2) ∨
      ∀ t, w.time ≤ t → t ≤ w.time + dts.sum → Loop.Spec.Clear (gap aj.shape ai.shape (Y j t).1 (Y i t).1) (Y j t).2 (Y i t).2) :
    ∃ (w' : W Box) (x' : Nat → ℝ × ℝ), World.run (mixed u replayed (replayer u recording)) w (Loop.Spec.steps dts) = .ok w' ∧ w'.time = w.time + dts.sum ∧
      (∀ i, w'.getAgent i = none ↔ w.getAgent i = none) ∧
      (∀ i ag a1, w.getAgent i = some ag → w'.getAgent i = some a1 → a1.shape = ag.shape) ∧
      (∀ i a1, w'.getAgent i = some a1 → Rides (alongAt pts) w'.time (x' i).1 (x' i).2 a1 ∧ 0 ≤ (x' i).2 ∧ (replayed i = false → (x' i).2 ≤ 15) ∧
        (replayed i = true → x' i = Y i w'.time)) ∧
      (∀ i j ai aj, w.getAgent i = some ai → w.getAgent j = some aj → i ≠ j → (x i).1 ≤ (x j).1 → (x' i).1 ≤ (x' j).1) ∧
      AllClear w' x' := by
  obtain ⟨w', x', r, ht, g, n, s, o, hy⟩ := replay_run (setting_winding hu) dts hpos (w := w) (x := x) ⟨hw, hoff, hmany, hride, hclear⟩ (le_refl _) (le_refl _) hrec hlead hapart
  exact ⟨w', x', r, ht, n, s, fun i a1 hi => ⟨(g.rides i a1 hi).1, (g.rides i a1 hi).2.1, fun hF => ((g.rides i a1 hi).2.2.2.2 hF).1, fun hF => hy i a1 hF hi⟩,
    o, g.clear⟩

/-- 5000 s standing still at 300 m -/
noncomputable def still : List V5 := [(0, 300, 0, 0, 0), (5000, 300, 0, 0, 0)]

theorem still_recorded : Recorded (straightAt (0, 0) (1000, 0)) (pdist (0, 0) (1000, 0)) 0 4200 still (fun _ => (300, 0)) := by
  refine ⟨⟨?_, ⟨_, List.mem_cons_self, le_refl _⟩, ⟨(5000, 300, 0, 0, 0), by simp [still], by norm_num⟩, ?_⟩, ?_⟩
  · simp [Interp.Spec.Increasing, still, clock]
  · rintro t row h0 h1 ⟨l, a, b, r, e, -, -, hrow⟩
    have hab : a = (0, 300, 0, 0, 0) ∧ b = (5000, 300, 0, 0, 0) := by
      cases l with
      | nil =>
        simp only [still, List.nil_append, List.cons.injEq] at e
        exact ⟨e.1.symm, e.2.1.symm⟩
      | cons c l =>
        have := congrArg List.length e
        simp [still] at this
        omega
    obtain ⟨rfl, rfl⟩ := hab
    refine ⟨(300, 0), 0, ?_, at_road _, by norm_num, by rw [road_len]; norm_num⟩
    rw [hrow]
    unfold Interp.Spec.onLine
    simp only [clock, LinearMap.fst_apply, Prod.mk_add_mk, Prod.smul_mk, Prod.mk_sub_mk, smul_eq_mul, Prod.mk.injEq]
    refine ⟨by ring, by ring, by ring, by ring, by ring⟩
  · intro t d _ hd hd5 _
    refine ⟨rfl, by norm_num, by dsimp only; linarith, ?_⟩
    unfold Loop.Spec.brakingWay
    dsimp only
    rw [if_neg (by linarith)]
    norm_num

/-- the hypotheses are met: for more than an hour IDM vehicles never get past a replayed one that stands still -/
example (n : Nat) (hn : n ≤ 21000) : ∃ (w' : W ℝ) (x' : Nat → ℝ × ℝ), World.run (mixed road zeroth (replayer road fun _ => still)) three
    (Loop.Spec.steps (List.replicate n (1 / 5))) = .ok w' ∧ w'.time = n / 5 ∧ x' 0 = (300, 0) ∧
    (∀ i a1, w'.getAgent i = some a1 → Rides (straightAt (0, 0) (1000, 0)) w'.time (x' i).1 (x' i).2 a1) ∧
    ∀ collide, Sound collide → Eval.collisionAgents (plug road) outline collide w' = .ok false := by
  have hsum : (List.replicate n (1 / 5 : ℝ)).sum = n / 5 := by rw [List.sum_replicate]; simp; ring
  have hn' : (n : ℝ) ≤ 21000 := by exact_mod_cast hn
  have hn0 : (0 : ℝ) ≤ n := Nat.cast_nonneg n
  obtain ⟨w', x', h1, h2, h4, -, h5, -, -, -, h3⟩ := C220_however_long road_straight zeroth (fun _ => still) (fun _ _ => (300, 0)) three_wf rfl (by decide)
    (List.replicate n (1 / 5))
    (by intro d hd; rw [List.eq_of_mem_replicate hd]; norm_num) (x := fun i => if i = 0 then (300, 0) else if i = 1 then (220, 15) else (215, 14))
    (by
      intro i ag h
      rw [hsum]
      rcases three_get h with ⟨rfl, rfl⟩ | ⟨rfl, rfl⟩ | ⟨rfl, rfl⟩
      · exact ⟨mover_rides _ _ _, by norm_num, by norm_num, fun hf => (by cases hf)⟩
      · exact ⟨mover_rides _ _ _, by norm_num, by norm_num, fun _ => ⟨by norm_num, by norm_num; linarith⟩⟩
      · exact ⟨mover_rides _ _ _, by norm_num, by norm_num, fun _ => ⟨by norm_num, by norm_num; linarith⟩⟩)
    (by
      intro i j ai aj hi hj hij hle
      rcases three_get hi with ⟨rfl, rfl⟩ | ⟨rfl, rfl⟩ | ⟨rfl, rfl⟩ <;> rcases three_get hj with ⟨rfl, rfl⟩ | ⟨rfl, rfl⟩ | ⟨rfl, rfl⟩ <;>
        first
        | exact absurd rfl hij
        | (norm_num at hle; done)
        | (unfold Loop.Spec.Clear gap mover block; norm_num))
    ⟨0, _, rfl, rfl⟩ (by intro i ag hF hi t _ _; rw [road_len]; norm_num)
    (by
      intro i ag hF hi
      have hi0 : i = 0 := by simpa [zeroth] using hF
      subst hi0
      refine ⟨?_, by norm_num [three, traffic]⟩
      have := still_recorded
      exact ⟨⟨this.increasing, this.begun, ⟨(5000, 300, 0, 0, 0), by simp [still], by rw [hsum]; norm_num [three, traffic]; linarith⟩,
        fun t row a1 a2 => this.along t row a1 (a2.trans (by rw [hsum]; norm_num [three, traffic]; linarith))⟩,
        fun t d a1 a2 a3 a4 => this.gentle t d a1 a2 a3 (a4.trans (by rw [hsum]; norm_num [three, traffic]; linarith))⟩)
    (by
      intro i j ai aj hFi hFj hi hj
      have hi0 : i = 0 := by simpa [zeroth] using hFi
      subst hi0
      rcases three_get hj with ⟨rfl, rfl⟩ | ⟨rfl, rfl⟩ | ⟨rfl, rfl⟩
      · cases hFj
      · norm_num
      · norm_num)
    (by
      intro i j ai aj hFi hFj hne
      have hi0 : i = 0 := by simpa [zeroth] using hFi
      have hj0 : j = 0 := by simpa [zeroth] using hFj
      exact absurd (hi0.trans hj0.symm) hne)
  have ht : w'.time = n / 5 := by rw [h2, hsum]; exact zero_add _
  refine ⟨w', x', h1, ht, ?_, fun i a1 hi => (h5 i a1 hi).1, h3⟩
  obtain ⟨a1, ha1⟩ := Option.ne_none_iff_exists'.1 (show w'.getAgent 0 ≠ none from fun e => by have := (h4 0).1 e; cases this)
  exact (h5 0 a1 ha1).2.2.2 rfl

end Bark.Mix
