import Verif.Props.ReplayMixed

/-!
C221: replayed vehicles do what was recorded, whatever the others do.
-/
namespace Bark.Mix
open Bark Bark.Ln Bark.Ln.Spec Bark.Flow Bark.Flow.Spec Bark.Mix.Spec

variable {Box Lane : Type}

theorem anyone_run {u : Setup Box Lane} {lane : Lane} {L : ℝ} {At : ℝ → Pt → ℝ → Prop} (hu : Setting u lane L At) {F : Nat → Bool} {t0 t1 : ℝ} :
    ∀ (l : List (ℝ × Planner Box)) (_ : ∀ e ∈ l, 0 < e.1) {w : W Box}, Props.WellFormed w → w.removeAgents = false → t0 ≤ w.time → w.time + (l.map Prod.fst).sum ≤ t1 →
    ∃ w', drive u F l w = .ok w' ∧ Props.WellFormed w' ∧ w'.time = w.time + (l.map Prod.fst).sum ∧
      ∀ i rec y ag s v, Replayed u F rec i l → Kept At L t0 t1 rec y → w.getAgent i = some ag → On At L w.time s v ag →
        ∃ a1, w'.getAgent i = some a1 ∧ a1.shape = ag.shape ∧ (l ≠ [] → On At L w'.time (y w'.time).1 (y w'.time).2 a1)
  | [], _, w, hw, _, _, _ => ⟨w, rfl, hw, by simp, fun i rec y ag s v _ _ hi _ => ⟨ag, hi, rfl, fun h => absurd rfl h⟩⟩
  | (dt, f) :: rest, hpos, w, hw, hoff, ht0, ht1 => by
    obtain ⟨w1, h1', hw1⟩ := Props.apply_wf (mixed u F f) hw (World.Op.step dt) trivial
    have h1 : World.step (mixed u F f) dt w = .ok w1 := h1'
    have hdt : 0 < dt := hpos (dt, f) (by simp)
    have hk := Loop.step_keeps _ h1
    have hwt : w1.time = w.time + dt := hk.1
    have hsum : 0 ≤ (rest.map Prod.fst).sum := List.sum_nonneg fun d hd => by
      obtain ⟨e, he, rfl⟩ := List.mem_map.1 hd
      exact (hpos e (by simp [he])).le
    rw [List.map_cons, List.sum_cons] at ht1
    have hoff1 : w1.removeAgents = false := by rw [hk.2, hoff]
    obtain ⟨w', r, hw', ht, hall⟩ := anyone_run hu (F := F) (t0 := t0) (t1 := t1) rest (fun e he => hpos e (by simp [he])) hw1 hoff1 (by rw [hwt]; linarith) (by
      rw [hwt]; dsimp only at ht1; linarith)
    refine ⟨w', ?_, hw', ?_, ?_⟩
    · unfold drive
      rw [h1]
      exact r
    · rw [ht, hwt, List.map_cons, List.sum_cons, add_assoc]
    · intro i rec y ag s v hR hK hi hon
      obtain ⟨a1, k1, k2, k3, -⟩ := replays hu hw hoff hdt h1 hR.1 (hR.2 (dt, f) (by simp)) hK ht0 (by dsimp only at ht1; linarith) hi hon
      obtain ⟨a2, m1, m2, m3⟩ := hall i rec y a1 _ _ ⟨hR.1, fun e he => hR.2 e (by simp [he])⟩ hK k1 k3
      refine ⟨a2, m1, m2.trans k2, fun _ => ?_⟩
      by_cases hr : rest = []
      · subst hr
        have e : w' = w1 := by
          have := r
          unfold drive at this
          rw [Except.ok.injEq] at this
          exact this.symm
        subst e
        rw [k1] at m1
        cases m1
        have : y w'.time = y (w.time + dt) := by rw [hwt]
        rw [this]
        exact k3
      · exact m3 hr

/-- C221: a replayed vehicle on a straight lane. Whatever drives the other vehicles in whatever step, and whatever the durations of the steps, after any number of steps
the vehicle is still there and exactly where it was recorded, and no step failed. -/
theorem C221_undisturbed {u : Setup Box Lane} {lane : Lane} {a b : Pt} (hu : Straight u lane a b) (foreign : Nat → Bool) {w : W Box} (hw : Props.WellFormed w)
    (hoff : w.removeAgents = false) (l : List (ℝ × Planner Box)) (hl : l ≠ []) (hpos : ∀ e ∈ l, 0 < e.1) :
    ∃ w', drive u foreign l w = .ok w' ∧ w'.time = w.time + (l.map Prod.fst).sum ∧
      ∀ i recording y ag s v, Replayed u foreign recording i l → Kept (straightAt a b) (pdist a b) w.time w'.time recording y →
        w.getAgent i = some ag → Rides (straightAt a b) w.time s v ag → 0 ≤ s → s ≤ pdist a b →
        ∃ a1, w'.getAgent i = some a1 ∧ a1.shape = ag.shape ∧ Rides (straightAt a b) w'.time (y w'.time).1 (y w'.time).2 a1 := by
  obtain ⟨w', r, -, ht, hall⟩ := anyone_run (setting_straight hu) (F := foreign) (t0 := w.time) (t1 := w.time + (l.map Prod.fst).sum) l hpos hw hoff (le_refl _) (le_refl _)
  refine ⟨w', r, ht, fun i rec y ag s v hR hK hi hr h0 h1 => ?_⟩
  rw [ht] at hK
  obtain ⟨a1, k1, k2, k3⟩ := hall i rec y ag s v hR hK hi ⟨hr, h0, h1⟩
  exact ⟨a1, k1, k2, (k3 hl).1⟩

/-- C221 on a winding lane -/
theorem C221_winding {u : Setup Box Lane} {lane : Lane} {pts : List Pt} (hu : Winding u lane pts) (foreign : Nat → Bool) {w : W Box} (hw : Props.WellFormed w)
    (hoff : w.removeAgents = false) (l : List (ℝ × Planner Box)) (hl : l ≠ []) (hpos : ∀ e ∈ l, 0 < e.1) :
    ∃ w', drive u foreign l w = .ok w' ∧ w'.time = w.time + (l.map Prod.fst).sum ∧
      ∀ i recording y ag s v, Replayed u foreign recording i l → Kept (alongAt pts) (Ln.length pts) w.time w'.time recording y →
        w.getAgent i = some ag → Rides (alongAt pts) w.time s v ag → 0 ≤ s → s ≤ Ln.length pts →
        ∃ a1, w'.getAgent i = some a1 ∧ a1.shape = ag.shape ∧ Rides (alongAt pts) w'.time (y w'.time).1 (y w'.time).2 a1 := by
  obtain ⟨w', r, -, ht, hall⟩ := anyone_run (setting_winding hu) (F := foreign) (t0 := w.time) (t1 := w.time + (l.map Prod.fst).sum) l hpos hw hoff (le_refl _) (le_refl _)
  refine ⟨w', r, ht, fun i rec y ag s v hR hK hi hr h0 h1 => ?_⟩
  rw [ht] at hK
  obtain ⟨a1, k1, k2, k3⟩ := hall i rec y ag s v hR hK hi ⟨hr, h0, h1⟩
  exact ⟨a1, k1, k2, (k3 hl).1⟩

/-! ### what it means that they do not react -/

/-- vehicle 0 is replayed, all others stand at 320 m -/
noncomputable def blind : Planner ℝ := fun b dt obs i => if i = 0 then replayer road (fun _ => cruise) b dt obs i else halt 320 b dt obs i

/-- a replayed vehicle at 300 m with 10 m/s, a standing one at 320 m -/
noncomputable def ahead : W ℝ := traffic [(0, mover 0 300 10), (1, mover 1 320 0)]

theorem ahead_get {i : Nat} {ag} (h : ahead.getAgent i = some ag) : (i = 0 ∧ ag = mover 0 300 10) ∨ (i = 1 ∧ ag = mover 1 320 0) := by
  have hm := OMap.find_some_mem h
  simpa only [ahead, traffic, List.mem_cons, List.not_mem_nil, or_false, Prod.mk.injEq] using hm

theorem ahead_wf : Props.WellFormed ahead := by
  refine ⟨by simp [OMap.Sorted, ahead, traffic], ?_, by simp [ahead, traffic]⟩
  intro id a h
  rcases ahead_get h with ⟨rfl, rfl⟩ | ⟨rfl, rfl⟩ <;> simp [mover]

theorem block_middle (p : Pt) (θ : ℝ) : (p.1, p.2) ∈ body block p θ := by
  have h1 : (p.1 + (Real.cos θ * (-1 / 2) - Real.sin θ * (-1 / 2)), p.2 + (Real.sin θ * (-1 / 2) + Real.cos θ * (-1 / 2))) ∈ body block p θ :=
    subset_convexHull ℝ _ ⟨(-1 / 2, -1 / 2), by simp [block], rfl⟩
  have h2 : (p.1 + (Real.cos θ * (1 / 2) - Real.sin θ * (1 / 2)), p.2 + (Real.sin θ * (1 / 2) + Real.cos θ * (1 / 2))) ∈ body block p θ :=
    subset_convexHull ℝ _ ⟨(1 / 2, 1 / 2), by simp [block], rfl⟩
  have h3 := convex_convexHull ℝ {r : ℝ × ℝ | ∃ q ∈ block.pts, r = (p.1 + (Real.cos θ * q.1 - Real.sin θ * q.2), p.2 + (Real.sin θ * q.1 + Real.cos θ * q.2))}
    h1 h2 (a := 1 / 2) (b := 1 / 2) (by norm_num) (by norm_num) (by norm_num)
  have e : (p.1, p.2) = (1 / 2 : ℝ) • (p.1 + (Real.cos θ * (-1 / 2) - Real.sin θ * (-1 / 2)), p.2 + (Real.sin θ * (-1 / 2) + Real.cos θ * (-1 / 2))) +
      (1 / 2 : ℝ) • (p.1 + (Real.cos θ * (1 / 2) - Real.sin θ * (1 / 2)), p.2 + (Real.sin θ * (1 / 2) + Real.cos θ * (1 / 2))) := by
    simp only [Prod.smul_mk, smul_eq_mul, Prod.mk_add_mk, Prod.mk.injEq]
    constructor <;> ring
  rw [e]
  exact h3

/-- C221: they do not react. Although everyone has room and could stop, a replayed vehicle drives into one standing on its lane. -/
theorem C221_no_reaction : ∃ (w1 : W ℝ) (a0 a1 : Agent ℝ V5 CAcc.Act Beh (Res (Interp.Exec V5)) Shape.Poly) (p p' : Pt) (t θ v t' θ' v' : ℝ),
    Replayed road (fun _ => true) cruise 0 [(2, blind)] ∧ Kept (straightAt (0, 0) (1000, 0)) (pdist (0, 0) (1000, 0)) 0 40 cruise (fun t => (300 + 10 * t, 10)) ∧
    AllClear ahead (fun i => if i = 0 then (300, 10) else (320, 0)) ∧
    drive road (fun _ => true) [(2, blind)] ahead = .ok w1 ∧ w1.getAgent 0 = some a0 ∧ w1.getAgent 1 = some a1 ∧
    a0.currentState = .ok (t, p.1, p.2, θ, v) ∧ a1.currentState = .ok (t', p'.1, p'.2, θ', v') ∧ ¬ Disjoint (body a0.shape p θ) (body a1.shape p' θ') := by
  have hR : Replayed road (fun _ => true) cruise 0 [(2, blind)] := by
    refine ⟨rfl, fun e he b dt obs => ?_⟩
    rw [List.mem_singleton.1 he]
    rfl
  have hclear : AllClear ahead (fun i => if i = 0 then (300, 10) else (320, 0)) := by
    intro i j ai aj hi hj hij hle
    rcases ahead_get hi with ⟨rfl, rfl⟩ | ⟨rfl, rfl⟩ <;> rcases ahead_get hj with ⟨rfl, rfl⟩ | ⟨rfl, rfl⟩ <;>
      first
      | exact absurd rfl hij
      | (norm_num at hle; done)
      | (unfold Loop.Spec.Clear gap mover block; norm_num)
  obtain ⟨w1, h1', -⟩ := Props.apply_wf (mixed road (fun _ => true) blind) ahead_wf (World.Op.step 2) trivial
  have h1 : World.step (mixed road (fun _ => true) blind) 2 ahead = .ok w1 := h1'
  have hd : drive road (fun _ => true) [(2, blind)] ahead = .ok w1 := by
    unfold drive
    rw [h1]
    rfl
  obtain ⟨w', r, ht, hall⟩ := C221_undisturbed road_straight (fun _ => true) ahead_wf rfl [(2, blind)] (by simp) (by simp)
  rw [hd, Except.ok.injEq] at r
  subst r
  have ht2 : w1.time = 2 := by
    rw [ht]
    simp [ahead, traffic]
  have c := cruise_recorded
  obtain ⟨a0, k1, k2, k3⟩ := hall 0 cruise (fun t => (300 + 10 * t, 10)) (mover 0 300 10) 300 10 hR
    ⟨c.increasing, c.begun, ⟨(50, 800, 0, 0, 10), by simp [cruise], by rw [ht2]; norm_num⟩, fun t row h0 h2 => c.along t row h0 (by rw [ht2] at h2; linarith)⟩ rfl
    (mover_rides 0 300 10) (by norm_num) (by rw [road_len]; norm_num)
  obtain ⟨a1, m1, m2, m3⟩ := foreign_step (At := straightAt (0, 0) (1000, 0)) ahead_wf rfl h1 (i := 1) rfl rfl (mover_rides 1 320 0) (by norm_num)
    (p1 := (320, 0)) (θ1 := 0) (v1 := 0) (fun index => ⟨(320, 0, 0, 0), rfl⟩) (at_road 320)
  obtain ⟨p, θ, hA, hcur⟩ := k3.state
  obtain ⟨p', θ', hA', hcur'⟩ := m3.state
  refine ⟨w1, a0, a1, p, p', w1.time, θ, _, w1.time, θ', _, hR, c.toKept, hclear, hd, k1, m1, hcur, hcur', ?_⟩
  have hp : p = p' := by
    rw [hA.1, hA'.1, ht2]
    norm_num
  subst hp
  rw [k2, m2, Set.not_disjoint_iff]
  exact ⟨_, block_middle p θ, block_middle p θ'⟩

end Bark.Mix
