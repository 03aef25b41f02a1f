import Verif.Spec.ConstAcc
import Verif.Props.Dynamics

/-!
C173–C174 – what the constant acceleration primitives plan.
-/
namespace Bark.CAcc
open Bark Real
open Spec

theorem step_of (l a δ dt least : ℝ) (i : Nat) (start : ℝ) (x : Dyn.State) :
    Step l a δ dt least x (fun j => if j = 4 then max (Dyn.euler id (Dyn.singleTrack l a δ) dt x 4) least
      else if j = 0 then (i : ℝ) * dt + start else Dyn.euler id (Dyn.singleTrack l a δ) dt x j) := by
  have ht := (Dyn.C26_turning l a δ dt x).2
  constructor
  · simp only [show (1 : ℕ) ≠ 4 by decide, show (1 : ℕ) ≠ 0 by decide, show (1 : ℕ) ≠ 3 by decide, if_false, Dyn.euler, Dyn.singleTrack]
    ring
  · simp only [show (2 : ℕ) ≠ 4 by decide, show (2 : ℕ) ≠ 0 by decide, show (2 : ℕ) ≠ 3 by decide, if_false, Dyn.euler, Dyn.singleTrack]
    ring
  · simpa only [show (3 : ℕ) ≠ 4 by decide, show (3 : ℕ) ≠ 0 by decide, if_false] using ht
  · simp only [if_true, Dyn.euler, Dyn.singleTrack, show (4 : ℕ) ≠ 3 by decide, if_false]
    congr 1
    ring

/-- the rows and accelerations of the loop -/
theorem loop_spec {c : Cfg} {r : Idm.Rel} {l : ℝ} {steer : Dyn.State → ℝ} {start dt v0 : ℝ} (n : Nat) :
    ∀ (i : Nat) (prev : Dyn.State) (rel : ℝ) {t : List (ℝ × Dyn.State)}, loop id c r l steer start dt v0 n i prev rel = .ok t →
      t.length = n ∧ (∀ (k : Nat) (a : ℝ) (x : Dyn.State), t[k]? = some (a, x) → x 0 = start + (i + k : ℕ) * dt) ∧
      (∀ (k : Nat) (x y : Dyn.State) (a : ℝ), (prev :: t.map Prod.snd)[k]? = some x → t[k]? = some (a, y) →
        Step l a (steer x) dt c.idm.minVel x y) ∧
      (∃ gaps : Nat → ℝ, gaps 0 = rel ∧ ∀ (k : Nat) (a : ℝ) (x : Dyn.State), t[k]? = some (a, x) →
        totalAcc c r v0 (gaps k) dt = .ok (a, gaps (k + 1))) := by
  induction n with
  | zero =>
    intro i prev rel t h
    simp only [loop, Except.ok.injEq] at h
    subst h
    exact ⟨rfl, by simp, by simp, fun _ => rel, rfl, by simp⟩
  | succ n ih =>
    intro i prev rel t h
    unfold loop at h
    split at h
    · cases h
    · next a rel' ha =>
      dsimp only at h
      split at h
      · next t' ht' =>
        cases h
        obtain ⟨h1, h2, h3, gaps, h4, h5⟩ := ih _ _ _ ht'
        refine ⟨by simp [h1], ?_, ?_, fun k => if k = 0 then rel else gaps (k - 1), rfl, ?_⟩
        · intro k b x hk
          cases k with
          | zero =>
            simp only [List.getElem?_cons_zero, Option.some.injEq, Prod.mk.injEq] at hk
            rw [← hk.2]
            simp only [show (0 : ℕ) ≠ 4 by decide, if_false, if_true]
            push_cast; ring
          | succ k =>
            rw [List.getElem?_cons_succ] at hk
            rw [h2 k b x hk]
            push_cast; ring
        · intro k x y b hx hk
          cases k with
          | zero =>
            simp only [List.getElem?_cons_zero, Option.some.injEq, Prod.mk.injEq] at hk hx
            rw [← hk.2, ← hk.1, ← hx]
            exact step_of l a (steer prev) dt c.idm.minVel i start prev
          | succ k =>
            rw [List.getElem?_cons_succ] at hk hx
            exact h3 k x y b hx hk
        · intro k b x hk
          cases k with
          | zero =>
            simp only [List.getElem?_cons_zero, Option.some.injEq, Prod.mk.injEq] at hk
            simp only [if_true, show (0 + 1 : ℕ) ≠ 0 by decide, if_false, Nat.add_sub_cancel, h4]
            rw [← hk.1]; exact ha
          | succ k =>
            rw [List.getElem?_cons_succ] at hk
            simp only [show (k + 1 : ℕ) ≠ 0 by omega, show (k + 1 + 1 : ℕ) ≠ 0 by omega, if_false, Nat.add_sub_cancel]
            exact h5 k b x hk
      · cases h

/-- the loop ends with a trajectory whenever each acceleration can be computed -/
theorem loop_total {c : Cfg} {r : Idm.Rel} {l : ℝ} {steer : Dyn.State → ℝ} {start dt v0 : ℝ}
    (ht : ∀ rel, ∃ q, totalAcc c r v0 rel dt = .ok q) {rnd : ℝ → ℝ} (n : Nat) :
    ∀ (i : Nat) (prev : Dyn.State) (rel : ℝ), ∃ t, loop rnd c r l steer start dt v0 n i prev rel = .ok t := by
  induction n with
  | zero => intro i prev rel; exact ⟨[], rfl⟩
  | succ n ih =>
    intro i prev rel
    obtain ⟨⟨a, rel'⟩, ha⟩ := ht rel
    unfold loop
    rw [ha]
    dsimp only
    obtain ⟨t, e⟩ := ih (i + 1) (fun j => if j = 4 then max (Dyn.euler rnd (Dyn.singleTrack l a (steer prev)) dt prev 4) c.idm.minVel
      else if j = 0 then (i : ℝ) * dt + start else Dyn.euler rnd (Dyn.singleTrack l a (steer prev)) dt prev j) rel'
    rw [e]
    exact ⟨_, rfl⟩

/-- what a plan along a corridor returns, given the relative values -/
theorem plan_of {v : View} {horizon : ℝ} {o : Obj} {lim : Limits} {len : ℝ} {steer : Dyn.State → ℝ} (htg : v.target = some (len, steer))
    {r : Idm.Rel} (hr : planRel o.cfg len o.lastAction = .ok r) (hn : 1 ≤ o.cfg.idm.numPoints)
    (ht : ∀ rel, ∃ q, totalAcc o.cfg r (v.ego 4) rel (horizon / ((o.cfg.idm.numPoints : ℝ) - 1)) = .ok q) :
    ∃ (rows : List Dyn.State) (as : List ℝ) (gaps : Nat → ℝ) (act : Act),
      plan id v horizon o lim = .ok (rows, ⟨o.cfg, act, rows⟩, ⟨o.cfg.idm.accLower, o.cfg.idm.accUpper⟩) ∧
      rows.length = o.cfg.idm.numPoints ∧
      Drives v.wheelBase steer o.cfg.idm.minVel v.time (horizon / ((o.cfg.idm.numPoints : ℝ) - 1)) v.ego as rows ∧
      (∀ a ∈ as[0]?, ∀ x ∈ rows[0]?, act = .input [a, steer x]) ∧ (as = [] → act = .input []) ∧
      gaps 0 = r.distance ∧ ∀ (k : Nat) (a : ℝ), as[k]? = some a →
        totalAcc o.cfg r (v.ego 4) (gaps k) (horizon / ((o.cfg.idm.numPoints : ℝ) - 1)) = .ok (a, gaps (k + 1)) := by
  obtain ⟨t, e⟩ := loop_total (rnd := id) (l := v.wheelBase) (steer := steer) (start := v.time) ht (o.cfg.idm.numPoints - 1) 1
    (fun j => if j = 0 then v.time else v.ego j) r.distance
  obtain ⟨h1, h2, h3, gaps, h4, h5⟩ := loop_spec _ _ _ _ e
  refine ⟨(fun j => if j = 0 then v.time else v.ego j) :: t.map Prod.snd, t.map Prod.fst, gaps,
    firstInput steer (fun j => if j = 0 then v.time else v.ego j) t, ?_, ?_, ⟨?_, ?_, ?_, ?_⟩, ?_, ?_, h4, ?_⟩
  · unfold plan
    rw [htg]
    dsimp only
    rw [hr]
    dsimp only
    rw [e]
  · rw [List.length_cons, List.length_map, h1]; omega
  · simp
  · intro x hx j
    simp only [List.getElem?_cons_zero, Option.mem_def, Option.some.injEq] at hx
    rw [← hx]
  · intro k x hk
    cases k with
    | zero =>
      simp only [List.getElem?_cons_zero, Option.some.injEq] at hk
      rw [← hk]; simp
    | succ k =>
      rw [List.getElem?_cons_succ, List.getElem?_map, Option.map_eq_some_iff] at hk
      obtain ⟨⟨a, y⟩, hy, rfl⟩ := hk
      refine (h2 k a y hy).trans ?_
      push_cast; ring
  · intro k x y a hx hy ha
    rw [List.getElem?_cons_succ, List.getElem?_map, Option.map_eq_some_iff] at hy
    rw [List.getElem?_map, Option.map_eq_some_iff] at ha
    obtain ⟨⟨b, y'⟩, hy', rfl⟩ := hy
    obtain ⟨⟨b2, y2⟩, ha', rfl⟩ := ha
    rw [hy'] at ha'
    cases ha'
    exact h3 k x y' b hx hy'
  · intro a ha x hx
    cases t with
    | nil => simp at ha
    | cons q t =>
      obtain ⟨b, y⟩ := q
      simp only [List.map_cons, List.getElem?_cons_zero, Option.mem_def, Option.some.injEq] at ha hx
      rw [← ha, ← hx]
      rfl
  · intro hnil
    cases t with
    | nil => rfl
    | cons q t => simp at hnil
  · intro k a ha
    rw [List.getElem?_map, Option.map_eq_some_iff] at ha
    obtain ⟨⟨b, y⟩, hy, rfl⟩ := ha
    exact h5 k b y hy

/-- speeds under a constant acceleration -/
theorem speeds {l : ℝ} {steer : Dyn.State → ℝ} {least start dt a : ℝ} {ego : Dyn.State} {as : List ℝ} {rows : List Dyn.State}
    (hd : Drives l steer least start dt ego as rows) (ha : ∀ x ∈ as, x = a) (hv : least ≤ ego 4) :
    ∀ (k : Nat) (x : Dyn.State), rows[k]? = some x → x 4 = max (ego 4 + k * (a * dt)) least := by
  intro k
  induction k with
  | zero =>
    intro x hx
    have := hd.first x hx 4
    rw [this, if_neg (by decide)]
    simp [max_eq_left hv]
  | succ k ih =>
    intro y hy
    have hk : k + 1 < rows.length := (List.getElem?_eq_some_iff.1 hy).1
    have hc := hd.count
    have hx : rows[k]? = some rows[k] := List.getElem?_eq_getElem (by omega)
    have hak : as[k]? = some as[k] := List.getElem?_eq_getElem (by omega)
    have hs := (hd.step k _ y _ hx hy hak).speed
    rw [ih _ hx, ha _ (List.getElem_mem _)] at hs
    rw [hs]
    push_cast
    rcases le_total 0 (a * dt) with h0 | h0
    · have : least ≤ ego 4 + (k : ℝ) * (a * dt) := le_trans hv (le_add_of_nonneg_right (by positivity))
      rw [max_eq_left this]
      congr 1; ring
    · rcases le_total (ego 4 + (k : ℝ) * (a * dt)) least with h | h
      · rw [max_eq_right h, max_eq_right (by linarith), max_eq_right (by linarith)]
      · rw [max_eq_left h]; congr 1; ring

/-- **C173.** A constant acceleration primitive that is not restricted plans, along a corridor, one row per time point, from the ego's state and
the world time on, in steps of equal length, steered towards the corridor, with exactly its acceleration in every step; its speed is that of
uniform acceleration, but never below the least speed. Its action is its acceleration and the first steering angle. -/
theorem C173_constant_acceleration {v : View} {horizon : ℝ} {o : Obj} {lim : Limits} {len : ℝ} {steer : Dyn.State → ℝ}
    (htg : v.target = some (len, steer)) (hr : o.cfg.restrict = false) (hn : 2 ≤ o.cfg.idm.numPoints) :
    ∃ (rows : List Dyn.State) (as : List ℝ) (o' : Obj) (lim' : Limits), plan id v horizon o lim = .ok (rows, o', lim') ∧
      rows.length = o.cfg.idm.numPoints ∧ (∀ a ∈ as, a = o.cfg.acc) ∧
      Drives v.wheelBase steer o.cfg.idm.minVel v.time (horizon / ((o.cfg.idm.numPoints : ℝ) - 1)) v.ego as rows ∧
      (o.cfg.idm.minVel ≤ v.ego 4 → ∀ (k : Nat) (x : Dyn.State), rows[k]? = some x →
        x 4 = max (v.ego 4 + k * (o.cfg.acc * (horizon / ((o.cfg.idm.numPoints : ℝ) - 1)))) o.cfg.idm.minVel) ∧
      o'.lastTraj = rows ∧ (∀ x ∈ rows[0]?, o'.lastAction = .input [o.cfg.acc, steer x]) ∧ o'.cfg = o.cfg := by
  have hacc : ∀ rel dt, totalAcc o.cfg ⟨0, 0, 0, false⟩ (v.ego 4) rel dt = .ok (o.cfg.acc, rel) := by
    intro rel dt; simp [totalAcc, hr]
  obtain ⟨rows, as, gaps, act, e, h1, h2, h3, _, _, h6⟩ := plan_of (lim := lim) htg (r := ⟨0, 0, 0, false⟩) (by simp [planRel, hr])
    (by omega) (fun rel => ⟨_, hacc rel (horizon / ((o.cfg.idm.numPoints : ℝ) - 1))⟩)
  have hall : ∀ a ∈ as, a = o.cfg.acc := by
    intro a ha
    obtain ⟨k, hk⟩ := List.mem_iff_getElem?.1 ha
    have := h6 k a hk
    rw [hacc] at this
    simp only [Except.ok.injEq, Prod.mk.injEq] at this
    exact this.1.symm
  refine ⟨rows, as, _, _, e, h1, hall, h2, fun hv => speeds h2 hall hv, rfl, ?_, rfl⟩
  intro x hx
  have hl : 0 < as.length := by have := h2.count; omega
  have h0 : as[0]? = some as[0] := List.getElem?_eq_getElem hl
  have := h3 _ h0 x hx
  rw [hall _ (List.getElem_mem hl)] at this
  exact this

/-- **C173**: without a corridor to drive along the last trajectory is returned and nothing changes -/
theorem C173_no_corridor {rnd : ℝ → ℝ} {v : View} {horizon : ℝ} {o : Obj} {lim : Limits} (htg : v.target = none) :
    plan rnd v horizon o lim = .ok (o.lastTraj, o, lim) := by
  unfold plan; rw [htg]

/-- the last row of a plan -/
theorem last_speed {v : View} {horizon : ℝ} {o : Obj} {lim : Limits} {len : ℝ} {steer : Dyn.State → ℝ}
    (htg : v.target = some (len, steer)) (hr : o.cfg.restrict = false) (hn : 2 ≤ o.cfg.idm.numPoints) (hv : o.cfg.idm.minVel ≤ v.ego 4) :
    ∃ (rows : List Dyn.State) (o' : Obj) (lim' : Limits) (x : Dyn.State), plan id v horizon o lim = .ok (rows, o', lim') ∧
      rows.getLast? = some x ∧ x 4 = max (v.ego 4 + o.cfg.acc * horizon) o.cfg.idm.minVel := by
  obtain ⟨rows, as, o', lim', e, h1, _, _, h4, _⟩ := C173_constant_acceleration (lim := lim) (horizon := horizon) htg hr hn
  have hl : rows[o.cfg.idm.numPoints - 1]? = some rows[o.cfg.idm.numPoints - 1] := List.getElem?_eq_getElem (by omega)
  refine ⟨rows, o', lim', rows[o.cfg.idm.numPoints - 1], e, ?_, ?_⟩
  · rw [List.getLast?_eq_getElem?, ← hl]; congr 1; omega
  · rw [h4 hv _ _ hl]
    congr 2
    have h2 : (2 : ℝ) ≤ o.cfg.idm.numPoints := by exact_mod_cast hn
    have h3 : (o.cfg.idm.numPoints : ℝ) - 1 ≠ 0 := by linarith
    rw [show ((o.cfg.idm.numPoints - 1 : ℕ) : ℝ) = (o.cfg.idm.numPoints : ℝ) - 1 by
      rw [Nat.cast_sub (by omega)]; simp]
    field_simp

/-- **C173**: the speed after the planning time is that of uniform acceleration, whatever the number of time points -/
theorem C173_speed_after_horizon {v : View} {horizon : ℝ} {o : Obj} {lim : Limits} {len : ℝ} {steer : Dyn.State → ℝ}
    (htg : v.target = some (len, steer)) (hr : o.cfg.restrict = false) (hn : 2 ≤ o.cfg.idm.numPoints) (hv : o.cfg.idm.minVel ≤ v.ego 4) :
    ∃ (rows : List Dyn.State) (o' : Obj) (lim' : Limits) (x : Dyn.State), plan id v horizon o lim = .ok (rows, o', lim') ∧
      rows.getLast? = some x ∧ x 4 = max (v.ego 4 + o.cfg.acc * horizon) o.cfg.idm.minVel :=
  last_speed htg hr hn hv

/-- **C173, no greatest speed**: a primitive with a positive acceleration exceeds every speed, the greatest speed of its parameters included,
if the planning time is long enough. -/
theorem C173_max_velocity_violated {v : View} {o : Obj} {lim : Limits} {len : ℝ} {steer : Dyn.State → ℝ}
    (htg : v.target = some (len, steer)) (hr : o.cfg.restrict = false) (hn : 2 ≤ o.cfg.idm.numPoints) (hv : o.cfg.idm.minVel ≤ v.ego 4)
    (ha : 0 < o.cfg.acc) (bound : ℝ) : ∃ horizon > 0, ∃ (rows : List Dyn.State) (o' : Obj) (lim' : Limits) (x : Dyn.State),
      plan id v horizon o lim = .ok (rows, o', lim') ∧ x ∈ rows ∧ bound < x 4 := by
  refine ⟨(|bound - v.ego 4| + 1) / o.cfg.acc, by positivity, ?_⟩
  obtain ⟨rows, o', lim', x, e, hl, hx⟩ := last_speed (lim := lim) (horizon := (|bound - v.ego 4| + 1) / o.cfg.acc) htg hr hn hv
  refine ⟨rows, o', lim', x, e, List.mem_of_getLast? hl, ?_⟩
  rw [hx]
  refine lt_max_of_lt_left ?_
  rw [mul_div_cancel₀ _ ha.ne']
  have := le_abs_self (bound - v.ego 4)
  linarith

end Bark.CAcc
