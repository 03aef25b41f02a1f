import Verif.Props.ConstAcc
import Verif.Props.Primitives

/-!
C174–C176 – braking for the end of the lane, limits of the vehicle, and macro actions made from parameters.
-/
namespace Bark.CAcc
open Bark Real
open Spec

theorem egoAcc_ok {a : Act} (h : (∃ x, a = .continuous x) ∨ ∃ x u, a = .input (x :: u)) : ∃ x, egoAcc a = .ok x := by
  rcases h with ⟨x, rfl⟩ | ⟨x, u, rfl⟩ <;> exact ⟨_, rfl⟩

/-- the relative values towards the end of a lane -/
theorem rel_braking {c : Cfg} {len : ℝ} {last : Act} (hr : c.restrict = true) (hl : ∃ x, egoAcc last = .ok x)
    (hb : c.laneEnd.brake = true) (hlen : len - c.laneEnd.offset ≤ c.laneEnd.enabled) :
    planRel c len last = .ok ⟨len - c.laneEnd.offset, 0, 0, true⟩ := by
  obtain ⟨x, hx⟩ := hl
  have e : laneEnding c.laneEnd len = (true, len - c.laneEnd.offset) := if_pos hlen
  unfold planRel relValues
  rw [if_pos hr, hx]
  dsimp only
  rw [e, if_pos ⟨hb, rfl⟩]

/-- the relative values far from the end of a lane, or if braking for it is switched off -/
theorem rel_free {c : Cfg} {len : ℝ} {last : Act} (hr : c.restrict = true) (hl : ∃ x, egoAcc last = .ok x)
    (hb : c.laneEnd.brake = false ∨ c.laneEnd.enabled < len - c.laneEnd.offset) :
    planRel c len last = .ok ⟨0, 10 ^ 6, 0, false⟩ := by
  obtain ⟨x, hx⟩ := hl
  unfold planRel relValues
  rw [if_pos hr, hx]
  dsimp only
  refine if_neg ?_
  rintro ⟨h1, h2⟩
  rcases hb with h | h
  · rw [h] at h1; cases h1
  · have e : laneEnding c.laneEnd len = (false, 10 ^ 6) := if_neg (not_le.2 h)
    rw [e] at h2; cases h2

theorem total_restricted {c : Cfg} (hr : c.restrict = true) {r : Idm.Rel} {v rel dt a : ℝ}
    (h : Idm.Spec.Returns (Idm.totalAcc c.idm r v rel) a) :
    totalAcc c r v rel dt = .ok (min a c.acc, Idm.nextDist r v rel a dt) := by
  unfold totalAcc
  rw [if_pos hr, show Idm.totalAcc c.idm r v rel = .ok (.fin a) from h]

/-- **C174, near the end of the lane.** A restricted primitive whose corridor ends within the given range accelerates in every step by the
smaller of its own acceleration and that of a car stopping the given offset before the end; the gap shrinks, from the remaining length less the
offset, by the distance that car would travel at the ego's present speed. -/
theorem C174_brakes_for_lane_end {v : View} {horizon : ℝ} {o : Obj} {lim : Limits} {len : ℝ} {steer : Dyn.State → ℝ}
    (htg : v.target = some (len, steer)) (hr : o.cfg.restrict = true) (hn : 2 ≤ o.cfg.idm.numPoints) (hs : Idm.Spec.Sane o.cfg.idm)
    (hc : o.cfg.idm.coolness = 0) (hb : o.cfg.laneEnd.brake = true) (hlen : len - o.cfg.laneEnd.offset ≤ o.cfg.laneEnd.enabled)
    (hl : (∃ x, o.lastAction = .continuous x) ∨ ∃ x u, o.lastAction = .input (x :: u)) :
    ∃ (rows : List Dyn.State) (as : List ℝ) (gaps : Nat → ℝ) (o' : Obj) (lim' : Limits), plan id v horizon o lim = .ok (rows, o', lim') ∧
      rows.length = o.cfg.idm.numPoints ∧
      Drives v.wheelBase steer o.cfg.idm.minVel v.time (horizon / ((o.cfg.idm.numPoints : ℝ) - 1)) v.ego as rows ∧
      gaps 0 = len - o.cfg.laneEnd.offset ∧
      ∀ (k : Nat) (a : ℝ), as[k]? = some a → a = min (stopping o.cfg.idm (v.ego 4) (gaps k)) o.cfg.acc ∧
        gaps (k + 1) = gaps k - (v.ego 4 * (horizon / ((o.cfg.idm.numPoints : ℝ) - 1)) +
          stopping o.cfg.idm (v.ego 4) (gaps k) * (horizon / ((o.cfg.idm.numPoints : ℝ) - 1)) ^ 2 / 2) := by
  have hacc : ∀ rel dt, totalAcc o.cfg ⟨len - o.cfg.laneEnd.offset, 0, 0, true⟩ (v.ego 4) rel dt =
      .ok (min (stopping o.cfg.idm (v.ego 4) rel) o.cfg.acc,
        rel - (v.ego 4 * dt + stopping o.cfg.idm (v.ego 4) rel * dt ^ 2 / 2)) := by
    intro rel dt
    have h := Idm.C23_value hs hc (r := ⟨len - o.cfg.laneEnd.offset, 0, 0, true⟩) rfl (v.ego 4) rel
    rw [total_restricted hr (dt := dt) h]
    unfold stopping Idm.nextDist
    simp only [if_true, Except.ok.injEq, Prod.mk.injEq, true_and]
    ring
  obtain ⟨rows, as, gaps, act, e, h1, h2, _, _, h5, h6⟩ := plan_of (lim := lim) htg (rel_braking hr (egoAcc_ok hl) hb hlen)
    (by omega) (fun rel => ⟨_, hacc rel (horizon / ((o.cfg.idm.numPoints : ℝ) - 1))⟩)
  refine ⟨rows, as, gaps, _, _, e, h1, h2, h5, ?_⟩
  intro k a ha
  have := h6 k a ha
  rw [hacc] at this
  simp only [Except.ok.injEq, Prod.mk.injEq] at this
  exact ⟨this.1.symm, this.2.symm⟩

/-- **C174, at the end of the lane**: if no more than the offset is left of the corridor, the first acceleration is full braking (or the
primitive's own acceleration if that is less). -/
theorem C174_full_braking {v : View} {horizon : ℝ} {o : Obj} {lim : Limits} {len : ℝ} {steer : Dyn.State → ℝ}
    (htg : v.target = some (len, steer)) (hr : o.cfg.restrict = true) (hn : 2 ≤ o.cfg.idm.numPoints) (hs : Idm.Spec.Sane o.cfg.idm)
    (hc : o.cfg.idm.coolness = 0) (hb : o.cfg.laneEnd.brake = true) (hlen : len ≤ o.cfg.laneEnd.offset) (he : 0 ≤ o.cfg.laneEnd.enabled)
    (hl : (∃ x, o.lastAction = .continuous x) ∨ ∃ x u, o.lastAction = .input (x :: u)) :
    ∃ (rows : List Dyn.State) (x y : Dyn.State) (o' : Obj) (lim' : Limits), plan id v horizon o lim = .ok (rows, o', lim') ∧
      rows[0]? = some x ∧ rows[1]? = some y ∧
      Step v.wheelBase (min o.cfg.idm.accLower o.cfg.acc) (steer x) (horizon / ((o.cfg.idm.numPoints : ℝ) - 1)) o.cfg.idm.minVel x y := by
  obtain ⟨rows, as, gaps, o', lim', e, h1, h2, h3, h4⟩ := C174_brakes_for_lane_end (horizon := horizon) (lim := lim) htg hr hn hs hc hb
    (by linarith) hl
  have hcnt := h2.count
  have hx : rows[0]? = some rows[0] := List.getElem?_eq_getElem (by omega)
  have hy : rows[1]? = some rows[1] := List.getElem?_eq_getElem (by omega)
  have ha : as[0]? = some as[0] := List.getElem?_eq_getElem (by omega)
  refine ⟨rows, _, _, o', lim', e, hx, hy, ?_⟩
  have hstep := h2.step 0 _ _ _ hx hy ha
  rw [(h4 0 _ ha).1] at hstep
  have hg : stopping o.cfg.idm (v.ego 4) (gaps 0) = o.cfg.idm.accLower := by
    unfold stopping
    rw [h3, if_neg (by linarith)]
  rw [hg] at hstep
  exact hstep

/-- **C174, far from the end of the lane.** A restricted primitive whose corridor does not end within the range accelerates in every step by the
smaller of its own acceleration and the IDM's acceleration on a free road. -/
theorem C174_far_from_lane_end {v : View} {horizon : ℝ} {o : Obj} {lim : Limits} {len : ℝ} {steer : Dyn.State → ℝ}
    (htg : v.target = some (len, steer)) (hr : o.cfg.restrict = true) (hn : 2 ≤ o.cfg.idm.numPoints) (hs : Idm.Spec.Sane o.cfg.idm)
    (hb : o.cfg.laneEnd.brake = false ∨ o.cfg.laneEnd.enabled < len - o.cfg.laneEnd.offset)
    (hl : (∃ x, o.lastAction = .continuous x) ∨ ∃ x u, o.lastAction = .input (x :: u)) :
    ∃ (rows : List Dyn.State) (as : List ℝ) (o' : Obj) (lim' : Limits), plan id v horizon o lim = .ok (rows, o', lim') ∧
      rows.length = o.cfg.idm.numPoints ∧
      Drives v.wheelBase steer o.cfg.idm.minVel v.time (horizon / ((o.cfg.idm.numPoints : ℝ) - 1)) v.ego as rows ∧
      ∀ a ∈ as, a = min (freely o.cfg.idm (v.ego 4)) o.cfg.acc := by
  have hacc : ∀ rel dt, totalAcc o.cfg ⟨0, 10 ^ 6, 0, false⟩ (v.ego 4) rel dt =
      .ok (min (freely o.cfg.idm (v.ego 4)) o.cfg.acc, rel) := by
    intro rel dt
    have h := Idm.free_value hs (r := ⟨0, 10 ^ 6, 0, false⟩) rfl (v.ego 4) rel
    rw [total_restricted hr (dt := dt) h]
    unfold freely Idm.nextDist
    simp
  obtain ⟨rows, as, gaps, act, e, h1, h2, _, _, h5, h6⟩ := plan_of (lim := lim) htg (rel_free hr (egoAcc_ok hl) hb)
    (by omega) (fun rel => ⟨_, hacc rel (horizon / ((o.cfg.idm.numPoints : ℝ) - 1))⟩)
  refine ⟨rows, as, _, _, e, h1, h2, ?_⟩
  intro a ha
  obtain ⟨k, hk⟩ := List.mem_iff_getElem?.1 ha
  have := h6 k a hk
  rw [hacc] at this
  simp only [Except.ok.injEq, Prod.mk.injEq] at this
  exact this.1.symm

/-- **C174, restricted without a lane end (violated)**: with the flag that restricts the acceleration for the end of the lane, a primitive with
positive acceleration does not accelerate at all at the desired velocity, however long the lane is. -/
theorem C174_restricted_everywhere_violated {v : View} {horizon : ℝ} {o : Obj} {lim : Limits} {len : ℝ} {steer : Dyn.State → ℝ}
    (htg : v.target = some (len, steer)) (hr : o.cfg.restrict = true) (hn : 2 ≤ o.cfg.idm.numPoints) (hs : Idm.Spec.Sane o.cfg.idm)
    (hb : o.cfg.laneEnd.enabled < len - o.cfg.laneEnd.offset) (ha : 0 < o.cfg.acc) (hd : v.ego 4 = o.cfg.idm.desiredVel)
    (hv : o.cfg.idm.minVel ≤ v.ego 4) (hlo : o.cfg.idm.accLower ≤ 0) (hup : 0 ≤ o.cfg.idm.accUpper)
    (hl : (∃ x, o.lastAction = .continuous x) ∨ ∃ x u, o.lastAction = .input (x :: u)) :
    ∃ (rows : List Dyn.State) (o' : Obj) (lim' : Limits), plan id v horizon o lim = .ok (rows, o', lim') ∧
      rows.length = o.cfg.idm.numPoints ∧ ∀ x ∈ rows, x 4 = v.ego 4 := by
  obtain ⟨rows, as, o', lim', e, h1, h2, h3⟩ := C174_far_from_lane_end (horizon := horizon) (lim := lim) htg hr hn hs (.inr hb) hl
  refine ⟨rows, o', lim', e, h1, ?_⟩
  have hf : min (freely o.cfg.idm (v.ego 4)) o.cfg.acc = 0 := by
    unfold freely
    rw [hd, div_self hs.desired, one_pow, sub_self, mul_zero, min_eq_left hup, max_eq_left hlo, min_eq_left ha.le]
  intro x hx
  obtain ⟨k, hk⟩ := List.mem_iff_getElem?.1 hx
  rw [speeds h2 (a := 0) (fun a ha => (h3 a ha).trans hf) hv k x hk]
  simp [max_eq_left hv]

/-- **C174, the lane being driven in (violated)**: only the corridor driven towards counts – the end of the corridor the vehicle is in has no
influence, although the code means to brake for it. -/
theorem C174_current_lane_end_violated (rnd : ℝ → ℝ) (v : View) (h h' : Option (ℝ × (Dyn.State → ℝ))) (horizon : ℝ) (o : Obj) (lim : Limits) :
    plan rnd ⟨v.target, h, v.wheelBase, v.time, v.ego⟩ horizon o lim = plan rnd ⟨v.target, h', v.wheelBase, v.time, v.ego⟩ horizon o lim := rfl

/-- **C174, unknown last action**: a restricted primitive that last executed a discrete action aborts -/
theorem C174_discrete_aborts {rnd : ℝ → ℝ} {v : View} {horizon : ℝ} {o : Obj} {lim : Limits} {len : ℝ} {steer : Dyn.State → ℝ}
    (htg : v.target = some (len, steer)) (hr : o.cfg.restrict = true) {n : Nat} (hl : o.lastAction = .discrete n) :
    plan rnd v horizon o lim = .error .thrown := by
  unfold plan planRel relValues
  rw [htg]
  simp only [hr, if_true, hl, egoAcc]

/-- what a plan returns, given the loop -/
theorem plan_loop {rnd : ℝ → ℝ} {v : View} {horizon : ℝ} {o : Obj} {lim : Limits} {len : ℝ} {steer : Dyn.State → ℝ}
    (htg : v.target = some (len, steer)) {r : Idm.Rel} (hr : planRel o.cfg len o.lastAction = .ok r) {t : List (ℝ × Dyn.State)}
    (e : loop rnd o.cfg r v.wheelBase steer v.time (horizon / ((o.cfg.idm.numPoints : ℝ) - 1)) (v.ego 4)
          (o.cfg.idm.numPoints - 1) 1 (fun j => if j = 0 then v.time else v.ego j) r.distance = .ok t) :
    plan rnd v horizon o lim = .ok ((fun j => if j = 0 then v.time else v.ego j) :: t.map Prod.snd,
      ⟨o.cfg, firstInput steer (fun j => if j = 0 then v.time else v.ego j) t, (fun j => if j = 0 then v.time else v.ego j) :: t.map Prod.snd⟩,
      ⟨o.cfg.idm.accLower, o.cfg.idm.accUpper⟩) := by
  unfold plan
  rw [htg]
  dsimp only
  rw [hr]
  dsimp only
  rw [e]

/-- the last action of a primitive that has only been planned with -/
def Usable (a : Act) : Prop := (∃ x, a = .continuous x) ∨ ∃ x u, a = .input (x :: u)

theorem usable_after {rnd : ℝ → ℝ} {v : View} {horizon : ℝ} {o : Obj} {lim : Limits} (hn : 2 ≤ o.cfg.idm.numPoints)
    (hs : Idm.Spec.Sane o.cfg.idm) (hc : o.cfg.idm.coolness = 0) (hu : Usable o.lastAction) :
    ∃ rows o' lim', plan rnd v horizon o lim = .ok (rows, o', lim') ∧ o'.cfg = o.cfg ∧ Usable o'.lastAction := by
  cases htg : v.target with
  | none => exact ⟨_, _, _, by unfold plan; rw [htg], rfl, hu⟩
  | some q =>
    obtain ⟨len, steer⟩ := q
    obtain ⟨r, hr⟩ : ∃ r, planRel o.cfg len o.lastAction = .ok r := by
      cases hre : o.cfg.restrict with
      | false => exact ⟨_, by unfold planRel; rw [hre]; rfl⟩
      | true =>
        by_cases hb : o.cfg.laneEnd.brake = true ∧ len - o.cfg.laneEnd.offset ≤ o.cfg.laneEnd.enabled
        · exact ⟨_, rel_braking hre (egoAcc_ok hu) hb.1 hb.2⟩
        · refine ⟨_, rel_free hre (egoAcc_ok hu) ?_⟩
          by_contra hcon
          push Not at hcon
          refine hb ⟨?_, hcon.2⟩
          cases h : o.cfg.laneEnd.brake with
          | true => rfl
          | false => exact absurd h hcon.1
    have ht : ∀ rel dt, ∃ q, totalAcc o.cfg r (v.ego 4) rel dt = .ok q := by
      intro rel dt
      cases hre : o.cfg.restrict with
      | false => exact ⟨_, by unfold totalAcc; rw [hre]; rfl⟩
      | true =>
        cases hl : r.hasLeader with
        | true => exact ⟨_, total_restricted hre (Idm.C23_value hs hc hl (v.ego 4) rel)⟩
        | false => exact ⟨_, total_restricted hre (Idm.free_value hs hl (v.ego 4) rel)⟩
    obtain ⟨m, hm⟩ : ∃ m, o.cfg.idm.numPoints - 1 = m + 1 := ⟨o.cfg.idm.numPoints - 2, by omega⟩
    obtain ⟨t, e⟩ := loop_total (rnd := rnd) (l := v.wheelBase) (steer := steer) (start := v.time)
      (fun rel => ht rel (horizon / ((o.cfg.idm.numPoints : ℝ) - 1))) (o.cfg.idm.numPoints - 1) 1
      (fun j => if j = 0 then v.time else v.ego j) r.distance
    obtain ⟨⟨a, x⟩, t', rfl⟩ : ∃ q t', t = q :: t' := by
      rw [hm] at e
      unfold loop at e
      split at e
      · cases e
      · dsimp only at e
        split at e
        · cases e; exact ⟨_, _, rfl⟩
        · cases e
    exact ⟨_, _, _, plan_loop htg hr e, rfl, .inr ⟨a, [steer (fun j => if j = 0 then v.time else v.ego j)], rfl⟩⟩

/-- **C174, planning never aborts.** A primitive with sensible parameters, from its construction on, plans in every sequence of situations. -/
theorem C174_never_aborts (rnd : ℝ → ℝ) {c : Cfg} (hn : 2 ≤ c.idm.numPoints) (hs : Idm.Spec.Sane c.idm) (hc : c.idm.coolness = 0)
    (vs : List (View × ℝ)) (lim : Limits) : ∃ o lim', planAll rnd vs (fresh c) lim = .ok (o, lim') ∧ o.cfg = c := by
  have key : ∀ (vs : List (View × ℝ)) (o : Obj) (lim : Limits), o.cfg = c → Usable o.lastAction →
      ∃ o' lim', planAll rnd vs o lim = .ok (o', lim') ∧ o'.cfg = c := by
    intro vs
    induction vs with
    | nil => intro o lim ho _; exact ⟨o, lim, rfl, ho⟩
    | cons q vs ih =>
      obtain ⟨v, h⟩ := q
      intro o lim ho hu
      obtain ⟨rows, o', lim', e, h1, h2⟩ := usable_after (rnd := rnd) (v := v) (horizon := h) (lim := lim) (ho ▸ hn) (ho ▸ hs) (ho ▸ hc) hu
      obtain ⟨o2, lim2, e2, h3⟩ := ih o' lim' (h1.trans ho) h2
      refine ⟨o2, lim2, ?_, h3⟩
      unfold planAll
      rw [e]
      exact e2
  exact key vs (fresh c) lim rfl (.inl ⟨0, rfl⟩)

/-! ### C175 limits of the vehicle -/

/-- **C175.** A primitive is available exactly if its acceleration lies within the limits of the vehicle; at standstill only if it does not
brake. -/
theorem C175_available (o : Obj) (lim : Limits) (ego : Dyn.State) :
    (1 / 100000 ≤ |ego 4| → (available o lim ego = true ↔ lim.lonMin ≤ o.cfg.acc ∧ o.cfg.acc ≤ lim.lonMax)) ∧
    (ego 4 = 0 → (available o lim ego = true ↔ 0 ≤ o.cfg.acc ∧ o.cfg.acc ≤ lim.lonMax)) := by
  constructor
  · intro h
    unfold available Dyn.lonAccMin
    rw [if_neg (not_lt.2 h)]
    simp
  · intro h
    unfold available Dyn.lonAccMin
    rw [h, abs_zero, if_pos (by norm_num)]
    simp

/-- **C175, the vehicle's limits (violated)**: planning along a corridor replaces the limits of the vehicle by those of the primitive's
parameters, so that an acceleration the vehicle was not capable of becomes available. -/
theorem C175_limits_violated {rnd : ℝ → ℝ} {v : View} {horizon : ℝ} {o : Obj} {lim : Limits} {len : ℝ} {steer : Dyn.State → ℝ}
    (htg : v.target = some (len, steer)) (hn : 2 ≤ o.cfg.idm.numPoints) (hs : Idm.Spec.Sane o.cfg.idm)
    (hr : o.cfg.restrict = false) (ha : lim.lonMax < o.cfg.acc) (h0 : 0 ≤ o.cfg.acc) (hu : o.cfg.acc ≤ o.cfg.idm.accUpper)
    (hlo : o.cfg.idm.accLower ≤ 0) :
    available o lim v.ego = false ∧ ∃ rows o' lim', plan rnd v horizon o lim = .ok (rows, o', lim') ∧
      lim'.lonMin = o.cfg.idm.accLower ∧ lim'.lonMax = o.cfg.idm.accUpper ∧ available o' lim' v.ego = true := by
  constructor
  · unfold available
    rw [decide_eq_false (not_le.2 ha), Bool.and_false]
  · obtain ⟨t, e⟩ := loop_total (rnd := rnd) (c := o.cfg) (r := ⟨0, 0, 0, false⟩) (v0 := v.ego 4)
      (dt := horizon / ((o.cfg.idm.numPoints : ℝ) - 1)) (l := v.wheelBase) (steer := steer) (start := v.time)
      (fun rel => ⟨_, by unfold totalAcc; rw [hr]; rfl⟩) (o.cfg.idm.numPoints - 1) 1
      (fun j => if j = 0 then v.time else v.ego j) 0
    refine ⟨_, _, _, plan_loop htg (r := ⟨0, 0, 0, false⟩) (by unfold planRel; rw [hr]; rfl) e, rfl, rfl, ?_⟩
    · unfold available Dyn.lonAccMin
      simp only [Bool.and_eq_true, decide_eq_true_eq]
      refine ⟨?_, hu⟩
      split
      · exact h0
      · linarith

/-! ### C176 macro actions from parameters -/

section
variable {K C A T : Type}

theorem build_spec (a0 : A) (t0 : T) : ∀ (ps : List (Mac.Prim K)) (next : Nat) (s : Mac.Heap K A T × Mac.Beh C A T),
    (build a0 t0 ps next s).2.prims = s.2.prims ++ List.range' next ps.length ∧
    (∀ q, q < next → (build a0 t0 ps next s).1 q = s.1 q) ∧
    (∀ (i : Nat) (p : Mac.Prim K), ps[i]? = some p → (build a0 t0 ps next s).1 (next + i) = some ⟨p, a0, t0⟩) ∧
    (build a0 t0 ps next s).2.check = s.2.check ∧ (build a0 t0 ps next s).2.target = s.2.target ∧
    (build a0 t0 ps next s).2.valid = s.2.valid ∧ (build a0 t0 ps next s).2.active = s.2.active := by
  intro ps
  induction ps with
  | nil => intro next s; simp [build]
  | cons p ps ih =>
    intro next s
    obtain ⟨h1, h2, h3, h4, h5, h6, h7⟩ := ih (next + 1) (fun q => if q = next then some ⟨p, a0, t0⟩ else s.1 q, (addPrimitive next s.2).1)
    unfold build
    refine ⟨?_, ?_, ?_, h4, h5, h6, h7⟩
    · rw [h1]
      simp [addPrimitive, List.range'_succ]
    · intro q hq
      rw [h2 q (by omega)]
      simp [show q ≠ next by omega]
    · intro i p' hi
      cases i with
      | zero =>
        simp only [List.getElem?_cons_zero, Option.some.injEq] at hi
        subst hi
        refine (h2 next (by omega)).trans ?_
        simp
      | succ i =>
        rw [List.getElem?_cons_succ] at hi
        have := h3 i p' hi
        rwa [show next + 1 + i = next + (i + 1) by omega] at this

theorem prim_of (a0 : A) (t0 : T) (check : Bool) (s : Settings K) (next : Nat) (h : Mac.Heap K A T) {i : Nat} {p : Mac.Prim K}
    (hi : (primitives s)[i]? = some p) : ∃ r, (fromParams (C := C) a0 t0 check s next h).2.prims[i]? = some r ∧
      (fromParams (C := C) a0 t0 check s next h).1 r = some ⟨p, a0, t0⟩ := by
  obtain ⟨h1, _, h3, _⟩ := build_spec (C := C) a0 t0 (primitives s) next (h, ⟨[], [], check, none, 0, a0, t0⟩)
  refine ⟨next + i, ?_, h3 i p hi⟩
  unfold fromParams
  rw [h1]
  have := (List.getElem?_eq_some_iff.1 hi).1
  simp [List.getElem?_range', this]

/-- **C176.** The behaviour made from the parameters has one primitive staying in the lane for each acceleration of the list, in its order; then,
if wanted, one changing to the left and one changing to the right, with the acceleration of the parameters; then, if wanted, one keeping the gap –
and no others; all of them are new objects of their own, and no action is selected but number 0. -/
theorem C176_primitives (a0 : A) (t0 : T) (check : Bool) (s : Settings K) (next : Nat) (h : Mac.Heap K A T) :
    (∀ (i : Nat) (a : K), s.accs[i]? = some a → IsPrimitive (fromParams (C := C) a0 t0 check s next h).1
      (fromParams (C := C) a0 t0 check s next h).2 i .stay a s) ∧
    (s.laneChanges = true → IsPrimitive (fromParams (C := C) a0 t0 check s next h).1 (fromParams (C := C) a0 t0 check s next h).2 s.accs.length .left s.acc s ∧
      IsPrimitive (fromParams (C := C) a0 t0 check s next h).1 (fromParams (C := C) a0 t0 check s next h).2 (s.accs.length + 1) .right s.acc s) ∧
    (s.gapKeeping = true → IsPrimitive (fromParams (C := C) a0 t0 check s next h).1 (fromParams (C := C) a0 t0 check s next h).2
      (s.accs.length + if s.laneChanges = true then 2 else 0) .gap s.acc s) ∧
    (fromParams (C := C) a0 t0 check s next h).2.prims.length =
      s.accs.length + (if s.laneChanges = true then 2 else 0) + (if s.gapKeeping = true then 1 else 0) ∧
    (fromParams (C := C) a0 t0 check s next h).2.prims.Nodup ∧
    (∀ q, q < next → (fromParams (C := C) a0 t0 check s next h).1 q = h q ∧ q ∉ (fromParams (C := C) a0 t0 check s next h).2.prims) ∧
    (fromParams (C := C) a0 t0 check s next h).2.active = 0 ∧ (fromParams (C := C) a0 t0 check s next h).2.check = check ∧
    (fromParams (C := C) a0 t0 check s next h).2.target = none ∧ (fromParams (C := C) a0 t0 check s next h).2.valid = [] := by
  obtain ⟨h1, h2, h3, h4, h5, h6, h7⟩ := build_spec (C := C) a0 t0 (primitives s) next (h, ⟨[], [], check, none, 0, a0, t0⟩)
  have hp : (fromParams (C := C) a0 t0 check s next h).2.prims = List.range' next (primitives s).length := by
    unfold fromParams; rw [h1]; rfl
  refine ⟨?_, ?_, ?_, ?_, ?_, ?_, h7, h4, h5, h6⟩
  · intro i a hi
    have hlt := (List.getElem?_eq_some_iff.1 hi).1
    obtain ⟨r, e1, e2⟩ := prim_of (C := C) a0 t0 check s next h (i := i) (p := ⟨.stay, a, s.minLen, s.restrict⟩) (by
      unfold primitives
      rw [List.append_assoc, List.getElem?_append_left (by simpa using hlt), List.getElem?_map, hi]; rfl)
    exact ⟨r, _, e1, e2, rfl, fun _ => ⟨rfl, rfl⟩, fun _ => rfl⟩
  · intro hlc
    constructor
    · obtain ⟨r, e1, e2⟩ := prim_of (C := C) a0 t0 check s next h (i := s.accs.length) (p := ⟨.left, s.acc, s.minLen, s.restrict⟩) (by
        unfold primitives
        rw [hlc, List.append_assoc, List.getElem?_append_right (by simp)]; simp)
      exact ⟨r, _, e1, e2, rfl, fun _ => ⟨rfl, rfl⟩, fun _ => rfl⟩
    · obtain ⟨r, e1, e2⟩ := prim_of (C := C) a0 t0 check s next h (i := s.accs.length + 1) (p := ⟨.right, s.acc, s.minLen, s.restrict⟩) (by
        unfold primitives
        rw [hlc, List.append_assoc, List.getElem?_append_right (by simp)]; simp)
      exact ⟨r, _, e1, e2, rfl, fun _ => ⟨rfl, rfl⟩, fun _ => rfl⟩
  · intro hg
    obtain ⟨r, e1, e2⟩ := prim_of (C := C) a0 t0 check s next h (i := s.accs.length + if s.laneChanges = true then 2 else 0)
      (p := ⟨.gap, s.acc, s.minLen, s.restrict⟩) (by
        unfold primitives
        rw [hg]
        by_cases hl : s.laneChanges = true
        · simp only [hl, if_true]
          rw [List.getElem?_append_right (by simp)]; simp
        · simp only [hl]
          rw [List.getElem?_append_right (by simp)]; simp)
    exact ⟨r, _, e1, e2, rfl, fun hh => absurd rfl hh, fun _ => rfl⟩
  · rw [hp, List.length_range']
    unfold primitives
    by_cases hl : s.laneChanges = true <;> by_cases hg : s.gapKeeping = true <;> simp [hl, hg]
  · rw [hp]; exact List.nodup_range'
  · intro q hq
    refine ⟨h2 q hq, ?_⟩
    rw [hp, List.mem_range'_1]
    omega

/-- **C176, default parameters**: seven actions – keep the velocity, accelerate by 1 and 4, brake by 1 and 5, change left, change right -/
theorem C176_default_actions (a0 : A) (t0 : T) (next : Nat) (h : Mac.Heap ℝ A T) {s : Settings ℝ} (hs : s.accs = [0, 1, 4, -1, -5])
    (hl : s.laneChanges = true) (hg : s.gapKeeping = false) :
    (fromParams (C := C) a0 t0 false s next h).2.prims.length = 7 ∧
    (∀ i a, ([0, 1, 4, -1, -5] : List ℝ)[i]? = some a → IsPrimitive (fromParams (C := C) a0 t0 false s next h).1
      (fromParams (C := C) a0 t0 false s next h).2 i .stay a s) ∧
    IsPrimitive (fromParams (C := C) a0 t0 false s next h).1 (fromParams (C := C) a0 t0 false s next h).2 5 .left s.acc s ∧
    IsPrimitive (fromParams (C := C) a0 t0 false s next h).1 (fromParams (C := C) a0 t0 false s next h).2 6 .right s.acc s := by
  obtain ⟨h1, h2, _, h4, _⟩ := C176_primitives (C := C) a0 t0 false s next h
  rw [hs] at h1 h2 h4
  refine ⟨?_, h1, (h2 hl).1, (h2 hl).2⟩
  rw [h4, hl, hg]
  rfl

end

/-- a primitive with the usual parameters, braking for the end of the lane -/
noncomputable def exObj (acc : ℝ) (restrict : Bool) : Obj := fresh ⟨Idm.wp, ⟨true, 60, 15⟩, acc, restrict⟩

/-- an ego at 15 m/s in a lane of the given remaining length -/
def exView (len : ℝ) : View := ⟨some (len, fun _ => 0), none, 2.7, 0, fun j => if j = 4 then 15 else 0⟩

/-- the hypotheses of C173–C175 are met: a usual primitive near and far from the end of the lane, at the desired velocity -/
example : (exView 50).target = some (50, fun _ => 0) ∧ (exObj 4 true).cfg.restrict = true ∧ 2 ≤ (exObj 4 true).cfg.idm.numPoints ∧
    Idm.Spec.Sane (exObj 4 true).cfg.idm ∧ (exObj 4 true).cfg.idm.coolness = 0 ∧ (exObj 4 true).cfg.laneEnd.brake = true ∧
    50 - (exObj 4 true).cfg.laneEnd.offset ≤ (exObj 4 true).cfg.laneEnd.enabled ∧
    (exObj 4 true).cfg.laneEnd.enabled < 500 - (exObj 4 true).cfg.laneEnd.offset ∧
    (∃ x, (exObj 4 true).lastAction = .continuous x) ∧ (exView 500).ego 4 = (exObj 4 true).cfg.idm.desiredVel ∧
    (exObj 4 true).cfg.idm.minVel ≤ (exView 500).ego 4 := by
  refine ⟨rfl, rfl, by simp [exObj, fresh, Idm.wp], Idm.wp_sane, rfl, rfl, ?_, ?_, ⟨0, rfl⟩, ?_, ?_⟩ <;>
    norm_num [exObj, fresh, exView, Idm.wp]

end Bark.CAcc
