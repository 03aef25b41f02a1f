import Verif.Model.ConstTraffic
import Verif.Spec.ConstTraffic
import Verif.Props.ReplayMixed
import Verif.Props.ActionDriven

/-!
C224: IDM traffic behind a vehicle that is given an acceleration for every step.
-/
namespace Bark.Mix
open Bark Bark.Ln Bark.Ln.Spec Bark.Flow Bark.Flow.Spec Bark.Mix.Spec

variable {Box Lane : Type}

theorem planars_all {l : Line} (h : ∀ r, ∃ y, Pick.planar l r = .ok y) : ∀ rs : List (ℝ × Idm.Row), ∃ xs, Pick.planars l rs = .ok xs ∧
    ∀ r, rs.getLast? = some r → ∃ y, xs.getLast? = some y ∧ Pick.planar l r.2 = .ok y
  | [] => ⟨[], rfl, fun r hr => by cases hr⟩
  | r :: rs => by
    obtain ⟨y, hy⟩ := h r.2
    obtain ⟨xs, h1, h2⟩ := planars_all h rs
    refine ⟨y :: xs, ?_, ?_⟩
    · simp only [Pick.planars, hy, h1]
    · intro q hq
      cases rs with
      | nil =>
        cases h1
        cases hq
        exact ⟨y, rfl, hy⟩
      | cons r' rs' =>
        rw [List.getLast?_cons_cons] at hq
        obtain ⟨z, hz1, hz2⟩ := h2 q hq
        refine ⟨z, ?_, hz2⟩
        cases xs with
        | nil => cases hz1
        | cons a as => rw [List.getLast?_cons_cons]; exact hz1

/-- a vehicle with acceleration `c` moves as it should -/
theorem const_moves {u : Setup Box Lane} {lane : Lane} {L : ℝ} {At : ℝ → Pt → ℝ → Prop} (hu : Setting u lane L At) {F : Nat → Bool} {c : ℝ} {w w1 : W Box}
    (hw : Props.WellFormed w) (hoff : w.removeAgents = false) {dt : ℝ} (hdt : 0 < dt) (h : World.step (mixed u F (constPlan u c)) dt w = .ok w1) {i : Nat}
    (hF : F i = true) {s v : ℝ} {ag : Agent ℝ V5 CAcc.Act Beh (Res (Interp.Exec V5)) Shape.Poly} (hi : w.getAgent i = some ag) (hr : On At L w.time s v ag)
    (hv : 0 ≤ v) (hv5 : v ≤ 50) (hv1 : 0 ≤ v + c * dt) (hv2 : v + c * dt ≤ 50) (h0 : 0 ≤ s + v * dt + c * dt ^ 2 / 2) (hL : s + v * dt + c * dt ^ 2 / 2 ≤ L) :
    ∃ a1, w1.getAgent i = some a1 ∧ a1.shape = ag.shape ∧ On At L w1.time (s + v * dt + c * dt ^ 2 / 2) (v + c * dt) a1 ∧ a1.behavior.action = .continuous c := by
  have hdef := hu.toDefault.idm
  have hn : u.idm.numPoints = 11 := by rw [hdef]
  have hmin : u.idm.minVel = 0 := by rw [hdef]
  have hmax : u.idm.maxVel = 50 := by rw [hdef]
  obtain ⟨p, θ, hA, hcur⟩ := hr.1.state
  obtain ⟨l, e, hlen, hhead, -, htimes, hun⟩ := Bark.Act.C51_constant_acceleration 0 50 c hdt (n := 11) (by norm_num) ⟨w.time, s, v⟩
  have hl : ⟨w.time, s, v⟩ :: Bark.Act.caLoop 0 50 c w.time (dt / ((11 : ℕ) - 1 : ℝ)) (11 - 1) 1 s v = l := (Prod.mk.inj e).2
  have hlim : ∀ τ, 0 ≤ τ → τ ≤ dt → (0 : ℝ) ≤ v + c * τ ∧ v + c * τ ≤ 50 := by
    intro τ t0 t1
    rcases le_total 0 c with hc | hc
    · exact ⟨by nlinarith, by nlinarith⟩
    · exact ⟨by nlinarith, by nlinarith⟩
  have hne : Bark.Act.caLoop 0 50 c w.time (dt / ((11 : ℕ) - 1 : ℝ)) (11 - 1) 1 s v ≠ [] := by
    intro h0; rw [h0] at hl; rw [← hl] at hlen; simp at hlen
  obtain ⟨r, hrl⟩ : ∃ r, (Bark.Act.caLoop 0 50 c w.time (dt / ((11 : ℕ) - 1 : ℝ)) (11 - 1) 1 s v).getLast? = some r :=
    ⟨_, List.getLast?_eq_some_getLast hne⟩
  have hrl' : l[10]? = some r := by
    have h10 : l.getLast? = some r := by
      rw [← hl]
      cases hc : Bark.Act.caLoop 0 50 c w.time (dt / ((11 : ℕ) - 1 : ℝ)) (11 - 1) 1 s v with
      | nil => exact absurd hc hne
      | cons a as => rw [List.getLast?_cons_cons, ← hc]; exact hrl
    rw [List.getLast?_eq_getElem?, hlen] at h10
    exact h10
  obtain ⟨hk, hk2⟩ := List.getElem?_eq_some_iff.1 hrl'
  have hrt : r.t = w.time + dt := by
    have := htimes 10 hk
    rw [hk2] at this
    rw [this]
    push_cast
    show w.time + _ = _
    ring
  obtain ⟨u1, u2⟩ := hun hlim r (by rw [← hk2]; exact List.getElem_mem hk)
  have hrv : r.v = v + c * dt := by rw [u1, hrt]; ring
  have hrs : r.s = s + v * dt + c * dt ^ 2 / 2 := by
    rw [u2, hrt]; ring
  obtain ⟨p1, θ1, g1, g2, g3⟩ := hu.total r.s
  have hpl : Pick.planar (u.roads.line lane) r = .ok ⟨r.t, p1.1, p1.2, θ1, r.v⟩ := by
    unfold Pick.planar
    rw [g1]; dsimp only; rw [g2]
  have htot : ∀ r, ∃ y, Pick.planar (u.roads.line lane) r = .ok y := by
    intro r
    obtain ⟨p1, θ1, g1, g2, -⟩ := hu.total r.s
    exact ⟨_, by unfold Pick.planar; rw [g1]; dsimp only; rw [g2]⟩
  obtain ⟨xs, hxs, hlast⟩ := planars_all htot ((Bark.Act.caLoop 0 50 c w.time (dt / ((11 : ℕ) - 1 : ℝ)) (11 - 1) 1 s v).map fun r => (c, r))
  obtain ⟨y, hy1, hy2⟩ := hlast (c, r) (by rw [List.getLast?_map, hrl]; rfl)
  rw [hpl, Except.ok.injEq] at hy2
  have hgen : constGenerate u c (u.roads.line lane) w.time dt (entries (w.time, p.1, p.2, θ, v)) =
      .ok ((entries (w.time, p.1, p.2, θ, v) :: xs).map vector, .continuous c) := by
    unfold constGenerate
    rw [if_neg hu.ok]
    have : nearestS (u.roads.line lane) ((entries (w.time, p.1, p.2, θ, v)).x, (entries (w.time, p.1, p.2, θ, v)).y) = .ok s := hu.foot s p θ hr.2.1 hr.2.2 hA
    rw [this]; dsimp only
    unfold Idm.stepSize
    rw [hn, hmin, hmax]
    have : Pick.planars (u.roads.line lane) (List.map (fun r => (c, r)) (Bark.Act.caLoop 0 50 c w.time (dt / ((11 : ℕ) - 1 : ℝ)) (11 - 1) 1 s
        (entries (w.time, p.1, p.2, θ, v)).vel)) = .ok xs := hxs
    rw [this]; dsimp only
    rw [if_pos (by norm_num)]
  obtain ⟨a1, k1, k2, k3, k4⟩ := foreign_moves (At := At) hw hoff h hF hi hr.1 hdt (s1 := r.s) (v1 := r.v) (act := .continuous c) (fun index => by
    refine ⟨(entries (w.time, p.1, p.2, θ, v) :: xs).map vector, vector (entries (w.time, p.1, p.2, θ, v)), p1, θ1, ?_, .continuous c, rfl, rfl, ?_, ?_⟩
    · have hi' : World.getAgent { w with rtree := index } i = some ag := hi
      unfold constPlan
      rw [hi']; dsimp only
      rw [hcur]; dsimp only
      have : u.corridor ((entries (w.time, p.1, p.2, θ, v)).x, (entries (w.time, p.1, p.2, θ, v)).y) = some lane := hu.corridor s p θ hr.2.1 hr.2.2 hA
      rw [this]; dsimp only
      rw [hgen]
    · have hne2 : xs ≠ [] := by rintro rfl; cases hy1
      rw [List.getLast?_map, List.getLast?_cons, hy1, ← hy2]
      show some (vector ⟨r.t, p1.1, p1.2, θ1, r.v⟩) = _
      rw [hrt]; rfl
    · exact g3 (by rw [hrs]; exact h0) (by rw [hrs]; exact hL))
  rw [hrs, hrv] at k3
  exact ⟨a1, k1, k2, ⟨k3, h0, hL⟩, k4⟩

/-- an acceleration not below -5 m/s² that does not make the vehicle reverse is gentle, and it does not get back -/
theorem const_gentle {s v c t dt : ℝ} (hdt : 0 < dt) (hv : 0 ≤ v) (hc : -5 ≤ c) (hv1 : 0 ≤ v + c * dt) :
    Loop.Spec.Gentle (t, s, v) (t + dt, s + v * dt + c * dt ^ 2 / 2, v + c * dt) dt ∧ s ≤ s + v * dt + c * dt ^ 2 / 2 := by
  have hsq : 0 < dt ^ 2 := by positivity
  have hway : 0 ≤ v * dt + c * dt ^ 2 / 2 := by nlinarith [mul_nonneg hv hdt.le, mul_nonneg hv1 hdt.le]
  refine ⟨⟨rfl, hv1, by dsimp only; nlinarith, ?_⟩, by linarith⟩
  dsimp only
  unfold Loop.Spec.brakingWay
  split_ifs with hb
  · nlinarith
  · push Not at hb
    have h1 : v * dt / 2 ≤ v * dt + c * dt ^ 2 / 2 := by nlinarith [mul_nonneg hv1 hdt.le]
    nlinarith [mul_nonneg hv (sub_nonneg.2 hb.le)]

/-- the planners of a vehicle that is given these accelerations -/
noncomputable def pedal (u : Setup Box Lane) (l : List (ℝ × ℝ)) : List (ℝ × Planner Box) := l.map fun p => (p.1, constPlan u p.2)

theorem const_run {u : Setup Box Lane} {lane : Lane} {L : ℝ} {At : ℝ → Pt → ℝ → Prop} (hu : Setting u lane L At) {first : Nat} :
    ∀ (l : List (ℝ × ℝ)) (_ : ∀ d ∈ l, 0 < d.1 ∧ d.1 ≤ 1 / 5) {w : W Box} {x : Nat → ℝ × ℝ} {a0}, Fine u (· == first) L At (l.map Prod.fst).sum w x →
    w.getAgent first = some a0 → (∀ j aj, w.getAgent j = some aj → j ≠ first → (x j).1 < (x first).1) → (x first).2 ≤ 50 → Moderate L l (x first) →
    ∃ (w' : W Box) (x' : Nat → ℝ × ℝ), drive u (· == first) (pedal u l) w = .ok w' ∧ w'.time = w.time + (l.map Prod.fst).sum ∧ Fine u (· == first) L At 0 w' x' ∧
      (∀ i, w'.getAgent i = none ↔ w.getAgent i = none) ∧
      (∀ i ag a1, w.getAgent i = some ag → w'.getAgent i = some a1 → a1.shape = ag.shape) ∧
      (∀ i j ai aj, w.getAgent i = some ai → w.getAgent j = some aj → i ≠ j → (x i).1 ≤ (x j).1 → (x' i).1 ≤ (x' j).1) ∧
      x' first = travel l (x first)
  | [], _, w, x, a0, hg, _, _, _, _ => by
    refine ⟨w, x, rfl, by simp, by simpa using hg, fun i => Iff.rfl, ?_, fun i j ai aj _ _ _ h => h, rfl⟩
    intro i ag a1 h1 h2
    rw [h1] at h2; cases h2; rfl
  | (dt, c) :: l, hpos, w, x, a0, hg, ha0, hfront, h50, hm => by
    obtain ⟨hc, m1, m2, m3, m4⟩ := hm
    obtain ⟨w1, h1', -⟩ := Props.apply_wf (mixed u (· == first) (constPlan u c)) hg.wf (World.Op.step dt) trivial
    have h1 : World.step (mixed u (· == first) (constPlan u c)) dt w = .ok w1 := h1'
    obtain ⟨hdt, hdt5⟩ := hpos (dt, c) (by simp)
    dsimp only at hdt hdt5
    have hsum : 0 ≤ (l.map Prod.fst).sum := List.sum_nonneg fun d hd => by
      obtain ⟨p, hp, rfl⟩ := List.mem_map.1 hd
      exact (hpos p (by simp [hp])).1.le
    rw [List.map_cons, List.sum_cons] at hg
    have hon : ∀ i ag, w.getAgent i = some ag → On At L w.time (x i).1 (x i).2 ag := fun i ag hi =>
      ⟨(hg.rides i ag hi).1, (hg.rides i ag hi).2.2.1, (hg.rides i ag hi).2.2.2.1⟩
    have huniq : ∀ {t s v s' v' : ℝ} {ag}, On At L t s v ag → On At L t s' v' ag → s = s' ∧ v = v' := fun h h' =>
      rides_unique hu h.1 h'.1 h.2.1 h.2.2 h'.2.1 h'.2.2
    have hv0 : 0 ≤ (x first).2 := (hg.rides first a0 ha0).2.1
    obtain ⟨hgen, hfwd⟩ := const_gentle (t := w.time) (s := (x first).1) hdt hv0 hc m1
    obtain ⟨a1, k1, k2, k3, -⟩ := const_moves hu hg.wf hg.off hdt h1 (i := first) (by simp) ha0 (hon first a0 ha0) hv0 h50 m1 m2
      ((hg.rides first a0 ha0).2.2.1.trans hfwd) m3
    have hd : Decent (· == first) At L dt w w1 := by
      intro i ag s v hF hi hr
      have hif : i = first := by simpa using hF
      subst hif
      rw [ha0] at hi; cases hi
      obtain ⟨e1, e2⟩ := huniq hr (hon i a0 ha0)
      subst e1 e2
      refine ⟨a1, _, _, k1, k2, k3, hgen, ?_⟩
      intro j aj sj vj aj1 sj1 vj1 hne hj hrj hle _ _
      rw [(huniq hrj (hon j aj hj)).1] at hle
      exact absurd (hfront j aj hj hne) (not_lt.2 hle)
    obtain ⟨x1, g1, n1, s1, o1⟩ := fine_step hu hg hdt hdt5 hsum h1 hd
    have hx1 : x1 first = ((x first).1 + (x first).2 * dt + c * dt ^ 2 / 2, (x first).2 + c * dt) := by
      obtain ⟨e1, e2⟩ := huniq (ag := a1) ⟨(g1.rides first a1 k1).1, (g1.rides first a1 k1).2.2.1, (g1.rides first a1 k1).2.2.2.1⟩ k3
      exact Prod.ext e1 e2
    have hfront1 : ∀ j aj, w1.getAgent j = some aj → j ≠ first → (x1 j).1 < (x1 first).1 := by
      intro j aj1 hj1 hne
      obtain ⟨aj, hj⟩ := Option.ne_none_iff_exists'.1 fun e => by rw [(n1 j).2 e] at hj1; cases hj1
      have hle := o1 j first aj a0 hj ha0 hne (hfront j aj hj hne).le
      have hcl := (g1.clear j first aj1 a1 hj1 k1 hne hle).1
      have h2 := (g1.rides j aj1 hj1).1.shape.front
      have h3 := (g1.rides first a1 k1).1.shape.rear
      unfold gap at hcl
      linarith
    obtain ⟨w', x', r, ht, g2, n2, s2, o2, hx2⟩ := const_run hu l (fun d hd => hpos d (by simp [hd])) g1 k1 hfront1 (by rw [hx1]; exact m2) (by rw [hx1]; exact m4)
    have ex : ∀ i ag, w.getAgent i = some ag → ∃ a1, w1.getAgent i = some a1 := by
      intro i ag hi
      refine Option.ne_none_iff_exists'.1 fun e => ?_
      rw [(n1 i).1 e] at hi; cases hi
    refine ⟨w', x', ?_, ?_, g2, fun i => (n2 i).trans (n1 i), ?_, ?_, ?_⟩
    · simp only [pedal, List.map_cons, drive, h1]
      exact r
    · rw [ht, (Loop.step_keeps _ h1).1, List.map_cons, List.sum_cons, add_assoc]
    · intro i ag a2 hi h2
      obtain ⟨b1, e1⟩ := ex i ag hi
      rw [s2 i b1 a2 e1 h2, s1 i ag b1 hi e1]
    · intro i j ai aj hi hj hne hle
      obtain ⟨ai', ei⟩ := ex i ai hi
      obtain ⟨aj', ej⟩ := ex j aj hj
      exact o2 i j ai' aj' ei ej hne (o1 i j ai aj hi hj hne hle)
    · rw [hx2, hx1]
      rfl

/-- **C224.** On a straight lane the vehicle ahead of all others is given an acceleration for every step, not below -5 m/s², that does not make it reverse, drive
faster than 50 m/s or leave the lane; the others drive with the classic IDM in its default configuration. Everyone has room to whoever is ahead and could stop
before it. Then after any number of steps of at most 0.2 s nothing went wrong, all are still there in the same order, the vehicle ahead is exactly where its
accelerations take it, any two again have room and could stop, no two bodies touch and no collision is reported. -/
theorem C224_behind {u : Setup Box Lane} {lane : Lane} {a b : Pt} (hu : Straight u lane a b) (first : Nat) {w : W Box} (hw : Props.WellFormed w)
    (hoff : w.removeAgents = false) (hmany : w.agents.length ≤ u.maxAgents + 1) (l : List (ℝ × ℝ)) (hpos : ∀ d ∈ l, 0 < d.1 ∧ d.1 ≤ 1 / 5) {x : Nat → ℝ × ℝ}
    (hride : ∀ i ag, w.getAgent i = some ag → Rides (straightAt a b) w.time (x i).1 (x i).2 ag ∧ 0 ≤ (x i).2 ∧ 0 ≤ (x i).1 ∧ (x i).1 ≤ pdist a b ∧
      (i ≠ first → (x i).2 ≤ 15 ∧ (l.map Prod.fst).sum / 20 ≤ (x i).1 ∧ (x i).1 + 16 * (l.map Prod.fst).sum ≤ pdist a b))
    (hclear : AllClear w x) (hthere : w.getAgent first ≠ none) (hfront : ∀ j aj, w.getAgent j = some aj → j ≠ first → (x j).1 < (x first).1)
    (h50 : (x first).2 ≤ 50) (hm : Moderate (pdist a b) l (x first)) :
    ∃ (w' : W Box) (x' : Nat → ℝ × ℝ), drive u (· == first) (l.map fun p => (p.1, constPlan u p.2)) w = .ok w' ∧ w'.time = w.time + (l.map Prod.fst).sum ∧
      (∀ i, w'.getAgent i = none ↔ w.getAgent i = none) ∧
      (∀ i a1, w'.getAgent i = some a1 → Rides (straightAt a b) w'.time (x' i).1 (x' i).2 a1 ∧ 0 ≤ (x' i).2 ∧ (i ≠ first → (x' i).2 ≤ 15)) ∧
      x' first = travel l (x first) ∧
      (∀ i j ai aj, w.getAgent i = some ai → w.getAgent j = some aj → i ≠ j → (x i).1 ≤ (x j).1 → (x' i).1 ≤ (x' j).1) ∧
      AllClear w' x' ∧
      (∀ i j ai aj t p θ v t' p' θ' v', w'.getAgent i = some ai → w'.getAgent j = some aj → i ≠ j → ai.currentState = .ok (t, p.1, p.2, θ, v) →
        aj.currentState = .ok (t', p'.1, p'.2, θ', v') → Disjoint (body ai.shape p θ) (body aj.shape p' θ')) ∧
      ∀ collide, Sound collide → Eval.collisionAgents (plug u) outline collide w' = .ok false := by
  obtain ⟨a0, ha0⟩ := Option.ne_none_iff_exists'.1 hthere
  have hfine : Fine u (· == first) (pdist a b) (straightAt a b) (l.map Prod.fst).sum w x := by
    refine ⟨hw, hoff, hmany, fun i ag hi => ?_, hclear⟩
    obtain ⟨r1, r2, r3, r4, r5⟩ := hride i ag hi
    exact ⟨r1, r2, r3, r4, fun hf => r5 (by simpa using hf)⟩
  obtain ⟨w', x', r, ht, g, n, -, o, hx⟩ := const_run (setting_straight hu) l hpos hfine ha0 hfront h50 hm
  obtain ⟨hbd, hn⟩ := no_contact (u := u) g.clear g.wf (fun i a1 hi => (g.rides i a1 hi).1)
  exact ⟨w', x', r, ht, n, fun i a1 hi => ⟨(g.rides i a1 hi).1, (g.rides i a1 hi).2.1, fun hne => ((g.rides i a1 hi).2.2.2.2 (by simpa using hne)).1⟩,
    hx, o, g.clear, hbd, hn⟩

/-- **C224** on any lane whose centre line does not meet itself, along the line -/
theorem C224_winding {u : Setup Box Lane} {lane : Lane} {pts : List Pt} (hu : Winding u lane pts) (first : Nat) {w : W Box} (hw : Props.WellFormed w)
    (hoff : w.removeAgents = false) (hmany : w.agents.length ≤ u.maxAgents + 1) (l : List (ℝ × ℝ)) (hpos : ∀ d ∈ l, 0 < d.1 ∧ d.1 ≤ 1 / 5) {x : Nat → ℝ × ℝ}
    (hride : ∀ i ag, w.getAgent i = some ag → Rides (alongAt pts) w.time (x i).1 (x i).2 ag ∧ 0 ≤ (x i).2 ∧ 0 ≤ (x i).1 ∧ (x i).1 ≤ Ln.length pts ∧
      (i ≠ first → (x i).2 ≤ 15 ∧ (l.map Prod.fst).sum / 20 ≤ (x i).1 ∧ (x i).1 + 16 * (l.map Prod.fst).sum ≤ Ln.length pts))
    (hclear : AllClear w x) (hthere : w.getAgent first ≠ none) (hfront : ∀ j aj, w.getAgent j = some aj → j ≠ first → (x j).1 < (x first).1)
    (h50 : (x first).2 ≤ 50) (hm : Moderate (Ln.length pts) l (x first)) :
    ∃ (w' : W Box) (x' : Nat → ℝ × ℝ), drive u (· == first) (l.map fun p => (p.1, constPlan u p.2)) w = .ok w' ∧ w'.time = w.time + (l.map Prod.fst).sum ∧
      (∀ i, w'.getAgent i = none ↔ w.getAgent i = none) ∧
      (∀ i a1, w'.getAgent i = some a1 → Rides (alongAt pts) w'.time (x' i).1 (x' i).2 a1 ∧ 0 ≤ (x' i).2 ∧ (i ≠ first → (x' i).2 ≤ 15)) ∧
      x' first = travel l (x first) ∧
      (∀ i j ai aj, w.getAgent i = some ai → w.getAgent j = some aj → i ≠ j → (x i).1 ≤ (x j).1 → (x' i).1 ≤ (x' j).1) ∧
      AllClear w' x' := by
  obtain ⟨a0, ha0⟩ := Option.ne_none_iff_exists'.1 hthere
  have hfine : Fine u (· == first) (Ln.length pts) (alongAt pts) (l.map Prod.fst).sum w x := by
    refine ⟨hw, hoff, hmany, fun i ag hi => ?_, hclear⟩
    obtain ⟨r1, r2, r3, r4, r5⟩ := hride i ag hi
    exact ⟨r1, r2, r3, r4, fun hf => r5 (by simpa using hf)⟩
  obtain ⟨w', x', r, ht, g, n, -, o, hx⟩ := const_run (setting_winding hu) l hpos hfine ha0 hfront h50 hm
  exact ⟨w', x', r, ht, n, fun i a1 hi => ⟨(g.rides i a1 hi).1, (g.rides i a1 hi).2.1, fun hne => ((g.rides i a1 hi).2.2.2.2 (by simpa using hne)).1⟩,
    hx, o, g.clear⟩

/-- a vehicle standing within the lane may stay there -/
theorem stays_moderate {L dt q : ℝ} (hq : q ≤ L) : ∀ n, Moderate L (List.replicate n (dt, 0)) (q, 0)
  | 0 => trivial
  | n + 1 => by
    refine ⟨by norm_num, by norm_num, by norm_num, by norm_num; exact hq, ?_⟩
    have : (q + 0 * dt + 0 * dt ^ 2 / 2, (0 : ℝ) + 0 * dt) = (q, 0) := by ext <;> dsimp only <;> ring
    dsimp only
    rw [this]
    exact stays_moderate hq n

/-- and stands there -/
theorem stays_travel {dt q : ℝ} : ∀ n, travel (List.replicate n (dt, 0)) (q, 0) = (q, 0)
  | 0 => rfl
  | n + 1 => by
    show travel (List.replicate n (dt, 0)) (q + 0 * dt + 0 * dt ^ 2 / 2, 0 + 0 * dt) = _
    have : (q + 0 * dt + 0 * dt ^ 2 / 2, (0 : ℝ) + 0 * dt) = (q, 0) := by ext <;> dsimp only <;> ring
    rw [this]
    exact stays_travel n

/-- two seconds of braking with 5 m/s², then nothing, in steps of 0.2 s -/
noncomputable def full (n : Nat) : List (ℝ × ℝ) := List.replicate 10 (1 / 5, -5) ++ List.replicate n (1 / 5, 0)

/-- the hypotheses are met: the vehicle ahead of two IDM vehicles drives 10 m/s, brakes with 5 m/s² to a standstill ten metres on and stays there; nobody hits it -/
example (n : Nat) (hn : n ≤ 190) : ∃ (w' : W ℝ) (x' : Nat → ℝ × ℝ),
    drive road zeroth ((full n).map fun p : ℝ × ℝ => (p.1, constPlan road p.2)) lead = .ok w' ∧
    w'.time = 2 + n / 5 ∧ x' 0 = (310, 0) ∧ (∀ i a1, w'.getAgent i = some a1 → Rides (straightAt (0, 0) (1000, 0)) w'.time (x' i).1 (x' i).2 a1) ∧
    ∀ collide, Sound collide → Eval.collisionAgents (plug road) outline collide w' = .ok false := by
  have hsum : ((full n).map Prod.fst).sum = 2 + (n : ℝ) / 5 := by
    unfold full
    rw [List.map_append, List.map_replicate, List.map_replicate, List.sum_append, List.sum_replicate, List.sum_replicate]
    simp only [nsmul_eq_mul]; push_cast; ring
  have hn' : (n : ℝ) ≤ 190 := by exact_mod_cast hn
  have hn0 : (0 : ℝ) ≤ n := Nat.cast_nonneg n
  obtain ⟨w', x', h1, h2, -, h4, h5, -, -, -, h3⟩ := C224_behind road_straight 0 lead_wf rfl (by decide) (full n)
    (by
      intro d hd
      unfold full at hd
      rcases List.mem_append.1 hd with h | h <;> rw [List.eq_of_mem_replicate h] <;> norm_num)
    (x := fun i => if i = 0 then (300, 10) else if i = 1 then (220, 15) else (215, 14))
    (by
      intro i ag h
      rw [hsum, road_len]
      rcases lead_get h with ⟨rfl, rfl⟩ | ⟨rfl, rfl⟩ | ⟨rfl, rfl⟩
      · exact ⟨mover_rides _ _ _, by norm_num, by norm_num, by norm_num, fun hne => absurd rfl hne⟩
      · exact ⟨mover_rides _ _ _, by norm_num, by norm_num, by norm_num, fun _ => ⟨by norm_num, by norm_num; linarith, by norm_num; linarith⟩⟩
      · exact ⟨mover_rides _ _ _, by norm_num, by norm_num, by norm_num, fun _ => ⟨by norm_num, by norm_num; linarith, by norm_num; linarith⟩⟩)
    (by
      intro i j ai aj hi hj hij hle
      rcases lead_get hi with ⟨rfl, rfl⟩ | ⟨rfl, rfl⟩ | ⟨rfl, rfl⟩ <;> rcases lead_get hj with ⟨rfl, rfl⟩ | ⟨rfl, rfl⟩ | ⟨rfl, rfl⟩ <;>
        first
        | exact absurd rfl hij
        | (norm_num at hle; done)
        | (unfold Loop.Spec.Clear gap mover block; norm_num))
    (fun h => by cases h)
    (by
      intro j aj hj hne
      rcases lead_get hj with ⟨rfl, rfl⟩ | ⟨rfl, rfl⟩ | ⟨rfl, rfl⟩
      · exact absurd rfl hne
      · norm_num
      · norm_num)
    (by norm_num)
    (by
      rw [road_len]
      have h := stays_moderate (L := 1000) (dt := 1 / 5) (q := 310) (by norm_num) n
      simp only [List.replicate_succ (n := 9), List.replicate_succ (n := 8), List.replicate_succ (n := 7), List.replicate_succ (n := 6), List.replicate_succ (n := 5),
        List.replicate_succ (n := 4), List.replicate_succ (n := 3), List.replicate_succ (n := 2), List.replicate_succ (n := 1), List.replicate_succ (n := 0),
        List.replicate_zero (a := ((1 / 5 : ℝ), (-5 : ℝ))), List.cons_append, List.nil_append, full, Moderate, if_true]
      norm_num
      norm_num at h
      exact h)
  refine ⟨w', x', h1, ?_, ?_, fun i a1 h => (h4 i a1 h).1, h3⟩
  · rw [h2, hsum]
    exact zero_add _
  · have h := stays_travel (dt := 1 / 5) (q := 310) n
    rw [h5]
    simp only [List.replicate_succ (n := 9), List.replicate_succ (n := 8), List.replicate_succ (n := 7), List.replicate_succ (n := 6), List.replicate_succ (n := 5),
      List.replicate_succ (n := 4), List.replicate_succ (n := 3), List.replicate_succ (n := 2), List.replicate_succ (n := 1), List.replicate_succ (n := 0),
      List.replicate_zero (a := ((1 / 5 : ℝ), (-5 : ℝ))), List.cons_append, List.nil_append, full, travel, if_true]
    norm_num
    norm_num at h
    exact h

/-- **C224, action.** The acceleration given is what the others see as its last action. -/
theorem C224_action {u : Setup Box Lane} {lane : Lane} {a b : Pt} (hu : Straight u lane a b) {foreign : Nat → Bool} {c : ℝ} {w w1 : W Box}
    (hw : Props.WellFormed w) (hoff : w.removeAgents = false) {dt : ℝ} (hdt : 0 < dt) (h : World.step (mixed u foreign (constPlan u c)) dt w = .ok w1) {i : Nat}
    (hF : foreign i = true) {s v : ℝ} {ag : Agent ℝ V5 CAcc.Act Beh (Res (Interp.Exec V5)) Shape.Poly} (hi : w.getAgent i = some ag)
    (hr : On (straightAt a b) (pdist a b) w.time s v ag)
    (hv : 0 ≤ v) (hv5 : v ≤ 50) (hv1 : 0 ≤ v + c * dt) (hv2 : v + c * dt ≤ 50) (h0 : 0 ≤ s + v * dt + c * dt ^ 2 / 2)
    (hL : s + v * dt + c * dt ^ 2 / 2 ≤ pdist a b) :
    ∃ a1, w1.getAgent i = some a1 ∧ a1.behavior.action = .continuous c ∧
      On (straightAt a b) (pdist a b) w1.time (s + v * dt + c * dt ^ 2 / 2) (v + c * dt) a1 := by
  obtain ⟨a1, k1, -, k3, k4⟩ := const_moves (setting_straight hu) hw hoff hdt h hF hi hr hv hv5 hv1 hv2 h0 hL
  exact ⟨a1, k1, k4, k3⟩

/-- everything is in order, and the vehicle ahead is far enough from the end of the lane for the others never to get there -/
structure Led (u : Setup Box Lane) (first : Nat) (L : ℝ) (At : ℝ → Pt → ℝ → Prop) (T : ℝ) (w : W Box) (x : Nat → ℝ × ℝ) : Prop where
  fine : Fine u (· == first) L At 0 w x
  late : ∀ j aj, w.getAgent j = some aj → j ≠ first → T / 20 ≤ (x j).1
  ahead : ∀ j aj, w.getAgent j = some aj → j ≠ first → (x j).1 < (x first).1
  room : (x first).1 ≤ L - 16 / 5

theorem led_run {u : Setup Box Lane} {lane : Lane} {L : ℝ} {At : ℝ → Pt → ℝ → Prop} (hu : Setting u lane L At) {first : Nat} :
    ∀ (l : List (ℝ × ℝ)) (_ : ∀ d ∈ l, 0 < d.1 ∧ d.1 ≤ 1 / 5) {w : W Box} {x : Nat → ℝ × ℝ} {a0}, Led u first L At (l.map Prod.fst).sum w x →
    w.getAgent first = some a0 → (x first).2 ≤ 50 → Moderate (L - 16 / 5) l (x first) →
    ∃ (w' : W Box) (x' : Nat → ℝ × ℝ), drive u (· == first) (pedal u l) w = .ok w' ∧ w'.time = w.time + (l.map Prod.fst).sum ∧ Led u first L At 0 w' x' ∧
      (∀ i, w'.getAgent i = none ↔ w.getAgent i = none) ∧
      (∀ i ag a1, w.getAgent i = some ag → w'.getAgent i = some a1 → a1.shape = ag.shape) ∧
      (∀ i j ai aj, w.getAgent i = some ai → w.getAgent j = some aj → i ≠ j → (x i).1 ≤ (x j).1 → (x' i).1 ≤ (x' j).1) ∧
      x' first = travel l (x first)
  | [], _, w, x, a0, hg, _, _, _ => by
    refine ⟨w, x, rfl, by simp, by simpa using hg, fun i => Iff.rfl, ?_, fun i j ai aj _ _ _ h => h, rfl⟩
    intro i ag a1 h1 h2
    rw [h1] at h2; cases h2; rfl
  | (dt, c) :: l, hpos, w, x, a0, hl, ha0, h50, hm => by
    obtain ⟨hg, hlate, hfront, hroom⟩ := hl
    obtain ⟨hc, m1, m2, m3, m4⟩ := hm
    obtain ⟨w1, h1', -⟩ := Props.apply_wf (mixed u (· == first) (constPlan u c)) hg.wf (World.Op.step dt) trivial
    have h1 : World.step (mixed u (· == first) (constPlan u c)) dt w = .ok w1 := h1'
    obtain ⟨hdt, hdt5⟩ := hpos (dt, c) (by simp)
    dsimp only at hdt hdt5
    have hsum : 0 ≤ (l.map Prod.fst).sum := List.sum_nonneg fun d hd => by
      obtain ⟨p, hp, rfl⟩ := List.mem_map.1 hd
      exact (hpos p (by simp [hp])).1.le
    rw [List.map_cons, List.sum_cons] at hlate
    have hg' : Fine u (· == first) L At (dt + 0) w x := by
      refine ⟨hg.wf, hg.off, hg.many, fun i ag hi => ?_, hg.clear⟩
      obtain ⟨r1, r2, r3, r4, r5⟩ := hg.rides i ag hi
      refine ⟨r1, r2, r3, r4, fun hF => ?_⟩
      have hne : i ≠ first := by simpa using hF
      have e1 := hlate i ag hi hne
      have e2 := hfront i ag hi hne
      dsimp only at e1
      exact ⟨(r5 hF).1, by linarith, by linarith⟩
    have hon : ∀ i ag, w.getAgent i = some ag → On At L w.time (x i).1 (x i).2 ag := fun i ag hi =>
      ⟨(hg.rides i ag hi).1, (hg.rides i ag hi).2.2.1, (hg.rides i ag hi).2.2.2.1⟩
    have huniq : ∀ {t s v s' v' : ℝ} {ag}, On At L t s v ag → On At L t s' v' ag → s = s' ∧ v = v' := fun h h' =>
      rides_unique hu h.1 h'.1 h.2.1 h.2.2 h'.2.1 h'.2.2
    have hv0 : 0 ≤ (x first).2 := (hg.rides first a0 ha0).2.1
    obtain ⟨hgen, hfwd⟩ := const_gentle (t := w.time) (s := (x first).1) hdt hv0 hc m1
    obtain ⟨a1, k1, k2, k3, -⟩ := const_moves hu hg.wf hg.off hdt h1 (i := first) (by simp) ha0 (hon first a0 ha0) hv0 h50 m1 m2
      ((hg.rides first a0 ha0).2.2.1.trans hfwd) (by linarith)
    have hd : Decent (· == first) At L dt w w1 := by
      intro i ag s v hF hi hr
      have hif : i = first := by simpa using hF
      subst hif
      rw [ha0] at hi; cases hi
      obtain ⟨e1, e2⟩ := huniq hr (hon i a0 ha0)
      subst e1 e2
      refine ⟨a1, _, _, k1, k2, k3, hgen, ?_⟩
      intro j aj sj vj aj1 sj1 vj1 hne hj hrj hle _ _
      rw [(huniq hrj (hon j aj hj)).1] at hle
      exact absurd (hfront j aj hj hne) (not_lt.2 hle)
    obtain ⟨x1, g1, n1, s1, o1⟩ := fine_step hu hg' hdt hdt5 (le_refl _) h1 hd
    have hx1 : x1 first = ((x first).1 + (x first).2 * dt + c * dt ^ 2 / 2, (x first).2 + c * dt) := by
      obtain ⟨e1, e2⟩ := huniq (ag := a1) ⟨(g1.rides first a1 k1).1, (g1.rides first a1 k1).2.2.1, (g1.rides first a1 k1).2.2.2.1⟩ k3
      exact Prod.ext e1 e2
    have hold : ∀ j aj1, w1.getAgent j = some aj1 → ∃ aj, w.getAgent j = some aj := fun j aj1 hj1 =>
      Option.ne_none_iff_exists'.1 fun e => by rw [(n1 j).2 e] at hj1; cases hj1
    have hfront1 : ∀ j aj, w1.getAgent j = some aj → j ≠ first → (x1 j).1 < (x1 first).1 := by
      intro j aj1 hj1 hne
      obtain ⟨aj, hj⟩ := hold j aj1 hj1
      have hle := o1 j first aj a0 hj ha0 hne (hfront j aj hj hne).le
      have hcl := (g1.clear j first aj1 a1 hj1 k1 hne hle).1
      have h2 := (g1.rides j aj1 hj1).1.shape.front
      have h3 := (g1.rides first a1 k1).1.shape.rear
      unfold gap at hcl
      linarith
    have hlate1 : ∀ j aj, w1.getAgent j = some aj → j ≠ first → (l.map Prod.fst).sum / 20 ≤ (x1 j).1 := by
      intro j aj1 hj1 hne
      obtain ⟨aj, hj⟩ := hold j aj1 hj1
      have hFj : (j == first) = false := by simpa using hne
      obtain ⟨z, ⟨b1, q1, -, q3⟩, -, -, -, q4, q5, -⟩ := fine_idm hu hg' hdt hdt5 (by linarith) h1 (i := j) hFj hj
      rw [hj1] at q1; cases q1
      obtain ⟨-, -, f3⟩ := (hg'.rides j aj hj).2.2.2.2 hFj
      obtain ⟨p1, -, p3, p4, -⟩ := g1.rides j aj1 hj1
      have hl := hlate j aj hj hne
      dsimp only at hl
      obtain ⟨e1, -⟩ := rides_unique hu p1 q3 p3 p4 (by linarith) (by linarith)
      rw [e1]
      linarith
    obtain ⟨w', x', r, ht, g2, n2, s2, o2, hx2⟩ := led_run hu l (fun d hd => hpos d (by simp [hd])) ⟨g1, hlate1, hfront1, by rw [hx1]; exact m3⟩ k1 (by rw [hx1]; exact m2)
      (by rw [hx1]; exact m4)
    have ex : ∀ i ag, w.getAgent i = some ag → ∃ a1, w1.getAgent i = some a1 := by
      intro i ag hi
      refine Option.ne_none_iff_exists'.1 fun e => ?_
      rw [(n1 i).1 e] at hi; cases hi
    refine ⟨w', x', ?_, ?_, g2, fun i => (n2 i).trans (n1 i), ?_, ?_, ?_⟩
    · simp only [pedal, List.map_cons, drive, h1]
      exact r
    · rw [ht, (Loop.step_keeps _ h1).1, List.map_cons, List.sum_cons, add_assoc]
    · intro i ag a2 hi h2
      obtain ⟨b1, e1⟩ := ex i ag hi
      rw [s2 i b1 a2 e1 h2, s1 i ag b1 hi e1]
    · intro i j ai aj hi hj hne hle
      obtain ⟨ai', ei⟩ := ex i ai hi
      obtain ⟨aj', ej⟩ := ex j aj hj
      exact o2 i j ai' aj' ei ej hne (o1 i j ai aj hi hj hne hle)
    · rw [hx2, hx1]
      rfl

/-- **C224, however long.** If the vehicle ahead stays at least 3.2 m before the end of the lane, the others need no room to the end of the lane, however long
the drive is (they may only not creep back to its beginning, by at most 5 cm per second). -/
theorem C224_long {u : Setup Box Lane} {lane : Lane} {a b : Pt} (hu : Straight u lane a b) (first : Nat) {w : W Box} (hw : Props.WellFormed w)
    (hoff : w.removeAgents = false) (hmany : w.agents.length ≤ u.maxAgents + 1) (l : List (ℝ × ℝ)) (hpos : ∀ d ∈ l, 0 < d.1 ∧ d.1 ≤ 1 / 5) {x : Nat → ℝ × ℝ}
    (hride : ∀ i ag, w.getAgent i = some ag → Rides (straightAt a b) w.time (x i).1 (x i).2 ag ∧ 0 ≤ (x i).2 ∧ 0 ≤ (x i).1 ∧
      (i ≠ first → (x i).2 ≤ 15 ∧ (l.map Prod.fst).sum / 20 ≤ (x i).1 ∧ (x i).1 < (x first).1))
    (hclear : AllClear w x) (hthere : w.getAgent first ≠ none) (hroom : (x first).1 ≤ pdist a b - 16 / 5)
    (h50 : (x first).2 ≤ 50) (hm : Moderate (pdist a b - 16 / 5) l (x first)) :
    ∃ (w' : W Box) (x' : Nat → ℝ × ℝ), drive u (· == first) (l.map fun p => (p.1, constPlan u p.2)) w = .ok w' ∧ w'.time = w.time + (l.map Prod.fst).sum ∧
      (∀ i, w'.getAgent i = none ↔ w.getAgent i = none) ∧
      (∀ i a1, w'.getAgent i = some a1 → Rides (straightAt a b) w'.time (x' i).1 (x' i).2 a1 ∧ 0 ≤ (x' i).2 ∧
        (i ≠ first → (x' i).2 ≤ 15 ∧ (x' i).1 < (x' first).1)) ∧
      x' first = travel l (x first) ∧
      (∀ i j ai aj, w.getAgent i = some ai → w.getAgent j = some aj → i ≠ j → (x i).1 ≤ (x j).1 → (x' i).1 ≤ (x' j).1) ∧
      AllClear w' x' ∧
      (∀ i j ai aj t p θ v t' p' θ' v', w'.getAgent i = some ai → w'.getAgent j = some aj → i ≠ j → ai.currentState = .ok (t, p.1, p.2, θ, v) →
        aj.currentState = .ok (t', p'.1, p'.2, θ', v') → Disjoint (body ai.shape p θ) (body aj.shape p' θ')) ∧
      ∀ collide, Sound collide → Eval.collisionAgents (plug u) outline collide w' = .ok false := by
  obtain ⟨a0, ha0⟩ := Option.ne_none_iff_exists'.1 hthere
  have hled : Led u first (pdist a b) (straightAt a b) (l.map Prod.fst).sum w x := by
    refine ⟨⟨hw, hoff, hmany, fun i ag hi => ?_, hclear⟩, fun j aj hj hne => ((hride j aj hj).2.2.2 hne).2.1, fun j aj hj hne => ((hride j aj hj).2.2.2 hne).2.2, hroom⟩
    obtain ⟨r1, r2, r3, r5⟩ := hride i ag hi
    have hle : (x i).1 ≤ pdist a b := by
      by_cases hne : i = first
      · subst hne; linarith
      · linarith [(r5 hne).2.2]
    refine ⟨r1, r2, r3, hle, fun hf => ?_⟩
    have hne : i ≠ first := by simpa using hf
    exact ⟨(r5 hne).1, by simpa using r3, by simpa using hle⟩
  obtain ⟨w', x', r, ht, g, n, -, o, hx⟩ := led_run (setting_straight hu) l hpos hled ha0 h50 hm
  obtain ⟨hbd, hn⟩ := no_contact (u := u) g.fine.clear g.fine.wf (fun i a1 hi => (g.fine.rides i a1 hi).1)
  exact ⟨w', x', r, ht, n, fun i a1 hi => ⟨(g.fine.rides i a1 hi).1, (g.fine.rides i a1 hi).2.1, fun hne =>
    ⟨((g.fine.rides i a1 hi).2.2.2.2 (by simpa using hne)).1, g.ahead i a1 hi hne⟩⟩, hx, o, g.fine.clear, hbd, hn⟩

/-- **C224, however long,** on any lane whose centre line does not meet itself, along the line -/
theorem C224_long_winding {u : Setup Box Lane} {lane : Lane} {pts : List Pt} (hu : Winding u lane pts) (first : Nat) {w : W Box} (hw : Props.WellFormed w)
    (hoff : w.removeAgents = false) (hmany : w.agents.length ≤ u.maxAgents + 1) (l : List (ℝ × ℝ)) (hpos : ∀ d ∈ l, 0 < d.1 ∧ d.1 ≤ 1 / 5) {x : Nat → ℝ × ℝ}
    (hride : ∀ i ag, w.getAgent i = some ag → Rides (alongAt pts) w.time (x i).1 (x i).2 ag ∧ 0 ≤ (x i).2 ∧ 0 ≤ (x i).1 ∧
      (i ≠ first → (x i).2 ≤ 15 ∧ (l.map Prod.fst).sum / 20 ≤ (x i).1 ∧ (x i).1 < (x first).1))
    (hclear : AllClear w x) (hthere : w.getAgent first ≠ none) (hroom : (x first).1 ≤ Ln.length pts - 16 / 5)
    (h50 : (x first).2 ≤ 50) (hm : Moderate (Ln.length pts - 16 / 5) l (x first)) :
    ∃ (w' : W Box) (x' : Nat → ℝ × ℝ), drive u (· == first) (l.map fun p => (p.1, constPlan u p.2)) w = .ok w' ∧ w'.time = w.time + (l.map Prod.fst).sum ∧
      (∀ i, w'.getAgent i = none ↔ w.getAgent i = none) ∧
      (∀ i a1, w'.getAgent i = some a1 → Rides (alongAt pts) w'.time (x' i).1 (x' i).2 a1 ∧ 0 ≤ (x' i).2 ∧
        (i ≠ first → (x' i).2 ≤ 15 ∧ (x' i).1 < (x' first).1)) ∧
      x' first = travel l (x first) ∧
      (∀ i j ai aj, w.getAgent i = some ai → w.getAgent j = some aj → i ≠ j → (x i).1 ≤ (x j).1 → (x' i).1 ≤ (x' j).1) ∧
      AllClear w' x' := by
  obtain ⟨a0, ha0⟩ := Option.ne_none_iff_exists'.1 hthere
  have hled : Led u first (Ln.length pts) (alongAt pts) (l.map Prod.fst).sum w x := by
    refine ⟨⟨hw, hoff, hmany, fun i ag hi => ?_, hclear⟩, fun j aj hj hne => ((hride j aj hj).2.2.2 hne).2.1, fun j aj hj hne => ((hride j aj hj).2.2.2 hne).2.2, hroom⟩
    obtain ⟨r1, r2, r3, r5⟩ := hride i ag hi
    have hle : (x i).1 ≤ Ln.length pts := by
      by_cases hne : i = first
      · subst hne; linarith
      · linarith [(r5 hne).2.2]
    refine ⟨r1, r2, r3, hle, fun hf => ?_⟩
    have hne : i ≠ first := by simpa using hf
    exact ⟨(r5 hne).1, by simpa using r3, by simpa using hle⟩
  obtain ⟨w', x', r, ht, g, n, -, o, hx⟩ := led_run (setting_winding hu) l hpos hled ha0 h50 hm
  exact ⟨w', x', r, ht, n, fun i a1 hi => ⟨(g.fine.rides i a1 hi).1, (g.fine.rides i a1 hi).2.1, fun hne =>
    ⟨((g.fine.rides i a1 hi).2.2.2.2 (by simpa using hne)).1, g.ahead i a1 hi hne⟩⟩, hx, o, g.fine.clear⟩

/-- the hypotheses are met for more than an hour: the two behind the standing vehicle never get past it -/
example (n : Nat) (hn : n ≤ 21000) : ∃ (w' : W ℝ) (x' : Nat → ℝ × ℝ),
    drive road zeroth ((full n).map fun p : ℝ × ℝ => (p.1, constPlan road p.2)) lead = .ok w' ∧
    w'.time = 2 + n / 5 ∧ x' 0 = (310, 0) ∧ (∀ i a1, w'.getAgent i = some a1 → Rides (straightAt (0, 0) (1000, 0)) w'.time (x' i).1 (x' i).2 a1) ∧ (∀ i, i ≠ 0 → w'.getAgent i ≠ none → (x' i).1 < 310) ∧
    ∀ collide, Sound collide → Eval.collisionAgents (plug road) outline collide w' = .ok false := by
  have hsum : ((full n).map Prod.fst).sum = 2 + (n : ℝ) / 5 := by
    unfold full
    rw [List.map_append, List.map_replicate, List.map_replicate, List.sum_append, List.sum_replicate, List.sum_replicate]
    simp only [nsmul_eq_mul]; push_cast; ring
  have hn' : (n : ℝ) ≤ 21000 := by exact_mod_cast hn
  have hn0 : (0 : ℝ) ≤ n := Nat.cast_nonneg n
  obtain ⟨w', x', h1, h2, -, h4, h5, -, -, -, h3⟩ := C224_long road_straight 0 lead_wf rfl (by decide) (full n)
    (by
      intro d hd
      unfold full at hd
      rcases List.mem_append.1 hd with h | h <;> rw [List.eq_of_mem_replicate h] <;> norm_num)
    (x := fun i => if i = 0 then (300, 10) else if i = 1 then (220, 15) else (215, 14))
    (by
      intro i ag h
      rw [hsum]
      rcases lead_get h with ⟨rfl, rfl⟩ | ⟨rfl, rfl⟩ | ⟨rfl, rfl⟩
      · exact ⟨mover_rides _ _ _, by norm_num, by norm_num, fun hne => absurd rfl hne⟩
      · exact ⟨mover_rides _ _ _, by norm_num, by norm_num, fun _ => ⟨by norm_num, by norm_num; linarith, by norm_num⟩⟩
      · exact ⟨mover_rides _ _ _, by norm_num, by norm_num, fun _ => ⟨by norm_num, by norm_num; linarith, by norm_num⟩⟩)
    (by
      intro i j ai aj hi hj hij hle
      rcases lead_get hi with ⟨rfl, rfl⟩ | ⟨rfl, rfl⟩ | ⟨rfl, rfl⟩ <;> rcases lead_get hj with ⟨rfl, rfl⟩ | ⟨rfl, rfl⟩ | ⟨rfl, rfl⟩ <;>
        first
        | exact absurd rfl hij
        | (norm_num at hle; done)
        | (unfold Loop.Spec.Clear gap mover block; norm_num))
    (fun h => by cases h)
    (by rw [road_len]; norm_num)
    (by norm_num)
    (by
      rw [road_len]
      have h := stays_moderate (L := 1000 - 16 / 5) (dt := 1 / 5) (q := 310) (by norm_num) n
      simp only [List.replicate_succ (n := 9), List.replicate_succ (n := 8), List.replicate_succ (n := 7), List.replicate_succ (n := 6), List.replicate_succ (n := 5),
        List.replicate_succ (n := 4), List.replicate_succ (n := 3), List.replicate_succ (n := 2), List.replicate_succ (n := 1), List.replicate_succ (n := 0),
        List.replicate_zero (a := ((1 / 5 : ℝ), (-5 : ℝ))), List.cons_append, List.nil_append, full, Moderate, if_true]
      norm_num
      norm_num at h
      exact h)
  have h310 : x' 0 = (310, 0) := by
    have h := stays_travel (dt := 1 / 5) (q := 310) n
    rw [h5]
    simp only [List.replicate_succ (n := 9), List.replicate_succ (n := 8), List.replicate_succ (n := 7), List.replicate_succ (n := 6), List.replicate_succ (n := 5),
      List.replicate_succ (n := 4), List.replicate_succ (n := 3), List.replicate_succ (n := 2), List.replicate_succ (n := 1), List.replicate_succ (n := 0),
      List.replicate_zero (a := ((1 / 5 : ℝ), (-5 : ℝ))), List.cons_append, List.nil_append, full, travel, if_true]
    norm_num
    norm_num at h
    exact h
  refine ⟨w', x', h1, ?_, h310, fun i a1 h => (h4 i a1 h).1, fun i hne hi => ?_, h3⟩
  · rw [h2, hsum]
    exact zero_add _
  · obtain ⟨a1, ha1⟩ := Option.ne_none_iff_exists'.1 hi
    have h := ((h4 i a1 ha1).2.2 hne).2
    rw [h310] at h
    exact h

/-- **C224, off the lanes.** Where the roads give no lane corridor the vehicle leaves the simulation with the step, if it is active. -/
theorem C224_off_lane {u : Setup Box Lane} {foreign : Nat → Bool} {c : ℝ} {w w1 : W Box} (hw : Props.WellFormed w) {dt : ℝ}
    (h : World.step (mixed u foreign (constPlan u c)) dt w = .ok w1) {i : Nat} (hF : foreign i = true)
    {ag : Agent ℝ V5 CAcc.Act Beh (Res (Interp.Exec V5)) Shape.Poly} (hi : w.getAgent i = some ag) (hin : ag.firstValid ≤ w.time) {t px py θ v : ℝ}
    (hcur : ag.currentState = .ok (t, px, py, θ, v)) (hoff : u.corridor (px, py) = none) : w1.getAgent i = none := by
  obtain ⟨o, index, x, -, -, f3, -⟩ := step_full (mixed u foreign (constPlan u c)) hw h hi
  refine f3 (Or.inl ?_)
  have hobs : ((mixed u foreign (constPlan u c)).observe o { w with rtree := index } i).2 = { w with rtree := index } := rfl
  have hi' : World.getAgent { w with rtree := index } i = some ag := hi
  have hplan : (mixed u foreign (constPlan u c)).plan ag.behavior dt { w with rtree := index } i = ⟨.expired, ag.behavior.traj, ag.behavior.action⟩ := by
    show (if foreign i = true then constPlan u c ag.behavior dt { w with rtree := index } i else _) = _
    rw [if_pos hF]
    unfold constPlan
    rw [hi']; dsimp only
    rw [hcur]; dsimp only
    have : u.corridor ((entries (t, px, py, θ, v)).x, (entries (t, px, py, θ, v)).y) = none := hoff
    rw [this]
  have hact : ag.firstValid ≤ w.time + 1 / 2 ^ 52 := by
    have : (0 : ℝ) < 1 / 2 ^ 52 := by positivity
    linarith
  unfold Bark.Spec.planned
  rw [if_pos hact, hobs, hplan]
  rfl

open Classical in
/-- the hypotheses are met: one metre after the end of the road -/
example (c : ℝ) : ∃ w1 : W ℝ, World.step (mixed { road with corridor := fun p => if p.1 ≤ 1000 then some () else none } zeroth
    (constPlan { road with corridor := fun p => if p.1 ≤ 1000 then some () else none } c)) (1 / 5) (traffic [(0, mover 0 1001 10)]) = .ok w1 ∧ w1.getAgent 0 = none := by
  have hwf : Props.WellFormed (traffic [(0, mover 0 1001 10)]) := by
    refine ⟨by simp [OMap.Sorted, traffic], ?_, by simp [traffic]⟩
    intro id a h
    have hm := OMap.find_some_mem h
    simp only [traffic, List.mem_cons, List.not_mem_nil, or_false, Prod.mk.injEq] at hm
    obtain ⟨rfl, rfl⟩ := hm
    simp [mover]
  obtain ⟨w1, h1', -⟩ := Props.apply_wf (mixed { road with corridor := fun p => if p.1 ≤ 1000 then some () else none } zeroth
    (constPlan { road with corridor := fun p => if p.1 ≤ 1000 then some () else none } c)) hwf (World.Op.step (1 / 5)) trivial
  refine ⟨w1, h1', C224_off_lane hwf h1' (i := 0) rfl (ag := mover 0 1001 10) rfl (le_refl _) (t := 0) (px := 1001) (py := 0) (θ := 0) (v := 10) rfl ?_⟩
  show (if (1001 : ℝ) ≤ 1000 then some () else none) = none
  rw [if_neg (by norm_num)]

/-- the limit of -5 m/s² is needed: with -75 m/s² for one step of 0.2 s (from 15 m/s to a standstill, without reversing) the IDM vehicle that follows one metre
behind and was clear of it is inside the vehicle ahead -/
theorem C224_too_hard : ∃ (w1 : W ℝ) (a0 a1 : Agent ℝ V5 CAcc.Act Beh (Res (Interp.Exec V5)) Shape.Poly) (s1 v1 : ℝ),
    AllClear tail (fun i => if i = 0 then (200, 15) else (198, 15)) ∧ drive road zeroth [(1 / 5, constPlan road (-75))] tail = .ok w1 ∧
    w1.getAgent 0 = some a0 ∧ w1.getAgent 1 = some a1 ∧ Rides (straightAt (0, 0) (1000, 0)) w1.time (201 + 1 / 2) 0 a0 ∧
    Rides (straightAt (0, 0) (1000, 0)) w1.time s1 v1 a1 ∧ gap a1.shape a0.shape s1 (201 + 1 / 2) < 0 := by
  have hclear : AllClear tail (fun i => if i = 0 then (200, 15) else (198, 15)) := by
    intro i j ai aj hi hj hij hle
    rcases tail_get hi with ⟨rfl, rfl⟩ | ⟨rfl, rfl⟩ <;> rcases tail_get hj with ⟨rfl, rfl⟩ | ⟨rfl, rfl⟩ <;>
      first
      | exact absurd rfl hij
      | (norm_num at hle; done)
      | (unfold Loop.Spec.Clear gap mover block; norm_num)
  obtain ⟨w1, h1', -⟩ := Props.apply_wf (mixed road zeroth (constPlan road (-75))) tail_wf (World.Op.step (1 / 5)) trivial
  have h1 : World.step (mixed road zeroth (constPlan road (-75))) (1 / 5) tail = .ok w1 := h1'
  obtain ⟨a0, k1, k2, ⟨k3, -, -⟩, -⟩ := const_moves (setting_straight road_straight) tail_wf rfl (by norm_num) h1 (i := 0) rfl (s := 200) (v := 15) (ag := mover 0 200 15) rfl
    ⟨mover_rides 0 200 15, by norm_num, by rw [road_len]; norm_num⟩ (by norm_num) (by norm_num) (by norm_num) (by norm_num) (by norm_num)
    (by rw [road_len]; norm_num)
  rw [show (200 : ℝ) + 15 * (1 / 5) + -75 * (1 / 5) ^ 2 / 2 = 201 + 1 / 2 by norm_num, show (15 : ℝ) + -75 * (1 / 5) = 0 by norm_num] at k3
  have hfine : Fine road zeroth (pdist (0, 0) (1000, 0)) (straightAt (0, 0) (1000, 0)) (1 / 5) tail (fun i => if i = 0 then (200, 15) else (198, 15)) := by
    refine ⟨tail_wf, rfl, by decide, fun i ag h => ?_, hclear⟩
    rw [road_len]
    rcases tail_get h with ⟨rfl, rfl⟩ | ⟨rfl, rfl⟩
    · exact ⟨mover_rides _ _ _, by norm_num, by norm_num, by norm_num, fun _ => ⟨by norm_num, by norm_num, by norm_num⟩⟩
    · exact ⟨mover_rides _ _ _, by norm_num, by norm_num, by norm_num, fun _ => ⟨by norm_num, by norm_num, by norm_num⟩⟩
  obtain ⟨z, ⟨a1, m1, m2, m3⟩, -, -, ⟨m4, -⟩, -⟩ := fine_idm (setting_straight road_straight) hfine (by norm_num) (by norm_num) (le_refl _) h1 (i := 1) rfl (ag := mover 1 198 15) rfl
  refine ⟨w1, a0, a1, z.1, z.2, hclear, ?_, k1, m1, k3, m3, ?_⟩
  · unfold drive
    rw [h1]
    rfl
  · rw [m2, k2]
    have : (Loop.brk (1 / 5 / 10) 10 198 15).1 = 198 + 29 / 10 := by
      norm_num [Loop.brk]
    have m4' : (Loop.brk (1 / 5 / 10) 10 198 15).1 ≤ z.1 := m4
    rw [this] at m4'
    unfold gap mover block
    dsimp only
    linarith

end Bark.Mix
