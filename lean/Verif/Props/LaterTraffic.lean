import Verif.Props.Later
import Verif.Spec.LaterTraffic
import Verif.Props.TrafficRun

/-! C215 for traffic of the classic IDM. -/
namespace Bark.Later
open Bark Bark.Ln Bark.Flow

variable {Box Lane : Type} {τ : ℝ}

/-! ### executing a trajectory -/

local notation "tm" => LinearMap.fst ℝ ℝ (ℝ × ℝ × ℝ × ℝ)

theorem tm_row (x : V5) : tm (row τ x) = tm x + τ := rfl

theorem within_later (l : List V5) (t : ℝ) : Interp.withinTrajectory tm (l.map (row τ)) (t + τ) = Interp.withinTrajectory tm l t := by
  unfold Interp.withinTrajectory
  simp only [List.head?_map, List.getLast?_map]
  cases l.head? with
  | none => rfl
  | some a =>
    cases l.getLast? with
    | none => rfl
    | some b =>
      simp only [Option.map_some, tm_row, add_right_comm t τ, add_lt_add_iff_right, show t + τ - Interp.delta = t - Interp.delta + τ by ring]

theorem exact_later (l : List V5) (t : ℝ) : Interp.findExact tm (l.map (row τ)) (t + τ) = (Interp.findExact tm l t).map (row τ) := by
  unfold Interp.findExact
  simp only [List.head?_map, List.getLast?_map, List.length_map]
  cases l.head? with
  | none => rfl
  | some a =>
    cases l.getLast? with
    | none => rfl
    | some b =>
      simp only [Option.map_some, tm_row, add_sub_add_right_eq_sub]
      split_ifs
      · rw [← List.map_drop, ← List.map_reverse, List.find?_map]
        simp only [Function.comp_def, tm_row, add_sub_add_right_eq_sub]
      · rw [← List.map_take, List.find?_map]
        simp only [Function.comp_def, tm_row, add_sub_add_right_eq_sub]

theorem interpolate_later (p q : V5) (t : ℝ) : Interp.interpolate tm (row τ p) (row τ q) (t + τ) = (Interp.interpolate tm p q t).map (row τ) := by
  unfold Interp.interpolate
  simp only [tm_row, add_sub_add_right_eq_sub]
  split_ifs
  · rfl
  · simp only [Option.map_some, Option.some.injEq]
    generalize |(t - tm p) / (tm q - tm p)| = c
    unfold row
    ext <;> simp
    ring

theorem execute_exec (e : Interp.Exec V5) (t : ℝ) (l : List V5) :
    Interp.execute tm ⟨e.state.map (row τ), e.traj.map (row τ), e.status⟩ (t + τ) (l.map (row τ)) = exec τ (Interp.execute tm e t l) := by
  unfold Interp.execute
  dsimp only
  split_ifs with h
  · rfl
  · rw [within_later]
    cases Interp.withinTrajectory tm l t with
    | error f => rfl
    | ok b =>
      simp only [bind, Except.bind]
      cases b
      · rfl
      · simp only [Bool.not_true, Bool.false_eq_true, if_false]
        rw [exact_later]
        cases Interp.findExact tm l t with
        | some r => rfl
        | none =>
          simp only [Option.map_none]
          unfold Interp.executeInterp Interp.findLower
          rw [List.findIdx?_map]
          simp only [Function.comp_def, tm_row, add_le_add_iff_right]
          cases List.findIdx? (fun r : V5 => decide (tm r ≤ t)) l with
          | none => rfl
          | some i =>
            simp only [List.getElem?_map]
            cases l[i]? with
            | none => rfl
            | some p =>
              cases l[i + 1]? with
              | none => rfl
              | some q =>
                simp only [Option.map_some, interpolate_later]
                rfl

theorem carry_later (t : ℝ) (l : Res (List V5)) (e : Res (Interp.Exec V5)) :
    Loop.carryOut tm (t + τ) (l.map (List.map (row τ))) (exec τ e) = exec τ (Loop.carryOut tm t l e) := by
  unfold Loop.carryOut
  cases e with
  | error f => rfl
  | ok e =>
    cases l with
    | error f => rfl
    | ok l => exact execute_exec e t l

/-! ### what a vehicle reacts to -/

theorem frenet_row (l : Line) (x : V5) : frenetOf l (row τ x) = frenetOf l x := rfl

local notation "ag" => agent τ (row τ) (beh τ) (exec τ)
local notation "wd" => world τ (row τ) (beh τ) (exec τ)

theorem hits_seen (u : Setup Box Lane) (w : W Box) (hits : List (Box × Nat)) :
    World.collectHits (queries u) (fun _ => true) (wd w) hits =
      (World.collectHits (queries u) (fun _ => true) w hits).map (fun m => m.map (fun p => (p.1, ag p.2))) := by
  induction hits with
  | nil => rfl
  | cons q hits ih =>
    unfold World.collectHits
    rw [show (wd w).getAgent q.2 = (w.getAgent q.2).map ag from find_later w.agents q.2, ih]
    cases w.getAgent q.2 with
    | none => rfl
    | some a =>
      simp only [Option.map_some]
      cases World.collectHits (queries u) (fun _ => true) w hits with
      | error f => rfl
      | ok m =>
        simp only [bind, Except.bind, Except.map]
        rw [show (ag a).isValidAtTime (wd w).time = a.isValidAtTime w.time from valid_later a w.time,
          show (queries u).status (ag a).behavior = (queries u).status a.behavior from rfl]
        split_ifs
        · simp only [insert_later]
        · rfl

/-- the result of a front/rear search `τ` later -/
noncomputable def fr (σ : ℝ) (x : FrontRear ℝ V5 CAcc.Act Beh (Res (Interp.Exec V5)) Shape.Poly) : FrontRear ℝ V5 CAcc.Act Beh (Res (Interp.Exec V5)) Shape.Poly :=
  ⟨(x.front.1.map (agent σ (row σ) (beh σ) (exec σ)), x.front.2), (x.rear.1.map (agent σ (row σ) (beh σ) (exec σ)), x.rear.2)⟩

theorem body_seen (u : Setup Box Lane) (thr : FRParams ℝ) (t : ℝ) (lane : Lane) (ego : Nat) (x : V5) (sh : Shape.Poly)
    (acc : FrontRear ℝ V5 CAcc.Act Beh (Res (Interp.Exec V5)) Shape.Poly) (a : Agent ℝ V5 CAcc.Act Beh (Res (Interp.Exec V5)) Shape.Poly) :
    frBody (queries u) (geo u) thr (t + τ) lane ego (row τ x) sh (fr τ acc) (ag a) = (frBody (queries u) (geo u) thr t lane ego x sh acc a).map (fr τ) := by
  unfold frBody
  rw [valid_later, current_later, show (queries u).status (ag a).behavior = (queries u).status a.behavior from rfl, show (ag a).id = a.id from rfl]
  by_cases h : (decide (a.id = ego) || decide ((queries u).status a.behavior ≠ .valid) || a.isValidAtTime t == false) = true
  · rw [if_pos h, if_pos h]; rfl
  · rw [if_neg h, if_neg h]
    cases a.currentState with
    | error f => rfl
    | ok s =>
      rw [show Except.map (ε := Fault) (row τ) (Except.ok s) = .ok (row τ s) from rfl]
      dsimp only
      rw [show frDiff (geo u) lane (row τ x) sh (row τ s) (ag a) = frDiff (geo u) lane x sh s a from rfl,
        show (geo u).frenet lane (row τ s) = (geo u).frenet lane s from rfl]
      generalize frDiff (geo u) lane x sh s a = d
      rw [show (fr τ acc).front.2 = acc.front.2 from rfl, show (fr τ acc).rear.2 = acc.rear.2 from rfl]
      split_ifs <;> rfl

theorem loop_seen (u : Setup Box Lane) (thr : FRParams ℝ) (t : ℝ) (lane : Lane) (ego : Nat) (x : V5) (sh : Shape.Poly)
    (m : List (Nat × Agent ℝ V5 CAcc.Act Beh (Res (Interp.Exec V5)) Shape.Poly)) (acc : FrontRear ℝ V5 CAcc.Act Beh (Res (Interp.Exec V5)) Shape.Poly) :
    frLoop (queries u) (geo u) thr (t + τ) lane ego (row τ x) sh (m.map (fun p => (p.1, ag p.2))) (fr τ acc) =
      (frLoop (queries u) (geo u) thr t lane ego x sh m acc).map (fr τ) := by
  induction m generalizing acc with
  | nil => rfl
  | cons q m ih =>
    simp only [List.map_cons, frLoop]
    rw [body_seen]
    cases frBody (queries u) (geo u) thr t lane ego x sh acc q.2 with
    | error f => rfl
    | ok acc' => exact ih acc'

theorem search_later {u : Setup Box Lane} (hu : NoClock u) (thr : FRParams ℝ) (n : Nat) (lane : Option Lane) (ego : Nat) (w : W Box) :
    getAgentFrontRear (queries u) (geo u) thr n false lane ego (wd w) = (getAgentFrontRear (queries u) (geo u) thr n false lane ego w).map (fr τ) := by
  unfold getAgentFrontRear
  have e1 : frConsidered (queries u) (geo u) n false lane ego (wd w) =
      (frConsidered (queries u) (geo u) n false lane ego w).map (fun m => m.map (fun p => (p.1, ag p.2))) := by
    unfold frConsidered
    rw [if_neg (by simp), if_neg (by simp), show (wd w).getAgent ego = (w.getAgent ego).map ag from find_later w.agents ego]
    cases w.getAgent ego with
    | none => rfl
    | some a =>
      simp only [Option.map_some, current_later]
      cases a.currentState with
      | error f => rfl
      | ok s =>
        show World.collectHits (queries u) _ (wd w) (u.nearest (row τ s) (n + 1) w.rtree) = (World.collectHits (queries u) _ w (u.nearest s (n + 1) w.rtree)).map _
        rw [show u.nearest (row τ s) = u.nearest s from hu.nearest _ _ _]
        exact hits_seen u w _
  rw [e1]
  cases frConsidered (queries u) (geo u) n false lane ego w with
  | error f => rfl
  | ok m =>
    simp only [bind, Except.bind, Except.map]
    unfold frFrom
    rw [show (m.map (fun p => (p.1, ag p.2))).isEmpty = m.isEmpty by cases m <;> rfl,
      show (wd w).getAgent ego = (w.getAgent ego).map ag from find_later w.agents ego]
    split_ifs
    · rfl
    · cases w.getAgent ego with
      | none => rfl
      | some a =>
        cases lane with
        | none => rfl
        | some l =>
          simp only [Option.map_some, current_later]
          cases a.currentState with
          | error f => rfl
          | ok s => exact loop_seen (τ := τ) u thr w.time l ego s a.shape m ⟨(none, FDiff.default (geo u).big), (none, FDiff.default (geo u).big)⟩

theorem rel_later {u : Setup Box Lane} (hu : NoClock u) (len : ℝ) (lane : Lane) (ego : Nat) (act : CAcc.Act) (w : W Box) :
    Lead.observedRel (queries u) (geo u) u.thr u.maxAgents u.idm.coolness u.laneEnd len lane ego act (wd w) =
      Lead.observedRel (queries u) (geo u) u.thr u.maxAgents u.idm.coolness u.laneEnd len lane ego act w := by
  unfold Lead.observedRel
  rw [search_later hu]
  cases getAgentFrontRear (queries u) (geo u) u.thr u.maxAgents false (some lane) ego w with
  | error f => rfl
  | ok x =>
    simp only [Except.map]
    congr 1
    obtain ⟨⟨f, d⟩, r⟩ := x
    cases f with
    | none => rfl
    | some a =>
      unfold Lead.leader
      simp only [fr, Option.map_some]
      rw [show (ag a).history = a.history.map (fun p => (row τ p.1, p.2)) from rfl, List.getLast?_map]
      cases a.history.getLast? <;> rfl

/-! ### the trajectory -/

theorem genLoop_later (p : Idm.Params) (r : Idm.Rel) (start dt v0 : ℝ) (n i : Nat) (s v rel : ℝ) :
    Idm.genLoop p r (start + τ) dt v0 n i s v rel = (Idm.genLoop p r start dt v0 n i s v rel).map (List.map (fun x => (x.1, ⟨x.2.t + τ, x.2.s, x.2.v⟩))) := by
  induction n generalizing i s v rel with
  | zero => rfl
  | succ n ih =>
    unfold Idm.genLoop
    cases Idm.totalAcc p r v0 rel with
    | error f => rfl
    | ok a =>
      cases a with
      | fin acc =>
        dsimp only
        rw [ih]
        cases Idm.genLoop p r start dt v0 n (i + 1) (s + (1 / 2 * acc * dt * dt + v * dt)) (max (min (v + acc * dt) p.maxVel) p.minVel) (Idm.nextDist r v0 rel acc dt) with
        | error f => rfl
        | ok l => simp only [Except.map, List.map_cons, add_assoc]
      | _ => rfl

theorem planars_later (l : Line) (rows : List (ℝ × Idm.Row)) :
    Pick.planars l (rows.map (fun x => (x.1, ⟨x.2.t + τ, x.2.s, x.2.v⟩))) =
      (Pick.planars l rows).map (List.map (fun x => ⟨x.time + τ, x.x, x.y, x.theta, x.vel⟩)) := by
  induction rows with
  | nil => rfl
  | cons r rows ih =>
    simp only [List.map_cons, Pick.planars, ih]
    unfold Pick.planar
    dsimp only
    cases pointAtS l r.2.s with
    | error f => rfl
    | ok p =>
      cases tangentAngleAtS l r.2.s with
      | error f => rfl
      | ok th =>
        cases Pick.planars l rows <;> rfl

theorem classic_later (p : Idm.Params) (l : Line) (r : Idm.Rel) (start dt : ℝ) (x : V5) :
    Pick.classic p l r (start + τ) dt (entries (row τ x)) =
      (Pick.classic p l r start dt (entries x)).map (List.map (fun x => ⟨x.time + τ, x.x, x.y, x.theta, x.vel⟩)) := by
  unfold Pick.classic
  rw [show ((entries (row τ x)).x, (entries (row τ x)).y) = ((entries x).x, (entries x).y) from rfl, show (entries (row τ x)).vel = (entries x).vel from rfl]
  split_ifs
  · rfl
  · cases nearestS l ((entries x).x, (entries x).y) with
    | error f => rfl
    | ok s =>
      dsimp only
      unfold Idm.generate
      rw [genLoop_later]
      cases Idm.genLoop p r start dt (entries x).vel (p.numPoints - 1) 1 s (entries x).vel r.distance with
      | error f => rfl
      | ok rows =>
        simp only [Except.map]
        rw [planars_later]
        cases Pick.planars l rows <;> rfl

theorem generate_later (u : Setup Box Lane) (l : Line) (r : Idm.Rel) (start dt : ℝ) (x : V5) :
    generate u l r (start + τ) dt (entries (row τ x)) = (generate u l r start dt (entries x)).map (fun q => (q.1.map (List.map (row τ)), q.2)) := by
  unfold generate
  rw [classic_later, show ((entries (row τ x)).x, (entries (row τ x)).y) = ((entries x).x, (entries x).y) from rfl,
    show (entries (row τ x)).vel = (entries x).vel from rfl]
  cases Pick.classic u.idm l r start (Idm.stepSize u.idm dt) (entries x) with
  | error f => rfl
  | ok tr =>
    simp only [Except.map]
    cases nearestS l ((entries x).x, (entries x).y) with
    | error f => rfl
    | ok s =>
      dsimp only
      unfold Idm.generate
      rw [genLoop_later]
      cases Idm.genLoop u.idm r start (Idm.stepSize u.idm dt) (entries x).vel (u.idm.numPoints - 1) 1 s (entries x).vel r.distance with
      | error f => rfl
      | ok rows =>
        simp only [Except.map, List.map_map]
        rfl

theorem planFrom_later {u : Setup Box Lane} (hu : NoClock u) (w : W Box) (ego : Nat) (dt : ℝ) (sh : Shape.Poly) (x : V5) (b : Beh) :
    planFrom u (wd w) ego dt sh (row τ x) (beh τ b) = beh τ (planFrom u w ego dt sh x b) := by
  unfold planFrom
  rw [show ((entries (row τ x)).x, (entries (row τ x)).y) = ((entries x).x, (entries x).y) from rfl]
  unfold Pick.plan
  cases u.corridor ((entries x).x, (entries x).y) with
  | none => rfl
  | some c =>
    simp only [Pick.reaction, rel_later hu]
    rw [show (beh τ b).action = b.action from rfl]
    cases Lead.observedRel (queries u) (geo u) u.thr u.maxAgents u.idm.coolness u.laneEnd (u.lengthLeft c ((entries x).x, (entries x).y)) c ego b.action w with
    | error f => rfl
    | ok r =>
      dsimp only
      rw [show (wd w).time = w.time + τ from rfl, generate_later]
      cases generate u (u.roads.line c) r w.time dt (entries x) with
      | error f => rfl
      | ok q => rfl

theorem plan_traffic {u : Setup Box Lane} (hu : NoClock u) (b : Beh) (dt : ℝ) (w : W Box) (ego : Nat) :
    plan u (beh τ b) dt (wd w) ego = beh τ (plan u b dt w ego) := by
  unfold plan
  rw [show (wd w).getAgent ego = (w.getAgent ego).map ag from find_later w.agents ego]
  cases w.getAgent ego with
  | none => rfl
  | some a =>
    simp only [Option.map_some, current_later]
    cases a.currentState with
    | error f => rfl
    | ok x => exact planFrom_later hu w ego dt a.shape x b

/-! ### something is executed: the last point of the trajectory is at the end of the step -/

theorem genLoop_last (p : Idm.Params) (r : Idm.Rel) (start dt v0 : ℝ) (n i : Nat) (s v rel : ℝ) {l : List (ℝ × Idm.Row)}
    (h : Idm.genLoop p r start dt v0 (n + 1) i s v rel = .ok l) : ∃ x, l.getLast? = some x ∧ x.2.t = ((i + n : ℕ) : ℝ) * dt + start := by
  induction n generalizing i s v rel l with
  | zero =>
    unfold Idm.genLoop at h
    cases ha : Idm.totalAcc p r v0 rel with
    | error f => rw [ha] at h; cases h
    | ok a =>
      rw [ha] at h
      cases a with
      | fin acc =>
        simp only [Idm.genLoop, Except.ok.injEq] at h
        subst h
        exact ⟨_, rfl, by simp⟩
      | _ => cases h
  | succ n ih =>
    unfold Idm.genLoop at h
    cases ha : Idm.totalAcc p r v0 rel with
    | error f => rw [ha] at h; cases h
    | ok a =>
      rw [ha] at h
      cases a with
      | fin acc =>
        dsimp only at h
        cases hg : Idm.genLoop p r start dt v0 (n + 1) (i + 1) (s + (1 / 2 * acc * dt * dt + v * dt)) (max (min (v + acc * dt) p.maxVel) p.minVel) (Idm.nextDist r v0 rel acc dt) with
        | error f => rw [hg] at h; cases h
        | ok l' =>
          rw [hg] at h
          simp only [Except.ok.injEq] at h
          subst h
          obtain ⟨x, hx, ht⟩ := ih _ _ _ _ hg
          refine ⟨x, ?_, by rw [ht]; push_cast; ring⟩
          rw [List.getLast?_cons, hx]; rfl
      | _ => cases h

theorem planars_last (l : Line) {rows : List (ℝ × Idm.Row)} {xs : List Fren.VState} (h : Pick.planars l rows = .ok xs) :
    xs.getLast?.map (·.time) = rows.getLast?.map (·.2.t) := by
  induction rows generalizing xs with
  | nil => cases h; rfl
  | cons r rows ih =>
    unfold Pick.planars at h
    cases hp : Pick.planar l r.2 with
    | error f => rw [hp] at h; cases h
    | ok x =>
      rw [hp] at h
      cases hq : Pick.planars l rows with
      | error f => rw [hq] at h; cases h
      | ok ys =>
        rw [hq] at h
        simp only [Except.ok.injEq] at h
        subst h
        have hx : x.time = r.2.t := by
          unfold Pick.planar at hp
          cases h1 : pointAtS l r.2.s with
          | error f => rw [h1] at hp; cases hp
          | ok p =>
            rw [h1] at hp
            cases h2 : tangentAngleAtS l r.2.s with
            | error f => rw [h2] at hp; cases hp
            | ok th =>
              rw [h2] at hp
              simp only [Except.ok.injEq] at hp
              rw [← hp]
        have e := ih hq
        rw [List.getLast?_cons, List.getLast?_cons]
        cases hy : ys.getLast? with
        | none =>
          cases hr : rows.getLast? with
          | none => simp only [Option.getD_none, Option.map_some, hx]
          | some r' => rw [hy, hr] at e; cases e
        | some y =>
          cases hr : rows.getLast? with
          | none => rw [hy, hr] at e; cases e
          | some r' => rw [hy, hr] at e; simpa using e

/-- a trajectory of one point, or one that ends at the end of the step -/
theorem ends_at {u : Setup Box Lane} {w : W Box} {i : Nat} {dt : ℝ} {b : Beh} {tr : List V5} (hs : (plan u b dt w i).status = .valid)
    (h : (plan u b dt w i).traj = .ok tr) : tr.length = 1 ∨ ∃ x : V5, tr.getLast? = some x ∧ tm x = w.time + dt := by
  unfold plan at h hs
  cases ha : w.getAgent i with
  | none => rw [ha] at h; cases h
  | some a =>
    rw [ha] at h hs
    dsimp only at h hs
    cases hx : a.currentState with
    | error f => rw [hx] at h; cases h
    | ok x =>
      rw [hx] at h hs
      unfold planFrom Pick.plan at h hs
      dsimp only at h hs
      cases hc : u.corridor ((entries x).x, (entries x).y) with
      | none => rw [hc] at hs; cases hs
      | some c =>
        rw [hc] at h
        simp only [Pick.reaction] at h
        cases hr : Lead.observedRel (queries u) (geo u) u.thr u.maxAgents u.idm.coolness u.laneEnd (u.lengthLeft c ((entries x).x, (entries x).y)) c i b.action w with
        | error f => rw [hr] at h; cases h
        | ok r =>
          rw [hr] at h
          dsimp only at h
          cases hg : generate u (u.roads.line c) r w.time dt (entries x) with
          | error f => rw [hg] at h; cases h
          | ok q =>
            rw [hg] at h
            dsimp only at h
            unfold generate Pick.classic at hg
            by_cases hpt : (u.roads.line c).pts = []
            · rw [if_pos hpt] at hg; cases hg
            · rw [if_neg hpt] at hg
              cases hn : nearestS (u.roads.line c) ((entries x).x, (entries x).y) with
              | error f => rw [hn] at hg; cases hg
              | ok s =>
                rw [hn] at hg
                dsimp only at hg
                cases hrow : Idm.generate u.idm r w.time (Idm.stepSize u.idm dt) s (entries x).vel with
                | error f => rw [hrow] at hg; cases hg
                | ok rows =>
                  rw [hrow] at hg
                  dsimp only at hg
                  cases hp : Pick.planars (u.roads.line c) rows with
                  | error f => rw [hp] at hg; cases hg
                  | ok xs =>
                    rw [hp] at hg
                    simp only [Except.ok.injEq] at hg
                    subst hg
                    simp only [Except.ok.injEq] at h
                    subst h
                    have hl := planars_last _ hp
                    by_cases hnp : u.idm.numPoints - 1 = 0
                    · left
                      unfold Idm.generate at hrow
                      rw [hnp] at hrow
                      simp only [Idm.genLoop, Except.ok.injEq] at hrow
                      subst hrow
                      cases hp
                      rfl
                    · right
                      obtain ⟨n, hn'⟩ := Nat.exists_eq_succ_of_ne_zero hnp
                      unfold Idm.generate at hrow
                      rw [hn'] at hrow
                      obtain ⟨y, hy, ht⟩ := genLoop_last _ _ _ _ _ _ _ _ _ _ hrow
                      rw [hy] at hl
                      cases hz : xs.getLast? with
                      | none => rw [hz] at hl; cases hl
                      | some z =>
                        rw [hz] at hl
                        simp only [Option.map_some, Option.some.injEq] at hl
                        refine ⟨vector z, ?_, ?_⟩
                        · rw [List.map_cons, List.getLast?_cons, List.getLast?_map, hz]; rfl
                        · show z.time = w.time + dt
                          rw [hl, ht]
                          unfold Idm.stepSize
                          have e1 : ((1 + n : ℕ) : ℝ) = (u.idm.numPoints : ℝ) - 1 := by
                            have : u.idm.numPoints = n + 2 := by omega
                            rw [this]; push_cast; ring
                          have e2 : ((u.idm.numPoints : ℝ) - 1) ≠ 0 := by rw [← e1]; positivity
                          rw [e1, mul_div_cancel₀ _ e2]; ring

theorem exact_some {tr : List V5} {t : ℝ} {x : V5} (hx : tr.getLast? = some x) (ht : tm x = t) : (Interp.findExact tm tr t).isSome = true := by
  have hne : tr ≠ [] := by rintro rfl; cases hx
  obtain ⟨a, l, rfl⟩ := List.exists_cons_of_ne_nil hne
  have hd : (0 : ℝ) < Interp.delta := by unfold Interp.delta; norm_num
  unfold Interp.findExact
  rw [hx]
  simp only [List.head?_cons]
  split_ifs with hc
  · rw [List.find?_isSome]
    refine ⟨x, ?_, by rw [ht, sub_self, abs_zero]; exact decide_eq_true hd⟩
    rw [List.mem_reverse]
    refine List.mem_of_getLast? ?_
    rw [List.getLast?_drop, hx, if_neg]
    simp only [List.length_cons]; omega
  · rw [List.find?_isSome]
    refine ⟨a, by simp, ?_⟩
    rw [ht, sub_self, abs_zero, not_lt] at hc
    have : |t - tm a| = 0 := le_antisymm hc (abs_nonneg _)
    rw [abs_sub_comm, this]
    exact decide_eq_true hd

theorem executed_some {e : Interp.Exec V5} {t : ℝ} {tr : List V5} (htr : tr.length = 1 ∨ ∃ x : V5, tr.getLast? = some x ∧ tm x = t) {e1 : Interp.Exec V5}
    (h : Interp.execute tm e t tr = .ok e1) (hs : e1.status = .valid) : ∃ x, e1.state = some x := by
  unfold Interp.execute at h
  split_ifs at h with he
  · cases h; rw [he] at hs; cases hs
  · cases hw : Interp.withinTrajectory tm tr t with
    | error f => rw [hw] at h; cases h
    | ok b =>
      rw [hw] at h
      simp only [bind, Except.bind] at h
      cases b
      · cases h; cases hs
      · simp only [Bool.not_true, Bool.false_eq_true, if_false] at h
        cases hf : Interp.findExact tm tr t with
        | some r => rw [hf] at h; cases h; exact ⟨r, rfl⟩
        | none =>
          rcases htr with h1 | ⟨x, hx, ht⟩
          · rw [hf] at h
            obtain ⟨a, rfl⟩ := List.length_eq_one_iff.1 h1
            unfold Interp.executeInterp at h
            cases hl : Interp.findLower tm [a] t with
            | none => rw [hl] at h; cases h; cases hs
            | some i =>
              rw [hl] at h
              simp only at h
              have : ([a] : List V5)[i + 1]? = none := by simp
              rw [this] at h
              cases hi : ([a] : List V5)[i]? with
              | none => rw [hi] at h; cases h
              | some p => rw [hi] at h; cases h
          · have := exact_some hx ht
            rw [hf] at this; cases this

/-- the classic IDM, executed by interpolation, does not look at the clock as such -/
theorem timeless {u : Setup Box Lane} (hu : NoClock u) (τ : ℝ) : Timeless (plug u) τ (row τ) (beh τ) (exec τ) where
  status _ := rfl
  action _ := rfl
  plan b dt w i := plan_traffic hu b dt w i
  execute e t b := carry_later t b.traj e
  execStatus e := by cases e <;> rfl
  observe _ _ _ := rfl
  envelope sh s := hu.envelope sh _ _ _
  executed := by
    intro o w i dt e b hs he
    change (plan u b dt w i).status = .valid at hs
    change execStatus (Loop.carryOut tm (w.time + dt) (plan u b dt w i).traj e) = .valid at he
    show executed (exec τ (Loop.carryOut tm (w.time + dt) (plan u b dt w i).traj e)) = row τ (executed (Loop.carryOut tm (w.time + dt) (plan u b dt w i).traj e))
    cases e with
    | error f => cases he
    | ok e =>
      cases ht : (plan u b dt w i).traj with
      | error f => rw [ht] at he; cases he
      | ok tr =>
        rw [ht] at he
        unfold Loop.carryOut at he ⊢
        dsimp only at he ⊢
        cases h1 : Interp.execute tm e (w.time + dt) tr with
        | error f => rw [h1] at he; cases he
        | ok e1 =>
          rw [h1] at he
          obtain ⟨x, hx⟩ := executed_some (ends_at hs ht) h1 he
          simp only [exec, Except.map, executed, hx, Option.map_some, Option.getD_some]

/-- C215: traffic of the classic IDM does not depend on the time it starts at: begun `τ` later, after any sequence of steps, and vehicles
entering and leaving in between, everything is as it would have been, `τ` later. -/
theorem C215_traffic {u : Setup Box Lane} (hu : NoClock u) (τ : ℝ) {w : W Box} (hw : Props.WellFormed w)
    (ops : List (World.Op ℝ V5 CAcc.Act Beh (Res (Interp.Exec V5)) Shape.Poly)) (hops : ∀ o ∈ ops, Props.GoodOp o ∧ Whole o) :
    World.run (plug u) (world τ (row τ) (beh τ) (exec τ) w) (ops.map (op τ (row τ) (beh τ) (exec τ))) =
      (World.run (plug u) w ops).map (world τ (row τ) (beh τ) (exec τ)) :=
  C215_world (timeless hu τ) hw ops hops

theorem road_noClock : NoClock road := ⟨fun _ _ _ _ => rfl, fun _ _ _ => rfl⟩

/-- not vacuous: three vehicles on a road of 1 km, a fourth one entering after a step; the calls succeed, and an hour later they give the same
world an hour later -/
example : ∃ w', World.run (plug road) three ([.step (1 / 5), .addAgent (mover 3 100 10), .step (1 / 5), .removeAgent 0]) = .ok w' ∧
    World.run (plug road) (world 3600 (row 3600) (beh 3600) (exec 3600) three)
      ([.step (1 / 5), .addAgent (agent 3600 (row 3600) (beh 3600) (exec 3600) (mover 3 100 10)), .step (1 / 5), .removeAgent 0]) =
        .ok (world 3600 (row 3600) (beh 3600) (exec 3600) w') := by
  have hops : ∀ o ∈ ([.step (1 / 5), .addAgent (mover 3 100 10), .step (1 / 5), .removeAgent 0] :
      List (World.Op ℝ V5 CAcc.Act Beh (Res (Interp.Exec V5)) Shape.Poly)), Props.GoodOp o ∧ Whole o := by
    simp [Props.GoodOp, Whole, mover]
  obtain ⟨w', h, -⟩ := Props.C04_no_fault (plug road) three_wf _ (fun o ho => (hops o ho).1)
  refine ⟨w', h, ?_⟩
  have := C215_traffic road_noClock 3600 three_wf _ hops
  rw [h] at this
  exact this

end Bark.Later
