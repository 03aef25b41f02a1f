import Verif.Props.TrafficFront
import Verif.Spec.GoalRun

/-!
C204: a benchmark run in which the vehicle at the front of the traffic has goals ahead ends with success.
-/
set_option linter.unusedSectionVars false
namespace Bark.Flow
open Bark Bark.Ln Bark.Ln.Spec Bark.Fren Bark.Flow.Spec Bark.Angle

variable {Box Lane : Type}

/-- what is left of a goal -/
def Left (h : Goal.Heap (Goal.AgentView Shape.Poly)) (g : Nat) (rs : List Stretch) : Prop :=
  (∃ r, rs = [r] ∧ h[g]? = some (.leaf r.goal)) ∨
  ∃ (subs done rest : List Nat) (last : Int), h[g]? = some (.seq subs last) ∧ subs = done ++ rest ∧ last = (done.length : Int) - 1 ∧
    List.Forall₂ (fun k r => h[k]? = some (Goal.Obj.leaf r.goal)) rest rs

theorem left_of_aims {h g rs} (a : Aims h g rs) : Left h g rs := by
  rcases a with ⟨r, e, e'⟩ | ⟨subs, e, f⟩
  · exact .inl ⟨r, e, e'⟩
  · exact .inr ⟨subs, [], subs, -1, e, rfl, by simp, f⟩

/-- one query -/
theorem ask_left {h g r rs} (hl : Left h g (r :: rs)) (v : Goal.AgentView Shape.Poly) (n : Nat) :
    ∃ h', Goal.atGoal v (n + 2) h g = .ok (h', r.goal v && rs.isEmpty) ∧ (r.goal v = false → Left h' g (r :: rs)) ∧ (r.goal v = true → rs ≠ [] → Left h' g rs) := by
  rcases hl with ⟨r', e, e'⟩ | ⟨subs, done, rest, last, e, rfl, e2, f⟩
  · simp only [List.cons.injEq] at e
    obtain ⟨rfl, rfl⟩ := e
    refine ⟨h, ?_, fun _ => .inl ⟨r, rfl, e'⟩, fun _ h => absurd rfl h⟩
    unfold Goal.atGoal
    simp [e']
  · cases rest with
    | nil => cases f
    | cons k rest =>
      rw [List.forall₂_cons] at f
      obtain ⟨fk, f⟩ := f
      have hlen := f.length_eq
      have hk : ∀ m, Goal.atGoal v (m + 1) h k = .ok (h, r.goal v) := by
        intro m
        unfold Goal.atGoal
        simp [fk]
      have hget : (done ++ k :: rest)[done.length]? = some k := by simp
      have hgk : k ≠ g := by rintro rfl; rw [e] at fk; cases fk
      have hgl : g < h.length := by
        rw [List.getElem?_eq_some_iff] at e
        exact e.1
      have adv : ∀ F : Goal.Obj (Goal.AgentView Shape.Poly) → Goal.Obj (Goal.AgentView Shape.Poly), F (.seq (done ++ k :: rest) last) = .seq (done ++ k :: rest) (last + 1) →
          (h.modify g F)[g]? = some (.seq (done ++ k :: rest) (last + 1)) ∧ Left (h.modify g F) g rs := by
        intro F hF
        have e1 : (h.modify g F)[g]? = some (.seq (done ++ k :: rest) (last + 1)) := by rw [List.getElem?_modify, e]; simp [hF]
        refine ⟨e1, .inr ⟨_, done ++ [k], rest, last + 1, e1, by simp, by simp [e2], ?_⟩⟩
        refine f.imp fun a b hab => ?_
        have : g ≠ a := by rintro rfl; rw [e] at hab; cases hab
        rw [List.getElem?_modify, hab]
        simp [this]
      have fin : ∀ (h' : Goal.Heap (Goal.AgentView Shape.Poly)) l, h'[g]? = some (.seq (done ++ k :: rest) l) →
          Goal.finished h' g = decide (l = (((done ++ k :: rest).length : Nat) : Int) - 1) := by
        intro h' l hl
        unfold Goal.finished
        rw [hl]
        rfl
      have d0 : decide (last = (((done ++ k :: rest).length : Nat) : Int) - 1) = false := by
        rw [decide_eq_false_iff_not, e2]
        simp only [List.length_append, List.length_cons]
        omega
      have d1 : decide (last + 1 = (((done ++ k :: rest).length : Nat) : Int) - 1) = rs.isEmpty := by
        rw [Bool.eq_iff_iff, decide_eq_true_iff, List.isEmpty_iff, ← List.length_eq_zero_iff, ← hlen, e2]
        simp only [List.length_append, List.length_cons]
        omega
      have same : Left h g (r :: rs) := .inr ⟨_, done, k :: rest, last, e, rfl, e2, List.Forall₂.cons fk f⟩
      cases hr : r.goal v with
      | false =>
        refine ⟨h, ?_, fun _ => same, (fun h => by cases h)⟩
        unfold Goal.atGoal
        rw [e]
        dsimp only
        by_cases hm : last = -1
        · have hd : done = [] := by rw [← List.length_eq_zero_iff]; omega
          subst hd
          rw [if_pos hm]
          simp only [List.nil_append, List.getElem?_cons_zero, hk, hr, bind, Except.bind, Bool.false_eq_true, if_false, Bool.false_and]
          rw [fin h last e, d0]
        · rw [if_neg hm, if_neg (by simp), if_pos (by simp only [List.length_append, List.length_cons]; omega),
            show (last + 1).toNat = done.length by omega, hget]
          simp only [hk, hr, bind, Except.bind, Bool.false_eq_true, if_false, Bool.false_and]
          rw [fin h last e, d0]
      | true =>
        by_cases hm : last = -1
        · have hd : done = [] := by rw [← List.length_eq_zero_iff]; omega
          subst hd
          obtain ⟨a1, a2⟩ := adv (Goal.Obj.setLast 0) (by rw [hm]; rfl)
          refine ⟨h.modify g (Goal.Obj.setLast 0), ?_, (fun h => by cases h), fun _ _ => a2⟩
          unfold Goal.atGoal
          rw [e]
          dsimp only
          rw [if_pos hm]
          simp only [List.nil_append, List.getElem?_cons_zero, hk, hr, bind, Except.bind, if_true, Bool.true_and]
          rw [fin _ _ a1, d1]
        · obtain ⟨a1, a2⟩ := adv Goal.Obj.incLast rfl
          refine ⟨h.modify g Goal.Obj.incLast, ?_, (fun h => by cases h), fun _ _ => a2⟩
          unfold Goal.atGoal
          rw [e]
          dsimp only
          rw [if_neg hm, if_neg (by simp), if_pos (by simp only [List.length_append, List.length_cons]; omega),
            show (last + 1).toNat = done.length by omega, hget]
          simp only [hk, hr, bind, Except.bind, if_true, Bool.true_and]
          rw [fin _ _ a1, d1]

/-- one evaluation -/
theorem eval_job {u : Setup Box Lane} {t : Task} {w : W Box} {c : Int} {h h' : Goal.Heap (Goal.AgentView Shape.Poly)} {b : Bool}
    (hcol : Eval.collisionAgents (plug u) outline t.collide w = .ok false)
    (hgoal : Eval.goalReached (askGoal t.depth t.goalOf) t.ego w h = .ok (h', b)) :
    evalJob u t ⟨w, ⟨c, h⟩⟩ = .ok (⟨w, ⟨c + 1, h'⟩⟩, [("success", .flag b), ("collision", .flag false), ("max_steps", .num (c + 1))]) := by
  unfold evalJob evaluators
  simp only [Eval.evaluate, call, bind, Except.bind, Eval.stepCount]
  simp [hcol, hgoal]

theorem terminal_of {limit c : Int} (sub : String → String → Bool) (set : String) (b : Bool) (h : c ≤ limit) :
    Bench.isTerminal sub (criteria limit) [("success", .flag b), ("collision", .flag false), ("max_steps", .num c)] set =
      .ok (if b then ["success"] else []) := by
  have : ¬ c > limit := not_lt.2 h
  cases b <;> simp [Bench.isTerminal, criteria, Bench.metCriteria, Bench.item, bind, Except.bind, this]

/-- what the goal is asked about -/
theorem ask_ego {a b : Pt} {t : Task} {w : W Box} {time s v : ℝ} {ag : Agent ℝ V5 CAcc.Act Beh (Res (Interp.Exec V5)) Shape.Poly} (hego : t.ego ≠ Eval.allAgents)
    (hi : w.getAgent t.ego = some ag) (hid : ag.id = t.ego) (hr : Rides (straightAt a b) time s v ag) (h : Goal.Heap (Goal.AgentView Shape.Poly)) :
    ∃ θ, HasDir (vec a b) θ ∧ Eval.goalReached (askGoal t.depth t.goalOf) t.ego w h =
      Goal.atGoal ⟨onLane a b s, θ, v, Shape.outlineAt ag.shape (onLane a b s).1 (onLane a b s).2 θ⟩ t.depth h (t.goalOf t.ego) := by
  obtain ⟨p, θ, ⟨rfl, d⟩, e⟩ := hr.state
  refine ⟨θ, d, ?_⟩
  unfold Eval.goalReached
  rw [if_neg hego, hi]
  dsimp only
  unfold askGoal view
  rw [e, hid]
  rfl

/-- one evaluation in traffic -/
theorem look {u : Setup Box Lane} {a b : Pt} {t : Task} (hego : t.ego ≠ Eval.allAgents) (hdep : 2 ≤ t.depth) (hsound : Sound t.collide) {L τ : ℝ} {w : W Box}
    {x : Nat → ℝ × ℝ} (c : Int) {h : Goal.Heap (Goal.AgentView Shape.Poly)} {r : Stretch} {rs : List Stretch} {ag} (hg : Good u L (straightAt a b) τ w x)
    (hi : w.getAgent t.ego = some ag) (hl : Left h (t.goalOf t.ego) (r :: rs)) (hcov : Covers a b ag.shape r) (hhi : (x t.ego).1 ≤ r.hi) :
    ∃ h' met, evalJob u t ⟨w, ⟨c, h⟩⟩ = .ok (⟨w, ⟨c + 1, h'⟩⟩, [("success", .flag (met && rs.isEmpty)), ("collision", .flag false), ("max_steps", .num (c + 1))]) ∧
      (met = false → (x t.ego).1 < r.lo ∧ Left h' (t.goalOf t.ego) (r :: rs)) ∧ (met = true → rs ≠ [] → Left h' (t.goalOf t.ego) rs) ∧
      (met = true → NotBefore a b ag.shape r → r.lo ≤ (x t.ego).1) := by
  obtain ⟨-, hn⟩ := no_contact (u := u) hg.clear hg.wf (fun i a1 hi => (hg.rides i a1 hi).1)
  obtain ⟨hr, hv0, hv15, -⟩ := hg.rides _ ag hi
  obtain ⟨θ, hθ, hask⟩ := ask_ego hego hi (hg.wf.2.1 _ _ hi).2 hr h
  obtain ⟨n, hn2⟩ := Nat.exists_eq_add_of_le' hdep
  obtain ⟨h', e1, e2, e3⟩ := ask_left hl ⟨onLane a b (x t.ego).1, θ, (x t.ego).2, Shape.outlineAt ag.shape (onLane a b (x t.ego).1).1 (onLane a b (x t.ego).1).2 θ⟩ n
  rw [← hn2] at e1
  rw [e1] at hask
  refine ⟨h', _, eval_job (hn _ hsound) hask, fun hm => ⟨?_, e2 hm⟩, e3, fun hm hb => ?_⟩
  · by_contra hlo
    rw [hcov _ _ _ (not_lt.1 hlo) hhi hθ hv0 hv15] at hm
    cases hm
  · by_contra hlo
    rw [hb _ _ _ (not_le.1 hlo) hθ hv0 hv15] at hm
    cases hm

theorem loop_ends {u : Setup Box Lane} {t : Task} {dt : ℝ} {w0 : W Box} {h0 h h' : Goal.Heap (Goal.AgentView Shape.Poly)} {limit c : Int} (sub : String → String → Bool)
    (set : String) (keep : Bool) {w : W Box} (step : Nat) (hist : List (Job Box)) (n : Nat) (hlim : c + 1 ≤ limit)
    (he : evalJob u t ⟨w, ⟨c, h⟩⟩ = .ok (⟨w, ⟨c + 1, h'⟩⟩, [("success", .flag true), ("collision", .flag false), ("max_steps", .num (c + 1))])) :
    Bench.loop (simulation u t dt w0 h0) (fun ev => Bench.isTerminal sub (criteria limit) ev set) keep (n + 1) ⟨w, ⟨c, h⟩⟩ step hist =
      .ok ⟨step, [("success", .flag true), ("collision", .flag false), ("max_steps", .num (c + 1))], .names ["success"], hist⟩ := by
  unfold Bench.loop
  rw [show (simulation u t dt w0 h0).eval = evalJob u t from rfl, he]
  dsimp only
  rw [terminal_of sub set _ hlim]
  rfl

theorem loop_goes {u : Setup Box Lane} {t : Task} {dt : ℝ} {w0 : W Box} {h0 h h' : Goal.Heap (Goal.AgentView Shape.Poly)} {limit c : Int} (sub : String → String → Bool)
    (set : String) (keep : Bool) {w w1 : W Box} (step : Nat) (hist : List (Job Box)) (n : Nat) (hlim : c + 1 ≤ limit)
    (he : evalJob u t ⟨w, ⟨c, h⟩⟩ = .ok (⟨w, ⟨c + 1, h'⟩⟩, [("success", .flag false), ("collision", .flag false), ("max_steps", .num (c + 1))]))
    (hs : World.step (plug u) dt w = .ok w1) :
    ∃ hist', Bench.loop (simulation u t dt w0 h0) (fun ev => Bench.isTerminal sub (criteria limit) ev set) keep (n + 1) ⟨w, ⟨c, h⟩⟩ step hist =
      Bench.loop (simulation u t dt w0 h0) (fun ev => Bench.isTerminal sub (criteria limit) ev set) keep n ⟨w1, ⟨c + 1, h'⟩⟩ (step + 1) hist' := by
  unfold World.step at hs
  obtain ⟨w2, h1, h2⟩ := Res.bind_ok hs
  refine ⟨if keep then hist ++ [⟨w1, ⟨c + 1, h'⟩⟩] else hist, ?_⟩
  conv_lhs => unfold Bench.loop
  rw [show (simulation u t dt w0 h0).eval = evalJob u t from rfl, he]
  dsimp only
  rw [terminal_of sub set _ hlim]
  simp [simulation, h1, h2]

/-- the run -/
theorem race {u : Setup Box Lane} {lane : Lane} {a b : Pt} (hu : Straight u lane a b) (t : Task) (hego : t.ego ≠ Eval.allAgents) (hdep : 2 ≤ t.depth)
    (hsound : Sound t.collide) {dt : ℝ} (hdt : 0 < dt) (hdt5 : dt ≤ 1 / 5) (limit : Int) (sub : String → String → Bool) (set : String) (keep : Bool)
    (w0 : W Box) (h0 : Goal.Heap (Goal.AgentView Shape.Poly)) (sh : Shape.Poly) (last : Stretch) (N : Nat) :
    ∀ (w : W Box) (x : Nat → ℝ × ℝ) (c : Int) (h : Goal.Heap (Goal.AgentView Shape.Poly)) (step : Nat) (hist : List (Job Box)) (r : Stretch) (rs : List Stretch) ag,
      Good u (pdist a b) (straightAt a b) (N * dt) w x → w.getAgent t.ego = some ag → ag.shape = sh → First w x t.ego → Left h (t.goalOf t.ego) (r :: rs) →
      InOrder dt (r :: rs) → (∀ q ∈ r :: rs, Covers a b sh q) → (x t.ego).1 ≤ r.hi → (r :: rs).getLast? = some last →
      last.lo ≤ (x t.ego).1 + 15 * (N * dt) - 15 / 1.7 * (15 - (x t.ego).2) → c + N + 1 ≤ limit →
      ∃ o, Bench.loop (simulation u t dt w0 h0) (fun ev => Bench.isTerminal sub (criteria limit) ev set) keep (N + 1) ⟨w, ⟨c, h⟩⟩ step hist = .ok o ∧
        o.why = .names ["success"] ∧
        (∃ k : Nat, k ≤ N ∧ o.steps = step + k ∧ o.ev = [("success", .flag true), ("collision", .flag false), ("max_steps", .num (c + k + 1))] ∧
          ((∀ q ∈ r :: rs, NotBefore a b sh q) → last.lo ≤ (x t.ego).1 + 15 * (k * dt))) := by
  induction N with
  | zero =>
    intro w x c h step hist r rs ag hg hi hsh hf hl ho hcov hhi hlast hlo hlim
    subst hsh
    obtain ⟨-, hv0, hv15, -⟩ := hg.rides _ ag hi
    have hx : last.lo ≤ (x t.ego).1 := by
      norm_num at hlo
      nlinarith
    have hrs : rs = [] := by
      cases rs with
      | nil => rfl
      | cons q rs =>
        exfalso
        rw [List.getLast?_cons_cons] at hlast
        have := (List.pairwise_cons.1 ho.2).1 last (List.mem_of_getLast? hlast)
        linarith
    subst hrs
    simp only [List.getLast?_singleton, Option.some.injEq] at hlast
    subst hlast
    obtain ⟨h', met, e1, e2, -, -⟩ := look hego hdep hsound c hg hi hl (hcov r (by simp)) hhi
    have hm : met = true := by
      cases met with
      | true => rfl
      | false => have := (e2 rfl).1; linarith
    subst hm
    refine ⟨_, loop_ends sub set keep step hist 0 (by push_cast at hlim; omega) e1, rfl, 0, le_refl _, rfl, by simp, fun _ => ?_⟩
    norm_num
    exact hx
  | succ N ih =>
    intro w x c h step hist r rs ag hg hi hsh hf hl ho hcov hhi hlast hlo hlim
    obtain ⟨-, hv0, hv15, -⟩ := hg.rides _ ag hi
    rw [← hsh] at hcov
    obtain ⟨h', met, e1, e2, e3, e4⟩ := look hego hdep hsound c hg hi hl (hcov r (by simp)) hhi
    have hN : (0 : ℝ) ≤ N * dt := by positivity
    have hN1 : ((N + 1 : Nat) : ℝ) * dt = dt + N * dt := by push_cast; ring
    rw [hN1] at hg hlo
    have hlim1 : c + 1 ≤ limit := by push_cast at hlim; omega
    by_cases hfin : met = true ∧ rs = []
    · obtain ⟨rfl, rfl⟩ := hfin
      simp only [List.getLast?_singleton, Option.some.injEq] at hlast
      subst hlast
      refine ⟨_, loop_ends sub set keep step hist (N + 1) hlim1 e1, rfl, 0, Nat.zero_le _, rfl, by simp, fun hb => ?_⟩
      have := e4 rfl (hsh ▸ hb r (by simp))
      norm_num
      exact this
    · have hb : (met && rs.isEmpty) = false := by
        cases met with
        | false => rfl
        | true =>
          cases rs with
          | nil => exact absurd ⟨rfl, rfl⟩ hfin
          | cons => rfl
      rw [hb] at e1
      obtain ⟨w1, h1, -⟩ := Props.apply_wf (plug u) hg.wf (World.Op.step dt) trivial
      have h1s : World.step (plug u) dt w = .ok w1 := h1
      obtain ⟨x1, a1, ga, gs, g1, hf1, b1, b2, b3, b4⟩ := front_step (setting_straight hu) hdt hdt5 hN hg hi hf h1s
      obtain ⟨hist', hloop⟩ := loop_goes (w0 := w0) (h0 := h0) sub set keep step hist (N + 1) hlim1 e1 h1s
      have next : ∃ r' rs', Left h' (t.goalOf t.ego) (r' :: rs') ∧ (r' :: rs') <:+ (r :: rs) ∧ (r' :: rs').getLast? = some last ∧ (x1 t.ego).1 ≤ r'.hi := by
        cases hm : met with
        | false =>
          obtain ⟨k1, k2⟩ := e2 hm
          refine ⟨r, rs, k2, List.suffix_refl _, hlast, ?_⟩
          have := ho.1 r (by simp)
          linarith
        | true =>
          cases rs with
          | nil => exact absurd ⟨hm, rfl⟩ hfin
          | cons q rs =>
            refine ⟨q, rs, e3 hm (by simp), List.suffix_cons _ _, by rwa [List.getLast?_cons_cons] at hlast, ?_⟩
            have := ho.1 q (by simp)
            have := (List.pairwise_cons.1 ho.2).1 q (by simp)
            linarith
      obtain ⟨r', rs', n1, n2, n3, n4⟩ := next
      obtain ⟨o, o1, o2, k, o3, o4, o5, o6⟩ := ih w1 x1 (c + 1) h' (step + 1) hist' r' rs' a1 g1 ga (gs.trans hsh) hf1 n1
        ⟨fun q hq => ho.1 q (n2.subset hq), ho.2.sublist n2.sublist⟩ (fun q hq => hsh ▸ hcov q (n2.subset hq)) n4 n3 (by linarith) (by push_cast at hlim; omega)
      refine ⟨o, hloop.trans o1, o2, k + 1, by omega, by omega, ?_, fun hb => ?_⟩
      · rw [o5]
        push_cast
        rw [show c + 1 + (k : Int) + 1 = c + ((k : Int) + 1) + 1 by ring]
      · have := o6 fun q hq => hb q (n2.subset hq)
        push_cast
        linarith

/-- C204: traffic on a straight lane as in C201, and the vehicle ahead of all others has goals for stretches of the lane ahead of it, one after the other and each at
least as long as a step at 15 m/s. A benchmark run with steps of at most 0.2 s that ends with success (all goals reached in turn), a collision or more than `limit`
evaluations ends with success and nothing else, no collision is reported, after at most `N` steps, `N` being any number of steps in which 15 m/s, less 15/1.7 m per
m/s the vehicle is slower at the start, lead to the last stretch, if the limit allows for these and all stay on the lane; and if no goal is reached before its
stretch, not sooner than 15 m/s lead there -/
theorem C204_success {u : Setup Box Lane} {lane : Lane} {a b : Pt} (hu : Straight u lane a b) (t : Task) (hego : t.ego ≠ 4294967295) (hdep : 2 ≤ t.depth)
    (hsound : Sound t.collide) {dt : ℝ} (hdt : 0 < dt) (hdt5 : dt ≤ 1 / 5) (N : Nat) (limit : Int) (hlim : N + 1 ≤ limit) (sub : String → String → Bool) (set : String)
    (keep : Bool) {w : W Box} (hw : Props.WellFormed w) (hoff : w.removeAgents = false) (hmany : w.agents.length ≤ u.maxAgents + 1) {x : Nat → ℝ × ℝ}
    (hride : ∀ i ag, w.getAgent i = some ag → Rides (straightAt a b) w.time (x i).1 (x i).2 ag ∧ 0 ≤ (x i).2 ∧ (x i).2 ≤ 15 ∧
      N * dt / 20 ≤ (x i).1 ∧ (x i).1 + 16 * (N * dt) ≤ pdist a b)
    (hclear : AllClear w x) {ag : Agent ℝ V5 CAcc.Act Beh (Res (Interp.Exec V5)) Shape.Poly} (hi : w.getAgent t.ego = some ag)
    (hfront : ∀ j aj, w.getAgent j = some aj → j ≠ t.ego → (x j).1 < (x t.ego).1)
    {h : Goal.Heap (Goal.AgentView Shape.Poly)} {rs : List Stretch} {last : Stretch} (haim : Aims h (t.goalOf t.ego) rs) (ho : InOrder dt rs)
    (hcov : ∀ r ∈ rs, Covers a b ag.shape r) (hfirst : ∀ r, rs.head? = some r → (x t.ego).1 ≤ r.hi) (hlast : rs.getLast? = some last)
    (hlo : last.lo ≤ (x t.ego).1 + 15 * (N * dt) - 15 / 1.7 * (15 - (x t.ego).2)) :
    ∃ o, Bench.runConfig (simulation u t dt w h) (fun ev => Bench.isTerminal sub (criteria limit) ev set) keep (N + 1) = .ok (.pair o) ∧
      o.why = .names ["success"] ∧ o.steps ≤ N ∧
      o.ev = [("success", .flag true), ("collision", .flag false), ("max_steps", .num (o.steps + 1))] ∧
      ((∀ r ∈ rs, NotBefore a b ag.shape r) → last.lo ≤ (x t.ego).1 + 15 * (o.steps * dt)) := by
  cases rs with
  | nil => cases hlast
  | cons r rs =>
    obtain ⟨o, o1, o2, k, o3, o4, o5, o6⟩ := race hu t hego hdep hsound hdt hdt5 limit sub set keep w h ag.shape last N w x 0 h 0
      (if keep then [⟨w, ⟨0, h⟩⟩] else []) r rs ag ⟨hw, hoff, hmany, hride, hclear⟩ hi rfl hfront (left_of_aims haim) ho hcov (hfirst r rfl) hlast hlo (by omega)
    rw [Nat.zero_add] at o4
    subst o4
    refine ⟨o, ?_, o2, o3, by rw [o5]; simp, o6⟩
    unfold Bench.runConfig
    show (Bench.loop _ _ _ _ _ _ _ >>= _) = _
    rw [o1]
    rfl

open Classical in
/-- a Frenet goal with the lane as its centre line, a velocity range that includes 0 to 15 m/s, and a goal shape that contains the centre line of the lane between `lo`
and `hi`, is such a goal -/
theorem C204_frenet_goal {a b : Pt} (hab : a ≠ b) (within : Pt → Bool) (g : Goal.FrenetLimits) (hg : g.center = ofArray [a, b])
    (h1 : 0 ≤ g.maxOri.1) (h1' : g.maxOri.1 < Real.pi) (h2 : 0 ≤ g.maxOri.2) (h2' : g.maxOri.2 ≤ Real.pi) (hv : g.vel.1 ≤ 0) (hv' : 15 ≤ g.vel.2) (lo hi : ℝ)
    (hin : ∀ s, lo ≤ s → s ≤ hi → within (onLane a b s) = true) (sh : Shape.Poly) :
    Covers a b sh ⟨lo, hi, fun v => decide (Goal.atFrenetLimits id within g v = .ok true)⟩ := by
  intro s θ v hs hs' hθ v0 v15
  obtain ⟨t1, t2, t3⟩ := ofArray2 hab
  rw [← hg] at t1 t2 t3
  obtain ⟨q, s', t, r, -, -, e1, e2, e3⟩ := Goal.C73_frenet within g ⟨onLane a b s, θ, v, Shape.outlineAt sh (onLane a b s).1 (onLane a b s).2 θ⟩ t1 t2 t3 h1 h1' h2 h2'
  dsimp only
  rw [decide_eq_true_iff, e2]
  rw [e3.2 ⟨⟨hv.trans v0, v15.trans hv'⟩, hin s hs hs', 0, by linarith, h1, ?_⟩]
  obtain ⟨ψ, k1, k2⟩ := tangent2 hab s'
  rw [hg, k1] at e1
  cases e1
  rw [sub_zero]
  exact dir_of_hasDir k2 hθ

/-- a polygon goal whose shape is convex and contains the outline of the vehicle on the lane at `lo` and at `hi` is such a goal (boost recognises outlines with all
corners in a convex goal shape) -/
theorem C204_polygon_goal {a b : Pt} {sh : Shape.Poly} (hsh : sh.center = ⟨0, 0, 0⟩) {G : Set (ℝ × ℝ)} (hG : Convex ℝ G) (within : Shape.Poly → Bool)
    (hin : ∀ p : Shape.Poly, (∀ q ∈ p.pts, q ∈ G) → within p = true) {lo hi : ℝ} (hle : lo ≤ hi)
    (hcor : ∀ p ∈ sh.pts, ∀ s, s = lo ∨ s = hi → ((onLane a b s).1 + ((unit a b).1 * p.1 - (unit a b).2 * p.2), (onLane a b s).2 + ((unit a b).2 * p.1 + (unit a b).1 * p.2)) ∈ G) :
    Covers a b sh ⟨lo, hi, Goal.atPolygon within⟩ := by
  intro s θ v hs hs' hθ v0 v15
  dsimp only at hs hs' ⊢
  unfold Goal.atPolygon
  refine hin _ ?_
  intro q hq
  have hu := unit_of_dir hθ
  unfold Shape.outlineAt Shape.transform at hq
  rw [hsh] at hq
  simp only [List.mem_map, Shape.shift, Shape.clockwise, Real.cos_neg, Real.sin_neg] at hq
  obtain ⟨p, hp, rfl⟩ := hq
  have h1 := hcor p hp lo (.inl rfl)
  have h2 := hcor p hp hi (.inr rfl)
  rw [hu] at h1 h2
  rcases eq_or_lt_of_le hle with rfl | hlt
  · have : s = lo := le_antisymm hs' hs
    subst this
    convert h1 using 1
    ext <;> simp <;> ring
  · have h3 := hG h1 h2 (a := (hi - s) / (hi - lo)) (b := (s - lo) / (hi - lo)) (div_nonneg (by linarith) (by linarith)) (div_nonneg (by linarith) (by linarith))
      (by rw [← add_div]; rw [show hi - s + (s - lo) = hi - lo by ring]; exact div_self (by linarith))
    convert h3 using 1
    have hne : hi - lo ≠ 0 := by linarith
    unfold onLane
    rw [hu]
    ext
    · simp only [Prod.fst_add, Prod.smul_mk, smul_eq_mul, sub_zero, neg_zero, add_zero, zero_add]
      field_simp
      ring
    · simp only [Prod.snd_add, Prod.smul_mk, smul_eq_mul, sub_zero, neg_zero, add_zero, zero_add]
      field_simp
      ring

open Classical in
example : Covers (0, 0) (1000, 0) block ⟨351, 359, Goal.atPolygon fun p => decide (∀ q ∈ p.pts, q ∈ Set.Icc (350 : ℝ) 360 ×ˢ Set.Icc (-1 : ℝ) 1)⟩ := by
  refine C204_polygon_goal rfl ((convex_Icc _ _).prod (convex_Icc _ _)) _ (fun p hp => by simpa using hp) (by norm_num) ?_
  intro p hp s hs
  rw [road_point]
  unfold unit
  rw [road_len]
  simp only [block, List.mem_cons, List.not_mem_nil, or_false] at hp
  rcases hs with rfl | rfl <;> rcases hp with rfl | rfl | rfl | rfl <;> norm_num

/-- the goal of passing between two kilometre marks of the road, directed along it up to 0.1 rad -/
noncomputable def mark (lo hi : ℝ) : Stretch :=
  ⟨lo, hi, by
    classical
    exact fun v => decide (Goal.atFrenetLimits id (fun p => decide (lo ≤ p.1 ∧ p.1 ≤ hi)) ⟨ofArray [(0, 0), (1000, 0)], (2, 2), (1 / 10, 1 / 10), (0, 20)⟩ v = .ok true)⟩

theorem road_ends : ((0, 0) : Pt) ≠ (1000, 0) := pt_ne (.inl (by norm_num))

theorem mark_covers (lo hi : ℝ) (sh : Shape.Poly) : Covers (0, 0) (1000, 0) sh (mark lo hi) := by
  have := Real.pi_gt_three
  exact C204_frenet_goal road_ends _ _ rfl (by norm_num) (by norm_num; linarith) (by norm_num) (by norm_num; linarith) (by norm_num) (by norm_num) lo hi
    (fun s h1 h2 => by rw [road_point]; simpa using ⟨h1, h2⟩) sh

theorem mark_not_before (lo hi : ℝ) (sh : Shape.Poly) : NotBefore (0, 0) (1000, 0) sh (mark lo hi) := by
  intro s θ v hs _ _ _
  unfold mark
  dsimp only
  rw [decide_eq_false_iff_not, road_point]
  unfold Goal.atFrenetLimits
  intro h
  split_ifs at h with c1 c2
  · cases h
  · cases h
  · simp only [decide_eq_false_iff_not, not_not] at c2
    exact absurd c2.1 (not_le.2 hs)

/-- two goals one after the other -/
noncomputable def marks : Goal.Heap (Goal.AgentView Shape.Poly) := [.seq [1, 2] (-1), .leaf (mark 350 360).goal, .leaf (mark 400 410).goal]

/-- the standing vehicle of `three` passes both marks, followed by the two others, within 78 steps and not within 33 -/
example (collide : Shape.Poly → Shape.Poly → Bool) (hc : Sound collide) (sub : String → String → Bool) (set : String) :
    ∃ o, Bench.runConfig (simulation road ⟨2, fun _ => 0, 0, collide⟩ (1 / 5) three marks) (fun ev => Bench.isTerminal sub (criteria 100) ev set) true 79 = .ok (.pair o) ∧
      o.why = .names ["success"] ∧ o.steps ≤ 78 ∧ 33 < o.steps ∧ o.ev = [("success", .flag true), ("collision", .flag false), ("max_steps", .num (o.steps + 1))] := by
  obtain ⟨o, o1, o2, o3, o4, o5⟩ := C204_success road_straight ⟨2, fun _ => 0, 0, collide⟩ (by norm_num) (le_refl _) hc (dt := 1 / 5) (by norm_num) (le_refl _) 78 100 (by norm_num)
    sub set true three_wf rfl (by decide) (x := fun i => if i = 0 then (300, 0) else if i = 1 then (220, 15) else (215, 14))
    (by
      intro i ag h
      rw [road_len]
      rcases three_get h with ⟨rfl, rfl⟩ | ⟨rfl, rfl⟩ | ⟨rfl, rfl⟩
      · exact ⟨mover_rides _ _ _, by norm_num, by norm_num, by norm_num, by norm_num⟩
      · exact ⟨mover_rides _ _ _, by norm_num, by norm_num, by norm_num, by norm_num⟩
      · exact ⟨mover_rides _ _ _, by norm_num, by norm_num, by norm_num, by norm_num⟩)
    (by
      intro i j ai aj hi hj hij hle
      rcases three_get hi with ⟨rfl, rfl⟩ | ⟨rfl, rfl⟩ | ⟨rfl, rfl⟩ <;> rcases three_get hj with ⟨rfl, rfl⟩ | ⟨rfl, rfl⟩ | ⟨rfl, rfl⟩ <;>
        first
        | exact absurd rfl hij
        | (norm_num at hle; done)
        | (unfold Loop.Spec.Clear gap mover block; norm_num))
    (ag := mover 0 300 0) rfl
    (by
      intro j aj hj hne
      rcases three_get hj with ⟨rfl, rfl⟩ | ⟨rfl, rfl⟩ | ⟨rfl, rfl⟩
      · exact absurd rfl hne
      · norm_num
      · norm_num)
    (h := marks) (rs := [mark 350 360, mark 400 410]) (last := mark 400 410)
    (.inr ⟨[1, 2], rfl, List.Forall₂.cons rfl (List.Forall₂.cons rfl List.Forall₂.nil)⟩)
    (by
      refine ⟨?_, by simp [mark]; norm_num⟩
      intro r hr
      simp only [List.mem_cons, List.not_mem_nil, or_false] at hr
      rcases hr with rfl | rfl <;> norm_num [mark])
    (by
      intro r hr
      simp only [List.mem_cons, List.not_mem_nil, or_false] at hr
      rcases hr with rfl | rfl <;> exact mark_covers _ _ _)
    (by
      intro r hr
      simp only [List.head?_cons, Option.some.injEq] at hr
      subst hr
      norm_num [mark])
    rfl (by norm_num [mark])
  refine ⟨o, o1, o2, o3, ?_, o4⟩
  have := o5 (by
      intro r hr
      simp only [List.mem_cons, List.not_mem_nil, or_false] at hr
      rcases hr with rfl | rfl <;> exact mark_not_before _ _ _)
  norm_num [mark] at this
  have h2 : (33 : ℝ) < o.steps := by linarith
  exact_mod_cast h2

end Bark.Flow
