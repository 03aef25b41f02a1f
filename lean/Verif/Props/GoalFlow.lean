import Verif.Props.GoalRun
import Verif.Props.TrafficFlow

/-!
C206: whoever is evaluated in the traffic reaches its goals.
-/
set_option linter.unusedSectionVars false
namespace Bark.Flow
open Bark Bark.Ln Bark.Ln.Spec Bark.Fren Bark.Flow.Spec Bark.Angle

variable {Box Lane : Type}

/-- the run -/
theorem journey {u : Setup Box Lane} {lane : Lane} {a b : Pt} (hu : Straight u lane a b) (t : Task) (hego : t.ego ≠ Eval.allAgents) (hdep : 2 ≤ t.depth)
    (hsound : Sound t.collide) {dt : ℝ} (hdt : 0 < dt) (hdt5 : dt ≤ 1 / 5) (limit : Int) (sub : String → String → Bool) (set : String) (keep : Bool)
    (w0 : W Box) (h0 : Goal.Heap (Goal.AgentView Shape.Poly)) (sh : Shape.Poly) (last : Stretch) {ℓ : ℝ} (f : Nat → ℝ) (N : Nat) :
    ∀ (w : W Box) (x : Nat → ℝ × ℝ) (tt : ℝ) (c : Int) (h : Goal.Heap (Goal.AgentView Shape.Poly)) (step : Nat) (hist : List (Job Box)) (r : Stretch) (rs : List Stretch) ag,
      Good u (pdist a b) (straightAt a b) (N * dt) w x → w.getAgent t.ego = some ag → ag.shape = sh → Extent ℓ w → Flows (436 + ℓ) tt f w x →
      Left h (t.goalOf t.ego) (r :: rs) → (∀ q ∈ r :: rs, q.lo + 16 * dt ≤ q.hi) → (r :: rs).Pairwise (fun q q' => q.hi < q'.lo) →
      (∀ q ∈ r :: rs, Covers a b sh q) → (x t.ego).1 ≤ r.hi → (r :: rs).getLast? = some last →
      last.lo ≤ f t.ego + 13.4 * (tt + N * dt) - 133 → c + N + 1 ≤ limit →
      ∃ o, Bench.loop (simulation u t dt w0 h0) (fun ev => Bench.isTerminal sub (criteria limit) ev set) keep (N + 1) ⟨w, ⟨c, h⟩⟩ step hist = .ok o ∧
        o.why = .names ["success"] ∧
        (∃ k : Nat, k ≤ N ∧ o.steps = step + k ∧ o.ev = [("success", .flag true), ("collision", .flag false), ("max_steps", .num (c + k + 1))] ∧
          ((∀ q ∈ r :: rs, NotBefore a b sh q) → last.lo ≤ (x t.ego).1 + 16 * (k * dt))) := by
  induction N with
  | zero =>
    intro w x tt c h step hist r rs ag hg hi hsh hext hf hl hlong hord hcov hhi hlast hlo hlim
    subst hsh
    obtain ⟨-, hv0, hv15, -⟩ := hg.rides _ ag hi
    have hx : last.lo ≤ (x t.ego).1 := by
      have h1 := hf.gone _ _ hi
      have h2 : 15 / 1.7 * (x t.ego).2 ≤ 15 / 1.7 * 15 := mul_le_mul_of_nonneg_left hv15 (by norm_num)
      norm_num at hlo h1 h2 ⊢
      linarith
    have hrs : rs = [] := by
      cases rs with
      | nil => rfl
      | cons q rs =>
        exfalso
        rw [List.getLast?_cons_cons] at hlast
        have := (List.pairwise_cons.1 hord).1 last (List.mem_of_getLast? hlast)
        linarith
    subst hrs
    simp only [List.getLast?_singleton, Option.some.injEq] at hlast
    subst hlast
    obtain ⟨h', met, e1, e2, -, -⟩ := look hego hdep hsound c hg hi hl (hcov r (by simp)) hhi
    have hm : met = true := by
      cases met with
      | true => rfl
      | false => have := (e2 rfl).1; linarith
    subst hm
    refine ⟨_, loop_ends sub set keep step hist 0 (by push_cast at hlim; omega) e1, rfl, 0, le_refl _, rfl, by simp, fun _ => ?_⟩
    norm_num
    exact hx
  | succ N ih =>
    intro w x tt c h step hist r rs ag hg hi hsh hext hf hl hlong hord hcov hhi hlast hlo hlim
    rw [← hsh] at hcov
    obtain ⟨h', met, e1, e2, e3, e4⟩ := look hego hdep hsound c hg hi hl (hcov r (by simp)) hhi
    have hN : (0 : ℝ) ≤ N * dt := by positivity
    have hN1 : ((N + 1 : Nat) : ℝ) * dt = dt + N * dt := by push_cast; ring
    rw [hN1] at hg hlo
    have hlim1 : c + 1 ≤ limit := by push_cast at hlim; omega
    by_cases hfin : met = true ∧ rs = []
    · obtain ⟨rfl, rfl⟩ := hfin
      simp only [List.getLast?_singleton, Option.some.injEq] at hlast
      subst hlast
      refine ⟨_, loop_ends sub set keep step hist (N + 1) hlim1 e1, rfl, 0, Nat.zero_le _, rfl, by simp, fun hb => ?_⟩
      have := e4 rfl (hsh ▸ hb r (by simp))
      norm_num
      exact this
    · have hb : (met && rs.isEmpty) = false := by
        cases met with
        | false => rfl
        | true =>
          cases rs with
          | nil => exact absurd ⟨rfl, rfl⟩ hfin
          | cons => rfl
      rw [hb] at e1
      obtain ⟨w1, h1, -⟩ := Props.apply_wf (plug u) hg.wf (World.Op.step dt) trivial
      have h1s : World.step (plug u) dt w = .ok w1 := h1
      obtain ⟨x1, g1, ext1, f1, -, m1⟩ := flow_step (setting_straight hu) hdt hdt5 hN hg hext hf h1s
      obtain ⟨a1, ga, gs, b4⟩ := m1 _ _ hi
      obtain ⟨hist', hloop⟩ := loop_goes (w0 := w0) (h0 := h0) sub set keep step hist (N + 1) hlim1 e1 h1s
      have next : ∃ r' rs', Left h' (t.goalOf t.ego) (r' :: rs') ∧ (r' :: rs') <:+ (r :: rs) ∧ (r' :: rs').getLast? = some last ∧ (x1 t.ego).1 ≤ r'.hi := by
        cases hm : met with
        | false =>
          obtain ⟨k1, k2⟩ := e2 hm
          refine ⟨r, rs, k2, List.suffix_refl _, hlast, ?_⟩
          have := hlong r (by simp)
          linarith
        | true =>
          cases rs with
          | nil => exact absurd ⟨hm, rfl⟩ hfin
          | cons q rs =>
            refine ⟨q, rs, e3 hm (by simp), List.suffix_cons _ _, by rwa [List.getLast?_cons_cons] at hlast, ?_⟩
            have := hlong q (by simp)
            have := (List.pairwise_cons.1 hord).1 q (by simp)
            linarith
      obtain ⟨r', rs', n1, n2, n3, n4⟩ := next
      obtain ⟨o, o1, o2, k, o3, o4, o5, o6⟩ := ih w1 x1 (tt + dt) (c + 1) h' (step + 1) hist' r' rs' a1 g1 ga (gs.trans hsh) ext1 f1 n1
        (fun q hq => hlong q (n2.subset hq)) (hord.sublist n2.sublist) (fun q hq => hsh ▸ hcov q (n2.subset hq)) n4 n3 (by linarith) (by push_cast at hlim; omega)
      refine ⟨o, hloop.trans o1, o2, k + 1, by omega, by omega, ?_, fun hb => ?_⟩
      · rw [o5]
        push_cast
        rw [show c + 1 + (k : Int) + 1 = c + ((k : Int) + 1) + 1 by ring]
      · have := o6 fun q hq => hb q (n2.subset hq)
        push_cast
        linarith

/-- C206: traffic on a straight lane as in C201, and some vehicle, wherever it is in the queue, has goals for stretches of the lane ahead of it, one after the other and
each at least 16 m/s times a step long. A benchmark run with steps of at most 0.2 s that ends with success (all goals reached in turn), a collision or more than `limit`
evaluations ends with success and nothing else, no collision is reported, after at most `N` steps, `N` being any number of steps in which 13.4 m/s, less 133 m for the
start and 436 m and two extents per vehicle ahead, lead to the last stretch, if the limit allows for these and all stay on the lane -/
theorem C206_success {u : Setup Box Lane} {lane : Lane} {a b : Pt} (hu : Straight u lane a b) (t : Task) (hego : t.ego ≠ 4294967295) (hdep : 2 ≤ t.depth)
    (hsound : Sound t.collide) {dt : ℝ} (hdt : 0 < dt) (hdt5 : dt ≤ 1 / 5) (N : Nat) (limit : Int) (hlim : N + 1 ≤ limit) (sub : String → String → Bool) (set : String)
    (keep : Bool) {w : W Box} (hw : Props.WellFormed w) (hoff : w.removeAgents = false) (hmany : w.agents.length ≤ u.maxAgents + 1) {x : Nat → ℝ × ℝ}
    (hride : ∀ i ag, w.getAgent i = some ag → Rides (straightAt a b) w.time (x i).1 (x i).2 ag ∧ 0 ≤ (x i).2 ∧ (x i).2 ≤ 15 ∧
      N * dt / 20 ≤ (x i).1 ∧ (x i).1 + 16 * (N * dt) ≤ pdist a b)
    (hclear : AllClear w x) {ℓ : ℝ} (hℓ0 : 0 ≤ ℓ)
    (hℓ : ∀ i j ai aj, w.getAgent i = some ai → w.getAgent j = some aj → i ≠ j → ai.shape.front + aj.shape.rear ≤ ℓ)
    {ag : Agent ℝ V5 CAcc.Act Beh (Res (Interp.Exec V5)) Shape.Poly} (hi : w.getAgent t.ego = some ag)
    {h : Goal.Heap (Goal.AgentView Shape.Poly)} {rs : List Stretch} {last : Stretch} (haim : Aims h (t.goalOf t.ego) rs)
    (hlong : ∀ r ∈ rs, r.lo + 16 * dt ≤ r.hi) (hord : rs.Pairwise fun r r' => r.hi < r'.lo)
    (hcov : ∀ r ∈ rs, Covers a b ag.shape r) (hfirst : ∀ r, rs.head? = some r → (x t.ego).1 ≤ r.hi) (hlast : rs.getLast? = some last)
    (hlo : last.lo ≤ (x t.ego).1 + 13.4 * (N * dt) - 133 - Spec.ahead w x t.ego * (436 + ℓ)) :
    ∃ o, Bench.runConfig (simulation u t dt w h) (fun ev => Bench.isTerminal sub (criteria limit) ev set) keep (N + 1) = .ok (.pair o) ∧
      o.why = .names ["success"] ∧ o.steps ≤ N ∧
      o.ev = [("success", .flag true), ("collision", .flag false), ("max_steps", .num (o.steps + 1))] ∧
      ((∀ r ∈ rs, NotBefore a b ag.shape r) → last.lo ≤ (x t.ego).1 + 16 * (o.steps * dt)) := by
  cases rs with
  | nil => cases hlast
  | cons r rs =>
    obtain ⟨o, o1, o2, k, o3, o4, o5, o6⟩ := journey hu t hego hdep hsound hdt hdt5 limit sub set keep w h ag.shape last (ℓ := ℓ)
      (fun i => (x i).1 - Spec.ahead w x i * (436 + ℓ)) N w x 0 0 h 0
      (if keep then [⟨w, ⟨0, h⟩⟩] else []) r rs ag ⟨hw, hoff, hmany, hride, hclear⟩ hi rfl hℓ
      (flow_start (fun i ag hi => ⟨(hride i ag hi).1, (hride i ag hi).2.1⟩) hclear hℓ0) (left_of_aims haim) hlong hord hcov (hfirst r rfl) hlast
      (by linarith) (by omega)
    rw [Nat.zero_add] at o4
    subst o4
    refine ⟨o, ?_, o2, o3, by rw [o5]; simp, o6⟩
    unfold Bench.runConfig
    show (Bench.loop _ _ _ _ _ _ _ >>= _) = _
    rw [o1]
    rfl

/-- the second vehicle of `three`, behind the standing one, passes the mark at 230 m within 218 steps and not within 3 -/
example (collide : Shape.Poly → Shape.Poly → Bool) (hc : Sound collide) (sub : String → String → Bool) (set : String) :
    ∃ o, Bench.runConfig (simulation road ⟨2, fun _ => 0, 1, collide⟩ (1 / 5) three [.leaf (mark 230 240).goal])
        (fun ev => Bench.isTerminal sub (criteria 219) ev set) true 219 = .ok (.pair o) ∧
      o.why = .names ["success"] ∧ o.steps ≤ 218 ∧ 3 < o.steps ∧ o.ev = [("success", .flag true), ("collision", .flag false), ("max_steps", .num (o.steps + 1))] := by
  have hone : Spec.ahead three (fun i => if i = 0 then (300, 0) else if i = 1 then (220, 15) else (215, 14)) 1 = 1 := by
    unfold Spec.ahead
    rw [Set.ncard_eq_one]
    refine ⟨0, Set.ext fun k => ⟨?_, ?_⟩⟩
    · rintro ⟨ak, hk, hlt⟩
      rcases three_get hk with ⟨rfl, rfl⟩ | ⟨rfl, rfl⟩ | ⟨rfl, rfl⟩
      · rfl
      · norm_num at hlt
      · norm_num at hlt
    · rintro rfl
      exact ⟨_, rfl, by norm_num⟩
  obtain ⟨o, o1, o2, o3, o4, o5⟩ := C206_success road_straight ⟨2, fun _ => 0, 1, collide⟩ (by norm_num) (le_refl _) hc (dt := 1 / 5) (by norm_num) (le_refl _) 218 219 (by norm_num)
    sub set true three_wf rfl (by decide) (x := fun i => if i = 0 then (300, 0) else if i = 1 then (220, 15) else (215, 14))
    (by
      intro i ag h
      rw [road_len]
      rcases three_get h with ⟨rfl, rfl⟩ | ⟨rfl, rfl⟩ | ⟨rfl, rfl⟩
      · exact ⟨mover_rides _ _ _, by norm_num, by norm_num, by norm_num, by norm_num⟩
      · exact ⟨mover_rides _ _ _, by norm_num, by norm_num, by norm_num, by norm_num⟩
      · exact ⟨mover_rides _ _ _, by norm_num, by norm_num, by norm_num, by norm_num⟩)
    (by
      intro i j ai aj hi hj hij hle
      rcases three_get hi with ⟨rfl, rfl⟩ | ⟨rfl, rfl⟩ | ⟨rfl, rfl⟩ <;> rcases three_get hj with ⟨rfl, rfl⟩ | ⟨rfl, rfl⟩ | ⟨rfl, rfl⟩ <;>
        first
        | exact absurd rfl hij
        | (norm_num at hle; done)
        | (unfold Loop.Spec.Clear gap mover block; norm_num))
    (ℓ := 1) (by norm_num)
    (by
      intro i j ai aj hi hj _
      rcases three_get hi with ⟨rfl, rfl⟩ | ⟨rfl, rfl⟩ | ⟨rfl, rfl⟩ <;> rcases three_get hj with ⟨rfl, rfl⟩ | ⟨rfl, rfl⟩ | ⟨rfl, rfl⟩ <;> norm_num [mover, block])
    (ag := mover 1 220 15) rfl (h := [.leaf (mark 230 240).goal]) (rs := [mark 230 240]) (last := mark 230 240) (.inl ⟨_, rfl, rfl⟩)
    (by intro r hr; rw [List.mem_singleton] at hr; subst hr; norm_num [mark]) (List.pairwise_singleton _ _)
    (by intro r hr; rw [List.mem_singleton] at hr; subst hr; exact mark_covers _ _ _)
    (by intro r hr; simp only [List.head?_cons, Option.some.injEq] at hr; subst hr; norm_num [mark]) rfl (by rw [hone]; norm_num [mark])
  refine ⟨o, o1, o2, o3, ?_, o4⟩
  have := o5 (by intro r hr; rw [List.mem_singleton] at hr; subst hr; exact mark_not_before _ _ _)
  norm_num [mark] at this
  have h2 : (3 : ℝ) < o.steps := by linarith
  exact_mod_cast h2

end Bark.Flow
