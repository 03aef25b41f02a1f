import Verif.Spec.TrafficEval
import Verif.Props.TrafficRun
import Mathlib.Analysis.Convex.Combination

/-! C213: what the evaluators say about traffic on a straight lane. -/
namespace Bark.Flow
open Bark Bark.Ln Bark.Ln.Spec Bark.Flow.Spec

variable {Box Lane : Type}

theorem run_index {K St Act B E Sh O : Type} [Field K] [LinearOrder K] [IsStrictOrderedRing K] (P : Plug K St Act B E Sh Box O) (dts : List K)
    {w w' : World K St Act B E Sh Box O} (hi : Props.IndexOk w) (h : World.run P w (Loop.Spec.steps dts) = .ok w') : Props.IndexOk w' := by
  induction dts generalizing w with
  | nil => cases h; exact hi
  | cons d ds ih =>
    obtain ⟨w1, h1, h2⟩ := Res.bind_ok (show (World.apply P w (.step d) >>= fun w1 => World.run P w1 (Loop.Spec.steps ds)) = _ from h)
    exact ih (Props.apply_synced P (b := true) (.step d) (fun _ => hi) h1 rfl) h2

theorem convex_strip (a b : Pt) (rear front right left : ℝ) : Convex ℝ (strip a b rear front right left) := by
  intro p hp q hq c d hc hd hcd
  obtain ⟨p1, p2, p3, p4⟩ := hp
  obtain ⟨q1, q2, q3, q4⟩ := hq
  have e1 : alongLane a b (c • p + d • q) = c * alongLane a b p + d * alongLane a b q := by
    have : d = 1 - c := by linarith
    subst this
    unfold alongLane
    simp only [Prod.fst_add, Prod.snd_add, Prod.smul_fst, Prod.smul_snd, smul_eq_mul]
    ring
  have e2 : leftOfLane a b (c • p + d • q) = c * leftOfLane a b p + d * leftOfLane a b q := by
    have : d = 1 - c := by linarith
    subst this
    unfold leftOfLane
    simp only [Prod.fst_add, Prod.snd_add, Prod.smul_fst, Prod.smul_snd, smul_eq_mul]
    ring
  have mix : ∀ x y k : ℝ, x ≤ k → y ≤ k → c * x + d * y ≤ k := by
    intro x y k h1 h2
    have : d = 1 - c := by linarith
    subst this
    nlinarith
  have mix' : ∀ x y k : ℝ, k ≤ x → k ≤ y → k ≤ c * x + d * y := by
    intro x y k h1 h2
    have : d = 1 - c := by linarith
    subst this
    nlinarith
  exact ⟨e1 ▸ mix' _ _ _ p1 q1, e1 ▸ mix _ _ _ p2 q2, e2 ▸ mix' _ _ _ p3 q3, e2 ▸ mix _ _ _ p4 q4⟩

/-- a body on the lane stays in the strip -/
theorem body_strip {a b : Pt} {θ s : ℝ} (hθ : HasDir (vec a b) θ) (h0 : 0 ≤ s) (h1 : s ≤ pdist a b) {sh : Shape.Poly} {rear front right left : ℝ}
    (hf : Fits sh rear front right left) : body sh (onLane a b s) θ ⊆ strip a b rear front right left := by
  refine convexHull_min ?_ (convex_strip a b rear front right left)
  rintro q ⟨p, hp, rfl⟩
  obtain ⟨f1, f2, f3, f4⟩ := hf p hp
  have hu := unit_of_dir hθ
  have hcs := Real.sin_sq_add_cos_sq θ
  have e1 : alongLane a b ((onLane a b s).1 + (Real.cos θ * p.1 - Real.sin θ * p.2), (onLane a b s).2 + (Real.sin θ * p.1 + Real.cos θ * p.2)) = s + p.1 := by
    unfold alongLane onLane
    rw [hu]
    linear_combination (s + p.1) * hcs
  have e2 : leftOfLane a b ((onLane a b s).1 + (Real.cos θ * p.1 - Real.sin θ * p.2), (onLane a b s).2 + (Real.sin θ * p.1 + Real.cos θ * p.2)) = p.2 := by
    unfold leftOfLane onLane
    rw [hu]
    linear_combination p.2 * hcs
  refine ⟨?_, ?_, ?_, ?_⟩
  · rw [e1]; linarith
  · rw [e1]; linarith
  · rw [e2]; linarith
  · rw [e2]; linarith

/-- C213: traffic as in C201 on a road that covers the strip along the lane is judged safe at any time: for every vehicle the evaluator of
collisions with it answers no, whatever number of nearest vehicles it looks at, and the evaluator of the drivable area answers no, for all vehicles
and for each of them. -/
theorem C213_judged {u : Setup Box Lane} {lane : Lane} {a b : Pt} (hu : Straight u lane a b) {w : W Box} (hw : Props.WellFormed w) (hoff : w.removeAgents = false)
    (hidx : ∀ p ∈ w.rtree, (w.getAgent p.2).isSome)
    (hmany : w.agents.length ≤ u.maxAgents + 1) (dts : List ℝ) (hpos : ∀ d ∈ dts, 0 < d ∧ d ≤ 1 / 5) {x : Nat → ℝ × ℝ}
    (hride : ∀ i ag, w.getAgent i = some ag → Rides (straightAt a b) w.time (x i).1 (x i).2 ag ∧ 0 ≤ (x i).2 ∧ (x i).2 ≤ 15 ∧
      dts.sum / 20 ≤ (x i).1 ∧ (x i).1 + 16 * dts.sum ≤ pdist a b)
    (hclear : AllClear w x) {rear front right left : ℝ} (hfit : ∀ i ag, w.getAgent i = some ag → Fits ag.shape rear front right left) :
    ∃ w' : W Box, World.run (plug u) w (Loop.Spec.steps dts) = .ok w' ∧
      (∀ collide, Sound collide → ∀ nearest : V5 → List (Box × Nat) → List (Box × Nat), (∀ s l, ∀ p ∈ nearest s l, p ∈ l) →
        ∀ ego, Eval.collisionEgo (plug u) outline collide nearest ego w' = .ok false) ∧
      ∀ within region, Accepts within region → ∀ road : Agent ℝ V5 CAcc.Act Beh (Res (Interp.Exec V5)) Shape.Poly → Option Shape.Poly,
        (∀ ag, ∃ r, road ag = some r ∧ strip a b rear front right left ⊆ region r) →
        Eval.drivableArea (plug u) outline within road 4294967295 w' = .ok false ∧
        ∀ id, id ≠ 4294967295 → (w.getAgent id).isSome → Eval.drivableArea (plug u) outline within road id w' = .ok false := by
  obtain ⟨w', x', r, ht, n, s, hrd, o, hcl, hwf⟩ := traffic_run (setting_straight hu) hw hoff hmany dts hpos hride hclear
  obtain ⟨hb, hn⟩ := no_contact (u := u) hcl hwf (fun i a1 hi => (hrd i a1 hi).1)
  have hi' : Props.IndexOk w' := run_index (plug u) dts hidx r
  refine ⟨w', r, fun collide hc nearest hsub ego => ?_, fun within region hacc road hroad => ?_⟩
  · obtain ⟨k1, k2⟩ := Eval.C40_ego (plug u) outline collide nearest hsub hwf hi' ego
    cases he : OMap.find ego w'.agents with
    | none => exact k1 he
    | some ae =>
      obtain ⟨se, res, e1, e2, e3⟩ := k2 ae he
      rw [e2]
      cases res with
      | false => rfl
      | true =>
        obtain ⟨j, aj, sj, hne, -, ⟨t1, -, -, t4⟩, hcol⟩ := e3.1 rfl
        have ce := (Eval.currentState_iff ae se).2 e1
        have cj := (Eval.currentState_iff aj sj).2 t4
        have ne := hc _ _ hcol
        obtain ⟨t, x1, y1, θ, v⟩ := se
        obtain ⟨t', x2, y2, θ', v'⟩ := sj
        rw [outline_body (hrd ego ae he).1.shape, outline_body (hrd j aj t1).1.shape] at ne
        have := hb ego j ae aj t (x1, y1) θ v t' (x2, y2) θ' v' he t1 (Ne.symm hne) ce cj
        exact absurd ne (by rw [Set.not_nonempty_iff_eq_empty]; exact Set.disjoint_iff_inter_eq_empty.1 this)
  · have inside : ∀ i ai si rd, w'.getAgent i = some ai → ai.currentState = .ok si → road ai = some rd → within (outline ai.shape si) rd = true := by
      intro i ai si rd hi hs hr
      obtain ⟨rd', g1, g2⟩ := hroad ai
      rw [hr] at g1
      cases g1
      refine hacc _ _ (Set.Subset.trans ?_ g2)
      obtain ⟨hR, -, -, z0, z1⟩ := hrd i ai hi
      obtain ⟨p, θ, ⟨rfl, hd⟩, c⟩ := hR.state
      rw [hs, Except.ok.injEq] at c
      subst c
      rw [outline_body hR.shape]
      have hag : ∃ ag, w.getAgent i = some ag := by
        cases hg : w.getAgent i with
        | none => rw [(n i).2 hg] at hi; cases hi
        | some ag => exact ⟨ag, rfl⟩
      obtain ⟨ag, hag⟩ := hag
      exact body_strip hd z0 z1 (by rw [s i ag ai hag hi]; exact hfit i ag hag)
    constructor
    · obtain ⟨res, e1, e2⟩ := Eval.C42_drivable_all (plug u) outline within road hwf.1
        (fun y hy => (hwf.2.1 y.1 y.2 (OMap.mem_find_some hwf.1 hy)).1)
        (fun y _ => by obtain ⟨rd, g, -⟩ := hroad y.2; rw [g]; rfl)
      rw [e1]
      cases res with
      | false => rfl
      | true =>
        obtain ⟨i, ai, si, rd, ⟨t1, -, -, t4⟩, hr, hf⟩ := e2.1 rfl
        rw [inside i ai si rd t1 ((Eval.currentState_iff ai si).2 t4) hr] at hf
        cases hf
    · intro id hid hsome
      obtain ⟨-, k2⟩ := Eval.C42_drivable_one (plug u) outline within road w' id hid
      cases hg : w'.getAgent id with
      | none => rw [(n id).1 hg] at hsome; cases hsome
      | some ai =>
        obtain ⟨hR, -⟩ := hrd id ai hg
        obtain ⟨p, θ, -, c⟩ := hR.state
        obtain ⟨rd, g1, -⟩ := hroad ai
        rw [(k2 ai _ hg ((Eval.currentState_iff ai _).1 c)).1 rd g1, inside id ai _ rd hg c g1]
        rfl

open Classical in
/-- three vehicles, one of them standing, on a 4 m wide road: at any time within 40 s the check of the ego vehicle 2 and of the drivable area -/
example (n : Nat) (hn : n ≤ 200) : ∃ w' : W ℝ, World.run (plug road) three (Loop.Spec.steps (List.replicate n (1 / 5))) = .ok w' ∧
    Eval.collisionEgo (plug road) outline (fun p q => decide (convexHull ℝ {r : ℝ × ℝ | r ∈ p.pts} ∩ convexHull ℝ {r : ℝ × ℝ | r ∈ q.pts}).Nonempty)
      (fun _ l => l.take 4) 2 w' = .ok false ∧
    Eval.drivableArea (plug road) outline
      (fun p q => decide (convexHull ℝ {r : ℝ × ℝ | r ∈ p.pts} ⊆ convexHull ℝ {r : ℝ × ℝ | r ∈ q.pts}))
      (fun _ => some ⟨[(-1, -2), (-1, 2), (1001, 2), (1001, -2)], ⟨0, 0, 0⟩, 0, 0, 0, 0⟩) 4294967295 w' = .ok false := by
  have hsum : (List.replicate n (1 / 5 : ℝ)).sum = n / 5 := by rw [List.sum_replicate]; simp; ring
  have hn' : (n : ℝ) ≤ 200 := by exact_mod_cast hn
  have hn0 : (0 : ℝ) ≤ n := Nat.cast_nonneg n
  obtain ⟨w', h1, h2, h3⟩ := C213_judged road_straight three_wf rfl (by simp [three, traffic]) (by decide) (List.replicate n (1 / 5))
    (by intro d hd; rw [List.eq_of_mem_replicate hd]; norm_num) (x := fun i => if i = 0 then (300, 0) else if i = 1 then (220, 15) else (215, 14))
    (by
      intro i ag h
      rw [hsum, road_len]
      rcases three_get h with ⟨rfl, rfl⟩ | ⟨rfl, rfl⟩ | ⟨rfl, rfl⟩
      · exact ⟨mover_rides _ _ _, by norm_num, by norm_num, by norm_num; linarith, by norm_num; linarith⟩
      · exact ⟨mover_rides _ _ _, by norm_num, by norm_num, by norm_num; linarith, by norm_num; linarith⟩
      · exact ⟨mover_rides _ _ _, by norm_num, by norm_num, by norm_num; linarith, by norm_num; linarith⟩)
    (by
      intro i j ai aj hi hj hij hle
      rcases three_get hi with ⟨rfl, rfl⟩ | ⟨rfl, rfl⟩ | ⟨rfl, rfl⟩ <;> rcases three_get hj with ⟨rfl, rfl⟩ | ⟨rfl, rfl⟩ | ⟨rfl, rfl⟩ <;>
        first
        | exact absurd rfl hij
        | (norm_num at hle; done)
        | (unfold Loop.Spec.Clear gap mover block; norm_num))
    (rear := 1) (front := 1) (right := 1) (left := 1)
    (by
      intro i ag h p hp
      have hb : ag.shape = block := by rcases three_get h with ⟨rfl, rfl⟩ | ⟨rfl, rfl⟩ | ⟨rfl, rfl⟩ <;> rfl
      rw [hb] at hp
      simp only [block, List.mem_cons, List.not_mem_nil, or_false] at hp
      rcases hp with rfl | rfl | rfl | rfl <;> norm_num)
  refine ⟨w', h1, h2 _ (fun p q h => of_decide_eq_true h) _ (fun s l p hp => List.mem_of_mem_take hp) 2,
    (h3 _ (fun q => convexHull ℝ {r : ℝ × ℝ | r ∈ q.pts}) (fun p r h => decide_eq_true h) _ (fun ag => ⟨_, rfl, ?_⟩)).1⟩
  intro q hq
  obtain ⟨q1, q2, q3, q4⟩ := hq
  have hu : unit ((0, 0) : Pt) (1000, 0) = (1, 0) := by
    unfold unit
    rw [road_len]
    norm_num
  simp only [alongLane, leftOfLane, hu, road_len] at q1 q2 q3 q4
  have box : convexHull ℝ {r : ℝ × ℝ | r ∈ ([(-1, -2), (-1, 2), (1001, 2), (1001, -2)] : List (ℝ × ℝ))} = Set.Icc (-1) 1001 ×ˢ Set.Icc (-2) 2 := by
    have e : {r : ℝ × ℝ | r ∈ ([(-1, -2), (-1, 2), (1001, 2), (1001, -2)] : List (ℝ × ℝ))} = ({-1, 1001} : Set ℝ) ×ˢ ({-2, 2} : Set ℝ) := by
      ext ⟨p1, p2⟩
      simp only [Set.mem_setOf_eq, List.mem_cons, List.not_mem_nil, or_false, Prod.mk.injEq, Set.mem_prod, Set.mem_insert_iff, Set.mem_singleton_iff]
      constructor
      · rintro (⟨rfl, rfl⟩ | ⟨rfl, rfl⟩ | ⟨rfl, rfl⟩ | ⟨rfl, rfl⟩) <;> simp
      · rintro ⟨rfl | rfl, rfl | rfl⟩ <;> simp
    rw [e, convexHull_prod, convexHull_pair, convexHull_pair, segment_eq_Icc (by norm_num), segment_eq_Icc (by norm_num)]
  show q ∈ convexHull ℝ {r : ℝ × ℝ | r ∈ ([(-1, -2), (-1, 2), (1001, 2), (1001, -2)] : List (ℝ × ℝ))}
  rw [box]
  exact ⟨⟨by linarith, by linarith⟩, by linarith, by linarith⟩

end Bark.Flow
