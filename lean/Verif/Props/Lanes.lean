import Verif.Spec.Lanes
import Verif.Props.TrafficEval
import Verif.Props.TrafficAhead
import Verif.Props.Steering2

/-!
C218: straight lanes side by side. What happens on one lane does not depend on the vehicles of the others.
-/
set_option linter.unusedSectionVars false
namespace Bark.Flow
open Bark Bark.Ln Bark.Ln.Spec Bark.Fren Bark.Flow.Spec Bark.Angle
open Bark.Fren.Spec (along leftward)

section
variable {K St Act B E Sh Box O Lane : Type} [Field K] [LinearOrder K] [IsStrictOrderedRing K]

/-- agents which the search passes over can be left out -/
theorem frLoop_filter (P : Plug K St Act B E Sh Box O) (G : FRPlug K St Act B E Sh Box Lane) (p : FRParams K) (t : K) (lane : Lane) (ego : Nat) (st : St) (sh : Sh)
    (keep : Nat × Agent K St Act B E Sh → Bool) : ∀ (m : List (Nat × Agent K St Act B E Sh)) (acc : FrontRear K St Act B E Sh),
    (∀ q ∈ m, keep q = false → ∀ acc, frBody P G p t lane ego st sh acc q.2 = .ok acc) →
    frLoop P G p t lane ego st sh m acc = frLoop P G p t lane ego st sh (m.filter keep) acc
  | [], acc, _ => rfl
  | q :: m, acc, h => by
    have ih := fun acc => frLoop_filter P G p t lane ego st sh keep m acc fun q hq => h q (List.mem_cons_of_mem _ hq)
    cases hk : keep q with
    | true =>
      rw [List.filter_cons_of_pos hk]
      show (frBody P G p t lane ego st sh acc q.2 >>= fun acc' => _) = (frBody P G p t lane ego st sh acc q.2 >>= fun acc' => _)
      congr 1
      funext acc'
      exact ih acc'
    | false =>
      rw [List.filter_cons_of_neg (by rw [hk]; simp)]
      show (frBody P G p t lane ego st sh acc q.2 >>= fun acc' => _) = _
      rw [h q (List.mem_cons_self ..) hk acc, Res.ok_bind]
      exact ih acc

end

variable {Box Lane : Type}

/-- which agents are considered if there are few -/
theorem considered_all {u : Setup Box Lane} (hu : Default u) {w : W Box} (hw : Props.WellFormed w) (hfresh : World.rtreeOf (queries u) w.agents = .ok w.rtree)
    (hmany : w.agents.length ≤ u.maxAgents + 1) (s : V5) :
    ∃ m, w.getNearestAgents (queries u) ((geo u).nearest s (u.maxAgents + 1)) = .ok m ∧ OMap.Sorted m ∧ ∀ id a, OMap.find id m = some a ↔
      w.getAgent id = some a ∧ a.behavior.status = .valid ∧ a.isValidAtTime w.time = true := by
  obtain ⟨dist, hn⟩ := hu.nearest s
  have hidx := Props.indexOk_of_fresh (queries u) hfresh
  have hn' := hn (u.maxAgents + 1) w.rtree
  have hlen : w.rtree.length = w.agents.length := by
    have := congrArg List.length (World.rtreeOf_keys (queries u) hfresh)
    simpa [OMap.keys] using this
  obtain ⟨m, h1, h2, h3⟩ := Props.collectHits_ok (queries u) (fun _ => true) (w := w) (u.nearest s (u.maxAgents + 1) w.rtree)
    (fun p hp => hidx p (hn'.2.1.subset hp))
  refine ⟨m, h1, h2, fun id a => (h3 id a).trans ⟨fun ⟨_, k1, _, k2, k3⟩ => ⟨k1, k2, k3⟩, fun ⟨k1, k2, k3⟩ => ⟨?_, k1, rfl, k2, k3⟩⟩⟩
  have hk : id ∈ w.rtree.map Prod.snd := by
    rw [World.rtreeOf_keys (queries u) hfresh, ← OMap.find_isSome_iff]
    have k1' : OMap.find id w.agents = some a := k1
    rw [k1']; rfl
  obtain ⟨⟨bx, j⟩, hp, hj⟩ := List.mem_map.1 hk
  simp only at hj
  subst hj
  exact ⟨bx, Eval.kNearest_all hn' (by omega) _ hp⟩

/-- the search gives the same in both worlds if it passes over what is in one of them only -/
theorem frontRear_part {u : Setup Box Lane} (hu : Default u) {A : Nat → Prop} {w v : W Box} (hp : PartOf A w v) (hw : Props.WellFormed w) (hv : Props.WellFormed v)
    (hwf : World.rtreeOf (queries u) w.agents = .ok w.rtree) (hvf : World.rtreeOf (queries u) v.agents = .ok v.rtree)
    (hwm : w.agents.length ≤ u.maxAgents + 1) (hvm : v.agents.length ≤ u.maxAgents + 1) {lane : Lane} {ego : Nat} (hA : A ego)
    {eg : Agent ℝ V5 CAcc.Act Beh (Res (Interp.Exec V5)) Shape.Poly} (he : w.getAgent ego = some eg) (hval : eg.behavior.status = .valid)
    (hact : eg.isValidAtTime w.time = true) {ex : V5} (hst : eg.currentState = .ok ex)
    (hskip : ∀ j aj, w.getAgent j = some aj → ¬A j → ∀ acc, frBody (queries u) (geo u) u.thr w.time lane ego ex eg.shape acc aj = .ok acc) :
    getAgentFrontRear (queries u) (geo u) u.thr u.maxAgents false (some lane) ego w =
      getAgentFrontRear (queries u) (geo u) u.thr u.maxAgents false (some lane) ego v := by
  classical
  obtain ⟨m, m1, m2, m3⟩ := considered_all hu hw hwf hwm ex
  obtain ⟨n, n1, n2, n3⟩ := considered_all hu hv hvf hvm ex
  have he' : v.getAgent ego = some eg := by rw [hp.here ego hA]; exact he
  have hfil : n = m.filter fun q => decide (A q.1) := by
    have hs : OMap.Sorted (m.filter fun q => decide (A q.1)) := List.Pairwise.filter _ m2
    refine OMap.ext n2 hs fun k => ?_
    apply Option.ext
    intro a
    rw [n3]
    constructor
    · rintro ⟨h1, h2, h3⟩
      have hAk : A k := by
        by_contra hn
        rw [hp.gone k hn] at h1
        cases h1
      refine OMap.mem_find_some hs (List.mem_filter.2 ⟨OMap.find_some_mem ((m3 k a).2 ⟨by rw [← hp.here k hAk]; exact h1, h2, by rw [← hp.time]; exact h3⟩), by simpa using hAk⟩)
    · intro h
      obtain ⟨h1, h2⟩ := List.mem_filter.1 (OMap.find_some_mem h)
      have hAk : A k := by simpa using h2
      obtain ⟨k1, k2, k3⟩ := (m3 k a).1 (OMap.mem_find_some m2 h1)
      exact ⟨by rw [hp.here k hAk]; exact k1, k2, by rw [hp.time]; exact k3⟩
  have hm : m.isEmpty = false := by
    have := OMap.find_some_mem ((m3 ego eg).2 ⟨he, hval, hact⟩)
    cases m with
    | nil => cases this
    | cons q r => rfl
  have hn : n.isEmpty = false := by
    have := OMap.find_some_mem ((n3 ego eg).2 ⟨he', hval, by rw [hp.time]; exact hact⟩)
    cases n with
    | nil => cases this
    | cons q r => rfl
  have c1 : frConsidered (queries u) (geo u) u.maxAgents false (some lane) ego w = .ok m := by
    unfold frConsidered
    rw [if_neg (by simp), he]
    dsimp only
    rw [hst, Res.ok_bind]
    exact m1
  have c2 : frConsidered (queries u) (geo u) u.maxAgents false (some lane) ego v = .ok n := by
    unfold frConsidered
    rw [if_neg (by simp), he']
    dsimp only
    rw [hst, Res.ok_bind]
    exact n1
  unfold getAgentFrontRear
  rw [c1, c2, Res.ok_bind, Res.ok_bind]
  unfold frFrom
  dsimp only
  rw [hm, hn, he, he']
  simp only [Bool.false_eq_true, if_false]
  rw [hst, Res.ok_bind, Res.ok_bind, hp.time, hfil]
  refine frLoop_filter (queries u) (geo u) u.thr w.time lane ego ex eg.shape (fun q => decide (A q.1)) m _ ?_
  rintro ⟨j, aj⟩ hq hk acc
  exact hskip j aj ((m3 j aj).1 (OMap.mem_find_some m2 hq)).1 (by simpa using hk) acc

/-- so the agent plans the same -/
theorem plan_part {u : Setup Box Lane} (hu : Default u) {A : Nat → Prop} {w v : W Box} (hp : PartOf A w v) (hw : Props.WellFormed w) (hv : Props.WellFormed v)
    (hwf : World.rtreeOf (queries u) w.agents = .ok w.rtree) (hvf : World.rtreeOf (queries u) v.agents = .ok v.rtree)
    (hwm : w.agents.length ≤ u.maxAgents + 1) (hvm : v.agents.length ≤ u.maxAgents + 1) {lane : Lane} {ego : Nat} (hA : A ego)
    {eg : Agent ℝ V5 CAcc.Act Beh (Res (Interp.Exec V5)) Shape.Poly} (he : w.getAgent ego = some eg) (hval : eg.behavior.status = .valid)
    (hact : eg.isValidAtTime w.time = true) {ex : V5} (hst : eg.currentState = .ok ex) (hcor : u.corridor ((entries ex).x, (entries ex).y) = some lane)
    (hskip : ∀ j aj, w.getAgent j = some aj → ¬A j → ∀ acc, frBody (queries u) (geo u) u.thr w.time lane ego ex eg.shape acc aj = .ok acc) (dt : ℝ) :
    plan u eg.behavior dt w ego = plan u eg.behavior dt v ego ∧ (plan u eg.behavior dt w ego).status = .valid := by
  have he' : v.getAgent ego = some eg := by rw [hp.here ego hA]; exact he
  have hfr := frontRear_part hu hp hw hv hwf hvf hwm hvm hA he hval hact hst hskip
  unfold plan
  rw [he, he']
  dsimp only
  rw [hst]
  dsimp only
  unfold planFrom Pick.plan
  rw [hcor]
  dsimp only [Pick.reaction]
  unfold Lead.observedRel
  rw [hfr, hp.time]
  refine ⟨rfl, ?_⟩
  generalize getAgentFrontRear (queries u) (geo u) u.thr u.maxAgents false (some lane) ego v = fr
  cases fr with
  | error f => rfl
  | ok fr =>
    dsimp only
    generalize Lead.relValues u.laneEnd (u.lengthLeft lane ((entries ex).x, (entries ex).y)) (Lead.leader (geo u) u.idm.coolness lane fr.front) eg.behavior.action = r
    cases r with
    | error f => rfl
    | ok r =>
      dsimp only
      generalize generate u (u.roads.line lane) r w.time dt (entries ex) = g
      cases g <;> rfl

/-- one step: the agents that are in both worlds stay the same -/
theorem step_part {u : Setup Box Lane} (hu : Default u) {A : Nat → Prop} {w v w1 v1 : W Box} (hp : PartOf A w v) (hw : Props.WellFormed w) (hv : Props.WellFormed v)
    (hoff : w.removeAgents = false) (hwm : w.agents.length ≤ u.maxAgents + 1) (hvm : v.agents.length ≤ u.maxAgents + 1) {dt : ℝ}
    (h : World.step (plug u) dt w = .ok w1) (h' : World.step (plug u) dt v = .ok v1)
    (hok : ∀ i ag, A i → w.getAgent i = some ag → ∃ (lane : Lane) (ex : V5), ag.firstValid ≤ w.time ∧ ag.behavior.status = .valid ∧ ag.currentState = .ok ex ∧
      u.corridor ((entries ex).x, (entries ex).y) = some lane ∧
      ∀ j aj, w.getAgent j = some aj → ¬A j → ∀ acc, frBody (queries u) (geo u) u.thr w.time lane i ex ag.shape acc aj = .ok acc) :
    PartOf A w1 v1 := by
  have t1 := Loop.step_keeps (plug u) h
  have t2 := Loop.step_keeps (plug u) h'
  refine ⟨by rw [t1.1, t2.1, hp.time], by rw [t1.2, t2.2, hp.removal], fun i hA => ?_, fun i hA => ?_⟩
  · cases hi : w.getAgent i with
    | none =>
      rw [(Props.step_effect (plug u) hw h i).1 hi, (Props.step_effect (plug u) hv h' i).1 (by rw [hp.here i hA, hi])]
    | some ag =>
      have hi' : v.getAgent i = some ag := by rw [hp.here i hA, hi]
      obtain ⟨lane, ex, c1, c2, c3, c4, c5⟩ := hok i ag hA hi
      obtain ⟨o, index, x, f1, f2, f3⟩ := step_fresh (plug u) hw h hi
      obtain ⟨o', index', x', g1, g2, g3⟩ := step_fresh (plug u) hv h' hi'
      have hact' : ag.firstValid ≤ w.time + 1 / 2 ^ 52 := by
        have : (0 : ℝ) < 1 / 2 ^ 52 := by positivity
        linarith
      rw [rtreeOf_same] at f1 g1
      have hobs : ((plug u).observe o { w with rtree := index } i).2 = { w with rtree := index } := rfl
      have hobs' : ((plug u).observe o' { v with rtree := index' } i).2 = { v with rtree := index' } := rfl
      rw [hobs] at f3
      rw [hobs'] at g3
      obtain ⟨p1, p2⟩ := plan_part hu (A := A) (w := { w with rtree := index }) (v := { v with rtree := index' }) ⟨hp.time, hp.removal, hp.here, hp.gone⟩ hw hv f1 g1 hwm hvm
        hA hi c2 (by unfold Agent.isValidAtTime dblEps; simpa using hact') c3 c4 c5 dt
      have e1 : Bark.Spec.planned (plug u) w.time dt { w with rtree := index } i ag = Bark.Spec.planned (plug u) v.time dt { v with rtree := index' } i ag := by
        unfold Bark.Spec.planned
        have e : (plug u).plan ag.behavior dt { w with rtree := index } i = (plug u).plan ag.behavior dt { v with rtree := index' } i := p1
        rw [e, hp.time]
      have e2 : (plug u).status (Bark.Spec.planned (plug u) w.time dt { w with rtree := index } i ag).behavior = .valid := by
        unfold Bark.Spec.planned
        rw [if_pos hact']
        exact p2
      have k1 : ∀ bx, ¬Bark.Spec.dropped (plug u) w bx (Bark.Spec.planned (plug u) w.time dt { w with rtree := index } i ag) := by
        rintro bx (k | ⟨k, -⟩)
        · rw [e2] at k; cases k
        · rw [hoff] at k; cases k
      have k2 : ∀ bx, ¬Bark.Spec.dropped (plug u) v bx (Bark.Spec.planned (plug u) v.time dt { v with rtree := index' } i ag) := by
        rintro bx (k | ⟨k, -⟩)
        · rw [← e1, e2] at k; cases k
        · rw [hp.removal, hoff] at k; cases k
      rw [f3 (k1 _), g3 (k2 _), e1, hp.time]
  · exact (Props.step_effect (plug u) hv h' i).1 (hp.gone i hA)

/-! ### a vehicle on another lane is passed over -/

theorem vec_of_unit {a b : Pt} (hab : a ≠ b) : vec a b = (pdist a b * (unit a b).1, pdist a b * (unit a b).2) := by
  have := (pdist_pos hab).ne'
  unfold vec unit
  ext <;> dsimp only <;> field_simp

/-- the direction of a parallel lane -/
theorem dir_same {a b a' b' : Pt} (hab : a ≠ b) (hu : unit a' b' = unit a b) {θ : ℝ} (h : HasDir (vec a' b') θ) : HasDir (vec a b) θ := by
  refine ⟨pdist a b, pdist_pos hab, ?_⟩
  rw [vec_of_unit hab, ← hu, unit_of_dir h]

/-- of an oncoming lane -/
theorem dir_opposite {a b a' b' : Pt} (hab : a ≠ b) (hu : unit a' b' = -unit a b) {θ : ℝ} (h : HasDir (vec a' b') θ) : HasDir (vec a b) (θ + Real.pi) := by
  refine ⟨pdist a b, pdist_pos hab, ?_⟩
  have e := hu.symm.trans (unit_of_dir h)
  have e1 : (unit a b).1 = -Real.cos θ := by have := congrArg Prod.fst e; simp only [Prod.fst_neg] at this; linarith
  have e2 : (unit a b).2 = -Real.sin θ := by have := congrArg Prod.snd e; simp only [Prod.snd_neg] at this; linarith
  rw [vec_of_unit hab, e1, e2, Real.cos_add_pi, Real.sin_add_pi]

/-- how far to the left of a lane a point of a parallel lane is -/
theorem left_parallel {a b a' b' : Pt} (hu : unit a' b' = unit a b ∨ unit a' b' = -unit a b) (s : ℝ) : leftOfLane a b (onLane a' b' s) = leftOfLane a b a' := by
  unfold leftOfLane onLane
  rcases hu with h | h <;> rw [h] <;> simp only [Prod.fst_neg, Prod.snd_neg] <;> ring

/-- no point of the lane is nearer than this -/
theorem left_le {a b : Pt} (hab : a ≠ b) {p q : Pt} {t : ℝ} (hq : q = lerp a b t) {θ : ℝ} (hθ : HasDir (vec a b) θ) :
    leftward θ (vec q p) = leftOfLane a b p ∧ |leftOfLane a b p| ≤ pdist p q := by
  have hu := unit_of_dir hθ
  have e : leftward θ (vec q p) = leftOfLane a b p := by
    unfold leftward vec leftOfLane
    rw [hu, hq]
    have hv := vec_of_unit hab
    rw [hu] at hv
    unfold vec at hv
    simp only [Prod.mk.injEq] at hv
    unfold lerp
    dsimp only
    rw [hv.1, hv.2]
    ring
  refine ⟨e, ?_⟩
  rw [← e, pdist_decompose θ]
  apply Real.abs_le_sqrt
  nlinarith [sq_nonneg (along θ (vec q p))]

theorem frenet_beside {a b : Pt} (hab : a ≠ b) (x : V5) : ∃ θ, HasDir (vec a b) θ ∧ (frenetOf (ofArray [a, b]) x).angle = signedAngleDiff id θ x.2.2.2.1 ∧
    (0 < leftOfLane a b (x.2.1, x.2.2.1) → leftOfLane a b (x.2.1, x.2.2.1) ≤ (frenetOf (ofArray [a, b]) x).lat) ∧
    (leftOfLane a b (x.2.1, x.2.2.1) < 0 → (frenetOf (ofArray [a, b]) x).lat ≤ leftOfLane a b (x.2.1, x.2.2.1)) := by
  obtain ⟨t1, t2, t3⟩ := ofArray2 hab
  obtain ⟨f, s, q, θ, h1, hf, hlat, hang⟩ := Str.ofState_total t1 t2 t3 (entries x)
  obtain ⟨τ, k1, k2⟩ := tangent2 hab s
  have hτ : τ = θ := by
    have := hf.2.2
    rw [k1] at this
    injection this
  subst hτ
  obtain ⟨r, -, -, r3, -⟩ := atArc2 hf.1
  obtain ⟨g1, g2⟩ := left_le hab (p := ((entries x).x, (entries x).y)) r3 k2
  have e : frenetOf (ofArray [a, b]) x = ⟨f.lon, f.lat, f.vlon, f.vlat, f.angle⟩ := by unfold frenetOf; rw [h1]
  obtain ⟨l1, l2, -, -⟩ := lat_spec τ ((entries x).x, (entries x).y) q
  rw [e]
  refine ⟨τ, k2, hang, fun h => ?_, fun h => ?_⟩
  · dsimp only
    rw [hlat, l1 (by rw [g1]; exact h)]
    exact (le_abs_self _).trans g2
  · dsimp only
    rw [hlat, l2 (by rw [g1]; exact h)]
    have := (neg_le_abs _).trans g2
    have e' : ((entries x).x, (entries x).y) = (x.2.1, x.2.2.1) := rfl
    rw [e'] at this ⊢
    linarith

/-- lateral difference of vehicles side by side -/
theorem diff_beside {K : Type} [Field K] [LinearOrder K] [IsStrictOrderedRing K] {fe fo : Frenet K} {e1 e2 : Ext K} (h0 : fe.lat = 0)
    (h : e1.left + e2.right < fo.lat ∧ 0 ≤ e1.left + e2.right ∨ fo.lat < -(e1.right + e2.right) ∧ 0 ≤ e1.right + e2.right) :
    (frenetDiff fe fo e1 e2).latZeroed = false ∧ (frenetDiff fe fo e1 e2).lat ≠ 0 := by
  unfold frenetDiff
  dsimp only
  rw [h0]
  rcases h with ⟨h, k⟩ | ⟨h, k⟩
  · have c1 : 0 ≤ fo.lat := by linarith
    have c2 : 0 < fo.lat - e2.right - (0 + e1.left) := by linarith
    rw [if_pos c1, if_pos c1, if_pos c2]
    exact ⟨decide_eq_false (not_le.2 c2), c2.ne'⟩
  · have c1 : ¬0 ≤ fo.lat := by linarith
    have c2 : fo.lat + e1.right - (0 - e2.right) < 0 := by linarith
    rw [if_neg c1, if_neg c1, if_pos c2]
    exact ⟨decide_eq_false (not_le.2 c2), c2.ne⟩

theorem skip_beside {u : Setup Box Lane} {lane : Lane} {a b a' b' : Pt} (hu : Straight u lane a b) (hpar : unit a' b' = unit a b ∨ unit a' b' = -unit a b)
    {t s v s' v' : ℝ} (h0 : 0 ≤ s) (h1 : s ≤ pdist a b) {ego : Nat} {eg aj : Agent ℝ V5 CAcc.Act Beh (Res (Interp.Exec V5)) Shape.Poly} {ex : V5}
    (he : eg.currentState = .ok ex) (hre : Rides (straightAt a b) t s v eg) (hrj : Rides (straightAt a' b') t s' v' aj)
    (hb : eg.shape.left + aj.shape.left < |leftOfLane a b a'|) (acc) :
    frBody (queries u) (geo u) u.thr t lane ego ex eg.shape acc aj = .ok acc := by
  obtain ⟨_, θ, ⟨rfl, hθ⟩, hst⟩ := hre.state
  obtain ⟨_, θ', ⟨rfl, hθ'⟩, hst'⟩ := hrj.state
  rw [he] at hst
  rw [Except.ok.injEq] at hst
  subst hst
  unfold frBody
  split_ifs with hc
  · rfl
  rw [hst']
  dsimp only
  have hfe : (geo u).frenet lane (t, (onLane a b s).1, (onLane a b s).2, θ, v) = ⟨s, 0, v, 0, 0⟩ := by
    show frenetOf (u.roads.line lane) _ = _
    rw [hu.line]
    exact frenet_onLane hu.ends h0 h1 t v hθ
  obtain ⟨τ, k1, k2, k3, k4⟩ := frenet_beside hu.ends (t, (onLane a' b' s').1, (onLane a' b' s').2, θ', v')
  have hfo : (geo u).frenet lane (t, (onLane a' b' s').1, (onLane a' b' s').2, θ', v') = frenetOf (ofArray [a, b]) (t, (onLane a' b' s').1, (onLane a' b' s').2, θ', v') := by
    show frenetOf (u.roads.line lane) _ = _
    rw [hu.line]
  dsimp only at k2 k3 k4
  rw [Prod.mk.eta, left_parallel hpar] at k3 k4
  have hext : ∀ sh, (geo u).ext sh 0 = ⟨sh.front, sh.rear, sh.left, sh.left⟩ := fun sh => ext_zero (dims sh)
  rw [if_pos]
  rcases hpar with hpar | hpar
  · left
    have hz := turn_zero k1 (dir_same hu.ends hpar hθ')
    rw [hz] at k2
    have hd : frDiff (geo u) lane (t, (onLane a b s).1, (onLane a b s).2, θ, v) eg.shape (t, (onLane a' b' s').1, (onLane a' b' s').2, θ', v') aj =
        frenetDiff ⟨s, 0, v, 0, 0⟩ (frenetOf (ofArray [a, b]) (t, (onLane a' b' s').1, (onLane a' b' s').2, θ', v'))
          ⟨eg.shape.front, eg.shape.rear, eg.shape.left, eg.shape.left⟩ ⟨aj.shape.front, aj.shape.rear, aj.shape.left, aj.shape.left⟩ := by
      unfold frDiff
      dsimp only
      rw [hfe, hfo, k2]
      dsimp only
      rw [hext, hext]
    rw [hd, hu.thr]
    obtain ⟨d1, d2⟩ := diff_beside (fe := (⟨s, 0, v, 0, 0⟩ : Frenet ℝ)) (fo := frenetOf (ofArray [a, b]) (t, (onLane a' b' s').1, (onLane a' b' s').2, θ', v'))
      (e1 := ⟨eg.shape.front, eg.shape.rear, eg.shape.left, eg.shape.left⟩) (e2 := ⟨aj.shape.front, aj.shape.rear, aj.shape.left, aj.shape.left⟩) rfl (by
        have s1 := hre.shape.side
        have s2 := hrj.shape.side
        dsimp only
        rcases lt_trichotomy 0 (leftOfLane a b a') with g | g | g
        · rw [abs_of_pos g] at hb
          exact Or.inl ⟨by linarith [k3 g], by linarith⟩
        · rw [← g, abs_zero] at hb; linarith
        · rw [abs_of_neg g] at hb
          exact Or.inr ⟨by linarith [k4 g], by linarith⟩)
    rw [d1]
    simp only [Bool.false_eq_true, if_false]
    exact abs_pos.2 d2
  · right
    rw [hfo, k2, hu.thr]
    dsimp only
    obtain ⟨b1, b2, ⟨k, hk⟩, -⟩ := C31_signed_difference τ θ'
    obtain ⟨j, hj⟩ := dir_of_hasDir k1 (dir_opposite hu.ends hpar hθ')
    have hpi := Real.pi_pos
    by_contra hcon
    rw [not_lt, abs_le] at hcon
    have e : signedAngleDiff id τ θ' = Real.pi * (1 + 2 * ((j + k : ℤ) : ℝ)) := by rw [hk, hj]; push_cast; ring
    rw [e] at hcon
    have h1 : (-1 : ℝ) < 1 + 2 * ((j + k : ℤ) : ℝ) := by
      by_contra hh
      nlinarith [hcon.1]
    have h2 : 1 + 2 * ((j + k : ℤ) : ℝ) < 1 := by
      by_contra hh
      nlinarith [hcon.2]
    have h3 : (-1 : ℤ) < 1 + 2 * (j + k) := by exact_mod_cast h1
    have h4 : 1 + 2 * (j + k) < (1 : ℤ) := by exact_mod_cast h2
    omega

end Bark.Flow
