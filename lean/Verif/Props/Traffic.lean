import Verif.Spec.Traffic
import Verif.Props.Platoon
import Verif.Props.IdmLeader
import Verif.Props.Steering2
import Verif.Props.PickPlane
import Verif.Props.Evaluators
import Verif.Props.ShapeExt

/-!
C201: traffic of IDM vehicles on a straight lane.
-/
set_option linter.unusedSectionVars false
namespace Bark.Flow
open Bark Bark.Ln Bark.Ln.Spec Bark.Fren Bark.Flow.Spec Bark.Angle

variable {Box Lane : Type}

/-! ### a straight lane -/

theorem pdist_pos {a b : Pt} (hab : a ≠ b) : 0 < pdist a b :=
  lt_of_le_of_ne (pdist_nonneg a b) (fun e => hab (pdist_eq_zero.1 e.symm))

theorem onLane_lerp {a b : Pt} (s : ℝ) : onLane a b s = lerp a b (s / pdist a b) := by
  unfold onLane unit lerp
  ext <;> dsimp only <;> ring

theorem lerp_inj {a b : Pt} (hab : a ≠ b) {t t' : ℝ} (h : lerp a b t = lerp a b t') : t = t' := by
  unfold lerp at h
  simp only [Prod.mk.injEq, add_right_inj] at h
  by_contra hne
  apply hab
  have e : ∀ c : ℝ, t * c = t' * c → c = 0 := fun c hc => by
    have : (t - t') * c = 0 := by linarith
    rcases mul_eq_zero.1 this with k | k
    · exact absurd (by linarith) hne
    · exact k
  have e1 := e _ h.1
  have e2 := e _ h.2
  ext <;> linarith

theorem turn_zero {v : Pt} {θ θ' : ℝ} (h : HasDir v θ) (h' : HasDir v θ') : signedAngleDiff id θ θ' = 0 := by
  obtain ⟨d1, d2, d3, -⟩ := C31_signed_difference θ θ'
  obtain ⟨k, hk⟩ := dir_of_hasDir h h'
  obtain ⟨j, hj⟩ := d3
  exact Str.zero_of_turn d1 d2 ⟨k + j, by push_cast; linarith⟩

/-- the frenet state of a vehicle on the lane -/
theorem frenet_onLane {a b : Pt} (hab : a ≠ b) {s : ℝ} (h0 : 0 ≤ s) (h1 : s ≤ pdist a b) (t v : ℝ) {θ : ℝ} (hθ : HasDir (vec a b) θ) :
    frenetOf (ofArray [a, b]) (t, (onLane a b s).1, (onLane a b s).2, θ, v) = ⟨s, 0, v, 0, 0⟩ := by
  obtain ⟨t1, t2, t3⟩ := ofArray2 hab
  have hL := pdist_pos hab
  obtain ⟨q, s', i, τ, k1, k3, k4⟩ := foot_exists t1 t2 t3 (onLane a b s)
  have hon : OnLine [a, b] (onLane a b s) := ⟨0, a, b, s / pdist a b, rfl, rfl, div_nonneg h0 hL.le, (div_le_one hL).2 h1, onLane_lerp s⟩
  have hq : onLane a b s = q := by
    have := k4.2.1 (onLane a b s) hon
    rw [pdist_eq_zero.2 rfl] at this
    exact pdist_eq_zero.1 (le_antisymm this (pdist_nonneg _ _))
  obtain ⟨r, -, -, r3, r4⟩ := atArc2 k4.1
  have hs' : s' = s := by
    rw [r3, onLane_lerp] at hq
    rw [r4, ← lerp_inj hab hq]
    field_simp
  obtain ⟨τ', g1, g2⟩ := tangent2 hab s'
  rw [k3] at g1
  cases g1
  unfold frenetOf ofState entries
  dsimp only
  rw [Prod.mk.eta, k1, Res.ok_bind]
  dsimp only
  rw [k3, Res.ok_bind]
  dsimp only
  rw [turn_zero hθ g2, turn_zero g2 hθ, hs', ← hq]
  simp [latVal]

theorem nearest_onLane {a b : Pt} (hab : a ≠ b) {s : ℝ} (h0 : 0 ≤ s) (h1 : s ≤ pdist a b) :
    nearestS (ofArray [a, b]) (onLane a b s) = .ok s := by
  obtain ⟨θ, -, hθ⟩ := tangent2 hab 0
  have := frenet_onLane hab h0 h1 0 0 hθ
  unfold frenetOf ofState entries at this
  dsimp only at this
  rw [Prod.mk.eta] at this
  unfold nearestS
  obtain ⟨t1, t2, t3⟩ := ofArray2 hab
  obtain ⟨q, s', i, τ, k1, k3, k4⟩ := foot_exists t1 t2 t3 (onLane a b s)
  rw [k1, Res.ok_bind] at this
  dsimp only at this
  rw [k3, Res.ok_bind] at this
  dsimp only at this
  injection this with e
  rw [k1, Res.ok_bind, e]

theorem point_onLane {a b : Pt} (hab : a ≠ b) {s : ℝ} (h0 : 0 ≤ s) (h1 : s ≤ pdist a b) : pointAtS (ofArray [a, b]) s = .ok (onLane a b s) := by
  obtain ⟨t1, t2, -⟩ := ofArray2 hab
  obtain ⟨q, hq, ha⟩ := pointAtS_atArc t1 t2 h0 (by show s ≤ Ln.length [a, b]; rw [length2]; exact h1)
  obtain ⟨r, -, -, r3, r4⟩ := atArc2 ha
  rw [hq, r3, onLane_lerp, r4]
  congr 2
  have := (pdist_pos hab).ne'
  field_simp

/-! ### any lane on which positions and directions are exact -/

/-- what is needed of the lane: `At s p θ` is a position and direction on it, `L` its length -/
structure Setting (u : Setup Box Lane) (lane : Lane) (L : ℝ) (At : ℝ → Pt → ℝ → Prop) : Prop extends Default u where
  corridor : ∀ s p θ, 0 ≤ s → s ≤ L → At s p θ → u.corridor p = some lane
  big : L < u.big
  ok : ¬(u.roads.line lane).pts = []
  frenet : ∀ s p θ t v, 0 ≤ s → s ≤ L → At s p θ → frenetOf (u.roads.line lane) (t, p.1, p.2, θ, v) = ⟨s, 0, v, 0, 0⟩
  foot : ∀ s p θ, 0 ≤ s → s ≤ L → At s p θ → nearestS (u.roads.line lane) p = .ok s
  total : ∀ s, ∃ p θ, pointAtS (u.roads.line lane) s = .ok p ∧ tangentAngleAtS (u.roads.line lane) s = .ok θ ∧ (0 ≤ s → s ≤ L → At s p θ)

theorem setting_straight {u : Setup Box Lane} {lane : Lane} {a b : Pt} (hu : Straight u lane a b) : Setting u lane (pdist a b) (straightAt a b) := by
  refine ⟨hu.toDefault, ?_, hu.big, ?_, ?_, ?_, ?_⟩
  · rintro s p θ h0 h1 ⟨rfl, -⟩
    exact hu.corridor s h0 h1
  · rw [hu.line]
    intro h; cases h
  · rintro s p θ t v h0 h1 ⟨rfl, hθ⟩
    rw [hu.line]
    exact frenet_onLane hu.ends h0 h1 t v hθ
  · rintro s p θ h0 h1 ⟨rfl, -⟩
    rw [hu.line]
    exact nearest_onLane hu.ends h0 h1
  · intro s
    obtain ⟨t1, t2, -⟩ := ofArray2 hu.ends
    obtain ⟨p, hp, -⟩ := C29_point_at_s t1 t2 s
    obtain ⟨θ, g1, g2⟩ := tangent2 hu.ends s
    rw [hu.line]
    refine ⟨p, θ, hp, g1, fun h0 h1 => ⟨?_, g2⟩⟩
    rw [point_onLane hu.ends h0 h1] at hp
    cases hp
    rfl

theorem ext_zero (d : ShapeExt.Dims) : ShapeExt.shapeExtension id 0 d = ⟨d.front, d.rear, d.side, d.side⟩ := by
  have hp := Real.pi_pos
  have e : normToPI id 0 = 0 := Str.normToPI_zero
  have h1 : (0 : ℝ) < Real.pi / 2 := by linarith
  have h2 : ¬ Real.pi / 2 < 0 := by linarith
  have h3 : ¬ (0 : ℝ) < -(Real.pi / 2) := by linarith
  unfold ShapeExt.shapeExtension
  simp only [e, abs_zero, if_pos h1, if_neg h2, if_neg h3, Real.cos_zero, Real.sin_zero, one_mul, zero_mul, add_zero, zero_add]

/-! ### the vehicle in front -/

section
variable {St Ac B E Sh Box O Lane : Type}

theorem frLoop_total (P : Plug ℝ St Ac B E Sh Box O) (G : FRPlug ℝ St Ac B E Sh Box Lane) (p : FRParams ℝ) (t : ℝ) (lane : Lane) (ego : Nat) (egoSt : St)
    (egoSh : Sh) : ∀ (m : List (Nat × Agent ℝ St Ac B E Sh)) (acc : FrontRear ℝ St Ac B E Sh), (∀ q ∈ m, q.2.history ≠ []) →
    (∀ a, acc.front.1 = some a → a.history ≠ []) →
    ∃ r, frLoop P G p t lane ego egoSt egoSh m acc = .ok r ∧ ∀ a, r.front.1 = some a → a.history ≠ []
  | [], acc, _, h' => ⟨acc, rfl, h'⟩
  | q :: m, acc, h, h' => by
    have hq : ∃ s, q.2.currentState = .ok s := by
      unfold Agent.currentState
      rw [List.getLast?_eq_some_getLast (h q (by simp))]
      exact ⟨_, rfl⟩
    obtain ⟨s, hs⟩ := hq
    have hb : ∃ acc', frBody P G p t lane ego egoSt egoSh acc q.2 = .ok acc' ∧ ∀ a, acc'.front.1 = some a → a.history ≠ [] := by
      unfold frBody
      split_ifs
      · exact ⟨_, rfl, h'⟩
      · rw [hs]
        dsimp only
        split_ifs <;> first
          | exact ⟨_, rfl, h'⟩
          | (refine ⟨_, rfl, fun a ha => ?_⟩
             cases ha
             exact h q (by simp))
    obtain ⟨acc', hb, hb'⟩ := hb
    unfold frLoop
    rw [hb, Res.ok_bind]
    exact frLoop_total P G p t lane ego egoSt egoSh m acc' (fun q hq => h q (by simp [hq])) hb'

theorem frontRear_total (P : Plug ℝ St Ac B E Sh Box O) (G : FRPlug ℝ St Ac B E Sh Box Lane) (p : FRParams ℝ) (n : Nat) (lane : Lane) {ego : Nat}
    {w : World ℝ St Ac B E Sh Box O} (hw : Props.WellFormed w) (hfresh : World.rtreeOf P w.agents = .ok w.rtree)
    (hsub : ∀ x k index, ∀ y ∈ G.nearest x k index, y ∈ index) {a : Agent ℝ St Ac B E Sh} (ha : w.getAgent ego = some a) :
    ∃ r, getAgentFrontRear P G p n false (some lane) ego w = .ok r ∧ ∀ a', r.front.1 = some a' → a'.history ≠ [] := by
  obtain ⟨s, hs⟩ : ∃ s, a.currentState = .ok s := by
    unfold Agent.currentState
    rw [List.getLast?_eq_some_getLast (hw.2.1 ego a ha).1]
    exact ⟨_, rfl⟩
  have hi := Props.indexOk_of_fresh P hfresh
  obtain ⟨m, hm, hsm, hmem⟩ := Props.collectHits_ok P (fun _ => true) (w := w) (G.nearest s (n + 1) w.rtree)
    (fun p hp => hi p (hsub _ _ _ p hp))
  unfold getAgentFrontRear frConsidered
  simp only [Bool.false_eq_true, if_false, ha, hs, Res.ok_bind]
  unfold World.getNearestAgents
  rw [hm, Res.ok_bind]
  unfold frFrom
  dsimp only
  split_ifs
  · exact ⟨_, rfl, fun a' h => (by cases h)⟩
  · rw [ha]
    dsimp only
    rw [hs, Res.ok_bind]
    refine frLoop_total P G p _ lane ego s _ m _ (fun q hq => ?_) (fun a' h => (by cases h))
    obtain ⟨-, k2, -⟩ := (hmem q.1 q.2).1 (OMap.mem_find_some hsm hq)
    exact (hw.2.1 q.1 q.2 k2).1

end

/-- the difference between two vehicles on the lane -/
theorem diff_ahead {s s' v v' f r l f' r' l' : ℝ} (hs : s ≤ s') (hg : 0 < s' - r' - (s + f)) (hl : 0 ≤ l) (hl' : 0 ≤ l') :
    (frenetDiff (K := ℝ) ⟨s, 0, v, 0, 0⟩ ⟨s', 0, v', 0, 0⟩ ⟨f, r, l, l⟩ ⟨f', r', l', l'⟩).lon = s' - r' - (s + f) ∧
    (frenetDiff (K := ℝ) ⟨s, 0, v, 0, 0⟩ ⟨s', 0, v', 0, 0⟩ ⟨f, r, l, l⟩ ⟨f', r', l', l'⟩).latZeroed = true := by
  unfold frenetDiff
  dsimp only
  rw [if_pos hs, if_pos hg, if_pos (le_refl _)]
  exact ⟨rfl, decide_eq_true (by linarith)⟩

theorem diff_behind {s s' v v' f r l f' r' l' : ℝ} (hs : s' < s) (hg : 0 < s - r - (s' + f')) (hl : 0 ≤ l) (hl' : 0 ≤ l') :
    (frenetDiff (K := ℝ) ⟨s, 0, v, 0, 0⟩ ⟨s', 0, v', 0, 0⟩ ⟨f, r, l, l⟩ ⟨f', r', l', l'⟩).lon < 0 ∧
    (frenetDiff (K := ℝ) ⟨s, 0, v, 0, 0⟩ ⟨s', 0, v', 0, 0⟩ ⟨f, r, l, l⟩ ⟨f', r', l', l'⟩).latZeroed = true := by
  unfold frenetDiff
  dsimp only
  rw [if_neg (not_le.2 hs), if_pos (by linarith), if_pos (le_refl _)]
  exact ⟨by linarith, decide_eq_true (by linarith)⟩

variable {Box Lane : Type}

/-- the IDM reacts to the next vehicle ahead on the lane among those considered, and to none if there is none -/
theorem reacts_near {u : Setup Box Lane} {lane : Lane} {L : ℝ} {At : ℝ → Pt → ℝ → Prop} (hu : Setting u lane L At) {w : W Box} (hw : Props.WellFormed w)
    (hfresh : World.rtreeOf (queries u) w.agents = .ok w.rtree) {x : Nat → ℝ × ℝ}
    (hr : ∀ i ag, w.getAgent i = some ag → Rides At w.time (x i).1 (x i).2 ag ∧ 0 ≤ (x i).1 ∧ (x i).1 ≤ L)
    (hc : AllClear w x) {ego : Nat} {eg : Agent ℝ V5 CAcc.Act Beh (Res (Interp.Exec V5)) Shape.Poly} (he : w.getAgent ego = some eg)
    {ex : V5} (hst : eg.currentState = .ok ex) (len : ℝ) {last : CAcc.Act} (hlast : Lead.Spec.Known last) :
    ∃ r, Lead.observedRel (queries u) (geo u) u.thr u.maxAgents u.idm.coolness u.laneEnd len lane ego last w = .ok r ∧
      (w.agents.length ≤ u.maxAgents + 1 → ∀ j aj, w.getAgent j = some aj → ∃ bx, (bx, j) ∈ u.nearest ex (u.maxAgents + 1) w.rtree) ∧
      ((r.hasLeader = false ∧ ∀ j aj, w.getAgent j = some aj → (∃ bx, (bx, j) ∈ u.nearest ex (u.maxAgents + 1) w.rtree) → j ≠ ego → (x j).1 < (x ego).1) ∨
        ∃ j aj, w.getAgent j = some aj ∧ (∃ bx, (bx, j) ∈ u.nearest ex (u.maxAgents + 1) w.rtree) ∧ j ≠ ego ∧ (x ego).1 ≤ (x j).1 ∧ r.hasLeader = true ∧
          r.distance = gap eg.shape aj.shape (x ego).1 (x j).1 ∧ r.velocity = (x j).2 ∧
          ∀ k ak, w.getAgent k = some ak → (∃ bx, (bx, k) ∈ u.nearest ex (u.maxAgents + 1) w.rtree) → k ≠ ego → (x ego).1 ≤ (x k).1 → (x j).1 ≤ (x k).1) := by
  obtain ⟨hre, he0, heL⟩ := hr ego eg he
  obtain ⟨p, θ, hθ, hst'⟩ := hre.state
  have hex : ex = (w.time, p.1, p.2, θ, (x ego).2) := by rw [hst] at hst'; injection hst'
  obtain ⟨dist, hnear⟩ := hu.nearest ex
  have hsub : ∀ x k index, ∀ y ∈ (geo u).nearest x k index, y ∈ index := by
    intro x k index y hy
    obtain ⟨d, hd⟩ := hu.nearest x
    exact (hd k index).2.1.subset hy
  have hfe : (geo u).frenet lane ex = ⟨(x ego).1, 0, (x ego).2, 0, 0⟩ := by
    show frenetOf (u.roads.line lane) ex = _
    rw [hex]
    exact hu.frenet _ _ _ _ _ he0 heL hθ
  have hext : ∀ sh, (geo u).ext sh 0 = ⟨sh.front, sh.rear, sh.left, sh.left⟩ := fun sh => ext_zero (dims sh)
  set dif : Nat → Shape.Poly → FDiff ℝ := fun j sh => frenetDiff ⟨(x ego).1, 0, (x ego).2, 0, 0⟩ ⟨(x j).1, 0, (x j).2, 0, 0⟩
    ⟨eg.shape.front, eg.shape.rear, eg.shape.left, eg.shape.left⟩ ⟨sh.front, sh.rear, sh.left, sh.left⟩ with hdif
  have hfj : ∀ j aj, w.getAgent j = some aj → ∃ s, aj.currentState = .ok s ∧ (geo u).frenet lane s = ⟨(x j).1, 0, (x j).2, 0, 0⟩ := by
    intro j aj hj
    obtain ⟨hrj, h0, hL⟩ := hr j aj hj
    obtain ⟨p, τ, hτ, hs⟩ := hrj.state
    refine ⟨_, hs, ?_⟩
    show frenetOf (u.roads.line lane) _ = _
    exact hu.frenet _ _ _ _ _ h0 hL hτ
  have ahead : ∀ j aj, w.getAgent j = some aj → j ≠ ego → (x ego).1 ≤ (x j).1 →
      0 < gap eg.shape aj.shape (x ego).1 (x j).1 ∧ (dif j aj.shape).lon = gap eg.shape aj.shape (x ego).1 (x j).1 ∧ (dif j aj.shape).latZeroed = true := by
    intro j aj hj hne hle
    have hg := (hc ego j eg aj he hj hne.symm hle).1
    obtain ⟨k1, k2⟩ := diff_ahead (v := (x ego).2) (v' := (x j).2) (r := eg.shape.rear) (f' := aj.shape.front) hle hg hre.shape.side (hr j aj hj).1.shape.side
    exact ⟨hg, k1, k2⟩
  have behind : ∀ j aj, w.getAgent j = some aj → j ≠ ego → (x j).1 < (x ego).1 → (dif j aj.shape).lon < 0 ∧ (dif j aj.shape).latZeroed = true := by
    intro j aj hj hne hle
    have hg := (hc j ego aj eg hj he hne hle.le).1
    exact diff_behind hle hg hre.shape.side (hr j aj hj).1.shape.side
  have heps : (0 : ℝ) < 1 / 2 ^ 52 := by positivity
  have qual : ∀ j aj, w.getAgent j = some aj → j ≠ ego → Bark.Spec.Qualifies (queries u) (geo u) u.thr w lane ego ex eg.shape aj (dif j aj.shape) := by
    intro j aj hj hne
    obtain ⟨s, hs, hf⟩ := hfj j aj hj
    have hrj := (hr j aj hj).1
    refine ⟨by rw [(hw.2.1 j aj hj).2]; exact hne, hrj.valid, by linarith [hrj.entered], ⟨s, hs, ?_, ?_⟩, Or.inl ⟨?_, ?_⟩⟩
    · rw [hf, hfe]
      dsimp only
      rw [hext, hext]
    · rw [hf, hu.thr]
      have := Real.pi_pos
      simp only [abs_zero]
      linarith
    · rcases le_or_gt (x ego).1 (x j).1 with h | h
      · exact (ahead j aj hj hne h).2.2
      · exact (behind j aj hj hne h).2
    · rw [hu.thr]
  have only : ∀ j aj d, w.getAgent j = some aj → Bark.Spec.Qualifies (queries u) (geo u) u.thr w lane ego ex eg.shape aj d →
      j ≠ ego ∧ d = dif j aj.shape := by
    intro j aj d hj hq
    obtain ⟨s, hs, hf⟩ := hfj j aj hj
    obtain ⟨s', hs', hd, -⟩ := hq.state
    have : s' = s := by rw [hs] at hs'; injection hs' with e; exact e.symm
    subst this
    refine ⟨fun e => hq.other (by rw [(hw.2.1 j aj hj).2, e]), ?_⟩
    rw [hd, hf, hfe]
    dsimp only
    rw [hext, hext]
  have hlt : u.thr.lonThr = 0 := by rw [hu.thr]
  obtain ⟨fr, hfr, hhist⟩ := frontRear_total (queries u) (geo u) u.thr u.maxAgents lane hw hfresh hsub he
  obtain ⟨r, hrr⟩ := (Lead.C184_aborts (geo u) u.idm.coolness lane fr.front hhist u.laneEnd len last).2 ⟨hlast, fun h0 => by
    rw [hu.idm] at h0; norm_num at h0⟩
  have hobs : Lead.observedRel (queries u) (geo u) u.thr u.maxAgents u.idm.coolness u.laneEnd len lane ego last w = .ok r := by
    unfold Lead.observedRel
    rw [hfr]
    exact hrr
  obtain ⟨c1, c2, c3⟩ := Lead.C184_in_world hw.1 hfresh (hnear _ _) he hst (fun id a' d ha' hq => by
    obtain ⟨hne, rfl⟩ := only id a' d ha' hq
    have hbig := hu.big
    have := (hr id a' ha').2.2
    show (dif id a'.shape).lon < u.big
    rcases le_or_gt (x ego).1 (x id).1 with h | h
    · rw [(ahead id a' ha' hne h).2.1]
      have h1 := hre.shape.front
      have h2 := (hr id a' ha').1.shape.rear
      unfold gap
      linarith
    · have := (behind id a' ha' hne h).1
      linarith) hu.brake hobs
  refine ⟨r, hobs, c3, ?_⟩
  cases hl : r.hasLeader with
  | false =>
    left
    refine ⟨rfl, fun j aj hj hk hne => ?_⟩
    by_contra hcon
    have h1 := c1.1 hl j aj _ hk hj (qual j aj hj hne)
    obtain ⟨g1, g2, -⟩ := ahead j aj hj hne (not_lt.1 hcon)
    rw [g2, hlt] at h1
    linarith
  | true =>
    right
    obtain ⟨j, aj, d, s, hjn, hj, hq, hs, e1, e2, e3, e4⟩ := c2 hl
    obtain ⟨hne, rfl⟩ := only j aj d hj hq
    have hle : (x ego).1 ≤ (x j).1 := by
      by_contra hcon
      have := (behind j aj hj hne (not_le.1 hcon)).1
      rw [hlt] at e3
      linarith
    obtain ⟨g1, g2, -⟩ := ahead j aj hj hne hle
    obtain ⟨s', hs', hf⟩ := hfj j aj hj
    refine ⟨j, aj, hj, hjn, hne, hle, rfl, by rw [e1, g2], ?_, fun k ak hk hkk hkn hkl => ?_⟩
    · have : s' = s := by rw [hs] at hs'; injection hs' with e; exact e.symm
      rw [e2, ← this, hf]
    · by_contra hcon
      obtain ⟨f1, f2, -⟩ := ahead k ak hk hkn hkl
      have hkj : k ≠ j := by rintro rfl; exact hcon (le_refl _)
      have h1 := e4 k ak _ hkk hk (qual k ak hk hkn) (by rw [f2, hlt]; exact f1.le)
      rw [f2, g2] at h1
      have h2 := (hc k j ak aj hk hj hkj (not_le.1 hcon).le).1
      have h3 := (hr k ak hk).1.shape.front
      have h4 := (hr k ak hk).1.shape.rear
      unfold gap at h1 h2
      linarith

/-- the IDM reacts to the next vehicle ahead on the lane, and to none if there is none -/
theorem reacts {u : Setup Box Lane} {lane : Lane} {L : ℝ} {At : ℝ → Pt → ℝ → Prop} (hu : Setting u lane L At) {w : W Box} (hw : Props.WellFormed w)
    (hfresh : World.rtreeOf (queries u) w.agents = .ok w.rtree) (hmany : w.agents.length ≤ u.maxAgents + 1) {x : Nat → ℝ × ℝ}
    (hr : ∀ i ag, w.getAgent i = some ag → Rides At w.time (x i).1 (x i).2 ag ∧ 0 ≤ (x i).1 ∧ (x i).1 ≤ L)
    (hc : AllClear w x) {ego : Nat} {eg : Agent ℝ V5 CAcc.Act Beh (Res (Interp.Exec V5)) Shape.Poly} (he : w.getAgent ego = some eg)
    (len : ℝ) {last : CAcc.Act} (hlast : Lead.Spec.Known last) :
    ∃ r, Lead.observedRel (queries u) (geo u) u.thr u.maxAgents u.idm.coolness u.laneEnd len lane ego last w = .ok r ∧
      ((r.hasLeader = false ∧ ∀ j aj, w.getAgent j = some aj → j ≠ ego → (x j).1 < (x ego).1) ∨
        ∃ j aj, w.getAgent j = some aj ∧ j ≠ ego ∧ (x ego).1 ≤ (x j).1 ∧ r.hasLeader = true ∧
          r.distance = gap eg.shape aj.shape (x ego).1 (x j).1 ∧ r.velocity = (x j).2 ∧
          ∀ k ak, w.getAgent k = some ak → k ≠ ego → (x ego).1 ≤ (x k).1 → (x j).1 ≤ (x k).1) := by
  obtain ⟨_, _, _, hst⟩ := (hr ego eg he).1.state
  obtain ⟨r, h1, h2, h3⟩ := reacts_near hu hw hfresh hr hc he hst len hlast
  have hall := h2 hmany
  refine ⟨r, h1, ?_⟩
  rcases h3 with ⟨h3, h4⟩ | ⟨j, aj, h3, -, h4, h5, h6, h7, h8, h9⟩
  · exact Or.inl ⟨h3, fun j aj hj => h4 j aj hj (hall j aj hj)⟩
  · exact Or.inr ⟨j, aj, h3, h4, h5, h6, h7, h8, fun k ak hk => h9 k ak hk (hall k ak hk)⟩

/-! ### one plan -/

theorem brk_drift {h : ℝ} (hh : 0 ≤ h) : ∀ (n : Nat) (s v : ℝ), 0 ≤ v → s - n * (5 / 2 * h ^ 2) ≤ (Loop.brk h n s v).1
  | 0, s, v, _ => by simp [Loop.brk]
  | n + 1, s, v, hv => by
    have i := brk_drift hh n (s + (v * h - 5 / 2 * h ^ 2)) (max (v - 5 * h) 0) (le_max_right _ _)
    unfold Loop.brk
    push_cast
    have := mul_nonneg hv hh
    linarith

/-- acceleration of the IDM -/
theorem acc_range (r : Idm.Rel) {v : ℝ} (h0 : 0 ≤ v) {rel a : ℝ} (h : Idm.totalAcc Loop.dflt r v rel = .ok (.fin a)) : -5 ≤ a ∧ a ≤ 1.7 := by
  constructor
  · obtain ⟨a', ha, h1, -⟩ := Idm.C21_acc_within_bounds Loop.dflt_sane r v rel (fun _ hs => absurd hs.1 (by norm_num [Loop.dflt]))
    rw [Idm.Spec.Returns, h] at ha
    cases ha
    exact h1
  · refine (Loop.total_le_free Loop.dflt_sane rfl r v rel a h).trans ?_
    unfold Loop.freeAcc Loop.dflt
    dsimp only
    have : 0 ≤ (v / 15) ^ 4 := by positivity
    refine max_le ((min_le_left _ _).trans (by linarith)) (by norm_num)

/-- the rows behind a plan, and how far it goes -/
theorem plan_rows {r : Idm.Rel} {T : ℝ} (hT : 0 ≤ T) (hT1 : T ≤ 1 / 5) {y : ℝ × ℝ × ℝ} (h0 : 0 ≤ y.2.2) (h15 : y.2.2 ≤ 15) {tr z}
    (e1 : Loop.planIdm Loop.dflt r y.1 T y = .ok tr) (e3 : tr.getLast? = some z) :
    ∃ l q, Idm.generate Loop.dflt r y.1 (Idm.stepSize Loop.dflt T) y.2.1 y.2.2 = .ok l ∧ l.getLast? = some q ∧ z = (q.2.t, q.2.s, q.2.v) ∧
      (Loop.brk (T / 10) 10 y.2.1 y.2.2).1 ≤ z.2.1 ∧ (Loop.brk (T / 10) 10 y.2.1 y.2.2).2 ≤ z.2.2 ∧
      y.2.1 - T / 20 ≤ z.2.1 ∧ z.2.1 ≤ y.2.1 + 16 * T := by
  unfold Loop.planIdm at e1
  cases hg : Idm.generate Loop.dflt r y.1 (Idm.stepSize Loop.dflt T) y.2.1 y.2.2 with
  | error f => rw [hg] at e1; cases e1
  | ok l =>
    rw [hg] at e1
    simp only [Except.ok.injEq] at e1
    subst e1
    have hlen : l.length = Loop.dflt.numPoints - 1 := (Idm.genLoop_spec _ _ _ _ _ hg).1
    have hne : l ≠ [] := by rintro rfl; norm_num [Loop.dflt] at hlen
    rw [List.getLast?_cons, List.getLast?_map, List.getLast?_eq_some_getLast hne] at e3
    simp only [Option.map_some, Option.getD_some, Option.some.injEq] at e3
    have hz : Loop.reached l y.2.1 y.2.2 = (z.2.1, z.2.2) := by
      unfold Loop.reached
      rw [List.getLast?_eq_some_getLast hne, ← e3]
      rfl
    refine ⟨l, _, rfl, List.getLast?_eq_some_getLast hne, e3.symm, ?_⟩
    have hst : Idm.stepSize Loop.dflt T = T / 10 := by unfold Idm.stepSize; norm_num [Loop.dflt]
    rw [hst] at hg
    unfold Idm.generate at hg
    have hn10 : Loop.dflt.numPoints - 1 = 10 := rfl
    rw [hn10] at hg
    have hdt : 0 ≤ T / 10 := by linarith
    have lb := Loop.loop_brk hdt rfl (by norm_num [Loop.dflt]) (fun rel a h => (acc_range r h0 h).1) 10 _ _ _ _ l h0 (by norm_num [Loop.dflt]; linarith) hg
    rw [hz] at lb
    obtain ⟨u1, -⟩ := Loop.loop_upper (A := 1.7) (by norm_num) hdt (fun rel a h => (acc_range r h0 h).2) 10 _ _ _ _ l h0 hg
    rw [hz] at u1
    have e10 : ((10 : ℕ) : ℝ) * (T / 10) = T := by push_cast; ring
    rw [e10] at u1
    dsimp only at u1 lb
    have dr := brk_drift hdt 10 y.2.1 y.2.2 h0
    have hT2 : T ^ 2 ≤ T / 5 := by nlinarith
    have hvT : y.2.2 * T ≤ 15 * T := mul_le_mul_of_nonneg_right h15 hT
    refine ⟨lb.1, lb.2, ?_, by linarith⟩
    have e : ((10 : ℕ) : ℝ) * (5 / 2 * (T / 10) ^ 2) = T ^ 2 / 4 := by push_cast; ring
    rw [e] at dr
    linarith [lb.1]

theorem planars_last {u : Setup Box Lane} {lane : Lane} {L : ℝ} {At : ℝ → Pt → ℝ → Prop} (hu : Setting u lane L At) : ∀ rows : List (ℝ × Idm.Row),
    ∃ xs, Pick.planars (u.roads.line lane) rows = .ok xs ∧
    ∀ q, rows.getLast? = some q → 0 ≤ q.2.s → q.2.s ≤ L → ∃ p θ, At q.2.s p θ ∧ xs.getLast? = some ⟨q.2.t, p.1, p.2, θ, q.2.v⟩
  | [] => ⟨[], rfl, fun q h => (by cases h)⟩
  | r :: rows => by
    obtain ⟨xs, h1, h2⟩ := planars_last hu rows
    obtain ⟨p, θ, hp, g1, g2⟩ := hu.total r.2.s
    have hr : Pick.planar (u.roads.line lane) r.2 = .ok ⟨r.2.t, p.1, p.2, θ, r.2.v⟩ := by
      unfold Pick.planar
      rw [hp]
      dsimp only
      rw [g1]
    refine ⟨⟨r.2.t, p.1, p.2, θ, r.2.v⟩ :: xs, ?_, fun q hq q0 q1 => ?_⟩
    · unfold Pick.planars
      rw [hr]
      dsimp only
      rw [h1]
    · cases hl : rows.getLast? with
      | none =>
        have : rows = [] := List.getLast?_eq_none_iff.1 hl
        subst this
        cases h1
        simp only [List.getLast?_singleton, Option.some.injEq] at hq
        subst hq
        exact ⟨p, θ, g2 q0 q1, rfl⟩
      | some q' =>
        rw [List.getLast?_cons, hl] at hq
        simp only [Option.getD_some, Option.some.injEq] at hq
        subst hq
        obtain ⟨p', θ', k1, k2⟩ := h2 q' hl q0 q1
        exact ⟨p', θ', k1, by rw [List.getLast?_cons, k2]; rfl⟩

/-- the trajectory in the plane -/
theorem generate_lane {u : Setup Box Lane} {lane : Lane} {L : ℝ} {At : ℝ → Pt → ℝ → Prop} (hu : Setting u lane L At) {r : Idm.Rel} {t s v T θ : ℝ} {p : Pt}
    (h0 : 0 ≤ s) (hL : s ≤ L) (hat : At s p θ)
    {l : List (ℝ × Idm.Row)} {q : ℝ × Idm.Row} (hg : Idm.generate Loop.dflt r t (Idm.stepSize Loop.dflt T) s v = .ok l) (hq : l.getLast? = some q)
    (q0 : 0 ≤ q.2.s) (q1 : q.2.s ≤ L) :
    ∃ tr c p' θ', At q.2.s p' θ' ∧ generate u (u.roads.line lane) r t T (entries (t, p.1, p.2, θ, v)) = .ok (.ok tr, .continuous c) ∧
      tr.head? = some (t, p.1, p.2, θ, v) ∧
      tr.getLast? = some (q.2.t, p'.1, p'.2, θ', q.2.v) := by
  obtain ⟨xs, x1, x2⟩ := planars_last hu l
  obtain ⟨p', θ', x3, x4⟩ := x2 q hq q0 q1
  have hidm : u.idm = Loop.dflt := hu.idm
  have hn := hu.foot s p θ h0 hL hat
  refine ⟨(entries (t, p.1, p.2, θ, v) :: xs).map vector, (l.map Prod.fst).head?.getD 0, p', θ', x3, ?_, ?_, ?_⟩
  · unfold generate Pick.classic entries
    dsimp only
    rw [Prod.mk.eta, hidm, if_neg (hu.ok), hn]
    dsimp only
    rw [hg]
    dsimp only
    rw [x1]
  · rfl
  · rw [List.getLast?_map, List.getLast?_cons, x4]
    rfl

/-! ### one step -/

section
variable {K St Act B E Sh Box O : Type} [Field K] [LinearOrder K] [IsStrictOrderedRing K] (P : Plug K St Act B E Sh Box O)

/-- what a step does to one agent: it plans from the world at the beginning of the step, with an index that is up to date -/
theorem step_fresh {w w' : World K St Act B E Sh Box O} (hw : Props.WellFormed w) {dt : K} (h : World.step P dt w = .ok w') {id : Nat}
    {a : Agent K St Act B E Sh} (ha : w.getAgent id = some a) :
    ∃ o index s, World.rtreeOf P w.agents = .ok index ∧ a.currentState = .ok s ∧
      (¬Bark.Spec.dropped P w (P.envelope a.shape s) (Bark.Spec.planned P w.time dt (P.observe o { w with rtree := index } id).2 id a) →
        w'.getAgent id = some (Bark.Spec.moved P w.time (Bark.Spec.planned P w.time dt (P.observe o { w with rtree := index } id).2 id a))) := by
  obtain ⟨obs, s, hs, ⟨w1, h1, h2⟩, -, hn⟩ := (Props.step_effect P hw h id).2 a ha
  have hk : id ∈ OMap.keys w.agents := by
    rw [← OMap.find_isSome_iff]; unfold World.getAgent at ha; rw [ha]; rfl
  obtain ⟨pre, post, hsp⟩ := List.append_of_mem hk
  obtain ⟨index, h3, h4⟩ := World.planAgentsIn_find P _ dt w w1 h1 pre post id a hsp (OMap.sorted_keys_nodup hw.1)
    (fun j hj => OMap.find_isSome_iff.2 hj) ha
  rw [Props.planOne_eq] at h4
  unfold World.getAgent at h2
  rw [h2] at h4
  have e := Option.some.inj h4
  rw [e] at hn
  exact ⟨_, index, s, h3, hs, hn⟩

theorem moved_fields (t : K) (a : Agent K St Act B E Sh) : (Bark.Spec.moved P t a).behavior = a.behavior ∧ (Bark.Spec.moved P t a).exec = a.exec ∧
    (Bark.Spec.moved P t a).firstValid = a.firstValid ∧ (Bark.Spec.moved P t a).shape = a.shape := by
  unfold Bark.Spec.moved
  split_ifs <;> exact ⟨rfl, rfl, rfl, rfl⟩

end

theorem rtreeOf_same (u : Setup Box Lane) : ∀ m, World.rtreeOf (plug u) m = World.rtreeOf (queries u) m
  | [] => rfl
  | (id, a) :: m => by
    unfold World.rtreeOf
    rw [rtreeOf_same u m]
    rfl

/-- a plan on the lane is carried out -/
theorem agent_step {u : Setup Box Lane} {lane : Lane} {L : ℝ} {At : ℝ → Pt → ℝ → Prop} (hu : Setting u lane L At) {w w1 : W Box} (hw : Props.WellFormed w) (hoff : w.removeAgents = false)
    {dt : ℝ} (hdt : 0 < dt) (hdt5 : dt ≤ 1 / 5) (h : World.step (plug u) dt w = .ok w1) {i : Nat}
    {ag : Agent ℝ V5 CAcc.Act Beh (Res (Interp.Exec V5)) Shape.Poly} (hi : w.getAgent i = some ag) {s v : ℝ} (hr : Rides At w.time s v ag)
    (h0 : 0 ≤ v) (h15 : v ≤ 15) (hs : dt / 20 ≤ s) (hL : s + 16 * dt ≤ L) {r : Idm.Rel}
    (hrel : ∀ len index, World.rtreeOf (queries u) w.agents = .ok index → Lead.observedRel (queries u) (geo u) u.thr u.maxAgents u.idm.coolness u.laneEnd len lane i
      ag.behavior.action { w with rtree := index } = .ok r) {tr z} (e1 : Loop.planIdm Loop.dflt r w.time dt (w.time, s, v) = .ok tr) (e3 : tr.getLast? = some z)
    (ez : z.1 = w.time + dt) :
    ∃ a1, w1.getAgent i = some a1 ∧ a1.shape = ag.shape ∧ Rides At w1.time z.2.1 z.2.2 a1 := by
  obtain ⟨l, q, hg, hq, hz, -, -, z1, z2⟩ := plan_rows (y := (w.time, s, v)) hdt.le hdt5 h0 h15 e1 e3
  dsimp only at hg z1 z2
  subst hz
  dsimp only at z1 z2 ez ⊢
  obtain ⟨p, θ, hθ, hst⟩ := hr.state
  obtain ⟨e, he, hes⟩ := hr.exec
  obtain ⟨T, c, p', θ', d1, d2, d3, d4⟩ := generate_lane hu (T := dt) (by linarith : 0 ≤ s) (by linarith : s ≤ L) hθ hg hq (by linarith) (by linarith)
  obtain ⟨o, index, x, f1, f2, f3⟩ := step_fresh (plug u) hw h hi
  have hxx : x = (w.time, p.1, p.2, θ, v) := by rw [hst] at f2; injection f2 with f2; exact f2.symm
  rw [rtreeOf_same] at f1
  have hobs : ((plug u).observe o { w with rtree := index } i).2 = { w with rtree := index } := rfl
  rw [hobs] at f3
  have hplan : (plug u).plan ag.behavior dt { w with rtree := index } i = ⟨.valid, .ok T, .continuous c⟩ := by
    show plan u ag.behavior dt { w with rtree := index } i = _
    unfold plan
    have : World.getAgent { w with rtree := index } i = some ag := hi
    rw [this]
    dsimp only
    rw [hst]
    dsimp only
    unfold planFrom Pick.plan
    have hcor : u.corridor ((entries (w.time, p.1, p.2, θ, v)).x, (entries (w.time, p.1, p.2, θ, v)).y) = some lane :=
      hu.corridor s p θ (by linarith) (by linarith) hθ
    rw [hcor]
    dsimp only [Pick.reaction]
    rw [hrel _ index f1]
    dsimp only
    rw [d2]
  have hact' : ag.firstValid ≤ w.time + 1 / 2 ^ 52 := by
    have : (0 : ℝ) < 1 / 2 ^ 52 := by positivity
    linarith [hr.entered]
  have hpl : Bark.Spec.planned (plug u) w.time dt { w with rtree := index } i ag =
      { ag with behavior := ⟨.valid, .ok T, .continuous c⟩, exec := .ok ⟨some (q.2.t, p'.1, p'.2, θ', q.2.v), T, .valid⟩ } := by
    unfold Bark.Spec.planned
    rw [if_pos hact', hplan, he]
    have hex := Interp.C17_last_stamp (LinearMap.fst ℝ ℝ (ℝ × ℝ × ℝ × ℝ)) e hes T _ _ d3 d4 (by
      show w.time < q.2.t
      linarith)
    have e2 : (LinearMap.fst ℝ ℝ (ℝ × ℝ × ℝ × ℝ)) (q.2.t, p'.1, p'.2, θ', q.2.v) = w.time + dt := ez
    rw [e2] at hex
    have e4 : (plug u).execute (.ok e) (w.time + dt) ⟨.valid, .ok T, .continuous c⟩ =
        .ok ⟨some (q.2.t, p'.1, p'.2, θ', q.2.v), T, .valid⟩ := hex
    rw [e4]
    rfl
  rw [hpl] at f3
  have hcond : (ag.firstValid ≤ w.time + 1 / 2 ^ 52 ∧ (plug u).status ⟨.valid, .ok T, .continuous c⟩ = .valid ∧
      (plug u).execStatus (.ok ⟨some (q.2.t, p'.1, p'.2, θ', q.2.v), T, .valid⟩) = .valid) := ⟨hact', rfl, rfl⟩
  have hhist : ag.history ≠ [] := (hw.2.1 i ag hi).1
  have hcur := Loop.moved_current (plug u) w.time
    { ag with behavior := ⟨.valid, .ok T, .continuous c⟩, exec := .ok ⟨some (q.2.t, p'.1, p'.2, θ', q.2.v), T, .valid⟩ } hhist hcond
  obtain ⟨m1, m2, m3, m4⟩ := moved_fields (plug u) w.time
    { ag with behavior := ⟨.valid, .ok T, .continuous c⟩, exec := .ok ⟨some (q.2.t, p'.1, p'.2, θ', q.2.v), T, .valid⟩ }
  have ht := (Loop.step_keeps (plug u) h).1
  refine ⟨_, f3 ?_, ?_, ?_⟩
  · rintro (k | ⟨k, -⟩)
    · cases k
    · rw [hoff] at k; cases k
  · rw [m4]
  · refine ⟨?_, ?_, ?_, ?_, ⟨p', θ', d1, ?_⟩, ?_⟩
    · rw [m3, ht]; dsimp only; linarith [hr.entered]
    · rw [m1]
    · rw [m1]; exact .continuous c
    · rw [m2]; exact ⟨_, rfl, rfl⟩
    · rw [hcur, ht]
      show Except.ok (q.2.t, p'.1, p'.2, θ', q.2.v) = _
      rw [ez]
    · rw [m4]; exact hr.shape

theorem combine_len {e : CAcc.LaneEnd} (he : e.brake = false) (len len' : ℝ) (l : Option Lead.Leader) : Lead.combine e len l = Lead.combine e len' l := by
  unfold Lead.combine
  rw [if_neg (by rw [he]; simp), if_neg (by rw [he]; simp)]

theorem observed_len {u : Setup Box Lane} (he : u.laneEnd.brake = false) (len len' : ℝ) (lane : Lane) (i : Nat) (last : CAcc.Act) (w : W Box) :
    Lead.observedRel (queries u) (geo u) u.thr u.maxAgents u.idm.coolness u.laneEnd len lane i last w =
      Lead.observedRel (queries u) (geo u) u.thr u.maxAgents u.idm.coolness u.laneEnd len' lane i last w := by
  unfold Lead.observedRel Lead.relValues
  simp only [combine_len he len len']

theorem free_plan {r : Idm.Rel} {T : ℝ} (hT : 0 ≤ T) (hT1 : T ≤ 1 / 5) (y : ℝ × ℝ × ℝ) (h0 : 0 ≤ y.2.2) (h15 : y.2.2 ≤ 15) :
    ∃ tr z, Loop.planIdm Loop.dflt r y.1 T y = .ok tr ∧ tr.getLast? = some z ∧ z.1 = y.1 + T ∧ 0 ≤ z.2.2 ∧ z.2.2 ≤ 15 := by
  obtain ⟨tr, z, e1, -, e3, e4, e5, -, e6, -⟩ := Loop.planIdm_desired (r := r) Loop.dflt_sane rfl (by norm_num [Loop.dflt]) (by norm_num [Loop.dflt])
    (by norm_num [Loop.dflt]) (by norm_num [Loop.dflt]) (by norm_num [Loop.dflt]) (by norm_num [Loop.dflt]) (by norm_num [Loop.dflt]) hT
    (by norm_num [Loop.dflt]; linarith) y h0 h15
  exact ⟨tr, z, e1, e3, e4, e5, e6⟩

/-- everything is in order and stays so for another `τ` seconds -/
structure Good (u : Setup Box Lane) (L : ℝ) (At : ℝ → Pt → ℝ → Prop) (τ : ℝ) (w : W Box) (x : Nat → ℝ × ℝ) : Prop where
  wf : Props.WellFormed w
  off : w.removeAgents = false
  many : w.agents.length ≤ u.maxAgents + 1
  rides : ∀ i ag, w.getAgent i = some ag → Rides At w.time (x i).1 (x i).2 ag ∧ 0 ≤ (x i).2 ∧ (x i).2 ≤ 15 ∧ τ / 20 ≤ (x i).1 ∧ (x i).1 + 16 * τ ≤ L
  clear : AllClear w x

/-- one step, one agent: its next position and velocity, no less than by full braking, and clear of the vehicle ahead if there is one -/
theorem good_agent {u : Setup Box Lane} {lane : Lane} {L : ℝ} {At : ℝ → Pt → ℝ → Prop} (hu : Setting u lane L At) {τ : ℝ} {w w1 : W Box} {x : Nat → ℝ × ℝ} (hg : Good u L At τ w x)
    {dt : ℝ} (hdt : 0 < dt) (hdt5 : dt ≤ 1 / 5) (hτ : dt ≤ τ) (h : World.step (plug u) dt w = .ok w1) (i : Nat) :
    ∃ z : ℝ × ℝ, ∀ ag, w.getAgent i = some ag → (∃ a1, w1.getAgent i = some a1 ∧ a1.shape = ag.shape ∧ Rides At w1.time z.1 z.2 a1) ∧ 0 ≤ z.2 ∧ z.2 ≤ 15 ∧
      ((Loop.brk (dt / 10) 10 (x i).1 (x i).2).1 ≤ z.1 ∧ (Loop.brk (dt / 10) 10 (x i).1 (x i).2).2 ≤ z.2) ∧ (x i).1 - dt / 20 ≤ z.1 ∧ z.1 ≤ (x i).1 + 16 * dt ∧
      ((∀ j aj, w.getAgent j = some aj → j ≠ i → (x j).1 < (x i).1) ∨ ∃ k ak, w.getAgent k = some ak ∧ k ≠ i ∧ (x i).1 ≤ (x k).1 ∧
        (∀ j aj, w.getAgent j = some aj → j ≠ i → (x i).1 ≤ (x j).1 → (x k).1 ≤ (x j).1) ∧
        ∀ q v, (Loop.brk (dt / 10) 10 (x k).1 (x k).2).1 ≤ q → (Loop.brk (dt / 10) 10 (x k).1 (x k).2).2 ≤ v → Loop.Spec.Clear (gap ag.shape ak.shape z.1 q) z.2 v) := by
  cases hi : w.getAgent i with
  | none => exact ⟨0, fun ag e => (by cases e)⟩
  | some ag =>
    obtain ⟨hr, h0, h15, hs, hL⟩ := hg.rides i ag hi
    obtain ⟨o, index, -, f1, -, -⟩ := step_fresh (plug u) hg.wf h hi
    rw [rtreeOf_same] at f1
    have hin : ∀ j aj, w.getAgent j = some aj → Rides At w.time (x j).1 (x j).2 aj ∧ 0 ≤ (x j).1 ∧ (x j).1 ≤ L := by
      intro j aj hj
      obtain ⟨k1, -, -, k2, k3⟩ := hg.rides j aj hj
      exact ⟨k1, by linarith, by linarith⟩
    obtain ⟨r, hrel, hcase⟩ := reacts hu (w := { w with rtree := index }) hg.wf f1 hg.many (x := x) hin hg.clear hi 0 hr.action
    have hrel' : ∀ len index', World.rtreeOf (queries u) w.agents = .ok index' → Lead.observedRel (queries u) (geo u) u.thr u.maxAgents u.idm.coolness u.laneEnd len
        lane i ag.behavior.action { w with rtree := index' } = .ok r := by
      intro len index' h'
      rw [f1] at h'
      cases h'
      rw [observed_len hu.brake len 0]
      exact hrel
    have finish : ∀ tr z, Loop.planIdm Loop.dflt r w.time dt (w.time, (x i).1, (x i).2) = .ok tr → tr.getLast? = some z → z.1 = w.time + dt →
        (∃ a1, w1.getAgent i = some a1 ∧ a1.shape = ag.shape ∧ Rides At w1.time z.2.1 z.2.2 a1) ∧
        ((Loop.brk (dt / 10) 10 (x i).1 (x i).2).1 ≤ z.2.1 ∧ (Loop.brk (dt / 10) 10 (x i).1 (x i).2).2 ≤ z.2.2) ∧
          (x i).1 - dt / 20 ≤ z.2.1 ∧ z.2.1 ≤ (x i).1 + 16 * dt := by
      intro tr z t1 t2 t3
      obtain ⟨-, -, -, -, -, p1, p2, p3, p4⟩ := plan_rows (y := (w.time, (x i).1, (x i).2)) hdt.le hdt5 h0 h15 t1 t2
      exact ⟨agent_step hu hg.wf hg.off hdt hdt5 h hi hr h0 h15 (by linarith) (by linarith) hrel' t1 t2 t3, ⟨p1, p2⟩, p3, p4⟩
    rcases hcase with ⟨-, hnone⟩ | ⟨k, ak, hk, hne, hle, hl, hd, hv, hnext⟩
    · obtain ⟨tr, z, t1, t2, t3, t4, t5⟩ := free_plan (r := r) hdt.le hdt5 (w.time, (x i).1, (x i).2) h0 h15
      obtain ⟨s1, s2, s3, s4⟩ := finish tr z t1 t2 t3
      refine ⟨z.2, fun ag' e => ?_⟩
      cases e
      exact ⟨s1, t4, t5, s2, s3, s4, Or.inl hnone⟩
    · have hcl := hg.clear i k ag ak hi hk hne.symm hle
      rw [← hd, ← hv] at hcl
      obtain ⟨tr, z, t1, -, t2, t3, t4, t5, -, t6⟩ := Loop.plan_clear (r := r) hl (by rw [hv]; exact (hg.rides k ak hk).2.1) hdt.le hdt5 (w.time, (x i).1, (x i).2) h0 h15 hcl
      obtain ⟨s1, s2, s3, s4⟩ := finish tr z t1 t2 t3
      refine ⟨z.2, fun ag' e => ?_⟩
      cases e
      refine ⟨s1, t4, t5, s2, s3, s4, Or.inr ⟨k, ak, hk, hne, hle, hnext, fun q v hq hv' => ?_⟩⟩
      have sh := Loop.brk_shift (h := dt / 10) 10 (x k).1 (x k).2 (-ak.shape.rear - ag.shape.front)
      have := t6 ((x k).1 + (-ak.shape.rear - ag.shape.front)) (q + (-ak.shape.rear - ag.shape.front)) v
        (by rw [hd]; unfold gap; dsimp only; ring) (by rw [hv, sh]; dsimp only; linarith) (by rw [hv, sh]; exact hv')
      have e : gap ag.shape ak.shape z.2.1 q = q + (-ak.shape.rear - ag.shape.front) - z.2.1 := by unfold gap; ring
      rw [e]
      exact this

theorem clear_trans {g g' v w u : ℝ} (h1 : Loop.Spec.Clear g v w) (h2 : Loop.Spec.Clear g' w u) {d : ℝ} (hd : 0 ≤ d) : Loop.Spec.Clear (g + g' + d) v u :=
  ⟨by linarith [h1.1, h2.1], by linarith [h1.2, h2.2]⟩

/-- one step of the whole traffic -/
theorem good_step {u : Setup Box Lane} {lane : Lane} {L : ℝ} {At : ℝ → Pt → ℝ → Prop} (hu : Setting u lane L At) {τ : ℝ} {w w1 : W Box} {x : Nat → ℝ × ℝ} {dt : ℝ} (hg : Good u L At (dt + τ) w x)
    (hdt : 0 < dt) (hdt5 : dt ≤ 1 / 5) (hτ : 0 ≤ τ) (h : World.step (plug u) dt w = .ok w1) :
    ∃ x1 : Nat → ℝ × ℝ, Good u L At τ w1 x1 ∧ (∀ i, w1.getAgent i = none ↔ w.getAgent i = none) ∧
      (∀ i ag a1, w.getAgent i = some ag → w1.getAgent i = some a1 → a1.shape = ag.shape) ∧
      ∀ i j ai aj, w.getAgent i = some ai → w.getAgent j = some aj → i ≠ j → (x i).1 ≤ (x j).1 → (x1 i).1 ≤ (x1 j).1 := by
  choose x1 hx1 using good_agent hu hg hdt hdt5 (by linarith) h
  have ht := (Loop.step_keeps (plug u) h).1
  have hrm := (Loop.step_keeps (plug u) h).2
  have hsome : ∀ i a1, w1.getAgent i = some a1 → ∃ ag, w.getAgent i = some ag ∧ a1.shape = ag.shape ∧ Rides At w1.time (x1 i).1 (x1 i).2 a1 := by
    intro i a1 h1
    cases hi : w.getAgent i with
    | none => rw [((Props.step_effect (plug u) hg.wf h i).1 hi)] at h1; cases h1
    | some ag =>
      obtain ⟨⟨a1', k1, k2, k3⟩, -⟩ := hx1 i ag hi
      rw [h1] at k1
      cases k1
      exact ⟨ag, rfl, k2, k3⟩
  -- whoever was behind stays clear
  have key : ∀ (n : Nat) i ai, w.getAgent i = some ai → ((OMap.keys w.agents).toFinset.filter fun k => (x i).1 < (x k).1).card ≤ n →
      ∀ j aj, w.getAgent j = some aj → i ≠ j → (x i).1 ≤ (x j).1 → Loop.Spec.Clear (gap ai.shape aj.shape (x1 i).1 (x1 j).1) (x1 i).2 (x1 j).2 := by
    intro n
    induction n with
    | zero =>
      intro i ai hi hn j aj hj hne hle
      exfalso
      have hlt : (x i).1 < (x j).1 := by
        have h1 := (hg.clear i j ai aj hi hj hne hle).1
        have h2 := (hg.rides i ai hi).1.shape.front
        have h3 := (hg.rides j aj hj).1.shape.rear
        unfold gap at h1
        linarith
      have hm : j ∈ (OMap.keys w.agents).toFinset.filter fun k => (x i).1 < (x k).1 := by
        rw [Finset.mem_filter, List.mem_toFinset, ← OMap.find_isSome_iff]
        unfold World.getAgent at hj
        rw [hj]
        exact ⟨rfl, hlt⟩
      rw [Nat.le_zero, Finset.card_eq_zero] at hn
      rw [hn] at hm
      simp at hm
    | succ n ih =>
      intro i ai hi hn j aj hj hne hle
      obtain ⟨-, -, -, -, -, -, hcase⟩ := hx1 i ai hi
      rcases hcase with hnone | ⟨k, ak, hk, hki, hik, hnext, hcl⟩
      · exact absurd (hnone j aj hj hne.symm) (not_lt.2 hle)
      · obtain ⟨-, -, -, bk, -⟩ := hx1 k ak hk
        have c1 := hcl (x1 k).1 (x1 k).2 bk.1 bk.2
        by_cases hkj : k = j
        · subst hkj
          rw [hk] at hj
          cases hj
          exact c1
        · have hik' : (x i).1 < (x k).1 := by
            have h1 := (hg.clear i k ai ak hi hk hki.symm hik).1
            have h2 := (hg.rides i ai hi).1.shape.front
            have h3 := (hg.rides k ak hk).1.shape.rear
            unfold gap at h1
            linarith
          have hcard : ((OMap.keys w.agents).toFinset.filter fun l => (x k).1 < (x l).1).card < ((OMap.keys w.agents).toFinset.filter fun l => (x i).1 < (x l).1).card := by
            apply Finset.card_lt_card
            rw [Finset.ssubset_iff_of_subset]
            · refine ⟨k, ?_, ?_⟩
              · rw [Finset.mem_filter, List.mem_toFinset, ← OMap.find_isSome_iff]
                unfold World.getAgent at hk
                rw [hk]
                exact ⟨rfl, hik'⟩
              · rw [Finset.mem_filter]
                exact fun hh => lt_irrefl _ hh.2
            · intro l hl
              rw [Finset.mem_filter] at hl ⊢
              exact ⟨hl.1, hik'.trans hl.2⟩
          have c2 := ih k ak hk (by omega) j aj hj hkj (hnext j aj hj hne.symm hle)
          have h2 := (hg.rides k ak hk).1.shape.front
          have h3 := (hg.rides k ak hk).1.shape.rear
          have c3 := clear_trans c1 c2 (d := ak.shape.front + ak.shape.rear) (by linarith)
          have e : gap ai.shape aj.shape (x1 i).1 (x1 j).1 = gap ai.shape ak.shape (x1 i).1 (x1 k).1 + gap ak.shape aj.shape (x1 k).1 (x1 j).1 +
              (ak.shape.front + ak.shape.rear) := by unfold gap; ring
          rw [e]
          exact c3
  have order : ∀ i j ai aj, w.getAgent i = some ai → w.getAgent j = some aj → i ≠ j → (x i).1 ≤ (x j).1 → (x1 i).1 < (x1 j).1 := by
    intro i j ai aj hi hj hne hle
    have h1 := (key _ i ai hi (le_refl _) j aj hj hne hle).1
    have h2 := (hg.rides i ai hi).1.shape.front
    have h3 := (hg.rides j aj hj).1.shape.rear
    unfold gap at h1
    linarith
  obtain ⟨w1', h1', hw1⟩ := Props.apply_wf (plug u) hg.wf (World.Op.step dt) trivial
  have hw1e : w1' = w1 := by
    have : World.step (plug u) dt w = .ok w1' := h1'
    rw [h] at this
    cases this
    rfl
  subst hw1e
  refine ⟨x1, ⟨hw1, by rw [hrm]; exact hg.off, ?_, ?_, ?_⟩, ?_, ?_, fun i j ai aj hi hj hne hle => (order i j ai aj hi hj hne hle).le⟩
  · have hsubk : OMap.keys w1'.agents ⊆ OMap.keys w.agents := by
      intro k hk
      rw [← OMap.find_isSome_iff] at hk ⊢
      obtain ⟨a1, ha1⟩ := Option.isSome_iff_exists.1 hk
      obtain ⟨ag, hag, -⟩ := hsome k a1 ha1
      unfold World.getAgent at hag
      rw [hag]
      rfl
    have := (List.subperm_of_subset (OMap.sorted_keys_nodup hw1.1) hsubk).length_le
    have l1 : (OMap.keys w1'.agents).length = w1'.agents.length := by simp [OMap.keys]
    have l2 : (OMap.keys w.agents).length = w.agents.length := by simp [OMap.keys]
    have := hg.many
    omega
  · intro i a1 hi
    obtain ⟨ag, hag, -, hrd⟩ := hsome i a1 hi
    obtain ⟨-, z1, z2, -, z3, z4, -⟩ := hx1 i ag hag
    obtain ⟨-, -, -, s1, s2⟩ := hg.rides i ag hag
    exact ⟨hrd, z1, z2, by linarith, by linarith⟩
  · intro i j ai aj hi hj hne hle
    obtain ⟨gi, hgi, si, -⟩ := hsome i ai hi
    obtain ⟨gj, hgj, sj, -⟩ := hsome j aj hj
    rw [si, sj]
    rcases le_or_gt (x i).1 (x j).1 with k | k
    · exact key _ i gi hgi (le_refl _) j gj hgj hne k
    · exact absurd (order j i gj gi hgj hgi hne.symm k.le) (not_lt.2 hle)
  · intro i
    constructor
    · intro hn
      cases hi : w.getAgent i with
      | none => rfl
      | some ag =>
        obtain ⟨⟨a1, k1, -⟩, -⟩ := hx1 i ag hi
        rw [hn] at k1
        cases k1
    · exact (Props.step_effect (plug u) hg.wf h i).1
  · intro i ag a1 hi h1
    obtain ⟨ag', k1, k2, -⟩ := hsome i a1 h1
    rw [hi] at k1
    cases k1
    exact k2

end Bark.Flow
