import Verif.Props.Steering

/-! C194: steering on a straight line, lane tracking on a straight lane. -/
namespace Bark.Str
open Bark Bark.Ln Bark.Ln.Spec Bark.Dyn Bark.Fren Bark.Fren.Spec Bark.Angle Bark.Angle.Spec Spec Real

theorem zero_of_turn {r : ℝ} (h1 : -π ≤ r) (h2 : r < π) (h : SameDir r 0) : r = 0 := by
  obtain ⟨k, hk⟩ := h
  rw [zero_add] at hk
  have hp := pi_pos
  have k1 : (-1 : ℝ) < k := by by_contra g; nlinarith [not_lt.1 g]
  have k2 : (k : ℝ) < 1 := by by_contra g; nlinarith [not_lt.1 g]
  have k3 : (-1 : ℤ) < k := by exact_mod_cast k1
  have k4 : k < 1 := by exact_mod_cast k2
  have : k = 0 := by omega
  rw [hk, this]; simp

theorem straight_frenet {a b : Pt} (hab : a ≠ b) (x : VState) {t : ℝ} (ht : 0 ≤ t) (hp : (x.x, x.y) = lerp a b t)
    (hd : HasDir (vec a b) x.theta) : ∃ f, ofState id (ofArray [a, b]) x = .ok f ∧ f.lat = 0 ∧ f.angle = 0 := by
  obtain ⟨t1, t2, t3⟩ := ofArray2 hab
  obtain ⟨f, s, q, θ, h1, hf, hlat, hang⟩ := ofState_total t1 t2 t3 x
  refine ⟨f, h1, ?_, ?_⟩
  · rcases le_or_gt t 1 with g | g
    · have h0 := hf.2.1 (x.x, x.y) ⟨0, a, b, t, rfl, rfl, ht, g, hp⟩
      rw [pdist_eq_zero.2 rfl] at h0
      rw [hlat, latVal_eq, le_antisymm h0 (pdist_nonneg _ _), zero_mul]
    · have hL : 0 < pdist a b := lt_of_le_of_ne (pdist_nonneg a b) (fun e => hab (pdist_eq_zero.1 e.symm))
      have h5 := position_of_state h1
      have h6 := (C108_ends_violated hab (d := (t - 1) * pdist a b) (mul_pos (by linarith) hL)).1
      rw [mul_div_cancel_right₀ _ hL.ne', add_sub_cancel, ← hp, h5] at h6
      injection h6 with h6
      exact congrArg Prod.snd h6
  · obtain ⟨θ', h3, h4⟩ := tangent2 hab s
    rw [hf.2.2] at h3
    cases h3
    obtain ⟨d1, d2, d3, -⟩ := C31_signed_difference θ x.theta
    rw [hang]
    obtain ⟨k, hk⟩ := dir_of_hasDir h4 hd
    obtain ⟨j, hj⟩ := d3
    exact zero_of_turn d1 d2 ⟨k + j, by push_cast; linarith⟩

theorem normToPI_zero : normToPI id 0 = 0 := by
  obtain ⟨⟨h1, h2, h3⟩, -⟩ := C31_normToPI 0
  exact zero_of_turn h1 h2 h3

/-- **C194, on a straight line.** A vehicle heading along a straight reference line with its front axle on the line or
beyond its end is not steered. -/
theorem C194_straight {a b : Pt} (hab : a ≠ b) (m : Steer) (hM : 0 ≤ m.deltaMax) (hw : 0 ≤ m.wheelBase)
    (hlo : m.latAccMin ≤ 0) (hhi : 0 ≤ m.latAccMax) {x : State} {t : ℝ} (ht : 0 ≤ t) (hp : axle m.wheelBase x = lerp a b t)
    (hd : HasDir (vec a b) (x 3)) (hv : 0 ≤ x 4) (gain : ℝ) (limit : Bool) :
    steering id m (ofArray [a, b]) x gain limit = .ok 0 := by
  obtain ⟨f, h1, h2, h3⟩ := straight_frenet hab (front m.wheelBase x) ht hp hd
  unfold steering
  rw [h1, Res.ok_bind]
  congr 1
  have e0 : atan2 (-gain * f.lat) (x 4) = 0 := by
    rw [h2, mul_zero]
    exact Complex.arg_ofReal_of_nonneg hv
  have e1 : normToPI id f.angle = 0 := by rw [h3, normToPI_zero]
  unfold calcSteering
  rw [e0, e1, add_zero]
  cases limit with
  | false => rfl
  | true =>
    have s1 : steeringFor m.latAccMin (x 4) m.wheelBase ≤ 0 := by
      unfold steeringFor atan2
      rcases eq_or_lt_of_le (mul_nonpos_of_nonpos_of_nonneg hlo hw) with g | g
      · rw [g]; exact (Complex.arg_ofReal_of_nonneg (mul_self_nonneg _)).le
      · exact (Complex.arg_neg_iff.2 g).le
    have s2 : 0 ≤ steeringFor m.latAccMax (x 4) m.wheelBase := by
      unfold steeringFor atan2
      exact Complex.arg_nonneg_iff.2 (mul_nonneg hhi hw)
    simp only [if_true]
    unfold boundValue
    rw [min_eq_left hM, max_eq_left (show -m.deltaMax ≤ 0 by linarith), min_eq_left s2, max_eq_left s1]

/-- a vehicle on the ray from `a` through `b`, heading along it and not moving backwards -/
def OnRay (a b : Pt) (x : State) : Prop :=
  (∃ t, 0 ≤ t ∧ ((x 1, x 2) : Pt) = lerp a b t) ∧ HasDir (vec a b) (x 3) ∧ 0 ≤ x 4

theorem ray_add {a b : Pt} {p : Pt} {θ t d : ℝ} (hθ : HasDir (vec a b) θ) (ht : 0 ≤ t) (hp : p = lerp a b t) (hd : 0 ≤ d) :
    ∃ t', t ≤ t' ∧ (p.1 + d * cos θ, p.2 + d * sin θ) = lerp a b t' := by
  obtain ⟨c, hc, hv⟩ := hθ
  have v1 : b.1 - a.1 = c * cos θ := congrArg Prod.fst hv
  have v2 : b.2 - a.2 = c * sin θ := congrArg Prod.snd hv
  refine ⟨t + d / c, le_add_of_nonneg_right (div_nonneg hd hc.le), ?_⟩
  rw [hp]
  unfold lerp
  rw [v1, v2]
  ext <;> dsimp only <;> field_simp <;> ring

theorem track_ray {a b : Pt} (hab : a ≠ b) (m : Steer) (hM : 0 ≤ m.deltaMax) (hw : 0 ≤ m.wheelBase)
    (hlo : m.latAccMin ≤ 0) (hhi : 0 ≤ m.latAccMax) (gain : ℝ) (limit : Bool) {steer : State → ℝ}
    (hst : ∀ y δ, steering id m (ofArray [a, b]) y gain limit = .ok δ → steer y = δ)
    {p : Idm.Params} (hmin : 0 ≤ p.minVel) {r : Idm.Rel} {start dt v0 : ℝ} (hdt : 0 ≤ dt) :
    ∀ (n i : Nat) (prev : State) (rel : ℝ) {l : List State}, OnRay a b prev →
      trackLoop id p r m.wheelBase steer start dt v0 n i prev rel = .ok l → ∀ y ∈ l, OnRay a b y
  | 0, _, _, _, _, _, h => by
    simp only [trackLoop, Except.ok.injEq] at h
    subst h
    simp
  | n + 1, i, prev, rel, l, hon, h => by
    obtain ⟨⟨t, ht, hp⟩, hd, hv⟩ := hon
    obtain ⟨tf, htf, hpf⟩ := ray_add hd ht hp hw
    have h0 : steer prev = 0 := hst _ _ (C194_straight hab m hM hw hlo hhi (le_trans ht htf) hpf hd hv gain limit)
    unfold trackLoop at h
    split at h
    · cases h
    · next acc hacc =>
      dsimp only at h
      split at h
      · next l' hl' =>
        cases h
        have hnew : OnRay a b (fun j => if j = 4 then max (euler id (singleTrack m.wheelBase acc (steer prev)) dt prev 4) p.minVel
            else if j = 0 then i * dt + start else euler id (singleTrack m.wheelBase acc (steer prev)) dt prev j) := by
          refine ⟨?_, ?_, ?_⟩
          · obtain ⟨t', ht', hp'⟩ := ray_add hd ht hp (mul_nonneg hdt hv)
            refine ⟨t', le_trans ht ht', ?_⟩
            rw [← hp']
            show (prev 1 + dt * (prev 4 * cos (prev 3)), prev 2 + dt * (prev 4 * sin (prev 3))) = _
            rw [← mul_assoc, ← mul_assoc]
          · show HasDir (vec a b) (normToPI id (prev 3 + dt * (prev 4 * tan (steer prev) / m.wheelBase)))
            rw [h0, tan_zero, mul_zero, zero_div, mul_zero, add_zero]
            obtain ⟨⟨-, -, n3⟩, -⟩ := C31_normToPI (prev 3)
            obtain ⟨c1, c2⟩ := trig_same n3
            unfold HasDir
            rw [c1, c2]
            exact hd
          · exact le_trans hmin (le_max_right _ _)
        intro y hy
        rcases List.mem_cons.1 hy with rfl | hy
        · exact hnew
        · exact track_ray hab m hM hw hlo hhi gain limit hst hmin hdt n _ _ _ hnew hl' y hy
      · cases h
    · cases h

/-- **C194, lane tracking on a straight lane.** If the ego stands or drives forward on the centre line of a straight lane
(or beyond its end) and heads along it, all points of the planned trajectory lie on the centre line (or its extension) and
head along it. -/
theorem C194_lane_tracking_straight {a b : Pt} (hab : a ≠ b) (m : Steer) (hM : 0 ≤ m.deltaMax) (hw : 0 ≤ m.wheelBase)
    (hlo : m.latAccMin ≤ 0) (hhi : 0 ≤ m.latAccMax) (gain : ℝ) (limit : Bool) {steer : State → ℝ}
    (hst : ∀ y δ, steering id m (ofArray [a, b]) y gain limit = .ok δ → steer y = δ)
    {p : Idm.Params} (hmin : 0 ≤ p.minVel) {r : Idm.Rel} {start dt : ℝ} (hdt : 0 ≤ dt) {ego : State} {t : ℝ} (ht : 0 ≤ t)
    (hp : ((ego 1, ego 2) : Pt) = lerp a b t) (hd : HasDir (vec a b) (ego 3)) (hv : 0 ≤ ego 4) {l : List State}
    (h : laneTracking id p r m.wheelBase steer start dt ego = .ok l) :
    ∀ y ∈ l, (∃ t, 0 ≤ t ∧ ((y 1, y 2) : Pt) = lerp a b t) ∧ HasDir (vec a b) (y 3) := by
  unfold laneTracking at h
  dsimp only at h
  split at h
  · next l' hl' =>
    cases h
    have h0 : OnRay a b (fun j => if j = 0 then start else ego j) := ⟨⟨t, ht, hp⟩, hd, hv⟩
    intro y hy
    rcases List.mem_cons.1 hy with rfl | hy
    · exact ⟨h0.1, h0.2.1⟩
    · have := track_ray hab m hM hw hlo hhi gain limit hst hmin hdt _ _ _ _ h0 hl' y hy
      exact ⟨this.1, this.2.1⟩
  · cases h

/-- **C194 violated before the start of the line**: a vehicle heading straight towards the start of a straight reference
line, with its front axle `d` metres before it, is steered to the right. -/
theorem C194_before_start_violated {a b : Pt} (hab : a ≠ b) (m : Steer) {x : State} {d gain : ℝ} (hd0 : 0 < d) (hg : 0 < gain)
    (hp : axle m.wheelBase x = lerp a b (-(d / pdist a b))) (hd : HasDir (vec a b) (x 3)) (hv : 0 < x 4) :
    ∃ δ, steering id m (ofArray [a, b]) x gain false = .ok δ ∧ δ < 0 ∧ tan δ = -(gain * d / x 4) := by
  obtain ⟨t1, t2, t3⟩ := ofArray2 hab
  obtain ⟨f, s, q, θ, h1, hf, hlat, hang⟩ := ofState_total t1 t2 t3 (front m.wheelBase x)
  have h5 := position_of_state h1
  have h6 := (C108_ends_violated hab hd0).2.2
  rw [← axle_front, hp, h6] at h5
  injection h5 with h5
  have hl : f.lat = d := (congrArg Prod.snd h5).symm
  obtain ⟨θ', h3, h4⟩ := tangent2 hab s
  rw [hf.2.2] at h3
  cases h3
  have ha : f.angle = 0 := by
    obtain ⟨d1, d2, d3, -⟩ := C31_signed_difference θ (x 3)
    rw [hang, show (front m.wheelBase x).theta = x 3 from rfl]
    obtain ⟨k, hk⟩ := dir_of_hasDir h4 hd
    obtain ⟨j, hj⟩ := d3
    exact zero_of_turn d1 d2 ⟨k + j, by push_cast; linarith⟩
  refine ⟨atan2 (-gain * d) (x 4), ?_, ?_, ?_⟩
  · unfold steering calcSteering
    rw [h1, Res.ok_bind, ha, hl, normToPI_zero]
    simp
  · unfold atan2
    exact Complex.arg_neg_iff.2 (by show -gain * d < 0; nlinarith)
  · rw [(atan2_pos _ hv).2]; ring

/-- a situation meeting the hypotheses: 30 m along a lane of 100 m, heading along it at 10 m/s -/
example : ∃ (a b : Pt) (x : State), a ≠ b ∧ ((x 1, x 2) : Pt) = lerp a b (3 / 10) ∧ HasDir (vec a b) (x 3) ∧ 0 < x 4 := by
  have hab : ((0 : ℝ), (0 : ℝ)) ≠ (100, 0) := by intro e; have := congrArg Prod.fst e; norm_num at this
  have hd : HasDir (vec ((0 : ℝ), (0 : ℝ)) (100, 0)) 0 := ⟨100, by norm_num, by simp [vec]⟩
  refine ⟨(0, 0), (100, 0), fun j => if j = 1 then 30 else if j = 4 then 10 else 0, hab, ?_, hd, by norm_num⟩
  simp [lerp]; norm_num

/-- the same, 1 m beside the lane: the hypothesis of `C194_approach` -/
example : ∃ x : State, 0 < x 4 ∧ ∀ s q θ, Foot (ofArray [((0 : ℝ), (0 : ℝ)), (100, 0)]) (axle 3 x) s q θ →
    ∃ (i : Nat) (a b : Pt) (t : ℝ), (ofArray [((0 : ℝ), (0 : ℝ)), (100, 0)]).pts[i]? = some a ∧
      (ofArray [((0 : ℝ), (0 : ℝ)), (100, 0)]).pts[i + 1]? = some b ∧ 0 < t ∧ t < 1 ∧ q = lerp a b t ∧
      s = Ln.length ((ofArray [((0 : ℝ), (0 : ℝ)), (100, 0)]).pts.take (i + 1)) + t * pdist a b := by
  refine ⟨fun j => if j = 1 then 30 else if j = 2 then 1 else if j = 4 then 10 else 0, by norm_num, ?_⟩
  intro s q θ hf
  have hax : axle 3 (fun j => if j = 1 then 30 else if j = 2 then 1 else if j = 4 then 10 else 0) = ((33 : ℝ), (1 : ℝ)) := by
    simp [axle]; norm_num
  obtain ⟨t, h0, h1, hq, hs⟩ := atArc2 hf.1
  have hm := hf.2.1 (33, 0) ⟨0, (0, 0), (100, 0), 33 / 100, rfl, rfl, by norm_num, by norm_num, by simp [lerp]⟩
  rw [hax, hq] at hm
  have e1 : pdist ((33 : ℝ), (1 : ℝ)) (33, 0) = 1 := by unfold pdist; norm_num
  rw [e1] at hm
  unfold pdist lerp at hm
  rw [Real.sqrt_le_one] at hm
  norm_num at hm
  have ht : t = 33 / 100 := by nlinarith [sq_nonneg (33 - t * 100)]
  exact ⟨0, (0, 0), (100, 0), t, rfl, rfl, by rw [ht]; norm_num, by rw [ht]; norm_num, hq, by
    rw [hs]; show _ = 0 + _; rw [zero_add]⟩

end Bark.Str
