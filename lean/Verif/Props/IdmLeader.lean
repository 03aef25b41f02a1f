import Verif.Spec.IdmLeader
import Verif.Props.FrontRear
import Verif.Spec.Evaluators
import Verif.Props.ClosedLoop3

/-!
C184: what the IDM reacts to.
-/
namespace Bark.Lead
open Bark

theorem egoAcc_known (a : CAcc.Act) : (∃ x, CAcc.egoAcc a = .ok x) ↔ Spec.Known a := by
  constructor
  · rintro ⟨x, h⟩
    cases a with
    | discrete n => cases h
    | continuous a => exact .continuous a
    | lonLat a b => exact .lonLat a b
    | input u => cases u with
      | nil => cases h
      | cons u us => exact .input u us
  · rintro ⟨⟩ <;> exact ⟨_, rfl⟩

theorem laneEnding_true {e : CAcc.LaneEnd} {len : ℝ} (h : len - e.offset ≤ e.enabled) : CAcc.laneEnding e len = (true, len - e.offset) := by
  unfold CAcc.laneEnding; rw [if_pos h]

theorem laneEnding_iff {e : CAcc.LaneEnd} {len : ℝ} : (CAcc.laneEnding e len).1 = true ↔ len - e.offset ≤ e.enabled := by
  unfold CAcc.laneEnding
  split_ifs with h
  · simp [h]
  · simp [h]

theorem combine_none {e : CAcc.LaneEnd} (hb : e.brake = false) (len : ℝ) : combine e len none = ⟨0, 10 ^ 6, 0, false⟩ := by
  unfold combine; rw [if_neg (by rw [hb]; simp)]

theorem combine_some {e : CAcc.LaneEnd} (hb : e.brake = false) (len : ℝ) (l : Leader) : combine e len (some l) = ⟨l.distance, l.velocity, l.acc, true⟩ := by
  unfold combine; rw [if_neg (by rw [hb]; simp)]

/-- C184: the IDM reacts exactly if something is in the way, and then to the nearest: its distance is that of the nearest obstacle and its velocity that of
an obstacle at this distance (the end of the lane if both are equally far) -/
theorem C184_nearest {e : CAcc.LaneEnd} {len : ℝ} {lead : Option Leader} {last : CAcc.Act} {r : Idm.Rel}
    (h : relValues e len (.ok lead) last = .ok r) :
    (r.hasLeader = true ↔ (Spec.obstacles e len (lead.map fun l => (l.distance, l.velocity))).Nonempty) ∧
    (r.hasLeader = true → (r.distance, r.velocity) ∈ Spec.obstacles e len (lead.map fun l => (l.distance, l.velocity)) ∧
      (∀ o ∈ Spec.obstacles e len (lead.map fun l => (l.distance, l.velocity)), r.distance ≤ o.1) ∧
      (e.brake = true → len - e.offset ≤ e.enabled → r.distance = len - e.offset → r.velocity = 0)) := by
  have hr : r = combine e len lead := by
    unfold relValues at h
    dsimp only at h
    cases hq : CAcc.egoAcc last with
    | error f => rw [hq] at h; cases h
    | ok x => rw [hq] at h; cases h; rfl
  subst hr
  unfold combine Spec.obstacles
  by_cases hb : e.brake = true ∧ (CAcc.laneEnding e len).1 = true
  · have hl := laneEnding_iff.1 hb.2
    rw [if_pos hb, laneEnding_true hl]
    cases lead with
    | none =>
      refine ⟨⟨fun _ => ⟨(len - e.offset, 0), Or.inr ⟨hb.1, hl, rfl⟩⟩, fun _ => rfl⟩, fun _ => ⟨Or.inr ⟨hb.1, hl, rfl⟩, ?_, fun _ _ _ => rfl⟩⟩
      rintro o (ho | ⟨-, -, rfl⟩)
      · cases ho
      · exact le_refl _
    | some l =>
      dsimp only [Option.map]
      refine ⟨⟨fun _ => ⟨(len - e.offset, 0), Or.inr ⟨hb.1, hl, rfl⟩⟩, fun _ => rfl⟩, fun _ => ⟨?_, ?_, ?_⟩⟩
      · rcases le_total l.distance (len - e.offset) with hle | hle
        · rw [min_eq_left hle]
          by_cases heq : l.distance = len - e.offset
          · rw [if_pos heq, heq]; exact Or.inr ⟨hb.1, hl, rfl⟩
          · rw [if_neg heq]; exact Or.inl rfl
        · rw [min_eq_right hle, if_pos rfl]; exact Or.inr ⟨hb.1, hl, rfl⟩
      · rintro o (ho | ⟨-, -, rfl⟩)
        · cases ho; exact min_le_left _ _
        · exact min_le_right _ _
      · intro _ _ heq
        rw [if_pos heq]
  · rw [if_neg hb]
    have hno : ∀ o : ℝ × ℝ, ¬(e.brake = true ∧ len - e.offset ≤ e.enabled ∧ o = (len - e.offset, 0)) := fun o ho =>
      hb ⟨ho.1, laneEnding_iff.2 ho.2.1⟩
    cases lead with
    | none =>
      refine ⟨⟨fun h => (by cases h), ?_⟩, fun h => (by cases h)⟩
      rintro ⟨o, ho | ho⟩
      · cases ho
      · exact absurd ho (hno o)
    | some l =>
      refine ⟨⟨fun _ => ⟨_, Or.inl rfl⟩, fun _ => rfl⟩, fun _ => ⟨Or.inl rfl, ?_, fun h1 h2 _ => absurd ⟨h1, h2, rfl⟩ (hno _)⟩⟩
      rintro o (ho | ho)
      · cases ho; exact le_refl _
      · exact absurd ho (hno o)

section
variable {St B E Sh Box O Lane : Type}

/-- C184: planning goes on exactly if the own last action is one an acceleration can be taken from and, with a positive coolness factor, so is that of the
vehicle in front -/
theorem C184_aborts (G : FRPlug ℝ St CAcc.Act B E Sh Box Lane) (coolness : ℝ) (lane : Lane) (front : Option (Agent ℝ St CAcc.Act B E Sh) × FDiff ℝ)
    (hh : ∀ a, front.1 = some a → a.history ≠ []) (e : CAcc.LaneEnd) (len : ℝ) (last : CAcc.Act) :
    (∃ r, relValues e len (leader G coolness lane front) last = .ok r) ↔
      Spec.Known last ∧ (0 < coolness → ∀ a h, front.1 = some a → a.history.getLast? = some h → Spec.Known h.2) := by
  have key : ∀ l : Option Leader, (∃ r, relValues e len (.ok l) last = .ok r) ↔ Spec.Known last := by
    intro l
    rw [← egoAcc_known]
    unfold relValues
    dsimp only
    cases hq : CAcc.egoAcc last with
    | error f => exact ⟨fun ⟨r, hr⟩ => (by cases hr), fun ⟨r, hr⟩ => (by cases hr)⟩
    | ok x => exact ⟨fun _ => ⟨x, rfl⟩, fun _ => ⟨_, rfl⟩⟩
  unfold leader
  cases hf : front.1 with
  | none =>
    dsimp only
    rw [key]
    exact ⟨fun h => ⟨h, fun _ a h2 h3 => (by cases h3)⟩, fun h => h.1⟩
  | some a =>
    dsimp only
    cases hl : a.history.getLast? with
    | none => exact absurd (List.getLast?_eq_none_iff.1 hl) (hh a hf)
    | some p =>
      dsimp only
      by_cases hc : 0 < coolness
      · rw [if_pos hc]
        cases hq : CAcc.egoAcc p.2 with
        | error f =>
          dsimp only
          refine ⟨fun ⟨r, hr⟩ => (by unfold relValues at hr; cases hr), fun ⟨_, h2⟩ => ?_⟩
          obtain ⟨x, hx⟩ := (egoAcc_known p.2).2 (h2 hc a p rfl hl)
          rw [hq] at hx; cases hx
        | ok x =>
          dsimp only
          rw [key]
          refine ⟨fun h => ⟨h, fun _ a' h' e1 e2 => ?_⟩, fun h => h.1⟩
          cases e1
          rw [hl] at e2; cases e2
          exact (egoAcc_known p.2).1 ⟨x, hq⟩
      · rw [if_neg hc, key]
        exact ⟨fun h => ⟨h, fun h0 => absurd h0 hc⟩, fun h => h.1⟩

variable {P : Plug ℝ St CAcc.Act B E Sh Box O} {G : FRPlug ℝ St CAcc.Act B E Sh Box Lane} {thr : FRParams ℝ}

/-- what `CalcRelativeValues` makes of the front agent found, without braking for the end of the lane -/
theorem of_front {lane : Lane} {coolness : ℝ} {e : CAcc.LaneEnd} (hbr : e.brake = false) {len : ℝ} {last : CAcc.Act} {r : Idm.Rel}
    {front : Option (Agent ℝ St CAcc.Act B E Sh) × FDiff ℝ} (h : relValues e len (leader G coolness lane front) last = .ok r) :
    (front.1 = none ∧ r.hasLeader = false) ∨ ∃ a s, front.1 = some a ∧ a.currentState = .ok s ∧ r.hasLeader = true ∧ r.distance = front.2.lon ∧
      r.velocity = (G.frenet lane s).vlon := by
  cases hl : leader G coolness lane front with
  | error f => rw [hl] at h; cases h
  | ok l =>
    rw [hl] at h
    have hr : r = combine e len l := by
      unfold relValues at h
      dsimp only at h
      cases hq : CAcc.egoAcc last with
      | error f => rw [hq] at h; cases h
      | ok x => rw [hq] at h; cases h; rfl
    subst hr
    unfold leader at hl
    cases hfr : front.1 with
    | none =>
      rw [hfr] at hl
      cases hl
      rw [combine_none hbr]
      exact Or.inl ⟨rfl, rfl⟩
    | some a =>
      rw [hfr] at hl
      dsimp only at hl
      cases hh : a.history.getLast? with
      | none => rw [hh] at hl; cases hl
      | some q =>
        rw [hh] at hl
        dsimp only at hl
        have hcur : a.currentState = .ok q.1 := by unfold Agent.currentState; rw [hh]
        have hl' : ∃ acc, l = some ⟨front.2.lon, (G.frenet lane q.1).vlon, acc⟩ := by
          by_cases hc : 0 < coolness
          · rw [if_pos hc] at hl
            cases hq : CAcc.egoAcc q.2 with
            | error f => rw [hq] at hl; cases hl
            | ok x => rw [hq] at hl; cases hl; exact ⟨_, rfl⟩
          · rw [if_neg hc] at hl; cases hl; exact ⟨_, rfl⟩
        obtain ⟨acc, rfl⟩ := hl'
        rw [combine_some hbr]
        exact Or.inr ⟨a, q.1, rfl, hcur, rfl, rfl, rfl⟩

/-- C184: without braking for the end of the lane, in the whole world: the IDM reacts exactly if one of the agents considered (the ego's nearest ones, as
many as `MaxAgentsFrontRear` and one) qualifies as a vehicle in front, and then to the nearest of them, with the longitudinal difference to it as distance
and its velocity along the corridor; all agents are considered if there are no more than that -/
theorem C184_in_world {D : Type} [LinearOrder D] {w : World ℝ St CAcc.Act B E Sh Box O} {lane : Lane} {ego : Nat} {egoSt : St}
    {eg : Agent ℝ St CAcc.Act B E Sh} {n : Nat} (hs : OMap.Sorted w.agents) (hfresh : World.rtreeOf P w.agents = .ok w.rtree)
    {dist : Box × Nat → D} (hnear : EvalSpec.IsKNearest (n + 1) dist w.rtree (G.nearest egoSt (n + 1) w.rtree))
    (he : w.getAgent ego = some eg) (hes : eg.currentState = .ok egoSt)
    (hbig : ∀ id a d, w.getAgent id = some a → Bark.Spec.Qualifies P G thr w lane ego egoSt eg.shape a d → d.lon < G.big)
    {coolness : ℝ} {e : CAcc.LaneEnd} (hbr : e.brake = false) {len : ℝ} {last : CAcc.Act} {r : Idm.Rel}
    (h : observedRel P G thr n coolness e len lane ego last w = .ok r) :
    (r.hasLeader = false ↔ ∀ id a d, (∃ b, (b, id) ∈ G.nearest egoSt (n + 1) w.rtree) → w.getAgent id = some a →
      Bark.Spec.Qualifies P G thr w lane ego egoSt eg.shape a d → d.lon < thr.lonThr) ∧
    (r.hasLeader = true → ∃ id a d s, (∃ b, (b, id) ∈ G.nearest egoSt (n + 1) w.rtree) ∧ w.getAgent id = some a ∧
      Bark.Spec.Qualifies P G thr w lane ego egoSt eg.shape a d ∧
      a.currentState = .ok s ∧ r.distance = d.lon ∧ r.velocity = (G.frenet lane s).vlon ∧ thr.lonThr ≤ d.lon ∧
      ∀ id' a' d', (∃ b, (b, id') ∈ G.nearest egoSt (n + 1) w.rtree) → w.getAgent id' = some a' →
        Bark.Spec.Qualifies P G thr w lane ego egoSt eg.shape a' d' → thr.lonThr ≤ d'.lon → d.lon ≤ d'.lon) ∧
    (w.agents.length ≤ n + 1 → ∀ id a, w.getAgent id = some a → ∃ b, (b, id) ∈ G.nearest egoSt (n + 1) w.rtree) := by
  have hall : w.agents.length ≤ n + 1 → ∀ id a, w.getAgent id = some a → ∃ b, (b, id) ∈ G.nearest egoSt (n + 1) w.rtree := by
    intro hlen id a ha
    have hk : id ∈ w.rtree.map Prod.snd := by
      rw [World.rtreeOf_keys P hfresh, ← OMap.find_isSome_iff]
      unfold World.getAgent at ha; rw [ha]; rfl
    obtain ⟨⟨bx, j⟩, hp, hj⟩ := List.mem_map.1 hk
    have hlen' : w.rtree.length = w.agents.length := by
      have := congrArg List.length (World.rtreeOf_keys P hfresh)
      simpa [OMap.keys] using this
    have hl2 : (G.nearest egoSt (n + 1) w.rtree).length = w.rtree.length := by
      rw [hnear.1]; omega
    have hperm : List.Perm (G.nearest egoSt (n + 1) w.rtree) w.rtree := hnear.2.1.perm_of_length_le hl2.ge
    exact ⟨bx, hperm.symm.subset (by rw [← hj]; exact hp)⟩
  unfold observedRel at h
  cases hf : getAgentFrontRear P G thr n false (some lane) ego w with
  | error f => rw [hf] at h; cases h
  | ok fr =>
    rw [hf] at h
    dsimp only at h
    unfold getAgentFrontRear at hf
    obtain ⟨m, hm, hf⟩ := Res.bind_ok hf
    have hm' : w.getNearestAgents P (G.nearest egoSt (n + 1)) = .ok m := by
      unfold frConsidered at hm
      simp only [Bool.false_eq_true, if_false, he, hes, Res.ok_bind] at hm
      exact hm
    have hi := Props.indexOk_of_fresh P hfresh
    obtain ⟨m2, hm2, hsm, hmem⟩ := Props.collectHits_ok P (fun _ => true) (w := w) (G.nearest egoSt (n + 1) w.rtree)
      (fun p hp => hi p (hnear.2.1.subset hp))
    have e2 : m2 = m := by
      have : (Except.ok m2 : Res _) = .ok m := hm2.symm.trans hm'
      injection this
    subst e2
    have mem : ∀ a d, Bark.Spec.Qualifies P G thr w lane ego egoSt eg.shape a d → (a ∈ m2.map Prod.snd ↔
        ∃ id, (∃ b, (b, id) ∈ G.nearest egoSt (n + 1) w.rtree) ∧ w.getAgent id = some a) := by
      intro a d hq
      constructor
      · intro ha
        obtain ⟨x, hx, rfl⟩ := List.mem_map.1 ha
        obtain ⟨k1, k2, -⟩ := (hmem x.1 x.2).1 (OMap.mem_find_some hsm hx)
        exact ⟨x.1, k1, k2⟩
      · rintro ⟨id, k1, k2⟩
        exact List.mem_map.2 ⟨(id, a), OMap.find_some_mem ((hmem id a).2 ⟨k1, k2, rfl, hq.valid, (Props.active_iff _ _).2 hq.active⟩), rfl⟩
    obtain ⟨c1, c2⟩ := FrontRearProps.C14_front_is_nearest P G thr he hes (fun a d ha hq => by
      obtain ⟨id, -, k⟩ := (mem a d hq).1 ha
      exact hbig id a d k hq) hf
    rcases of_front hbr h with ⟨g1, g2⟩ | ⟨a, s, g1, g2, g3, g4, g5⟩
    · refine ⟨⟨fun _ id a d k1 k2 k3 => c1.1 g1 a ((mem a d k3).2 ⟨id, k1, k2⟩) d k3, fun _ => g2⟩, fun h' => ?_, hall⟩
      rw [g2] at h'; cases h'
    · obtain ⟨d1, d2, d3, d4⟩ := c2 a g1
      obtain ⟨id, i1, i2⟩ := (mem a _ d2).1 d1
      refine ⟨⟨fun h' => ?_, fun hno => ?_⟩, fun _ => ⟨id, a, fr.front.2, s, i1, i2, d2, g2, g4, g5, d3, fun id' a' d' k1 k2 k3 k4 => ?_⟩, hall⟩
      · rw [g3] at h'; cases h'
      · exact absurd d3 (not_le.2 (hno id a _ i1 i2 d2))
      · exact d4 a' ((mem a' d' k3).2 ⟨id', k1, k2⟩) d' k3 k4

end

/-! ### how cautious -/

theorem acc_le {p : Idm.Params} (hp : Idm.Spec.Sane p) (hc : p.coolness = 0) {d e v vo vo' a a' : ℝ} (hde : d ≤ e)
    (hg : |Idm.Spec.desiredGap p v vo'| ≤ |Idm.Spec.desiredGap p v vo|) :
    ∃ x y, Idm.Spec.Returns (Idm.totalAcc p ⟨d, vo, a, true⟩ v d) x ∧ Idm.Spec.Returns (Idm.totalAcc p ⟨e, vo', a', true⟩ v e) y ∧ x ≤ y := by
  refine ⟨_, _, Idm.C23_value hp hc rfl v d, Idm.C23_value hp hc rfl v e, ?_⟩
  by_cases hd : 0 < d
  · have he : 0 < e := hd.trans_le hde
    rw [if_pos hd, if_pos he]
    refine max_le_max (min_le_min ?_ le_rfl) le_rfl
    unfold Idm.Spec.textbook
    refine mul_le_mul_of_nonneg_left ?_ hp.maxAcc.le
    have : (Idm.Spec.desiredGap p v vo' / e) ^ 2 ≤ (Idm.Spec.desiredGap p v vo / d) ^ 2 := by
      rw [div_pow, div_pow]
      have h1 : d ^ 2 ≤ e ^ 2 := pow_le_pow_left₀ hd.le hde 2
      have h2 : Idm.Spec.desiredGap p v vo' ^ 2 ≤ Idm.Spec.desiredGap p v vo ^ 2 := sq_le_sq.2 hg
      exact div_le_div₀ (sq_nonneg _) h2 (by positivity) h1
    dsimp only
    linarith
  · rw [if_neg hd]
    split_ifs
    · exact le_max_right _ _
    · exact le_refl _

/-- C184: braking for the end of the lane never makes the vehicle accelerate more than the vehicle in front alone would, nor more than on a free road
(heuristic off, the vehicle in front not moving backwards nor away so fast that the desired gap is negative) -/
theorem C184_lane_end_cautious {p : Idm.Params} (hp : Idm.Spec.Sane p) (hc : p.coolness = 0) {v : ℝ} (hv : 0 ≤ v)
    (e : CAcc.LaneEnd) (len : ℝ) (lead : Option Leader) (hlead : ∀ l, lead = some l → 0 ≤ l.velocity ∧ 0 ≤ Idm.Spec.desiredGap p v l.velocity) :
    ∃ a b, Idm.Spec.Returns (Idm.totalAcc p (combine e len lead) v (combine e len lead).distance) a ∧
      Idm.Spec.Returns (Idm.totalAcc p (combine ⟨false, e.enabled, e.offset⟩ len lead) v (combine ⟨false, e.enabled, e.offset⟩ len lead).distance) b ∧
      a ≤ b := by
  by_cases hb : e.brake = true ∧ (CAcc.laneEnding e len).1 = true
  · cases lead with
    | none =>
      rw [combine_none (e := ⟨false, e.enabled, e.offset⟩) rfl]
      unfold combine
      rw [if_pos hb]
      dsimp only
      obtain ⟨x, hx⟩ := Loop.total_finite hp (r := ⟨(CAcc.laneEnding e len).2, 0, 0, true⟩) (v := v) (Or.inl hc) (CAcc.laneEnding e len).2
      exact ⟨x, _, hx, Idm.free_value hp rfl v _, Loop.total_le_free hp hc _ v _ x hx⟩
    | some l =>
      rw [combine_some (e := ⟨false, e.enabled, e.offset⟩) rfl]
      unfold combine
      rw [if_pos hb]
      dsimp only
      obtain ⟨h1, h2⟩ := hlead l rfl
      apply acc_le hp hc (min_le_left _ _)
      split_ifs with heq
      · have : Idm.Spec.desiredGap p v l.velocity ≤ Idm.Spec.desiredGap p v 0 := by
          unfold Idm.Spec.desiredGap
          have hs : 0 ≤ Real.sqrt (p.maxAcc * p.comfBraking) := Real.sqrt_nonneg _
          have : v * (v - l.velocity) / (2 * Real.sqrt (p.maxAcc * p.comfBraking)) ≤ v * (v - 0) / (2 * Real.sqrt (p.maxAcc * p.comfBraking)) := by
            apply div_le_div_of_nonneg_right _ (by positivity)
            exact mul_le_mul_of_nonneg_left (by linarith) hv
          linarith
        rw [abs_of_nonneg h2, abs_of_nonneg (le_trans h2 this)]
        exact this
      · exact le_refl _
  · cases lead with
    | none =>
      rw [combine_none (e := ⟨false, e.enabled, e.offset⟩) rfl]
      unfold combine
      rw [if_neg hb]
      exact ⟨_, _, Idm.free_value hp rfl v _, Idm.free_value hp rfl v _, le_refl _⟩
    | some l =>
      rw [combine_some (e := ⟨false, e.enabled, e.offset⟩) rfl]
      unfold combine
      rw [if_neg hb]
      exact acc_le hp hc (le_refl _) (le_refl _)

/-- C184 is violated: a vehicle in front that is nearer than the end of the lane hides it, however fast it is: at 10 m/s with 20 m left the end of the lane alone
demands braking, with a vehicle at 19 m that drives 13 m/s the vehicle accelerates -/
theorem C184_lane_end_hidden : ∃ (e : CAcc.LaneEnd) (len : ℝ) (l : Leader) (a b : ℝ), 0 ≤ l.velocity ∧ 0 ≤ Idm.Spec.desiredGap Idm.wp 10 l.velocity ∧
    Idm.Spec.Returns (Idm.totalAcc Idm.wp (combine e len none) 10 (combine e len none).distance) a ∧
    Idm.Spec.Returns (Idm.totalAcc Idm.wp (combine e len (some l)) 10 (combine e len (some l)).distance) b ∧ a < 0 ∧ 0 < b := by
  have hend : CAcc.laneEnding ⟨true, 60, 15⟩ 35 = (true, 20) := by
    rw [laneEnding_true] <;> norm_num
  refine ⟨⟨true, 60, 15⟩, 35, ⟨19, 13, 0⟩, _, _, by norm_num, ?_, Idm.C23_value Idm.wp_sane rfl ?_ 10 _, Idm.C23_value Idm.wp_sane rfl ?_ 10 _, ?_, ?_⟩
  · rw [Idm.wp_gap]; norm_num
  · unfold combine; rw [hend]; simp
  · unfold combine; rw [hend]; simp
  · unfold combine
    rw [hend]
    unfold Idm.Spec.textbook
    rw [Idm.wp_gap]
    norm_num [Idm.wp]
  · unfold combine
    rw [hend]
    unfold Idm.Spec.textbook
    rw [Idm.wp_gap]
    norm_num [Idm.wp]

/-- C184 is violated: a vehicle 1 m ahead makes the IDM brake fully; once the outlines overlap, the distance reported is that of the reference points, and it
accelerates -/
theorem C184_overlap_accelerates : ∃ (a b b' : Frenet ℝ) (ext : Ext ℝ) (x y : ℝ), Bark.Spec.Ext.NonNeg ext ∧ b'.lon < b.lon ∧ a.vlon = b.vlon ∧ b'.vlon = b.vlon ∧
    Bark.Spec.Overlap (a.lon - ext.rear) (a.lon + ext.front) (b'.lon - ext.rear) (b'.lon + ext.front) ∧
    Idm.Spec.Returns (Idm.totalAcc Idm.wp ⟨(frenetDiff a b ext ext).lon, b.vlon, 0, true⟩ a.vlon (frenetDiff a b ext ext).lon) x ∧
    Idm.Spec.Returns (Idm.totalAcc Idm.wp ⟨(frenetDiff a b' ext ext).lon, b'.vlon, 0, true⟩ a.vlon (frenetDiff a b' ext ext).lon) y ∧ x = Idm.wp.accLower ∧ 0 < y := by
  have d1 : (frenetDiff (⟨0, 0, 1, 0, 0⟩ : Frenet ℝ) ⟨9, 0, 1, 0, 0⟩ ⟨4, 4, 1, 1⟩ ⟨4, 4, 1, 1⟩).lon = 1 := by
    unfold frenetDiff; norm_num
  have d2 : (frenetDiff (⟨0, 0, 1, 0, 0⟩ : Frenet ℝ) ⟨7, 0, 1, 0, 0⟩ ⟨4, 4, 1, 1⟩ ⟨4, 4, 1, 1⟩).lon = 7 := by
    unfold frenetDiff; norm_num
  refine ⟨⟨0, 0, 1, 0, 0⟩, ⟨9, 0, 1, 0, 0⟩, ⟨7, 0, 1, 0, 0⟩, ⟨4, 4, 1, 1⟩, _, _, by norm_num [Bark.Spec.Ext.NonNeg], by norm_num, rfl, rfl,
    ⟨4, by norm_num⟩, Idm.C23_value Idm.wp_sane rfl rfl _ _, Idm.C23_value Idm.wp_sane rfl rfl _ _, ?_, ?_⟩
  · rw [d1]
    unfold Idm.Spec.textbook
    rw [Idm.wp_gap]
    norm_num [Idm.wp]
  · rw [d2]
    unfold Idm.Spec.textbook
    rw [Idm.wp_gap]
    norm_num [Idm.wp]

/-- C184: the acceleration of the vehicle in front is passed on (with a positive coolness factor), even if the obstacle reacted to is the standing end of the lane -/
theorem C184_acceleration {St B E Sh Box Lane : Type} (G : FRPlug ℝ St CAcc.Act B E Sh Box Lane) {coolness : ℝ} (lane : Lane)
    (a : Agent ℝ St CAcc.Act B E Sh) (d : FDiff ℝ) {s : St} {act : CAcc.Act} (hh : a.history.getLast? = some (s, act)) {e : CAcc.LaneEnd} {len : ℝ}
    {last : CAcc.Act} {r : Idm.Rel} (h : relValues e len (leader G coolness lane (some a, d)) last = .ok r) :
    (0 < coolness → CAcc.egoAcc act = .ok r.leadAcc) ∧ (coolness ≤ 0 → r.leadAcc = 0) := by
  unfold relValues leader at h
  dsimp only at h
  rw [hh] at h
  dsimp only at h
  have hcomb : ∀ l : Leader, (combine e len (some l)).leadAcc = l.acc := by
    intro l
    unfold combine
    split_ifs <;> rfl
  by_cases hc : 0 < coolness
  · rw [if_pos hc] at h
    refine ⟨fun _ => ?_, fun h0 => absurd hc (not_lt.2 h0)⟩
    cases hq : CAcc.egoAcc act with
    | error f => rw [hq] at h; cases h
    | ok x =>
      rw [hq] at h
      dsimp only at h
      cases hl : CAcc.egoAcc last with
      | error f => rw [hl] at h; cases h
      | ok y =>
        rw [hl] at h
        cases h
        rw [hcomb]
  · rw [if_neg hc] at h
    refine ⟨fun h0 => absurd h0 hc, fun _ => ?_⟩
    dsimp only at h
    cases hl : CAcc.egoAcc last with
    | error f => rw [hl] at h; cases h
    | ok y =>
      rw [hl] at h
      cases h
      rw [hcomb]

/-! ### an instance: a vehicle 20 m ahead of the ego, another one 50 m ahead -/

noncomputable def realP : Plug ℝ ℝ CAcc.Act Unit Unit Unit ℝ Unit :=
  { status := fun _ => .valid, lastAction := fun _ => .continuous 0, plan := fun b _ _ _ => b,
    execute := fun e _ _ => e, execStatus := fun _ => .valid, executedState := fun _ => 0,
    observe := fun o w _ => (o, w), envelope := fun _ s => s, within := fun _ _ => true }

noncomputable def realG : FRPlug ℝ ℝ CAcc.Act Unit Unit Unit ℝ Unit :=
  { frenet := fun _ s => ⟨s, 0, 10, 0, 0⟩, ext := fun _ _ => ⟨2, 2, 1, 1⟩, nearest := fun _ _ l => l,
    boxHit := fun _ _ => true, collide := fun _ _ => true, big := 1000 }

noncomputable def realA (id : Nat) (pos : ℝ) : Agent ℝ ℝ CAcc.Act Unit Unit Unit := ⟨id, (), (), [(pos, .continuous 1)], 5, 0, ()⟩

noncomputable def realW : World ℝ ℝ CAcc.Act Unit Unit Unit ℝ Unit :=
  { agents := [(0, realA 0 0), (1, realA 1 50), (2, realA 2 20)], time := 0, rtree := [(0, 0), (50, 1), (20, 2)], removeAgents := false,
    mapBox := none, observer := () }

theorem realW_get (id : Nat) (a : Agent ℝ ℝ CAcc.Act Unit Unit Unit) (h : realW.getAgent id = some a) :
    id = 0 ∧ a = realA 0 0 ∨ id = 1 ∧ a = realA 1 50 ∨ id = 2 ∧ a = realA 2 20 := by
  have hm := OMap.find_some_mem h
  simpa [realW, List.mem_cons, Prod.mk.injEq] using hm

example : ∃ r, observedRel realP realG ⟨1, 4, 0⟩ 4 0 ⟨false, 60, 15⟩ 500 () 0 (.continuous 0) realW = .ok r ∧
    r.hasLeader = true ∧ r.distance = 16 ∧ r.velocity = 10 := by
  have e : getAgentFrontRear realP realG ⟨1, 4, 0⟩ 4 false (some ()) 0 realW = .ok ⟨(some (realA 2 20), ⟨16, 0, 0, 0, false, true⟩),
      (none, FDiff.default 1000)⟩ := by
    simp [getAgentFrontRear, frConsidered, World.getNearestAgents, World.collectHits, realW, realG, realP, realA, World.getAgent, OMap.find,
      OMap.insert, frFrom, frLoop, frBody, frDiff, frenetDiff, Agent.currentState, Agent.isValidAtTime, dblEps, FDiff.default, bind, Except.bind]
    norm_num
  refine ⟨⟨16, 10, 0, true⟩, ?_, rfl, rfl, rfl⟩
  unfold observedRel
  rw [e]
  simp [relValues, leader, realA, realG, CAcc.egoAcc, combine]

/-- the other hypotheses of `C184_in_world` hold in this world -/
example : OMap.Sorted realW.agents ∧ World.rtreeOf realP realW.agents = .ok realW.rtree ∧
    EvalSpec.IsKNearest 5 (fun x : ℝ × Nat => |x.1|) realW.rtree (realG.nearest 0 5 realW.rtree) ∧
    realW.getAgent 0 = some (realA 0 0) ∧ (realA 0 0).currentState = .ok 0 ∧
    (∀ id a d, realW.getAgent id = some a → Bark.Spec.Qualifies realP realG ⟨1, 4, 0⟩ realW () 0 0 (realA 0 0).shape a d → d.lon < realG.big) := by
  refine ⟨by simp [OMap.Sorted, realW], rfl, ⟨rfl, List.Subperm.refl _, fun x _ y hy hn => absurd hy hn⟩, rfl, rfl, fun id a d ha hq => ?_⟩
  obtain ⟨s, h1, h2, -⟩ := hq.state
  rcases realW_get id a ha with ⟨-, rfl⟩ | ⟨-, rfl⟩ | ⟨-, rfl⟩ <;>
  · cases h1
    rw [h2]
    unfold frenetDiff realG
    norm_num

/-- the index answers with the first entries -/
noncomputable def hideG : FRPlug ℝ ℝ CAcc.Act Unit Unit Unit ℝ Unit :=
  { frenet := fun _ s => ⟨s, 0, 0, 0, 0⟩, ext := fun _ _ => ⟨2, 2, 1, 1⟩, nearest := fun _ k l => l.take k,
    boxHit := fun _ _ => true, collide := fun _ _ => true, big := 1000 }

/-- the ego, four vehicles next to it, one 20 m ahead -/
noncomputable def hideW : World ℝ ℝ CAcc.Act Unit Unit Unit ℝ Unit :=
  { agents := [(0, realA 0 0), (1, realA 1 (-6)), (2, realA 2 (-7)), (3, realA 3 (-8)), (4, realA 4 (-9)), (5, realA 5 20)], time := 0,
    rtree := [(0, 0), (-6, 1), (-7, 2), (-8, 3), (-9, 4), (20, 5)], removeAgents := false, mapBox := none, observer := () }

/-- C184 violated: with `MaxAgentsFrontRear` at its default of 4, the IDM does not react to a standing vehicle 16 m ahead if four other vehicles are
nearer, and accelerates like on a free road; with 5 it sees it. The index is fresh and its answers are right. -/
theorem C184_leader_missed_violated : World.rtreeOf realP hideW.agents = .ok hideW.rtree ∧
    EvalSpec.IsKNearest 5 (fun x : ℝ × Nat => |x.1 - 0|) hideW.rtree (hideG.nearest 0 5 hideW.rtree) ∧
    Bark.Spec.Qualifies realP hideG ⟨0, 4, 0⟩ hideW () 0 0 () (realA 5 20) ⟨16, 0, 0, 0, false, true⟩ ∧
    (∃ r, observedRel realP hideG ⟨0, 4, 0⟩ 4 0 ⟨false, 60, 15⟩ 500 () 0 (.continuous 0) hideW = .ok r ∧ r.hasLeader = false ∧
      ∃ a, Idm.Spec.Returns (Idm.totalAcc Idm.wp r 10 r.distance) a ∧ 0 < a) ∧
    ∃ r, observedRel realP hideG ⟨0, 4, 0⟩ 5 0 ⟨false, 60, 15⟩ 500 () 0 (.continuous 0) hideW = .ok r ∧ r.hasLeader = true ∧ r.distance = 16 ∧
      r.velocity = 0 := by
  have e4 : ∃ q, getAgentFrontRear realP hideG ⟨0, 4, 0⟩ 4 false (some ()) 0 hideW = .ok ⟨(none, FDiff.default 1000), q⟩ := by
    simp [getAgentFrontRear, frConsidered, World.getNearestAgents, World.collectHits, hideW, hideG, realP, realA, World.getAgent, OMap.find,
      OMap.insert, frFrom, frLoop, frBody, frDiff, frenetDiff, Agent.currentState, Agent.isValidAtTime, dblEps, FDiff.default, bind, Except.bind]
    norm_num
  have e5 : ∃ q, getAgentFrontRear realP hideG ⟨0, 4, 0⟩ 5 false (some ()) 0 hideW = .ok ⟨(some (realA 5 20), ⟨16, 0, 0, 0, false, true⟩), q⟩ := by
    simp [getAgentFrontRear, frConsidered, World.getNearestAgents, World.collectHits, hideW, hideG, realP, realA, World.getAgent, OMap.find,
      OMap.insert, frFrom, frLoop, frBody, frDiff, frenetDiff, Agent.currentState, Agent.isValidAtTime, dblEps, FDiff.default, bind, Except.bind]
    norm_num
  refine ⟨rfl, ?_, ?_, ⟨⟨0, 10 ^ 6, 0, false⟩, ?_, rfl, _, Idm.free_value Idm.wp_sane rfl 10 _, ?_⟩, ⟨16, 0, 0, true⟩, ?_, rfl, rfl, rfl⟩
  · refine ⟨rfl, (List.take_sublist _ _).subperm, ?_⟩
    intro x hx y hy hny
    simp only [hideG, hideW, List.take_succ_cons, List.take_zero, List.mem_cons, List.not_mem_nil, or_false] at hx hy hny
    have hy' : y = (20, 5) := by tauto
    rcases hx with rfl | rfl | rfl | rfl | rfl <;> rw [hy'] <;> norm_num
  · refine ⟨by simp [realA], rfl, by simp only [realA, hideW]; positivity, ⟨20, rfl, ?_, by simp [hideG]⟩, Or.inl ⟨rfl, le_refl _⟩⟩
    unfold frenetDiff hideG
    norm_num
  · obtain ⟨q, hq⟩ := e4
    unfold observedRel
    rw [hq]
    simp [relValues, leader, CAcc.egoAcc, combine]
  · norm_num [Idm.wp]
  · obtain ⟨q, hq⟩ := e5
    unfold observedRel
    rw [hq]
    simp [relValues, leader, realA, hideG, CAcc.egoAcc, combine]

end Bark.Lead
