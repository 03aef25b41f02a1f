import Verif.Spec.Pick
import Verif.Props.Frenet
import Verif.Props.Shape
import Verif.Props.Idm
import Verif.Props.GoalOutline

/-!
C198 (corridor reacted to and followed), C199 (IDM trajectories in the plane).
-/
namespace Bark.Pick
open Bark Bark.Ln Bark.Fren Bark.Ln.Spec Bark.Fren.Spec Bark.Pick.Spec

variable {Lane : Type}

/-! ### C198 -/

theorem apart_iff (th heading d : ℝ) : Apart th heading d ↔ d ≤ |Angle.signedAngleDiff id th heading| := by
  obtain ⟨-, -, h3, h4⟩ := Angle.C31_signed_difference th heading
  constructor
  · intro h
    obtain ⟨k, hk⟩ := h3
    have := h (-(Angle.signedAngleDiff id th heading)) ⟨-k, by rw [hk]; push_cast; ring⟩
    rwa [abs_neg] at this
  · rintro h r ⟨k, hk⟩
    have := h4 (-r) ⟨-k, by rw [hk]; push_cast; ring⟩
    rw [abs_neg] at this
    exact h.trans this

/-- the corridor reacted to with a constant corridor `target` while on `cur` -/
theorem C198_reacts (R : Roads Lane) {shape : Shape.Poly} (hx : shape.center.x = 0) (hy : shape.center.y = 0) (x : VState)
    (cur target : Lane) (h : TableRight (R.line target)) (h2 : 2 ≤ (R.line target).pts.length) (hnd : NoDup (R.line target).pts) :
    ∃ s q θ lane, Foot (R.line target) (x.x, x.y) s q θ ∧ reaction id R shape x (some target) cur = .ok lane ∧
      (Enters (R.inside target) shape.pts x ∨ Apart θ x.theta (1 / 5) → lane = target) ∧
      (¬ Enters (R.inside target) shape.pts x → ¬ Apart θ x.theta (1 / 5) → lane = cur) := by
  obtain ⟨q, s, i, θ, h1, h3, h4⟩ := foot_exists h h2 hnd (x.x, x.y)
  have hent : (∃ p ∈ (Shape.outlineAt shape x.x x.y x.theta).pts, R.inside target p) ↔ Enters (R.inside target) shape.pts x := by
    rw [(Shape.C152_centered shape x.x x.y x.theta hx hy).1]
    simp only [Enters, List.mem_map]
    constructor
    · rintro ⟨p, ⟨u, hu, rfl⟩, hp⟩
      exact ⟨u, hu, hp⟩
    · rintro ⟨u, hu, hp⟩
      exact ⟨_, ⟨u, hu, rfl⟩, hp⟩
  have hs : ∃ f, ofState id (R.line target) x = .ok f ∧ f.angle = Angle.signedAngleDiff id θ x.theta := by
    refine ⟨{ lon := s, lat := latVal q (x.x, x.y) * sideSign id θ (sub (x.x, x.y) q)
              vlon := Real.cos (Angle.signedAngleDiff id x.theta θ) * x.vel
              vlat := Real.sin (Angle.signedAngleDiff id x.theta θ) * x.vel
              angle := Angle.signedAngleDiff id θ x.theta, angleRoad := θ }, ?_, rfl⟩
    · unfold ofState
      rw [h1]
      simp only [bind, Except.bind]
      rw [h3]
  obtain ⟨f, hf, ha⟩ := hs
  by_cases he : Enters (R.inside target) shape.pts x
  · refine ⟨s, q, θ, target, h4, ?_, fun _ => rfl, fun g => absurd he g⟩
    simp only [reaction, choose, hf]
    rw [if_pos (hent.2 he)]
  · by_cases hd : Apart θ x.theta (1 / 5)
    · refine ⟨s, q, θ, target, h4, ?_, fun _ => rfl, fun _ g => absurd hd g⟩
      simp only [reaction, choose, hf]
      rw [if_neg (fun g => he (hent.1 g)), if_neg]
      rw [ha]
      exact not_lt.2 ((apart_iff _ _ _).1 hd)
    · refine ⟨s, q, θ, cur, h4, ?_, fun g => absurd g (not_or.2 ⟨he, hd⟩), fun _ _ => rfl⟩
      simp only [reaction, choose, hf]
      rw [if_neg (fun g => he (hent.1 g)), if_pos]
      rw [ha]
      exact not_le.1 (fun g => hd ((apart_iff _ _ _).2 g))

/-- reaction is always the current or the constant corridor -/
theorem reaction_mem {R : Roads Lane} {shape : Shape.Poly} {x : VState} {const : Option Lane} {cur lane : Lane}
    (h : reaction id R shape x const cur = .ok lane) : lane = cur ∨ const = some lane := by
  unfold reaction at h
  cases const with
  | none => simp only [Except.ok.injEq] at h; exact .inl h.symm
  | some c =>
    simp only [choose] at h
    split at h
    · cases h
    · by_cases h1 : ∃ p ∈ (Shape.outlineAt shape x.x x.y x.theta).pts, R.inside c p
      · rw [if_pos h1] at h
        simp only [Except.ok.injEq] at h
        exact .inr (by rw [h])
      · rw [if_neg h1] at h
        split_ifs at h
        · simp only [Except.ok.injEq] at h
          exact .inl h.symm
        · simp only [Except.ok.injEq] at h
          exact .inr (by rw [h])

theorem plan_cases {T : Type} {R : Roads Lane} {shape : Shape.Poly} {x : VState} {const cur : Option Lane} {rel : Lane → Res Idm.Rel}
    {gen : Lane → Idm.Rel → Res T} {b b' : Beh T} (h : plan id R shape x const cur rel gen b = .ok b') :
    (cur = none ∧ b'.status = .expired ∧ b'.traj = b.traj) ∨
    ∃ c lane r, cur = some c ∧ reaction id R shape x const c = .ok lane ∧ rel lane = .ok r ∧ gen c r = .ok b'.traj ∧ b'.status = .valid := by
  unfold plan at h
  cases cur with
  | none => simp only [Except.ok.injEq] at h; subst h; exact .inl ⟨rfl, rfl, rfl⟩
  | some c =>
    right
    dsimp only at h
    cases h1 : reaction id R shape x const c with
    | error f => rw [h1] at h; cases h
    | ok lane =>
      rw [h1] at h; dsimp only at h
      cases h2 : rel lane with
      | error f => rw [h2] at h; cases h
      | ok r =>
        rw [h2] at h; dsimp only at h
        cases h3 : gen c r with
        | error f => rw [h3] at h; cases h
        | ok t =>
          rw [h3] at h
          simp only [Except.ok.injEq] at h
          subst h
          exact ⟨c, lane, r, rfl, h1, h2, h3, rfl⟩

/-- Planning with the classic IDM: without a corridor the behaviour expires and keeps its trajectory; otherwise the vehicle drives along the corridor
it is on, reacting to that corridor or the constant one. -/
theorem C198_classic {R : Roads Lane} {shape : Shape.Poly} {x : VState} {const cur : Option Lane} {rel : Lane → Res Idm.Rel}
    {p : Idm.Params} {start dt : ℝ} {b b' : Beh (List VState)}
    (h : plan id R shape x const cur rel (fun lane r => classic p (R.line lane) r start dt x) b = .ok b') :
    (cur = none → b'.status = .expired ∧ b'.traj = b.traj) ∧
    ∀ c, cur = some c → b'.status = .valid ∧ ∃ lane r, (lane = c ∨ const = some lane) ∧ (const = none → lane = c) ∧ rel lane = .ok r ∧
      classic p (R.line c) r start dt x = .ok b'.traj := by
  rcases plan_cases h with ⟨rfl, h1, h2⟩ | ⟨c, lane, r, rfl, h1, h2, h3, h4⟩
  · exact ⟨fun _ => ⟨h1, h2⟩, fun c hc => by cases hc⟩
  · refine ⟨fun hc => (by cases hc), fun c' hc => ?_⟩
    cases hc
    refine ⟨h4, lane, r, reaction_mem h1, ?_, h2, h3⟩
    rintro rfl
    rcases reaction_mem h1 with e | e
    · exact e
    · cases e

/-- Planning with lane tracking: the vehicle steers to the constant corridor from the start, or to the corridor it is on if there is none. -/
theorem C198_tracking {R : Roads Lane} {shape : Shape.Poly} {x : VState} {const cur : Option Lane} {rel : Lane → Res Idm.Rel}
    {p : Idm.Params} {start dt wb : ℝ} {steer : Line → Dyn.State → ℝ} {ego : Dyn.State} {b b' : Beh (List Dyn.State)}
    (h : plan id R shape x const cur rel (track p R const wb steer start dt ego) b = .ok b') :
    (cur = none → b'.status = .expired ∧ b'.traj = b.traj) ∧
    ∀ c, cur = some c → b'.status = .valid ∧ ∃ lane r, (lane = c ∨ const = some lane) ∧ (const = none → lane = c) ∧ rel lane = .ok r ∧
      (const = none → Dyn.laneTracking id p r wb (steer (R.line c)) start dt ego = .ok b'.traj) ∧
      ∀ t, const = some t → Dyn.laneTracking id p r wb (steer (R.line t)) start dt ego = .ok b'.traj := by
  rcases plan_cases h with ⟨rfl, h1, h2⟩ | ⟨c, lane, r, rfl, h1, h2, h3, h4⟩
  · exact ⟨fun _ => ⟨h1, h2⟩, fun c hc => by cases hc⟩
  · refine ⟨fun hc => (by cases hc), fun c' hc => ?_⟩
    cases hc
    refine ⟨h4, lane, r, reaction_mem h1, ?_, h2, ?_, ?_⟩
    · rintro rfl
      rcases reaction_mem h1 with e | e
      · exact e
      · cases e
    · rintro rfl
      unfold track trackLine at h3
      dsimp only at h3
      split_ifs at h3
      exact h3
    · rintro t rfl
      unfold track trackLine at h3
      dsimp only at h3
      split_ifs at h3
      exact h3

/-- Planning with lane tracking along a corridor whose line has no points returns a matrix that was never filled in. -/
theorem C198_empty_line {R : Roads Lane} {shape : Shape.Poly} {x : VState} {const : Option Lane} {c lane : Lane} {rel : Lane → Res Idm.Rel}
    {p : Idm.Params} {start dt wb : ℝ} {steer : Line → Dyn.State → ℝ} {ego : Dyn.State} {b : Beh (List Dyn.State)} {r : Idm.Rel}
    (h1 : reaction id R shape x const c = .ok lane) (h2 : rel lane = .ok r)
    (h3 : (const = none ∧ (R.line c).pts = []) ∨ ∃ k, const = some k ∧ (R.line k).pts = []) :
    plan id R shape x const (some c) rel (track p R const wb steer start dt ego) b = .error .ub := by
  have h4 : track p R const wb steer start dt ego c r = .error .ub := by
    unfold track
    rw [if_pos]
    rcases h3 with ⟨rfl, h⟩ | ⟨k, rfl, h⟩ <;> exact h
  unfold plan
  simp only [h1, h2, h4]

theorem planChange_of {T : Type} {cur followed : Option Lane} {d : Lane} {rel : Lane → Res Idm.Rel} {gen : Lane → Idm.Rel → Res T}
    {b : Beh T} {r : Idm.Rel} {t : T} {c : Lane} (hc : cur = some c) (hr : rel d = .ok r) (ht : gen d r = .ok t) :
    planChange cur followed (some d) rel gen b = .ok (⟨.valid, t⟩, some d) := by
  subst hc
  simp only [planChange, hr, ht]

/-- Lane changing behaviours: the decision is followed (steering and leader) when there is no constant corridor … -/
theorem C198_lane_change {R : Roads Lane} {cur followed : Option Lane} {c d : Lane} {rel : Lane → Res Idm.Rel} {p : Idm.Params} {start dt wb : ℝ}
    {steer : Line → Dyn.State → ℝ} {ego : Dyn.State} {b : Beh (List Dyn.State)} {res : Beh (List Dyn.State) × Option Lane}
    (hc : cur = some c) (h : planChange cur followed (some d) rel (track p R none wb steer start dt ego) b = .ok res) :
    res.1.status = .valid ∧ res.2 = some d ∧
    ∃ r, rel d = .ok r ∧ Dyn.laneTracking id p r wb (steer (R.line d)) start dt ego = .ok res.1.traj := by
  subst hc
  simp only [planChange] at h
  cases hr : rel d with
  | error f => rw [hr] at h; cases h
  | ok r =>
    rw [hr] at h; dsimp only at h
    cases ht : track p R none wb steer start dt ego d r with
    | error f => rw [ht] at h; cases h
    | ok t =>
      rw [ht] at h
      simp only [Except.ok.injEq] at h
      subst h
      refine ⟨rfl, rfl, r, rfl, ?_⟩
      unfold track trackLine at ht
      dsimp only at ht
      split_ifs at ht
      exact ht

/-- … but with a constant corridor `k` (set by an RSS behaviour around it) the vehicle steers to that corridor whatever it decides: -/
theorem C198_decision_overruled_violated {R : Roads Lane} {cur followed : Option Lane} {c d k : Lane} {rel : Lane → Res Idm.Rel} {p : Idm.Params}
    {start dt wb : ℝ} {steer : Line → Dyn.State → ℝ} {ego : Dyn.State} {b : Beh (List Dyn.State)} {res : Beh (List Dyn.State) × Option Lane}
    (hc : cur = some c) (h : planChange cur followed (some d) rel (track p R (some k) wb steer start dt ego) b = .ok res) :
    ∃ r, rel d = .ok r ∧ Dyn.laneTracking id p r wb (steer (R.line k)) start dt ego = .ok res.1.traj := by
  subst hc
  simp only [planChange] at h
  cases hr : rel d with
  | error f => rw [hr] at h; cases h
  | ok r =>
    rw [hr] at h; dsimp only at h
    cases ht : track p R (some k) wb steer start dt ego d r with
    | error f => rw [ht] at h; cases h
    | ok t =>
      rw [ht] at h
      simp only [Except.ok.injEq] at h
      subst h
      refine ⟨r, rfl, ?_⟩
      unfold track trackLine at ht
      dsimp only at ht
      split_ifs at ht
      exact ht

end Bark.Pick
