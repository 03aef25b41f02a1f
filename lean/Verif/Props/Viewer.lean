import Mathlib.Tactic.Ring
import Mathlib.Tactic.FieldSimp
import Mathlib.Tactic.Linarith
import Mathlib.Tactic.NormNum
import Mathlib.Algebra.Order.Field.Rat
import Verif.Spec.Viewer

/-! C185: the camera of the viewers. -/

namespace Bark.View
open Spec
set_option linter.unusedSectionVars false

section
variable {K : Type} [Field K] [LinearOrder K] [IsStrictOrderedRing K]

theorem dynamic_x {aspect : K} {c : Camera K} (p : K × K) (v : Range K) (hx : c.enforceX = true) (hy : c.enforceY = false) :
    Centred (dynamicRange aspect c p v) p ∧ HasSize (dynamicRange aspect c p v) c.xLen (c.xLen / aspect) := by
  simp only [dynamicRange, hx, hy, if_true, Bool.false_eq_true, if_false, Centred, HasSize]
  refine ⟨⟨by ring, by ring⟩, by ring, by ring⟩

theorem dynamic_y {aspect : K} {c : Camera K} (p : K × K) (v : Range K) (hy : c.enforceY = true) :
    Centred (dynamicRange aspect c p v) p ∧ HasSize (dynamicRange aspect c p v) (c.yLen * aspect) c.yLen := by
  simp only [dynamicRange, hy, if_true, Centred, HasSize]
  refine ⟨⟨by ring, by ring⟩, by ring, by ring⟩

/-- a centred range of non-negative size shows its centre -/
theorem centred_shows {v : Range K} {p : K × K} {w h : K} (hc : Centred v p) (hs : HasSize v w h) (hw : 0 ≤ w) (hh : 0 ≤ h) :
    Shows v p := by
  obtain ⟨a, b⟩ := hc
  obtain ⟨d, e⟩ := hs
  refine ⟨?_, ?_, ?_, ?_⟩ <;> linarith

/-- which agent is followed -/
theorem drawEvalId_some {f : Follow} {agents : List Nat} {ev : Option (List Nat)} {i : Nat} :
    drawEvalId f agents ev = .ok (some i) ↔ i ∈ agents ∧ (f = .id i ∨ ∃ b, f = .flag b ∧
      (ev = some [i] ∨ ((∀ e, ev ≠ some [e]) ∧ i = b.toNat))) := by
  cases f with
  | nobody => simp [drawEvalId]
  | ids l => simp [drawEvalId]
  | id j =>
    simp only [drawEvalId, Except.ok.injEq, Follow.id.injEq, reduceCtorEq, false_and, exists_false, or_false]
    by_cases h : j ∈ agents
    · rw [if_pos h]; simp only [Option.some.injEq]
      constructor
      · rintro rfl; exact ⟨h, rfl⟩
      · exact fun h => h.2
    · rw [if_neg h]
      constructor
      · intro h; cases h
      · rintro ⟨h1, rfl⟩; exact absurd h1 h
  | flag b =>
    simp only [drawEvalId, Except.ok.injEq, Follow.flag.injEq, reduceCtorEq, false_or]
    have key : ∀ d, (if d ∈ agents then some d else none) = some i ↔ i ∈ agents ∧ d = i := by
      intro d
      by_cases h : d ∈ agents
      · rw [if_pos h]; simp only [Option.some.injEq]
        constructor
        · rintro rfl; exact ⟨h, rfl⟩
        · exact fun h => h.2
      · rw [if_neg h]
        constructor
        · intro h; cases h
        · rintro ⟨h1, rfl⟩; exact absurd h1 h
    rw [key]
    refine and_congr_right (fun _ => ?_)
    match ev with
    | none => simp [eq_comm]
    | some [] => simp [eq_comm]
    | some [e] => simp
    | some (a :: b :: l) => simp [eq_comm]

/-- **Following a vehicle.** If the camera is set to an agent of the world, by its id or as the only evaluated agent, the range shown is
centred at this agent after every frame, whatever was shown before; its height is the enforced one (the width follows from the aspect
ratio of the window), or else its width is the enforced one; and the position of the agent is in it. -/
theorem C185_follow {aspect : K} (ha : 0 < aspect) {c : Camera K} (hx : 0 ≤ c.xLen) (hy : 0 ≤ c.yLen)
    (he : c.enforceX = true ∨ c.enforceY = true) {s : Scene K} {ev : Option (List Nat)} {i : Nat} (hi : i ∈ s.agents)
    (hf : c.follow = .id i ∨ (∃ b, c.follow = .flag b) ∧ ev = some [i]) (v : Range K) :
    ∃ r, viewRange aspect c s ev v = .ok r ∧ Centred r (s.pos i) ∧ Shows r (s.pos i) ∧
      (c.enforceY = true → HasSize r (c.yLen * aspect) c.yLen) ∧ (c.enforceY = false → HasSize r c.xLen (c.xLen / aspect)) := by
  have hd : drawEvalId c.follow s.agents ev = .ok (some i) := by
    rw [drawEvalId_some]
    refine ⟨hi, ?_⟩
    rcases hf with h | ⟨⟨b, h⟩, h'⟩
    · exact Or.inl h
    · exact Or.inr ⟨b, h, Or.inl h'⟩
  refine ⟨dynamicRange aspect c (s.pos i) v, by simp only [viewRange, hd], ?_⟩
  by_cases h : c.enforceY = true
  · obtain ⟨h1, h2⟩ := dynamic_y (aspect := aspect) (s.pos i) v h
    refine ⟨h1, centred_shows h1 h2 (by positivity) hy, fun _ => h2, fun e => ?_⟩
    rw [h] at e; cases e
  · have h' : c.enforceY = false := by simpa using h
    obtain ⟨h1, h2⟩ := dynamic_x (aspect := aspect) (s.pos i) v (he.resolve_right h) h'
    exact ⟨h1, centred_shows h1 h2 hx (by positivity), fun e => absurd e h, fun _ => h2⟩

/-- nobody is followed: no agent is named, or the one named is not in the world -/
def Free (c : Camera K) (s : Scene K) : Prop :=
  c.follow = .nobody ∨ ∃ i, c.follow = .id i ∧ i ∉ s.agents

theorem free_none {c : Camera K} {s : Scene K} (h : Free c s) (ev : Option (List Nat)) :
    drawEvalId c.follow s.agents ev = .ok none := by
  rcases h with h | ⟨i, h, hi⟩ <;> rw [h] <;> simp [drawEvalId, *]

/-- **The whole map.** If nobody is followed and the bounds of the map are used, a square is shown: it has the centre of the map's
bounding box, shows every point of the box, and is no larger than needed. -/
theorem C185_whole_map {aspect : K} {c : Camera K} {s : Scene K} (hn : Free c s) (hb : c.useBounds = true)
    (hbx : s.box.1.1 ≤ s.box.2.1) (hby : s.box.1.2 ≤ s.box.2.2) (ev : Option (List Nat)) (v : Range K) :
    ∃ r d, viewRange aspect c s ev v = .ok r ∧ HasSize r d d ∧ (∀ p, InBox s.box p → Shows r p) ∧
      Centred r ((s.box.1.1 + s.box.2.1) / 2, (s.box.1.2 + s.box.2.2) / 2) ∧
      (d = s.box.2.1 - s.box.1.1 ∨ d = s.box.2.2 - s.box.1.2) := by
  obtain ⟨⟨⟨x1, y1⟩, ⟨x2, y2⟩⟩, hbox⟩ : ∃ b, s.box = b := ⟨_, rfl⟩
  have e : viewRange aspect c s ev v = .ok (boxRange s.box) := by
    simp only [viewRange, free_none hn ev, hb, if_true]
  rw [hbox] at hbx hby e ⊢
  dsimp only at hbx hby
  by_cases h : |x2 - x1| > |y2 - y1|
  · have e2 : boxRange ((x1, y1), (x2, y2)) = ⟨(x1, x2), (y1 - (|x2 - x1| - |y2 - y1|) / 2, y2 + (|x2 - x1| - |y2 - y1|) / 2)⟩ := by
      simp only [boxRange, if_pos h]
    rw [abs_of_nonneg (sub_nonneg.2 hbx), abs_of_nonneg (sub_nonneg.2 hby)] at h e2
    refine ⟨_, x2 - x1, e, ?_, ?_, ?_, Or.inl rfl⟩
    · rw [e2]; exact ⟨rfl, by dsimp only; ring⟩
    · rintro ⟨p, q⟩ ⟨h1, h2, h3, h4⟩
      rw [e2]
      refine ⟨h1, h2, ?_, ?_⟩ <;> dsimp only at h3 h4 ⊢ <;> linarith
    · rw [e2]; constructor <;> dsimp only <;> ring
  · have e2 : boxRange ((x1, y1), (x2, y2)) = ⟨(x1 - (|y2 - y1| - |x2 - x1|) / 2, x2 + (|y2 - y1| - |x2 - x1|) / 2), (y1, y2)⟩ := by
      simp only [boxRange, if_neg h]
    rw [abs_of_nonneg (sub_nonneg.2 hbx), abs_of_nonneg (sub_nonneg.2 hby)] at h e2
    rw [gt_iff_lt, not_lt] at h
    refine ⟨_, y2 - y1, e, ?_, ?_, ?_, Or.inr rfl⟩
    · rw [e2]; exact ⟨by dsimp only; ring, rfl⟩
    · rintro ⟨p, q⟩ ⟨h1, h2, h3, h4⟩
      rw [e2]
      refine ⟨?_, ?_, h3, h4⟩ <;> dsimp only at h1 h2 ⊢ <;> linarith
    · rw [e2]; constructor <;> dsimp only <;> ring

/-- **Fixed view.** If nobody is followed and the bounds of the map are not used, the range is centred at the configured point with the
enforced length. -/
theorem C185_fixed {aspect : K} {c : Camera K} {s : Scene K} (hn : Free c s) (hb : c.useBounds = false)
    (he : c.enforceX = true ∨ c.enforceY = true) (ev : Option (List Nat)) (v : Range K) :
    ∃ r, viewRange aspect c s ev v = .ok r ∧ Centred r c.center ∧
      (c.enforceY = true → HasSize r (c.yLen * aspect) c.yLen) ∧ (c.enforceY = false → HasSize r c.xLen (c.xLen / aspect)) := by
  refine ⟨dynamicRange aspect c c.center v, by simp only [viewRange, free_none hn ev, hb, Bool.false_eq_true, if_false], ?_⟩
  by_cases h : c.enforceY = true
  · obtain ⟨h1, h2⟩ := dynamic_y (aspect := aspect) c.center v h
    refine ⟨h1, fun _ => h2, fun e => ?_⟩
    rw [h] at e; cases e
  · have h' : c.enforceY = false := by simpa using h
    obtain ⟨h1, h2⟩ := dynamic_x (aspect := aspect) c.center v (he.resolve_right h) h'
    exact ⟨h1, fun e => absurd e h, fun _ => h2⟩

/-- **Violation: following switched off.** `FollowAgentIds = False` with one evaluated agent follows this agent; with any other number
of evaluated agents agent 0 is followed. -/
theorem C185_off_follows_violated {aspect : K} {c : Camera K} (hf : c.follow = .flag false) (hy : c.enforceY = true) {s : Scene K}
    (ev : Option (List Nat)) {i : Nat} (hi : i ∈ s.agents) (h : ev = some [i] ∨ ((∀ e, ev ≠ some [e]) ∧ i = 0)) (v : Range K) :
    ∃ r, viewRange aspect c s ev v = .ok r ∧ Centred r (s.pos i) := by
  have hd : drawEvalId c.follow s.agents ev = .ok (some i) := by
    rw [drawEvalId_some]
    exact ⟨hi, Or.inr ⟨false, hf, h⟩⟩
  exact ⟨dynamicRange aspect c (s.pos i) v, by simp only [viewRange, hd], (dynamic_y (s.pos i) v hy).1⟩

/-- **Violation: several evaluated agents.** With `FollowAgentIds = True` and two or more evaluated agents the agent with the id 1 is
followed, evaluated or not. -/
theorem C185_agent_one_violated {aspect : K} {c : Camera K} (hf : c.follow = .flag true) (hy : c.enforceY = true) {s : Scene K}
    {a b : Nat} {l : List Nat} (hi : 1 ∈ s.agents) (v : Range K) :
    ∃ r, viewRange aspect c s (some (a :: b :: l)) v = .ok r ∧ Centred r (s.pos 1) := by
  have hd : drawEvalId c.follow s.agents (some (a :: b :: l)) = .ok (some 1) := by
    rw [drawEvalId_some]
    exact ⟨hi, Or.inr ⟨true, hf, Or.inr ⟨by simp, rfl⟩⟩⟩
  exact ⟨dynamicRange aspect c (s.pos 1) v, by simp only [viewRange, hd], (dynamic_y (s.pos 1) v hy).1⟩

/-- **Violation: no length enforced.** Then a followed agent is followed only in name: the range stays as it was, wherever the agent
drives. -/
theorem C185_not_enforced_violated {aspect : K} {c : Camera K} (hx : c.enforceX = false) (hy : c.enforceY = false) {s : Scene K}
    {i : Nat} (hi : i ∈ s.agents) (hf : c.follow = .id i) (ev : Option (List Nat)) (v : Range K) :
    viewRange aspect c s ev v = .ok v := by
  have hd : drawEvalId c.follow s.agents ev = .ok (some i) := by
    rw [drawEvalId_some]; exact ⟨hi, Or.inl hf⟩
  simp only [viewRange, hd, dynamicRange, hx, hy, Bool.false_eq_true, if_false]

/-- **Violation: a list of agents** to follow, as the name of the parameter suggests, is refused. -/
theorem C185_list_violated {aspect : K} {c : Camera K} {l : List Nat} (hf : c.follow = .ids l) (s : Scene K)
    (ev : Option (List Nat)) (v : Range K) : viewRange aspect c s ev v = .error .type := by
  simp only [viewRange, hf, drawEvalId]

end

/-- the settings of a camera that follows agent 7 in a window of aspect ratio 2, showing 40 m of height -/
def exCam : Camera ℚ := ⟨false, .id 7, (0, 0), true, true, 80, 40⟩

/-- a world with the agents 3 and 7 on a map of 100 m by 60 m -/
def exScene : Scene ℚ := ⟨[3, 7], [3, 7], fun i => if i = 7 then (10, 5) else (50, 5), ((0, 0), (100, 60))⟩

example : viewRange 2 exCam exScene (some [3]) ⟨(-40, 40), (-40, 40)⟩ = .ok ⟨(-30, 50), (-15, 25)⟩ := by decide +kernel
example : viewRange 2 { exCam with follow := .nobody, useBounds := true } exScene none ⟨(0, 0), (0, 0)⟩
    = .ok ⟨(0, 100), (-20, 80)⟩ := by decide +kernel
/-- the flag is off, but the evaluated agent 3 is followed -/
example : viewRange 2 { exCam with follow := .flag false } exScene (some [3]) ⟨(0, 0), (0, 0)⟩
    = .ok ⟨(10, 90), (-15, 25)⟩ := by decide +kernel

end Bark.View
