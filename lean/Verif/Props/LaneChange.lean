import Verif.Model.LaneChange
import Verif.Spec.LaneChange
import Verif.Props.FrontRear
import Mathlib.Tactic.Linarith
import Mathlib.Tactic.NormNum

/-! C45, C86 – rule-based lane change. -/
namespace Bark.LaneChange
open Bark LaneSpec
set_option linter.unusedSectionVars false

section
variable {K St Act B E Sh Box O Lane : Type} [Field K] [LinearOrder K] [IsStrictOrderedRing K] [DecidableEq Lane]
variable (P : Plug K St Act B E Sh Box O) (G : FRPlug K St Act B E Sh Box Lane) (pi : K) (n : Nat)
  (vel : St → K) (len : Lane → St → K) (ego : Nat) (w : World K St Act B E Sh Box O)

theorem fill_measured {lane : Lane} {li : LaneInfo K (Agent K St Act B E Sh) Lane}
    (h : fill P G pi n vel len ego w lane = .ok li) :
    ∃ f, Measured P G pi n vel len ego w lane f ∧ li.lane = lane ∧ li.remaining = f.remaining ∧
      li.front.relDist = free f ∧
      (∀ d dv, f.rear = some (d, dv) → li.rear.relDist = d ∧ li.rear.relVel = dv) ∧
      (f.rear = none → li.rear.relDist = -1000 ∧ li.rear.relVel = 0) := by
  unfold fill at h
  obtain ⟨s, hs, h⟩ := Res.bind_ok h
  obtain ⟨i, hi, h⟩ := Res.bind_ok h
  injection h with h
  unfold frontRearAgents at hi
  obtain ⟨fr, hfr, hi⟩ := Res.bind_ok hi
  obtain ⟨f, hf, hi⟩ := Res.bind_ok hi
  obtain ⟨r, hr, hi⟩ := Res.bind_ok hi
  injection hi with hi
  subst hi
  subst h
  have hs0 := hs
  unfold egoState at hs
  cases he : w.getAgent ego with
  | none => rw [he] at hs; cases hs
  | some e =>
    rw [he] at hs
    simp only at hs
    unfold infoOf at hf hr
    have hfront : ∃ o, f.relDist = (o : Option K).getD (10 ^ 6) ∧ o = fr.front.1.map (fun _ => fr.front.2.lon) := by
      cases hx : fr.front.1 with
      | none =>
        rw [hx] at hf
        simp only at hf
        injection hf with hf
        subst hf
        exact ⟨none, rfl, rfl⟩
      | some a =>
        rw [hx] at hf
        simp only at hf
        obtain ⟨v, _, hf⟩ := Res.bind_ok hf
        obtain ⟨s', _, hf⟩ := Res.bind_ok hf
        injection hf with hf
        subst hf
        exact ⟨_, rfl, rfl⟩
    obtain ⟨o, ho1, ho2⟩ := hfront
    cases hx : fr.rear.1 with
    | none =>
      rw [hx] at hr
      simp only at hr
      injection hr with hr
      subst hr
      refine ⟨⟨len lane s, o, none⟩, ⟨e, s, fr, he, hs, hfr, rfl, ho2, fun _ => rfl, ?_⟩, rfl, rfl, ?_, ?_, ?_⟩
      · intro a ha; rw [hx] at ha; cases ha
      · simp only [free, ho1]
      · intro d dv hd; cases hd
      · intro _; exact ⟨rfl, rfl⟩
    | some a =>
      rw [hx] at hr
      simp only at hr
      obtain ⟨v, hv, hr⟩ := Res.bind_ok hr
      obtain ⟨s', hs', hr⟩ := Res.bind_ok hr
      rw [hs0] at hs'
      injection hs' with hs'
      subst hs'
      injection hr with hr
      subst hr
      unfold velocity at hv
      obtain ⟨sa, hsa, hv⟩ := Res.bind_ok hv
      injection hv with hv
      subst hv
      refine ⟨⟨len lane s, o, some (fr.rear.2.lon, vel sa - vel s)⟩,
        ⟨e, s, fr, he, hs, hfr, rfl, ho2, fun hn => ?_, ?_⟩, rfl, rfl, ?_, ?_, ?_⟩
      · rw [hx] at hn; cases hn
      · intro a' ha'; rw [hx] at ha'; cases ha'; exact ⟨sa, hsa, rfl⟩
      · simp only [free, ho1]
      · rintro d dv hd; cases hd; exact ⟨rfl, rfl⟩
      · intro hn; cases hn

/-- what is measured is unique -/
theorem measured_unique {lane : Lane} {f g : Facts K} (hf : Measured P G pi n vel len ego w lane f)
    (hg : Measured P G pi n vel len ego w lane g) : f = g := by
  obtain ⟨e, s, fr, he, hs, hfr, a1, a2, a3, a4⟩ := hf.ex
  obtain ⟨e', s', fr', he', hs', hfr', b1, b2, b3, b4⟩ := hg.ex
  rw [he] at he'; cases he'
  rw [hs] at hs'; cases hs'
  rw [hfr] at hfr'; cases hfr'
  have h3 : f.rear = g.rear := by
    cases hx : fr.rear.1 with
    | none => rw [a3 hx, b3 hx]
    | some a =>
      obtain ⟨sa, h1, h2⟩ := a4 a hx
      obtain ⟨sb, h3, h4⟩ := b4 a hx
      rw [h1] at h3; cases h3
      rw [h2, h4]
  cases f; cases g
  simp only at a1 a2 b1 b2 h3
  rw [a1, a2, b1, b2, h3]

theorem scan_ok {lanes : List Lane} {infos} (h : scan P G pi n vel len ego w lanes = .ok infos) :
    (∀ li ∈ infos, li.lane ∈ lanes ∧ fill P G pi n vel len ego w li.lane = .ok li) ∧
    (∀ c ∈ lanes, ∃ li ∈ infos, fill P G pi n vel len ego w c = .ok li) := by
  induction lanes generalizing infos with
  | nil => injection h with h; subst h; simp
  | cons c ls ih =>
    unfold scan at h
    obtain ⟨i, hi, h⟩ := Res.bind_ok h
    obtain ⟨is, his, h⟩ := Res.bind_ok h
    injection h with h
    subst h
    obtain ⟨h1, h2⟩ := ih his
    obtain ⟨_, _, hl, _⟩ := fill_measured P G pi n vel len ego w hi
    constructor
    · intro li hli
      rcases List.mem_cons.1 hli with rfl | hli
      · rw [hl]; exact ⟨List.mem_cons_self, hi⟩
      · exact ⟨List.mem_cons_of_mem _ (h1 li hli).1, (h1 li hli).2⟩
    · intro c' hc'
      rcases List.mem_cons.1 hc' with rfl | hc'
      · exact ⟨i, List.mem_cons_self, hi⟩
      · obtain ⟨li, k1, k2⟩ := h2 c' hc'
        exact ⟨li, List.mem_cons_of_mem _ k1, k2⟩

theorem mem_filters {A : Type} (p : Prm K) (infos : List (LaneInfo K A Lane)) (li : LaneInfo K A Lane) :
    li ∈ filters p infos ↔ li ∈ infos ∧ p.minRemaining ≤ li.remaining ∧
      li.rear.relDist ≤ -p.minRear - |li.rear.relVel| * p.timeGap ∧ p.minFront ≤ li.front.relDist := by
  unfold filters
  simp only [List.mem_filter, decide_eq_true_eq]
  tauto

/-- an information record passes the filters iff the lane is safe -/
theorem passes_iff {lane : Lane} {li : LaneInfo K (Agent K St Act B E Sh) Lane} {f : Facts K} (p : Prm K)
    (h : fill P G pi n vel len ego w lane = .ok li) (hf : Measured P G pi n vel len ego w lane f) :
    (p.minRemaining ≤ li.remaining ∧ li.rear.relDist ≤ -p.minRear - |li.rear.relVel| * p.timeGap ∧
      p.minFront ≤ li.front.relDist ↔ Safe p.minRemaining p.minRear p.minFront p.timeGap f) ∧
    li.front.relDist = free f := by
  obtain ⟨g, hg, _, h1, h2, h3, h4⟩ := fill_measured P G pi n vel len ego w h
  have := measured_unique P G pi n vel len ego w hf hg
  subst this
  refine ⟨?_, h2⟩
  rw [h1, h2]
  cases hr : f.rear with
  | none =>
    obtain ⟨k1, k2⟩ := h4 hr
    rw [k1, k2, abs_zero, zero_mul, sub_zero]
    constructor
    · rintro ⟨a, b, c⟩
      exact ⟨a, c, fun d dv h => (by rw [hr] at h; cases h), fun _ => by linarith⟩
    · rintro ⟨a, b, c, d⟩
      exact ⟨a, by have := d hr; linarith, b⟩
  | some x =>
    obtain ⟨d, dv⟩ := x
    obtain ⟨k1, k2⟩ := h3 d dv hr
    rw [k1, k2]
    constructor
    · rintro ⟨a, b, c⟩
      exact ⟨a, c, fun d' dv' h => (by rw [hr] at h; cases h; exact b), fun h => by rw [hr] at h; cases h⟩
    · rintro ⟨a, b, c, _⟩
      exact ⟨a, c d dv hr, b⟩

/-- the loop of the choice -/
theorem mostSpace_spec {A : Type} (infos : List (LaneInfo K A Lane)) (mx : K) (tmp : Option Lane) :
    (mostSpace infos mx tmp = tmp ∧ ∀ li ∈ infos, li.front.relDist ≤ mx) ∨
    ∃ li ∈ infos, mostSpace infos mx tmp = some li.lane ∧ mx < li.front.relDist ∧
      ∀ li' ∈ infos, li'.front.relDist ≤ li.front.relDist := by
  induction infos generalizing mx tmp with
  | nil => left; exact ⟨rfl, by simp⟩
  | cons x l ih =>
    unfold mostSpace
    by_cases hx : mx < x.front.relDist
    · rw [if_pos hx]
      right
      rcases ih x.front.relDist (some x.lane) with ⟨h1, h2⟩ | ⟨li, h1, h2, h3, h4⟩
      · refine ⟨x, List.mem_cons_self, h1, hx, fun li' h' => ?_⟩
        rcases List.mem_cons.1 h' with rfl | h'
        · exact le_rfl
        · exact h2 li' h'
      · refine ⟨li, List.mem_cons_of_mem _ h1, h2, hx.trans h3, fun li' h' => ?_⟩
        rcases List.mem_cons.1 h' with rfl | h'
        · exact h3.le
        · exact h4 li' h'
    · rw [if_neg hx]
      rcases ih mx tmp with ⟨h1, h2⟩ | ⟨li, h1, h2, h3, h4⟩
      · left
        refine ⟨h1, fun li' h' => ?_⟩
        rcases List.mem_cons.1 h' with rfl | h'
        · exact not_lt.1 hx
        · exact h2 li' h'
      · right
        refine ⟨li, List.mem_cons_of_mem _ h1, h2, h3, fun li' h' => ?_⟩
        rcases List.mem_cons.1 h' with rfl | h'
        · exact (not_lt.1 hx).trans h3.le
        · exact h4 li' h'

/-- **C45** (change): with a positive minimal front gap, a proposed change goes to another existing corridor, which passes all
conditions and has the most free space of all corridors that do. -/
theorem C45_change {p : Prm K} {lanes : List Lane} {cur r : Option Lane} (hp : 0 < p.minFront)
    (h : beneficial P G pi n vel len p lanes cur ego w = .ok (.change, r)) :
    ∃ c ∈ lanes, r = some c ∧ cur ≠ some c ∧ ∃ f, Measured P G pi n vel len ego w c f ∧
      Safe p.minRemaining p.minRear p.minFront p.timeGap f ∧
      ∀ c' ∈ lanes, ∀ f', Measured P G pi n vel len ego w c' f' →
        Safe p.minRemaining p.minRear p.minFront p.timeGap f' → free f' ≤ free f := by
  unfold beneficial at h
  obtain ⟨infos, hi, h⟩ := Res.bind_ok h
  injection h with h
  obtain ⟨s1, s2⟩ := scan_ok P G pi n vel len ego w hi
  unfold choose at h
  by_cases g1 : filters p infos = []
  · rw [if_pos g1] at h; cases h
  rw [if_neg g1] at h
  by_cases g2 : mostSpace (filters p infos) 0 none ≠ cur
  swap
  · rw [if_neg g2] at h; cases h
  rw [if_pos g2] at h
  injection h with _ h
  rcases mostSpace_spec (filters p infos) 0 none with ⟨_, k2⟩ | ⟨li, k1, k2, k3, k4⟩
  · obtain ⟨li, hli⟩ := List.exists_mem_of_ne_nil _ g1
    have h1 := ((mem_filters p infos li).1 hli).2.2.2
    have h2 := k2 li hli
    exact absurd (h1.trans h2) (not_le.2 hp)
  · have hm := (mem_filters p infos li).1 k1
    obtain ⟨hl, hfill⟩ := s1 li hm.1
    obtain ⟨f, hf, _⟩ := fill_measured P G pi n vel len ego w hfill
    obtain ⟨hsafe, hfree⟩ := passes_iff P G pi n vel len ego w p hfill hf
    refine ⟨li.lane, hl, by rw [← h, k2], by rw [← k2]; exact g2.symm, f, hf, hsafe.1 hm.2, ?_⟩
    intro c' hc' f' hf' hs'
    obtain ⟨li', m1, m2⟩ := s2 c' hc'
    obtain ⟨hsafe', hfree'⟩ := passes_iff P G pi n vel len ego w p m2 hf'
    rw [← hfree, ← hfree']
    exact k4 li' ((mem_filters p infos li').2 ⟨m1, hsafe'.2 hs'⟩)

/-- **C45** (keep): otherwise the lane is kept, and then either no corridor passes the conditions or the current one passes them
and has the most free space of those that do. -/
theorem C45_keep {p : Prm K} {lanes : List Lane} {cur r : Option Lane} (hp : 0 < p.minFront)
    (h : beneficial P G pi n vel len p lanes cur ego w = .ok (.keep, r)) :
    r = cur ∧ ((∀ c ∈ lanes, ∀ f, Measured P G pi n vel len ego w c f →
        ¬ Safe p.minRemaining p.minRear p.minFront p.timeGap f) ∨
      ∃ c ∈ lanes, cur = some c ∧ ∃ f, Measured P G pi n vel len ego w c f ∧
        Safe p.minRemaining p.minRear p.minFront p.timeGap f ∧
        ∀ c' ∈ lanes, ∀ f', Measured P G pi n vel len ego w c' f' →
          Safe p.minRemaining p.minRear p.minFront p.timeGap f' → free f' ≤ free f) := by
  unfold beneficial at h
  obtain ⟨infos, hi, h⟩ := Res.bind_ok h
  injection h with h
  obtain ⟨s1, s2⟩ := scan_ok P G pi n vel len ego w hi
  unfold choose at h
  by_cases g1 : filters p infos = []
  · rw [if_pos g1] at h
    injection h with _ h
    refine ⟨h.symm, .inl fun c hc f hf hs => ?_⟩
    obtain ⟨li, m1, m2⟩ := s2 c hc
    obtain ⟨hsafe, _⟩ := passes_iff P G pi n vel len ego w p m2 hf
    have := (mem_filters p infos li).2 ⟨m1, hsafe.2 hs⟩
    rw [g1] at this
    cases this
  rw [if_neg g1] at h
  by_cases g2 : mostSpace (filters p infos) 0 none ≠ cur
  · rw [if_pos g2] at h; cases h
  rw [if_neg g2] at h
  injection h with _ h
  refine ⟨h.symm, .inr ?_⟩
  push Not at g2
  rcases mostSpace_spec (filters p infos) 0 none with ⟨_, k2⟩ | ⟨li, k1, k2, k3, k4⟩
  · obtain ⟨li, hli⟩ := List.exists_mem_of_ne_nil _ g1
    have h1 := ((mem_filters p infos li).1 hli).2.2.2
    have h2 := k2 li hli
    exact absurd (h1.trans h2) (not_le.2 hp)
  · have hm := (mem_filters p infos li).1 k1
    obtain ⟨hl, hfill⟩ := s1 li hm.1
    obtain ⟨f, hf, _⟩ := fill_measured P G pi n vel len ego w hfill
    obtain ⟨hsafe, hfree⟩ := passes_iff P G pi n vel len ego w p hfill hf
    refine ⟨li.lane, hl, by rw [← g2, k2], f, hf, hsafe.1 hm.2, ?_⟩
    intro c' hc' f' hf' hs'
    obtain ⟨li', m1, m2⟩ := s2 c' hc'
    obtain ⟨hsafe', hfree'⟩ := passes_iff P G pi n vel len ego w p m2 hf'
    rw [← hfree, ← hfree']
    exact k4 li' ((mem_filters p infos li').2 ⟨m1, hsafe'.2 hs'⟩)

/-- **C45** (vehicles ahead): with an up-to-date spatial index, a proposed change leaves at least the minimal front gap to *every*
active vehicle ahead of the ego in the target corridor. -/
theorem C45_front_gap {p : Prm K} {lanes : List Lane} {cur r : Option Lane} (hp : 0 < p.minFront)
    {e : Agent K St Act B E Sh} {s : St}
    (hs : OMap.Sorted w.agents) (hfresh : World.rtreeOf P w.agents = .ok w.rtree)
    (he : w.getAgent ego = some e) (hes : e.currentState = .ok s)
    (hgeo : ∀ lane a s, a.currentState = .ok s → G.collide lane a = true → G.boxHit lane (P.envelope a.shape s) = true)
    (hbig : ∀ lane id a d, w.getAgent id = some a → Spec.Qualifies P G { latThr := 100, angThr := pi, lonThr := 0 } w lane ego s e.shape a d → d.lon < G.big)
    (h : beneficial P G pi n vel len p lanes cur ego w = .ok (.change, r)) :
    ∃ c, r = some c ∧ ∀ id a d, w.getAgent id = some a → G.collide c a = true →
      Spec.Qualifies P G { latThr := 100, angThr := pi, lonThr := 0 } w c ego s e.shape a d → 0 ≤ d.lon →
      p.minFront ≤ d.lon := by
  obtain ⟨c, _, hr, _, f, hf, hsafe, _⟩ := C45_change P G pi n vel len ego w hp h
  refine ⟨c, hr, fun id a d hid hc hq hd => ?_⟩
  obtain ⟨e', s', fr, he', hs', hfr, _, a2, _⟩ := hf.ex
  rw [he] at he'; cases he'
  rw [hes] at hs'; cases hs'
  obtain ⟨k1, k2⟩ := FrontRearProps.C14_front_in_corridor P G _ hs hfresh (hgeo c) he hes (hbig c) hfr
  have h1 : free f ≤ d.lon := by
    cases hx : fr.front.1 with
    | none => exact absurd (k1.1 hx id a d hid hc hq) (not_lt.2 hd)
    | some b =>
      have := (k2 b hx).2.2.2.2 id a d hid hc hq hd
      have h2 : f.front = some fr.front.2.lon := by rw [a2, hx]; rfl
      unfold free
      rw [h2]
      exact (min_le_right _ _).trans this
  exact hsafe.front.trans h1

/-- **C45** (the corridor followed): `Plan` never loses a corridor: it follows the proposed one if there is one and the previous one
otherwise, and expires only if the ego is on no corridor or has never followed one. -/
theorem C45_target (c0 : Lane) (target : Option Lane) (d : Decision) (r : Option Lane) :
    planTarget (some c0) target (d, r) = r.or target ∧ planTarget none target (d, r) = none := by
  cases r <;> exact ⟨rfl, rfl⟩

end

/-! ### Witnesses -/

/-- toy models: state = (position, lane, velocity) -/
def toyP : Plug ℚ (ℚ × Nat × ℚ) Unit Unit Unit Unit (ℚ × Nat) Unit :=
  { status := fun _ => .valid, lastAction := fun _ => (), plan := fun b _ _ _ => b,
    execute := fun e _ _ => e, execStatus := fun _ => .valid, executedState := fun _ => (0, 0, 0),
    observe := fun o w _ => (o, w), envelope := fun _ s => (s.1, s.2.1), within := fun _ _ => true }

/-- vehicles are points; an agent collides with a corridor iff it is on that lane -/
def toyG : FRPlug ℚ (ℚ × Nat × ℚ) Unit Unit Unit Unit (ℚ × Nat) Nat :=
  { frenet := fun _ s => ⟨s.1, 0, 0, 0, 0⟩, ext := fun _ _ => ⟨0, 0, 0, 0⟩, nearest := fun _ k l => l.take k,
    boxHit := fun l b => decide (b.2 = l),
    collide := fun l a => match a.currentState with
      | .ok s => decide (s.2.1 = l)
      | .error _ => false
    big := 10 ^ 308 }

/-- agents 0, 1, … in the given states -/
def toyW (ss : List (ℚ × Nat × ℚ)) : World ℚ (ℚ × Nat × ℚ) Unit Unit Unit Unit (ℚ × Nat) Unit :=
  { agents := ss.zipIdx.map (fun q => (q.2, ⟨q.2, (), (), [(q.1, ())], 5, 0, ()⟩)), time := 0,
    rtree := ss.zipIdx.map (fun q => ((q.1.1, q.1.2.1), q.2)), removeAgents := false, mapBox := none, observer := () }

/-- default parameters, lane_change_behavior.hpp:88-100 -/
def toyPrm : Prm ℚ := { minRemaining := 60, minRear := 5, minFront := 5, timeGap := 1 }

/-- ego = agent 0 on lane 0, lanes 0 and 1, both 1000 long -/
def toyRun (ss : List (ℚ × Nat × ℚ)) : Option (Decision × Option Nat) :=
  (beneficial toyP toyG (22 / 7) 4 (fun s => s.2.2) (fun _ s => 1000 - s.1) toyPrm [0, 1] (some 0) 0 (toyW ss)).toOption

/-- non-vacuity: slower vehicle ahead, the other lane is free – a change is proposed; with the other lane blocked it is not -/
example : toyRun [(0, 0, 10), (20, 0, 10)] = some (.change, some 1) ∧
    toyRun [(0, 0, 10), (20, 0, 10), (3, 1, 10)] = some (.keep, some 0) ∧
    toyRun [(0, 0, 10), (20, 0, 10), (-3, 1, 10)] = some (.keep, some 0) ∧
    World.rtreeOf toyP (toyW [(0, 0, 10), (20, 0, 10)]).agents = .ok (toyW [(0, 0, 10), (20, 0, 10)]).rtree := by
  refine ⟨by decide +kernel, by decide +kernel, by decide +kernel, rfl⟩

/-- **C45 is violated for vehicles behind**: a vehicle only 1 m behind in the target lane is overlooked as soon as a second vehicle
follows 100 m behind: a change is proposed (the first vehicle alone prevents it).  The cause is C15. -/
theorem C45_rear_violated :
    toyRun [(0, 0, 10), (20, 0, 10), (-1, 1, 10), (-100, 1, 10)] = some (.change, some 1) ∧
    toyRun [(0, 0, 10), (20, 0, 10), (-1, 1, 10)] = some (.keep, some 0) := by
  constructor <;> decide +kernel

/-- **C86 is violated** (a change never costs free space): the conditions are applied to the ego's own lane, too.  With a vehicle
close behind in its own, completely free lane, the ego moves to the other lane, 10 m behind a vehicle there. -/
theorem C86_violated : toyRun [(0, 0, 10), (-3, 0, 10), (10, 1, 10)] = some (.change, some 1) ∧
    toyRun [(0, 0, 10), (10, 1, 10)] = some (.keep, some 0) := by
  constructor <;> decide +kernel

section
variable {K St Act B E Sh Box O Lane : Type} [Field K] [LinearOrder K] [IsStrictOrderedRing K] [DecidableEq Lane]
variable (P : Plug K St Act B E Sh Box O) (G : FRPlug K St Act B E Sh Box Lane) (pi : K) (n : Nat)
  (vel : St → K) (len : Lane → St → K) (ego : Nat) (w : World K St Act B E Sh Box O)

/-- **C86** (what holds): if the ego's own lane passes the conditions, a change goes to a lane with at least as much free space. -/
theorem C86_no_loss_partial {p : Prm K} {lanes : List Lane} {c0 : Lane} {r : Option Lane} (hp : 0 < p.minFront) (hc0 : c0 ∈ lanes)
    {f0 : Facts K} (hf0 : Measured P G pi n vel len ego w c0 f0)
    (hs0 : Safe p.minRemaining p.minRear p.minFront p.timeGap f0)
    (h : beneficial P G pi n vel len p lanes (some c0) ego w = .ok (.change, r)) :
    ∃ c f, r = some c ∧ Measured P G pi n vel len ego w c f ∧ free f0 ≤ free f := by
  obtain ⟨c, _, hr, _, f, hf, _, hmax⟩ := C45_change P G pi n vel len ego w hp h
  exact ⟨c, f, hr, hf, hmax c0 hc0 f0 hf0 hs0⟩

end

/-- without the assumption of a positive minimal front gap the "corridor" proposed can be a null pointer: ego between two lanes'
vehicles at the same position (gap 0), minimal gap 0 -/
theorem C45_null_corridor :
    (beneficial toyP toyG (22 / 7) 4 (fun s => s.2.2) (fun _ s => 1000 - s.1) { toyPrm with minFront := 0 } [0, 1] (some 0) 0
      (toyW [(0, 0, 10), (0, 0, 10), (0, 1, 10)])).toOption = some (.change, none) := by decide +kernel

end Bark.LaneChange
