import Verif.Spec.FrontRear
import Verif.Props.World
import Mathlib.Tactic.Linarith

/-!
C14, C15 – front and rear agents; C16 – frenet difference.
-/
namespace Bark.FrontRearProps
set_option linter.unusedSectionVars false
variable {K St Act B E Sh Box O Lane : Type} [Field K] [LinearOrder K] [IsStrictOrderedRing K]

/-! ### C16 -/

/-- **C16** (longitudinal): the difference is the signed bumper-to-bumper gap, flagged zeroed exactly
when the two longitudinal intervals overlap. -/
theorem C16_longitudinal_gap (a b : Frenet K) (e1 e2 : Ext K) (h1 : Spec.Ext.NonNeg e1)
    (h2 : Spec.Ext.NonNeg e2) :
    (frenetDiff a b e1 e2).lon =
      Spec.signedGap (a.lon - e1.rear) (a.lon + e1.front) a.lon
        (b.lon - e2.rear) (b.lon + e2.front) b.lon ∧
    ((frenetDiff a b e1 e2).lonZeroed = true ↔
      Spec.Overlap (a.lon - e1.rear) (a.lon + e1.front) (b.lon - e2.rear) (b.lon + e2.front)) := by
  obtain ⟨f1, r1, _, _⟩ := h1
  obtain ⟨f2, r2, _, _⟩ := h2
  have key : Spec.Overlap (a.lon - e1.rear) (a.lon + e1.front) (b.lon - e2.rear) (b.lon + e2.front) ↔
      b.lon - e2.rear ≤ a.lon + e1.front ∧ a.lon - e1.rear ≤ b.lon + e2.front := by
    constructor
    · rintro ⟨x, x1, x2, x3, x4⟩; constructor <;> linarith
    · rintro ⟨g1, g2⟩
      refine ⟨max (a.lon - e1.rear) (b.lon - e2.rear), le_max_left _ _, ?_, le_max_right _ _, ?_⟩ <;>
        apply max_le <;> linarith
  rw [key]
  unfold frenetDiff Spec.signedGap
  dsimp only
  constructor
  · split_ifs <;> linarith
  · split_ifs <;> simp only [decide_eq_true_eq] <;> constructor <;> intro h
    · constructor <;> linarith
    · linarith
    · constructor <;> linarith
    · linarith

/-- **C16** (lateral, what holds): the lateral difference is the signed gap and the flag is exact when the
other vehicle is not to the right, or when its left and right extensions agree. Missing: the remaining
case, where the code is wrong (`C16_lateral_violated`). -/
theorem C16_lateral_gap (a b : Frenet K) (e1 e2 : Ext K) (h1 : Spec.Ext.NonNeg e1)
    (h2 : Spec.Ext.NonNeg e2) (hc : a.lat ≤ b.lat ∨ e2.left = e2.right) :
    (frenetDiff a b e1 e2).lat =
      Spec.signedGap (a.lat - e1.right) (a.lat + e1.left) a.lat
        (b.lat - e2.right) (b.lat + e2.left) b.lat ∧
    ((frenetDiff a b e1 e2).latZeroed = true ↔
      Spec.Overlap (a.lat - e1.right) (a.lat + e1.left) (b.lat - e2.right) (b.lat + e2.left)) := by
  obtain ⟨_, _, f1, r1⟩ := h1
  obtain ⟨_, _, f2, r2⟩ := h2
  have key : Spec.Overlap (a.lat - e1.right) (a.lat + e1.left) (b.lat - e2.right) (b.lat + e2.left) ↔
      b.lat - e2.right ≤ a.lat + e1.left ∧ a.lat - e1.right ≤ b.lat + e2.left := by
    constructor
    · rintro ⟨x, x1, x2, x3, x4⟩; constructor <;> linarith
    · rintro ⟨g1, g2⟩
      refine ⟨max (a.lat - e1.right) (b.lat - e2.right), le_max_left _ _, ?_, le_max_right _ _, ?_⟩ <;>
        apply max_le <;> linarith
  rw [key]
  unfold frenetDiff Spec.signedGap
  dsimp only
  rcases hc with hc | hc
  · simp only [if_pos hc]
    constructor
    · split_ifs <;> linarith
    · simp only [decide_eq_true_eq]; constructor
      · intro h; constructor <;> linarith
      · rintro ⟨g1, _⟩; linarith
  · constructor
    · split_ifs <;> linarith
    · split_ifs <;> simp only [decide_eq_true_eq] <;> constructor <;> intro h
      · constructor <;> linarith
      · linarith
      · constructor <;> linarith
      · linarith

/-- The lateral gap in the code is off by exactly the difference of the other vehicle's two lateral
extensions when the other vehicle is to the right and clear of the ego. -/
theorem C16_lateral_error (a b : Frenet K) (e1 e2 : Ext K) (hab : b.lat < a.lat)
    (hfree : b.lat + e1.right < a.lat - e2.right) :
    (frenetDiff a b e1 e2).lat =
      (b.lat + e2.left - (a.lat - e1.right)) + (e2.right - e2.left) := by
  unfold frenetDiff
  dsimp only
  rw [if_neg (not_le.2 hab), if_pos (by linarith)]
  ring

/-- **C16 is violated laterally**: a vehicle at -3 with extension 1 to the left, 3 to the right does not
overlap the ego at 0 (extension 1 to both sides), but is reported as laterally overlapping. -/
theorem C16_lateral_violated : ∃ (a b : Frenet ℚ) (e1 e2 : Ext ℚ), Spec.Ext.NonNeg e1 ∧ Spec.Ext.NonNeg e2 ∧
    ¬ Spec.Overlap (a.lat - e1.right) (a.lat + e1.left) (b.lat - e2.right) (b.lat + e2.left) ∧
    (frenetDiff a b e1 e2).latZeroed = true := by
  refine ⟨⟨0, 0, 0, 0, 0⟩, ⟨10, -3, 0, 0, 0⟩, ⟨1, 1, 1, 1⟩, ⟨1, 1, 1, 3⟩, by simp [Spec.Ext.NonNeg],
    by simp [Spec.Ext.NonNeg], ?_, by decide +kernel⟩
  rintro ⟨x, x1, x2, x3, x4⟩
  simp only at *
  linarith

/-- non-vacuity: two cars 10 m apart with 3 m / 1 m extensions have a 6 m gap. -/
example : (frenetDiff (⟨0, 0, 0, 0, 0⟩ : Frenet ℚ) ⟨10, 0, 0, 0, 0⟩ ⟨3, 1, 1, 1⟩ ⟨3, 1, 1, 1⟩).lon = 6 := by
  decide +kernel

/-! ### C14, C15 -/

variable (P : Plug K St Act B E Sh Box O) (G : FRPlug K St Act B E Sh Box Lane) (p : FRParams K)

/-- invariant of the search after the agents `seen` -/
def Best (w : World K St Act B E Sh Box O) (lane : Lane) (ego : Nat) (egoSt : St) (egoSh : Sh)
    (seen : Agent K St Act B E Sh → Prop) (side : K → Prop)
    (r : Option (Agent K St Act B E Sh) × FDiff K) : Prop :=
  (r.1 = none → r.2.lon = G.big ∧
    ∀ a d, seen a → Spec.Qualifies P G p w lane ego egoSt egoSh a d → ¬ side d.lon) ∧
  (∀ a, r.1 = some a → seen a ∧ Spec.Qualifies P G p w lane ego egoSt egoSh a r.2 ∧ side r.2.lon ∧
    ∀ a' d', seen a' → Spec.Qualifies P G p w lane ego egoSt egoSh a' d' → side d'.lon →
      r.2.lon ≤ d'.lon)

theorem qualifies_unique {w : World K St Act B E Sh Box O} {lane : Lane} {ego : Nat} {egoSt : St}
    {egoSh : Sh} {a : Agent K St Act B E Sh} {d d' : FDiff K}
    (h : Spec.Qualifies P G p w lane ego egoSt egoSh a d)
    (h' : Spec.Qualifies P G p w lane ego egoSt egoSh a d') : d = d' := by
  obtain ⟨s, h1, h2, _⟩ := h.state
  obtain ⟨s', h1', h2', _⟩ := h'.state
  rw [h1] at h1'; cases h1'
  rw [h2, h2']

/-- one iteration, described with `Qualifies` -/
theorem frBody_spec {w : World K St Act B E Sh Box O} {lane : Lane} {ego : Nat} {egoSt : St}
    {egoSh : Sh} {acc acc' : FrontRear K St Act B E Sh} {a : Agent K St Act B E Sh}
    (h : frBody P G p w.time lane ego egoSt egoSh acc a = .ok acc') :
    (acc' = acc ∧ ∀ d, ¬ Spec.Qualifies P G p w lane ego egoSt egoSh a d) ∨
    ∃ d, Spec.Qualifies P G p w lane ego egoSt egoSh a d ∧
      acc' = (if p.lonThr ≤ d.lon ∧ d.lon < acc.front.2.lon then { acc with front := (some a, d) }
        else if d.lon < p.lonThr ∧ d.lon < acc.rear.2.lon then { acc with rear := (some a, d) }
        else acc) := by
  unfold frBody at h
  split_ifs at h with h1
  · injection h with h
    left
    refine ⟨h.symm, fun d hq => ?_⟩
    simp only [Bool.or_eq_true, decide_eq_true_eq, beq_iff_eq] at h1
    rcases h1 with (h1 | h1) | h1
    · exact hq.other h1
    · exact h1 hq.valid
    · have := (Props.active_iff a w.time).2 hq.active
      rw [this] at h1; cases h1
  · simp only [Bool.or_eq_true, decide_eq_true_eq, beq_iff_eq, not_or, not_not,
      Bool.not_eq_false] at h1
    obtain ⟨⟨h1, h2⟩, h3⟩ := h1
    cases hs : a.currentState with
    | error f => rw [hs] at h; cases h
    | ok s =>
      rw [hs] at h
      dsimp only at h
      have hq : Spec.Qualifies P G p w lane ego egoSt egoSh a (frDiff G lane egoSt egoSh s a) ↔
          ¬ (p.latThr < |if (frDiff G lane egoSt egoSh s a).latZeroed then 0 else
              (frDiff G lane egoSt egoSh s a).lat| ∨ p.angThr < |(G.frenet lane s).angle|) := by
        rw [not_or, not_lt, not_lt]
        constructor
        · intro hq
          obtain ⟨s', e1, _, e3⟩ := hq.state
          rw [hs] at e1; cases e1
          refine ⟨?_, e3⟩
          rcases hq.lateral with ⟨l1, l2⟩ | ⟨l1, l2⟩
          · rw [l1]; simpa using l2
          · rw [l1]; simpa using l2
        · rintro ⟨q1, q2⟩
          refine ⟨h1, h2, (Props.active_iff a w.time).1 h3, ⟨s, hs, rfl, q2⟩, ?_⟩
          cases hz : (frDiff G lane egoSt egoSh s a).latZeroed with
          | true => rw [hz] at q1; left; exact ⟨rfl, by simpa using q1⟩
          | false => rw [hz] at q1; right; exact ⟨rfl, by simpa using q1⟩
      by_cases g1 : (p.latThr < |if (frDiff G lane egoSt egoSh s a).latZeroed then 0 else
              (frDiff G lane egoSt egoSh s a).lat| ∨ p.angThr < |(G.frenet lane s).angle|)
      · rw [if_pos g1] at h
        injection h with h
        left
        refine ⟨h.symm, fun d hd => ?_⟩
        obtain ⟨s', e1, e2, _⟩ := hd.state
        rw [hs] at e1; cases e1
        have e2' : d = frDiff G lane egoSt egoSh s a := e2
        rw [e2'] at hd
        exact hq.1 hd g1
      · rw [if_neg g1] at h
        right; refine ⟨_, hq.2 g1, ?_⟩
        split_ifs at h ⊢ <;> (injection h with h; exact h.symm)

theorem frLoop_spec {w : World K St Act B E Sh Box O} {lane : Lane} {ego : Nat} {egoSt : St}
    {egoSh : Sh} (m : List (Nat × Agent K St Act B E Sh))
    (hbig : ∀ a d, a ∈ m.map Prod.snd → Spec.Qualifies P G p w lane ego egoSt egoSh a d → d.lon < G.big)
    (seen : Agent K St Act B E Sh → Prop) (acc r : FrontRear K St Act B E Sh)
    (hf : Best P G p w lane ego egoSt egoSh seen (fun x => p.lonThr ≤ x) acc.front)
    (hr : Best P G p w lane ego egoSt egoSh seen (fun x => x < p.lonThr) acc.rear)
    (h : frLoop P G p w.time lane ego egoSt egoSh m acc = .ok r) :
    Best P G p w lane ego egoSt egoSh (fun a => seen a ∨ a ∈ m.map Prod.snd) (fun x => p.lonThr ≤ x) r.front ∧
    Best P G p w lane ego egoSt egoSh (fun a => seen a ∨ a ∈ m.map Prod.snd) (fun x => x < p.lonThr) r.rear := by
  induction m generalizing acc seen with
  | nil => unfold frLoop at h; cases h; simpa using ⟨hf, hr⟩
  | cons q m ih =>
    unfold frLoop at h
    obtain ⟨acc', h1, h2⟩ := Res.bind_ok h
    have hseen : (fun a => seen a ∨ a ∈ (q :: m).map Prod.snd) =
        (fun a => (seen a ∨ a = q.2) ∨ a ∈ m.map Prod.snd) := by
      funext a; simp [or_assoc]
    rw [hseen]
    apply ih (fun a d ha => hbig a d (by simp at ha ⊢; tauto)) (fun a => seen a ∨ a = q.2) acc' _ _ h2
    · -- front
      rcases frBody_spec P G p h1 with ⟨e, hn⟩ | ⟨d, hq, e⟩
      · subst e
        refine ⟨fun hnone => ⟨(hf.1 hnone).1, ?_⟩, fun a ha => ?_⟩
        · rintro a d (hs | rfl) hqa
          · exact (hf.1 hnone).2 a d hs hqa
          · exact absurd hqa (hn d)
        · obtain ⟨g1, g2, g3, g4⟩ := hf.2 a ha
          refine ⟨Or.inl g1, g2, g3, ?_⟩
          rintro a' d' (hs | rfl) hqa
          · exact g4 a' d' hs hqa
          · exact absurd hqa (hn d')
      · have hlt : d.lon < G.big := hbig q.2 d (by simp) hq
        have hu : ∀ d', Spec.Qualifies P G p w lane ego egoSt egoSh q.2 d' → d' = d :=
          fun d' hd' => qualifies_unique P G p hd' hq
        by_cases c : p.lonThr ≤ d.lon ∧ d.lon < acc.front.2.lon
        · rw [if_pos c] at e; subst e
          refine ⟨fun hh => by simp at hh, fun a ha => ?_⟩
          simp only [Option.some.injEq] at ha; subst ha
          refine ⟨Or.inr rfl, hq, c.1, ?_⟩
          rintro a' d' (hs | rfl) hqa hside
          · cases hfr : acc.front.1 with
            | none => exact absurd hside ((hf.1 hfr).2 a' d' hs hqa)
            | some b => exact le_trans c.2.le ((hf.2 b hfr).2.2.2 a' d' hs hqa hside)
          · rw [hu _ hqa]
        · rw [if_neg c] at e
          have efront : acc'.front = acc.front := by rw [e]; split_ifs <;> rfl
          rw [efront]
          have hnot : p.lonThr ≤ d.lon → acc.front.2.lon ≤ d.lon := fun hc =>
            not_lt.1 (fun hh => c ⟨hc, hh⟩)
          refine ⟨fun hnone => ⟨(hf.1 hnone).1, ?_⟩, fun a ha => ?_⟩
          · rintro a d' (hs | rfl) hqa
            · exact (hf.1 hnone).2 a d' hs hqa
            · intro hside
              rw [hu _ hqa] at hside
              have := hnot hside
              rw [(hf.1 hnone).1] at this
              exact absurd hlt (not_lt.2 this)
          · obtain ⟨g1, g2, g3, g4⟩ := hf.2 a ha
            refine ⟨Or.inl g1, g2, g3, ?_⟩
            rintro a' d' (hs | rfl) hqa hside
            · exact g4 a' d' hs hqa hside
            · rw [hu _ hqa] at hside ⊢; exact hnot hside
    · -- rear
      rcases frBody_spec P G p h1 with ⟨e, hn⟩ | ⟨d, hq, e⟩
      · subst e
        refine ⟨fun hnone => ⟨(hr.1 hnone).1, ?_⟩, fun a ha => ?_⟩
        · rintro a d (hs | rfl) hqa
          · exact (hr.1 hnone).2 a d hs hqa
          · exact absurd hqa (hn d)
        · obtain ⟨g1, g2, g3, g4⟩ := hr.2 a ha
          refine ⟨Or.inl g1, g2, g3, ?_⟩
          rintro a' d' (hs | rfl) hqa
          · exact g4 a' d' hs hqa
          · exact absurd hqa (hn d')
      · have hlt : d.lon < G.big := hbig q.2 d (by simp) hq
        have hu : ∀ d', Spec.Qualifies P G p w lane ego egoSt egoSh q.2 d' → d' = d :=
          fun d' hd' => qualifies_unique P G p hd' hq
        by_cases c : d.lon < p.lonThr ∧ d.lon < acc.rear.2.lon
        · rw [if_neg (fun hh => absurd c.1 (not_lt.2 hh.1)), if_pos c] at e; subst e
          refine ⟨fun hh => by simp at hh, fun a ha => ?_⟩
          simp only [Option.some.injEq] at ha; subst ha
          refine ⟨Or.inr rfl, hq, c.1, ?_⟩
          rintro a' d' (hs | rfl) hqa hside
          · cases hfr : acc.rear.1 with
            | none => exact absurd hside ((hr.1 hfr).2 a' d' hs hqa)
            | some b => exact le_trans c.2.le ((hr.2 b hfr).2.2.2 a' d' hs hqa hside)
          · rw [hu _ hqa]
        · have erear : acc'.rear = acc.rear := by rw [e, if_neg c]; split_ifs <;> rfl
          rw [erear]
          have hnot : d.lon < p.lonThr → acc.rear.2.lon ≤ d.lon := fun hc =>
            not_lt.1 (fun hh => c ⟨hc, hh⟩)
          refine ⟨fun hnone => ⟨(hr.1 hnone).1, ?_⟩, fun a ha => ?_⟩
          · rintro a d' (hs | rfl) hqa
            · exact (hr.1 hnone).2 a d' hs hqa
            · intro hside
              rw [hu _ hqa] at hside
              have := hnot hside
              rw [(hr.1 hnone).1] at this
              exact absurd hlt (not_lt.2 this)
          · obtain ⟨g1, g2, g3, g4⟩ := hr.2 a ha
            refine ⟨Or.inl g1, g2, g3, ?_⟩
            rintro a' d' (hs | rfl) hqa hside
            · exact g4 a' d' hs hqa hside
            · rw [hu _ hqa] at hside ⊢; exact hnot hside

theorem frFrom_spec {w : World K St Act B E Sh Box O} {lane : Lane} {ego : Nat} {egoSt : St}
    {e : Agent K St Act B E Sh} {m : OMap Nat (Agent K St Act B E Sh)} {r : FrontRear K St Act B E Sh}
    (he : w.getAgent ego = some e) (hes : e.currentState = .ok egoSt)
    (hbig : ∀ a d, a ∈ m.map Prod.snd → Spec.Qualifies P G p w lane ego egoSt e.shape a d → d.lon < G.big)
    (h : frFrom P G p (some lane) ego w m = .ok r) :
    Best P G p w lane ego egoSt e.shape (fun a => a ∈ m.map Prod.snd) (fun x => p.lonThr ≤ x) r.front ∧
    Best P G p w lane ego egoSt e.shape (fun a => a ∈ m.map Prod.snd) (fun x => x < p.lonThr) r.rear := by
  unfold frFrom at h
  dsimp only at h
  split_ifs at h with hm
  · injection h with h
    rw [List.isEmpty_iff] at hm
    subst hm; subst h
    constructor <;> refine ⟨fun _ => ⟨rfl, fun a d ha => by simp at ha⟩, fun a ha => by simp at ha⟩
  · rw [he] at h
    dsimp only at h
    rw [hes] at h
    have := frLoop_spec P G p m hbig (fun _ => False) _ _
      ⟨fun _ => ⟨rfl, fun a d ha => ha.elim⟩, fun a ha => by simp at ha⟩
      ⟨fun _ => ⟨rfl, fun a d ha => ha.elim⟩, fun a ha => by simp at ha⟩ h
    simpa using this

/-- **C14** (the search): the front agent is a considered, qualifying agent at or beyond the longitudinal
threshold, and none of the considered qualifying agents there is strictly closer; there is none iff no
considered agent qualifies there. (`hbig`: all gaps are below the largest `double`.) -/
theorem C14_front_is_nearest {w : World K St Act B E Sh Box O} {lane : Lane} {ego : Nat} {egoSt : St}
    {e : Agent K St Act B E Sh} {m : OMap Nat (Agent K St Act B E Sh)} {r : FrontRear K St Act B E Sh}
    (he : w.getAgent ego = some e) (hes : e.currentState = .ok egoSt)
    (hbig : ∀ a d, a ∈ m.map Prod.snd → Spec.Qualifies P G p w lane ego egoSt e.shape a d → d.lon < G.big)
    (h : frFrom P G p (some lane) ego w m = .ok r) :
    (r.front.1 = none ↔ ∀ a ∈ m.map Prod.snd, ∀ d,
      Spec.Qualifies P G p w lane ego egoSt e.shape a d → d.lon < p.lonThr) ∧
    ∀ a, r.front.1 = some a → a ∈ m.map Prod.snd ∧
      Spec.Qualifies P G p w lane ego egoSt e.shape a r.front.2 ∧ p.lonThr ≤ r.front.2.lon ∧
      ∀ a' ∈ m.map Prod.snd, ∀ d', Spec.Qualifies P G p w lane ego egoSt e.shape a' d' →
        p.lonThr ≤ d'.lon → r.front.2.lon ≤ d'.lon := by
  obtain ⟨h1, h2⟩ := (frFrom_spec P G p he hes hbig h).1
  refine ⟨⟨fun hn a ha d hd => not_le.1 ((h1 hn).2 a d ha hd), fun hall => ?_⟩, fun a ha => ?_⟩
  · cases hf : r.front.1 with
    | none => rfl
    | some a =>
      obtain ⟨g1, g2, g3, _⟩ := h2 a hf
      exact absurd (hall a g1 _ g2) (not_lt.2 g3)
  · obtain ⟨g1, g2, g3, g4⟩ := h2 a ha
    exact ⟨g1, g2, g3, fun a' ha' d' => g4 a' d' ha'⟩

theorem collectHits_mem {keep : Agent K St Act B E Sh → Bool} {w : World K St Act B E Sh Box O} :
    ∀ (hits : List (Box × Nat)) (m : OMap Nat (Agent K St Act B E Sh)), World.collectHits P keep w hits = .ok m →
      ∀ x ∈ m, w.getAgent x.1 = some x.2
  | [], m, h => by
    simp only [World.collectHits, Except.ok.injEq] at h
    subst h
    intro x hx; cases hx
  | q :: hits, m, h => by
    unfold World.collectHits at h
    cases hg : w.getAgent q.2 with
    | none => rw [hg] at h; cases h
    | some a =>
      rw [hg] at h
      obtain ⟨rest, h1, h2⟩ := Res.bind_ok h
      have ih := collectHits_mem hits rest h1
      split_ifs at h2
      · cases h2
        intro x hx
        rcases OMap.mem_insert_sub hx with rfl | hx
        · exact hg
        · exact ih x hx
      · cases h2
        exact ih

/-- **C14** (whole call, restricted to the lane corridor): with a fresh index the returned front agent is
nearest among *all* active valid agents of the world that collide with the corridor polygon. -/
theorem C14_front_in_corridor {w : World K St Act B E Sh Box O} {lane : Lane} {ego : Nat} {egoSt : St}
    {e : Agent K St Act B E Sh} {r : FrontRear K St Act B E Sh} {n : Nat}
    (hs : OMap.Sorted w.agents) (hfresh : World.rtreeOf P w.agents = .ok w.rtree)
    (hgeo : ∀ a s, a.currentState = .ok s → G.collide lane a = true →
      G.boxHit lane (P.envelope a.shape s) = true)
    (he : w.getAgent ego = some e) (hes : e.currentState = .ok egoSt)
    (hbig : ∀ id a d, w.getAgent id = some a → Spec.Qualifies P G p w lane ego egoSt e.shape a d → d.lon < G.big)
    (h : getAgentFrontRear P G p n true (some lane) ego w = .ok r) :
    (r.front.1 = none ↔ ∀ id a d, w.getAgent id = some a → G.collide lane a = true →
      Spec.Qualifies P G p w lane ego egoSt e.shape a d → d.lon < p.lonThr) ∧
    ∀ a, r.front.1 = some a → (∃ id, w.getAgent id = some a) ∧ G.collide lane a = true ∧
      Spec.Qualifies P G p w lane ego egoSt e.shape a r.front.2 ∧ p.lonThr ≤ r.front.2.lon ∧
      ∀ id' a' d', w.getAgent id' = some a' → G.collide lane a' = true →
        Spec.Qualifies P G p w lane ego egoSt e.shape a' d' →
        p.lonThr ≤ d'.lon → r.front.2.lon ≤ d'.lon := by
  unfold getAgentFrontRear at h
  obtain ⟨m, hm, h⟩ := Res.bind_ok h
  unfold frConsidered at hm
  simp only [if_true] at hm
  have hi := Props.indexOk_of_fresh P hfresh
  obtain ⟨m2, hm2, hsm, hmem2⟩ := Props.collectHits_ok P (G.collide lane) (w := w)
    (w.rtree.filter (fun p => G.boxHit lane p.1)) (fun p hp => hi p (List.mem_of_mem_filter hp))
  obtain ⟨m3, hm3, hmem3⟩ := Props.C09_polygon_exact P hs hfresh (G.boxHit lane) (G.collide lane) hgeo
  have e2 : m2 = m := by
    have : (Except.ok m2 : Res _) = .ok m := hm2.symm.trans hm
    injection this
  have e3 : m3 = m := by
    have : (Except.ok m3 : Res _) = .ok m := hm3.symm.trans hm
    injection this
  subst e2
  subst e3
  have hmem : ∀ a, a ∈ m3.map Prod.snd ↔ ∃ id, w.getAgent id = some a ∧ G.collide lane a = true ∧
      P.status a.behavior = .valid ∧ Spec.Active w.time a := by
    intro a
    constructor
    · intro ha
      obtain ⟨⟨id, a'⟩, h1, h2⟩ := List.mem_map.1 ha
      simp only at h2; subst h2
      exact ⟨id, (hmem3 id a').1 (OMap.mem_find_some hsm h1)⟩
    · rintro ⟨id, hid⟩
      exact List.mem_map.2 ⟨(id, a), OMap.find_some_mem ((hmem3 id a).2 hid), rfl⟩
  obtain ⟨c1, c2⟩ := C14_front_is_nearest P G p he hes (fun a d ha => by
    obtain ⟨id, g1, -⟩ := (hmem a).1 ha
    exact hbig id a d g1) h
  refine ⟨c1.trans ⟨fun hall id a d hid hc hq => ?_, fun hall a ha d hq => ?_⟩, fun a ha => ?_⟩
  · exact hall a ((hmem a).2 ⟨id, hid, hc, hq.valid, hq.active⟩) d hq
  · obtain ⟨id, g1, g2, _⟩ := (hmem a).1 ha
    exact hall id a d g1 g2 hq
  · obtain ⟨g1, g2, g3, g4⟩ := c2 a ha
    obtain ⟨id, k1, k2, _⟩ := (hmem a).1 g1
    refine ⟨⟨id, k1⟩, k2, g2, g3, fun id' a' d' hid' hc' hq' => ?_⟩
    exact g4 a' ((hmem a').2 ⟨id', hid', hc', hq'.valid, hq'.active⟩) d' hq'

/-- **C15** (what the code does): the rear agent is a considered qualifying agent before the threshold and
*no considered qualifying agent there is further behind*; there is none iff none qualifies there. Hence it
is the nearest one behind exactly when all qualifying agents behind are equally far
(`C15_rear_nearest_partial`). -/
theorem C15_rear_is_furthest {w : World K St Act B E Sh Box O} {lane : Lane} {ego : Nat} {egoSt : St}
    {e : Agent K St Act B E Sh} {m : OMap Nat (Agent K St Act B E Sh)} {r : FrontRear K St Act B E Sh}
    (he : w.getAgent ego = some e) (hes : e.currentState = .ok egoSt)
    (hbig : ∀ a d, a ∈ m.map Prod.snd → Spec.Qualifies P G p w lane ego egoSt e.shape a d → d.lon < G.big)
    (h : frFrom P G p (some lane) ego w m = .ok r) :
    (r.rear.1 = none ↔ ∀ a ∈ m.map Prod.snd, ∀ d,
      Spec.Qualifies P G p w lane ego egoSt e.shape a d → p.lonThr ≤ d.lon) ∧
    ∀ a, r.rear.1 = some a → a ∈ m.map Prod.snd ∧
      Spec.Qualifies P G p w lane ego egoSt e.shape a r.rear.2 ∧ r.rear.2.lon < p.lonThr ∧
      ∀ a' ∈ m.map Prod.snd, ∀ d', Spec.Qualifies P G p w lane ego egoSt e.shape a' d' →
        d'.lon < p.lonThr → r.rear.2.lon ≤ d'.lon := by
  obtain ⟨h1, h2⟩ := (frFrom_spec P G p he hes hbig h).2
  refine ⟨⟨fun hn a ha d hd => not_lt.1 ((h1 hn).2 a d ha hd), fun hall => ?_⟩, fun a ha => ?_⟩
  · cases hf : r.rear.1 with
    | none => rfl
    | some a =>
      obtain ⟨g1, g2, g3, _⟩ := h2 a hf
      exact absurd (hall a g1 _ g2) (not_le.2 g3)
  · obtain ⟨g1, g2, g3, g4⟩ := h2 a ha
    exact ⟨g1, g2, g3, fun a' ha' d' => g4 a' d' ha'⟩

/-- **C15** (what holds of the intended claim): if the considered qualifying agents behind are all the same
agent, the rear agent is the nearest one behind. Missing: two or more agents behind, see
`C15_violated`. -/
theorem C15_rear_nearest_partial {w : World K St Act B E Sh Box O} {lane : Lane} {ego : Nat} {egoSt : St}
    {e : Agent K St Act B E Sh} {m : OMap Nat (Agent K St Act B E Sh)} {r : FrontRear K St Act B E Sh}
    (he : w.getAgent ego = some e) (hes : e.currentState = .ok egoSt)
    (hbig : ∀ a d, a ∈ m.map Prod.snd → Spec.Qualifies P G p w lane ego egoSt e.shape a d → d.lon < G.big)
    (h : frFrom P G p (some lane) ego w m = .ok r)
    (hone : ∀ a ∈ m.map Prod.snd, ∀ a' ∈ m.map Prod.snd, ∀ d d',
      Spec.Qualifies P G p w lane ego egoSt e.shape a d → d.lon < p.lonThr →
      Spec.Qualifies P G p w lane ego egoSt e.shape a' d' → d'.lon < p.lonThr → a = a') :
    ∀ a, r.rear.1 = some a → ∀ a' ∈ m.map Prod.snd, ∀ d',
      Spec.Qualifies P G p w lane ego egoSt e.shape a' d' → d'.lon < p.lonThr →
      d'.lon ≤ r.rear.2.lon := by
  intro a ha a' ha' d' hq' hside'
  obtain ⟨g1, g2, g3, _⟩ := (C15_rear_is_furthest P G p he hes hbig h).2 a ha
  have := hone a g1 a' ha' _ _ g2 g3 hq' hside'
  subst this
  rw [qualifies_unique P G p hq' g2]

/-! ### Witnesses -/

/-- toy models: state = position on the lane, everything valid -/
def toyP : Plug ℚ ℚ Unit Unit Unit Unit ℚ Unit :=
  { status := fun _ => .valid, lastAction := fun _ => (), plan := fun b _ _ _ => b,
    execute := fun e _ _ => e, execStatus := fun _ => .valid, executedState := fun _ => 0,
    observe := fun o w _ => (o, w), envelope := fun _ s => s, within := fun _ _ => true }

/-- insertion by distance to `c` -/
def insertBy (c : ℚ) (x : ℚ × Nat) : List (ℚ × Nat) → List (ℚ × Nat)
  | [] => [x]
  | y :: l => if |x.1 - c| ≤ |y.1 - c| then x :: y :: l else y :: insertBy c x l

/-- the `k` index entries nearest to `c` -/
def kNearest (c : ℚ) (k : Nat) (l : List (ℚ × Nat)) : List (ℚ × Nat) :=
  (l.foldr (insertBy c) []).take k

def toyG : FRPlug ℚ ℚ Unit Unit Unit Unit ℚ Unit :=
  { frenet := fun _ s => ⟨s, 0, 0, 0, 0⟩, ext := fun _ _ => ⟨0, 0, 0, 0⟩, nearest := kNearest,
    boxHit := fun _ _ => true, collide := fun _ _ => true, big := 10 ^ 308 }

def toyA (id : Nat) (pos : ℚ) : Nat × Agent ℚ ℚ Unit Unit Unit Unit :=
  (id, ⟨id, (), (), [(pos, ())], 5, 0, ()⟩)

/-- a world with agents 0,1,2,… at the given positions and a fresh index -/
def toyW (ps : List ℚ) : World ℚ ℚ Unit Unit Unit Unit ℚ Unit :=
  { agents := ps.zipIdx.map (fun q => toyA q.2 q.1), time := 0,
    rtree := ps.zipIdx, removeAgents := false, mapBox := none, observer := () }

/-- ids and gaps returned -/
def toyRun (k : Nat) (inCorr : Bool) (ps : List ℚ) : Option (Option Nat × Option Nat) :=
  match getAgentFrontRear toyP toyG ⟨1, 4, 0⟩ k inCorr (some ()) 0 (toyW ps) with
  | .ok r => some (r.front.1.map (·.id), r.rear.1.map (·.id))
  | .error _ => none

/-- **C15 is violated**: with the ego at 0 and agents at -5 and -50 the rear agent returned is the one
50 behind (agent 2), not the one 5 behind (agent 1); the index is fresh. -/
theorem C15_violated : toyRun 4 true [0, -5, -50] = some (none, some 2) ∧
    toyRun 4 false [0, -5, -50] = some (none, some 2) ∧
    World.rtreeOf toyP (toyW [0, -5, -50]).agents = .ok (toyW [0, -5, -50]).rtree := by
  refine ⟨by decide +kernel, by decide +kernel, rfl⟩

/-- **C14 is violated in the default mode** (not restricted to the corridor; `MaxAgentsFrontRear` = 4): with
four agents close behind, the leader 10 ahead (agent 5) is not found; restricted to the corridor it is. -/
theorem C14_nearest_mode_violated :
    toyRun 4 false [0, -1, -2, -3, -4, 10] = some (none, some 4) ∧
    toyRun 4 true [0, -1, -2, -3, -4, 10] = some (some 5, some 4) := by
  constructor <;> decide +kernel

/-- non-vacuity of the hypotheses of `C14_front_in_corridor`: three agents, two in front. -/
example : toyRun 4 true [0, 20, 7] = some (some 2, none) ∧
    OMap.Sorted (toyW [0, 20, 7]).agents ∧
    World.rtreeOf toyP (toyW [0, 20, 7]).agents = .ok (toyW [0, 20, 7]).rtree := by
  refine ⟨by decide +kernel, ?_, rfl⟩
  simp [OMap.Sorted, toyW, toyA, List.zipIdx]

end Bark.FrontRearProps
