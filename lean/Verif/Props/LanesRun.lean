import Verif.Props.Lanes

/-!
C218: the theorems, and a road with three lanes.
-/
set_option linter.unusedSectionVars false
namespace Bark.Flow
open Bark Bark.Ln Bark.Ln.Spec Bark.Fren Bark.Flow.Spec Bark.Angle

variable {Box Lane : Type}

/-- the agents of a part -/
theorem part_agents {A : Nat → Prop} [DecidablePred A] {w v : W Box} (hp : PartOf A w v) (hw : Props.WellFormed w) (hv : Props.WellFormed v) :
    v.agents = w.agents.filter fun q => decide (A q.1) := by
  have hs : OMap.Sorted (w.agents.filter fun q => decide (A q.1)) := List.Pairwise.filter _ hw.1
  refine OMap.ext hv.1 hs fun k => Option.ext fun a => ?_
  constructor
  · intro h
    have hAk : A k := by
      by_contra hn
      have := hp.gone k hn
      unfold World.getAgent at this
      rw [h] at this
      cases this
    have h' : w.getAgent k = some a := by rw [← hp.here k hAk]; exact h
    exact OMap.mem_find_some hs (List.mem_filter.2 ⟨OMap.find_some_mem h', by simpa using hAk⟩)
  · intro h
    obtain ⟨h1, h2⟩ := List.mem_filter.1 (OMap.find_some_mem h)
    have hAk : A k := by simpa using h2
    have h' : w.getAgent k = some a := OMap.mem_find_some hw.1 h1
    rw [← hp.here k hAk] at h'
    exact h'

/-- a world without the other vehicles -/
theorem part_exists (A : Nat → Prop) {w : W Box} (hw : Props.WellFormed w) : ∃ v, PartOf A w v ∧ Props.WellFormed v := by
  classical
  have hs : OMap.Sorted (w.agents.filter fun q => decide (A q.1)) := List.Pairwise.filter _ hw.1
  have hmem : ∀ k a, OMap.find k (w.agents.filter fun q => decide (A q.1)) = some a ↔ w.getAgent k = some a ∧ A k := by
    intro k a
    constructor
    · intro h
      obtain ⟨h1, h2⟩ := List.mem_filter.1 (OMap.find_some_mem h)
      exact ⟨OMap.mem_find_some hw.1 h1, by simpa using h2⟩
    · rintro ⟨h1, h2⟩
      exact OMap.mem_find_some hs (List.mem_filter.2 ⟨OMap.find_some_mem h1, by simpa using h2⟩)
  refine ⟨{ w with agents := w.agents.filter fun q => decide (A q.1) }, ⟨rfl, rfl, fun i hA => ?_, fun i hA => ?_⟩, hs, fun id a h => hw.2.1 id a ((hmem id a).1 h).1, hw.2.2⟩
  · exact Option.ext fun a => (hmem i a).trans (and_iff_left hA)
  · by_contra hn
    obtain ⟨a, ha⟩ := Option.ne_none_iff_exists'.1 hn
    exact hA ((hmem i a).1 ha).2

/-- everything is in order on all lanes and stays so for another `τ` seconds -/
structure Lanes (u : Setup Box Lane) (lanes : Set Lane) (a b : Lane → Pt) (ln : Nat → Lane) (τ : ℝ) (w : W Box) (x : Nat → ℝ × ℝ) : Prop where
  wf : Props.WellFormed w
  off : w.removeAgents = false
  many : w.agents.length ≤ u.maxAgents + 1
  rides : ∀ i ag, w.getAgent i = some ag → ln i ∈ lanes ∧ Rides (straightAt (a (ln i)) (b (ln i))) w.time (x i).1 (x i).2 ag ∧ 0 ≤ (x i).2 ∧ (x i).2 ≤ 15 ∧
    τ / 20 ≤ (x i).1 ∧ (x i).1 + 16 * τ ≤ pdist (a (ln i)) (b (ln i))
  clear : LaneClear ln w x
  beside : Beside a b ln w

theorem lanes_good {u : Setup Box Lane} {lanes : Set Lane} {a b : Lane → Pt} {ln : Nat → Lane} {τ : ℝ} {w v : W Box} {x : Nat → ℝ × ℝ} (hg : Lanes u lanes a b ln τ w x)
    {ℓ : Lane} (hp : PartOf (fun i => ln i = ℓ) w v) (hv : Props.WellFormed v) : Good u (pdist (a ℓ) (b ℓ)) (straightAt (a ℓ) (b ℓ)) τ v x := by
  classical
  have hfind : ∀ i ag, v.getAgent i = some ag → ln i = ℓ ∧ w.getAgent i = some ag := by
    intro i ag h
    have hA : ln i = ℓ := by
      by_contra hn
      rw [hp.gone i hn] at h
      cases h
    exact ⟨hA, by rw [← hp.here i hA]; exact h⟩
  refine ⟨hv, by rw [hp.removal]; exact hg.off, ?_, ?_, ?_⟩
  · rw [part_agents hp hg.wf hv]
    exact (List.length_filter_le _ _).trans hg.many
  · intro i ag h
    obtain ⟨rfl, h'⟩ := hfind i ag h
    rw [hp.time]
    exact (hg.rides i ag h').2
  · intro i j ai aj hi hj hij hle
    obtain ⟨e1, hi'⟩ := hfind i ai hi
    obtain ⟨e2, hj'⟩ := hfind j aj hj
    exact hg.clear i j ai aj hi' hj' hij (e1.trans e2.symm) hle

/-- one step of a lane part -/
theorem lanes_part {u : Setup Box Lane} {lanes : Set Lane} {a b : Lane → Pt} (hu : SideBySide u lanes a b) {ln : Nat → Lane} {τ dt : ℝ} {w v w1 v1 : W Box} {x : Nat → ℝ × ℝ}
    (hτ : 0 ≤ τ) (hg : Lanes u lanes a b ln τ w x) {ℓ : Lane} (hℓ : ℓ ∈ lanes) (hp : PartOf (fun i => ln i = ℓ) w v) (hv : Props.WellFormed v)
    (h : World.step (plug u) dt w = .ok w1) (h' : World.step (plug u) dt v = .ok v1) : PartOf (fun i => ln i = ℓ) w1 v1 := by
  have hs := hu.straight ℓ hℓ
  refine step_part hs.toDefault hp hg.wf hv hg.off hg.many (lanes_good hg hp hv).many h h' ?_
  rintro i ag rfl hi
  obtain ⟨-, hr, h0, h15, hlo, hhi⟩ := hg.rides i ag hi
  obtain ⟨p, θ, hat, hst⟩ := hr.state
  refine ⟨ln i, _, hr.entered, hr.valid, hst, (setting_straight hs).corridor (x i).1 p θ (by linarith) (by linarith) hat, ?_⟩
  intro j aj hj hne acc
  obtain ⟨hlj, hrj, -⟩ := hg.rides j aj hj
  exact skip_beside hs (hu.parallel (ln i) hℓ (ln j) hlj) (by linarith) (by linarith) hst hr hrj (hg.beside i j ag aj hi hj fun e => hne e.symm) acc

/-- one step on all lanes -/
theorem lanes_step {u : Setup Box Lane} {lanes : Set Lane} {a b : Lane → Pt} (hu : SideBySide u lanes a b) {ln : Nat → Lane} {τ dt : ℝ} {w w1 : W Box} {x : Nat → ℝ × ℝ}
    (hg : Lanes u lanes a b ln (dt + τ) w x) (hdt : 0 < dt) (hdt5 : dt ≤ 1 / 5) (hτ : 0 ≤ τ) (h : World.step (plug u) dt w = .ok w1) :
    ∃ x1 : Nat → ℝ × ℝ, Lanes u lanes a b ln τ w1 x1 ∧ (∀ i, w1.getAgent i = none ↔ w.getAgent i = none) ∧
      (∀ i ag a1, w.getAgent i = some ag → w1.getAgent i = some a1 → a1.shape = ag.shape) ∧
      ∀ i j ai aj, w.getAgent i = some ai → w.getAgent j = some aj → i ≠ j → ln i = ln j → (x i).1 ≤ (x j).1 → (x1 i).1 ≤ (x1 j).1 := by
  have key : ∀ ℓ, ∃ y : Nat → ℝ × ℝ, ℓ ∈ lanes → ∃ v v1, PartOf (fun i => ln i = ℓ) w v ∧ PartOf (fun i => ln i = ℓ) w1 v1 ∧
      Good u (pdist (a ℓ) (b ℓ)) (straightAt (a ℓ) (b ℓ)) τ v1 y ∧ (∀ i, v1.getAgent i = none ↔ v.getAgent i = none) ∧
      (∀ i ag a1, v.getAgent i = some ag → v1.getAgent i = some a1 → a1.shape = ag.shape) ∧
      ∀ i j ai aj, v.getAgent i = some ai → v.getAgent j = some aj → i ≠ j → (x i).1 ≤ (x j).1 → (y i).1 ≤ (y j).1 := by
    intro ℓ
    by_cases hℓ : ℓ ∈ lanes
    · obtain ⟨v, hp, hv⟩ := part_exists (fun i => ln i = ℓ) hg.wf
      obtain ⟨v1, h1, -⟩ := Props.apply_wf (plug u) hv (World.Op.step dt) trivial
      obtain ⟨y, g, n, s, o⟩ := good_step (setting_straight (hu.straight ℓ hℓ)) (lanes_good hg hp hv) hdt hdt5 hτ h1
      exact ⟨y, fun _ => ⟨v, v1, hp, lanes_part hu (by linarith) hg hℓ hp hv h h1, g, n, s, o⟩⟩
    · exact ⟨x, fun h => absurd h hℓ⟩
  choose Y hY using key
  have ht := Loop.step_keeps (plug u) h
  obtain ⟨w2, h2, hwf⟩ := Props.apply_wf (plug u) hg.wf (World.Op.step dt) trivial
  have h2' : World.step (plug u) dt w = .ok w2 := h2
  rw [h] at h2'
  cases h2'
  have none_iff : ∀ i, w1.getAgent i = none ↔ w.getAgent i = none := by
    intro i
    refine ⟨fun e => ?_, (Props.step_effect (plug u) hg.wf h i).1⟩
    by_contra hn
    obtain ⟨ag, hi⟩ := Option.ne_none_iff_exists'.1 hn
    obtain ⟨v, v1, p0, p1, -, n, -⟩ := hY (ln i) (hg.rides i ag hi).1
    rw [← p1.here i rfl, n i, p0.here i rfl, hi] at e
    cases e
  have back : ∀ i a1, w1.getAgent i = some a1 → ∃ ag, w.getAgent i = some ag := fun i a1 hi =>
    Option.ne_none_iff_exists'.1 fun e => by rw [(none_iff i).2 e] at hi; cases hi
  have shapes : ∀ i ag a1, w.getAgent i = some ag → w1.getAgent i = some a1 → a1.shape = ag.shape := by
    intro i ag a1 hi hi1
    obtain ⟨v, v1, p0, p1, -, -, s, -⟩ := hY (ln i) (hg.rides i ag hi).1
    exact s i ag a1 (by rw [p0.here i rfl]; exact hi) (by rw [p1.here i rfl]; exact hi1)
  refine ⟨fun i => Y (ln i) i, ⟨hwf, by rw [ht.2]; exact hg.off, ?_, ?_, ?_, ?_⟩, none_iff, shapes, ?_⟩
  · have hk : OMap.keys w1.agents ⊆ OMap.keys w.agents := by
      intro k hk
      rw [← OMap.find_isSome_iff] at hk ⊢
      cases hw : OMap.find k w.agents with
      | some ag => rfl
      | none =>
        have := (none_iff k).2 hw
        unfold World.getAgent at this
        rw [this] at hk
        cases hk
    have hnd : (OMap.keys w1.agents).Nodup := (OMap.sorted_iff_keys.1 hwf.1).imp fun h => ne_of_lt h
    have := (List.subperm_of_subset hnd hk).length_le
    simp only [OMap.keys, List.length_map] at this
    exact this.trans hg.many
  · intro i a1 hi
    obtain ⟨ag, hi0⟩ := back i a1 hi
    have hm := (hg.rides i ag hi0).1
    obtain ⟨v, v1, -, p1, g, -⟩ := hY (ln i) hm
    have := g.rides i a1 (by rw [p1.here i rfl]; exact hi)
    rw [p1.time] at this
    exact ⟨hm, this⟩
  · intro i j ai aj hi hj hij e hle
    obtain ⟨ag, hi0⟩ := back i ai hi
    obtain ⟨v, v1, -, p1, g, -⟩ := hY (ln i) (hg.rides i ag hi0).1
    dsimp only at hle ⊢
    rw [← e] at hle ⊢
    exact g.clear i j ai aj (by rw [p1.here i rfl]; exact hi) (by rw [p1.here j e.symm]; exact hj) hij hle
  · intro i j ai aj hi hj hne
    obtain ⟨ag, hi0⟩ := back i ai hi
    obtain ⟨ag', hj0⟩ := back j aj hj
    rw [shapes i ag ai hi0 hi, shapes j ag' aj hj0 hj]
    exact hg.beside i j ag ag' hi0 hj0 hne
  · intro i j ai aj hi hj hij e hle
    obtain ⟨v, v1, p0, -, -, -, -, o⟩ := hY (ln i) (hg.rides i ai hi).1
    have := o i j ai aj (by rw [p0.here i rfl]; exact hi) (by rw [p0.here j e.symm]; exact hj) hij hle
    dsimp only
    rw [← e]
    exact this

theorem lanes_run {u : Setup Box Lane} {lanes : Set Lane} {a b : Lane → Pt} (hu : SideBySide u lanes a b) {ln : Nat → Lane} (dts : List ℝ)
    (hpos : ∀ d ∈ dts, 0 < d ∧ d ≤ 1 / 5) : ∀ {w : W Box} {x : Nat → ℝ × ℝ}, Lanes u lanes a b ln dts.sum w x →
    ∃ (w' : W Box) (x' : Nat → ℝ × ℝ), World.run (plug u) w (Loop.Spec.steps dts) = .ok w' ∧ Lanes u lanes a b ln 0 w' x' ∧
      (∀ i, w'.getAgent i = none ↔ w.getAgent i = none) ∧
      (∀ i ag a1, w.getAgent i = some ag → w'.getAgent i = some a1 → a1.shape = ag.shape) ∧
      (∀ i j ai aj, w.getAgent i = some ai → w.getAgent j = some aj → i ≠ j → ln i = ln j → (x i).1 ≤ (x j).1 → (x' i).1 ≤ (x' j).1) ∧
      ∀ ℓ ∈ lanes, ∀ v, PartOf (fun i => ln i = ℓ) w v → Props.WellFormed v →
        ∃ v', World.run (plug u) v (Loop.Spec.steps dts) = .ok v' ∧ PartOf (fun i => ln i = ℓ) w' v' := by
  induction dts with
  | nil =>
    intro w x hg
    refine ⟨w, x, rfl, by simpa using hg, fun i => Iff.rfl, ?_, fun i j ai aj _ _ _ _ h => h, fun ℓ _ v hp _ => ⟨v, rfl, hp⟩⟩
    intro i ag a1 h1 h2
    rw [h1] at h2; cases h2; rfl
  | cons dt dts ih =>
    intro w x hg
    obtain ⟨w1, h1, hw1⟩ := Props.apply_wf (plug u) hg.wf (World.Op.step dt) trivial
    have h1s : World.step (plug u) dt w = .ok w1 := h1
    obtain ⟨hdt, hdt5⟩ := hpos dt (by simp)
    have hsum : 0 ≤ dts.sum := List.sum_nonneg fun d hd => (hpos d (by simp [hd])).1.le
    rw [List.sum_cons] at hg
    obtain ⟨x1, g1, n1, s1, o1⟩ := lanes_step hu hg hdt hdt5 hsum h1s
    obtain ⟨w', x', r, g2, n2, s2, o2, q2⟩ := ih (fun d hd => hpos d (by simp [hd])) g1
    have ex : ∀ i ag, w.getAgent i = some ag → ∃ a1, w1.getAgent i = some a1 := by
      intro i ag hi
      refine Option.ne_none_iff_exists'.1 fun e => ?_
      rw [(n1 i).1 e] at hi; cases hi
    have hrun : ∀ {v v1 : W Box}, World.apply (plug u) v (World.Op.step dt) = .ok v1 →
        World.run (plug u) v (Loop.Spec.steps (dt :: dts)) = World.run (plug u) v1 (Loop.Spec.steps dts) := by
      intro v v1 hv
      unfold Loop.Spec.steps
      rw [List.map_cons]
      conv_lhs => unfold World.run
      rw [hv, Res.ok_bind]
    refine ⟨w', x', by rw [hrun h1]; exact r, g2, fun i => (n2 i).trans (n1 i), ?_, ?_, ?_⟩
    · intro i ag a2 hi h2
      obtain ⟨a1, e1⟩ := ex i ag hi
      rw [s2 i a1 a2 e1 h2, s1 i ag a1 hi e1]
    · intro i j ai aj hi hj hij e hle
      obtain ⟨a1, e1⟩ := ex i ai hi
      obtain ⟨a2, e2⟩ := ex j aj hj
      exact o2 i j a1 a2 e1 e2 hij e (o1 i j ai aj hi hj hij e hle)
    · intro ℓ hℓ v hp hv
      obtain ⟨v1, k1, k2⟩ := Props.apply_wf (plug u) hv (World.Op.step dt) trivial
      obtain ⟨v', k3, k4⟩ := q2 ℓ hℓ v1 (lanes_part hu (by linarith) hg hℓ hp hv h1s k1) k2
      exact ⟨v', by rw [hrun k1]; exact k3, k4⟩

/-! ### bodies -/

theorem body_left {a b : Pt} {θ s : ℝ} (hθ : HasDir (vec a b) θ) (h0 : 0 ≤ s) (h1 : s ≤ pdist a b) {sh : Shape.Poly} (hp : Placed sh) (hn : Narrow sh) :
    ∀ q ∈ body sh (onLane a b s) θ, |leftOfLane a b q| ≤ sh.left := by
  intro q hq
  have hf : Fits sh sh.rear sh.front sh.left sh.left := fun p h => ⟨(hp.outline p h).1, (hp.outline p h).2, (abs_le.1 (hn p h)).1, (abs_le.1 (hn p h)).2⟩
  obtain ⟨-, -, k1, k2⟩ := body_strip hθ h0 h1 hf hq
  exact abs_le.2 ⟨k1, k2⟩

theorem left_add {a b a' b' : Pt} (hu : unit a' b' = unit a b ∨ unit a' b' = -unit a b) (q : Pt) :
    leftOfLane a b q = leftOfLane a b a' + leftOfLane a' b' q ∨ leftOfLane a b q = leftOfLane a b a' - leftOfLane a' b' q := by
  unfold leftOfLane
  rcases hu with h | h
  · left; rw [h]; ring
  · right; rw [h]; simp only [Prod.fst_neg, Prod.snd_neg]; ring

theorem bodies_beside {a b a' b' : Pt} (hu : unit a' b' = unit a b ∨ unit a' b' = -unit a b) {θ θ' s s' : ℝ} (hθ : HasDir (vec a b) θ) (hθ' : HasDir (vec a' b') θ')
    (h0 : 0 ≤ s) (h1 : s ≤ pdist a b) (h0' : 0 ≤ s') (h1' : s' ≤ pdist a' b') {sh sh' : Shape.Poly} (hp : Placed sh) (hp' : Placed sh') (hn : Narrow sh) (hn' : Narrow sh')
    (hb : sh.left + sh'.left < |leftOfLane a b a'|) : Disjoint (body sh (onLane a b s) θ) (body sh' (onLane a' b' s') θ') := by
  rw [Set.disjoint_left]
  intro q g1 g2
  have k1 := abs_le.1 (body_left hθ h0 h1 hp hn q g1)
  have k2 := abs_le.1 (body_left hθ' h0' h1' hp' hn' q g2)
  refine absurd hb (not_lt.2 (abs_le.2 ?_))
  rcases left_add hu q with e | e <;> constructor <;> linarith

/-- disjoint bodies do not collide -/
theorem apart_safe {u : Setup Box Lane} {w' : W Box} (hwf : Props.WellFormed w') (hpl : ∀ i a1, w'.getAgent i = some a1 → Placed a1.shape)
    (hb : ∀ i j ai aj t p θ v t' p' θ' v', w'.getAgent i = some ai → w'.getAgent j = some aj → i ≠ j → ai.currentState = .ok (t, p.1, p.2, θ, v) →
      aj.currentState = .ok (t', p'.1, p'.2, θ', v') → Disjoint (body ai.shape p θ) (body aj.shape p' θ')) (collide) (hc : Sound collide) :
    Eval.collisionAgents (plug u) outline collide w' = .ok false := by
  obtain ⟨res, e1, e2⟩ := Eval.C40_agents (plug u) outline collide hwf.1 (fun p hp => (hwf.2.1 p.1 p.2 (OMap.mem_find_some hwf.1 hp)).1)
  rw [e1]
  cases res with
  | false => rfl
  | true =>
    obtain ⟨i, j, ai, aj, si, sj, hij, ⟨ti, -, -, hi⟩, ⟨tj, -, -, hj⟩, hcol⟩ := e2.1 rfl
    have ci := (Eval.currentState_iff ai si).2 hi
    have cj := (Eval.currentState_iff aj sj).2 hj
    have ne := hc _ _ hcol
    obtain ⟨t, x1, y1, θ, v⟩ := si
    obtain ⟨t', x2, y2, θ', v'⟩ := sj
    rw [outline_body (hpl i ai ti), outline_body (hpl j aj tj)] at ne
    have := hb i j ai aj t (x1, y1) θ v t' (x2, y2) θ' v' ti tj hij ci cj
    exact absurd ne (by rw [Set.not_nonempty_iff_eq_empty]; exact Set.disjoint_iff_inter_eq_empty.1 this)

/-! ### C218 -/

/-- C218: traffic of the classic IDM in its default configuration on any number of straight lanes side by side, in the same or in opposite directions. The vehicles of a
lane have room to the one ahead and could stop before it; vehicles on different lanes are narrow enough for the lanes' distance; altogether there are at most one more
than the search looks at. Then after any number of steps of at most 0.2 s that leave everyone on the road nothing went wrong, every vehicle is on its own lane, directed
along it, not reversing and no faster than desired, the order on each lane is kept, the vehicles of a lane again have room to the one ahead and could stop before it, no
two vehicles of the road overlap, and the collision evaluator with any sound collision check says so. -/
theorem C218_lanes {u : Setup Box Lane} {lanes : Set Lane} {a b : Lane → Pt} (hu : SideBySide u lanes a b) {ln : Nat → Lane} {w : W Box} (hw : Props.WellFormed w)
    (hoff : w.removeAgents = false) (hmany : w.agents.length ≤ u.maxAgents + 1) (dts : List ℝ) (hpos : ∀ d ∈ dts, 0 < d ∧ d ≤ 1 / 5) {x : Nat → ℝ × ℝ}
    (hride : ∀ i ag, w.getAgent i = some ag → ln i ∈ lanes ∧ Narrow ag.shape ∧ Rides (straightAt (a (ln i)) (b (ln i))) w.time (x i).1 (x i).2 ag ∧
      0 ≤ (x i).2 ∧ (x i).2 ≤ 15 ∧ dts.sum / 20 ≤ (x i).1 ∧ (x i).1 + 16 * dts.sum ≤ pdist (a (ln i)) (b (ln i)))
    (hclear : LaneClear ln w x) (hbeside : Beside a b ln w) :
    ∃ (w' : W Box) (x' : Nat → ℝ × ℝ), World.run (plug u) w (Loop.Spec.steps dts) = .ok w' ∧ w'.time = w.time + dts.sum ∧
      (∀ i, w'.getAgent i = none ↔ w.getAgent i = none) ∧
      (∀ i ag a1, w.getAgent i = some ag → w'.getAgent i = some a1 → a1.shape = ag.shape) ∧
      (∀ i a1, w'.getAgent i = some a1 → Rides (straightAt (a (ln i)) (b (ln i))) w'.time (x' i).1 (x' i).2 a1 ∧ 0 ≤ (x' i).2 ∧ (x' i).2 ≤ 15 ∧ 0 ≤ (x' i).1 ∧
        (x' i).1 ≤ pdist (a (ln i)) (b (ln i))) ∧
      (∀ i j ai aj, w.getAgent i = some ai → w.getAgent j = some aj → i ≠ j → ln i = ln j → (x i).1 ≤ (x j).1 → (x' i).1 ≤ (x' j).1) ∧
      LaneClear ln w' x' ∧
      (∀ i j ai aj t p θ v t' p' θ' v', w'.getAgent i = some ai → w'.getAgent j = some aj → i ≠ j → ai.currentState = .ok (t, p.1, p.2, θ, v) →
        aj.currentState = .ok (t', p'.1, p'.2, θ', v') → Disjoint (body ai.shape p θ) (body aj.shape p' θ')) ∧
      ∀ collide, Sound collide → Eval.collisionAgents (plug u) outline collide w' = .ok false := by
  obtain ⟨w', x', r, g, n, s, o, -⟩ := lanes_run hu (ln := ln) dts hpos (w := w) (x := x) ⟨hw, hoff, hmany, fun i ag hi => ⟨(hride i ag hi).1, (hride i ag hi).2.2⟩, hclear, hbeside⟩
  obtain ⟨w2, r2, ht⟩ := Loop.C180_clock (plug u) hw dts
  rw [r] at r2; cases r2
  have hrd : ∀ i a1, w'.getAgent i = some a1 → ln i ∈ lanes ∧ Narrow a1.shape ∧ Rides (straightAt (a (ln i)) (b (ln i))) w'.time (x' i).1 (x' i).2 a1 ∧ 0 ≤ (x' i).2 ∧ (x' i).2 ≤ 15 ∧
      0 ≤ (x' i).1 ∧ (x' i).1 ≤ pdist (a (ln i)) (b (ln i)) := by
    intro i a1 hi
    obtain ⟨h0, h1, h2, h3, h4, h5⟩ := g.rides i a1 hi
    obtain ⟨ag, hi0⟩ := Option.ne_none_iff_exists'.1 fun e => by rw [(n i).2 e] at hi; cases hi
    exact ⟨h0, by rw [s i ag a1 hi0 hi]; exact (hride i ag hi0).2.1, h1, h2, h3, by linarith, by linarith⟩
  have hb : ∀ i j ai aj t p θ v t' p' θ' v', w'.getAgent i = some ai → w'.getAgent j = some aj → i ≠ j → ai.currentState = .ok (t, p.1, p.2, θ, v) →
      aj.currentState = .ok (t', p'.1, p'.2, θ', v') → Disjoint (body ai.shape p θ) (body aj.shape p' θ') := by
    intro i j ai aj t p θ v t' p' θ' v' hi hj hij ei ej
    obtain ⟨mi, ni, ri, -, -, li, ui⟩ := hrd i ai hi
    obtain ⟨mj, nj, rj, -, -, lj, uj⟩ := hrd j aj hj
    obtain ⟨_, θ₁, ⟨rfl, d1⟩, c1⟩ := ri.state
    obtain ⟨_, θ₂, ⟨rfl, d2⟩, c2⟩ := rj.state
    rw [c1] at ei; rw [c2] at ej
    simp only [Except.ok.injEq, Prod.mk.injEq] at ei ej
    obtain ⟨-, ex, ey, eθ, -⟩ := ei
    obtain ⟨-, ex', ey', eθ', -⟩ := ej
    rw [show p = onLane (a (ln i)) (b (ln i)) (x' i).1 from Prod.ext ex.symm ey.symm, show p' = onLane (a (ln j)) (b (ln j)) (x' j).1 from Prod.ext ex'.symm ey'.symm, ← eθ, ← eθ']
    by_cases e : ln i = ln j
    · rw [← e] at d2 ⊢
      rcases le_total (x' i).1 (x' j).1 with h | h
      · exact bodies_apart d1 d2 ri.shape rj.shape (g.clear i j ai aj hi hj hij e h).1
      · exact (bodies_apart d2 d1 rj.shape ri.shape (g.clear j i aj ai hj hi hij.symm e.symm h).1).symm
    · exact bodies_beside (hu.parallel _ mi _ mj) d1 d2 li ui lj uj ri.shape rj.shape ni nj (g.beside i j ai aj hi hj e)
  have htime : w'.time = w.time + dts.sum := by rw [ht]; unfold Loop.Spec.timeAt; rw [List.take_length]
  exact ⟨w', x', r, htime, n, s, fun i a1 hi => (hrd i a1 hi).2.2, o, g.clear, hb, apart_safe g.wf (fun i a1 hi => (hrd i a1 hi).2.2.1.shape) hb⟩

/-- C218: and what happens on one lane is exactly what would happen without the vehicles of the other lanes -/
theorem C218_independent {u : Setup Box Lane} {lanes : Set Lane} {a b : Lane → Pt} (hu : SideBySide u lanes a b) {ln : Nat → Lane} {w : W Box} (hw : Props.WellFormed w)
    (hoff : w.removeAgents = false) (hmany : w.agents.length ≤ u.maxAgents + 1) (dts : List ℝ) (hpos : ∀ d ∈ dts, 0 < d ∧ d ≤ 1 / 5) {x : Nat → ℝ × ℝ}
    (hride : ∀ i ag, w.getAgent i = some ag → ln i ∈ lanes ∧ Rides (straightAt (a (ln i)) (b (ln i))) w.time (x i).1 (x i).2 ag ∧
      0 ≤ (x i).2 ∧ (x i).2 ≤ 15 ∧ dts.sum / 20 ≤ (x i).1 ∧ (x i).1 + 16 * dts.sum ≤ pdist (a (ln i)) (b (ln i)))
    (hclear : LaneClear ln w x) (hbeside : Beside a b ln w) {ℓ : Lane} (hℓ : ℓ ∈ lanes) {v : W Box} (hv : Props.WellFormed v) (hp : PartOf (fun i => ln i = ℓ) w v) :
    ∃ w' v' : W Box, World.run (plug u) w (Loop.Spec.steps dts) = .ok w' ∧ World.run (plug u) v (Loop.Spec.steps dts) = .ok v' ∧ PartOf (fun i => ln i = ℓ) w' v' := by
  obtain ⟨w', x', r, -, -, -, -, q⟩ := lanes_run hu (ln := ln) dts hpos (w := w) (x := x) ⟨hw, hoff, hmany, hride, hclear, hbeside⟩
  obtain ⟨v', r', p⟩ := q ℓ hℓ v hp hv
  exact ⟨w', v', r, r', p⟩

/-! ### a road with three lanes -/

/-- two lanes to the right and an oncoming one -/
inductive Three
  | first
  | second
  | oncoming
  deriving DecidableEq

/-- where lane `ℓ` starts -/
noncomputable def laneStart : Three → Pt
  | .first => (0, 0)
  | .second => (0, 7 / 2)
  | .oncoming => (1000, 7)

/-- where lane `ℓ` ends -/
noncomputable def laneEnd : Three → Pt
  | .first => (1000, 0)
  | .second => (1000, 7 / 2)
  | .oncoming => (0, 7)

/-- the road -/
noncomputable def wide : Setup ℝ Three where
  idm := Loop.dflt
  thr := ⟨0, 3 / 4 * Real.pi, 0⟩
  maxAgents := 4
  laneEnd := ⟨false, 0, 0⟩
  roads := ⟨fun ℓ => ofArray [laneStart ℓ, laneEnd ℓ], fun _ _ => True⟩
  corridor p := some (if p.2 = 0 then .first else if p.2 = 7 / 2 then .second else .oncoming)
  lengthLeft _ p := 1000 - p.1
  envelope _ x := x.2.1
  within _ _ := true
  nearest x k index := (index.insertionSort fun p q => |p.1 - x.2.1| ≤ |q.1 - x.2.1|).take k
  boxHit _ _ := true
  collide _ _ := true
  big := 10 ^ 300

theorem lane_len (ℓ : Three) : pdist (laneStart ℓ) (laneEnd ℓ) = 1000 := by
  unfold pdist
  cases ℓ <;> norm_num [laneStart, laneEnd] <;> rw [show (1000000 : ℝ) = 1000 ^ 2 by norm_num, Real.sqrt_sq (by norm_num)]

/-- the direction of a lane -/
noncomputable def laneDir : Three → Pt
  | .first => (1, 0)
  | .second => (1, 0)
  | .oncoming => (-1, 0)

theorem lane_unit (ℓ : Three) : unit (laneStart ℓ) (laneEnd ℓ) = laneDir ℓ := by
  unfold unit
  rw [lane_len]
  cases ℓ <;> norm_num [laneStart, laneEnd, laneDir]

theorem wide_lanes : SideBySide wide Set.univ laneStart laneEnd := by
  refine ⟨fun ℓ _ => ⟨⟨rfl, rfl, rfl, fun x => ⟨fun p => |p.1 - x.2.1|, fun k index => nearest_sorted (fun p => |p.1 - x.2.1|) k index⟩⟩, ?_, rfl, fun s _ _ => ?_, ?_⟩, fun ℓ _ ℓ' _ => ?_⟩
  · intro h
    have := lane_len ℓ
    rw [h, pdist_eq_zero.2 rfl] at this
    norm_num at this
  · unfold onLane wide
    rw [lane_unit]
    cases ℓ <;> norm_num [laneStart, laneDir]
  · rw [lane_len]
    show (1000 : ℝ) < 10 ^ 300
    exact lt_of_lt_of_le (by norm_num : (1000 : ℝ) < 10 ^ 4) (pow_le_pow_right₀ (by norm_num) (by norm_num))
  · rw [lane_unit, lane_unit]
    cases ℓ <;> cases ℓ' <;> simp [laneDir]

/-- the angle of a lane -/
noncomputable def laneAngle : Three → ℝ
  | .first => 0
  | .second => 0
  | .oncoming => Real.pi

/-- vehicle `i` at `s` on lane `ℓ` with velocity `v` -/
noncomputable def laneCar (ℓ : Three) (i : Nat) (s v : ℝ) : Agent ℝ V5 CAcc.Act Beh (Res (Interp.Exec V5)) Shape.Poly :=
  { mover i s v with history := [((0, (onLane (laneStart ℓ) (laneEnd ℓ) s).1, (onLane (laneStart ℓ) (laneEnd ℓ) s).2, laneAngle ℓ, v), .continuous 0)] }

theorem laneCar_rides (ℓ : Three) (i : Nat) (s v : ℝ) : Rides (straightAt (laneStart ℓ) (laneEnd ℓ)) 0 s v (laneCar ℓ i s v) := by
  refine ⟨le_refl _, rfl, .continuous 0, ⟨_, rfl, rfl⟩, ⟨_, laneAngle ℓ, ⟨rfl, 1000, by norm_num, ?_⟩, rfl⟩, block_placed⟩
  unfold vec
  cases ℓ <;> norm_num [laneStart, laneEnd, laneAngle]

/-- on the first lane a standing vehicle and one approaching it, on the second lane one next to them, on the third lane two that come towards them -/
noncomputable def busy : W ℝ :=
  traffic [(0, laneCar .first 0 300 0), (1, laneCar .first 1 220 15), (2, laneCar .second 2 260 15), (3, laneCar .oncoming 3 300 15), (4, laneCar .oncoming 4 320 15)]

/-- the lane of each -/
def busyLane : Nat → Three
  | 0 => .first
  | 1 => .first
  | 2 => .second
  | _ => .oncoming

/-- position and velocity of each -/
noncomputable def busyAt (i : Nat) : ℝ × ℝ := if i = 0 then (300, 0) else if i = 1 then (220, 15) else if i = 2 then (260, 15) else if i = 3 then (300, 15) else (320, 15)

theorem busy_get {i : Nat} {ag} (h : busy.getAgent i = some ag) : (i = 0 ∧ ag = laneCar .first 0 300 0) ∨ (i = 1 ∧ ag = laneCar .first 1 220 15) ∨ (i = 2 ∧ ag = laneCar .second 2 260 15) ∨
    (i = 3 ∧ ag = laneCar .oncoming 3 300 15) ∨ (i = 4 ∧ ag = laneCar .oncoming 4 320 15) := by
  have hm := OMap.find_some_mem h
  simpa only [busy, traffic, List.mem_cons, List.not_mem_nil, or_false, Prod.mk.injEq] using hm

theorem busy_wf : Props.WellFormed busy := by
  refine ⟨by simp [OMap.Sorted, busy, traffic], ?_, by simp [busy, traffic]⟩
  intro id a h
  rcases busy_get h with ⟨rfl, rfl⟩ | ⟨rfl, rfl⟩ | ⟨rfl, rfl⟩ | ⟨rfl, rfl⟩ | ⟨rfl, rfl⟩ <;> simp [laneCar, mover]

theorem block_narrow : Narrow block := by
  intro p hp
  simp only [block, List.mem_cons, List.not_mem_nil, or_false] at hp ⊢
  rcases hp with rfl | rfl | rfl | rfl <;> norm_num [abs_le]

/-- the hypotheses are met: up to 40 s nothing collides -/
example (n : Nat) (hn : n ≤ 200) : ∃ w' : W ℝ, World.run (plug wide) busy (Loop.Spec.steps (List.replicate n (1 / 5))) = .ok w' ∧ w'.time = n / 5 ∧
    ∀ collide, Sound collide → Eval.collisionAgents (plug wide) outline collide w' = .ok false := by
  have hsum : (List.replicate n (1 / 5 : ℝ)).sum = n / 5 := by rw [List.sum_replicate]; simp; ring
  have hn' : (n : ℝ) ≤ 200 := by exact_mod_cast hn
  have hn0 : (0 : ℝ) ≤ n := Nat.cast_nonneg n
  obtain ⟨w', x', h1, h2, -, -, -, -, -, -, h3⟩ := C218_lanes wide_lanes (ln := busyLane) busy_wf rfl (by decide) (List.replicate n (1 / 5))
    (by intro d hd; rw [List.eq_of_mem_replicate hd]; norm_num) (x := busyAt)
    (by
      intro i ag h
      rw [hsum, lane_len]
      rcases busy_get h with ⟨rfl, rfl⟩ | ⟨rfl, rfl⟩ | ⟨rfl, rfl⟩ | ⟨rfl, rfl⟩ | ⟨rfl, rfl⟩
      all_goals
        refine ⟨trivial, block_narrow, by simpa [busyLane, busyAt] using! laneCar_rides _ _ _ _, ?_, ?_, ?_, ?_⟩ <;> norm_num [busyAt] <;> linarith)
    (by
      intro i j ai aj hi hj hij e hle
      rcases busy_get hi with ⟨rfl, rfl⟩ | ⟨rfl, rfl⟩ | ⟨rfl, rfl⟩ | ⟨rfl, rfl⟩ | ⟨rfl, rfl⟩ <;>
        rcases busy_get hj with ⟨rfl, rfl⟩ | ⟨rfl, rfl⟩ | ⟨rfl, rfl⟩ | ⟨rfl, rfl⟩ | ⟨rfl, rfl⟩ <;>
        first
        | exact absurd rfl hij
        | (exfalso; revert e; decide)
        | (exfalso; unfold busyAt at hle; norm_num at hle; done)
        | (unfold Loop.Spec.Clear gap laneCar mover block busyAt; norm_num))
    (by
      intro i j ai aj hi hj e
      rcases busy_get hi with ⟨rfl, rfl⟩ | ⟨rfl, rfl⟩ | ⟨rfl, rfl⟩ | ⟨rfl, rfl⟩ | ⟨rfl, rfl⟩ <;>
        rcases busy_get hj with ⟨rfl, rfl⟩ | ⟨rfl, rfl⟩ | ⟨rfl, rfl⟩ | ⟨rfl, rfl⟩ | ⟨rfl, rfl⟩ <;>
        first
        | exact absurd rfl e
        | (unfold leftOfLane; rw [lane_unit]; norm_num [busyLane, laneStart, laneDir, laneCar, mover, block]))
  exact ⟨w', h1, by rw [h2, hsum]; show (0 : ℝ) + _ = _; rw [zero_add], h3⟩

/-- and there is a world with the vehicles of the first lane only -/
example : ∃ v : W ℝ, PartOf (fun i => busyLane i = .first) busy v ∧ Props.WellFormed v := part_exists _ busy_wf

/-! ### hidden by others -/

/-- C218: a vehicle all of whose nearest `MaxAgentsFrontRear` + 1 vehicles are on other lanes drives on as if alone, whoever is ahead of it on its own lane -/
theorem C218_hidden {u : Setup Box Lane} {lanes : Set Lane} {a b : Lane → Pt} (hu : SideBySide u lanes a b) {ln : Nat → Lane} {w w1 : W Box} (hw : Props.WellFormed w)
    (hoff : w.removeAgents = false) {x : Nat → ℝ × ℝ}
    (hride : ∀ i ag, w.getAgent i = some ag → ln i ∈ lanes ∧ Rides (straightAt (a (ln i)) (b (ln i))) w.time (x i).1 (x i).2 ag) (hbeside : Beside a b ln w)
    {i : Nat} {ag : Agent ℝ V5 CAcc.Act Beh (Res (Interp.Exec V5)) Shape.Poly} (hi : w.getAgent i = some ag) (hv0 : 0 ≤ (x i).2) (h15 : (x i).2 ≤ 15)
    (hun : ∀ index, World.rtreeOf (plug u) w.agents = .ok index → ∀ ex, ag.currentState = .ok ex → ∀ j bx,
      (bx, j) ∈ u.nearest ex (u.maxAgents + 1) index → j ≠ i → ln j ≠ ln i)
    {dt : ℝ} (hdt : 0 < dt) (hdt5 : dt ≤ 1 / 5) (hs : dt / 20 ≤ (x i).1) (hL : (x i).1 + 16 * dt ≤ pdist (a (ln i)) (b (ln i))) (h : World.step (plug u) dt w = .ok w1) :
    ∃ a1, w1.getAgent i = some a1 ∧ a1.shape = ag.shape ∧ Rides (straightAt (a (ln i)) (b (ln i))) w1.time
      ((x i).1 + (x i).2 * dt + 1 / 2 * (1.7 * (1 - ((x i).2 / 15) ^ 4)) * dt ^ 2) ((x i).2 + 1.7 * (1 - ((x i).2 / 15) ^ 4) * dt) a1 := by
  obtain ⟨hℓ, hr⟩ := hride i ag hi
  have hst' := hu.straight _ hℓ
  have hset := setting_straight hst'
  obtain ⟨p, θ, hat, hst⟩ := hr.state
  set ex : V5 := (w.time, p.1, p.2, θ, (x i).2) with hex
  obtain ⟨o, index, -, f1, -, -⟩ := step_fresh (plug u) hw h hi
  have f1' := f1
  rw [rtreeOf_same] at f1
  obtain ⟨dist, hn⟩ := hset.nearest ex
  have hidx := Props.indexOk_of_fresh (queries u) (w := { w with rtree := index }) f1
  obtain ⟨m, m1, m2, m3⟩ := Props.collectHits_ok (queries u) (fun _ => true) (w := { w with rtree := index }) (u.nearest ex (u.maxAgents + 1) index)
    (fun q hq => hidx q ((hn _ index).2.1.subset hq))
  have hskip : ∀ q ∈ m, ∀ acc, frBody (queries u) (geo u) u.thr w.time (ln i) i ex ag.shape acc q.2 = .ok acc := by
    rintro ⟨j, aj⟩ hq acc
    obtain ⟨⟨bx, hb⟩, hj, -, -, -⟩ := (m3 j aj).1 (OMap.mem_find_some m2 hq)
    have hj' : w.getAgent j = some aj := hj
    by_cases hji : j = i
    · unfold frBody
      rw [if_pos (by rw [(hw.2.1 j aj hj').2, hji]; simp)]
    · obtain ⟨hlj, hrj⟩ := hride j aj hj'
      have hne := hun index f1' ex hst j bx hb hji
      exact skip_beside hst' (hu.parallel _ hℓ _ hlj) (by linarith) (by linarith) hst hr hrj (hbeside i j ag aj hi hj' (Ne.symm hne)) acc
  have hfr : getAgentFrontRear (queries u) (geo u) u.thr u.maxAgents false (some (ln i)) i { w with rtree := index } =
      .ok ⟨(none, FDiff.default u.big), (none, FDiff.default u.big)⟩ := by
    have hi' : World.getAgent { w with rtree := index } i = some ag := hi
    have c1 : frConsidered (queries u) (geo u) u.maxAgents false (some (ln i)) i { w with rtree := index } = .ok m := by
      unfold frConsidered
      rw [if_neg (by simp), hi']
      dsimp only
      rw [hst, Res.ok_bind]
      exact m1
    unfold getAgentFrontRear
    rw [c1, Res.ok_bind]
    unfold frFrom
    dsimp only
    cases hm : m.isEmpty with
    | true => rfl
    | false =>
      rw [hi']
      simp only [Bool.false_eq_true, if_false]
      rw [hst, Res.ok_bind, frLoop_filter (queries u) (geo u) u.thr w.time (ln i) i ex ag.shape (fun _ => false) m _ fun q hq _ acc => hskip q hq acc, List.filter_false]
      rfl
  obtain ⟨r, hrel, hno⟩ : ∃ r, Lead.observedRel (queries u) (geo u) u.thr u.maxAgents u.idm.coolness u.laneEnd 0 (ln i) i ag.behavior.action { w with rtree := index } = .ok r ∧
      r.hasLeader = false := by
    obtain ⟨r, hrr⟩ := (Lead.C184_aborts (geo u) u.idm.coolness (ln i) (none, FDiff.default u.big) (fun a h => (by cases h)) u.laneEnd 0 ag.behavior.action).2
      ⟨hr.action, fun _ a h e => (by cases e)⟩
    refine ⟨r, ?_, ?_⟩
    · unfold Lead.observedRel
      rw [hfr]
      exact hrr
    · unfold Lead.relValues Lead.leader at hrr
      dsimp only at hrr
      cases hc : CAcc.egoAcc ag.behavior.action with
      | error f => rw [hc] at hrr; cases hrr
      | ok c =>
        rw [hc] at hrr
        dsimp only at hrr
        unfold Lead.combine at hrr
        rw [if_neg (by rw [hset.brake]; simp)] at hrr
        cases hrr
        rfl
  obtain ⟨tr, z, e1, -, e3, e4, -, -, -, e5⟩ := Loop.planIdm_desired (r := r) Loop.dflt_sane rfl (by norm_num [Loop.dflt]) (by norm_num [Loop.dflt])
    (by norm_num [Loop.dflt]) (by norm_num [Loop.dflt]) (by norm_num [Loop.dflt]) (by norm_num [Loop.dflt]) (by norm_num [Loop.dflt]) hdt.le
    (by norm_num [Loop.dflt]; linarith) (w.time, (x i).1, (x i).2) (by norm_num [Loop.dflt]; exact hv0) (by norm_num [Loop.dflt]; exact h15)
  obtain ⟨k1, k2⟩ := e5 hno (by norm_num [Loop.dflt])
  have hacc : Loop.freeAcc Loop.dflt (x i).2 = 1.7 * (1 - ((x i).2 / 15) ^ 4) := by
    have h1 : ((x i).2 / 15) ^ 4 ≤ 1 := pow_le_one₀ (by positivity) (by linarith)
    have h2 : 0 ≤ ((x i).2 / 15) ^ 4 := by positivity
    unfold Loop.freeAcc Loop.dflt
    dsimp only
    rw [min_eq_left (by norm_num at h1 h2 ⊢; linarith), max_eq_left (by norm_num at h1 h2 ⊢; linarith)]
  dsimp only at k1 k2
  rw [hacc] at k1 k2
  obtain ⟨a1, g1, g2, g3⟩ := agent_step hset hw hoff hdt hdt5 h hi hr hv0 h15 hs hL
    (fun len index' hidx => by
      rw [f1] at hidx; cases hidx
      rw [observed_len hset.brake len 0]
      exact hrel) e1 e3 e4
  refine ⟨a1, g1, g2, ?_⟩
  rw [← k1, ← k2]
  exact g3

/-- on the first lane a standing vehicle and one approaching it, on the third lane five that come towards them -/
noncomputable def meeting : W ℝ :=
  traffic [(0, laneCar .first 0 524 0), (1, laneCar .first 1 500 15), (2, laneCar .oncoming 2 488 15), (3, laneCar .oncoming 3 490 15), (4, laneCar .oncoming 4 492 15),
    (5, laneCar .oncoming 5 494 15), (6, laneCar .oncoming 6 496 15)]

/-- the lane of each -/
def meetingLane : Nat → Three
  | 0 => .first
  | 1 => .first
  | _ => .oncoming

/-- position and velocity of each -/
noncomputable def meetingAt (i : Nat) : ℝ × ℝ := if i = 0 then (524, 0) else if i = 1 then (500, 15) else (484 + 2 * i, 15)

theorem meeting_get {i : Nat} {ag} (h : meeting.getAgent i = some ag) : (i = 0 ∧ ag = laneCar .first 0 524 0) ∨ (i = 1 ∧ ag = laneCar .first 1 500 15) ∨
    (i = 2 ∧ ag = laneCar .oncoming 2 488 15) ∨ (i = 3 ∧ ag = laneCar .oncoming 3 490 15) ∨ (i = 4 ∧ ag = laneCar .oncoming 4 492 15) ∨
    (i = 5 ∧ ag = laneCar .oncoming 5 494 15) ∨ (i = 6 ∧ ag = laneCar .oncoming 6 496 15) := by
  have hm := OMap.find_some_mem h
  simpa only [meeting, traffic, List.mem_cons, List.not_mem_nil, or_false, Prod.mk.injEq] using hm

theorem meeting_wf : Props.WellFormed meeting := by
  refine ⟨by simp [OMap.Sorted, meeting, traffic], ?_, by simp [meeting, traffic]⟩
  intro id a h
  rcases meeting_get h with ⟨rfl, rfl⟩ | ⟨rfl, rfl⟩ | ⟨rfl, rfl⟩ | ⟨rfl, rfl⟩ | ⟨rfl, rfl⟩ | ⟨rfl, rfl⟩ | ⟨rfl, rfl⟩ <;> simp [laneCar, mover]

theorem meeting_ride (i : Nat) (ag) (h : meeting.getAgent i = some ag) : meetingLane i ∈ Set.univ ∧
    Rides (straightAt (laneStart (meetingLane i)) (laneEnd (meetingLane i))) meeting.time (meetingAt i).1 (meetingAt i).2 ag := by
  refine ⟨trivial, ?_⟩
  rcases meeting_get h with ⟨rfl, rfl⟩ | ⟨rfl, rfl⟩ | ⟨rfl, rfl⟩ | ⟨rfl, rfl⟩ | ⟨rfl, rfl⟩ | ⟨rfl, rfl⟩ | ⟨rfl, rfl⟩
  all_goals
    unfold meetingAt
    norm_num
    exact laneCar_rides _ _ _ _

theorem meeting_clear : LaneClear meetingLane meeting meetingAt := by
  intro i j ai aj hi hj hij e hle
  rcases meeting_get hi with ⟨rfl, rfl⟩ | ⟨rfl, rfl⟩ | ⟨rfl, rfl⟩ | ⟨rfl, rfl⟩ | ⟨rfl, rfl⟩ | ⟨rfl, rfl⟩ | ⟨rfl, rfl⟩ <;>
    rcases meeting_get hj with ⟨rfl, rfl⟩ | ⟨rfl, rfl⟩ | ⟨rfl, rfl⟩ | ⟨rfl, rfl⟩ | ⟨rfl, rfl⟩ | ⟨rfl, rfl⟩ | ⟨rfl, rfl⟩ <;>
    first
    | exact absurd rfl hij
    | (exfalso; revert e; decide)
    | (exfalso; unfold meetingAt at hle; norm_num at hle; done)
    | (unfold Loop.Spec.Clear gap laneCar mover block meetingAt; norm_num)

theorem meeting_beside : Beside laneStart laneEnd meetingLane meeting := by
  intro i j ai aj hi hj e
  rcases meeting_get hi with ⟨rfl, rfl⟩ | ⟨rfl, rfl⟩ | ⟨rfl, rfl⟩ | ⟨rfl, rfl⟩ | ⟨rfl, rfl⟩ | ⟨rfl, rfl⟩ | ⟨rfl, rfl⟩ <;>
    rcases meeting_get hj with ⟨rfl, rfl⟩ | ⟨rfl, rfl⟩ | ⟨rfl, rfl⟩ | ⟨rfl, rfl⟩ | ⟨rfl, rfl⟩ | ⟨rfl, rfl⟩ | ⟨rfl, rfl⟩ <;>
    first
    | exact absurd rfl e
    | (unfold leftOfLane; rw [lane_unit]; norm_num [meetingLane, laneStart, laneDir, laneCar, mover, block])

/-- where they are along the road -/
noncomputable def meetingIndex : List (ℝ × Nat) := [(524, 0), (500, 1), (512, 2), (510, 3), (508, 4), (506, 5), (504, 6)]

theorem meeting_index : World.rtreeOf (plug wide) meeting.agents = .ok meetingIndex := by
  have e : ∀ s, (onLane (laneStart .first) (laneEnd .first) s).1 = s := fun s => by unfold onLane; rw [lane_unit]; norm_num [laneStart, laneDir]
  have e' : ∀ s, (onLane (laneStart .oncoming) (laneEnd .oncoming) s).1 = 1000 - s := fun s => by unfold onLane; rw [lane_unit]; norm_num [laneStart, laneDir]; ring
  have k : World.rtreeOf (plug wide) meeting.agents = .ok [((onLane (laneStart .first) (laneEnd .first) 524).1, 0), ((onLane (laneStart .first) (laneEnd .first) 500).1, 1),
    ((onLane (laneStart .oncoming) (laneEnd .oncoming) 488).1, 2), ((onLane (laneStart .oncoming) (laneEnd .oncoming) 490).1, 3),
    ((onLane (laneStart .oncoming) (laneEnd .oncoming) 492).1, 4), ((onLane (laneStart .oncoming) (laneEnd .oncoming) 494).1, 5),
    ((onLane (laneStart .oncoming) (laneEnd .oncoming) 496).1, 6)] := rfl
  rw [k]
  simp only [e, e']
  unfold meetingIndex
  norm_num

/-- an entry is not among the `k` nearest if more than `k` are not farther, all strictly but itself -/
theorem not_near {α : Type} [DecidableEq α] {k : Nat} {f : α → ℝ} {l r : List α} (h : EvalSpec.IsKNearest k f l r) {y : α} (S : List α) (hS : S.Nodup) (hsub : S ⊆ l)
    (hk : k < S.length) (hlt : ∀ z ∈ S, z = y ∨ f z < f y) : y ∉ r := by
  intro hy
  have hin : S ⊆ r := by
    intro z hz
    by_contra hn
    rcases hlt z hz with rfl | g
    · exact hn hy
    · exact absurd (h.2.2 y hy z (hsub hz) hn) (not_le.2 g)
  have := (List.subperm_of_subset hS hin).length_le
  have := h.1
  omega

theorem meeting_hidden {i : Nat} (hi : i = 0 ∨ i = 1) (ag) (hag : meeting.getAgent i = some ag) : ∀ index, World.rtreeOf (plug wide) meeting.agents = .ok index →
    ∀ ex, ag.currentState = .ok ex → ∀ j bx, (bx, j) ∈ wide.nearest ex (wide.maxAgents + 1) index → j ≠ i → meetingLane j ≠ meetingLane i := by
  classical
  intro index hidx ex hex j bx hb hne
  rw [meeting_index] at hidx
  injection hidx with hidx
  subst hidx
  have hx : ex.2.1 = (meetingAt i).1 := by
    obtain ⟨_, θ, ⟨rfl, -⟩, e⟩ := (meeting_ride i ag hag).2.state
    rw [hex] at e
    injection e with e
    rw [e]
    unfold onLane
    rw [lane_unit]
    rcases hi with rfl | rfl <;> norm_num [meetingLane, laneStart, laneDir]
  have hnear := nearest_sorted (fun p : ℝ × Nat => |p.1 - ex.2.1|) 5 meetingIndex
  have hmem : (bx, j) ∈ meetingIndex := hnear.2.1.subset hb
  simp only [meetingIndex, List.mem_cons, List.not_mem_nil, or_false, Prod.mk.injEq] at hmem
  have hfar : (bx, j) ≠ (524, 0) ∧ (bx, j) ≠ (500, 1) ∨ j = i := by
    rcases hi with rfl | rfl
    · rcases hmem with ⟨rfl, rfl⟩ | ⟨rfl, rfl⟩ | ⟨rfl, rfl⟩ | ⟨rfl, rfl⟩ | ⟨rfl, rfl⟩ | ⟨rfl, rfl⟩ | ⟨rfl, rfl⟩
      · exact Or.inr rfl
      · refine absurd hb (not_near hnear [(524, 0), (512, 2), (510, 3), (508, 4), (506, 5), (504, 6)] ?_ ?_ (by decide) ?_)
        · exact List.Nodup.of_map Prod.snd (by decide)
        · intro z hz; simp only [meetingIndex, List.mem_cons, List.not_mem_nil, or_false] at hz ⊢; tauto
        · intro z hz
          right
          simp only [List.mem_cons, List.not_mem_nil, or_false] at hz
          dsimp only
          rw [hx]
          rcases hz with rfl | rfl | rfl | rfl | rfl | rfl <;> norm_num [meetingAt]
      all_goals left; constructor <;> (intro e; simp at e)
    · rcases hmem with ⟨rfl, rfl⟩ | ⟨rfl, rfl⟩ | ⟨rfl, rfl⟩ | ⟨rfl, rfl⟩ | ⟨rfl, rfl⟩ | ⟨rfl, rfl⟩ | ⟨rfl, rfl⟩
      · refine absurd hb (not_near hnear [(500, 1), (512, 2), (510, 3), (508, 4), (506, 5), (504, 6)] ?_ ?_ (by decide) ?_)
        · exact List.Nodup.of_map Prod.snd (by decide)
        · intro z hz; simp only [meetingIndex, List.mem_cons, List.not_mem_nil, or_false] at hz ⊢; tauto
        · intro z hz
          right
          simp only [List.mem_cons, List.not_mem_nil, or_false] at hz
          dsimp only
          rw [hx]
          rcases hz with rfl | rfl | rfl | rfl | rfl | rfl <;> norm_num [meetingAt]
      · exact Or.inr rfl
      all_goals left; constructor <;> (intro e; simp at e)
  rcases hfar with ⟨g1, g2⟩ | g
  · have : 2 ≤ j := by
      rcases hmem with ⟨rfl, rfl⟩ | ⟨rfl, rfl⟩ | ⟨-, rfl⟩ | ⟨-, rfl⟩ | ⟨-, rfl⟩ | ⟨-, rfl⟩ | ⟨-, rfl⟩
      · exact absurd rfl g1
      · exact absurd rfl g2
      all_goals omega
    obtain ⟨j', rfl⟩ : ∃ j', j = j' + 2 := ⟨j - 2, by omega⟩
    rcases hi with rfl | rfl <;> (intro e; cases e)
  · exact absurd g hne

/-- C218: with more vehicles than the search looks at, oncoming traffic hides the vehicle ahead: all have room and could stop, and after one step the one that approaches the
standing vehicle cannot -/
theorem C218_oncoming_violated : SideBySide wide Set.univ laneStart laneEnd ∧ Props.WellFormed meeting ∧ meeting.agents.length = wide.maxAgents + 3 ∧
    (∀ i ag, meeting.getAgent i = some ag →
      Rides (straightAt (laneStart (meetingLane i)) (laneEnd (meetingLane i))) meeting.time (meetingAt i).1 (meetingAt i).2 ag ∧ Narrow ag.shape) ∧
    LaneClear meetingLane meeting meetingAt ∧ Beside laneStart laneEnd meetingLane meeting ∧
    ∃ w1, World.step (plug wide) (1 / 5) meeting = .ok w1 ∧ ¬∃ x' : Nat → ℝ × ℝ,
      (∀ i a1, w1.getAgent i = some a1 → Rides (straightAt (laneStart (meetingLane i)) (laneEnd (meetingLane i))) w1.time (x' i).1 (x' i).2 a1) ∧
      LaneClear meetingLane w1 x' := by
  obtain ⟨w1, h1, -⟩ := Props.apply_wf (plug wide) meeting_wf (World.Op.step (1 / 5)) trivial
  have h1s : World.step (plug wide) (1 / 5) meeting = .ok w1 := h1
  refine ⟨wide_lanes, meeting_wf, rfl, fun i ag h => ⟨(meeting_ride i ag h).2, ?_⟩, meeting_clear, meeting_beside, w1, h1s, ?_⟩
  · rcases meeting_get h with ⟨rfl, rfl⟩ | ⟨rfl, rfl⟩ | ⟨rfl, rfl⟩ | ⟨rfl, rfl⟩ | ⟨rfl, rfl⟩ | ⟨rfl, rfl⟩ | ⟨rfl, rfl⟩ <;> exact block_narrow
  rintro ⟨x', hx, hc⟩
  obtain ⟨a0, g0, s0, r0⟩ := C218_hidden wide_lanes (ln := meetingLane) meeting_wf rfl meeting_ride meeting_beside (i := 0) (ag := laneCar .first 0 524 0) rfl
    (by norm_num [meetingAt]) (by norm_num [meetingAt]) (meeting_hidden (Or.inl rfl) _ rfl) (by norm_num) (by norm_num) (by norm_num [meetingAt])
    (by rw [lane_len]; norm_num [meetingAt]) h1s
  obtain ⟨a1, g1, s1, r1⟩ := C218_hidden wide_lanes (ln := meetingLane) meeting_wf rfl meeting_ride meeting_beside (i := 1) (ag := laneCar .first 1 500 15) rfl
    (by norm_num [meetingAt]) (by norm_num [meetingAt]) (meeting_hidden (Or.inr rfl) _ rfl) (by norm_num) (by norm_num) (by norm_num [meetingAt])
    (by rw [lane_len]; norm_num [meetingAt]) h1s
  have hp : ∀ s, (onLane (laneStart .first) (laneEnd .first) s).1 = s := fun s => by unfold onLane; rw [lane_unit]; norm_num [laneStart, laneDir]
  have pos : ∀ i ai s v, meetingLane i = .first → w1.getAgent i = some ai → Rides (straightAt (laneStart (meetingLane i)) (laneEnd (meetingLane i))) w1.time s v ai →
      (x' i).1 = s ∧ (x' i).2 = v := by
    intro i ai s v hl hi hr
    have hxi := hx i ai hi
    rw [hl] at hr hxi
    obtain ⟨_, θ, ⟨rfl, -⟩, e⟩ := hxi.state
    obtain ⟨_, θ', ⟨rfl, -⟩, e'⟩ := hr.state
    rw [e, hp, hp] at e'
    simp only [Except.ok.injEq, Prod.mk.injEq] at e'
    exact ⟨e'.2.1, e'.2.2.2.2⟩
  obtain ⟨p0, v0⟩ := pos 0 a0 _ _ rfl g0 r0
  obtain ⟨p1, v1⟩ := pos 1 a1 _ _ rfl g1 r1
  have hcl := (hc 1 0 a1 a0 g1 g0 (by decide) rfl (by rw [p0, p1]; norm_num [meetingAt])).2
  unfold gap at hcl
  rw [p0, p1, v0, v1, s0, s1] at hcl
  norm_num [meetingAt, laneCar, mover, block] at hcl

end Bark.Flow
