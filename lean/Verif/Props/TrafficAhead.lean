import Verif.Props.TrafficFront
import Verif.Props.Concat
import Verif.Spec.TrafficAhead

/-! C216: in traffic on one lane nobody is influenced by what is behind. -/
namespace Bark.Flow
open Bark Bark.Ln Bark.Ln.Spec Bark.Flow.Spec

variable {Box Lane : Type}

theorem genLoop_same {p : Idm.Params} (hc : p.coolness = 0) {r r' : Idm.Rel} (hl : r.hasLeader = r'.hasLeader) (hv : r.hasLeader = true → r.velocity = r'.velocity)
    (start dt v0 : ℝ) (n i : Nat) (s v rel rel' : ℝ) (hd : r.hasLeader = true → rel = rel') :
    Idm.genLoop p r start dt v0 n i s v rel = Idm.genLoop p r' start dt v0 n i s v rel' := by
  induction n generalizing i s v rel rel' with
  | zero => rfl
  | succ n ih =>
    have ht : Idm.totalAcc p r v0 rel = Idm.totalAcc p r' v0 rel' := by
      unfold Idm.totalAcc
      rw [hc, if_neg (lt_irrefl _), if_neg (lt_irrefl _), ← hl]
      by_cases h : r.hasLeader = true
      · rw [if_pos h, if_pos h, hv h, hd h]
      · rw [if_neg h, if_neg h]
    unfold Idm.genLoop
    rw [ht]
    cases Idm.totalAcc p r' v0 rel' with
    | error f => rfl
    | ok a =>
      cases a with
      | fin acc =>
        dsimp only
        rw [ih (i + 1) _ _ (Idm.nextDist r v0 rel acc dt) (Idm.nextDist r' v0 rel' acc dt)]
        intro h
        unfold Idm.nextDist
        rw [if_pos h, if_pos (hl ▸ h), hv h, hd h]
      | _ => rfl

theorem plan_same {r r' : Idm.Rel} (hl : r.hasLeader = r'.hasLeader) (hv : r.hasLeader = true → r.velocity = r'.velocity ∧ r.distance = r'.distance)
    (t dt : ℝ) (y : ℝ × ℝ × ℝ) : Loop.planIdm Loop.dflt r t dt y = Loop.planIdm Loop.dflt r' t dt y := by
  unfold Loop.planIdm Idm.generate
  rw [genLoop_same rfl hl (fun h => (hv h).1) _ _ _ _ _ _ _ _ _ (fun h => (hv h).2)]

/-- two vehicles that are clear of each other are not at the same place -/
theorem not_same_place {w : W Box} {x : Nat → ℝ × ℝ} (hc : AllClear w x) {i j : Nat} {ai aj} (hi : w.getAgent i = some ai) (hj : w.getAgent j = some aj)
    (pi : Placed ai.shape) (pj : Placed aj.shape) (he : (x i).1 = (x j).1) : i = j := by
  by_contra hne
  have := (hc i j ai aj hi hj hne he.le).1
  unfold gap at this
  linarith [pi.front, pj.rear]

theorem rel_of {u : Setup Box Lane} {lane : Lane} {L : ℝ} {At : ℝ → Pt → ℝ → Prop} (hu : Setting u lane L At) {τ : ℝ} {w w1 : W Box} {x : Nat → ℝ × ℝ} (hg : Good u L At τ w x)
    (hτ : 0 ≤ τ) {dt : ℝ} (h : World.step (plug u) dt w = .ok w1) {i : Nat} {ag} (hi : w.getAgent i = some ag) :
    ∃ r, (∀ len index', World.rtreeOf (queries u) w.agents = .ok index' → Lead.observedRel (queries u) (geo u) u.thr u.maxAgents u.idm.coolness u.laneEnd len
        lane i ag.behavior.action { w with rtree := index' } = .ok r) ∧
      ((r.hasLeader = false ∧ ∀ j aj, w.getAgent j = some aj → j ≠ i → (x j).1 < (x i).1) ∨
        ∃ j aj, w.getAgent j = some aj ∧ j ≠ i ∧ (x i).1 ≤ (x j).1 ∧ r.hasLeader = true ∧
          r.distance = gap ag.shape aj.shape (x i).1 (x j).1 ∧ r.velocity = (x j).2 ∧
          ∀ k ak, w.getAgent k = some ak → k ≠ i → (x i).1 ≤ (x k).1 → (x j).1 ≤ (x k).1) := by
  obtain ⟨hr, h0, h15, hs, hL⟩ := hg.rides i ag hi
  obtain ⟨o, index, -, f1, -, -⟩ := step_fresh (plug u) hg.wf h hi
  rw [rtreeOf_same] at f1
  have hin : ∀ j aj, w.getAgent j = some aj → Rides At w.time (x j).1 (x j).2 aj ∧ 0 ≤ (x j).1 ∧ (x j).1 ≤ L := by
    intro j aj hj
    obtain ⟨k1, -, -, k2, k3⟩ := hg.rides j aj hj
    exact ⟨k1, by linarith, by linarith⟩
  obtain ⟨r, hrel, hcase⟩ := reacts hu (w := { w with rtree := index }) hg.wf f1 hg.many (x := x) hin hg.clear hi 0 hr.action
  refine ⟨r, ?_, hcase⟩
  intro len index' h'
  rw [f1] at h'
  cases h'
  rw [observed_len hu.brake len 0]
  exact hrel

theorem same_step {u : Setup Box Lane} {lane : Lane} {L : ℝ} {At : ℝ → Pt → ℝ → Prop} (hu : Setting u lane L At) {A : Nat → Prop} {τ dt : ℝ} {w w' w1 w1' : W Box}
    {x x' : Nat → ℝ × ℝ} (hg : Good u L At (dt + τ) w x) (hg' : Good u L At (dt + τ) w' x') (ht : w.time = w'.time) (hs : Same A w w' x x')
    (hdt : 0 < dt) (hdt5 : dt ≤ 1 / 5) (hτ : 0 ≤ τ) (h : World.step (plug u) dt w = .ok w1) (h' : World.step (plug u) dt w' = .ok w1') :
    ∃ x1 x1' : Nat → ℝ × ℝ, Good u L At τ w1 x1 ∧ Good u L At τ w1' x1' ∧ w1.time = w1'.time ∧ Same A w1 w1' x1 x1' := by
  obtain ⟨x1, g1, n1, s1, o1⟩ := good_step hu hg hdt hdt5 hτ h
  obtain ⟨x1', g1', n1', s1', o1'⟩ := good_step hu hg' hdt hdt5 hτ h'
  have e1 : w1.time = w.time + dt := (Loop.step_keeps (plug u) h).1
  have e1' : w1'.time = w'.time + dt := (Loop.step_keeps (plug u) h').1
  have ex : ∀ i ag, w.getAgent i = some ag → ∃ a1, w1.getAgent i = some a1 := fun i ag hi =>
    Option.ne_none_iff_exists'.1 fun e => by rw [(n1 i).1 e] at hi; cases hi
  have ex' : ∀ i ag, w'.getAgent i = some ag → ∃ a1, w1'.getAgent i = some a1 := fun i ag hi =>
    Option.ne_none_iff_exists'.1 fun e => by rw [(n1' i).1 e] at hi; cases hi
  have back : ∀ j aj, w1.getAgent j = some aj → ∃ a, w.getAgent j = some a := fun j aj hj =>
    Option.ne_none_iff_exists'.1 fun e => by rw [(n1 j).2 e] at hj; cases hj
  have back' : ∀ j aj, w1'.getAgent j = some aj → ∃ a, w'.getAgent j = some a := fun j aj hj =>
    Option.ne_none_iff_exists'.1 fun e => by rw [(n1' j).2 e] at hj; cases hj
  have both1 : ∀ i, A i → ∃ ag ag', w1.getAgent i = some ag ∧ w1'.getAgent i = some ag' ∧ ag.shape = ag'.shape ∧ x1 i = x1' i := by
    intro i hA
    obtain ⟨ag, ag', hi, hi', hsh, hx⟩ := hs.both i hA
    obtain ⟨hr, h0, h15, hs0, hL⟩ := hg.rides i ag hi
    obtain ⟨hr', h0', h15', hs0', hL'⟩ := hg'.rides i ag' hi'
    obtain ⟨r, hrel, hcase⟩ := rel_of hu hg (by linarith) h hi
    obtain ⟨r', hrel', hcase'⟩ := rel_of hu hg' (by linarith) h' hi'
    have hsame : r.hasLeader = r'.hasLeader ∧ (r.hasLeader = true → r.velocity = r'.velocity ∧ r.distance = r'.distance) := by
      rcases hcase with ⟨c1, c2⟩ | ⟨j, aj, hj, hne, hle, c1, c2, c3, c4⟩
      · rcases hcase' with ⟨d1, d2⟩ | ⟨j', aj', hj', hne', hle', d1, d2, d3, d4⟩
        · exact ⟨c1.trans d1.symm, fun e => by rw [c1] at e; cases e⟩
        · obtain ⟨b, -, hb, -, -, hbx⟩ := hs.both j' (hs.ahead' i hA j' aj' hj' hle')
          have := c2 j' b hb hne'
          rw [hbx, hx] at this
          linarith
      · obtain ⟨-, b', -, hb', hbs, hbx⟩ := hs.both j (hs.ahead i hA j aj hj hle)
        rcases hcase' with ⟨d1, d2⟩ | ⟨j', aj', hj', hne', hle', d1, d2, d3, d4⟩
        · have := d2 j b' hb' hne
          rw [← hbx, ← hx] at this
          linarith
        · obtain ⟨b, -, hb, -, -, hbx'⟩ := hs.both j' (hs.ahead' i hA j' aj' hj' hle')
          have k1 : (x j).1 ≤ (x j').1 := c4 j' b hb hne' (by rw [hbx', hx]; exact hle')
          have k2 : (x' j').1 ≤ (x' j).1 := d4 j b' hb' hne (by rw [← hbx, ← hx]; exact hle)
          have hjj : j = j' := not_same_place hg.clear hj hb (hg.rides j aj hj).1.shape (hg.rides j' b hb).1.shape (le_antisymm k1 (by rw [hbx', hbx]; exact k2))
          subst hjj
          refine ⟨c1.trans d1.symm, fun _ => ⟨by rw [c3, d3, hbx], ?_⟩⟩
          rw [c2, d2, hsh, hx, hbx]
          obtain ⟨b0, b1, q0, q1, q2, -⟩ := hs.both j (hs.ahead i hA j aj hj hle)
          rw [hj] at q0; rw [hj'] at q1
          cases q0; cases q1
          rw [q2]
    obtain ⟨tr, z, t1, t2, t3, -, -⟩ := free_plan (r := r) hdt.le hdt5 (w.time, (x i).1, (x i).2) h0 h15
    have t1' := t1
    rw [plan_same hsame.1 hsame.2] at t1'
    obtain ⟨a1, p1, p2, p3⟩ := agent_step hu hg.wf hg.off hdt hdt5 h hi hr h0 h15 (by linarith) (by linarith) hrel t1 t2 t3
    obtain ⟨a1', p1', p2', p3'⟩ := agent_step hu hg'.wf hg'.off hdt hdt5 h' hi' hr' h0' h15' (by linarith) (by linarith) hrel'
      (by rw [← ht, ← hx]; exact t1') t2 (by rw [← ht]; exact t3)
    obtain ⟨m1, -, -, m2, m3⟩ := g1.rides i a1 p1
    obtain ⟨m1', -, -, m2', m3'⟩ := g1'.rides i a1' p1'
    obtain ⟨-, -, -, -, -, -, -, z1, z2⟩ := plan_rows (y := (w.time, (x i).1, (x i).2)) hdt.le hdt5 h0 h15 t1 t2
    dsimp only at z1 z2
    have q := rides_unique hu m1 p3 (by linarith) (by linarith) (by linarith) (by linarith)
    have q' := rides_unique hu m1' p3' (by linarith) (by linarith) (by linarith) (by linarith)
    exact ⟨a1, a1', p1, p1', by rw [p2, p2', hsh], Prod.ext (q.1.trans q'.1.symm) (q.2.trans q'.2.symm)⟩
  refine ⟨x1, x1', g1, g1', by rw [e1, e1', ht], both1, ?_, ?_⟩
  · intro i hA j aj hj hle
    by_contra hn
    obtain ⟨ai, -, hi, -⟩ := hs.both i hA
    obtain ⟨b, hb⟩ := back j aj hj
    obtain ⟨a1, h1⟩ := ex i ai hi
    have hne : i ≠ j := by rintro rfl; exact hn hA
    have hlt : (x j).1 ≤ (x i).1 := by
      by_contra hc
      exact hn (hs.ahead i hA j b hb (by linarith))
    have := o1 j i b ai hb hi hne.symm hlt
    exact hne (not_same_place g1.clear h1 hj (g1.rides i a1 h1).1.shape (g1.rides j aj hj).1.shape (le_antisymm hle this))
  · intro i hA j aj hj hle
    by_contra hn
    obtain ⟨-, ai, -, hi, -⟩ := hs.both i hA
    obtain ⟨b, hb⟩ := back' j aj hj
    obtain ⟨a1, h1⟩ := ex' i ai hi
    have hne : i ≠ j := by rintro rfl; exact hn hA
    have hlt : (x' j).1 ≤ (x' i).1 := by
      by_contra hc
      exact hn (hs.ahead' i hA j b hb (by linarith))
    have := o1' j i b ai hb hi hne.symm hlt
    exact hne (not_same_place g1'.clear h1 hj (g1'.rides i a1 h1).1.shape (g1'.rides j aj hj).1.shape (le_antisymm hle this))

theorem same_run {u : Setup Box Lane} {lane : Lane} {L : ℝ} {At : ℝ → Pt → ℝ → Prop} (hu : Setting u lane L At) {A : Nat → Prop} (dts : List ℝ)
    (hpos : ∀ d ∈ dts, 0 < d ∧ d ≤ 1 / 5) : ∀ {w w' : W Box} {x x' : Nat → ℝ × ℝ}, Good u L At dts.sum w x → Good u L At dts.sum w' x' → w.time = w'.time → Same A w w' x x' →
    ∃ (v v' : W Box) (y y' : Nat → ℝ × ℝ), World.run (plug u) w (Loop.Spec.steps dts) = .ok v ∧ World.run (plug u) w' (Loop.Spec.steps dts) = .ok v' ∧
      Good u L At 0 v y ∧ Good u L At 0 v' y' ∧ v.time = v'.time ∧ Same A v v' y y' := by
  induction dts with
  | nil =>
    intro w w' x x' hg hg' ht hs
    exact ⟨w, w', x, x', rfl, rfl, by simpa using hg, by simpa using hg', ht, hs⟩
  | cons dt dts ih =>
    intro w w' x x' hg hg' ht hs
    obtain ⟨w1, h1, -⟩ := Props.apply_wf (plug u) hg.wf (World.Op.step dt) trivial
    obtain ⟨w1', h1', -⟩ := Props.apply_wf (plug u) hg'.wf (World.Op.step dt) trivial
    obtain ⟨hdt, hdt5⟩ := hpos dt (by simp)
    have hsum : 0 ≤ dts.sum := List.sum_nonneg fun d hd => (hpos d (by simp [hd])).1.le
    rw [List.sum_cons] at hg hg'
    obtain ⟨x1, x1', g1, g1', t1, s1⟩ := same_step hu hg hg' ht hs hdt hdt5 hsum h1 h1'
    obtain ⟨v, v', y, y', r, r', gg, gg', tt, ss⟩ := ih (fun d hd => hpos d (by simp [hd])) g1 g1' t1 s1
    refine ⟨v, v', y, y', ?_, ?_, gg, gg', tt, ss⟩
    · show (World.apply (plug u) w (.step dt) >>= fun w1 => World.run (plug u) w1 (Loop.Spec.steps dts)) = _
      rw [h1, Res.ok_bind]; exact r
    · show (World.apply (plug u) w' (.step dt) >>= fun w1 => World.run (plug u) w1 (Loop.Spec.steps dts)) = _
      rw [h1', Res.ok_bind]; exact r'

theorem dir_trig {d : Pt} {θ θ' : ℝ} (h : HasDir d θ) (h' : HasDir d θ') : Real.cos θ = Real.cos θ' ∧ Real.sin θ = Real.sin θ' := by
  obtain ⟨c, hc, rfl⟩ := h
  obtain ⟨c', hc', e⟩ := h'
  obtain ⟨e1, e2⟩ := Prod.mk.inj e
  have hcc : c = c' := by
    have k : c ^ 2 = c' ^ 2 := by
      have a1 := Real.cos_sq_add_sin_sq θ
      have a2 := Real.cos_sq_add_sin_sq θ'
      calc c ^ 2 = (c * Real.cos θ) ^ 2 + (c * Real.sin θ) ^ 2 := by linear_combination (-c ^ 2) * a1
        _ = c' ^ 2 := by rw [e1, e2]; linear_combination (c' ^ 2) * a2
    exact (sq_eq_sq₀ hc.le hc'.le).1 k
  subst hcc
  exact ⟨mul_left_cancel₀ hc.ne' e1, mul_left_cancel₀ hc.ne' e2⟩

theorem arc_point {pts : List Pt} (hp : Simple pts) {s : ℝ} {q : Pt} (h : AtArc pts s q) : pointAtS (ofArray pts) s = .ok q := by
  obtain ⟨i, a, b, t, h1, h2, t0, t1, rfl, hs⟩ := h
  have ht : TableRight (ofArray pts) := tableRight_recompute _
  have := pointAtS_on (proper_of_table ht hp.two hp.noDup) h1 h2 (table_at ht h1) (table_at ht h2) t0 t1
  rw [← this]
  congr 1
  rw [hs, show (ofArray pts).pts = pts from rfl, arc_step pts i a b h1 h2]
  ring

/-- what C216 says of either kind of lane -/
theorem agrees_run {u : Setup Box Lane} {lane : Lane} {L : ℝ} {At : ℝ → Pt → ℝ → Prop} (hu : Setting u lane L At)
    (huniq : ∀ s p p' θ θ', At s p θ → At s p' θ' → p = p' ∧ Real.cos θ = Real.cos θ' ∧ Real.sin θ = Real.sin θ') {A : Nat → Prop} (dts : List ℝ)
    (hpos : ∀ d ∈ dts, 0 < d ∧ d ≤ 1 / 5) {w w' : W Box} {x x' : Nat → ℝ × ℝ} (hg : Good u L At dts.sum w x) (hg' : Good u L At dts.sum w' x') (ht : w.time = w'.time)
    (hs : Same A w w' x x') :
    ∃ v v' : W Box, World.run (plug u) w (Loop.Spec.steps dts) = .ok v ∧ World.run (plug u) w' (Loop.Spec.steps dts) = .ok v' ∧ v.time = v'.time ∧
      ∀ i, A i → Agrees v v' i := by
  obtain ⟨v, v', y, y', r, r', g, g', tt, ss⟩ := same_run hu dts hpos hg hg' ht hs
  refine ⟨v, v', r, r', tt, fun i hA => ?_⟩
  obtain ⟨ag, ag', hi, hi', hsh, hx⟩ := ss.both i hA
  obtain ⟨p, θ, a, e⟩ := (g.rides i ag hi).1.state
  obtain ⟨p', θ', a', e'⟩ := (g'.rides i ag' hi').1.state
  rw [← hx] at a' e'
  obtain ⟨rfl, c1, c2⟩ := huniq _ _ _ _ _ a a'
  exact ⟨ag, ag', v.time, p.1, p.2, θ, θ', (y i).2, hi, hi', hsh, e, by rw [e', tt], c1, c2⟩

/-- C216 on a straight lane: two worlds of vehicles that are clear of each other agree on a group of vehicles with nothing else ahead of them; then after any number of
steps they still do, whatever else there is behind -/
theorem C216_straight {u : Setup Box Lane} {lane : Lane} {a b : Pt} (hu : Straight u lane a b) {w w' : W Box} (hw : Props.WellFormed w) (hw' : Props.WellFormed w')
    (hoff : w.removeAgents = false) (hoff' : w'.removeAgents = false) (hmany : w.agents.length ≤ u.maxAgents + 1) (hmany' : w'.agents.length ≤ u.maxAgents + 1)
    (dts : List ℝ) (hpos : ∀ d ∈ dts, 0 < d ∧ d ≤ 1 / 5) {x x' : Nat → ℝ × ℝ}
    (hride : ∀ i ag, w.getAgent i = some ag → Rides (straightAt a b) w.time (x i).1 (x i).2 ag ∧ 0 ≤ (x i).2 ∧ (x i).2 ≤ 15 ∧
      dts.sum / 20 ≤ (x i).1 ∧ (x i).1 + 16 * dts.sum ≤ pdist a b)
    (hride' : ∀ i ag, w'.getAgent i = some ag → Rides (straightAt a b) w'.time (x' i).1 (x' i).2 ag ∧ 0 ≤ (x' i).2 ∧ (x' i).2 ≤ 15 ∧
      dts.sum / 20 ≤ (x' i).1 ∧ (x' i).1 + 16 * dts.sum ≤ pdist a b)
    (hclear : AllClear w x) (hclear' : AllClear w' x') (htime : w.time = w'.time) {A : Nat → Prop} (hs : Same A w w' x x') :
    ∃ v v' : W Box, World.run (plug u) w (Loop.Spec.steps dts) = .ok v ∧ World.run (plug u) w' (Loop.Spec.steps dts) = .ok v' ∧ v.time = v'.time ∧
      ∀ i, A i → Agrees v v' i := by
  refine agrees_run (setting_straight hu) ?_ dts hpos ⟨hw, hoff, hmany, hride, hclear⟩ ⟨hw', hoff', hmany', hride', hclear'⟩ htime hs
  rintro s p p' θ θ' ⟨rfl, h⟩ ⟨rfl, h'⟩
  exact ⟨rfl, dir_trig h h'⟩

/-- C216 on a winding lane -/
theorem C216_winding {u : Setup Box Lane} {lane : Lane} {pts : List Pt} (hu : Winding u lane pts) {w w' : W Box} (hw : Props.WellFormed w) (hw' : Props.WellFormed w')
    (hoff : w.removeAgents = false) (hoff' : w'.removeAgents = false) (hmany : w.agents.length ≤ u.maxAgents + 1) (hmany' : w'.agents.length ≤ u.maxAgents + 1)
    (dts : List ℝ) (hpos : ∀ d ∈ dts, 0 < d ∧ d ≤ 1 / 5) {x x' : Nat → ℝ × ℝ}
    (hride : ∀ i ag, w.getAgent i = some ag → Rides (alongAt pts) w.time (x i).1 (x i).2 ag ∧ 0 ≤ (x i).2 ∧ (x i).2 ≤ 15 ∧
      dts.sum / 20 ≤ (x i).1 ∧ (x i).1 + 16 * dts.sum ≤ Ln.length pts)
    (hride' : ∀ i ag, w'.getAgent i = some ag → Rides (alongAt pts) w'.time (x' i).1 (x' i).2 ag ∧ 0 ≤ (x' i).2 ∧ (x' i).2 ≤ 15 ∧
      dts.sum / 20 ≤ (x' i).1 ∧ (x' i).1 + 16 * dts.sum ≤ Ln.length pts)
    (hclear : AllClear w x) (hclear' : AllClear w' x') (htime : w.time = w'.time) {A : Nat → Prop} (hs : Same A w w' x x') :
    ∃ v v' : W Box, World.run (plug u) w (Loop.Spec.steps dts) = .ok v ∧ World.run (plug u) w' (Loop.Spec.steps dts) = .ok v' ∧ v.time = v'.time ∧
      ∀ i, A i → Agrees v v' i := by
  have hp := hu.simple
  refine agrees_run (setting_winding hu) ?_ dts hpos ⟨hw, hoff, hmany, hride, hclear⟩ ⟨hw', hoff', hmany', hride', hclear'⟩ htime hs
  rintro s p p' θ θ' ⟨h1, h2⟩ ⟨h1', h2'⟩
  have e := arc_point hp h1
  rw [arc_point hp h1'] at e
  injection e with e
  refine ⟨e.symm, ?_⟩
  obtain ⟨τ, ht, -⟩ := C61_tangent (l := ofArray pts) (tableRight_recompute _) hp.two hp.noDup s
  obtain ⟨d, k1, k2⟩ := heading_dir hp h2 ht
  obtain ⟨d', k1', k2'⟩ := heading_dir hp h2' ht
  obtain ⟨q1, q2⟩ := dir_trig k1 k2
  obtain ⟨q1', q2'⟩ := dir_trig k1' k2'
  exact ⟨q1.trans q1'.symm, q2.trans q2'.symm⟩

/-- the first two of `three`, with another one behind, further away and standing -/
noncomputable def other : W ℝ := traffic [(0, mover 0 300 0), (1, mover 1 220 15), (5, mover 5 100 0)]

theorem other_get {i : Nat} {ag} (h : other.getAgent i = some ag) : (i = 0 ∧ ag = mover 0 300 0) ∨ (i = 1 ∧ ag = mover 1 220 15) ∨ (i = 5 ∧ ag = mover 5 100 0) := by
  have hm := OMap.find_some_mem h
  simpa only [other, traffic, List.mem_cons, List.not_mem_nil, or_false, Prod.mk.injEq] using hm

theorem other_wf : Props.WellFormed other := by
  refine ⟨by simp [OMap.Sorted, other, traffic], ?_, by simp [other, traffic]⟩
  intro id a h
  rcases other_get h with ⟨rfl, rfl⟩ | ⟨rfl, rfl⟩ | ⟨rfl, rfl⟩ <;> simp [mover]

/-- the hypotheses are met: up to 40 s the one approaching the standing one never notices who follows -/
example (n : Nat) (hn : n ≤ 200) : ∃ v v' : W ℝ, World.run (plug road) three (Loop.Spec.steps (List.replicate n (1 / 5))) = .ok v ∧
    World.run (plug road) other (Loop.Spec.steps (List.replicate n (1 / 5))) = .ok v' ∧ Agrees v v' 1 := by
  have hsum : (List.replicate n (1 / 5 : ℝ)).sum = n / 5 := by rw [List.sum_replicate]; simp; ring
  have hn' : (n : ℝ) ≤ 200 := by exact_mod_cast hn
  have hn0 : (0 : ℝ) ≤ n := Nat.cast_nonneg n
  obtain ⟨v, v', h1, h2, -, h3⟩ := C216_straight road_straight three_wf other_wf rfl rfl (by decide) (by decide) (List.replicate n (1 / 5))
    (by intro d hd; rw [List.eq_of_mem_replicate hd]; norm_num) (x := fun i => if i = 0 then (300, 0) else if i = 1 then (220, 15) else (215, 14))
    (x' := fun i => if i = 0 then (300, 0) else if i = 1 then (220, 15) else (100, 0)) (A := fun i => i = 0 ∨ i = 1)
    (by
      intro i ag h
      rw [hsum, road_len]
      rcases three_get h with ⟨rfl, rfl⟩ | ⟨rfl, rfl⟩ | ⟨rfl, rfl⟩
      · exact ⟨mover_rides _ _ _, by norm_num, by norm_num, by norm_num; linarith, by norm_num; linarith⟩
      · exact ⟨mover_rides _ _ _, by norm_num, by norm_num, by norm_num; linarith, by norm_num; linarith⟩
      · exact ⟨mover_rides _ _ _, by norm_num, by norm_num, by norm_num; linarith, by norm_num; linarith⟩)
    (by
      intro i ag h
      rw [hsum, road_len]
      rcases other_get h with ⟨rfl, rfl⟩ | ⟨rfl, rfl⟩ | ⟨rfl, rfl⟩
      · exact ⟨mover_rides _ _ _, by norm_num, by norm_num, by norm_num; linarith, by norm_num; linarith⟩
      · exact ⟨mover_rides _ _ _, by norm_num, by norm_num, by norm_num; linarith, by norm_num; linarith⟩
      · exact ⟨mover_rides _ _ _, by norm_num, by norm_num, by norm_num; linarith, by norm_num; linarith⟩)
    (by
      intro i j ai aj hi hj hij hle
      rcases three_get hi with ⟨rfl, rfl⟩ | ⟨rfl, rfl⟩ | ⟨rfl, rfl⟩ <;> rcases three_get hj with ⟨rfl, rfl⟩ | ⟨rfl, rfl⟩ | ⟨rfl, rfl⟩ <;>
        first
        | exact absurd rfl hij
        | (norm_num at hle; done)
        | (unfold Loop.Spec.Clear gap mover block; norm_num))
    (by
      intro i j ai aj hi hj hij hle
      rcases other_get hi with ⟨rfl, rfl⟩ | ⟨rfl, rfl⟩ | ⟨rfl, rfl⟩ <;> rcases other_get hj with ⟨rfl, rfl⟩ | ⟨rfl, rfl⟩ | ⟨rfl, rfl⟩ <;>
        first
        | exact absurd rfl hij
        | (norm_num at hle; done)
        | (unfold Loop.Spec.Clear gap mover block; norm_num))
    rfl
    ⟨by
      rintro i (rfl | rfl)
      · exact ⟨_, _, rfl, rfl, rfl, rfl⟩
      · exact ⟨_, _, rfl, rfl, rfl, rfl⟩,
     by
      rintro i (rfl | rfl) j aj hj hle <;> rcases three_get hj with ⟨rfl, rfl⟩ | ⟨rfl, rfl⟩ | ⟨rfl, rfl⟩ <;>
        first | exact Or.inl rfl | exact Or.inr rfl | (exfalso; norm_num at hle; done),
     by
      rintro i (rfl | rfl) j aj hj hle <;> rcases other_get hj with ⟨rfl, rfl⟩ | ⟨rfl, rfl⟩ | ⟨rfl, rfl⟩ <;>
        first | exact Or.inl rfl | exact Or.inr rfl | (exfalso; norm_num at hle; done)⟩
  exact ⟨v, v', h1, h2, h3 1 (Or.inr rfl)⟩

end Bark.Flow
