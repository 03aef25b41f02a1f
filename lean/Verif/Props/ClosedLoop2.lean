import Verif.Props.ClosedLoop
import Verif.Props.ActionDriven
import Verif.Props.Idm
import Mathlib.Tactic.FieldSimp

/-!
C181, C182: driving with a constant acceleration or with the IDM in a simulation.
-/
set_option linter.unusedSectionVars false
namespace Bark.Loop
open Bark World

section
variable {St Ac B E Sh Box O : Type}
variable {P : Plug ℝ St Ac B E Sh Box O} {lane : World ℝ St Ac B E Sh Box O → Nat → Bool}
  {traj : World ℝ St Ac B E Sh Box O → Nat → ℝ → ℝ × ℝ × ℝ → Res (List (ℝ × ℝ × ℝ))}
  {behav : Drive → B} {exec : Res (Interp.Exec (ℝ × ℝ × ℝ)) → E} {st : ℝ × ℝ × ℝ → St}

theorem drive_step (hP : Spec.Drives P lane traj behav exec st) {w w' : World ℝ St Ac B E Sh Box O} (hw : Props.WellFormed w) {dt : ℝ}
    (h : step P dt w = .ok w') {id : Nat} {a : Agent ℝ St Ac B E Sh} (ha : w.getAgent id = some a) {x : ℝ × ℝ × ℝ} (hdt : 0 < dt)
    (hi : Spec.Driving w.time behav exec st x a) (hx : x.1 = w.time) :
    ∃ obs : World ℝ St Ac B E Sh Box O, (∃ o index, obs = (P.observe o { w with rtree := index } id).2) ∧ obs.time = w.time ∧
      (lane obs id = false → w'.getAgent id = none) ∧
      ∀ tr z, lane obs id = true → traj obs id dt x = .ok tr → tr.head? = some x → tr.getLast? = some z → z.1 = w.time + dt →
        (∀ a', w'.getAgent id = some a' → Spec.Driving w'.time behav exec st z a') ∧
        (w.removeAgents = false → w'.getAgent id ≠ none) := by
  obtain ⟨o, index, s, hs, hd, hn⟩ := step_agent P hw h ha
  obtain ⟨hact0, ⟨b, hb⟩, ⟨e, he, hes⟩, hcs⟩ := hi
  have ht := (step_keeps P h).1
  set obs := (P.observe o { w with rtree := index } id).2 with hobs
  have hot : obs.time = w.time := hP.clock _ _ _
  have hself : obs.getAgent id = some a := by rw [hobs, hP.self]; exact ha
  have hact' : a.firstValid ≤ w.time + 1 / 2 ^ 52 := by
    have : (0 : ℝ) < 1 / 2 ^ 52 := by positivity
    linarith
  have hplan : P.plan a.behavior dt obs id = behav (drive (lane obs id) (traj obs id dt x) b) := by
    rw [hb]; exact hP.plan b dt obs id a x hself hcs
  refine ⟨obs, ⟨o, index, rfl⟩, hot, fun hl => ?_, fun tr z hl htr hh hz hz1 => ?_⟩
  · apply hd
    left
    have : (Bark.Spec.planned P w.time dt obs id a).behavior = behav (drive (lane obs id) (traj obs id dt x) b) := by
      unfold Bark.Spec.planned
      rw [if_pos hact', hplan]
    rw [this, hP.status, hl]
    rfl
  · have hdr : drive (lane obs id) (traj obs id dt x) b = ⟨.valid, .ok tr⟩ := by unfold drive; rw [if_pos hl, htr]
    rw [hdr] at hplan
    have hpl : Bark.Spec.planned P w.time dt obs id a =
        { a with behavior := behav ⟨.valid, .ok tr⟩, exec := exec (.ok ⟨some z, tr, .valid⟩) } := by
      unfold Bark.Spec.planned
      rw [if_pos hact', hplan, hP.status, if_pos rfl, he, hP.execute]
      unfold carryOut
      dsimp only
      have hex := Interp.C17_last_stamp (LinearMap.fst ℝ ℝ (ℝ × ℝ)) e hes tr x z hh hz (by
        show x.1 < z.1
        linarith)
      have : (LinearMap.fst ℝ ℝ (ℝ × ℝ)) z = w.time + dt := hz1
      rw [this] at hex
      rw [hex]
    rw [hpl] at hd hn
    have hhist : a.history ≠ [] := (hw.2.1 id a ha).1
    have hcond : (a.firstValid ≤ w.time + 1 / 2 ^ 52 ∧ P.status (behav ⟨.valid, .ok tr⟩) = .valid ∧
        P.execStatus (exec (.ok ⟨some z, tr, .valid⟩)) = .valid) := ⟨hact', by rw [hP.status], by rw [hP.execStatus]⟩
    have hcur := moved_current P w.time { a with behavior := behav ⟨.valid, .ok tr⟩, exec := exec (.ok ⟨some z, tr, .valid⟩) } hhist hcond
    dsimp only at hcur
    rw [hP.executed _ z rfl] at hcur
    have hmb : Bark.Spec.moved P w.time { a with behavior := behav ⟨.valid, .ok tr⟩, exec := exec (.ok ⟨some z, tr, .valid⟩) } =
        { a with behavior := behav ⟨.valid, .ok tr⟩, exec := exec (.ok ⟨some z, tr, .valid⟩), history := (Bark.Spec.moved P w.time
          { a with behavior := behav ⟨.valid, .ok tr⟩, exec := exec (.ok ⟨some z, tr, .valid⟩) }).history } := by
      unfold Bark.Spec.moved
      rw [if_pos hcond]
    constructor
    · intro a' ha'
      by_cases hc : Bark.Spec.dropped P w (P.envelope a.shape s)
            { a with behavior := behav ⟨.valid, .ok tr⟩, exec := exec (.ok ⟨some z, tr, .valid⟩) }
      · rw [hd hc] at ha'; cases ha'
      · rw [hn hc] at ha'
        cases ha'
        refine ⟨?_, ?_, ?_, hcur⟩
        · rw [hmb, ht]; dsimp only; linarith
        · rw [hmb]; exact ⟨_, rfl⟩
        · rw [hmb]; exact ⟨_, rfl, rfl⟩
    · intro hoff
      rw [hn]
      · simp
      · rintro (h1 | ⟨h1, -⟩)
        · rw [hP.status] at h1; cases h1
        · rw [hoff] at h1; cases h1

theorem run_time {w w' : World ℝ St Ac B E Sh Box O} (hw : Props.WellFormed w) (dts : List ℝ)
    (hpos : ∀ d ∈ dts, 0 < d) (h : run P w (Spec.steps dts) = .ok w') : w.time ≤ w'.time := by
  obtain ⟨w2, r1, r2⟩ := C180_clock P hw dts
  rw [h] at r1; cases r1
  rw [r2]; unfold Spec.timeAt; rw [List.take_length]
  have : 0 ≤ dts.sum := List.sum_nonneg fun d hd => (hpos d hd).le
  linarith

/-- a property of the driven rows that every planned trajectory hands on holds after any run -/
theorem drive_run (hP : Spec.Drives P lane traj behav exec st) {w w' : World ℝ St Ac B E Sh Box O} (hw : Props.WellFormed w) (dts : List ℝ)
    (hpos : ∀ d ∈ dts, 0 < d) (h : run P w (Spec.steps dts) = .ok w') {id : Nat} {a : Agent ℝ St Ac B E Sh} (ha : w.getAgent id = some a)
    {x : ℝ × ℝ × ℝ} (hi : Spec.Driving w.time behav exec st x a) (hx : x.1 = w.time) (Inv : ℝ × ℝ × ℝ → Prop) (hinv : Inv x)
    (hnext : ∀ (obs : World ℝ St Ac B E Sh Box O), ∀ dt ∈ dts, ∀ y, 0 < dt → obs.time = y.1 → y.1 + dt ≤ w'.time → Inv y → lane obs id = true →
      ∃ tr z, traj obs id dt y = .ok tr ∧ tr.head? = some y ∧ tr.getLast? = some z ∧ z.1 = y.1 + dt ∧ Inv z) :
    (∀ a', w'.getAgent id = some a' → ∃ z, Spec.Driving w'.time behav exec st z a' ∧ z.1 = w'.time ∧ Inv z) ∧
    (w.removeAgents = false → (∀ obs, lane obs id = true) → w'.getAgent id ≠ none) ∧ w.time ≤ w'.time := by
  induction dts generalizing w a x with
  | nil =>
    unfold Spec.steps run at h; cases h
    refine ⟨fun a' ha' => ?_, fun _ _ => by rw [ha]; simp, le_refl _⟩
    rw [ha] at ha'; cases ha'
    exact ⟨x, hi, hx, hinv⟩
  | cons dt dts ih =>
    unfold Spec.steps at h
    rw [List.map_cons] at h
    unfold run at h
    obtain ⟨w1, h1, h2⟩ := Res.bind_ok h
    obtain ⟨w1', h1', hw1⟩ := Props.apply_wf P hw (Op.step dt) trivial
    rw [h1] at h1'; cases h1'
    have h1s : step P dt w = .ok w1 := h1
    obtain ⟨ht, hrm⟩ := step_keeps P h1s
    have hdt : 0 < dt := hpos dt (by simp)
    have hle : w1.time ≤ w'.time := run_time hw1 dts (fun d hd => hpos d (List.mem_cons_of_mem _ hd)) h2
    obtain ⟨obs, -, ho, hno, hyes⟩ := drive_step hP hw h1s ha hdt hi hx
    cases hl : lane obs id with
    | false =>
      have hnone := run_none dts hw1 h2 (hno hl)
      refine ⟨fun a' ha' => ?_, fun _ hall => ?_, by linarith⟩
      · rw [hnone] at ha'; cases ha'
      · rw [hall obs] at hl; cases hl
    | true =>
      obtain ⟨tr, z, t1, t2, t3, t4, t5⟩ := hnext obs dt (by simp) x hdt (by rw [ho, hx]) (by rw [hx]; linarith) hinv hl
      obtain ⟨s1, s2⟩ := hyes tr z hl t1 t2 t3 (by rw [t4, hx])
      cases hg : w1.getAgent id with
      | none =>
        have hnone := run_none dts hw1 h2 hg
        refine ⟨fun a' ha' => ?_, fun hoff _ => absurd hg (s2 hoff), by linarith⟩
        rw [hnone] at ha'; cases ha'
      | some a1 =>
        obtain ⟨i1, i2, i3⟩ := ih hw1 (fun d hd => hpos d (List.mem_cons_of_mem _ hd)) h2 hg (s1 a1 hg) (by rw [t4, hx, ht]) t5
          fun obs d hd => hnext obs d (List.mem_cons_of_mem _ hd)
        exact ⟨i1, fun hoff => i2 (by rw [hrm]; exact hoff), by linarith⟩

/-! ### constant acceleration -/

theorem caLoop_limits (lo hi a start dt : ℝ) (hlh : lo ≤ hi) : ∀ (k i : Nat) (s v : ℝ), ∀ x ∈ Bark.Act.caLoop lo hi a start dt k i s v, lo ≤ x.v ∧ x.v ≤ hi
  | 0, i, s, v => fun x hx => by simp [Bark.Act.caLoop] at hx
  | k + 1, i, s, v => fun x hx => by
    simp only [Bark.Act.caLoop, List.mem_cons] at hx
    rcases hx with rfl | hx
    · exact ⟨le_max_right _ _, max_le (min_le_right _ _) hlh⟩
    · exact caLoop_limits lo hi a start dt hlh k (i + 1) _ _ x hx

theorem planConst_spec (lo hi a : ℝ) (hlh : lo ≤ hi) {T : ℝ} (hT : 0 < T) {n : Nat} (hn : 2 ≤ n) (y : ℝ × ℝ × ℝ) :
    ∃ z, (planConst lo hi a n y.1 T y).head? = some y ∧ (planConst lo hi a n y.1 T y).getLast? = some z ∧ z.1 = y.1 + T ∧
      (lo ≤ z.2.2 ∧ z.2.2 ≤ hi) ∧
      ((∀ τ, 0 ≤ τ → τ ≤ T → lo ≤ y.2.2 + a * τ ∧ y.2.2 + a * τ ≤ hi) → Spec.Uniform a y z) := by
  obtain ⟨l, e, hlen, hhead, -, htimes, hun⟩ := Bark.Act.C51_constant_acceleration lo hi a hT hn (row y)
  have e2 : planConst lo hi a n y.1 T y = l.map vec := by
    unfold planConst
    have : (row y).t = y.1 := rfl
    rw [this] at e
    rw [e]
  have hne : l ≠ [] := by rintro rfl; simp at hhead
  have hlast : l.getLast? = some (l.getLast hne) := List.getLast?_eq_some_getLast hne
  refine ⟨vec (l.getLast hne), ?_, ?_, ?_, ?_, ?_⟩
  · rw [e2, List.head?_map, hhead]; rfl
  · rw [e2, List.getLast?_map, hlast]; rfl
  · rw [List.getLast_eq_getElem]
    show (l[l.length - 1]).t = _
    rw [htimes (l.length - 1) (by omega), hlen]
    have hn1 : (n : ℝ) - 1 ≠ 0 := by
      have : (2 : ℝ) ≤ n := by exact_mod_cast hn
      linarith
    have : ((n - 1 : ℕ) : ℝ) = (n : ℝ) - 1 := by rw [Nat.cast_sub (by omega)]; simp
    rw [this]
    show y.1 + _ = _
    field_simp
  · have hcons : l = row y :: Bark.Act.caLoop lo hi a y.1 (T / ((n : ℝ) - 1)) (n - 1) 1 (row y).s (row y).v := (Prod.mk.inj e).2.symm
    have hne2 : Bark.Act.caLoop lo hi a y.1 (T / ((n : ℝ) - 1)) (n - 1) 1 (row y).s (row y).v ≠ [] := by
      intro h0
      rw [h0] at hcons; rw [hcons] at hlen; simp at hlen; omega
    have : l.getLast hne ∈ Bark.Act.caLoop lo hi a y.1 (T / ((n : ℝ) - 1)) (n - 1) 1 (row y).s (row y).v := by
      simp only [hcons, List.getLast_cons hne2]
      exact List.getLast_mem hne2
    exact caLoop_limits lo hi a _ _ hlh _ _ _ _ _ this
  · intro hlim
    obtain ⟨u1, u2⟩ := hun hlim (l.getLast hne) (List.getLast_mem hne)
    exact ⟨u1, u2⟩

/-- C181: a simulation in which an agent drives with the constant acceleration `c`: whatever the other agents do, after any steps, its state carries the
world time and its velocity is within the limits; as long as the limits are not reached the motion is uniformly accelerated, whatever the step sizes and
the number of trajectory points. With a lane corridor it stays in the simulation (unless removal of agents outside the map is on). -/
theorem C181_constant_acceleration {lo hi c : ℝ} (hlh : lo ≤ hi) {n : Nat} (hn : 2 ≤ n)
    (hP : Spec.Drives P lane (fun obs _ dt x => .ok (planConst lo hi c n obs.time dt x)) behav exec st)
    {w w' : World ℝ St Ac B E Sh Box O} (hw : Props.WellFormed w) (dts : List ℝ) (hpos : ∀ d ∈ dts, 0 < d)
    (h : run P w (Spec.steps dts) = .ok w') {id : Nat} {a : Agent ℝ St Ac B E Sh} (ha : w.getAgent id = some a)
    {x : ℝ × ℝ × ℝ} (hi' : Spec.Driving w.time behav exec st x a) (hx : x.1 = w.time) (hv : lo ≤ x.2.2 ∧ x.2.2 ≤ hi) :
    (∀ a', w'.getAgent id = some a' → ∃ z, a'.currentState = .ok (st z) ∧ z.1 = w'.time ∧ (lo ≤ z.2.2 ∧ z.2.2 ≤ hi) ∧
      ((∀ τ, 0 ≤ τ → τ ≤ dts.sum → lo ≤ x.2.2 + c * τ ∧ x.2.2 + c * τ ≤ hi) → Spec.Uniform c x z)) ∧
    (w.removeAgents = false → (∀ obs, lane obs id = true) → w'.getAgent id ≠ none) := by
  have htime : w'.time = w.time + dts.sum := by
    obtain ⟨w2, r1, r2⟩ := C180_clock P hw dts
    rw [h] at r1; cases r1
    rw [r2]; unfold Spec.timeAt; rw [List.take_length]
  obtain ⟨r1, r2, -⟩ := drive_run hP hw dts hpos h ha hi' hx
    (fun z => x.1 ≤ z.1 ∧ (lo ≤ z.2.2 ∧ z.2.2 ≤ hi) ∧
      ((∀ τ, 0 ≤ τ → τ ≤ dts.sum → lo ≤ x.2.2 + c * τ ∧ x.2.2 + c * τ ≤ hi) → Spec.Uniform c x z))
    ⟨le_refl _, hv, fun _ => ⟨by ring, by ring⟩⟩ (by
      intro obs dt hmem y hdt hoy hyd ⟨i0, i1, i2⟩ hl
      obtain ⟨z, p1, p2, p3, p4, p5⟩ := planConst_spec lo hi c hlh hdt hn y
      rw [hoy]
      refine ⟨_, z, rfl, p1, p2, p3, by rw [p3]; linarith, p4, fun hlim => ?_⟩
      obtain ⟨u1, u2⟩ := i2 hlim
      obtain ⟨q1, q2⟩ := p5 (by
        intro τ h0 h1
        have := hlim (y.1 - x.1 + τ) (by linarith) (by linarith)
        rw [u1]
        constructor <;> linarith [this.1, this.2])
      refine ⟨?_, ?_⟩
      · rw [q1, u1]; ring
      · rw [q2, u2, u1]; ring)
  refine ⟨fun a' ha' => ?_, r2⟩
  obtain ⟨z, d, e1, -, e2, e3⟩ := r1 a' ha'
  exact ⟨z, d.2.2.2, e1, e2, e3⟩

/-- C181: an agent that drives without a lane corridor is removed in the next step, whatever it planned before -/
theorem C181_no_lane {w w' : World ℝ St Ac B E Sh Box O} (hP : Spec.Drives P lane traj behav exec st) (hw : Props.WellFormed w) {dt : ℝ} (hdt : 0 < dt)
    (dts : List ℝ) (h : run P w (Spec.steps (dt :: dts)) = .ok w') {id : Nat} {a : Agent ℝ St Ac B E Sh} (ha : w.getAgent id = some a)
    {x : ℝ × ℝ × ℝ} (hi : Spec.Driving w.time behav exec st x a) (hx : x.1 = w.time) (hl : ∀ obs, lane obs id = false) : w'.getAgent id = none := by
  unfold Spec.steps at h
  rw [List.map_cons] at h
  unfold run at h
  obtain ⟨w1, h1, h2⟩ := Res.bind_ok h
  obtain ⟨w1', h1', hw1⟩ := Props.apply_wf P hw (Op.step dt) trivial
  rw [h1] at h1'; cases h1'
  obtain ⟨obs, -, -, hno, -⟩ := drive_step hP hw h1 ha hdt hi hx
  exact run_none dts hw1 h2 (hno (hl obs))

/-! ### IDM -/

theorem total_finite {p : Idm.Params} (hp : Idm.Spec.Sane p) {r : Idm.Rel} {v : ℝ} (hr : p.coolness = 0 ∨ 0 ≤ r.velocity * v) :
    ∀ rel, ∃ a, Idm.totalAcc p r v rel = .ok (.fin a) := by
  intro rel
  obtain ⟨a, ha, -⟩ := Idm.C21_acc_within_bounds hp r v rel (fun _ hs => by
    rcases hr with hc | hr
    · exact absurd hs.1 (by rw [hc]; exact lt_irrefl _)
    · exact absurd hs.2.2.1 (not_lt.2 hr))
  exact ⟨a, ha⟩

theorem genLoop_finite {p : Idm.Params} {r : Idm.Rel} {start dt v0 : ℝ} (hf : ∀ rel, ∃ a, Idm.totalAcc p r v0 rel = .ok (.fin a)) (n : Nat) :
    ∀ (i : Nat) (s v rel : ℝ), ∃ l, Idm.genLoop p r start dt v0 n i s v rel = .ok l := by
  induction n with
  | zero => intro i s v rel; exact ⟨[], rfl⟩
  | succ n ih =>
    intro i s v rel
    obtain ⟨a, ha⟩ := hf rel
    unfold Idm.genLoop
    rw [ha]
    dsimp only
    obtain ⟨l, hl⟩ := ih (i + 1) (s + (1 / 2 * a * dt * dt + v * dt)) (max (min (v + a * dt) p.maxVel) p.minVel)
      (Idm.nextDist r v0 rel a dt)
    rw [hl]
    exact ⟨_, rfl⟩

theorem planIdm_spec {p : Idm.Params} (hp : Idm.Spec.Sane p) (hn : 2 ≤ p.numPoints) (hm : p.minVel ≤ p.maxVel) {r : Idm.Rel} {T : ℝ}
    (y : ℝ × ℝ × ℝ) (hr : p.coolness = 0 ∨ 0 ≤ r.velocity * y.2.2) :
    ∃ tr z, planIdm p r y.1 T y = .ok tr ∧ tr.head? = some y ∧ tr.getLast? = some z ∧ z.1 = y.1 + T ∧ p.minVel ≤ z.2.2 ∧ z.2.2 ≤ p.maxVel := by
  obtain ⟨l, e⟩ := genLoop_finite (start := y.1) (dt := Idm.stepSize p T) (total_finite hp hr) (p.numPoints - 1) 1 y.2.1 y.2.2 r.distance
  obtain ⟨h1, h2⟩ := Idm.genLoop_spec _ _ _ _ _ e
  have hne : l ≠ [] := by rintro rfl; simp at h1; omega
  have hk : l.length - 1 < l.length := by omega
  obtain ⟨k1, k2, k3⟩ := h2 (l.length - 1) hk
  refine ⟨y :: l.map fun x => vec x.2, vec (l[l.length - 1]).2, ?_, rfl, ?_, ?_, k2, k3 hm⟩
  · unfold planIdm Idm.generate; rw [e]
  · rw [List.getLast?_cons, List.getLast?_map, List.getLast?_eq_some_getLast hne, List.getLast_eq_getElem]
    rfl
  · show (l[l.length - 1]).2.t = _
    rw [k1, h1, Idm.stepSize]
    have : (1 + (p.numPoints - 1 - 1)) = p.numPoints - 1 := by omega
    rw [this]
    have hnp : ((p.numPoints - 1 : ℕ) : ℝ) = (p.numPoints : ℝ) - 1 := by
      rw [Nat.cast_sub (by omega)]; norm_num
    have hne0 : (p.numPoints : ℝ) - 1 ≠ 0 := by
      have : (2 : ℝ) ≤ p.numPoints := by exact_mod_cast hn
      linarith
    rw [hnp, mul_div_cancel₀ _ hne0, add_comm]

/-- C182: a simulation in which an agent drives with the IDM: whatever the other agents do and whatever vehicle it follows at each step (not moving
backwards if the constant acceleration heuristic is on), after any steps planning never failed, its state carries the world time, and its velocity is within the limits -/
theorem C182_idm {p : Idm.Params} (hp : Idm.Spec.Sane p) (hn : 2 ≤ p.numPoints) (h0 : 0 ≤ p.minVel) (hm : p.minVel ≤ p.maxVel)
    {rel : World ℝ St Ac B E Sh Box O → Nat → Idm.Rel} (hrel : p.coolness = 0 ∨ ∀ obs id, 0 ≤ (rel obs id).velocity)
    (hP : Spec.Drives P lane (fun obs id dt x => planIdm p (rel obs id) obs.time dt x) behav exec st)
    {w w' : World ℝ St Ac B E Sh Box O} (hw : Props.WellFormed w) (dts : List ℝ) (hpos : ∀ d ∈ dts, 0 < d)
    (h : run P w (Spec.steps dts) = .ok w') {id : Nat} {a : Agent ℝ St Ac B E Sh} (ha : w.getAgent id = some a)
    {x : ℝ × ℝ × ℝ} (hi' : Spec.Driving w.time behav exec st x a) (hx : x.1 = w.time) (hv : p.minVel ≤ x.2.2 ∧ x.2.2 ≤ p.maxVel) :
    (∀ a', w'.getAgent id = some a' → ∃ z, a'.currentState = .ok (st z) ∧ z.1 = w'.time ∧ p.minVel ≤ z.2.2 ∧ z.2.2 ≤ p.maxVel) ∧
    (w.removeAgents = false → (∀ obs, lane obs id = true) → w'.getAgent id ≠ none) := by
  obtain ⟨r1, r2, -⟩ := drive_run hP hw dts hpos h ha hi' hx (fun z => p.minVel ≤ z.2.2 ∧ z.2.2 ≤ p.maxVel) hv (by
      intro obs dt hmem y hdt hoy hyd i1 hl
      rw [hoy]
      exact planIdm_spec hp hn hm y (hrel.imp (fun e => e) fun hr => mul_nonneg (hr obs _) (le_trans h0 i1.1)))
  refine ⟨fun a' ha' => ?_, r2⟩
  obtain ⟨z, d, e1, e2⟩ := r1 a' ha'
  exact ⟨z, d.2.2.2, e1, e2⟩

end

/-! ### instances -/

/-- models of vehicles that drive along their corridor -/
noncomputable def drivePlug (lane : World ℝ (ℝ × ℝ × ℝ) Unit Drive (Res (Interp.Exec (ℝ × ℝ × ℝ))) Unit Unit Unit → Nat → Bool)
    (traj : World ℝ (ℝ × ℝ × ℝ) Unit Drive (Res (Interp.Exec (ℝ × ℝ × ℝ))) Unit Unit Unit → Nat → ℝ → ℝ × ℝ × ℝ → Res (List (ℝ × ℝ × ℝ))) :
    Plug ℝ (ℝ × ℝ × ℝ) Unit Drive (Res (Interp.Exec (ℝ × ℝ × ℝ))) Unit Unit Unit :=
  { status := fun b => b.status
    lastAction := fun _ => ()
    plan := fun b dt obs id =>
      match obs.getAgent id with
      | none => b
      | some a => match a.currentState with
        | .error _ => b
        | .ok x => drive (lane obs id) (traj obs id dt x) b
    execute := fun e t b => carryOut (LinearMap.fst ℝ ℝ (ℝ × ℝ)) t b.traj e
    execStatus := fun e => match e with | .ok e => e.status | .error _ => .invalid
    executedState := fun e => match e with | .ok e => e.state.getD (0, 0, 0) | .error _ => (0, 0, 0)
    observe := fun o w _ => (o, w)
    envelope := fun _ _ => ()
    within := fun _ _ => true }

theorem drivePlug_drives (lane) (traj) : Spec.Drives (drivePlug lane traj) lane traj (fun b => b) (fun e => e) (fun v => v) :=
  ⟨fun b dt obs id a x h1 h2 => by
    show (match obs.getAgent id with
      | none => b
      | some a => match a.currentState with
        | .error _ => b
        | .ok x => drive (lane obs id) (traj obs id dt x) b) = _
    rw [h1]
    dsimp only
    rw [h2], fun _ => rfl, fun _ _ _ => rfl, fun _ => rfl, fun e v h => by
    show e.state.getD (0, 0, 0) = v
    rw [h]; rfl, fun _ _ _ => rfl, fun _ _ _ => rfl⟩

/-- a vehicle at the start with a given velocity -/
noncomputable def driven (id : Nat) (s v : ℝ) : Agent ℝ (ℝ × ℝ × ℝ) Unit Drive (Res (Interp.Exec (ℝ × ℝ × ℝ))) Unit :=
  ⟨id, ⟨.valid, .ok []⟩, .ok ⟨none, [], .valid⟩, [((0, s, v), ())], 5, 0, ()⟩

noncomputable def drivenWorld : World ℝ (ℝ × ℝ × ℝ) Unit Drive (Res (Interp.Exec (ℝ × ℝ × ℝ))) Unit Unit Unit :=
  { agents := [(0, driven 0 0 10), (1, driven 1 50 12)], time := 0, rtree := [], removeAgents := false, mapBox := none, observer := () }

theorem drivenWorld_wf : Props.WellFormed drivenWorld := by
  refine ⟨by simp [OMap.Sorted, drivenWorld], ?_, by simp [drivenWorld]⟩
  intro id a h
  have hm := OMap.find_some_mem h
  simp only [drivenWorld, List.mem_cons, List.not_mem_nil, or_false, Prod.mk.injEq] at hm
  rcases hm with ⟨rfl, rfl⟩ | ⟨rfl, rfl⟩ <;> simp [driven]

/-- the hypotheses of C181 hold: two vehicles drive with 1 m/s², between 0 and 30 m/s, for steps of 0.2 s and 0.3 s -/
example : ∃ w', run (drivePlug (fun _ _ => true) fun obs _ dt x => .ok (planConst 0 30 1 10 obs.time dt x)) drivenWorld
      (Spec.steps [1/5, 3/10]) = .ok w' ∧ ∃ a', w'.getAgent 0 = some a' ∧ a'.currentState = .ok (1/2, 5 + 1/8, 10 + 1/2) := by
  obtain ⟨w', h, ht⟩ := C180_clock (drivePlug (fun _ _ => true) fun obs _ dt x => .ok (planConst 0 30 1 10 obs.time dt x)) drivenWorld_wf [1/5, 3/10]
  have hpos : ∀ d ∈ ([1/5, 3/10] : List ℝ), 0 < d := by
    intro d hd
    simp only [List.mem_cons, List.not_mem_nil, or_false] at hd
    rcases hd with rfl | rfl <;> norm_num
  obtain ⟨r1, r2⟩ := C181_constant_acceleration (by norm_num) (by norm_num) (drivePlug_drives _ _) drivenWorld_wf [1/5, 3/10] hpos h (id := 0)
    (a := driven 0 0 10) rfl (x := (0, 0, 10)) ⟨le_refl _, ⟨_, rfl⟩, ⟨_, rfl, rfl⟩, rfl⟩ rfl (by norm_num)
  have hsome := r2 rfl fun _ => rfl
  have ht' : w'.time = 1/2 := by
    rw [ht]; unfold Spec.timeAt drivenWorld; norm_num
  cases hg : w'.getAgent 0 with
  | none => exact absurd hg hsome
  | some a' =>
    obtain ⟨⟨z1, z2, z3⟩, e1, e2, -, e3⟩ := r1 a' hg
    obtain ⟨u1, u2⟩ := e3 (by
      intro τ h0 h1
      have : ([1/5, 3/10] : List ℝ).sum = 1/2 := by norm_num
      rw [this] at h1
      constructor <;> norm_num <;> linarith)
    refine ⟨w', h, a', hg, ?_⟩
    rw [e1]
    dsimp only at e2 u1 u2
    rw [ht'] at e2
    subst e2
    congr 1
    rw [u1, u2]
    norm_num

/-- a vehicle 20 m ahead at 12 m/s for the first vehicle, none for the second -/
noncomputable def someRel (_ : World ℝ (ℝ × ℝ × ℝ) Unit Drive (Res (Interp.Exec (ℝ × ℝ × ℝ))) Unit Unit Unit) (i : Nat) : Idm.Rel :=
  ⟨20, 12, 0, decide (i = 0)⟩

/-- the hypotheses of C182 hold: both vehicles drive with the IDM -/
example : ∃ w', run (drivePlug (fun _ _ => true) fun obs id dt x => planIdm Idm.wp (someRel obs id) obs.time dt x)
      drivenWorld (Spec.steps [1/5, 3/10]) = .ok w' ∧ ∃ a', w'.getAgent 0 = some a' ∧ ∃ z, a'.currentState = .ok z ∧
        z.1 = 1/2 ∧ 0 ≤ z.2.2 ∧ z.2.2 ≤ 50 := by
  obtain ⟨w', h, ht⟩ := C180_clock (drivePlug (fun _ _ => true) fun obs id dt x => planIdm Idm.wp (someRel obs id) obs.time dt x)
    drivenWorld_wf [1/5, 3/10]
  have hpos : ∀ d ∈ ([1/5, 3/10] : List ℝ), 0 < d := by
    intro d hd
    simp only [List.mem_cons, List.not_mem_nil, or_false] at hd
    rcases hd with rfl | rfl <;> norm_num
  obtain ⟨r1, r2⟩ := C182_idm Idm.wp_sane (by norm_num [Idm.wp]) (by norm_num [Idm.wp]) (by norm_num [Idm.wp]) (Or.inl rfl)
    (drivePlug_drives _ _) drivenWorld_wf [1/5, 3/10] hpos h (id := 0)
    (a := driven 0 0 10) rfl (x := (0, 0, 10)) ⟨le_refl _, ⟨_, rfl⟩, ⟨_, rfl, rfl⟩, rfl⟩ rfl (by norm_num [Idm.wp])
  have hsome := r2 rfl fun _ => rfl
  have ht' : w'.time = 1/2 := by
    rw [ht]; unfold Spec.timeAt drivenWorld; norm_num
  cases hg : w'.getAgent 0 with
  | none => exact absurd hg hsome
  | some a' =>
    obtain ⟨z, e1, e2, e3, e4⟩ := r1 a' hg
    refine ⟨w', h, a', hg, z, e1, by rw [e2, ht'], ?_, ?_⟩
    · simpa [Idm.wp] using e3
    · simpa [Idm.wp] using e4

/-- the hypotheses of C181 without a lane corridor hold -/
example : ∃ w', run (drivePlug (fun _ _ => false) fun obs _ dt x => .ok (planConst 0 30 1 10 obs.time dt x)) drivenWorld
      (Spec.steps [1/5]) = .ok w' ∧ w'.getAgent 0 = none := by
  obtain ⟨w', h, -⟩ := C180_clock (drivePlug (fun _ _ => false) fun obs _ dt x => .ok (planConst 0 30 1 10 obs.time dt x)) drivenWorld_wf [1/5]
  exact ⟨w', h, C181_no_lane (drivePlug_drives _ _) drivenWorld_wf (by norm_num) [] h (a := driven 0 0 10) rfl (x := (0, 0, 10))
    ⟨le_refl _, ⟨_, rfl⟩, ⟨_, rfl, rfl⟩, rfl⟩ rfl fun _ => rfl⟩

end Bark.Loop
