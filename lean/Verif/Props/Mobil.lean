import Verif.Props.LaneChange

/-! C46 – MOBIL. -/
namespace Bark.LaneChange
open Bark LaneSpec Num
set_option linter.unusedSectionVars false

section
variable {St Act B E Sh Box O Lane : Type} [DecidableEq Lane]
variable (P : Plug ℝ St Act B E Sh Box O) (G : FRPlug ℝ St Act B E Sh Box Lane) (pi : ℝ) (n : Nat)
  (vel : St → ℝ) (len : Lane → St → ℝ) (ego : Nat) (w : World ℝ St Act B E Sh Box O)
variable (p : Idm.Params) (e : EndPrm) (m : MobilPrm)

theorem lt_trans' {a b c : Num} (h1 : Num.lt a b) (h2 : Num.lt b c) : Num.lt a c := by
  cases a <;> cases b <;> cases c <;> simp_all [Num.lt]
  exact lt_trans h1 h2

theorem lt_irrefl' (a : Num) : ¬ Num.lt a a := by
  cases a <;> simp [Num.lt]

/-- not below is transitive through a comparable number -/
theorem lt_of_lt_of_not_lt {a b c : Num} (h1 : Num.lt a b) (h2 : ¬ Num.lt c b) (hc : c ≠ .nan) : Num.lt a c := by
  cases a <;> cases b <;> cases c <;> simp_all [Num.lt]
  exact lt_of_lt_of_le h1 h2

theorem lt_ne_nan {a b : Num} (h : Num.lt a b) : a ≠ .nan ∧ b ≠ .nan := by
  constructor
  · rintro rfl
    cases b <;> exact h
  · rintro rfl
    cases a <;> exact h

/-- what a filled record contains -/
theorem fill_parts {lane : Lane} {li : LaneInfo ℝ (Agent ℝ St Act B E Sh) Lane}
    (h : fill P G pi n vel len ego w lane = .ok li) :
    ∃ e s fr, w.getAgent ego = some e ∧ e.currentState = .ok s ∧
      getAgentFrontRear P G { latThr := 100, angThr := pi, lonThr := 0 } n true (some lane) ego w = .ok fr ∧
      li.lane = lane ∧ li.front.agent = fr.front.1 ∧ li.rear.agent = fr.rear.1 ∧
      (∀ a, fr.front.1 = some a → li.front.relDist = min (len lane s) fr.front.2.lon ∧ ∃ sa, a.currentState = .ok sa) ∧
      (∀ a, fr.rear.1 = some a → li.rear.relDist = fr.rear.2.lon ∧ ∃ sa, a.currentState = .ok sa) := by
  unfold fill at h
  obtain ⟨s, hs, h⟩ := Res.bind_ok h
  obtain ⟨i, hi, h⟩ := Res.bind_ok h
  injection h with h
  unfold frontRearAgents at hi
  obtain ⟨fr, hfr, hi⟩ := Res.bind_ok hi
  obtain ⟨f, hf, hi⟩ := Res.bind_ok hi
  obtain ⟨r, hr, hi⟩ := Res.bind_ok hi
  injection hi with hi
  subst hi
  subst h
  unfold egoState at hs
  cases he : w.getAgent ego with
  | none => rw [he] at hs; cases hs
  | some e =>
    rw [he] at hs
    simp only at hs
    have key : ∀ (dv dd : ℝ) (x : Option (Agent ℝ St Act B E Sh) × FDiff ℝ) (i : Info ℝ (Agent ℝ St Act B E Sh)),
        infoOf vel ego w dv dd x = .ok i → i.agent = x.1 ∧
          ∀ a, x.1 = some a → i.relDist = x.2.lon ∧ ∃ sa, a.currentState = .ok sa := by
      intro dv dd x i hx
      unfold infoOf at hx
      cases ho : x.1 with
      | none =>
        rw [ho] at hx
        simp only at hx
        injection hx with hx
        subst hx
        exact ⟨rfl, fun a ha => by cases ha⟩
      | some a =>
        rw [ho] at hx
        simp only at hx
        obtain ⟨v, hv, hx⟩ := Res.bind_ok hx
        obtain ⟨s', _, hx⟩ := Res.bind_ok hx
        injection hx with hx
        subst hx
        unfold velocity at hv
        obtain ⟨sa, hsa, _⟩ := Res.bind_ok hv
        exact ⟨rfl, fun a' ha' => by cases ha'; exact ⟨rfl, sa, hsa⟩⟩
    obtain ⟨f1, f2⟩ := key _ _ _ _ hf
    obtain ⟨r1, r2⟩ := key _ _ _ _ hr
    refine ⟨e, s, fr, rfl, hs, hfr, rfl, f1, r1, fun a ha => ?_, r2⟩
    obtain ⟨g1, g2⟩ := f2 a ha
    exact ⟨by simp only [g1], g2⟩

/-- a filled record has a scene -/
theorem fill_scene {lane : Lane} {li : LaneInfo ℝ (Agent ℝ St Act B E Sh) Lane}
    (h : fill P G pi n vel len ego w lane = .ok li) : ∃ sc, SceneAt P G pi n vel len ego w lane sc := by
  obtain ⟨e, s, fr, he, hs, hfr, _, _, _, h1, h2⟩ := fill_parts P G pi n vel len ego w h
  have hf : ∃ o : Option (ℝ × ℝ), (fr.front.1 = none → o = none) ∧ ∀ a, fr.front.1 = some a → ∃ sa, a.currentState = .ok sa ∧
      o = some (min (len lane s) fr.front.2.lon, vel sa) := by
    cases hx : fr.front.1 with
    | none => exact ⟨none, fun _ => rfl, fun a ha => by cases ha⟩
    | some a =>
      obtain ⟨_, sa, hsa⟩ := h1 a hx
      exact ⟨some (min (len lane s) fr.front.2.lon, vel sa), fun hn => (by cases hn), fun a' ha' => by cases ha'; exact ⟨sa, hsa, rfl⟩⟩
  have hr : ∃ o : Option (ℝ × ℝ × ℝ), (fr.rear.1 = none → o = none) ∧ ∀ a, fr.rear.1 = some a → ∃ sa, a.currentState = .ok sa ∧
      o = some (-fr.rear.2.lon, vel sa, len lane sa) := by
    cases hx : fr.rear.1 with
    | none => exact ⟨none, fun _ => rfl, fun a ha => by cases ha⟩
    | some a =>
      obtain ⟨_, sa, hsa⟩ := h2 a hx
      exact ⟨some (-fr.rear.2.lon, vel sa, len lane sa), fun hn => (by cases hn), fun a' ha' => by cases ha'; exact ⟨sa, hsa, rfl⟩⟩
  obtain ⟨o1, a1, a2⟩ := hf
  obtain ⟨o2, b1, b2⟩ := hr
  exact ⟨⟨vel s, len lane s, o1, o2⟩, ⟨e, s, fr, he, hs, hfr, rfl, rfl, a1, a2, b1, b2⟩⟩

/-- the accelerations the code computes are those of the scene of the lane -/
theorem acc_of_fill {lane : Lane} {li : LaneInfo ℝ (Agent ℝ St Act B E Sh) Lane} {se : St}
    (hse : egoState ego w = .ok se) (h : fill P G pi n vel len ego w lane = .ok li) {sc : Scene}
    (hsc : SceneAt P G pi n vel len ego w lane sc) :
    accEgo p e vel len se lane li.front = .ok (egoAcc p e.brake e.enabled e.offset sc) ∧
    accBehind p e vel len li = .ok (followerNow p e.brake e.enabled e.offset sc) ∧
    accChangeBehind p vel se li = .ok (followerThen p sc) := by
  obtain ⟨eg, s, fr, he, hs, hfr, hl, k1, k2, h1, h2⟩ := fill_parts P G pi n vel len ego w h
  obtain ⟨eg', s', fr', he', hs', hfr', b1, b2, b3, b4, b5, b6⟩ := hsc.ex
  rw [he] at he'; cases he'
  rw [hs] at hs'; cases hs'
  rw [hfr] at hfr'; cases hfr'
  have : se = s := by
    unfold egoState at hse
    rw [he] at hse
    simp only at hse
    rw [hs] at hse
    injection hse with hse
    exact hse.symm
  subst this
  refine ⟨?_, ?_, ?_⟩
  · unfold accEgo egoAcc
    rw [k1]
    cases hx : fr.front.1 with
    | none =>
      simp only [b3 hx, accNoLeader, leaderless, b1, b2]
    | some a =>
      obtain ⟨sa, c1, c2⟩ := b4 a hx
      simp only [c2, velocity, c1, Res.ok_bind, (h1 a hx).1, b1]
  · unfold accBehind followerNow
    rw [k1, k2]
    cases hx : fr.rear.1 with
    | none => simp only [b5 hx]
    | some a =>
      obtain ⟨sa, c1, c2⟩ := b6 a hx
      simp only [c2, c1, Res.ok_bind]
      cases hy : fr.front.1 with
      | none => simp only [b3 hy, accNoLeader, leaderless, hl]
      | some b =>
        obtain ⟨sb, d1, d2⟩ := b4 b hy
        simp only [d2, velocity, d1, Res.ok_bind, (h1 b hy).1, (h2 a hx).1, sub_eq_add_neg]
  · unfold accChangeBehind followerThen
    rw [k2]
    cases hx : fr.rear.1 with
    | none => simp only [b5 hx]
    | some a =>
      obtain ⟨sa, c1, c2⟩ := b6 a hx
      simp only [c2, velocity, c1, Res.ok_bind, (h2 a hx).1, b1]

/-- the loop over filled records -/
theorem mobilLoop_spec {se : St} (hse : egoState ego w = .ok se) (sc0 : Scene)
    (infos : List (LaneInfo ℝ (Agent ℝ St Act B E Sh) Lane))
    (hi : ∀ li ∈ infos, fill P G pi n vel len ego w li.lane = .ok li) (st st' : MState Lane) (hst : st.1 ≠ .nan)
    (h : mobilLoop p e m vel len se (egoAcc p e.brake e.enabled e.offset sc0) infos st = .ok st') :
    (st' = st ∧ ∀ li ∈ infos, ∀ sc, SceneAt P G pi n vel len ego w li.lane sc →
      Admissible p e.brake e.enabled e.offset m.aThr m.politeness m.safeDec sc0 sc →
      ¬ Num.lt st.1 (gain p e.brake e.enabled e.offset sc0 sc)) ∨
    ∃ li ∈ infos, ∃ sc, SceneAt P G pi n vel len ego w li.lane sc ∧
      Admissible p e.brake e.enabled e.offset m.aThr m.politeness m.safeDec sc0 sc ∧
      st' = (gain p e.brake e.enabled e.offset sc0 sc, some li.lane) ∧
      Num.lt st.1 (gain p e.brake e.enabled e.offset sc0 sc) ∧
      ∀ li' ∈ infos, ∀ sc', SceneAt P G pi n vel len ego w li'.lane sc' →
        Admissible p e.brake e.enabled e.offset m.aThr m.politeness m.safeDec sc0 sc' →
        ¬ Num.lt (gain p e.brake e.enabled e.offset sc0 sc) (gain p e.brake e.enabled e.offset sc0 sc') := by
  induction infos generalizing st with
  | nil =>
    injection h with h
    exact .inl ⟨h.symm, by simp⟩
  | cons li ls ih =>
    unfold mobilLoop at h
    have hfill := hi li List.mem_cons_self
    obtain ⟨sc, hsc⟩ := fill_scene P G pi n vel len ego w hfill
    obtain ⟨a1, a2, a3⟩ := acc_of_fill P G pi n vel len ego w p e hse hfill hsc
    rw [a1, Res.ok_bind, a2, Res.ok_bind, a3, Res.ok_bind] at h
    have huniq : ∀ sc', SceneAt P G pi n vel len ego w li.lane sc' → egoAcc p e.brake e.enabled e.offset sc' = egoAcc p e.brake e.enabled e.offset sc ∧
        followerNow p e.brake e.enabled e.offset sc' = followerNow p e.brake e.enabled e.offset sc ∧ followerThen p sc' = followerThen p sc := by
      intro sc' hsc'
      obtain ⟨c1, c2, c3⟩ := acc_of_fill P G pi n vel len ego w p e hse hfill hsc'
      rw [a1] at c1; rw [a2] at c2; rw [a3] at c3
      injection c1 with c1; injection c2 with c2; injection c3 with c3
      exact ⟨c1.symm, c2.symm, c3.symm⟩
    have hadm : ∀ sc', SceneAt P G pi n vel len ego w li.lane sc' →
        Admissible p e.brake e.enabled e.offset m.aThr m.politeness m.safeDec sc0 sc' →
        Admissible p e.brake e.enabled e.offset m.aThr m.politeness m.safeDec sc0 sc ∧
          gain p e.brake e.enabled e.offset sc0 sc' = gain p e.brake e.enabled e.offset sc0 sc := by
      intro sc' hsc' had
      obtain ⟨c1, c2, c3⟩ := huniq sc' hsc'
      have hg : gain p e.brake e.enabled e.offset sc0 sc' = gain p e.brake e.enabled e.offset sc0 sc := by
        unfold gain; rw [c1]
      refine ⟨⟨?_, ?_⟩, hg⟩
      · rw [← c3]; exact had.safety
      · rw [← c3, ← c2, ← hg]; exact had.incentive
    have hls : ∀ li ∈ ls, fill P G pi n vel len ego w li.lane = .ok li := fun x hx => hi x (List.mem_cons_of_mem _ hx)
    by_cases had : Admissible p e.brake e.enabled e.offset m.aThr m.politeness m.safeDec sc0 sc ∧ Num.lt st.1 (gain p e.brake e.enabled e.offset sc0 sc)
    · obtain ⟨had, hlt⟩ := had
      have hu : mobilUpdate m (egoAcc p e.brake e.enabled e.offset sc0) (egoAcc p e.brake e.enabled e.offset sc) (followerNow p e.brake e.enabled e.offset sc)
          (followerThen p sc) li.lane st = (gain p e.brake e.enabled e.offset sc0 sc, some li.lane) := by
        unfold mobilUpdate
        simp only
        have h1 := had.incentive
        have h2 := hlt
        unfold gain at h1 h2
        rw [if_neg had.safety, if_pos h1, if_pos h2]
        rfl
      rw [hu] at h
      right
      rcases ih hls _ (lt_ne_nan hlt).2 h with ⟨k1, k2⟩ | ⟨li', k1, sc', k2, k3, k4, k5, k6⟩
      · refine ⟨li, List.mem_cons_self, sc, hsc, had, k1, hlt, fun x hx sx hsx hax => ?_⟩
        rcases List.mem_cons.1 hx with rfl | hx
        · rw [(hadm sx hsx hax).2]; exact lt_irrefl' _
        · exact k2 x hx sx hsx hax
      · refine ⟨li', List.mem_cons_of_mem _ k1, sc', k2, k3, k4, lt_trans' hlt k5, fun x hx sx hsx hax => ?_⟩
        rcases List.mem_cons.1 hx with rfl | hx
        · rw [(hadm sx hsx hax).2]
          intro hbad
          exact lt_irrefl' _ (lt_trans' hbad k5)
        · exact k6 x hx sx hsx hax
    · have hu : mobilUpdate m (egoAcc p e.brake e.enabled e.offset sc0) (egoAcc p e.brake e.enabled e.offset sc) (followerNow p e.brake e.enabled e.offset sc)
          (followerThen p sc) li.lane st = st := by
        unfold mobilUpdate
        simp only
        split_ifs with g1 g2 g3
        · rfl
        · exact absurd ⟨⟨g1, g2⟩, g3⟩ had
        · rfl
        · rfl
      rw [hu] at h
      have hno : ∀ sx, SceneAt P G pi n vel len ego w li.lane sx →
          Admissible p e.brake e.enabled e.offset m.aThr m.politeness m.safeDec sc0 sx →
          ¬ Num.lt st.1 (gain p e.brake e.enabled e.offset sc0 sx) := by
        intro sx hsx hax hlt
        obtain ⟨q1, q2⟩ := hadm sx hsx hax
        exact had ⟨q1, q2 ▸ hlt⟩
      rcases ih hls _ hst h with ⟨k1, k2⟩ | ⟨li', k1, sc', k2, k3, k4, k5, k6⟩
      · left
        refine ⟨k1, fun x hx sx hsx hax => ?_⟩
        rcases List.mem_cons.1 hx with rfl | hx
        · exact hno sx hsx hax
        · exact k2 x hx sx hsx hax
      · right
        refine ⟨li', List.mem_cons_of_mem _ k1, sc', k2, k3, k4, k5, fun x hx sx hsx hax => ?_⟩
        rcases List.mem_cons.1 hx with rfl | hx
        · intro hbad
          exact hno sx hsx hax (lt_trans' k5 hbad)
        · exact k6 x hx sx hsx hax

/-- the last match of the own corridor is a filled record -/
theorem select_mem (infos : List (LaneInfo ℝ (Agent ℝ St Act B E Sh) Lane)) (lane : Lane)
    {li : LaneInfo ℝ (Agent ℝ St Act B E Sh) Lane} (h : select infos lane = some li) : li ∈ infos ∧ li.lane = lane := by
  unfold select at h
  have : ∀ (l : List (LaneInfo ℝ (Agent ℝ St Act B E Sh) Lane)) acc, (∀ x, acc = some x → x ∈ infos ∧ x.lane = lane) →
      (∀ x ∈ l, x ∈ infos) → ∀ x, l.foldl (fun acc li => if li.lane = lane then some li else acc) acc = some x →
      x ∈ infos ∧ x.lane = lane := by
    intro l
    induction l with
    | nil => intro acc h1 _ x hx; exact h1 x hx
    | cons y l ih =>
      intro acc h1 h2 x hx
      refine ih _ ?_ (fun z hz => h2 z (List.mem_cons_of_mem _ hz)) x hx
      intro z hz
      by_cases hy : y.lane = lane
      · simp only [if_pos hy] at hz; cases hz; exact ⟨h2 _ List.mem_cons_self, hy⟩
      · simp only [if_neg hy] at hz; exact h1 z hz
  exact this infos none (by simp) (fun x hx => hx) li h

/-- everything the decision says, before it is split into cases -/
theorem mobil_spec {prm : Prm ℝ} {lanes : List Lane} {cur : Lane} {target : Option Lane} {d : Decision} {r : Option Lane}
    (h : mobilBeneficial P G pi n vel len prm p e m lanes cur target ego w = .ok (d, r)) :
    ∃ sc0, SceneAt P G pi n vel len ego w cur sc0 ∧ ∃ infos,
      (∀ li ∈ infos, li.lane ∈ lanes ∧ fill P G pi n vel len ego w li.lane = .ok li) ∧
      (∀ c ∈ lanes, ∀ f, Measured P G pi n vel len ego w c f → Safe prm.minRemaining prm.minRear prm.minFront prm.timeGap f →
        ∃ li ∈ infos, li.lane = c) ∧
      (∀ li ∈ infos, ∃ f, Measured P G pi n vel len ego w li.lane f ∧ Safe prm.minRemaining prm.minRear prm.minFront prm.timeGap f) ∧
      ((infos = [] ∧ d = .keep ∧ r = some cur) ∨
       infos ≠ [] ∧ ∃ st se, egoState ego w = .ok se ∧ mobilLoop p e m vel len se (egoAcc p e.brake e.enabled e.offset sc0) infos (fin (-1000), target) = .ok st ∧
        ((st.2 ≠ some cur ∧ st.2.isSome = true ∧ d = .change ∧ r = st.2) ∨
          (¬ (st.2 ≠ some cur ∧ st.2.isSome = true) ∧ d = .keep ∧ r = some cur))) := by
  unfold mobilBeneficial at h
  obtain ⟨infos, hi, h⟩ := Res.bind_ok h
  obtain ⟨se, hse, h⟩ := Res.bind_ok h
  obtain ⟨s1, s2⟩ := scan_ok P G pi n vel len ego w hi
  unfold mobilChoose at h
  obtain ⟨li, hli, h⟩ := Res.bind_ok h
  unfold ownInfo at hli
  have hfill : fill P G pi n vel len ego w cur = .ok li := by
    cases hx : select (filters prm infos) cur with
    | none => rw [hx] at hli; exact hli
    | some x =>
      rw [hx] at hli
      injection hli with hli
      subst hli
      obtain ⟨k1, k2⟩ := select_mem _ _ hx
      have := (s1 x ((mem_filters prm infos x).1 k1).1).2
      rw [k2] at this
      exact this
  obtain ⟨sc0, hsc0⟩ := fill_scene P G pi n vel len ego w hfill
  obtain ⟨aEgo, ha, h⟩ := Res.bind_ok h
  rw [(acc_of_fill P G pi n vel len ego w p e hse hfill hsc0).1] at ha
  injection ha with ha
  subst ha
  refine ⟨sc0, hsc0, filters prm infos, fun x hx => s1 x ((mem_filters prm infos x).1 hx).1, ?_, ?_, ?_⟩
  · intro c hc f hf hs
    obtain ⟨x, m1, m2⟩ := s2 c hc
    obtain ⟨hsafe, _⟩ := passes_iff P G pi n vel len ego w prm m2 hf
    obtain ⟨_, _, hl, _⟩ := fill_measured P G pi n vel len ego w m2
    exact ⟨x, (mem_filters prm infos x).2 ⟨m1, hsafe.2 hs⟩, hl⟩
  · intro x hx
    have hm := (mem_filters prm infos x).1 hx
    have hfx := (s1 x hm.1).2
    obtain ⟨f, hf, _⟩ := fill_measured P G pi n vel len ego w hfx
    exact ⟨f, hf, (passes_iff P G pi n vel len ego w prm hfx hf).1.1 hm.2⟩
  · by_cases g : filters prm infos = []
    · rw [if_pos g] at h
      injection h with h
      injection h with h1 h2
      exact .inl ⟨g, h1.symm, h2.symm⟩
    · rw [if_neg g] at h
      right
      refine ⟨g, ?_⟩
      obtain ⟨st, hst, h⟩ := Res.bind_ok h
      refine ⟨st, se, hse, hst, ?_⟩
      by_cases g2 : st.2 ≠ some cur ∧ st.2.isSome = true
      · rw [if_pos g2] at h
        injection h with h
        injection h with h1 h2
        exact .inl ⟨g2.1, g2.2, h1.symm, h2.symm⟩
      · rw [if_neg g2] at h
        injection h with h
        injection h with h1 h2
        exact .inr ⟨g2, h1.symm, h2.symm⟩

/-- **C46** (change): a proposed change goes to another lane, and either that lane passes all conditions of the lane-change model, its
follower need not brake harder than allowed, the gain outweighs the threshold plus the politeness-weighted loss of the follower,
and no other such lane gives a larger gain – or it is the lane followed so far (`target`) and no lane at all fulfils the criteria
with a gain above -1000; in this second case nothing is checked (`C46_violated`). -/
theorem C46_change {prm : Prm ℝ} {lanes : List Lane} {cur : Lane} {target : Option Lane} {r : Option Lane}
    (h : mobilBeneficial P G pi n vel len prm p e m lanes cur target ego w = .ok (.change, r)) :
    ∃ c sc0, r = some c ∧ c ≠ cur ∧ SceneAt P G pi n vel len ego w cur sc0 ∧
      ((c ∈ lanes ∧ ∃ f sc, Measured P G pi n vel len ego w c f ∧ Safe prm.minRemaining prm.minRear prm.minFront prm.timeGap f ∧
          SceneAt P G pi n vel len ego w c sc ∧
          Admissible p e.brake e.enabled e.offset m.aThr m.politeness m.safeDec sc0 sc ∧
          ∀ c' ∈ lanes, ∀ f' sc', Measured P G pi n vel len ego w c' f' →
            Safe prm.minRemaining prm.minRear prm.minFront prm.timeGap f' → SceneAt P G pi n vel len ego w c' sc' →
            Admissible p e.brake e.enabled e.offset m.aThr m.politeness m.safeDec sc0 sc' →
            ¬ Num.lt (gain p e.brake e.enabled e.offset sc0 sc) (gain p e.brake e.enabled e.offset sc0 sc')) ∨
        (target = some c ∧ ∀ c' ∈ lanes, ∀ f' sc', Measured P G pi n vel len ego w c' f' →
            Safe prm.minRemaining prm.minRear prm.minFront prm.timeGap f' → SceneAt P G pi n vel len ego w c' sc' →
            Admissible p e.brake e.enabled e.offset m.aThr m.politeness m.safeDec sc0 sc' →
            ¬ Num.lt (fin (-1000)) (gain p e.brake e.enabled e.offset sc0 sc'))) := by
  obtain ⟨sc0, hsc0, infos, i1, i2, i3, hcase⟩ := mobil_spec P G pi n vel len ego w p e m h
  rcases hcase with ⟨_, hd, _⟩ | ⟨_, st, se, hse, hst, hcase⟩
  · cases hd
  rcases hcase with ⟨g1, g2, _, g3⟩ | ⟨_, hd, _⟩
  swap
  · cases hd
  obtain ⟨c, hc⟩ := Option.isSome_iff_exists.1 g2
  refine ⟨c, sc0, by rw [g3, hc], fun hcc => g1 (by rw [hc, hcc]), hsc0, ?_⟩
  rcases mobilLoop_spec P G pi n vel len ego w p e m hse sc0 infos (fun x hx => (i1 x hx).2) _ _ (by simp) hst with
    ⟨k1, k2⟩ | ⟨li, k1, sc, k2, k3, k4, k5, k6⟩
  · right
    refine ⟨by rw [k1] at hc; exact hc, fun c' hc' f' sc' hf' hs' hsc' had => ?_⟩
    obtain ⟨x, hx, hl⟩ := i2 c' hc' f' hf' hs'
    exact k2 x hx sc' (by rw [hl]; exact hsc') had
  · left
    rw [k4] at hc
    simp only [Option.some.injEq] at hc
    subst hc
    obtain ⟨f, hf, hs⟩ := i3 li k1
    refine ⟨(i1 li k1).1, f, sc, hf, hs, k2, k3, fun c' hc' f' sc' hf' hs' hsc' had => ?_⟩
    obtain ⟨x, hx, hl⟩ := i2 c' hc' f' hf' hs'
    exact k6 x hx sc' (by rw [hl]; exact hsc') had

/-- **C46** (safety, in plain numbers): if the ego was already following its own lane (or none), then after a proposed change
the new follower need not brake with the safe deceleration or more, whenever the formula gives a number. -/
theorem C46_safety {prm : Prm ℝ} {lanes : List Lane} {cur : Lane} {target : Option Lane} {r : Option Lane}
    (ht : target = none ∨ target = some cur)
    (h : mobilBeneficial P G pi n vel len prm p e m lanes cur target ego w = .ok (.change, r)) :
    ∃ c ∈ lanes, r = some c ∧ c ≠ cur ∧ ∃ sc, SceneAt P G pi n vel len ego w c sc ∧
      ∀ g v l x, sc.rear = some (g, v, l) → Idm.rawAcc p g v sc.vEgo = .fin x → -m.safeDec < x := by
  obtain ⟨c, sc0, hr, hne, _, hcase⟩ := C46_change P G pi n vel len ego w p e m h
  rcases hcase with ⟨hc, f, sc, _, _, hsc, had, _⟩ | ⟨htc, _⟩
  · refine ⟨c, hc, hr, hne, sc, hsc, fun g v l x hrear hx => ?_⟩
    have := had.safety
    unfold followerThen at this
    rw [hrear] at this
    simp only at this
    rw [hx] at this
    exact not_le.1 this
  · rcases ht with ht | ht
    · rw [ht] at htc; cases htc
    · rw [ht] at htc; cases htc; exact absurd rfl hne

/-- **C46** (keep): otherwise the lane is kept; then no lane passes the filters, or every lane that fulfils the criteria gives no more
gain than -1000 or than staying on the own lane does. -/
theorem C46_keep {prm : Prm ℝ} {lanes : List Lane} {cur : Lane} {target : Option Lane} {r : Option Lane}
    (h : mobilBeneficial P G pi n vel len prm p e m lanes cur target ego w = .ok (.keep, r)) :
    r = some cur ∧ ∃ sc0, SceneAt P G pi n vel len ego w cur sc0 ∧
      ∀ c' ∈ lanes, ∀ f' sc', Measured P G pi n vel len ego w c' f' →
        Safe prm.minRemaining prm.minRear prm.minFront prm.timeGap f' → SceneAt P G pi n vel len ego w c' sc' →
        Admissible p e.brake e.enabled e.offset m.aThr m.politeness m.safeDec sc0 sc' →
        ¬ Num.lt (fin (-1000)) (gain p e.brake e.enabled e.offset sc0 sc') ∨
        ∃ sc, SceneAt P G pi n vel len ego w cur sc ∧ Admissible p e.brake e.enabled e.offset m.aThr m.politeness m.safeDec sc0 sc ∧
          ¬ Num.lt (gain p e.brake e.enabled e.offset sc0 sc) (gain p e.brake e.enabled e.offset sc0 sc') := by
  obtain ⟨sc0, hsc0, infos, i1, i2, i3, hcase⟩ := mobil_spec P G pi n vel len ego w p e m h
  rcases hcase with ⟨g, _, hr⟩ | ⟨_, st, se, hse, hst, hcase⟩
  · refine ⟨hr, sc0, hsc0, fun c' hc' f' sc' hf' hs' _ _ => ?_⟩
    obtain ⟨x, hx, _⟩ := i2 c' hc' f' hf' hs'
    rw [g] at hx
    cases hx
  rcases hcase with ⟨_, _, hd, _⟩ | ⟨g1, _, hr⟩
  · cases hd
  refine ⟨hr, sc0, hsc0, fun c' hc' f' sc' hf' hs' hsc' had => ?_⟩
  obtain ⟨x, hx, hl⟩ := i2 c' hc' f' hf' hs'
  rcases mobilLoop_spec P G pi n vel len ego w p e m hse sc0 infos (fun x hx => (i1 x hx).2) _ _ (by simp) hst with
    ⟨_, k2⟩ | ⟨li, k1, sc, k2, k3, k4, k5, k6⟩
  · exact .inl (k2 x hx sc' (by rw [hl]; exact hsc') had)
  · right
    rw [k4] at g1
    have hlc : li.lane = cur := by
      by_contra hne
      exact g1 ⟨by simpa using hne, rfl⟩
    rw [hlc] at k2
    exact ⟨sc, k2, k3, k6 x hx sc' (by rw [hl]; exact hsc') had⟩

end

/-! ### Witness -/

/-- toy models over ℝ: state = (velocity, lane) -/
noncomputable def mP : Plug ℝ (ℝ × Nat) Unit Unit Unit Unit Nat Unit :=
  { status := fun _ => .valid, lastAction := fun _ => (), plan := fun b _ _ _ => b,
    execute := fun e _ _ => e, execStatus := fun _ => .valid, executedState := fun _ => (0, 0),
    observe := fun o w _ => (o, w), envelope := fun _ s => s.2, within := fun _ _ => true }

noncomputable def mG : FRPlug ℝ (ℝ × Nat) Unit Unit Unit Unit Nat Nat :=
  { frenet := fun _ _ => ⟨0, 0, 0, 0, 0⟩, ext := fun _ _ => ⟨0, 0, 0, 0⟩, nearest := fun _ k l => l.take k,
    boxHit := fun l b => decide (b = l), collide := fun _ _ => true, big := 10 ^ 308 }

/-- one agent, the ego, at 10 m/s on lane 0 -/
noncomputable def mW : World ℝ (ℝ × Nat) Unit Unit Unit Unit Nat Unit :=
  { agents := [(0, ⟨0, (), (), [((10, 0), ())], 5, 0, ()⟩)], time := 0, rtree := [(0, 0)], removeAgents := false,
    mapBox := none, observer := () }

/-- lane 0 is 1000 m long, lane 1 ends in 1 m -/
noncomputable def mLen (l : Nat) (_ : ℝ × Nat) : ℝ := if l = 0 then 1000 else 1

/-- default parameters -/
noncomputable def mPrm : Prm ℝ := { minRemaining := 60, minRear := 5, minFront := 5, timeGap := 1 }
noncomputable def mIdm : Idm.Params := ⟨2, 3/2, 17/10, 15, 167/100, 0, 50, -5, 8, 4, 11, 0, 0⟩
noncomputable def mMob : MobilPrm := ⟨1/5, 1/5, 4⟩

theorem mFr (lane : Nat) : getAgentFrontRear mP mG { latThr := 100, angThr := 4, lonThr := 0 } 4 true (some lane) 0 mW =
    .ok ⟨(none, FDiff.default (10 ^ 308)), (none, FDiff.default (10 ^ 308))⟩ := by
  have hv : Agent.isValidAtTime (⟨0, (), (), [((10, 0), ())], 5, 0, ()⟩ : Agent ℝ (ℝ × Nat) Unit Unit Unit Unit) 0 = true := by
    unfold Agent.isValidAtTime dblEps
    simp
  by_cases hl : lane = 0
  · subst hl
    simp [getAgentFrontRear, frConsidered, World.getAgentsIntersectingPolygon, mW, mG, World.collectHits, World.getAgent, OMap.find,
      mP, hv, OMap.insert, frFrom, Agent.currentState, frLoop, frBody, Res.ok_bind]
  · have : ¬ (0 = lane) := fun h => hl h.symm
    simp [getAgentFrontRear, frConsidered, World.getAgentsIntersectingPolygon, mW, mG, World.collectHits, this, frFrom, Res.ok_bind]

/-- the record of a lane in that world -/
noncomputable def mInfo (lane : Nat) : LaneInfo ℝ (Agent ℝ (ℝ × Nat) Unit Unit Unit Unit) Nat :=
  ⟨⟨none, 10 ^ 6, min (mLen lane (10, 0)) (10 ^ 6)⟩, ⟨none, 0, -1000⟩, lane, mLen lane (10, 0)⟩

theorem mFill (lane : Nat) : fill mP mG 4 4 Prod.fst mLen 0 mW lane = .ok (mInfo lane) := by
  have he : egoState 0 mW = .ok ((10 : ℝ), (0 : Nat)) := by
    simp [egoState, mW, World.getAgent, OMap.find, Agent.currentState]
  unfold fill frontRearAgents
  rw [he, Res.ok_bind, mFr]
  rfl

/-- **C46 is violated**: the ego had decided for lane 1 earlier (`target`) and is still on lane 0.  Lane 1 ends in 1 m and does not
pass the conditions any more, nobody else is around and lane 0 is free, yet the change to lane 1 is proposed again: the
lane followed so far is the default of the search and is never checked. -/
theorem C46_violated :
    mobilBeneficial mP mG 4 4 Prod.fst mLen mPrm mIdm ⟨false, 60, 15⟩ mMob [0, 1] 0 (some 1) 0 mW = .ok (.change, some 1) ∧
    ∀ f, Measured mP mG 4 4 Prod.fst mLen 0 mW 1 f →
      ¬ Safe mPrm.minRemaining mPrm.minRear mPrm.minFront mPrm.timeGap f := by
  have he : egoState 0 mW = .ok ((10 : ℝ), (0 : Nat)) := by
    simp [egoState, mW, World.getAgent, OMap.find, Agent.currentState]
  constructor
  · have hscan : scan mP mG 4 4 Prod.fst mLen 0 mW [0, 1] = .ok [mInfo 0, mInfo 1] := by
      unfold scan scan scan
      rw [mFill, mFill]
      rfl
    have hfil : filters mPrm [mInfo 0, mInfo 1] = [mInfo 0] := by
      unfold filters mInfo mPrm mLen
      norm_num
    have hsel : ownInfo [mInfo 0] 0 (fill mP mG 4 4 Prod.fst mLen 0 mW 0) = .ok (mInfo 0) := by
      simp [ownInfo, select, mInfo]
    unfold mobilBeneficial
    rw [hscan, Res.ok_bind, he, Res.ok_bind, hfil]
    unfold mobilChoose
    rw [hsel, Res.ok_bind]
    obtain ⟨x, hx⟩ : ∃ x, accEgo (Act := Unit) (B := Unit) (E := Unit) (Sh := Unit) mIdm ⟨false, 60, 15⟩ Prod.fst mLen
        ((10 : ℝ), (0 : Nat)) 0 (mInfo 0).front = .ok (fin x) := by
      refine ⟨17 / 10 * (1 - (10 / 15) ^ 4), ?_⟩
      simp [accEgo, mInfo, accNoLeader, mIdm, Idm.freeRoad, Num.div, Num.pow, Num.sub, Num.neg, Num.add, Num.mul]
      ring
    rw [hx, Res.ok_bind, if_neg (by simp)]
    have hl : mobilLoop (Act := Unit) (B := Unit) (E := Unit) (Sh := Unit) mIdm ⟨false, 60, 15⟩ mMob Prod.fst mLen ((10 : ℝ), (0 : Nat)) (fin x) [mInfo 0]
        (fin (-1000), some 1) = .ok (fin (-1000), some 1) := by
      unfold mobilLoop
      have hb : accBehind (Act := Unit) (B := Unit) (E := Unit) (Sh := Unit) mIdm ⟨false, 60, 15⟩ Prod.fst mLen (mInfo 0) = .ok (fin 0) := rfl
      have hc : accChangeBehind (Act := Unit) (B := Unit) (E := Unit) (Sh := Unit) mIdm Prod.fst ((10 : ℝ), (0 : Nat)) (mInfo 0) = .ok (fin 0) := rfl
      have hla : (mInfo 0).lane = 0 := rfl
      rw [hla, hx, Res.ok_bind, hb, Res.ok_bind, hc, Res.ok_bind]
      have hu : mobilUpdate mMob (fin x) (fin x) (fin 0) (fin 0) 0 (fin (-1000), some 1) = (fin (-1000), some 1) := by
        unfold mobilUpdate
        have g1 : ¬ Num.ge (fin (-mMob.safeDec)) (fin 0) := by
          simp only [mMob, Num.ge]
          norm_num
        have g2 : ¬ Num.lt (Num.add (Num.mul (fin mMob.politeness) (Num.sub (fin 0) (fin 0))) (fin mMob.aThr))
            (Num.sub (fin x) (fin x)) := by
          simp only [mMob, Num.sub, Num.neg, Num.add, Num.mul, Num.lt]
          norm_num
        simp only
        rw [if_neg g1, if_neg g2]
      rw [hu]
      rfl
    rw [hl, Res.ok_bind, if_pos]
    simp
  · intro f hf hs
    obtain ⟨e, s, fr, he', hs', _, hr, _⟩ := hf.ex
    have := hs.remaining
    rw [hr] at this
    unfold mPrm mLen at this
    norm_num at this

end Bark.LaneChange
