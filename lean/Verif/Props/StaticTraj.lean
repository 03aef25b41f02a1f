import Verif.Model.StaticTraj
import Verif.Spec.Interpolate
import Verif.Lemmas.World
import Mathlib.Tactic.Linarith
import Mathlib.Tactic.Ring
import Mathlib.Tactic.FieldSimp
import Mathlib.LinearAlgebra.Prod

/-!
C19, C20 – replay of recorded trajectories.
-/
namespace Bark.StaticTraj
set_option linter.unusedSectionVars false
open Bark.Interp.Spec
variable {K V : Type} [Field K] [LinearOrder K] [IsStrictOrderedRing K] [AddCommGroup V] [Module K V]

theorem findSeg_spec (tm : V →ₗ[K] K) (t : K) (traj : List V) (n : Nat)
    (hinc : Increasing tm traj) {a z : V} (ha : traj.head? = some a) (hz : traj.getLast? = some z)
    (hlen : 2 ≤ traj.length) (h1 : tm a ≤ t) (h2 : t ≤ tm z) :
    ∃ l x y r, traj = l ++ x :: y :: r ∧ findSeg tm t traj n = some (n + l.length, x, y) ∧
      tm x ≤ t ∧ t ≤ tm y ∧ (∀ q ∈ l, tm q < t) ∧ (t = tm x → l = []) := by
  induction traj generalizing n a with
  | nil => simp at hlen
  | cons c l ih =>
    cases l with
    | nil => simp at hlen
    | cons d l =>
      simp only [List.head?_cons, Option.some.injEq] at ha
      subst ha
      by_cases hd : t ≤ tm d
      · refine ⟨[], c, d, l, rfl, ?_, h1, hd, by simp, fun _ => rfl⟩
        unfold findSeg; rw [if_pos ⟨h1, hd⟩]; rfl
      · have hd' := not_le.1 hd
        have hz' : (d :: l).getLast? = some z := by simpa using hz
        have hlen' : 2 ≤ (d :: l).length := by
          cases l with
          | nil => simp at hz'; subst hz'; exact absurd h2 hd
          | cons _ _ => simp
        obtain ⟨l', x, y, r, e1, e2, e3, e4, e5, e6⟩ := ih (n + 1) (List.pairwise_cons.1 hinc).2 rfl hz'
          hlen' hd'.le
        refine ⟨c :: l', x, y, r, by rw [e1]; rfl, ?_, e3, e4, ?_, ?_⟩
        · unfold findSeg; rw [if_neg (fun h => hd h.2), e2]
          simp only [List.length_cons]; congr 2; omega
        · intro q hq
          rcases List.mem_cons.1 hq with rfl | hq
          · exact lt_trans ((List.pairwise_cons.1 hinc).1 d (by simp)) hd'
          · exact e5 q hq
        · intro htx
          have hl' : l' = [] := e6 htx
          subst hl'
          simp at e1
          rw [← e1.1] at htx
          exact absurd htx (ne_of_gt hd')

theorem countP_split (tm : V →ₗ[K] K) {l r : List V} {x y : V} (hinc : Increasing tm (l ++ x :: y :: r))
    {t : K} {p : V → Bool} (hl : ∀ q ∈ l, p q = true) (hr : ∀ q ∈ r, p q = false) :
    (l ++ x :: y :: r).countP p = l.length + (if p x then 1 else 0) + (if p y then 1 else 0) := by
  rw [List.countP_append, List.countP_cons, List.countP_cons, List.countP_eq_length.2 hl,
    List.countP_eq_zero.2 (fun q hq => by simp [hr q hq])]
  omega

/-- `Interpolate` in terms of counting rows -/
theorem interp_spec (tm : V →ₗ[K] K) (t : K) (traj : List V)
    (hinc : Increasing tm traj) {a z : V} (ha : traj.head? = some a) (hz : traj.getLast? = some z)
    (hlen : 2 ≤ traj.length) (h1 : tm a ≤ t) (h2 : t ≤ tm z) :
    ∃ v, interp tm traj t = .ok (some (v, (traj.countP (fun q => decide (tm q < t)) : Int) - 1,
        (traj.countP (fun q => decide (tm q ≤ t)) : Int))) ∧ tm v = t ∧ OnTrajectory tm traj t v := by
  obtain ⟨l, x, y, r, e1, e2, e3, e4, e5, e6⟩ := findSeg_spec tm t traj 0 hinc ha hz hlen h1 h2
  rw [e1] at hinc
  have hxy : tm x < tm y := by
    have := (List.pairwise_append.1 hinc).2.1
    exact (List.pairwise_cons.1 this).1 y (by simp)
  have hr : ∀ q ∈ r, tm y < tm q := by
    intro q hq
    have := (List.pairwise_append.1 hinc).2.1
    exact (List.pairwise_cons.1 (List.pairwise_cons.1 this).2).1 q hq
  have hd : tm (y - x) = tm y - tm x := map_sub tm y x
  have hdpos : 0 < tm (y - x) := by rw [hd]; linarith
  refine ⟨onLine tm x y t, ?_, ?_, ⟨l, x, y, r, e1, e3, e4, rfl⟩⟩
  · unfold interp
    rw [e2]
    dsimp only
    rw [if_neg hdpos.ne']
    have c1 : traj.countP (fun q => decide (tm q < t)) =
        l.length + (if decide (tm x < t) = true then 1 else 0) + (if decide (tm y < t) = true then 1 else 0) := by
      rw [e1]
      exact countP_split tm hinc (t := t) (fun q hq => by simp [e5 q hq])
        (fun q hq => by simp; linarith [hr q hq])
    have c2 : traj.countP (fun q => decide (tm q ≤ t)) =
        l.length + (if decide (tm x ≤ t) = true then 1 else 0) + (if decide (tm y ≤ t) = true then 1 else 0) := by
      rw [e1]
      exact countP_split tm hinc (t := t) (fun q hq => by simp [(e5 q hq).le])
        (fun q hq => by simp; linarith [hr q hq])
    have hv : x + ((t - tm x) / tm (y - x)) • (y - x) = onLine tm x y t := by
      unfold onLine; rw [hd]
    rw [hv, c1, c2]
    have k1 : decide (tm x ≤ t) = true := by simpa using e3
    have k2 : decide (tm y < t) = false := by simpa using e4
    rw [k1, k2]
    by_cases a0 : (t - tm x) / tm (y - x) = 0
    · have : t = tm x := by
        rcases div_eq_zero_iff.1 a0 with h | h
        · linarith
        · exact absurd h hdpos.ne'
      have hl := e6 this
      subst hl
      rw [if_pos a0]
      have k3 : decide (tm x < t) = false := by simp [this]
      have k4 : decide (tm y ≤ t) = false := by simp [this, hxy]
      rw [k3, k4]; simp
    · have hlt : tm x < t := lt_of_le_of_ne e3 (fun h => a0 (by rw [← h]; simp))
      have k3 : decide (tm x < t) = true := by simpa using hlt
      rw [if_neg a0, k3]
      by_cases a1 : (t - tm x) / tm (y - x) = 1
      · have : t = tm y := by
          rw [div_eq_iff hdpos.ne', hd] at a1; linarith
        have k4 : decide (tm y ≤ t) = true := by simp [this]
        rw [if_pos a1, k4]; simp; omega
      · have k4 : decide (tm y ≤ t) = false := by
          simp only [decide_eq_false_iff_not, not_le]
          refine lt_of_le_of_ne e4 (fun h => a1 ?_)
          rw [h, hd, div_self (by linarith [sub_pos.2 hxy] : (0:K) < _ ).ne'] <;> linarith
        rw [if_neg a1, k4]; simp
  · unfold onLine
    rw [map_add, map_smul, hd, smul_eq_mul, div_mul_cancel₀ _ (sub_pos.2 hxy).ne']; ring

/-- in an increasing trajectory, dropping the rows up to `t` leaves the rows after `t` -/
theorem drop_le (tm : V →ₗ[K] K) (traj : List V) (hinc : Increasing tm traj) (t : K) :
    traj.drop (traj.countP (fun q => decide (tm q ≤ t))) = traj.filter (fun q => decide (t < tm q)) := by
  induction traj with
  | nil => rfl
  | cons a l ih =>
    have h' := List.pairwise_cons.1 hinc
    by_cases h : tm a ≤ t
    · rw [List.countP_cons_of_pos (by simpa using h), List.filter_cons_of_neg (by simpa using h)]
      simpa using ih h'.2
    · have hlt := not_le.1 h
      have hall : ∀ q ∈ a :: l, t < tm q := by
        intro q hq
        rcases List.mem_cons.1 hq with rfl | hq
        · exact hlt
        · exact lt_trans hlt (h'.1 q hq)
      rw [List.countP_eq_zero.2 (fun q hq => by simpa using hall q hq), List.drop_zero,
        List.filter_eq_self.2 (fun q hq => by simpa using hall q hq)]

theorem take_lt (tm : V →ₗ[K] K) (traj : List V) (hinc : Increasing tm traj) (t : K) :
    traj.take (traj.countP (fun q => decide (tm q < t))) = traj.filter (fun q => decide (tm q < t)) := by
  induction traj with
  | nil => rfl
  | cons a l ih =>
    have h' := List.pairwise_cons.1 hinc
    by_cases h : tm a < t
    · rw [List.countP_cons_of_pos (by simpa using h), List.filter_cons_of_pos (by simpa using h),
        List.take_succ_cons, ih h'.2]
    · have hall : ∀ q ∈ a :: l, ¬ tm q < t := by
        intro q hq
        rcases List.mem_cons.1 hq with rfl | hq
        · exact h
        · have := h'.1 q hq; exact fun hh => h (lt_trans this hh)
      rw [List.countP_eq_zero.2 (fun q hq => by simpa using hall q hq), List.take_zero,
        List.filter_eq_nil_iff.2 (fun q hq => by simpa using hall q hq)]

/-- **C19**: for a recording with strictly increasing time stamps and a non-empty interval [t, t+dt] inside the
recorded time range, the plan starts with the interpolated recording at exactly `t`, contains exactly the
recorded rows strictly inside the interval, ends with the interpolated recording at exactly `t+dt`, and its
times strictly increase. -/
theorem C19_replay (tm : V →ₗ[K] K) (traj : List V) (hinc : Increasing tm traj) {a z : V}
    (ha : traj.head? = some a) (hz : traj.getLast? = some z) (t dt : K) (hdt : 0 < dt)
    (h1 : tm a ≤ t) (h2 : t + dt ≤ tm z) :
    ∃ s e, plan tm traj t dt = .ok (s :: traj.filter (fun q => decide (t < tm q ∧ tm q < t + dt)) ++ [e]) ∧
      tm s = t ∧ OnTrajectory tm traj t s ∧ tm e = t + dt ∧ OnTrajectory tm traj (t + dt) e ∧
      Increasing tm (s :: traj.filter (fun q => decide (t < tm q ∧ tm q < t + dt)) ++ [e]) := by
  have hlen : 2 ≤ traj.length := by
    match traj, ha, hz with
    | [x], ha, hz =>
      simp at ha hz; subst ha; subst hz; linarith
    | _ :: _ :: _, _, _ => simp
  obtain ⟨s, s1, s2, s3⟩ := interp_spec tm t traj hinc ha hz hlen h1 (by linarith)
  obtain ⟨e, e1, e2, e3⟩ := interp_spec tm (t + dt) traj hinc ha hz hlen (by linarith) h2
  refine ⟨s, e, ?_, s2, s3, e2, e3, ?_⟩
  · unfold plan
    rw [s1, Res.ok_bind, e1, Res.ok_bind]
    unfold assemble
    dsimp only
    have hpos : 1 ≤ traj.countP (fun q => decide (tm q < t + dt)) := by
      apply List.countP_pos_iff.2
      exact ⟨a, List.mem_of_mem_head? ha, by simp; linarith⟩
    have hle : traj.countP (fun q => decide (tm q ≤ t)) ≤ traj.countP (fun q => decide (tm q < t + dt)) := by
      apply List.countP_mono_left
      intro x _ hx
      simp only [decide_eq_true_eq] at hx ⊢; linarith
    rw [if_neg (by omega), if_neg (by omega)]
    congr 1
    simp only [List.cons_append, List.nil_append, List.cons.injEq, true_and]
    congr 1
    rw [Int.toNat_natCast, drop_le tm traj hinc t]
    have hn : ((traj.countP (fun q => decide (tm q < t + dt)) : Int) - 1 -
        (traj.countP (fun q => decide (tm q ≤ t)) : Int) + 1).toNat =
        (traj.filter (fun q => decide (t < tm q))).countP (fun q => decide (tm q < t + dt)) := by
      have hsum : traj.countP (fun q => decide (tm q < t + dt)) =
          traj.countP (fun q => decide (tm q ≤ t)) +
          (traj.filter (fun q => decide (t < tm q))).countP (fun q => decide (tm q < t + dt)) := by
        clear * - hdt
        induction traj with
        | nil => rfl
        | cons x l ih =>
          simp only [List.countP_cons, List.filter_cons]
          by_cases hx : t < tm x
          · have : ¬ tm x ≤ t := not_le.2 hx
            simp only [hx, this, decide_true, decide_false, if_true, List.countP_cons]
            simp; omega
          · have h1 : tm x ≤ t := not_lt.1 hx
            have h2 : tm x < t + dt := by linarith
            simp only [hx, h1, h2, decide_true, decide_false]
            simp; omega
      omega
    rw [hn, take_lt tm _ (List.Pairwise.filter _ hinc), List.filter_filter]
    congr 1
    funext q
    simp only [Bool.decide_and]
    exact Bool.and_comm _ _
  · unfold Increasing
    rw [List.cons_append, List.pairwise_cons]
    refine ⟨?_, ?_⟩
    · intro q hq
      rcases List.mem_append.1 hq with hq | hq
      · have := (List.mem_filter.1 hq).2
        simp only [decide_eq_true_eq] at this
        rw [s2]; exact this.1
      · simp at hq; subst hq; rw [s2, e2]; linarith
    · rw [List.pairwise_append]
      refine ⟨List.Pairwise.filter _ hinc, by simp, ?_⟩
      intro q hq q' hq'
      have := (List.mem_filter.1 hq).2
      simp only [decide_eq_true_eq] at this
      simp at hq'; subst hq'; rw [e2]; exact this.2

theorem foldl_min_le (tm : V →ₗ[K] K) (l : List V) (m t : K) :
    t < l.foldl (fun m r => min m (tm r)) m ↔ t < m ∧ ∀ r ∈ l, t < tm r := by
  induction l generalizing m with
  | nil => simp
  | cons a l ih => simp [ih, lt_min_iff, and_assoc]

theorem foldl_max_le (tm : V →ₗ[K] K) (l : List V) (m t : K) :
    l.foldl (fun m r => max m (tm r)) m ≤ t ↔ m ≤ t ∧ ∀ r ∈ l, tm r ≤ t := by
  induction l generalizing m with
  | nil => simp
  | cons a l ih => simp [ih, max_le_iff, and_assoc]

/-- **C20** (meaning of the status, any non-empty recording): NOT_STARTED iff every recorded stamp is in the
future; EXPIRED iff it has started and no stamp is later than the end of the planning interval; VALID iff it
has started and some stamp is later. -/
theorem C20_status (tm : V →ₗ[K] K) (traj : List V) (hne : traj ≠ []) (t dt : K) :
    ∃ st, status tm traj t dt = .ok st ∧
      (st = .notStarted ↔ ∀ r ∈ traj, t < tm r) ∧
      (st = .expired ↔ (∃ r ∈ traj, tm r ≤ t) ∧ ∀ r ∈ traj, tm r ≤ t + dt) ∧
      (st = .valid ↔ (∃ r ∈ traj, tm r ≤ t) ∧ ∃ r ∈ traj, t + dt < tm r) := by
  cases traj with
  | nil => exact absurd rfl hne
  | cons a l =>
    unfold status minTime maxTime
    dsimp only
    have hmin := foldl_min_le tm l (tm a) t
    have hmax := foldl_max_le tm l (tm a) (t + dt)
    have q1 : (∀ r ∈ a :: l, t < tm r) ↔ t < tm a ∧ ∀ r ∈ l, t < tm r := by simp
    have q2 : (∀ r ∈ a :: l, tm r ≤ t + dt) ↔ tm a ≤ t + dt ∧ ∀ r ∈ l, tm r ≤ t + dt := by simp
    rw [← q1] at hmin
    rw [← q2] at hmax
    have n1 : (∃ r ∈ a :: l, tm r ≤ t) ↔ ¬ ∀ r ∈ a :: l, t < tm r := by push Not; rfl
    have n2 : (∃ r ∈ a :: l, t + dt < tm r) ↔ ¬ ∀ r ∈ a :: l, tm r ≤ t + dt := by push Not; rfl
    rw [n1, n2, ← hmin, ← hmax]
    split_ifs with c1 c2
    · exact ⟨_, rfl, by simp [c1], by simp [c1], by simp [c1]⟩
    · exact ⟨_, rfl, by simp [c1], by simp [c1, c2], by simp [c1, c2]⟩
    · exact ⟨_, rfl, by simp [c1], by simp [c1, c2], by simp [c1, c2]⟩

/-- progress order of the statuses -/
def rank : BStatus → Nat
  | .notStarted => 0
  | .valid => 1
  | .expired => 2

/-- **C20** (never goes back): if neither the start nor the end of the planning interval moves backwards, the
status never goes back in the order NOT_STARTED, VALID, EXPIRED. -/
theorem C20_monotone (tm : V →ₗ[K] K) (traj : List V) (t dt t' dt' : K) (h1 : t ≤ t')
    (h2 : t + dt ≤ t' + dt') {st st' : BStatus} (hs : status tm traj t dt = .ok st)
    (hs' : status tm traj t' dt' = .ok st') : rank st ≤ rank st' := by
  have hne : traj ≠ [] := by rintro rfl; simp [status, minTime] at hs
  obtain ⟨a, a1, a2, a3, a4⟩ := C20_status tm traj hne t dt
  obtain ⟨b, b1, b2, b3, b4⟩ := C20_status tm traj hne t' dt'
  rw [hs] at a1; injection a1 with a1; subst a1
  rw [hs'] at b1; injection b1 with b1; subst b1
  cases hst : st with
  | notStarted => simp [rank]
  | valid =>
    obtain ⟨⟨r, hr, hrt⟩, _⟩ := a4.1 hst
    cases hst' : st' with
    | notStarted => exact absurd (b2.1 hst' r hr) (not_lt.2 (le_trans hrt h1))
    | valid => simp [rank]
    | expired => simp [rank]
  | expired =>
    obtain ⟨⟨r, hr, hrt⟩, hall⟩ := a3.1 hst
    have : st' = .expired := b3.2 ⟨⟨r, hr, le_trans hrt h1⟩, fun q hq => le_trans (hall q hq) h2⟩
    rw [this]

/-- **C20** (valid means replayable): while the status is VALID, planning over the same positive interval
succeeds with a trajectory from `t` to `t+dt`. -/
theorem C20_valid_plans (tm : V →ₗ[K] K) (traj : List V) (hinc : Increasing tm traj) (t dt : K) (hdt : 0 < dt)
    (hs : status tm traj t dt = .ok .valid) :
    ∃ s m e, plan tm traj t dt = .ok (s :: m ++ [e]) ∧ tm s = t ∧ tm e = t + dt := by
  have hne : traj ≠ [] := by rintro rfl; simp [status, minTime] at hs
  obtain ⟨a, a1, _, _, a4⟩ := C20_status tm traj hne t dt
  rw [hs] at a1; injection a1 with a1
  obtain ⟨⟨r, hr, hrt⟩, ⟨q, hq, hqt⟩⟩ := a4.1 a1.symm
  cases traj with
  | nil => exact absurd rfl hne
  | cons x l =>
    have hx : tm x ≤ t := by
      rcases List.mem_cons.1 hr with rfl | hr
      · exact hrt
      · exact le_trans ((List.pairwise_cons.1 hinc).1 r hr).le hrt
    obtain ⟨z, hz⟩ : ∃ z, (x :: l).getLast? = some z := ⟨_, List.getLast?_eq_some_getLast hne⟩
    have hzq : tm q ≤ tm z := by
      obtain ⟨l', hl'⟩ := List.getLast?_eq_some_iff.1 hz
      rw [hl'] at hq hinc
      rcases List.mem_append.1 hq with h | h
      · exact ((List.pairwise_append.1 hinc).2.2 q h z (by simp)).le
      · simp at h; rw [h]
    obtain ⟨s, e, h1, h2, _, h3, _⟩ := C19_replay tm (x :: l) hinc rfl hz t dt hdt hx (by linarith)
    exact ⟨s, _, e, h1, h2, h3⟩

/-- non-vacuity: replaying (0,0),(1,10),(2,40) from 0.5 to 1.5. -/
example : plan (LinearMap.fst ℚ ℚ ℚ) [(0, 0), (1, 10), (2, 40)] (1 / 2) 1 =
    .ok [(1 / 2, 5), (1, 10), (3 / 2, 25)] := by decide +kernel

/-- the precondition dt > 0 of `C19_replay` is needed: an empty interval at an inner recorded stamp is
undefined behaviour (matrix of negative size) -/
theorem C19_empty_interval_faults :
    plan (LinearMap.fst ℚ ℚ ℚ) [(0, 0), (1, 10), (2, 40)] 1 0 = .error .ub := by decide +kernel

end Bark.StaticTraj
