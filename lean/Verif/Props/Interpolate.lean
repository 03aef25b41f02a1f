import Verif.Model.Interpolate
import Verif.Spec.Interpolate
import Verif.Lemmas.World
import Mathlib.Tactic.Linarith
import Mathlib.Tactic.Ring
import Mathlib.Tactic.FieldSimp
import Mathlib.Tactic.Module
import Mathlib.Algebra.Module.Prod
import Mathlib.LinearAlgebra.Prod

/-!
C17, C18 – interpolating execution model.
-/
namespace Bark.Interp
set_option linter.unusedSectionVars false
open Spec
variable {K V : Type} [Field K] [LinearOrder K] [IsStrictOrderedRing K] [AddCommGroup V] [Module K V]

theorem delta_pos : (0 : K) < delta := by unfold delta; positivity

/-- What a call on a valid model does, branch by branch. -/
theorem execute_valid (tm : V →ₗ[K] K) (e : Exec V) (hv : e.status = .valid) (t : K) (traj : List V)
    {a b : V} (ha : traj.head? = some a) (hb : traj.getLast? = some b) :
    execute tm e t traj =
      if t + delta < tm a ∨ tm b < t - delta then .ok { e with traj := traj, status := .invalid }
      else match findExact tm traj t with
        | some r => .ok { traj := traj, status := .valid, state := some r }
        | none => executeInterp tm e t traj := by
  unfold execute withinTrajectory
  rw [if_neg (by rw [hv]; simp), ha, hb]
  by_cases h : t + delta < tm a ∨ tm b < t - delta
  · rw [if_pos h]
    have : (!(decide (t + delta < tm a) || decide (tm b < t - delta))) = false := by
      rcases h with h | h <;> simp [h]
    show (if (!(!(decide (t + delta < tm a) || decide (tm b < t - delta)))) = true then _ else _) = _
    rw [this]; rfl
  · rw [if_neg h]
    have : (!(decide (t + delta < tm a) || decide (tm b < t - delta))) = true := by
      simpa using h
    show (if (!(!(decide (t + delta < tm a) || decide (tm b < t - delta)))) = true then _ else _) = _
    rw [this]; rfl

/-- every row found by the exact search is a row of the trajectory within the tolerance -/
theorem findExact_sound (tm : V →ₗ[K] K) (traj : List V) (t : K) {r : V}
    (h : findExact tm traj t = some r) : r ∈ traj ∧ |tm r - t| < delta := by
  unfold findExact at h
  split at h
  · dsimp only at h
    split_ifs at h
    · have h1 := List.find?_some h
      have h2 := List.mem_of_find?_eq_some h
      exact ⟨List.mem_of_mem_drop (List.mem_reverse.1 h2), of_decide_eq_true h1⟩
    · have h1 := List.find?_some h
      have h2 := List.mem_of_find?_eq_some h
      exact ⟨List.mem_of_mem_take h2, of_decide_eq_true h1⟩
  · cases h

/-- in an increasing trajectory the first row not after `t` is row 0, unless all rows are after `t` -/
theorem findLower_increasing (tm : V →ₗ[K] K) (a : V) (l : List V) (hinc : Increasing tm (a :: l)) (t : K) :
    findLower tm (a :: l) t = if tm a ≤ t then some 0 else none := by
  unfold findLower
  split_ifs with h
  · rw [List.findIdx?_cons]; simp [h]
  · rw [List.findIdx?_eq_none_iff]
    intro x hx
    rcases List.mem_cons.1 hx with rfl | hx
    · simpa using h
    · have := (List.pairwise_cons.1 hinc).1 x hx
      simp only [decide_eq_false_iff_not, not_le]
      exact lt_trans (not_le.1 h) this

theorem interpolate_eq (tm : V →ₗ[K] K) (a b : V) (t : K) (h : tm a < tm b) (ht : tm a ≤ t) :
    interpolate tm a b t = some (onLine tm a b t) := by
  unfold interpolate onLine
  have hne : tm b - tm a ≠ 0 := (sub_pos.2 h).ne'
  rw [if_neg hne]
  have : 0 ≤ (t - tm a) / (tm b - tm a) := div_nonneg (by linarith) (by linarith)
  simp only [abs_of_nonneg this]
  congr 1
  module

/-- **C17** (what the code computes in general): for an increasing trajectory with at least two rows, a valid
model and a request in the time range, the executed state is either a row whose stamp differs from the
request by less than 1 ms, or the point with the requested time on the line through the *first two* rows. -/
theorem C17_characterisation (tm : V →ₗ[K] K) (e : Exec V) (hv : e.status = .valid) (a b : V) (l : List V)
    (hinc : Increasing tm (a :: b :: l)) (t : K) (ht : tm a ≤ t)
    (hend : ∀ z, (a :: b :: l).getLast? = some z → t ≤ tm z) :
    ∃ e', execute tm e t (a :: b :: l) = .ok e' ∧ e'.status = .valid ∧
      ((∃ r ∈ a :: b :: l, |tm r - t| < delta ∧ e'.state = some r) ∨
        e'.state = some (onLine tm a b t)) := by
  obtain ⟨z, hz⟩ : ∃ z, (a :: b :: l).getLast? = some z := by
    cases h : (a :: b :: l).getLast? with
    | none => simp at h
    | some z => exact ⟨z, rfl⟩
  have hd : (0 : K) < delta := delta_pos
  rw [execute_valid tm e hv t _ rfl hz, if_neg (by
    rintro (h | h)
    · linarith
    · linarith [hend z hz])]
  cases hx : findExact tm (a :: b :: l) t with
  | some r =>
    obtain ⟨h1, h2⟩ := findExact_sound tm _ t hx
    exact ⟨_, rfl, rfl, Or.inl ⟨r, h1, h2, rfl⟩⟩
  | none =>
    refine ⟨{ traj := a :: b :: l, status := .valid, state := interpolate tm a b t }, ?_, rfl, Or.inr ?_⟩
    · unfold executeInterp
      rw [findLower_increasing tm a _ hinc, if_pos ht]
      rfl
    · exact interpolate_eq tm a b t ((List.pairwise_cons.1 hinc).1 b (by simp)) ht

/-- **C17** (first segment): a request between the first two stamps yields a state on the trajectory up to the
1 ms snapping tolerance: a row within 1 ms, or the linear interpolation of the bracketing rows. -/
theorem C17_first_segment_partial (tm : V →ₗ[K] K) (e : Exec V) (hv : e.status = .valid) (a b : V)
    (l : List V) (hinc : Increasing tm (a :: b :: l)) (t : K) (h1 : tm a ≤ t) (h2 : t ≤ tm b) :
    ∃ e', execute tm e t (a :: b :: l) = .ok e' ∧ e'.status = .valid ∧
      ((∃ r ∈ a :: b :: l, |tm r - t| < delta ∧ e'.state = some r) ∨
        ∃ v, e'.state = some v ∧ OnTrajectory tm (a :: b :: l) t v) := by
  obtain ⟨e', h3, h4, h5⟩ := C17_characterisation tm e hv a b l hinc t h1 (by
    intro z hz
    have hzmem := List.mem_of_getLast? hz
    rcases List.mem_cons.1 hzmem with rfl | hm
    · -- last is the first row: impossible, but harmless
      have h := (List.pairwise_cons.1 hinc).2
      cases l with
      | nil => simp at hz; subst hz; exact h2
      | cons c l =>
        have hz' : z ∈ b :: c :: l := by
          have : (b :: c :: l).getLast? = some z := by simpa using hz
          exact List.mem_of_getLast? this
        rcases List.mem_cons.1 hz' with rfl | hm'
        · exact h2
        · exact le_trans h2 ((List.pairwise_cons.1 h).1 z hm').le
    · rcases List.mem_cons.1 hm with rfl | hm'
      · exact h2
      · exact le_trans h2 ((List.pairwise_cons.1 (List.pairwise_cons.1 hinc).2).1 z hm').le)
  refine ⟨e', h3, h4, ?_⟩
  rcases h5 with h5 | h5
  · exact Or.inl h5
  · exact Or.inr ⟨_, h5, [], a, b, l, rfl, h1, h2, rfl⟩

/-- **C17** (end of the horizon): a request for the last stamp of a trajectory that takes time yields exactly
the last row. -/
theorem C17_last_stamp (tm : V →ₗ[K] K) (e : Exec V) (hv : e.status = .valid) (traj : List V) (a z : V)
    (ha : traj.head? = some a) (hz : traj.getLast? = some z) (hlt : tm a < tm z) :
    execute tm e (tm z) traj = .ok { traj := traj, status := .valid, state := some z } := by
  have hd : (0 : K) < delta := delta_pos
  rw [execute_valid tm e hv _ traj ha hz, if_neg (by rintro (h | h) <;> linarith)]
  have : findExact tm traj (tm z) = some z := by
    unfold findExact
    rw [ha, hz]
    dsimp only
    rw [if_pos (by rw [sub_self, abs_zero]; exact abs_pos.2 (sub_pos.2 hlt).ne')]
    have hne : traj ≠ [] := by rintro rfl; simp at ha
    have hlen : traj.length / 2 < traj.length := Nat.div_lt_self (List.length_pos_iff.2 hne) (by norm_num)
    have hl : (traj.drop (traj.length / 2)).getLast? = some z := by
      rw [List.getLast?_drop, if_neg (by omega), hz]
    obtain ⟨l', hl'⟩ : ∃ l', traj.drop (traj.length / 2) = l' ++ [z] :=
      List.getLast?_eq_some_iff.1 hl
    rw [hl', List.reverse_append]
    simp [hd]
  rw [this]

/-- **C17** (stamps of equally spaced trajectories): if the stamps are equally spaced with a step of at least
1 ms, a request for any stamp yields exactly the row with that stamp. -/
theorem C17_uniform_stamps (tm : V →ₗ[K] K) (e : Exec V) (hv : e.status = .valid) (traj : List V) (t0 h : K)
    (hh : delta ≤ h) (hu : Uniform tm traj t0 h) (k : Nat) (v : V) (hk : traj[k]? = some v) :
    execute tm e (tm v) traj = .ok { traj := traj, status := .valid, state := some v } := by
  have hd : (0 : K) < delta := delta_pos
  have hhp : 0 < h := lt_of_lt_of_le hd hh
  have hkn : k < traj.length := by
    by_contra hc; rw [List.getElem?_eq_none (by omega)] at hk; cases hk
  have hne : traj ≠ [] := by rintro rfl; simp at hkn
  obtain ⟨a, ha⟩ : ∃ a, traj.head? = some a := by
    cases traj with
    | nil => exact absurd rfl hne
    | cons x _ => exact ⟨x, rfl⟩
  have hz0 : traj.getLast? = some (traj.getLast hne) := List.getLast?_eq_some_getLast hne
  set z := traj.getLast hne with hzdef
  have ta : tm a = t0 := by
    have := hu 0 a (by rw [← List.head?_eq_getElem?]; exact ha); simpa using this
  have tz : tm z = t0 + ((traj.length - 1 : Nat) : K) * h := by
    apply hu (traj.length - 1) z
    rw [← List.getLast?_eq_getElem?, hz0]
  have tv : tm v = t0 + k * h := hu k v hk
  have hkz : (k : K) ≤ ((traj.length - 1 : Nat) : K) := by exact_mod_cast (by omega : k ≤ traj.length - 1)
  have hk0 : (0 : K) ≤ k := Nat.cast_nonneg k
  -- only row k matches
  have huniq : ∀ i w, traj[i]? = some w → |tm w - tm v| < delta → i = k := by
    intro i w hi hlt
    by_contra hne'
    rw [hu i w hi, tv] at hlt
    have e1 : t0 + (i : K) * h - (t0 + k * h) = ((i : K) - k) * h := by ring
    rw [e1, abs_mul, abs_of_pos hhp] at hlt
    have : (1 : K) ≤ |(i : K) - k| := by
      rcases Nat.lt_or_gt_of_ne hne' with h' | h'
      · have : (i : K) + 1 ≤ k := by exact_mod_cast h'
        rw [le_abs]; right; linarith
      · have : (k : K) + 1 ≤ i := by exact_mod_cast h'
        rw [le_abs]; left; linarith
    nlinarith
  rw [execute_valid tm e hv _ traj ha hz0, if_neg (by
    rw [ta, tz, tv]
    rintro (h' | h')
    · nlinarith
    · nlinarith)]
  have : findExact tm traj (tm v) = some v := by
    unfold findExact
    rw [ha, hz0]
    dsimp only
    rw [ta, tz, tv]
    have e1 : t0 + (k : K) * h - t0 = k * h := by ring
    have e2 : t0 + (k : K) * h - (t0 + ((traj.length - 1 : Nat) : K) * h) =
        -((((traj.length - 1 : Nat) : K) - k) * h) := by ring
    rw [e1, e2, abs_neg, abs_of_nonneg (mul_nonneg hk0 hhp.le),
      abs_of_nonneg (mul_nonneg (sub_nonneg.2 hkz) hhp.le)]
    have hfind : ∀ (l : List V), v ∈ l → (∀ w ∈ l, ∃ i : Nat, traj[i]? = some w) →
        l.find? (fun r => decide (|tm r - tm v| < delta)) = some v := by
      intro l hvl hall
      cases hf : l.find? (fun r => decide (|tm r - tm v| < delta)) with
      | none =>
        have := List.find?_eq_none.1 hf v hvl
        simp [hd] at this
      | some w =>
        have h1 := List.find?_some hf
        have h2 := List.mem_of_find?_eq_some hf
        obtain ⟨i, hi⟩ := hall w h2
        have := huniq i w hi (of_decide_eq_true h1)
        subst this
        rw [hi] at hk; exact hk
    rw [← tv]
    split_ifs with hc
    · apply hfind
      · rw [List.mem_reverse]
        have : ((traj.length - 1 : Nat) : K) < k + k := by
          by_contra hcc; push Not at hcc; nlinarith
        have hkk : traj.length - 1 < k + k := by exact_mod_cast this
        rw [List.mem_iff_getElem?]
        exact ⟨k - traj.length / 2, by rw [List.getElem?_drop, show traj.length / 2 + (k - traj.length / 2) = k by omega]; exact hk⟩
      · intro w hw
        exact List.mem_iff_getElem?.1 (List.mem_of_mem_drop (List.mem_reverse.1 hw))
    · apply hfind
      · have : (k + k : K) ≤ ((traj.length - 1 : Nat) : K) := by
          by_contra hcc; push Not at hcc; apply hc; nlinarith
        have hkk : k + k ≤ traj.length - 1 := by exact_mod_cast this
        rw [List.mem_iff_getElem?]
        exact ⟨k, by rw [List.getElem?_take_of_lt (by omega)]; exact hk⟩
      · intro w hw
        exact List.mem_iff_getElem?.1 (List.mem_of_mem_take hw)
  rw [this]

/-- rows are (time, position) -/
abbrev tmQ : (ℚ × ℚ) →ₗ[ℚ] ℚ := LinearMap.fst ℚ ℚ ℚ

/-- **C17 is violated**: on the trajectory (0,0),(1,1),(2,4),(3,9) a request for time 2.5 yields position 2.5
(first segment extended) instead of 6.5; and on a trajectory with uneven stamps (0,0),(1,1),(2,4),(3,9),(100,0)
a request for the stamp 3 yields position 3 instead of the recorded 9. -/
theorem C17_violated :
    execute tmQ ⟨none, [], .valid⟩ (5 / 2) [(0, 0), (1, 1), (2, 4), (3, 9)] =
      .ok ⟨some (5 / 2, 5 / 2), [(0, 0), (1, 1), (2, 4), (3, 9)], .valid⟩ ∧
    OnTrajectory tmQ [(0, 0), (1, 1), (2, 4), (3, 9)] (5 / 2) ((5 / 2, 13 / 2) : ℚ × ℚ) ∧
    execute tmQ ⟨none, [], .valid⟩ 3 [(0, 0), (1, 1), (2, 4), (3, 9), (100, 0)] =
      .ok ⟨some (3, 3), [(0, 0), (1, 1), (2, 4), (3, 9), (100, 0)], .valid⟩ := by
  refine ⟨?_, ⟨[(0, 0), (1, 1)], (2, 4), (3, 9), [], rfl, by norm_num, by norm_num, ?_⟩, ?_⟩
  · decide +kernel
  · simp only [onLine]; ext <;> simp <;> norm_num
  · decide +kernel

/-- **C18** (out of range): a valid model that is asked for a time more than 1 ms outside the trajectory
becomes INVALID and keeps its executed state. -/
theorem C18_out_of_range (tm : V →ₗ[K] K) (e : Exec V) (hv : e.status = .valid) (traj : List V) (t : K) (a z : V)
    (ha : traj.head? = some a) (hz : traj.getLast? = some z)
    (hout : t + 1 / 1000 < tm a ∨ tm z < t - 1 / 1000) :
    ∃ e', execute tm e t traj = .ok e' ∧ e'.status = .invalid ∧ e'.state = e.state := by
  rw [execute_valid tm e hv t traj ha hz, if_pos (by unfold delta; exact hout)]
  exact ⟨_, rfl, rfl, rfl⟩

/-- **C18** (status tells whether the state was refreshed): whenever a call returns, either the status is
INVALID and the executed state is the old one, or the status is VALID (and it was VALID before). -/
theorem C18_status_reports (tm : V →ₗ[K] K) (e e' : Exec V) (t : K) (traj : List V)
    (h : execute tm e t traj = .ok e') :
    (e'.status = .invalid ∧ e'.state = e.state) ∨ (e'.status = .valid ∧ e.status = .valid) := by
  unfold execute at h
  split_ifs at h with h1
  · injection h with h; subst h; exact Or.inl ⟨h1, rfl⟩
  · have hv : e.status = .valid := by cases hs : e.status <;> simp_all
    obtain ⟨ok, h2, h⟩ := Res.bind_ok h
    cases ok with
    | false => simp at h; subst h; exact Or.inl ⟨rfl, rfl⟩
    | true =>
      simp only [Bool.not_true, Bool.false_eq_true, if_false] at h
      split at h
      · injection h with h; subst h; exact Or.inr ⟨rfl, hv⟩
      · unfold executeInterp at h
        split at h
        · injection h with h; subst h; exact Or.inl ⟨rfl, rfl⟩
        · split at h
          · injection h with h; subst h; exact Or.inr ⟨rfl, hv⟩
          · cases h

/-- **C18 is violated** (for every later call sequence): once INVALID, the model never returns to VALID and
never changes the executed state, even if every later request lies inside its trajectory. -/
theorem C18_sticky_violated (tm : V →ₗ[K] K) (e : Exec V) (hi : e.status = .invalid)
    (calls : List (K × List V)) :
    ∃ e', executes tm e calls = .ok e' ∧ e'.status = .invalid ∧ e'.state = e.state := by
  induction calls generalizing e with
  | nil => exact ⟨e, rfl, hi, rfl⟩
  | cons c cs ih =>
    obtain ⟨e', h1, h2, h3⟩ := ih { e with traj := c.2 } hi
    refine ⟨e', ?_, h2, h3⟩
    unfold executes execute
    rw [if_pos hi]
    exact h1

/-- witness that the sticky state matters: one late request, then a servable one, which is not served -/
example : ∃ e', executes tmQ ⟨some (0, 0), [], .valid⟩
      [(9, [(0, 0), (1, 1)]), (1, [(0, 0), (1, 1)])] = .ok e' ∧ e'.status = .invalid ∧
      e'.state = some (0, 0) :=
  ⟨⟨some (0, 0), [(0, 0), (1, 1)], .invalid⟩, by decide +kernel, rfl, rfl⟩

/-- **C18** (served requests, what holds): on a model that is VALID, an increasing trajectory with at least two
rows and a request inside its time range, the call succeeds with status VALID. Missing: a model that
became INVALID earlier (`C18_sticky_violated`). -/
theorem C18_served (tm : V →ₗ[K] K) (e : Exec V) (hv : e.status = .valid) (a b : V) (l : List V)
    (hinc : Increasing tm (a :: b :: l)) (t : K) (ht : tm a ≤ t)
    (hend : ∀ z, (a :: b :: l).getLast? = some z → t ≤ tm z) :
    ∃ e', execute tm e t (a :: b :: l) = .ok e' ∧ e'.status = .valid ∧ e'.state.isSome := by
  obtain ⟨e', h1, h2, h3⟩ := C17_characterisation tm e hv a b l hinc t ht hend
  refine ⟨e', h1, h2, ?_⟩
  rcases h3 with ⟨r, _, _, h⟩ | h <;> rw [h] <;> rfl

/-- non-vacuity: an increasing, equally spaced trajectory -/
example : Increasing tmQ [(0, 0), (1, 1), (2, 4)] ∧ Uniform tmQ [(0, 0), (1, 1), (2, 4)] 0 1 ∧
    (delta : ℚ) ≤ 1 := by
  refine ⟨by simp [Increasing], ?_, by unfold delta; norm_num⟩
  intro i v h
  match i with
  | 0 => simp at h; subst h; simp
  | 1 => simp at h; subst h; simp
  | 2 => simp at h; subst h; simp
  | (n + 3) => simp at h

end Bark.Interp
