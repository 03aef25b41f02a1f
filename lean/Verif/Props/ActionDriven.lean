import Verif.Model.ActionDriven
import Mathlib.Tactic.Linarith
import Mathlib.Tactic.Ring
import Mathlib.Tactic.NormNum
import Mathlib.Tactic.FieldSimp
import Mathlib.Tactic.Positivity

/-!
C51 – trajectories of behaviours that carry out a given input.
-/
namespace Bark.Act
open Bark Dyn

/-- a trajectory serving a plan from `t0` over a horizon: times strictly increase from `t0` and reach at least `t0 + horizon` -/
def Serves {α : Type} (time : α → ℝ) (t0 horizon : ℝ) (l : List α) : Prop :=
  (l.map time).Pairwise (· < ·) ∧ (l.map time).head? = some t0 ∧ ∃ t ∈ (l.map time).getLast?, t0 + horizon ≤ t

theorem pairwise_of_chain {α : Type} (time : α → ℝ) {R : α → α → Prop} (hR : ∀ x y, R x y → time x < time y) {l : List α}
    (h : l.IsChain R) : (l.map time).Pairwise (· < ·) := by
  rw [List.pairwise_map]
  exact List.isChain_iff_pairwise (R := fun x y => time x < time y) |>.1 (h.imp (fun x y => hR x y))

theorem mpLoop_length (rnd : ℝ → ℝ) (f : State → State) (T dt : ℝ) (n : Nat) : ∀ (k i : Nat) (x : State),
    (mpLoop rnd f T dt n k i x).length = k
  | 0, _, _ => rfl
  | k + 1, i, x => by simp only [mpLoop, List.length_cons, mpLoop_length rnd f T dt n k]

theorem euler_time (rnd : ℝ → ℝ) {f : State → State} (hf : ∀ x, f x 0 = 1) (d : ℝ) (x : State) : euler rnd f d x 0 = x 0 + d := by
  simp only [euler, show (0 : ℕ) ≠ 3 by decide, if_false, hf, mul_one]

theorem mpLoop_spec (rnd : ℝ → ℝ) {f : State → State} (hf : ∀ x, f x 0 = 1) {T dt : ℝ} (hdt : 0 < dt) {n : Nat}
    (h1 : 0 < T - ((n : ℝ) - 2) * dt) (h2 : T - ((n : ℝ) - 2) * dt ≤ dt) : ∀ (k i : Nat) (x : State), 1 ≤ i → 1 ≤ k → i + k = n →
    List.IsChain (fun x y => x 0 < y 0 ∧ y 0 - x 0 ≤ dt ∧ y = euler rnd f (y 0 - x 0) x) (x :: mpLoop rnd f T dt n k i x) ∧
    ∀ y ∈ (mpLoop rnd f T dt n k i x).getLast?, y 0 = x 0 + ((k : ℝ) - 1) * dt + (T - ((n : ℝ) - 2) * dt)
  | 0, i, x, _, hk, _ => absurd hk (by omega)
  | 1, i, x, hi, _, hn => by
    have hin : i = n - 1 := by omega
    have hcast : (i : ℝ) - 1 = (n : ℝ) - 2 := by
      have : (n : ℝ) = (i : ℝ) + 1 := by rw [← hn]; push_cast; ring
      rw [this]; ring
    simp only [mpLoop, if_pos hin]
    rw [hcast]
    refine ⟨?_, ?_⟩
    · refine List.isChain_pair.2 ⟨?_, ?_, ?_⟩
      · rw [euler_time rnd hf]; linarith
      · rw [euler_time rnd hf]; linarith
      · rw [euler_time rnd hf]; congr 1; ring
    · intro y hy
      simp only [List.getLast?_singleton, Option.mem_def, Option.some.injEq] at hy
      subst hy
      rw [euler_time rnd hf]; push_cast; ring
  | k + 2, i, x, hi, _, hn => by
    have hin : ¬ i = n - 1 := by omega
    obtain ⟨c, l⟩ := mpLoop_spec rnd hf hdt h1 h2 (k + 1) (i + 1) (euler rnd f dt x) (by omega) (by omega) (by omega)
    have hm : mpLoop rnd f T dt n (k + 2) i x = euler rnd f dt x :: mpLoop rnd f T dt n (k + 1) (i + 1) (euler rnd f dt x) := by
      rw [mpLoop]; simp only [if_neg hin]
    rw [hm]
    refine ⟨List.isChain_cons_cons.2 ⟨⟨?_, ?_, ?_⟩, c⟩, ?_⟩
    · rw [euler_time rnd hf]; linarith
    · rw [euler_time rnd hf]; linarith
    · rw [euler_time rnd hf]; congr 1; ring
    · intro y hy
      have hne : mpLoop rnd f T dt n (k + 1) (i + 1) (euler rnd f dt x) ≠ [] := by
        rw [← List.length_pos_iff, mpLoop_length]; omega
      have hy' : y ∈ (mpLoop rnd f T dt n (k + 1) (i + 1) (euler rnd f dt x)).getLast? := by
        rw [List.getLast?_cons_of_ne_nil hne] at hy
        exact hy
      rw [l y hy', euler_time rnd hf]
      push_cast; ring

/-- the number of steps, and the length of the last one -/
theorem steps_bounds {T dt : ℝ} (hT : 0 < T) (hdt : 0 < dt) : 0 < ⌈T / dt⌉ ∧ 0 < T - ((⌈T / dt⌉.toNat : ℝ) - 1) * dt ∧
    T - ((⌈T / dt⌉.toNat : ℝ) - 1) * dt ≤ dt := by
  have hq : 0 < T / dt := div_pos hT hdt
  have hc : 0 < ⌈T / dt⌉ := Int.ceil_pos.2 hq
  have hcast : ((⌈T / dt⌉.toNat : ℕ) : ℝ) = (⌈T / dt⌉ : ℝ) := by
    have : ((⌈T / dt⌉.toNat : ℕ) : ℤ) = ⌈T / dt⌉ := Int.toNat_of_nonneg hc.le
    exact_mod_cast this
  refine ⟨hc, ?_, ?_⟩
  · rw [hcast]
    have := Int.ceil_lt_add_one (T / dt)
    have : ((⌈T / dt⌉ : ℝ) - 1) * dt < T / dt * dt := mul_lt_mul_of_pos_right (by linarith) hdt
    rw [div_mul_cancel₀ _ hdt.ne'] at this
    linarith
  · rw [hcast]
    have : T / dt * dt ≤ (⌈T / dt⌉ : ℝ) * dt := mul_le_mul_of_nonneg_right (Int.le_ceil _) hdt.le
    rw [div_mul_cancel₀ _ hdt.ne'] at this
    linarith

/-- **C51, continuous actions**: for every dynamic model whose time passes at rate 1 (single track and steering rate model) the
trajectory starts at the ego's state, every further row is an integration step of at most the configured length from the previous one
with the selected input, times strictly increase and end exactly at the horizon. -/
theorem C51_continuous {U : Type} (rnd : ℝ → ℝ) (model : U → State → State) {prims : List U} {active : Nat} {u : U}
    (hu : prims[active]? = some u) (hf : ∀ x, model u x 0 = 1) {T dt : ℝ} (hT : 0 ≤ T) (hdt : 0 < dt) (ego : State) :
    ∃ l, planContinuous rnd model prims active T dt ego = .ok l ∧ l.head? = some ego ∧
      List.IsChain (fun x y => x 0 < y 0 ∧ y 0 - x 0 ≤ dt ∧ y = euler rnd (model u) (y 0 - x 0) x) l ∧
      Serves (fun x : State => x 0) (ego 0) T l ∧ ∃ y ∈ l.getLast?, y 0 = ego 0 + T := by
  rcases hT.eq_or_lt with h0 | hpos
  · subst h0
    refine ⟨[ego], ?_, rfl, List.isChain_singleton _, ⟨by simp, rfl, ego 0, by simp, by simp⟩, ego, by simp, by simp⟩
    simp only [planContinuous, if_neg hdt.ne', zero_div, Int.ceil_zero, zero_add, lt_irrefl, if_false, if_true]
  · obtain ⟨hc, hs1, hs2⟩ := steps_bounds hpos hdt
    have hn : (⌈T / dt⌉ + 1).toNat = ⌈T / dt⌉.toNat + 1 := by omega
    have hcast : (((⌈T / dt⌉.toNat + 1 : ℕ) : ℝ) - 2) = (⌈T / dt⌉.toNat : ℝ) - 1 := by push_cast; ring
    obtain ⟨ch, la⟩ := mpLoop_spec rnd hf hdt (T := T) (n := ⌈T / dt⌉.toNat + 1) (by rw [hcast]; exact hs1) (by rw [hcast]; exact hs2)
      ⌈T / dt⌉.toNat 1 ego (by omega) (by omega) (by omega)
    have hne : mpLoop rnd (model u) T dt (⌈T / dt⌉.toNat + 1) ⌈T / dt⌉.toNat 1 ego ≠ [] := by
      rw [← List.length_pos_iff, mpLoop_length]; omega
    have hlast : ∃ y ∈ (ego :: mpLoop rnd (model u) T dt (⌈T / dt⌉.toNat + 1) ⌈T / dt⌉.toNat 1 ego).getLast?, y 0 = ego 0 + T := by
      refine ⟨List.getLast _ hne, ?_, ?_⟩
      · rw [List.getLast?_cons_of_ne_nil hne, List.getLast?_eq_some_getLast hne]; rfl
      · have hla := la (List.getLast _ hne) (by rw [List.getLast?_eq_some_getLast hne]; rfl)
        rw [hla, hcast]; ring
    refine ⟨ego :: mpLoop rnd (model u) T dt (⌈T / dt⌉.toNat + 1) ⌈T / dt⌉.toNat 1 ego, ?_, rfl, ch,
      ⟨pairwise_of_chain _ (fun _ _ h => h.1) ch, rfl, ?_⟩, hlast⟩
    · unfold planContinuous
      rw [if_neg hdt.ne', if_neg (by omega), if_neg (by omega), hu, hn]
    · obtain ⟨y, hy, e⟩ := hlast
      refine ⟨y 0, ?_, by rw [e]⟩
      rw [Option.mem_def] at hy ⊢
      rw [List.getLast?_map, hy]; rfl

/-- **C51 violated** by continuous actions for the triple integrator: started at time 0, every row has time 0, whatever the horizon. -/
theorem C51_triple_integrator_violated {U : Type} (rnd : ℝ → ℝ) (inp : U → ℝ × ℝ × ℝ) {prims : List U} {active : Nat} {u : U}
    (hu : prims[active]? = some u) {T dt : ℝ} (hT : 0 < T) (hdt : 0 < dt) (ego : State) (h0 : ego 0 = 0) :
    ∃ l, planContinuous rnd (fun u => tripleIntegrator (inp u).1 (inp u).2.1 (inp u).2.2) prims active T dt ego = .ok l ∧ 2 ≤ l.length ∧
      ∀ y ∈ l, y 0 = 0 := by
  have key : ∀ (n k i : Nat) (x : State), x 0 = 0 →
      ∀ y ∈ mpLoop rnd (tripleIntegrator (inp u).1 (inp u).2.1 (inp u).2.2) T dt n k i x, y 0 = 0 := by
    intro n k
    induction k with
    | zero => intro i x _ y hy; cases hy
    | succ k ih =>
      intro i x hx y hy
      have he : ∀ d, euler rnd (tripleIntegrator (inp u).1 (inp u).2.1 (inp u).2.2) d x 0 = 0 := by
        intro d
        simp only [euler, show (0 : ℕ) ≠ 3 by decide, if_false, tripleIntegrator, hx, mul_zero, add_zero]
      rw [mpLoop] at hy
      rcases List.mem_cons.1 hy with h | h
      · subst h; exact he _
      · exact ih _ _ (he _) y h
  have hc := (steps_bounds hT hdt).1
  refine ⟨_, by unfold planContinuous; rw [if_neg hdt.ne', if_neg (by omega), if_neg (by omega), hu], ?_, ?_⟩
  · rw [List.length_cons, mpLoop_length]; omega
  · intro y hy
    rcases List.mem_cons.1 hy with h | h
    · subst h; exact h0
    · exact key _ _ _ _ h0 y h

theorem dynLoop_spec (rnd : ℝ → ℝ) (f : State → State) (start dt : ℝ) : ∀ (k i : Nat) (x : State),
    (dynLoop rnd f start dt k i x).length = k ∧
    (∀ m (hm : m < (dynLoop rnd f start dt k i x).length), (dynLoop rnd f start dt k i x)[m] 0 = start + ((i + m : ℕ) : ℝ) * dt) ∧
    List.IsChain (fun x y => ∀ j, j ≠ 0 → y j = euler rnd f dt x j) (x :: dynLoop rnd f start dt k i x)
  | 0, i, x => ⟨rfl, fun m hm => absurd hm (by simp [dynLoop]), List.isChain_singleton _⟩
  | k + 1, i, x => by
    obtain ⟨l, t, c⟩ := dynLoop_spec rnd f start dt k (i + 1) (fun j => if j = 0 then start + i * dt else euler rnd f dt x j)
    have hd : dynLoop rnd f start dt (k + 1) i x = (fun j => if j = 0 then start + i * dt else euler rnd f dt x j) ::
      dynLoop rnd f start dt k (i + 1) (fun j => if j = 0 then start + i * dt else euler rnd f dt x j) := rfl
    refine ⟨?_, ?_, ?_⟩
    · rw [hd, List.length_cons, l]
    · intro m hm
      simp only [dynLoop] at hm ⊢
      cases m with
      | zero => simp
      | succ m =>
        simp only [List.getElem_cons_succ]
        rw [t m (by simpa using hm)]
        congr 3; omega
    · rw [hd]
      exact List.isChain_cons_cons.2 ⟨fun j hj => by simp only [hj, if_false], c⟩

/-- **C51, dynamic model**: for every dynamic model, if the ego's state carries the world time, the trajectory starts at the ego's
state, times are equally spaced and reach at least one step beyond the horizon, and apart from the time every row is an integration
step from the previous one. -/
theorem C51_dynamic (rnd : ℝ → ℝ) (f : State → State) {T dt : ℝ} (hT : 0 ≤ T) (hdt : 0 < dt) (ego : State) :
    ∃ l, planDynamic rnd f (ego 0) T dt ego = .ok l ∧ l.head? = some ego ∧
      (∀ m (hm : m < l.length), l[m] 0 = ego 0 + (m : ℝ) * dt) ∧
      List.IsChain (fun x y => ∀ j, j ≠ 0 → y j = euler rnd f dt x j) l ∧ Serves (fun x : State => x 0) (ego 0) (T + dt) l := by
  have hc : 0 ≤ ⌈T / dt⌉ := Int.ceil_nonneg (div_nonneg hT hdt.le)
  obtain ⟨hl, ht, hch⟩ := dynLoop_spec rnd f (ego 0) dt (⌈T / dt⌉ + 1).toNat 1 ego
  have htimes : ∀ m (hm : m < (ego :: dynLoop rnd f (ego 0) dt (⌈T / dt⌉ + 1).toNat 1 ego).length),
      (ego :: dynLoop rnd f (ego 0) dt (⌈T / dt⌉ + 1).toNat 1 ego)[m] 0 = ego 0 + (m : ℝ) * dt := by
    intro m hm
    cases m with
    | zero => simp
    | succ m =>
      simp only [List.getElem_cons_succ]
      rw [ht m (by simpa using hm)]
      congr 3; omega
  refine ⟨ego :: dynLoop rnd f (ego 0) dt (⌈T / dt⌉ + 1).toNat 1 ego, ?_, rfl, htimes, hch, ?_, rfl, ?_⟩
  · unfold planDynamic; rw [if_neg hdt.ne', if_neg (by omega)]
  · rw [List.pairwise_map, List.pairwise_iff_getElem]
    intro a b ha hb hab
    rw [htimes a ha, htimes b hb]
    have : (a : ℝ) < b := by exact_mod_cast hab
    have := mul_lt_mul_of_pos_right this hdt
    linarith
  · refine ⟨ego 0 + ((⌈T / dt⌉ + 1).toNat : ℝ) * dt, ?_, ?_⟩
    · rw [List.getLast?_map, List.getLast?_eq_getElem?, List.length_cons, hl, Nat.add_sub_cancel, List.getElem?_eq_getElem
        (by rw [List.length_cons, hl]; omega), Option.map_some, htimes]
      rfl
    · have hcast : (((⌈T / dt⌉ + 1).toNat : ℕ) : ℝ) = (⌈T / dt⌉ : ℝ) + 1 := by
        have : (((⌈T / dt⌉ + 1).toNat : ℕ) : ℤ) = ⌈T / dt⌉ + 1 := Int.toNat_of_nonneg (by omega)
        exact_mod_cast this
      rw [hcast]
      have : T / dt * dt ≤ (⌈T / dt⌉ : ℝ) * dt := mul_le_mul_of_nonneg_right (Int.le_ceil _) hdt.le
      rw [div_mul_cancel₀ _ hdt.ne'] at this
      linarith

/-- **C51 violated** by the dynamic model when the ego's state is one step or more ahead of the world time: then times do not
increase. -/
theorem C51_dynamic_time_violated (rnd : ℝ → ℝ) (f : State → State) {W T dt : ℝ} (hT : 0 ≤ T) (hdt : 0 < dt) (ego : State)
    (hW : W + dt ≤ ego 0) : ∃ l, planDynamic rnd f W T dt ego = .ok l ∧ ¬ (l.map (fun x : State => x 0)).Pairwise (· < ·) := by
  have hc : 0 ≤ ⌈T / dt⌉ := Int.ceil_nonneg (div_nonneg hT hdt.le)
  refine ⟨_, by unfold planDynamic; rw [if_neg hdt.ne', if_neg (by omega)], fun h => ?_⟩
  obtain ⟨hl, ht, _⟩ := dynLoop_spec rnd f W dt (⌈T / dt⌉ + 1).toNat 1 ego
  rw [List.pairwise_map, List.pairwise_iff_getElem] at h
  have := h 0 1 (by simp) (by rw [List.length_cons, hl]; omega) (by omega)
  simp only [List.getElem_cons_zero, List.getElem_cons_succ] at this
  rw [ht 0 (by rw [hl]; omega)] at this
  norm_num at this
  linarith

theorem caLoop_spec (lo hi a start dt : ℝ) : ∀ (k i : Nat) (s v : ℝ),
    (caLoop lo hi a start dt k i s v).length = k ∧
    ∀ m (hm : m < (caLoop lo hi a start dt k i s v).length),
      (caLoop lo hi a start dt k i s v)[m].t = start + ((i + m : ℕ) : ℝ) * dt
  | 0, i, s, v => ⟨rfl, fun m hm => absurd hm (by simp [caLoop])⟩
  | k + 1, i, s, v => by
    obtain ⟨l, t⟩ := caLoop_spec lo hi a start dt k (i + 1) (s + (1 / 2 * a * dt * dt + v * dt)) (max (min (v + a * dt) hi) lo)
    refine ⟨by rw [caLoop, List.length_cons, l], fun m hm => ?_⟩
    simp only [caLoop] at hm ⊢
    cases m with
    | zero => simp; ring
    | succ m =>
      simp only [List.getElem_cons_succ]
      rw [t m (by simpa using hm)]
      congr 3; omega

/-- while the velocity limits are not touched the motion is uniformly accelerated -/
theorem caLoop_uniform (lo hi a start dt : ℝ) : ∀ (k i : Nat) (s v : ℝ),
    (∀ m : Nat, m ≤ k → lo ≤ v + m * (a * dt) ∧ v + m * (a * dt) ≤ hi) →
    ∀ m (hm : m < (caLoop lo hi a start dt k i s v).length),
      (caLoop lo hi a start dt k i s v)[m].v = v + a * (((m + 1 : ℕ) : ℝ) * dt) ∧
      (caLoop lo hi a start dt k i s v)[m].s = s + v * (((m + 1 : ℕ) : ℝ) * dt) + 1 / 2 * a * (((m + 1 : ℕ) : ℝ) * dt) ^ 2
  | 0, i, s, v, _ => fun m hm => absurd hm (by simp [caLoop])
  | k + 1, i, s, v, h => fun m hm => by
    have h1 := h 1 (by omega)
    have hv : max (min (v + a * dt) hi) lo = v + a * dt := by
      have e : v + ((1 : ℕ) : ℝ) * (a * dt) = v + a * dt := by push_cast; ring
      rw [e] at h1
      rw [min_eq_left h1.2, max_eq_left h1.1]
    have ih := caLoop_uniform lo hi a start dt k (i + 1) (s + (1 / 2 * a * dt * dt + v * dt)) (v + a * dt) (fun m hm' => by
      have := h (m + 1) (by omega)
      have e : v + a * dt + (m : ℝ) * (a * dt) = v + ((m + 1 : ℕ) : ℝ) * (a * dt) := by push_cast; ring
      rw [e]; exact this)
    simp only [caLoop, hv] at hm ⊢
    cases m with
    | zero => simp; ring
    | succ m =>
      simp only [List.getElem_cons_succ]
      obtain ⟨i1, i2⟩ := ih m (by simpa using hm)
      rw [i1, i2]
      push_cast
      constructor <;> ring

/-- **C51, constant acceleration**: with at least two time points and a positive horizon, if the ego's state carries the world time, the
trajectory starts at the ego's state, times are equally spaced and end exactly at the horizon, the reported action is the acceleration,
and as long as the velocity limits are not reached, the motion is uniformly accelerated. -/
theorem C51_constant_acceleration (lo hi a : ℝ) {T : ℝ} (hT : 0 < T) {n : Nat} (hn : 2 ≤ n) (ego : Idm.Row) :
    ∃ l, planConstAcc lo hi a ego.t T n ego = (a, l) ∧ l.length = n ∧ l.head? = some ego ∧ Serves Idm.Row.t ego.t T l ∧
      (∀ m (hm : m < l.length), l[m].t = ego.t + (m : ℝ) * (T / ((n : ℝ) - 1))) ∧
      ((∀ τ, 0 ≤ τ → τ ≤ T → lo ≤ ego.v + a * τ ∧ ego.v + a * τ ≤ hi) → ∀ x ∈ l,
        x.v = ego.v + a * (x.t - ego.t) ∧ x.s = ego.s + ego.v * (x.t - ego.t) + 1 / 2 * a * (x.t - ego.t) ^ 2) := by
  have hn1 : (0 : ℝ) < (n : ℝ) - 1 := by
    have : (2 : ℝ) ≤ n := by exact_mod_cast hn
    linarith
  have hdt : 0 < T / ((n : ℝ) - 1) := div_pos hT hn1
  obtain ⟨hl, ht⟩ := caLoop_spec lo hi a ego.t (T / ((n : ℝ) - 1)) (n - 1) 1 ego.s ego.v
  have htimes : ∀ m (hm : m < (ego :: caLoop lo hi a ego.t (T / ((n : ℝ) - 1)) (n - 1) 1 ego.s ego.v).length),
      (ego :: caLoop lo hi a ego.t (T / ((n : ℝ) - 1)) (n - 1) 1 ego.s ego.v)[m].t = ego.t + (m : ℝ) * (T / ((n : ℝ) - 1)) := by
    intro m hm
    cases m with
    | zero => simp
    | succ m =>
      simp only [List.getElem_cons_succ]
      rw [ht m (by simpa using hm)]
      congr 3; omega
  have hcast : (((n - 1 : ℕ) : ℕ) : ℝ) = (n : ℝ) - 1 := by rw [Nat.cast_sub (by omega)]; norm_num
  refine ⟨ego :: caLoop lo hi a ego.t (T / ((n : ℝ) - 1)) (n - 1) 1 ego.s ego.v, ?_, by rw [List.length_cons, hl]; omega, rfl,
    ⟨?_, rfl, ego.t + T, ?_, le_refl _⟩, htimes, ?_⟩
  · unfold planConstAcc; rw [if_pos hn]
  · rw [List.pairwise_map, List.pairwise_iff_getElem]
    intro x y hx hy hxy
    rw [htimes x hx, htimes y hy]
    have : (x : ℝ) < y := by exact_mod_cast hxy
    have := mul_lt_mul_of_pos_right this hdt
    linarith
  · rw [List.getLast?_map, List.getLast?_eq_getElem?, List.length_cons, hl, Nat.add_sub_cancel, List.getElem?_eq_getElem
      (by rw [List.length_cons, hl]; omega), Option.map_some, htimes, hcast, mul_div_cancel₀ _ hn1.ne']
    rfl
  · intro hb x hx
    rcases List.mem_cons.1 hx with h | h
    · subst h; simp
    · obtain ⟨m, hm, e⟩ := List.getElem_of_mem h
      have hu := caLoop_uniform lo hi a ego.t (T / ((n : ℝ) - 1)) (n - 1) 1 ego.s ego.v (fun j hj => by
        have hjT : (j : ℝ) * (T / ((n : ℝ) - 1)) ≤ T := by
          have : (j : ℝ) ≤ (n : ℝ) - 1 := by rw [← hcast]; exact_mod_cast hj
          calc (j : ℝ) * (T / ((n : ℝ) - 1)) ≤ ((n : ℝ) - 1) * (T / ((n : ℝ) - 1)) := mul_le_mul_of_nonneg_right this hdt.le
            _ = T := mul_div_cancel₀ _ hn1.ne'
        have := hb ((j : ℝ) * (T / ((n : ℝ) - 1))) (by positivity) hjT
        have e : ego.v + a * ((j : ℝ) * (T / ((n : ℝ) - 1))) = ego.v + (j : ℝ) * (a * (T / ((n : ℝ) - 1))) := by ring
        rw [e] at this
        exact this) m hm
      have htm := ht m hm
      rw [e] at hu htm
      have e2 : x.t - ego.t = ((m + 1 : ℕ) : ℝ) * (T / ((n : ℝ) - 1)) := by
        rw [htm, Nat.add_comm 1 m]; ring
      rw [e2]
      exact hu

/-- **C51 violated**: with a single time point the constant-acceleration trajectory is the ego's state alone, which serves no positive
horizon. -/
theorem C51_single_point_violated (lo hi a W : ℝ) {T : ℝ} (hT : 0 < T) (ego : Idm.Row) :
    planConstAcc lo hi a W T 1 ego = (0, [ego]) ∧ ¬ Serves Idm.Row.t ego.t T [ego] := by
  constructor
  · simp [planConstAcc, caLoop]
  · rintro ⟨_, _, t, ht, h⟩
    simp at ht
    rw [← ht] at h
    linarith

/-- the hypotheses of `C51_continuous` are met by the single track model -/
example (rnd : ℝ → ℝ) (ego : State) : ∃ l, planContinuous rnd (fun u : ℝ × ℝ => singleTrack 3 u.1 u.2) [(1, 0), (0, 0)] 1 (1/2) (1/5) ego =
    .ok l ∧ ∃ y ∈ l.getLast?, y 0 = ego 0 + 1 / 2 := by
  obtain ⟨l, h, _, _, _, h2⟩ := C51_continuous rnd (fun u : ℝ × ℝ => singleTrack 3 u.1 u.2) (prims := [(1, 0), (0, 0)]) (active := 1) rfl
    (fun _ => rfl) (T := 1/2) (dt := 1/5) (by norm_num) (by norm_num) ego
  exact ⟨l, h, h2⟩

end Bark.Act
