import Verif.Model.Observer
import Verif.Props.Heap
import Verif.Lemmas.World
import Mathlib.Tactic.Linarith
import Mathlib.Tactic.Ring
import Mathlib.Tactic.LinearCombination

/-! C49: the parametric observer. -/
namespace Bark.Obs
open Bark
set_option linter.unusedSectionVars false

section
variable {D : Type} (draw : D → List ℝ × D)

/-- the sampler after `n` samples -/
def after (d : D) : Nat → D
  | 0 => d
  | n + 1 => (draw (after d n)).2

/-- the `n`-th sample -/
def sampleNo (d : D) (n : Nat) : List ℝ := (draw (after draw d n)).1

theorem after_shift (d : D) (n : Nat) : after draw (draw d).2 n = after draw d (n + 1) := by
  induction n with
  | zero => rfl
  | succ n ih => simp only [after] at ih ⊢; rw [ih]

/-- what is intended: forward by `d0`, to the left by `d1`, heading and velocity changed by `d2`, `d3` -/
noncomputable def intended (s : St) (d0 d1 d2 d3 : ℝ) : St :=
  ⟨s.t, s.x + d0 * Real.cos s.th - d1 * Real.sin s.th, s.y + d0 * Real.sin s.th + d1 * Real.cos s.th, s.th + d2, s.v + d3⟩

/-- the deviations the code applies -/
def Deviated (s s' : St) (d : List ℝ) : Prop :=
  ∃ d0 d1 d2 d3, (∃ r, d = d0 :: d1 :: d2 :: d3 :: r) ∧ s'.t = s.t ∧ s'.th = s.th + d2 ∧ s'.v = s.v + d3 ∧
    s'.x = s.x + (d0 * Real.cos s.th + d1 * Real.sin s.th) ∧ s'.y = s.y + (d0 * Real.sin s.th + d1 * Real.cos s.th)

theorem deviate_ok {s : St} {d : List ℝ} (h : 4 ≤ d.length) : ∃ s', deviate s d = .ok s' ∧ Deviated s s' d := by
  match d, h with
  | d0 :: d1 :: d2 :: d3 :: r, _ => exact ⟨_, rfl, d0, d1, d2, d3, ⟨r, rfl⟩, rfl, rfl, rfl, rfl, rfl⟩

theorem others_ok (m : List (Nat × St)) (d : D) (dim : ∀ d, 4 ≤ (draw d).1.length) :
    ∃ l, others draw m d = .ok (l, after draw d m.length) ∧ l.map Prod.fst = m.map Prod.fst ∧
      ∀ k i s, m[k]? = some (i, s) → ∃ s', l[k]? = some (i, s') ∧ Deviated s s' (sampleNo draw d k) := by
  induction m generalizing d with
  | nil => exact ⟨[], rfl, rfl, fun k i s h => by simp at h⟩
  | cons p m ih =>
    obtain ⟨i, s⟩ := p
    obtain ⟨s', e, dv⟩ := deviate_ok (s := s) (dim d)
    obtain ⟨l, e2, hk, hl⟩ := ih (draw d).2
    refine ⟨(i, s') :: l, ?_, by simp [hk], ?_⟩
    · unfold others
      rw [e, Res.ok_bind, e2, Res.ok_bind, after_shift]
      rfl
    · intro k j sj hj
      cases k with
      | zero =>
        simp only [List.getElem?_cons_zero, Option.some.injEq, Prod.mk.injEq] at hj
        obtain ⟨rfl, rfl⟩ := hj
        exact ⟨s', by simp, dv⟩
      | succ k =>
        simp only [List.getElem?_cons_succ] at hj
        obtain ⟨s'', a, b⟩ := hl k j sj hj
        refine ⟨s'', by simpa using a, ?_⟩
        unfold sampleNo at b ⊢
        rwa [after_shift] at b

/-- **C49**: agents outside a non-empty `SetObserveOnlyForAgents` list see the world as it is, and no sample is drawn -/
theorem C49_not_listed (only : List Nat) (w : World) (i : Nat) (ds : Dists D) (ne : only ≠ []) (ni : i ∉ only) :
    observe draw only w i ds = .ok (w, ds) := by
  unfold observe deviates
  rw [if_neg]
  simp [ne, ni]

/-- **C49** (what the code does): for every other agent the observed world contains exactly the agents of the world; the observer's own
state deviates by the next sample of the ego distribution, the k-th other agent's (in the order of ids) by the k-th next sample of the
other distribution: heading and velocity are shifted by the third and fourth number, the position as in `Deviated`, time is kept. -/
theorem C49_observe (only : List Nat) (w : World) (i : Nat) (s : St) (ds : Dists D) (li : only = [] ∨ i ∈ only)
    (so : OMap.Sorted w.agents) (hi : OMap.find i w.agents = some s) (dim : ∀ d, 4 ≤ (draw d).1.length) :
    ∃ w' ds', observe draw only w i ds = .ok (w', ds') ∧ OMap.keys w'.agents = OMap.keys w.agents ∧
      (∃ s', OMap.find i w'.agents = some s' ∧ Deviated s s' (draw ds.ego).1) ∧
      (∀ k j sj, (w.agents.filter (fun p => p.1 ≠ i))[k]? = some (j, sj) →
        ∃ s', OMap.find j w'.agents = some s' ∧ Deviated sj s' (sampleNo draw ds.others k)) := by
  obtain ⟨s', e, dv⟩ := deviate_ok (s := s) (dim ds.ego)
  obtain ⟨l, e2, hk, hl⟩ := others_ok draw (OMap.erase i w.agents) ds.others dim
  have sl : OMap.Sorted l := by
    rw [OMap.sorted_iff_keys]
    unfold OMap.keys
    rw [hk]
    exact OMap.sorted_iff_keys.1 (OMap.sorted_erase i so)
  have fl : ∀ j, OMap.find j (OMap.insert i s' l) = if j = i then some s' else OMap.find j l := fun j => OMap.find_insert i j s' l
  refine ⟨{ w with agents := OMap.insert i s' l }, ⟨(draw ds.ego).2, after draw ds.others (OMap.erase i w.agents).length⟩, ?_, ?_, ?_, ?_⟩
  · unfold observe deviates
    rw [if_pos (by rcases li with h | h <;> simp [h])]
    simp only [hi]
    rw [e, Res.ok_bind, e2, Res.ok_bind]
  · have n1 := OMap.sorted_iff_keys.1 (OMap.sorted_insert i s' sl)
    have n2 := OMap.sorted_iff_keys.1 so
    apply List.Perm.eq_of_pairwise (le := (· < ·)) (fun a b _ _ x y => absurd (lt_trans x y) (lt_irrefl _)) n1 n2
    rw [List.perm_ext_iff_of_nodup (n1.imp (fun h => ne_of_lt h)) (n2.imp (fun h => ne_of_lt h))]
    intro k
    rw [← OMap.find_isSome_iff, ← OMap.find_isSome_iff, fl]
    by_cases c : k = i
    · subst c
      simp [hi]
    · rw [if_neg c, OMap.find_isSome_iff, OMap.find_isSome_iff]
      unfold OMap.keys
      rw [hk]
      simp [OMap.erase, c]
  · exact ⟨s', by rw [fl, if_pos rfl], dv⟩
  · intro k j sj hj
    have hj' : (OMap.erase i w.agents)[k]? = some (j, sj) := by
      rw [← hj]
      unfold OMap.erase
      congr 2
      funext p
      simp
    obtain ⟨s'', a, b⟩ := hl k j sj hj'
    refine ⟨s'', ?_, b⟩
    have hmem := List.mem_of_getElem? hj
    have ne : j ≠ i := by simpa using (List.mem_filter.1 hmem).2
    rw [fl, if_neg ne]
    exact OMap.mem_find_some sl (List.mem_of_getElem? a)

/-- **C49** (what holds): deviations without a lateral part are as intended -/
theorem C49_longitudinal (s : St) (d0 d2 d3 : ℝ) : deviate s [d0, 0, d2, d3] = .ok (intended s d0 0 d2 d3) := by
  simp [deviate, intended]

/-- **C49** violated for lateral deviations: the displacement has the right length, but it is orthogonal to the heading only if the
vehicle is parallel to an axis (`sin 2θ = 0`) or there is no lateral deviation; in particular it never is the intended one unless
`d1 sin θ = 0` -/
theorem C49_lateral_violated (s : St) (d1 : ℝ) : ∃ s', deviate s [0, d1, 0, 0] = .ok s' ∧
    (s'.x - s.x) ^ 2 + (s'.y - s.y) ^ 2 = d1 ^ 2 ∧
    ((s'.x - s.x) * Real.cos s.th + (s'.y - s.y) * Real.sin s.th = 0 ↔ d1 = 0 ∨ Real.sin (2 * s.th) = 0) ∧
    (s' = intended s 0 d1 0 0 ↔ d1 * Real.sin s.th = 0) := by
  refine ⟨_, rfl, ?_, ?_, ?_⟩
  · simp only
    have := Real.sin_sq_add_cos_sq s.th
    linear_combination d1 ^ 2 * this
  · simp only
    have e : (s.x + (0 * Real.cos s.th + d1 * Real.sin s.th) - s.x) * Real.cos s.th +
        (s.y + (0 * Real.sin s.th + d1 * Real.cos s.th) - s.y) * Real.sin s.th = d1 * Real.sin (2 * s.th) := by
      rw [Real.sin_two_mul]
      ring
    rw [e, mul_eq_zero]
  · unfold intended
    simp only [St.mk.injEq, true_and]
    constructor
    · rintro ⟨h, _⟩
      linarith
    · intro h
      refine ⟨by linarith, by ring, trivial⟩

/-- **C49** violated by the default settings: the default deviation distribution has three dimensions
(multivariate_normal.hpp:85-107), so a number is read out of range -/
theorem C49_default_dimension (only : List Nat) (w : World) (i : Nat) (s : St) (ds : Dists D) (li : only = [] ∨ i ∈ only)
    (hi : OMap.find i w.agents = some s) (three : (draw ds.ego).1.length = 3) : observe draw only w i ds = .error .ub := by
  unfold observe deviates
  rw [if_pos (by rcases li with h | h <;> simp [h])]
  simp only [hi]
  have : deviate s (draw ds.ego).1 = .error .ub := by
    match h : (draw ds.ego).1, three with
    | [a, b, c], _ => rfl
  rw [this]
  rfl

/-- **C49**: the spatial index of the observed world is that of the world, so it gives the undeviated positions -/
theorem C49_index_stale (only : List Nat) (w w' : World) (i : Nat) (ds ds' : Dists D)
    (h : observe draw only w i ds = .ok (w', ds')) : w'.index = w.index := by
  unfold observe at h
  split_ifs at h
  · cases hf : OMap.find i w.agents with
    | none => rw [hf] at h; cases h
    | some s =>
      rw [hf] at h
      simp only at h
      obtain ⟨s', _, h⟩ := Res.bind_ok h
      obtain ⟨r, _, h⟩ := Res.bind_ok h
      cases h
      rfl
  · cases h
    rfl

end

/-- the hypotheses of `C49_observe` are met: two agents, four-dimensional deviations -/
example : OMap.Sorted (([(1, ⟨0, 0, 0, 0, 1⟩), (2, ⟨0, 5, 0, 1, 1⟩)] : OMap Nat St)) ∧
    (∀ d : Nat, 4 ≤ ((fun n : Nat => (([n, 1, 0, 0] : List ℝ), n + 1)) d).1.length) := by
  refine ⟨?_, fun d => by simp⟩
  unfold OMap.Sorted
  simp

end Bark.Obs

namespace Bark.Ptr
open Bark Bark.Props
variable {V : Type}

/-- **C49** (pointer side): every observation of the parametric observer has agent objects of its own, different from those of the world
and of all other observations, and the world's objects are not changed -/
theorem C49_observations_separate {h h' : Heap V} {w : WorldR} {ids : List Nat} {l : List (Nat × WorldR)} (hv : Valid h)
    (hw : ∀ p ∈ w.agents, (h.mem p.2).isSome) (hc : observeParametric h w ids = .ok (h', l)) :
    l.map Prod.fst = ids ∧ (∀ r, r < h.next → h'.mem r = h.mem r) ∧ (∀ p ∈ l, ∀ q ∈ p.2.agents, h.next ≤ q.2) ∧
    l.Pairwise (fun p q => ∀ a ∈ p.2.agents, ∀ b ∈ q.2.agents, a.2 ≠ b.2) := by
  induction ids generalizing h h' l with
  | nil =>
    unfold observeParametric at hc
    cases hc
    exact ⟨rfl, fun _ _ => rfl, (by simp), List.Pairwise.nil⟩
  | cons i ids ih =>
    unfold observeParametric at hc
    obtain ⟨⟨h1, c⟩, hc1, hc⟩ := Res.bind_ok hc
    obtain ⟨⟨h2, rest⟩, hc2, hc⟩ := Res.bind_ok hc
    cases hc
    unfold cloneWorld at hc1
    obtain ⟨⟨h1', m⟩, hc3, hc1⟩ := Res.bind_ok hc1
    cases hc1
    obtain ⟨v1, e1, k1, cp, lo, _⟩ := cloneAgents_ok hv hv (Ext.refl h) hw hc3
    have hw1 : ∀ p ∈ w.agents, (h1.mem p.2).isSome := by
      intro p hp
      obtain ⟨o, ho⟩ := Option.isSome_iff_exists.1 (hw p hp)
      rw [e1.2 p.2 (hv p.2 o ho).1]
      exact hw p hp
    obtain ⟨r1, r2, r3, r4⟩ := ih v1 hw1 hc2
    have hi : ∀ q ∈ m, q.2 < h1.next := by
      intro q hq
      obtain ⟨n, hn, en⟩ := List.mem_iff_getElem.1 hq
      have hlen : m.length = w.agents.length := by
        have := congrArg List.length k1; simpa using this
      have hz : (w.agents[n]'(by omega), q) ∈ w.agents.zip m := by
        rw [List.mem_iff_getElem]
        exact ⟨n, by simp; omega, by simp [en]⟩
      exact (cp _ hz).1.2
    refine ⟨by simp [r1], ?_, ?_, ?_⟩
    · intro r hr
      rw [r2 r (lt_of_lt_of_le hr e1.1), e1.2 r hr]
    · intro p hp q hq
      rcases List.mem_cons.1 hp with e | e
      · rw [e] at hq
        exact lo q hq
      · exact le_trans e1.1 (r3 p e q hq)
    · refine List.Pairwise.cons ?_ r4
      intro p hp a ha b hb
      have h1 := hi a ha
      have h2 := r3 p hp b hb
      exact ne_of_lt (lt_of_lt_of_le h1 h2)

end Bark.Ptr

namespace Bark.Ptr
open Bark Bark.Props
/-- non-vacuity of `C49_observations_separate` -/
example : Valid toyHeap ∧ ∃ r, observeParametric toyHeap ⟨[(7, 0)], []⟩ [7, 7] = .ok r := ⟨toyHeap_valid, _, rfl⟩
end Bark.Ptr
