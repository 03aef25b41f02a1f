import Verif.Model.Sensed

/-! C13: observations are retained without bound. -/
namespace Bark.Props
open Bark Sensed

theorem depth_node (l : List (Nat × Option SWorld)) :
    (SWorld.node l).depth = 1 + (l.map (fun p => retained p.2)).foldr max 0 := by
  rw [SWorld.depth]
  congr 2
  conv_rhs => rw [← List.attach_map_subtype_val l, List.map_map]
  apply List.map_congr_left
  intro p _
  simp only [Function.comp]
  split
  · rename_i h; rw [h]; rfl
  · rename_i s h; rw [h]; rfl

theorem le_foldr_max (l : List Nat) (x : Nat) (h : x ∈ l) : x ≤ l.foldr max 0 := by
  induction l with
  | nil => cases h
  | cons y l ih =>
    simp only [List.foldr_cons]
    rcases List.mem_cons.1 h with rfl | h
    · exact le_max_left _ _
    · exact le_trans (ih h) (le_max_right _ _)

theorem foldr_max_le (l : List Nat) (b : Nat) (h : ∀ x ∈ l, x ≤ b) : l.foldr max 0 ≤ b := by
  induction l with
  | nil => exact Nat.zero_le _
  | cons y l ih =>
    simp only [List.foldr_cons]
    exact max_le (h y (by simp)) (ih (fun x hx => h x (by simp [hx])))

theorem planSensed_fst (active : Nat → Bool) (w : List (Nat × Option SWorld)) :
    (planSensed active w).map Prod.fst = w.map Prod.fst := by
  unfold planSensed
  rw [List.map_map]
  apply List.map_congr_left
  intro p _
  simp only [Function.comp]; split_ifs <;> rfl

theorem steps_fst (active : Nat → Bool) (w : List (Nat × Option SWorld)) (n : Nat) :
    (steps active w n).map Prod.fst = w.map Prod.fst := by
  induction n with
  | zero => rfl
  | succ n ih => simp only [steps]; rw [planSensed_fst, ih]

/-- **C13 is violated**: if agents start without a sensed world, then after `n` steps every active agent
retains, through its sensed world, a chain of exactly `n` observed worlds — growth is unbounded. -/
theorem C13_retained_grows (active : Nat → Bool) (w : List (Nat × Option SWorld))
    (hinit : ∀ p ∈ w, p.2 = none) (n : Nat) :
    ∀ p ∈ steps active w n, active p.1 = true → retained p.2 = n := by
  have hinv : ∀ n, (∀ p ∈ steps active w n, retained p.2 ≤ n) ∧
      (∀ p ∈ steps active w n, active p.1 = true → retained p.2 = n) := by
    intro n
    induction n with
    | zero =>
      constructor
      · intro p hp; rw [hinit p hp]; exact le_rfl
      · intro p hp _; rw [hinit p hp]; rfl
    | succ n ih =>
      obtain ⟨ih1, ih2⟩ := ih
      have hle : (SWorld.node (steps active w n)).depth ≤ n + 1 := by
        rw [depth_node]
        have := foldr_max_le ((steps active w n).map (fun p => retained p.2)) n (by
          intro x hx
          obtain ⟨q, hq, rfl⟩ := List.mem_map.1 hx
          exact ih1 q hq)
        omega
      have hact : ∀ q ∈ steps active w n, active q.1 = true →
          (SWorld.node (steps active w n)).depth = n + 1 := by
        intro q hq ha
        apply le_antisymm hle
        rw [depth_node]
        have := le_foldr_max ((steps active w n).map (fun p => retained p.2)) n
          (List.mem_map.2 ⟨q, hq, ih2 q hq ha⟩)
        omega
      constructor
      · intro p hp
        simp only [steps, planSensed] at hp
        obtain ⟨q, hq, rfl⟩ := List.mem_map.1 hp
        split_ifs with h
        · exact hle
        · exact le_trans (ih1 q hq) (Nat.le_succ _)
      · intro p hp ha
        simp only [steps, planSensed] at hp
        obtain ⟨q, hq, rfl⟩ := List.mem_map.1 hp
        split_ifs at ha ⊢ with h
        · exact hact q hq h
        · exact absurd ha (by simpa using h)
  exact (hinv n).2

/-- **C13** (no bound): no constant bounds the retained chain of an active agent. -/
theorem C13_violated (active : Nat → Bool) (w : List (Nat × Option SWorld))
    (hinit : ∀ p ∈ w, p.2 = none) (i : Nat) (hi : i ∈ w.map Prod.fst) (ha : active i = true) :
    ¬ ∃ bound, ∀ n, ∀ p ∈ steps active w n, p.1 = i → retained p.2 ≤ bound := by
  rintro ⟨b, hb⟩
  have : i ∈ (steps active w (b + 1)).map Prod.fst := by rw [steps_fst]; exact hi
  obtain ⟨p, hp, rfl⟩ := List.mem_map.1 this
  have h1 := hb (b + 1) p hp rfl
  rw [C13_retained_grows active w hinit (b + 1) p hp ha] at h1
  omega

/-- inactive agents retain nothing (the one case where the property holds) -/
theorem C13_inactive_partial (active : Nat → Bool) (w : List (Nat × Option SWorld))
    (hinit : ∀ p ∈ w, p.2 = none) (n : Nat) :
    ∀ p ∈ steps active w n, active p.1 = false → retained p.2 = 0 := by
  induction n with
  | zero => intro p hp _; rw [hinit p hp]; rfl
  | succ n ih =>
    intro p hp ha
    simp only [steps, planSensed] at hp
    obtain ⟨q, hq, rfl⟩ := List.mem_map.1 hp
    split_ifs at ha ⊢ with h
    · rw [h] at ha; cases ha
    · exact ih q hq (by simpa using h)

example : ∀ p ∈ [(1, (none : Option SWorld)), (2, none)], p.2 = none := by simp

end Bark.Props
