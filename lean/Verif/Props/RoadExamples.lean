import Verif.Props.RoadLinks
import Mathlib.Tactic.NormNum

/-!
Concrete maps: they meet the hypotheses of the theorems on the lane graph, and show where the code leaves the claims.
-/
namespace Bark.RG
open Spec

/-- one lane section with a lane for the opposite direction, the reference lane and two forward lanes; lanes linked position by
position -/
def demoSection (k : Nat) : List Lane :=
  [⟨k + 1, 1, true, .backward, 1, 1⟩, ⟨k + 2, 0, false, .backward, 0, 0⟩, ⟨k + 3, -1, true, .forward, -1, -1⟩,
   ⟨k + 4, -2, true, .forward, -2, -2⟩]

/-- two roads in a row -/
def demo (second : Nat) : XMap :=
  ⟨[(1, ⟨[demoSection 0], second, true, 0, false⟩), (second, ⟨[demoSection 4], 0, false, 1, true⟩)], []⟩

theorem demo_laneIn {second r : Nat} {s : List Lane} {l : Lane} :
    LaneIn (demo second) r s l ↔
      (r = 1 ∧ s = demoSection 0 ∧ l ∈ demoSection 0) ∨ (r = second ∧ s = demoSection 4 ∧ l ∈ demoSection 4) := by
  unfold LaneIn demo
  constructor
  · rintro ⟨R, hR, hs, hl⟩
    simp only [List.mem_cons, Prod.mk.injEq, List.not_mem_nil, or_false] at hR
    rcases hR with ⟨rfl, rfl⟩ | ⟨rfl, rfl⟩
    · simp only [List.mem_singleton] at hs; subst hs; exact .inl ⟨rfl, rfl, hl⟩
    · simp only [List.mem_singleton] at hs; subst hs; exact .inr ⟨rfl, rfl, hl⟩
  · rintro (⟨rfl, rfl, hl⟩ | ⟨rfl, rfl, hl⟩)
    · exact ⟨⟨[demoSection 0], second, true, 0, false⟩, by simp, by simp, hl⟩
    · exact ⟨⟨[demoSection 4], 0, false, 1, true⟩, by simp, by simp, hl⟩

theorem demo_wellFormed {second : Nat} (h : 1 < second) : WellFormed (demo second) where
  roads := by simp [demo, OMap.Sorted, h]
  ids := by
    have : (demo second).lanes.map (fun v => v.lane.id) = [1, 2, 3, 4, 5, 6, 7, 8] := by
      simp [demo, XMap.lanes, demoSection]
    rw [this]; decide
  pos := by
    intro r s l l' h1 h2 e
    have hs : ∀ k, ∀ a ∈ demoSection k, ∀ b ∈ demoSection k, a.pos = b.pos → a = b := by
      intro k a ha b hb e
      simp only [demoSection, List.mem_cons, List.not_mem_nil, or_false] at ha hb
      rcases ha with rfl | rfl | rfl | rfl <;> rcases hb with rfl | rfl | rfl | rfl <;> first | rfl | (simp at e)
    rcases demo_laneIn.1 h1 with ⟨_, rfl, q1⟩ | ⟨_, rfl, q1⟩
    · rcases demo_laneIn.1 h2 with ⟨_, e2, h2⟩ | ⟨_, e2, h2⟩
      · exact hs 0 l q1 l' h2 e
      · simp [demoSection] at e2
    · rcases demo_laneIn.1 h2 with ⟨_, e2, h2⟩ | ⟨_, e2, h2⟩
      · simp [demoSection] at e2
      · exact hs 4 l q1 l' h2 e
  zero := by
    intro r s l h1
    have : ∀ k, ∀ a ∈ demoSection k, a.id ≠ 0 := by
      intro k a ha
      simp only [demoSection, List.mem_cons, List.not_mem_nil, or_false] at ha
      rcases ha with rfl | rfl | rfl | rfl <;> simp
    rcases demo_laneIn.1 h1 with ⟨_, rfl, q1⟩ | ⟨_, rfl, q1⟩ <;> exact this _ _ q1

theorem demo_complete (second : Nat) : Complete (demo second) where
  sections := by
    intro r R h
    simp only [demo, List.mem_cons, Prod.mk.injEq, List.not_mem_nil, or_false] at h
    rcases h with ⟨_, rfl⟩ | ⟨_, rfl⟩ <;> simp
  conns := by intro c hc; simp [demo] at hc

theorem demo_rightHand (second : Nat) : RightHand (demo second) := by
  intro r s l h
  have : ∀ k, ∀ a ∈ demoSection k, (a.pos < 0 → a.dir = .forward) ∧ (0 < a.pos → a.dir = .backward) := by
    intro k a ha
    simp only [demoSection, List.mem_cons, List.not_mem_nil, or_false] at ha
    rcases ha with rfl | rfl | rfl | rfl <;> simp
  rcases demo_laneIn.1 h with ⟨_, rfl, h1⟩ | ⟨_, rfl, h1⟩ <;> exact this _ _ h1

theorem demo_clean : Clean (demo 2) where
  small := by
    intro r R h
    simp only [demo, List.mem_cons, Prod.mk.injEq, List.not_mem_nil, or_false] at h
    rcases h with ⟨_, rfl⟩ | ⟨_, rfl⟩ <;> simp
  both := by
    intro r R s l R' h hs hl _ _ hf
    have : ∀ k, ∀ a ∈ demoSection k, a.fromPos ≠ 0 → a.toPos ≠ 0 := by
      intro k a ha
      simp only [demoSection, List.mem_cons, List.not_mem_nil, or_false] at ha
      rcases ha with rfl | rfl | rfl | rfl <;> simp
    simp only [demo, List.mem_cons, Prod.mk.injEq, List.not_mem_nil, or_false] at h
    rcases h with ⟨_, rfl⟩ | ⟨_, rfl⟩ <;> (simp only [List.mem_singleton] at hs; subst hs; exact this _ l hl hf)

/-- the hypotheses of the C32 and C66 theorems are met, and the answers are the expected ones -/
example : ∃ g, generate (demo 2) = .ok g ∧
    innerNeighbor g 4 = .ok (some 3) ∧ outerNeighbor g 3 = .ok (some 4) ∧
    leftLane g 3 .forward = .ok (some 1) ∧ rightLane g 1 .forward = .ok (some 3) ∧ leftLane g 3 .backward = .ok (some 4) ∧
    planViewForLane g 4 = .ok (some 2) ∧ successors g 3 = .ok [7, 7] ∧ successors g 7 = .ok [3, 3] := by
  obtain ⟨g, hg⟩ := C32_generation_succeeds (demo_wellFormed (second := 2) (by omega)) (demo_complete 2)
  refine ⟨g, hg, ?_⟩
  have e : (generate (demo 2)).toOption.map (fun g => (innerNeighbor g 4, outerNeighbor g 3, leftLane g 3 .forward,
      rightLane g 1 .forward, leftLane g 3 .backward, planViewForLane g 4, successors g 3, successors g 7)) =
      some (.ok (some 3), .ok (some 4), .ok (some 1), .ok (some 3), .ok (some 4), .ok (some 2), .ok [7, 7], .ok [3, 3]) := by
    rfl
  rw [hg] at e
  simp only [Except.toOption, Option.map_some, Option.some.injEq, Prod.mk.injEq] at e
  exact e

/-- Violation of the claim that all links are taken up: if the successor road has an id above 1000, the map declares the link
but the graph has no edge out of lane 3 — from the road that names the successor; and a road without successor (stored as id
1000000) loses its predecessor link in the same way. -/
theorem C66_large_id_violated :
    ∃ m g l l', WellFormed m ∧ Complete m ∧ generate m = .ok g ∧ LaneIn m 1 (demoSection 0) l ∧ Declared m l l' ∧
      ∃ R', (1001, R') ∈ m.roads ∧ l' ∈ R'.sections.flatten ∧ successors g l.id = .ok [] := by
  let m : XMap :=
    ⟨[(1, ⟨[demoSection 0], 1001, true, 0, false⟩), (1001, ⟨[demoSection 4], 1000000, false, 1, true⟩)], []⟩
  have hlane : ∀ {r s l}, LaneIn m r s l → LaneIn (demo 1001) r s l := by
    rintro r s l ⟨R, hR, hs, hl⟩
    simp only [m, List.mem_cons, Prod.mk.injEq, List.not_mem_nil, or_false] at hR
    rcases hR with ⟨rfl, rfl⟩ | ⟨rfl, rfl⟩
    · exact ⟨⟨[demoSection 0], 1001, true, 0, false⟩, by simp [demo], hs, hl⟩
    · exact ⟨⟨[demoSection 4], 0, false, 1, true⟩, by simp [demo], hs, hl⟩
  have hw : WellFormed m := by
    have hd := demo_wellFormed (second := 1001) (by omega)
    refine ⟨by simp [m, OMap.Sorted], ?_, ?_, ?_⟩
    · have : m.lanes.map (fun v => v.lane.id) = [1, 2, 3, 4, 5, 6, 7, 8] := by
        simp [m, XMap.lanes, demoSection]
      rw [this]; decide
    · intro r s l l' h1 h2 e; exact hd.pos r s l l' (hlane h1) (hlane h2) e
    · intro r s l h1; exact hd.zero r s l (hlane h1)
  have hc : Complete m := by
    refine ⟨?_, ?_⟩
    · intro r R h
      simp only [m, List.mem_cons, Prod.mk.injEq, List.not_mem_nil, or_false] at h
      rcases h with ⟨_, rfl⟩ | ⟨_, rfl⟩ <;> simp
    · intro c hc; simp [m] at hc
  obtain ⟨g, hg⟩ := C32_generation_succeeds hw hc
  have hs := generate_same hg
  refine ⟨m, g, ⟨3, -1, true, .forward, -1, -1⟩, ⟨7, -1, true, .forward, -1, -1⟩, hw, hc, hg, ?_, ?_, ?_⟩
  · exact ⟨⟨[demoSection 0], 1001, true, 0, false⟩, by simp [m], by simp, by simp [demoSection]⟩
  · refine .succ (r := 1) (R := ⟨[demoSection 0], 1001, true, 0, false⟩)
      (R' := ⟨[demoSection 4], 1000000, false, 1, true⟩) (s := demoSection 0) (by simp [m]) rfl (by simp [m]) (by simp)
      (by simp [demoSection]) (by simp) ⟨demoSection 4, rfl, by simp [demoSection], rfl⟩
  · refine ⟨⟨[demoSection 4], 1000000, false, 1, true⟩, by simp [m], by simp [demoSection], ?_⟩
    have hl : LaneIn m 1 (demoSection 0) ⟨3, -1, true, .forward, -1, -1⟩ :=
      ⟨⟨[demoSection 0], 1001, true, 0, false⟩, by simp [m], by simp, by simp [demoSection]⟩
    obtain ⟨⟨L, h1, h2⟩, _⟩ := successors_hasEdge hw (hs.1.trans (base_verts m)) (lane_lookup hs hl)
    rw [h1]
    cases L with
    | nil => rfl
    | cons j L =>
      exfalso
      obtain ⟨a, b, ht, _⟩ := (generated_edges hw hc hg _ _).1 ((h2 j).1 (by simp))
      cases ht with
      | succ h0 h1 =>
        simp only [m, List.mem_cons, Prod.mk.injEq, List.not_mem_nil, or_false] at h1
        rcases h1 with ⟨_, rfl⟩ | ⟨_, rfl⟩ <;> simp at h0
      | pred h0 h1 =>
        simp only [m, List.mem_cons, Prod.mk.injEq, List.not_mem_nil, or_false] at h1
        rcases h1 with ⟨_, rfl⟩ | ⟨_, rfl⟩ <;> simp at h0
      | junction h1 => simp [m] at h1

end Bark.RG
