import Verif.Props.RoadExamples
import Verif.Props.RoadPath

namespace Bark.RG
open Spec

section
variable {m : XMap} {g : Graph} {r : Nat} {s : List Lane}

theorem innerLoop_spec (hw : WellFormed m) (hg : SameNbr (baseGraph m) g) (hcont : Contiguous s) : ∀ (fuel : Nat)
    {c : Lane} (_ : LaneIn m r s c) (_ : closer s c < fuel),
    ∃ L : List Lane, innerLoop g fuel c.id = .ok (L.map (fun l => l.id)) ∧
      L.Pairwise (fun a b => b.pos.natAbs < a.pos.natAbs) ∧
      ∀ i, i ∈ L ↔ i ∈ s ∧ i.pos ≠ 0 ∧ Between i.pos c.pos := by
  intro fuel
  induction fuel with
  | zero => intro c _ h; omega
  | succ n ih =>
    intro c hl hc
    have hu := sec_pos hw hl
    have hls := (mem_sections.2 ⟨r, hl⟩).2
    obtain ⟨o, ho, ho2⟩ := inner_spec hw hg hl
    simp only [innerLoop, ho]
    cases o with
    | none =>
      refine ⟨[], rfl, List.Pairwise.nil, ?_⟩
      intro i
      simp only [List.not_mem_nil, false_iff]
      rintro ⟨hi, h0, hb⟩
      have hc0 : c.pos ≠ 0 := by unfold Between at hb; omega
      obtain ⟨x, hx, e⟩ := hcont c hls (innerPos c.pos) (by unfold Between innerPos; split_ifs <;> omega)
      have := (ho2 x.id).2 ⟨x, hx, rfl, innerPos_towards.1 ⟨hc0, e.symm⟩⟩
      simp at this
    | some j =>
      obtain ⟨x, hx, rfl, ht⟩ := (ho2 j).1 rfl
      obtain ⟨L, h1, h2, h3⟩ := ih (sec_mem hl hx) (by have := closer_lt hx ht; omega)
      refine ⟨c :: L, by simp [h1, Except.map], ?_, ?_⟩
      · refine List.pairwise_cons.2 ⟨?_, h2⟩
        intro b hb
        obtain ⟨_, _, hb⟩ := (h3 b).1 hb
        unfold Between at hb; unfold Towards at ht; omega
      · intro i
        rw [List.mem_cons, h3]
        constructor
        · rintro (rfl | ⟨hi, h0, hb⟩)
          · exact ⟨hls, by unfold Towards at ht; omega, by unfold Between; omega⟩
          · exact ⟨hi, h0, by unfold Between at hb ⊢; unfold Towards at ht; omega⟩
        · rintro ⟨hi, h0, hb⟩
          by_cases e : i.pos = c.pos
          · exact .inl (hu i hi c hls e)
          · exact .inr ⟨hi, h0, by unfold Between at hb ⊢; unfold Towards at ht; omega⟩

/-- number of lanes of the section that are at least as far away from the reference lane -/
def further (s : List Lane) (l : Lane) : Nat := (s.filter (fun i => decide (l.pos.natAbs ≤ i.pos.natAbs))).length

theorem further_lt {i l : Lane} (hl : l ∈ s) (h : Towards i.pos l.pos) : further s i < further s l := by
  unfold further
  refine filter_length_lt (a := l) ?_ hl ?_ ?_
  · intro x _ hx; simp only [decide_eq_true_eq] at hx ⊢; unfold Towards at h; omega
  · simp
  · simp only [decide_eq_false_iff_not]; unfold Towards at h; omega

theorem outerLoop_spec (hw : WellFormed m) (hg : SameNbr (baseGraph m) g) (hcont : Contiguous s) : ∀ (fuel : Nat)
    {c : Lane} (_ : LaneIn m r s c) (_ : c.pos ≠ 0) (_ : further s c ≤ fuel),
    ∃ L : List Lane, outerLoop g fuel (some c.id) = .ok (L.map (fun l => l.id)) ∧
      L.Pairwise (fun a b => a.pos.natAbs < b.pos.natAbs) ∧
      ∀ i, i ∈ L ↔ i ∈ s ∧ SameSide c.pos i.pos ∧ c.pos.natAbs ≤ i.pos.natAbs := by
  intro fuel
  induction fuel with
  | zero =>
    intro c hl h0 hc
    have hls := (mem_sections.2 ⟨r, hl⟩).2
    have : 0 < further s c := by
      unfold further
      rw [List.length_pos_iff_exists_mem]
      exact ⟨c, List.mem_filter.2 ⟨hls, by simp⟩⟩
    omega
  | succ n ih =>
    intro c hl h0 hc
    have hu := sec_pos hw hl
    have hls := (mem_sections.2 ⟨r, hl⟩).2
    obtain ⟨o, ho, ho2⟩ := outer_spec hw hg hl h0
    simp only [outerLoop, ho]
    cases o with
    | none =>
      have hL : outerLoop g n none = .ok [] := by cases n <;> rfl
      refine ⟨[c], by simp [hL, Except.map], by simp, ?_⟩
      intro i
      simp only [List.mem_singleton]
      constructor
      · rintro rfl; exact ⟨hls, by unfold SameSide; omega, le_refl _⟩
      · rintro ⟨hi, hs', hle⟩
        by_cases e : i.pos = c.pos
        · exact hu i hi c hls e
        · exfalso
          obtain ⟨x, hx, ex⟩ := hcont i hi (if 0 < c.pos then c.pos + 1 else c.pos - 1) (by
            unfold Between; unfold SameSide at hs'; split_ifs <;> omega)
          have := (ho2 x.id).2 ⟨x, hx, rfl, by unfold Towards; split_ifs at ex <;> omega⟩
          simp at this
    | some j =>
      obtain ⟨x, hx, rfl, ht⟩ := (ho2 j).1 rfl
      obtain ⟨L, h1, h2, h3⟩ := ih (sec_mem hl hx) (by unfold Towards at ht; omega)
        (by have := further_lt hls ht; omega)
      refine ⟨c :: L, by simp [h1, Except.map], ?_, ?_⟩
      · refine List.pairwise_cons.2 ⟨?_, h2⟩
        intro b hb
        obtain ⟨_, _, hb⟩ := (h3 b).1 hb
        unfold Towards at ht; omega
      · intro i
        rw [List.mem_cons, h3]
        constructor
        · rintro (rfl | ⟨hi, hss, hb⟩)
          · exact ⟨hls, by unfold SameSide; omega, le_refl _⟩
          · exact ⟨hi, by unfold SameSide at hss ⊢; unfold Towards at ht; omega, by unfold Towards at ht; omega⟩
        · rintro ⟨hi, hss, hb⟩
          by_cases e : i.pos = c.pos
          · exact .inl (hu i hi c hls e)
          · exact .inr ⟨hi, by unfold SameSide at hss ⊢; unfold Towards at ht; omega, by
              unfold SameSide at hss; unfold Towards at ht; omega⟩

/-- `GetAllNeighbors` of a lane other than the reference lane, in a section without gaps: each other lane on the same side of
the reference lane, once; the inner ones first (nearest first), then the outer ones (nearest first). -/
theorem C67_all_neighbors (hw : WellFormed m) (hg : generate m = .ok g) (hcont : Contiguous s) {l : Lane}
    (hl : LaneIn m r s l) (h0 : l.pos ≠ 0) :
    ∃ A B : List Lane, allNeighbors g l.id = .ok ((A ++ B).map (fun i => i.id)) ∧
      A.Pairwise (fun a b => b.pos.natAbs < a.pos.natAbs) ∧ B.Pairwise (fun a b => a.pos.natAbs < b.pos.natAbs) ∧
      (∀ i, i ∈ A ↔ i ∈ s ∧ SameSide l.pos i.pos ∧ i.pos.natAbs < l.pos.natAbs) ∧
      (∀ i, i ∈ B ↔ i ∈ s ∧ SameSide l.pos i.pos ∧ l.pos.natAbs < i.pos.natAbs) := by
  have hs := generate_same hg
  have hls := (mem_sections.2 ⟨r, hl⟩).2
  have hlen := sec_length hs hl
  have hA : ∃ A : List Lane, (∃ i, innerNeighbor g l.id = .ok i ∧ (match i with
        | some c => innerLoop g (g.verts.length + 1) c
        | none => .ok []) = .ok (A.map (fun i => i.id))) ∧
      A.Pairwise (fun a b => b.pos.natAbs < a.pos.natAbs) ∧
      (∀ i, i ∈ A ↔ i ∈ s ∧ SameSide l.pos i.pos ∧ i.pos.natAbs < l.pos.natAbs) := by
    obtain ⟨o, ho, ho2⟩ := inner_spec hw hs hl
    obtain ⟨x, hx, e⟩ := hcont l hls (innerPos l.pos) (by unfold Between innerPos; split_ifs <;> omega)
    have ht : Towards l.pos x.pos := innerPos_towards.1 ⟨h0, e.symm⟩
    have := (ho2 x.id).2 ⟨x, hx, rfl, ht⟩
    subst this
    obtain ⟨A, h1, h2, h3⟩ := innerLoop_spec hw hs hcont (g.verts.length + 1) (sec_mem hl hx) (by
      have : closer s x ≤ s.length := List.length_filter_le _ _
      omega)
    refine ⟨A, ⟨_, ho, h1⟩, h2, ?_⟩
    intro i
    rw [h3]
    refine and_congr_right (fun _ => ?_)
    unfold Between SameSide
    unfold Towards at ht
    omega
  have hB : ∃ B : List Lane, (∃ o, outerNeighbor g l.id = .ok o ∧
        outerLoop g (g.verts.length + 1) o = .ok (B.map (fun i => i.id))) ∧
      B.Pairwise (fun a b => a.pos.natAbs < b.pos.natAbs) ∧
      (∀ i, i ∈ B ↔ i ∈ s ∧ SameSide l.pos i.pos ∧ l.pos.natAbs < i.pos.natAbs) := by
    obtain ⟨o, ho, ho2⟩ := outer_spec hw hs hl h0
    cases o with
    | none =>
      refine ⟨[], ⟨none, ho, rfl⟩, List.Pairwise.nil, ?_⟩
      intro i
      simp only [List.not_mem_nil, false_iff]
      rintro ⟨hi, hss, hlt⟩
      obtain ⟨x, hx, ex⟩ := hcont i hi (if 0 < l.pos then l.pos + 1 else l.pos - 1) (by
        unfold Between; unfold SameSide at hss; split_ifs <;> omega)
      have := (ho2 x.id).2 ⟨x, hx, rfl, by unfold Towards; split_ifs at ex <;> omega⟩
      simp at this
    | some j =>
      obtain ⟨x, hx, rfl, ht⟩ := (ho2 j).1 rfl
      obtain ⟨B, h1, h2, h3⟩ := outerLoop_spec hw hs hcont (g.verts.length + 1) (sec_mem hl hx)
        (by unfold Towards at ht; omega) (by
        have : further s x ≤ s.length := List.length_filter_le _ _
        omega)
      refine ⟨B, ⟨_, ho, h1⟩, h2, ?_⟩
      intro i
      rw [h3]
      refine and_congr_right (fun _ => ?_)
      unfold SameSide
      unfold Towards at ht
      omega
  obtain ⟨A, ⟨i, hi, hA1⟩, hA2, hA3⟩ := hA
  obtain ⟨B, ⟨o, ho, hB1⟩, hB2, hB3⟩ := hB
  refine ⟨A, B, ?_, hA2, hB2, hA3, hB3⟩
  unfold allNeighbors
  simp only [getLane_known hw hs hl, if_neg h0, hi, Res.ok_bind, ho, hB1]
  cases i with
  | none =>
    simp only at hA1
    have : A = [] := by
      cases A with
      | nil => rfl
      | cons a A => simp at hA1
    subst this
    simp only [Res.ok_bind, List.map_append]
    rfl
  | some c =>
    simp only at hA1
    simp only [hA1, Res.ok_bind, List.map_append]

/-- the call with the reference lane throws -/
theorem C67_reference_lane_throws (hw : WellFormed m) (hg : generate m = .ok g) {l : Lane} (hl : LaneIn m r s l)
    (h0 : l.pos = 0) : allNeighbors g l.id = .error .thrown := by
  unfold allNeighbors
  simp [getLane_known hw (generate_same hg) hl, h0]

end

theorem demo_contiguous (k : Nat) : Contiguous (demoSection k) := by
  intro l hl q hq
  simp only [demoSection, List.mem_cons, List.not_mem_nil, or_false] at hl
  unfold Between at hq
  have h : q = 1 ∨ q = 0 ∨ q = -1 ∨ q = -2 := by
    rcases hl with rfl | rfl | rfl | rfl <;> simp only at hq <;> omega
  rcases h with rfl | rfl | rfl | rfl <;> simp [demoSection]

example : ∃ g, generate (demo 2) = .ok g ∧ allNeighbors g 4 = .ok [3] ∧ allNeighbors g 3 = .ok [4] := by
  obtain ⟨g, hg⟩ := C32_generation_succeeds (demo_wellFormed (second := 2) (by omega)) (demo_complete 2)
  refine ⟨g, hg, ?_⟩
  have e : (generate (demo 2)).toOption.map (fun g => (allNeighbors g 4, allNeighbors g 3)) =
      some (.ok [3], .ok [4]) := by rfl
  rw [hg] at e
  simpa [Except.toOption] using e

/-- On the two connected roads of `demo` the road path exists (for every search that meets its contract) but the corridor asked
for by road ids is the null pointer. -/
theorem C34_connected_witness : ∃ g p, generate (demo 2) = .ok g ∧
    (∀ a, DijkstraMap (VEdge g roadE (fun _ => true)) (VertOk g (fun _ => true)) a (p a)) ∧
    (∃ R, findRoadPath g p 1 2 = .ok R ∧ R.head? = some 1 ∧ R.getLast? = some 2) ∧
    ∀ build : List Nat → Dir → Unit, corridorByRoadIds build g p 1 2 = .ok none := by
  have hw := demo_wellFormed (second := 2) (by omega)
  obtain ⟨g, hg⟩ := C32_generation_succeeds hw (demo_complete 2)
  have hc := fun a => C33_contract_satisfiable (VEdge g roadE (fun _ => true)) a
  choose p hp using hc
  have hp' : ∀ a, DijkstraMap (VEdge g roadE (fun _ => true)) (VertOk g (fun _ => true)) a (p a) :=
    fun a v _ hv => hp a v trivial hv
  have hu : UniqueIds g := by unfold UniqueIds; rw [(generate_same hg).1.trans (base_verts _)]; exact hw.ids
  have e : (generate (demo 2)).toOption.map (fun g => (decide ((⟨1, 5, .roadSucc⟩ : Edge) ∈ g.edges),
      (g.verts[1]?).map (fun v => v.lane.id), (g.verts[5]?).map (fun v => v.lane.id), planViewForRoad g 1,
      planViewForRoad g 2)) = some (true, some 2, some 6, some 2, some 6) := by decide
  rw [hg] at e
  simp only [Except.toOption, Option.map_some, Option.some.injEq, Prod.mk.injEq, decide_eq_true_eq] at e
  obtain ⟨he, h1, h5, pa, pb⟩ := e
  obtain ⟨R, hR, hnil, hne⟩ := C33_road_path hu hp' pa pb
  have hreach : Reach (LEdge g roadE (fun _ => true)) 2 6 := by
    cases hx : g.verts[1]? with
    | none => rw [hx] at h1; cases h1
    | some x =>
      cases hy : g.verts[5]? with
      | none => rw [hy] at h5; cases h5
      | some y =>
        rw [hx] at h1; rw [hy] at h5
        simp only [Option.map_some, Option.some.injEq] at h1 h5
        exact ⟨[2, 6], _, .step ⟨_, he, by simp [roadE], rfl, x, y, hx, hy, rfl, rfl, h1, h5⟩ (.here 6)⟩
  have hRne : R ≠ [] := fun h => (hnil.1 h) (ledge_road ▸ hreach)
  exact ⟨g, p, hg, hp', ⟨R, hR, (hne hRne).1, (hne hRne).2.1⟩, fun build => C34_violated build g p 1 2 hR⟩

end Bark.RG
