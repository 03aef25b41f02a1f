import Verif.Props.Corridor

/-!
C35: when the lane corridors partition the lanes.
-/
set_option linter.unusedSectionVars false
namespace Bark.Cor
open Spec

section
variable {next : Ptr → Option Ptr}

theorem chain_pred {b : Ptr} {B : List Ptr} (h : Chain next b B) : ∀ q ∈ B, q = b ∨ ∃ y ∈ B, next y = some q := by
  induction h with
  | last h => intro q hq; exact .inl (List.mem_singleton.1 hq)
  | @step p q' l h t ih =>
    intro q hq
    rcases List.mem_cons.1 hq with rfl | hq
    · exact .inl rfl
    · rcases ih q hq with rfl | ⟨y, hy, e⟩
      · exact .inr ⟨p, by simp, h⟩
      · exact .inr ⟨y, by simp [hy], e⟩

theorem chain_self {b : Ptr} {B : List Ptr} (h : Chain next b B) : b ∈ B := by
  obtain ⟨tl, rfl⟩ := chain_head h; simp

/-- two chains that meet contain one another's start when no lane has two predecessors -/
theorem chain_meet (inj : ∀ p q x, next p = some x → next q = some x → p = q) {a b : Ptr} {A B : List Ptr}
    (ha : Chain next a A) (hb : Chain next b B) {x : Ptr} (hxa : x ∈ A) (hxb : x ∈ B) : a ∈ B ∨ b ∈ A := by
  induction ha with
  | last h => rw [List.mem_singleton.1 hxa] at hxb; exact .inl hxb
  | @step p q l h t ih =>
    rcases List.mem_cons.1 hxa with rfl | hxa
    · exact .inl hxb
    · rcases ih hxa with hq | hq
      · rcases chain_pred hb q hq with e | ⟨y, hy, e⟩
        · right; rw [← e]; exact List.mem_cons_of_mem _ (chain_self t)
        · left; rw [inj p y q h e]; exact hy
      · exact .inr (List.mem_cons_of_mem _ hq)

/-- along the route the first road comes first and road ids grow -/
def Ordered (next : Ptr → Option Ptr) (first : Nat) : Prop :=
  ∀ p q, next p = some q → q.1 ≠ first ∧ (p.1 = first ∨ p.1 < q.1)

theorem chain_rank {first : Nat} (ho : Ordered next first) {p : Ptr} {sq : List Ptr} (h : Chain next p sq) :
    ∀ x ∈ sq, x = p ∨ (x.1 ≠ first ∧ (p.1 = first ∨ p.1 < x.1)) := by
  induction h with
  | last h => intro x hx; exact .inl (List.mem_singleton.1 hx)
  | @step p q l h t ih =>
    intro x hx
    rcases List.mem_cons.1 hx with rfl | hx
    · exact .inl rfl
    · have hpq := ho p q h
      rcases ih x hx with rfl | ⟨h1, h2⟩
      · exact .inr hpq
      · right
        refine ⟨h1, ?_⟩
        rcases hpq.2 with e | e
        · exact .inl e
        · rcases h2 with e2 | e2
          · exact absurd e2 hpq.1
          · exact .inr (lt_trans e e2)
end

section
variable {K : Type} [LinearOrder K] {rs : CRoads} {cl : List Ptr → K}

theorem order_before (hv : Valid rs) {first : Nat} {ls : OMap Nat CLane} (hf : OMap.find first rs = some ls)
    {done rest : List (Nat × Nat × CLane)} {x a : Nat × Nat × CLane} (e : order rs first ls = done ++ x :: rest)
    (ha : a ∈ done) (h1 : a.1 ≠ first) (h2 : x.1 = first ∨ x.1 < a.1) : x ∈ done := by
  unfold order at e
  have hA : ∀ y ∈ ls.map (fun x => (first, x)), y.1 = first := by
    intro y hy
    obtain ⟨z, -, rfl⟩ := List.mem_map.1 hy
    rfl
  have hB : (rs.flatMap (fun r => r.2.map (fun x => (r.1, x)))).Pairwise (fun y z => y.1 ≤ z.1) := by
    rw [List.pairwise_flatMap]
    constructor
    · intro r _
      rw [List.pairwise_map]
      exact List.pairwise_of_forall (fun _ _ => le_refl _)
    · refine hv.roads.imp ?_
      intro r r' hr y hy z hz
      obtain ⟨_, -, rfl⟩ := List.mem_map.1 hy
      obtain ⟨_, -, rfl⟩ := List.mem_map.1 hz
      exact hr.le
  rcases List.append_eq_append_iff.1 e with ⟨c, e1, e2⟩ | ⟨c, e1, e2⟩
  · -- done = A ++ c
    rcases h2 with h2 | h2
    · -- x is a lane of the first road
      have hx : x ∈ rs.flatMap (fun r => r.2.map (fun x => (r.1, x))) := by rw [e2]; simp
      obtain ⟨r, hr, hx2⟩ := List.mem_flatMap.1 hx
      obtain ⟨z, hz, rfl⟩ := List.mem_map.1 hx2
      have : r.2 = ls := by
        have hh := OMap.mem_find_some hv.roads (k := r.1) (v := r.2) hr
        simp only at h2
        rw [h2, hf] at hh
        exact (Option.some.inj hh).symm
      rw [e1]
      refine List.mem_append_left _ (List.mem_map.2 ⟨z, this ▸ hz, ?_⟩)
      simp only at h2; rw [h2]
    · have hac : a ∈ c := by
        rw [e1] at ha
        rcases List.mem_append.1 ha with ha | ha
        · exact absurd (hA a ha) h1
        · exact ha
      rw [e2] at hB
      have := (List.pairwise_append.1 hB).2.2 a hac x (by simp)
      omega
  · exfalso
    apply h1
    apply hA
    rw [e1]
    exact List.mem_append_left _ ha

/-- C35: if no two lanes have the same next lane and road ids grow along the route (after its first road), the lane corridors
are disjoint: a lane belongs to at most one corridor of the list, and it is the one found under its id. -/
theorem C35_partition_partial (hv : Valid rs) (hg : Growing cl)
    (inj : ∀ p q x, nextOf rs p = some x → nextOf rs q = some x → p = q) {n first : Nat}
    (ho : Ordered (nextOf rs) first) {s : RC K} (h : calcAll rs cl n first = .ok s) :
    (∀ c ∈ s.unique, ∀ d ∈ s.unique, ∀ x, x ∈ lanesOf s c → x ∈ lanesOf s d → c = d) ∧
    (∀ c ∈ s.unique, ∀ x ∈ lanesOf s c, laneCorridor s x.2 = some c) := by
  cases hf : OMap.find first rs with
  | none => unfold calcAll at h; rw [hf] at h; cases h
  | some ls =>
    have key : ∃ seqs, Inv rs cl (order rs first ls) s seqs ∧
        ∀ (i j : Nat) sq sq' x, seqs[i]? = some sq → seqs[j]? = some sq' → x ∈ sq → x ∈ sq' → i = j := by
      rw [calcAll_order hf] at h
      refine foldRes_prefix (P := fun done s => ∃ seqs, Inv rs cl done s seqs ∧
        ∀ (i j : Nat) sq sq' x, seqs[i]? = some sq → seqs[j]? = some sq' → x ∈ sq → x ∈ sq' → i = j) ?_
        ⟨[], inv_empty, by simp⟩ h
      rintro done x rest b b' he ⟨seqs, hi, hd⟩ hb
      rcases inv_step hi hb with ⟨-, h1⟩ | ⟨tl, hch, hnone, hdr, hpos, h1⟩
      · exact ⟨_, h1, hd⟩
      · refine ⟨_, h1, ?_⟩
        have fresh : ∀ sq ∈ seqs, ∀ y, y ∈ sq → y ∈ (x.1, x.2.1) :: tl → False := by
          intro sq hsq y hy hy2
          obtain ⟨a, t, l, e1, e2, e3, -, -⟩ := hi.chain sq hsq
          have hp : (x.1, x.2.1) ∉ sq := by
            intro hm
            have := hi.covered sq hsq _ hm
            rw [hnone] at this; cases this
          rw [e1] at hy hp
          rcases chain_meet inj hch e2 hy2 hy with hm | hm
          · exact hp hm
          · rcases chain_rank ho hch a hm with e | ⟨r1, r2⟩
            · exact hp (by rw [← e]; simp)
            · have := hi.done x (order_before hv hf he e3 r1 r2) hdr hpos
              rw [hnone] at this; cases this
        intro i j sq sq' y hi1 hj1 hy1 hy2
        rw [List.getElem?_append] at hi1 hj1
        by_cases gi : i < seqs.length <;> by_cases gj : j < seqs.length
        · rw [if_pos gi] at hi1; rw [if_pos gj] at hj1
          exact hd i j sq sq' y hi1 hj1 hy1 hy2
        · rw [if_pos gi] at hi1; rw [if_neg gj] at hj1
          have := List.mem_singleton.1 (List.mem_of_getElem? hj1)
          exact absurd (this ▸ hy2) (fun hh => fresh sq (List.mem_of_getElem? hi1) y hy1 hh)
        · rw [if_neg gi] at hi1; rw [if_pos gj] at hj1
          have := List.mem_singleton.1 (List.mem_of_getElem? hi1)
          exact absurd (this ▸ hy1) (fun hh => fresh sq' (List.mem_of_getElem? hj1) y hy2 hh)
        · rw [if_neg gi] at hi1; rw [if_neg gj] at hj1
          have h3 := (List.getElem?_eq_some_iff.1 hi1).1
          have h4 := (List.getElem?_eq_some_iff.1 hj1).1
          simp at h3 h4
          omega
    obtain ⟨seqs, hi, hd⟩ := key
    have hget : ∀ c ∈ s.unique, ∃ sq, seqs[c]? = some sq := by
      intro c hc
      rw [hi.unique, hi.store] at hc
      have hlt : c < seqs.length := by simpa using hc
      exact ⟨_, List.getElem?_eq_getElem hlt⟩
    constructor
    · intro c hc d hd2 x hx hx2
      obtain ⟨sq, h1⟩ := hget c hc
      obtain ⟨sq', h2⟩ := hget d hd2
      rw [inv_lanesOf hi hg h1] at hx
      rw [inv_lanesOf hi hg h2] at hx2
      exact hd c d sq sq' x h1 h2 hx hx2
    · intro c hc x hx
      obtain ⟨sq, h1⟩ := hget c hc
      rw [inv_lanesOf hi hg h1] at hx
      obtain ⟨d, hd2⟩ := Option.isSome_iff_exists.1 (hi.covered sq (List.mem_of_getElem? h1) x hx)
      obtain ⟨r, sq', h3, h4⟩ := hi.byLane _ _ hd2
      have hlane : ∀ sq ∈ seqs, ∀ y ∈ sq, ∃ l, IsLane rs y l := by
        intro sq hsq y hy
        obtain ⟨a, t, l, e1, e2, e3, -, -⟩ := hi.chain sq hsq
        rw [← e1] at e2
        exact chain_valid hv e2 ⟨l, (mem_order hf).1 e3⟩ y hy
      obtain ⟨l1, hl1⟩ := hlane sq' (List.mem_of_getElem? h3) _ h4
      obtain ⟨l2, hl2⟩ := hlane sq (List.mem_of_getElem? h1) _ hx
      have e : (r, x.2) = x := hv.ids _ _ _ _ hl1 hl2 rfl
      rw [e] at h4
      have := hd c d sq sq' x h1 h3 hx h4
      rw [this]; exact hd2
end

/-! ### Where the partition fails -/

/-- a lane of a corridor example: drivable, at position -1 or -2 -/
def exLane (pos : Int) (next : Option Ptr) : CLane := ⟨pos, true, .forward, none, none, next⟩

/-- two lanes of road 1 merging into one lane of road 2 -/
def merging : CRoads := [(1, [(11, exLane (-1) (some (2, 21))), (12, exLane (-2) (some (2, 21)))]), (2, [(21, exLane (-1) none)])]

/-- roads 10, 20, 5 in a row; lane 22 starts in road 20 and goes on in road 5 as lane 32 -/
def reordered : CRoads :=
  [(5, [(31, exLane (-1) none), (32, exLane (-2) none)]), (10, [(11, exLane (-1) (some (20, 21)))]),
   (20, [(21, exLane (-1) (some (5, 31))), (22, exLane (-2) (some (5, 32)))])]

/-- C35 violation of the partition: where two lanes merge, the lane after the merge belongs to two corridors. -/
theorem C35_merge_violated : ∃ s, calcAll merging (fun l => l.length) 5 1 = .ok s ∧ s.unique = [0, 1] ∧
    lanesOf s 0 = [(1, 11), (2, 21)] ∧ lanesOf s 1 = [(1, 12), (2, 21)] ∧
    laneCorridor s 11 = some 0 ∧ laneCorridor s 12 = some 1 ∧ laneCorridor s 21 = some 1 :=
  ⟨_, rfl, rfl, rfl, rfl, rfl, rfl, rfl⟩

/-- C35 violation of the partition without merging lanes: a corridor remains in the list although all its lanes belong to
another one, when the road ids are not increasing along the route (here 10, 20, 5). -/
theorem C35_order_violated : ∃ s, calcAll reordered (fun l => l.length) 5 10 = .ok s ∧ s.unique = [0, 1, 2] ∧
    lanesOf s 0 = [(10, 11), (20, 21), (5, 31)] ∧ lanesOf s 1 = [(5, 32)] ∧ lanesOf s 2 = [(20, 22), (5, 32)] ∧
    laneCorridor s 32 = some 2 :=
  ⟨_, rfl, rfl, rfl, rfl, rfl, rfl⟩

/-- C35: without `Growing` lanes get lost: a lane whose centre line adds no length replaces the lane before it. -/
theorem C35_zero_length_violated : ∃ s, calcAll merging (fun _ => 0) 5 1 = .ok s ∧
    lanesOf s 0 = [(2, 21)] ∧ laneCorridor s 11 = some 0 :=
  ⟨_, rfl, rfl, rfl⟩

end Bark.Cor
