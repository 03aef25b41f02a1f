import Verif.Props.Corridor
import Verif.Props.RoadExamples

/-!
C35: the links between the lanes of a road corridor.
-/
set_option linter.unusedSectionVars false
namespace Bark.Cor
open Spec

variable {m : RG.XMap} {g : RG.Graph} {ids : List Nat}

/-- a lane of the map before it is linked -/
def fresh (l : RG.Lane) : CLane := ⟨l.pos, l.driving, l.dir, none, none, none⟩

theorem genLanes_mem (L : List RG.Lane) : ∀ (ls : OMap Nat CLane), OMap.Sorted ls →
    OMap.Sorted (L.foldl (fun ls l => OMap.insert l.id ⟨l.pos, l.driving, l.dir, none, none, none⟩ ls) ls) ∧
    ∀ i c, (i, c) ∈ L.foldl (fun ls l => OMap.insert l.id ⟨l.pos, l.driving, l.dir, none, none, none⟩ ls) ls →
      (i, c) ∈ ls ∨ ∃ l ∈ L, l.id = i ∧ c = fresh l := by
  induction L with
  | nil => intro ls hs; exact ⟨hs, fun i c h => .inl h⟩
  | cons l L ih =>
    intro ls hs
    simp only [List.foldl_cons]
    obtain ⟨h1, h2⟩ := ih _ (OMap.sorted_insert l.id ⟨l.pos, l.driving, l.dir, none, none, none⟩ hs)
    refine ⟨h1, fun i c h => ?_⟩
    rcases h2 i c h with h | ⟨l', hl', e⟩
    · rcases OMap.mem_insert_sub h with h | h
      · cases h
        exact .inr ⟨l, by simp, rfl, rfl⟩
      · exact .inl h
    · exact .inr ⟨l', by simp [hl'], e⟩

/-- what is known about the lanes of the roads at any time: they stem from the map and point only to existing lanes -/
structure Good (m : RG.XMap) (rs : CRoads) : Prop where
  roads : OMap.Sorted rs
  lanes : ∀ r ls, (r, ls) ∈ rs → OMap.Sorted ls
  orig : ∀ p l, IsLane rs p l → ∃ s x, RG.Spec.LaneIn m p.1 s x ∧ x.id = p.2 ∧ x.pos = l.pos ∧ x.driving = l.driving ∧
    x.dir = l.dir
  next : ∀ p l q, IsLane rs p l → l.next = some q → ∃ l', IsLane rs q l'

theorem genRoad_good {id : Nat} {ls : OMap Nat CLane} (h : genRoad m id = .ok ls) :
    OMap.Sorted ls ∧ ∀ i c, (i, c) ∈ ls → ∃ s x, RG.Spec.LaneIn m id s x ∧ x.id = i ∧ c = fresh x := by
  unfold genRoad RG.getRoad at h
  cases hr : OMap.find id m.roads with
  | none => rw [hr] at h; cases h
  | some R =>
    rw [hr] at h
    cases h
    obtain ⟨h1, h2⟩ := genLanes_mem R.sections.flatten [] OMap.sorted_nil
    refine ⟨h1, fun i c hc => ?_⟩
    rcases h2 i c hc with h | ⟨l, hl, e1, e2⟩
    · simp at h
    · obtain ⟨s, hs, hl⟩ := List.mem_flatten.1 hl
      exact ⟨s, l, ⟨R, OMap.find_some_mem hr, hs, hl⟩, e1, e2⟩

theorem genRoads_good {rs : CRoads} (h : genRoads m ids = .ok rs) :
    Good m rs ∧ (∀ p l, IsLane rs p l → l.next = none ∧ l.left = none ∧ l.right = none) ∧
      ∀ r ∈ ids, ∃ ls, (r, ls) ∈ rs := by
  unfold genRoads at h
  refine foldRes_prefix (P := fun done rs => Good m rs ∧
    (∀ p l, IsLane rs p l → l.next = none ∧ l.left = none ∧ l.right = none) ∧ ∀ r ∈ done, ∃ ls, (r, ls) ∈ rs) ?_ ?_ h
  · rintro done x rest b b' - ⟨hb, hn, hd⟩ hf
    obtain ⟨ls, h1, h2⟩ := Res.bind_ok hf
    cases h2
    obtain ⟨g1, g2⟩ := genRoad_good h1
    have hsort := OMap.sorted_insert x ls hb.roads
    have hmem : ∀ p l, IsLane (OMap.insert x ls b) p l → (p.1 = x ∧ (p.2, l) ∈ ls) ∨ (p.1 ≠ x ∧ IsLane b p l) := by
      rintro p l ⟨ls', h3, h4⟩
      have := OMap.mem_find_some hsort h3
      rw [OMap.find_insert] at this
      by_cases e : p.1 = x
      · rw [if_pos e] at this; cases this; exact .inl ⟨e, h4⟩
      · rw [if_neg e] at this; exact .inr ⟨e, ls', OMap.find_some_mem this, h4⟩
    have hnone : ∀ p l, IsLane (OMap.insert x ls b) p l → l.next = none ∧ l.left = none ∧ l.right = none := by
      intro p l hp
      rcases hmem p l hp with ⟨e, h5⟩ | ⟨-, h5⟩
      · obtain ⟨s, y, -, -, rfl⟩ := g2 _ _ h5
        exact ⟨rfl, rfl, rfl⟩
      · exact hn p l h5
    refine ⟨⟨hsort, ?_, ?_, ?_⟩, hnone, ?_⟩
    · intro r ls' h3
      rcases OMap.mem_insert_sub h3 with h3 | h3
      · cases h3; exact g1
      · exact hb.lanes r ls' h3
    · intro p l hp
      rcases hmem p l hp with ⟨e, h5⟩ | ⟨-, h5⟩
      · obtain ⟨s, y, h6, h7, rfl⟩ := g2 _ _ h5
        exact ⟨s, y, by rw [e]; exact h6, h7, rfl, rfl, rfl⟩
      · exact hb.orig p l h5
    · intro p l q hp hq
      rw [(hnone p l hp).1] at hq; cases hq
    · intro r hr
      by_cases e : r = x
      · subst e
        exact ⟨ls, OMap.find_some_mem (by rw [OMap.find_insert, if_pos rfl])⟩
      · rcases List.mem_append.1 hr with hr | hr
        · obtain ⟨ls', h3⟩ := hd r hr
          refine ⟨ls', OMap.find_some_mem ?_⟩
          rw [OMap.find_insert, if_neg e]
          exact OMap.mem_find_some hb.roads h3
        · exact absurd (List.mem_singleton.1 hr) e
  · exact ⟨⟨OMap.sorted_nil, by simp, by rintro p l ⟨ls, h, -⟩; simp at h, by rintro p l q ⟨ls, h, -⟩; simp at h⟩,
      by rintro p l ⟨ls, h, -⟩; simp at h, by simp⟩

theorem mapM_ok {α β : Type} {f : α → Res β} : ∀ {l : List α} {l' : List β}, l.mapM f = .ok l' →
    l'.length = l.length ∧ ∀ (i : Nat) y, l'[i]? = some y → ∃ x, l[i]? = some x ∧ f x = .ok y := by
  intro l
  induction l with
  | nil => intro l' h; cases h; simp
  | cons a l ih =>
    intro l' h
    rw [List.mapM_cons] at h
    obtain ⟨b, h1, h2⟩ := Res.bind_ok h
    obtain ⟨t, h3, h4⟩ := Res.bind_ok h2
    cases h4
    obtain ⟨e1, e2⟩ := ih h3
    refine ⟨by simp [e1], ?_⟩
    intro i y hy
    cases i with
    | zero => simp at hy; subst hy; exact ⟨a, by simp, h1⟩
    | succ i => simp at hy; obtain ⟨x, h5, h6⟩ := e2 i y hy; exact ⟨x, by simpa using h5, h6⟩

theorem mapM_keys {f : Nat × CLane → Res (Nat × CLane)} (hf : ∀ x y, f x = .ok y → y.1 = x.1) :
    ∀ {l l' : List (Nat × CLane)}, l.mapM f = .ok l' → OMap.keys l' = OMap.keys l := by
  intro l
  induction l with
  | nil => intro l' h; cases h; rfl
  | cons a l ih =>
    intro l' h
    rw [List.mapM_cons] at h
    obtain ⟨b, h1, h2⟩ := Res.bind_ok h
    obtain ⟨t, h3, h4⟩ := Res.bind_ok h2
    cases h4
    simp only [OMap.keys, List.map_cons, hf a b h1]
    have := ih h3
    simp only [OMap.keys] at this
    rw [this]

theorem linkLane_ok {rs : CRoads} {road cur : Nat} {nr : Option Nat} {x y : Nat × CLane}
    (h : linkLane g rs road nr cur x = .ok y) :
    y.1 = x.1 ∧ y.2.pos = x.2.pos ∧ y.2.driving = x.2.driving ∧ y.2.dir = x.2.dir ∧
    (∃ nl, RG.nextLane g [cur] x.1 = .ok nl ∧ y.2.next = newNext rs nr nl x.2.next) ∧
    (∃ ll, RG.leftLane g x.1 x.2.dir = .ok ll ∧ y.2.left = newSide rs road ll x.2.left) ∧
    (∃ rl, RG.rightLane g x.1 x.2.dir = .ok rl ∧ y.2.right = newSide rs road rl x.2.right) := by
  unfold linkLane at h
  obtain ⟨nl, h1, h⟩ := Res.bind_ok h
  obtain ⟨ll, h2, h⟩ := Res.bind_ok h
  obtain ⟨rl, h3, h⟩ := Res.bind_ok h
  cases h
  exact ⟨rfl, rfl, rfl, rfl, ⟨nl, h1, rfl⟩, ⟨ll, h2, rfl⟩, ⟨rl, h3, rfl⟩⟩

theorem hasLane_iff {rs : CRoads} (hs : OMap.Sorted rs) (hl : ∀ r ls, (r, ls) ∈ rs → OMap.Sorted ls) {p : Ptr} :
    hasLane rs p = true ↔ ∃ l, IsLane rs p l := by
  unfold hasLane
  rw [Option.isSome_iff_exists]
  constructor
  · rintro ⟨l, h⟩; exact ⟨l, find_isLane h⟩
  · rintro ⟨l, ls, h1, h2⟩
    refine ⟨l, ?_⟩
    unfold laneAt
    rw [OMap.mem_find_some hs h1]
    exact OMap.mem_find_some (hl _ _ h1) h2

/-- the effect of linking one road -/
theorem linkRoad_ok {rs rs' : CRoads} {count road : Nat} (hb : Good m rs) (h : linkRoad g ids rs count road = .ok rs') :
    Good m rs' ∧ (∀ p, (∃ l, IsLane rs' p l) ↔ ∃ l, IsLane rs p l) ∧ (∀ r, (∃ ls, (r, ls) ∈ rs) ↔ ∃ ls, (r, ls) ∈ rs') ∧
    ∃ cur, ids[(advance ids count).1]? = some cur ∧
    ∀ p l', IsLane rs' p l' →
      (p.1 ≠ road ∧ IsLane rs p l') ∨
      (p.1 = road ∧ ∃ l, IsLane rs p l ∧ linkLane g rs road (advance ids count).2 cur (p.2, l) = .ok (p.2, l')) := by
  unfold linkRoad at h
  cases hf : OMap.find road rs with
  | none => rw [hf] at h; cases h
  | some ls =>
    cases hc : ids[(advance ids count).1]? with
    | none => rw [hf, hc] at h; cases h
    | some cur =>
      rw [hf, hc] at h
      simp only at h
      obtain ⟨ls', h1, h2⟩ := Res.bind_ok h
      cases h2
      have hmemls := OMap.find_some_mem hf
      have hkeys := mapM_keys (fun x y hxy => (linkLane_ok hxy).1) h1
      have hsls : OMap.Sorted ls' := by
        rw [OMap.sorted_iff_keys, hkeys]; exact OMap.sorted_iff_keys.1 (hb.lanes _ _ hmemls)
      have hsort := OMap.sorted_insert road ls' hb.roads
      obtain ⟨hlen, hget⟩ := mapM_ok h1
      have hchar : ∀ p l', IsLane (OMap.insert road ls' rs) p l' → (p.1 ≠ road ∧ IsLane rs p l') ∨
          (p.1 = road ∧ ∃ l, IsLane rs p l ∧ linkLane g rs road (advance ids count).2 cur (p.2, l) = .ok (p.2, l')) := by
        rintro p l' ⟨L, h3, h4⟩
        have := OMap.mem_find_some hsort h3
        rw [OMap.find_insert] at this
        by_cases e : p.1 = road
        · rw [if_pos e] at this
          cases this
          right
          refine ⟨e, ?_⟩
          obtain ⟨i, hi⟩ := List.getElem?_of_mem h4
          obtain ⟨x, hx, hxy⟩ := hget i _ hi
          have e1 := (linkLane_ok hxy).1
          simp only at e1
          refine ⟨x.2, ⟨ls, by rw [e]; exact hmemls, ?_⟩, ?_⟩
          · rw [e1]; exact List.mem_of_getElem? hx
          · have : ((p.2, x.2) : Nat × CLane) = x := by rw [e1]
            rw [this]; exact hxy
        · rw [if_neg e] at this
          exact .inl ⟨e, L, OMap.find_some_mem this, h4⟩
      have hsame : ∀ p, (∃ l, IsLane (OMap.insert road ls' rs) p l) ↔ ∃ l, IsLane rs p l := by
        intro p
        constructor
        · rintro ⟨l', hl'⟩
          rcases hchar p l' hl' with ⟨-, h3⟩ | ⟨-, l, h3, -⟩
          · exact ⟨_, h3⟩
          · exact ⟨_, h3⟩
        · rintro ⟨l, L, h3, h4⟩
          by_cases e : p.1 = road
          · have : L = ls := by
              have hh := OMap.mem_find_some hb.roads h3
              rw [e, hf] at hh
              exact (Option.some.inj hh).symm
            rw [this] at h4
            have hk : p.2 ∈ OMap.keys ls' := by rw [hkeys]; exact List.mem_map.2 ⟨_, h4, rfl⟩
            obtain ⟨y, hy, ey⟩ := List.mem_map.1 hk
            refine ⟨y.2, ls', OMap.find_some_mem (by rw [OMap.find_insert, if_pos e]), ?_⟩
            have : ((p.2, y.2) : Nat × CLane) = y := by rw [← ey]
            rw [this]; exact hy
          · exact ⟨l, L, OMap.find_some_mem (by rw [OMap.find_insert, if_neg e]; exact OMap.mem_find_some hb.roads h3), h4⟩
      refine ⟨⟨hsort, ?_, ?_, ?_⟩, hsame, ?_, cur, rfl, hchar⟩
      · intro r L h3
        rcases OMap.mem_insert_sub h3 with h3 | h3
        · cases h3; exact hsls
        · exact hb.lanes r L h3
      · intro p l' hp
        rcases hchar p l' hp with ⟨-, h3⟩ | ⟨-, l, h3, h4⟩
        · exact hb.orig p l' h3
        · obtain ⟨s, x, e1, e2, e3, e4, e5⟩ := hb.orig p l h3
          obtain ⟨-, k1, k2, k3, -⟩ := linkLane_ok h4
          exact ⟨s, x, e1, e2, by rw [e3, k1], by rw [e4, k2], by rw [e5, k3]⟩
      · intro p l' q hp hq
        rcases hchar p l' hp with ⟨-, h3⟩ | ⟨-, l, h3, h4⟩
        · exact (hsame q).2 (hb.next p l' q h3 hq)
        · obtain ⟨-, -, -, -, ⟨nl, -, k2⟩, -⟩ := linkLane_ok h4
          rw [k2] at hq
          unfold newNext at hq
          split at hq
          · split_ifs at hq with hh
            cases hq
            exact (hsame _).2 ((hasLane_iff hb.roads hb.lanes).1 hh)
          · exact (hsame q).2 (hb.next p l q h3 hq)
      · intro r
        constructor
        · rintro ⟨L, hL⟩
          by_cases e : r = road
          · exact ⟨ls', OMap.find_some_mem (by rw [OMap.find_insert, if_pos e])⟩
          · exact ⟨L, OMap.find_some_mem (by rw [OMap.find_insert, if_neg e]; exact OMap.mem_find_some hb.roads hL)⟩
        · rintro ⟨L, hL⟩
          rcases OMap.mem_insert_sub hL with hL | hL
          · cases hL; exact ⟨ls, hmemls⟩
          · exact ⟨L, hL⟩

/-- where a next-lane pointer can come from: two roads that follow one another on the route, and a link of the road graph -/
def Follows (g : RG.Graph) (ids : List Nat) (p q : Ptr) : Prop :=
  ∃ k, ids[k]? = some p.1 ∧ ids[k + 1]? = some q.1 ∧ RG.nextLane g [q.1] p.2 = .ok (some q.2)

theorem linkLoop_ok : ∀ (rest : List Nat) (rs : CRoads) (k : Nat), ids = ids.take k ++ rest → k ≤ ids.length →
    Good m rs → (∀ p l q, IsLane rs p l → l.next = some q → Follows g ids p q) →
    ∀ {count rs'}, (k < ids.length → count = k) → linkLoop g ids rest rs count = .ok rs' →
    Good m rs' ∧ (∀ p, (∃ l, IsLane rs' p l) ↔ ∃ l, IsLane rs p l) ∧
      (∀ p l q, IsLane rs' p l → l.next = some q → Follows g ids p q) ∧
      (∀ r, (∃ ls, (r, ls) ∈ rs) ↔ ∃ ls, (r, ls) ∈ rs') := by
  intro rest
  induction rest with
  | nil =>
    intro rs k he hk hb hn count rs' hc h
    cases h
    exact ⟨hb, fun _ => Iff.rfl, hn, fun _ => Iff.rfl⟩
  | cons road rest ih =>
    intro rs k he hk hb hn count rs' hc h
    have hlt : k < ids.length := by
      have := congrArg List.length he
      simp at this
      omega
    have hcount := hc hlt
    subst hcount
    have hroad : ids[count]? = some road := by
      rw [he]
      have hl : (ids.take count).length = count := by simp; omega
      rw [List.getElem?_append_right (by omega)]
      simp [hl]
    unfold linkLoop at h
    obtain ⟨rs1, h1, h2⟩ := Res.bind_ok h
    obtain ⟨g1, g2, g3, cur, g4, g5⟩ := linkRoad_ok hb h1
    have htake : ids = ids.take (count + 1) ++ rest := by
      have hd : ids.drop count = road :: rest := by
        have hl : (ids.take count).length = count := by simp; omega
        conv_lhs => rw [he]
        rw [List.drop_append_of_le_length (by omega)]
        rw [List.drop_of_length_le (by omega)]
        rfl
      have hd2 : ids.drop (count + 1) = rest := by
        rw [← List.drop_drop, hd]; rfl
      rw [← hd2, List.take_append_drop]
    have hn1 : ∀ p l q, IsLane rs1 p l → l.next = some q → Follows g ids p q := by
      intro p l' q hp hq
      rcases g5 p l' hp with ⟨-, h3⟩ | ⟨e, l, h3, h4⟩
      · exact hn p l' q h3 hq
      · obtain ⟨-, -, -, -, ⟨nl, k1, k2⟩, -⟩ := linkLane_ok h4
        rw [k2] at hq
        unfold newNext at hq
        split at hq
        · next b r e1 e2 =>
          split_ifs at hq with hh
          cases hq
          unfold advance at e2 g4
          by_cases hk2 : count + 1 < ids.length
          · rw [if_pos hk2] at e2 g4
            simp only at e2 g4
            rw [g4] at e2
            cases e2
            exact ⟨count, by rw [e]; exact hroad, g4, k1⟩
          · rw [if_neg hk2] at e2; cases e2
        · exact hn p l q h3 hq
    obtain ⟨k1, k2, k3, k4⟩ := ih rs1 (count + 1) htake (by omega) g1 hn1 (by
      intro hlt2
      unfold advance
      rw [if_pos hlt2]) h2
    exact ⟨k1, fun p => (k2 p).trans (g2 p), k3, fun r => (g3 r).trans (k4 r)⟩

theorem corridorRoads_good {rs : CRoads} (h : corridorRoads m g ids = .ok rs) :
    Good m rs ∧ (∀ p l q, IsLane rs p l → l.next = some q → Follows g ids p q) ∧ ∀ r ∈ ids, ∃ ls, (r, ls) ∈ rs := by
  unfold corridorRoads at h
  obtain ⟨rs0, h1, h2⟩ := Res.bind_ok h
  obtain ⟨g1, g2, g3⟩ := genRoads_good h1
  obtain ⟨k1, k2, k3, k4⟩ := linkLoop_ok ids rs0 0 (by simp) (by omega) g1 (by
    intro p l q hp hq; rw [(g2 p l hp).1] at hq; cases hq) (count := 0) (fun _ => rfl) h2
  exact ⟨k1, k3, fun r hr => (k4 r).1 (g3 r hr)⟩

/-- what the links of a lane are after its road has been visited -/
structure Linked (g : RG.Graph) (ids : List Nat) (rs : CRoads) (p : Ptr) (l : CLane) : Prop where
  next : ∀ q, Follows g ids p q → (∃ l', IsLane rs q l') → l.next = some q
  left : ∃ o, RG.leftLane g p.2 l.dir = .ok o ∧ ∀ j, l.left = some j ↔ o = some j ∧ ∃ l', IsLane rs (p.1, j) l'
  right : ∃ o, RG.rightLane g p.2 l.dir = .ok o ∧ ∀ j, l.right = some j ↔ o = some j ∧ ∃ l', IsLane rs (p.1, j) l'

theorem newSide_none {rs : CRoads} (hb : Good m rs) {road : Nat} {o : Option Nat} (j : Nat) :
    newSide rs road o none = some j ↔ o = some j ∧ ∃ l', IsLane rs (road, j) l' := by
  unfold newSide
  cases o with
  | none => simp
  | some b =>
    simp only [Option.some.injEq]
    by_cases hh : hasLane rs (road, b) = true
    · rw [if_pos hh]
      constructor
      · intro e; cases e; exact ⟨rfl, (hasLane_iff hb.roads hb.lanes).1 hh⟩
      · rintro ⟨e, -⟩; rw [e]
    · rw [if_neg hh]
      constructor
      · intro e; cases e
      · rintro ⟨rfl, h⟩; exact absurd ((hasLane_iff hb.roads hb.lanes).2 h) hh

theorem linkLoop_linked (hnd : ids.Nodup) : ∀ (rest : List Nat) (rs : CRoads) (k : Nat), ids = ids.take k ++ rest →
    k ≤ ids.length → Good m rs →
    (∀ p l, IsLane rs p l → p.1 ∈ ids.take k → Linked g ids rs p l) →
    (∀ p l, IsLane rs p l → p.1 ∉ ids.take k → l.left = none ∧ l.right = none) →
    ∀ {count rs'}, (k < ids.length → count = k) → linkLoop g ids rest rs count = .ok rs' →
    ∀ p l, IsLane rs' p l → p.1 ∈ ids → Linked g ids rs' p l := by
  intro rest
  induction rest with
  | nil =>
    intro rs k he hk hb hd hu count rs' hc h
    cases h
    intro p l hp hm
    refine hd p l hp ?_
    rw [List.append_nil] at he
    rw [← he]; exact hm
  | cons road rest ih =>
    intro rs k he hk hb hd hu count rs' hc h
    have hlt : k < ids.length := by
      have := congrArg List.length he
      simp at this
      omega
    have hcount := hc hlt
    subst hcount
    have hl : (ids.take count).length = count := by simp; omega
    have hroad : ids[count]? = some road := by
      rw [he, List.getElem?_append_right (by omega)]
      simp [hl]
    have huniq : ∀ (j : Nat), ids[j]? = some road → j = count := by
      intro j hj
      obtain ⟨h1, e1⟩ := List.getElem?_eq_some_iff.1 hj
      obtain ⟨h2, e2⟩ := List.getElem?_eq_some_iff.1 hroad
      exact (List.Nodup.getElem_inj_iff hnd).1 (e1.trans e2.symm)
    have hnot : road ∉ ids.take count := by
      intro hm
      obtain ⟨j, hj, e⟩ := List.mem_iff_getElem.1 hm
      have hj2 : j < count := by omega
      have : ids[j]? = some road := by
        rw [← List.getElem?_take_of_lt hj2, List.getElem?_eq_getElem hj, e]
      have := huniq j this
      omega
    have hd' : ids.drop count = road :: rest := by
      conv_lhs => rw [he]
      rw [List.drop_append_of_le_length (by omega), List.drop_of_length_le (by omega)]
      rfl
    have htake : ids = ids.take (count + 1) ++ rest := by
      have hd2 : ids.drop (count + 1) = rest := by
        rw [← List.drop_drop, hd']; rfl
      rw [← hd2, List.take_append_drop]
    have htk : ids.take (count + 1) = ids.take count ++ [road] := by
      rw [List.take_succ, hroad]; rfl
    unfold linkLoop at h
    obtain ⟨rs1, h1, h2⟩ := Res.bind_ok h
    obtain ⟨g1, g2, g3, cur, g4, g5⟩ := linkRoad_ok hb h1
    refine ih rs1 (count + 1) htake (by omega) g1 ?_ ?_ (by
      intro hlt2
      unfold advance
      rw [if_pos hlt2]) h2
    · intro p l' hp hm
      have trans : ∀ {p l}, Linked g ids rs p l → Linked g ids rs1 p l := by
        intro p l hL
        refine ⟨fun q hq hx => hL.next q hq ((g2 q).1 hx), ?_, ?_⟩
        · obtain ⟨o, ho, hj⟩ := hL.left
          exact ⟨o, ho, fun j => by rw [hj j, g2]⟩
        · obtain ⟨o, ho, hj⟩ := hL.right
          exact ⟨o, ho, fun j => by rw [hj j, g2]⟩
      rcases g5 p l' hp with ⟨hne, h3⟩ | ⟨e, l, h3, h4⟩
      · refine trans (hd p l' h3 ?_)
        rw [htk] at hm
        rcases List.mem_append.1 hm with hm | hm
        · exact hm
        · exact absurd (List.mem_singleton.1 hm) hne
      · apply trans
        obtain ⟨-, -, -, e4, ⟨nl, k1, k2⟩, ⟨ll, k3, k4⟩, ⟨rl, k5, k6⟩⟩ := linkLane_ok h4
        obtain ⟨u1, u2⟩ := hu p l h3 (by rw [e]; exact hnot)
        simp only at e4 k1 k2 k3 k4 k5 k6
        rw [u1, ← e] at k4
        rw [u2, ← e] at k6
        refine ⟨?_, ⟨ll, by rw [e4]; exact k3, fun j => by rw [k4]; exact newSide_none hb j⟩,
          ⟨rl, by rw [e4]; exact k5, fun j => by rw [k6]; exact newSide_none hb j⟩⟩
        rintro q ⟨i, f1, f2, f3⟩ hx
        rw [e] at f1
        have hi := huniq i f1
        subst hi
        have hk2 : i + 1 < ids.length := (List.getElem?_eq_some_iff.1 f2).1
        unfold advance at k2 g4
        rw [if_pos hk2] at k2 g4
        simp only at k2 g4
        rw [f2] at g4 k2
        cases g4
        rw [f3] at k1
        cases k1
        rw [k2]
        unfold newNext
        simp only
        rw [if_pos ((hasLane_iff hb.roads hb.lanes).2 hx)]
    · intro p l' hp hm
      rw [htk] at hm
      rcases g5 p l' hp with ⟨hne, h3⟩ | ⟨e, l, h3, h4⟩
      · exact hu p l' h3 (fun hh => hm (List.mem_append_left _ hh))
      · exact absurd (List.mem_append_right _ (by rw [e]; simp)) hm

/-- C35: on a route without repeated road every lane gets the links the road graph names: the next lane in the following road,
and the left and right lanes. -/
theorem C35_links_complete (hnd : ids.Nodup) {rs : CRoads} (h : corridorRoads m g ids = .ok rs) {p : Ptr} {l : CLane}
    (hp : IsLane rs p l) (hm : p.1 ∈ ids) :
    (∀ k q, ids[k]? = some p.1 → ids[k + 1]? = some q.1 → RG.nextLane g [q.1] p.2 = .ok (some q.2) →
      (∃ l', IsLane rs q l') → l.next = some q) ∧
    (∃ o, RG.leftLane g p.2 l.dir = .ok o ∧ ∀ j, l.left = some j ↔ o = some j ∧ ∃ l', IsLane rs (p.1, j) l') ∧
    (∃ o, RG.rightLane g p.2 l.dir = .ok o ∧ ∀ j, l.right = some j ↔ o = some j ∧ ∃ l', IsLane rs (p.1, j) l') := by
  unfold corridorRoads at h
  obtain ⟨rs0, h1, h2⟩ := Res.bind_ok h
  obtain ⟨g1, g2, g3⟩ := genRoads_good h1
  have := linkLoop_linked hnd ids rs0 0 (by simp) (by omega) g1 (by simp)
    (fun p l hp _ => (g2 p l hp).2) (count := 0) (fun _ => rfl) h2 p l hp hm
  exact ⟨fun k q a b c d => this.next q ⟨k, a, b, c⟩ d, this.left, this.right⟩

theorem laneIn_road {m : RG.XMap} (hw : RG.Spec.WellFormed m) {r r' : Nat} {s s' : List RG.Lane} {l l' : RG.Lane}
    (h1 : RG.Spec.LaneIn m r s l) (h2 : RG.Spec.LaneIn m r' s' l') (e : l.id = l'.id) : r = r' := by
  obtain ⟨R, hR, hs, hl⟩ := h1
  obtain ⟨R', hR', hs', hl'⟩ := h2
  have m1 : (⟨r, l⟩ : RG.Vert) ∈ m.lanes :=
    List.mem_flatMap.2 ⟨_, hR, List.mem_flatMap.2 ⟨s, hs, List.mem_map.2 ⟨l, hl, rfl⟩⟩⟩
  have m2 : (⟨r', l'⟩ : RG.Vert) ∈ m.lanes :=
    List.mem_flatMap.2 ⟨_, hR', List.mem_flatMap.2 ⟨s', hs', List.mem_map.2 ⟨l', hl', rfl⟩⟩⟩
  have := List.inj_on_of_nodup_map hw.ids m1 m2 e
  exact congrArg RG.Vert.road this

/-- The roads of a corridor meet the conditions under which the lane corridors are described. -/
theorem C35_roads_valid (hw : RG.Spec.WellFormed m) {rs : CRoads} (h : corridorRoads m g ids = .ok rs) : Valid rs := by
  obtain ⟨hb, -, -⟩ := corridorRoads_good h
  refine ⟨hb.roads, hb.lanes, ?_, hb.next⟩
  intro p q l l' hp hq e
  obtain ⟨s, x, h1, h2, -⟩ := hb.orig p l hp
  obtain ⟨s', x', h3, h4, -⟩ := hb.orig q l' hq
  have := laneIn_road hw h1 h3 (by rw [h2, h4, e])
  exact Prod.ext this e

/-- C35: next-lane links only lead from a road of the route to the road right after it, and only along links of the road
graph. -/
theorem C35_next_lane {rs : CRoads} (h : corridorRoads m g ids = .ok rs) {p q : Ptr} (hn : nextOf rs p = some q) :
    ∃ k, ids[k]? = some p.1 ∧ ids[k + 1]? = some q.1 ∧ RG.nextLane g [q.1] p.2 = .ok (some q.2) := by
  obtain ⟨-, h2, -⟩ := corridorRoads_good h
  unfold nextOf at hn
  cases hl : laneAt rs p with
  | none => rw [hl] at hn; cases hn
  | some l => rw [hl] at hn; exact h2 p l q (find_isLane hl) hn

/-- occurrences of the same road on the route are adjacent -/
def Blocks (ids : List Nat) : Prop :=
  ∀ (i j k : Nat) r, ids[i]? = some r → ids[j]? = some r → i ≤ k → k ≤ j → ids[k]? = some r

/-- a lane is never linked to a lane of its own road, for roads repeated on the route -/
def NoSelf (g : RG.Graph) (ids : List Nat) : Prop :=
  ∀ (k : Nat) r, ids[k]? = some r → ids[k + 1]? = some r → ∀ i j, RG.nextLane g [r] i ≠ .ok (some j)

theorem chain_of_rank {next : Ptr → Option Ptr} (f : Ptr → Nat) (hf : ∀ p q, next p = some q → f q < f p) :
    ∀ n p, f p < n → ∃ ch, Chain next p ch := by
  intro n
  induction n with
  | zero => intro p h; omega
  | succ n ih =>
    intro p h
    cases hn : next p with
    | none => exact ⟨_, .last hn⟩
    | some q =>
      obtain ⟨ch, hch⟩ := ih q (by have := hf p q hn; omega)
      exact ⟨_, .step hn hch⟩

/-- C35: the generation of the lane corridors of a route that visits no road twice (staying on a road for several entries is
allowed) ends with a result. -/
theorem C35_route_terminates {K : Type} [LinearOrder K] (cl : List Ptr → K) (hw : RG.Spec.WellFormed m)
    (hbl : Blocks ids) (hns : NoSelf g ids) {rs : CRoads} (h : corridorRoads m g ids = .ok rs) {first : Nat}
    (hf : ids.head? = some first) : ∃ n s, calcAll rs cl n first = .ok s := by
  classical
  obtain ⟨hb, -, hr⟩ := corridorRoads_good h
  obtain ⟨ls, hls⟩ := hr first (by
    cases ids with
    | nil => cases hf
    | cons a l => cases hf; simp)
  refine (C35_terminates_iff (C35_roads_valid hw h) hls).2 ?_
  intro p hp
  -- rank: number of positions of the route after the last occurrence of the road
  let f : Ptr → Nat := fun p => ((List.range ids.length).filter (fun k => decide (∀ j, ids[j]? = some p.1 → j < k))).length
  refine chain_of_rank f ?_ (f p + 1) p (Nat.lt_succ_self _)
  intro p q hn
  obtain ⟨k, h1, h2, h3⟩ := C35_next_lane h hn
  have hne : p.1 ≠ q.1 := by
    intro e
    exact hns k p.1 h1 (e ▸ h2) p.2 q.2 (e ▸ h3)
  have hlast : ∀ j, ids[j]? = some p.1 → j ≤ k := by
    intro j hj
    by_contra hc
    have := hbl k j (k + 1) p.1 h1 hj (by omega) (by omega)
    rw [h2] at this
    exact hne (Option.some.inj this).symm
  apply RG.filter_length_lt (a := k + 1)
  · intro j _ hj
    simp only [decide_eq_true_eq] at hj ⊢
    intro i hi
    have := hlast i hi
    have := hj (k + 1) h2
    omega
  · simp only [List.mem_range]
    exact (List.getElem?_eq_some_iff.1 h2).1
  · simp only [decide_eq_true_eq]
    intro i hi
    have := hlast i hi
    omega
  · rw [decide_eq_false_iff_not]
    intro hc
    exact absurd (hc (k + 1) h2) (lt_irrefl _)

/-- C35: in particular for a route that names every road once. -/
theorem C35_simple_route_terminates {K : Type} [LinearOrder K] (cl : List Ptr → K) (hw : RG.Spec.WellFormed m)
    (hnd : ids.Nodup) {rs : CRoads} (h : corridorRoads m g ids = .ok rs) {first : Nat} (hf : ids.head? = some first) :
    ∃ n s, calcAll rs cl n first = .ok s := by
  have huniq : ∀ (i j : Nat) r, ids[i]? = some r → ids[j]? = some r → i = j := by
    intro i j r hi hj
    obtain ⟨h1, e1⟩ := List.getElem?_eq_some_iff.1 hi
    obtain ⟨h2, e2⟩ := List.getElem?_eq_some_iff.1 hj
    exact (List.Nodup.getElem_inj_iff hnd).1 (e1.trans e2.symm)
  refine C35_route_terminates cl hw ?_ ?_ h hf
  · intro i j k r hi hj h1 h2
    have := huniq i j r hi hj
    have : i = k := by omega
    rw [← this]; exact hi
  · intro k r h1 h2
    have := huniq k (k + 1) r h1 h2
    omega

theorem no_chain_two {next : Ptr → Option Ptr} {a b : Ptr} (h1 : next a = some b) (h2 : next b = some a) :
    ¬ ∃ ch, Chain next a ch := by
  rintro ⟨ch, h⟩
  have : ∀ p ch, Chain next p ch → (p = a ∨ p = b) → False := by
    intro p ch h
    induction h with
    | last h => rintro (rfl | rfl) <;> simp_all
    | step hn t ih =>
      rintro (rfl | rfl)
      · rw [h1] at hn; cases hn; exact ih (.inr rfl)
      · rw [h2] at hn; cases hn; exact ih (.inl rfl)
  exact this a ch h (.inl rfl)

/-- C35 violation: a route that comes back to a road (1, 2, 1) makes the generation run forever. -/
theorem C35_return_diverges {K : Type} [LinearOrder K] (cl : List Ptr → K) :
    ∃ g rs, RG.generate (RG.demo 2) = .ok g ∧ corridorRoads (RG.demo 2) g [1, 2, 1] = .ok rs ∧
      ∀ n, calcAll rs cl n 1 = .error .diverges := by
  obtain ⟨g, hg⟩ := RG.C32_generation_succeeds (RG.demo_wellFormed (second := 2) (by omega)) (RG.demo_complete 2)
  have hcomp : ((RG.generate (RG.demo 2)).toOption.bind (fun g => (corridorRoads (RG.demo 2) g [1, 2, 1]).toOption)).map
      (fun rs => (nextOf rs (1, 3), nextOf rs (2, 7), (laneAt rs (1, 3)).map (fun l => (l.driving, l.pos)),
        OMap.keys rs)) =
      some (some (2, 7), some (1, 3), some (true, -1), [1, 2]) := by rfl
  rw [hg] at hcomp
  simp only [Except.toOption, Option.bind_some] at hcomp
  cases hr : corridorRoads (RG.demo 2) g [1, 2, 1] with
  | error e => rw [hr] at hcomp; cases hcomp
  | ok rs =>
    rw [hr] at hcomp
    simp only [Option.map_some, Option.some.injEq, Prod.mk.injEq] at hcomp
    obtain ⟨h1, h2, h3, h4⟩ := hcomp
    refine ⟨g, rs, hg, hr, ?_⟩
    have hv := C35_roads_valid (RG.demo_wellFormed (second := 2) (by omega)) hr
    obtain ⟨-, -, hroads⟩ := corridorRoads_good hr
    obtain ⟨ls, hls⟩ := hroads 1 (by simp)
    cases hl : laneAt rs (1, 3) with
    | none => rw [hl] at h3; cases h3
    | some l =>
      rw [hl] at h3
      simp only [Option.map_some, Option.some.injEq, Prod.mk.injEq] at h3
      exact fun n => C35_cycle_diverges hv hls ⟨l, find_isLane hl, h3.1, by rw [h3.2]; decide⟩ (no_chain_two h1 h2) n

end Bark.Cor
