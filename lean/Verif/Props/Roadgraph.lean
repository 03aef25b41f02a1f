import Verif.Spec.Roadgraph
import Verif.Lemmas.World
import Mathlib.Data.List.Nodup
import Mathlib.Tactic.Linarith
import Mathlib.Tactic.SplitIfs

namespace Bark.RG
open Spec

/-! ### Auxiliary facts about the graph operations -/

theorem addEdge_verts (g : Graph) (s t : Nat) (ty : Ty) : (addEdge g s t ty).verts = g.verts := by
  unfold addEdge; split <;> rfl

theorem lookup_congr {g g' : Graph} (h : g'.verts = g.verts) (id : Nat) : lookup g' id = lookup g id := by
  unfold lookup; rw [h]

theorem idAt_congr {g g' : Graph} (h : g'.verts = g.verts) (v : Nat) : idAt g' v = idAt g v := by
  unfold idAt; rw [h]

theorem getLane_congr {g g' : Graph} (h : g'.verts = g.verts) (id : Nat) : getLane g' id = getLane g id := by
  unfold getLane; rw [lookup_congr h, h]

theorem vertexOf_congr {g g' : Graph} (h : g'.verts = g.verts) (id : Nat) : vertexOf g' id = vertexOf g id := by
  unfold vertexOf; rw [lookup_congr h]

theorem lookup_some {g : Graph} {id v : Nat} (h : lookup g id = some v) :
    ∃ x : Vert, g.verts[v]? = some x ∧ x.lane.id = id := by
  unfold lookup at h
  obtain ⟨hlt, hp, _⟩ := List.findIdx?_eq_some_iff_getElem.1 h
  exact ⟨g.verts[v], List.getElem?_eq_getElem hlt, by simpa using hp⟩

theorem lookup_known {g : Graph} {x : Vert} (h : x ∈ g.verts) : ∃ v, lookup g x.lane.id = some v := by
  unfold lookup
  cases e : g.verts.findIdx? (fun v => v.lane.id == x.lane.id) with
  | some v => exact ⟨v, rfl⟩
  | none =>
    rw [List.findIdx?_eq_none_iff] at e
    have := e x h
    simp at this

theorem lookup_inj {g : Graph} {i j v : Nat} (h : lookup g i = some v) (h' : lookup g j = some v) : i = j := by
  obtain ⟨x, hx, e⟩ := lookup_some h
  obtain ⟨y, hy, e'⟩ := lookup_some h'
  rw [hx] at hy; cases hy; rw [← e, ← e']

theorem idAt_lookup {g : Graph} {id v : Nat} (h : lookup g id = some v) : idAt g v = some id := by
  obtain ⟨x, hx, e⟩ := lookup_some h
  simp [idAt, hx, e]

theorem vertexOf_lookup {g : Graph} {id v : Nat} (h : lookup g id = some v) : vertexOf g id = v := by
  simp [vertexOf, h]

theorem lookup_lt {g : Graph} {id v : Nat} (h : lookup g id = some v) : v < g.verts.length := by
  obtain ⟨x, hx, _⟩ := lookup_some h
  exact (List.getElem?_eq_some_iff.1 hx).1

/-- ids at the ends of the out-edges of type `ty` of vertex `v` -/
def outL (g : Graph) (v : Nat) (ty : Ty) : List Nat :=
  (g.edges.filter (fun e => decide (e.src = v ∧ e.ty = ty))).filterMap (fun e => idAt g e.dst)

theorem outs_known {g : Graph} {id v : Nat} (h : lookup g id = some v) (ty : Ty) :
    outs g (vertexOf g id) ty = .ok (outL g v ty) := by
  unfold outs outL
  rw [vertexOf_lookup h, if_pos (lookup_lt h)]

theorem outL_addEdge {g : Graph} {s t id a b v : Nat} (hs : lookup g s = some a) (ht : lookup g t = some b)
    (hv : lookup g id = some v) (ty ty' : Ty) :
    outL (addEdge g s t ty') v ty = outL g v ty ++ (if s = id ∧ ty' = ty then [t] else []) := by
  have e : addEdge g s t ty' = { g with edges := g.edges ++ [⟨a, b, ty'⟩] } := by
    unfold addEdge; rw [hs, ht]
  have hab : (a = v) ↔ (s = id) := by
    constructor
    · rintro rfl; exact lookup_inj hs hv
    · rintro rfl; rw [hs] at hv; cases hv; rfl
  have hb := idAt_lookup ht
  rw [e]
  unfold outL
  simp only [List.filter_append, List.filterMap_append]
  congr 1
  by_cases h : s = id ∧ ty' = ty
  · rw [if_pos h]
    have : a = v ∧ ty' = ty := ⟨hab.2 h.1, h.2⟩
    rw [List.filter_cons_of_pos (by simpa using this)]
    simp only [List.filter_nil, List.filterMap_cons, List.filterMap_nil]
    have hb' : idAt { g with edges := g.edges ++ [⟨a, b, ty'⟩] } b = some t := (idAt_congr rfl b).trans hb
    simp [hb']
  · rw [if_neg h]
    have : ¬ (a = v ∧ ty' = ty) := fun h' => h ⟨hab.1 h'.1, h'.2⟩
    rw [List.filter_cons_of_neg (by simpa using this)]
    simp

/-- adding a list of edges between known lanes -/
theorem outL_fold (E : List (Nat × Nat × Ty)) : ∀ (g : Graph) (id v : Nat) (_ : lookup g id = some v)
    (_ : ∀ e ∈ E, (∃ a, lookup g e.1 = some a) ∧ (∃ b, lookup g e.2.1 = some b)) (ty : Ty),
    let g' := E.foldl (fun g e => addEdge g e.1 e.2.1 e.2.2) g
    g'.verts = g.verts ∧
      outL g' v ty = outL g v ty ++ (E.filter (fun e => decide (e.1 = id ∧ e.2.2 = ty))).map (fun e => e.2.1) := by
  induction E with
  | nil => intro g id v _ _ ty; simp
  | cons e E ih =>
    intro g id v hv hk ty
    obtain ⟨⟨a, ha⟩, b, hb⟩ := hk e (by simp)
    have hvs := addEdge_verts g e.1 e.2.1 e.2.2
    have h1 := ih (addEdge g e.1 e.2.1 e.2.2) id v (by rw [lookup_congr hvs]; exact hv)
      (by
        intro e' he'
        obtain ⟨⟨a', h1⟩, b', h2⟩ := hk e' (List.mem_cons_of_mem _ he')
        exact ⟨⟨a', by rw [lookup_congr hvs]; exact h1⟩, b', by rw [lookup_congr hvs]; exact h2⟩) ty
    simp only [List.foldl_cons] at h1 ⊢
    refine ⟨h1.1.trans hvs, ?_⟩
    rw [h1.2, outL_addEdge ha hb hv, List.append_assoc]
    congr 1
    by_cases h : e.1 = id ∧ e.2.2 = ty
    · rw [if_pos h, List.filter_cons_of_pos (by simpa using h)]; simp
    · rw [if_neg h, List.filter_cons_of_neg (by simpa using h)]; simp

theorem genVertices_eq (g : Graph) (m : XMap) :
    genVertices g m = ⟨g.verts ++ m.lanes, g.edges⟩ := by
  unfold genVertices
  generalize m.lanes = L
  induction L generalizing g with
  | nil => simp
  | cons v L ih => rw [List.foldl_cons, ih]; simp [addLane]

theorem mem_lanes {m : XMap} {v : Vert} : v ∈ m.lanes ↔ ∃ s, LaneIn m v.road s v.lane := by
  unfold XMap.lanes LaneIn
  simp only [List.mem_flatMap, List.mem_map]
  constructor
  · rintro ⟨⟨i, r⟩, hr, s, hs, l, hl, rfl⟩
    exact ⟨s, r, hr, hs, hl⟩
  · rintro ⟨s, r, hr, hs, hl⟩
    exact ⟨(v.road, r), hr, s, hs, v.lane, hl, rfl⟩

/-! ### Edges between neighbours are not touched by linking roads -/

/-- same vertices, same neighbour edges -/
def SameNbr (g g' : Graph) : Prop :=
  g'.verts = g.verts ∧ ∀ v ty, (ty = .inner ∨ ty = .outer) → outL g' v ty = outL g v ty

theorem SameNbr.refl (g : Graph) : SameNbr g g := ⟨rfl, fun _ _ _ => rfl⟩

theorem SameNbr.trans {a b c : Graph} (h : SameNbr a b) (h' : SameNbr b c) : SameNbr a c :=
  ⟨h'.1.trans h.1, fun v ty hty => (h'.2 v ty hty).trans (h.2 v ty hty)⟩

theorem sameNbr_addEdge (g : Graph) (s t : Nat) (ty' : Ty) (h : ty' = .laneSucc ∨ ty' = .roadSucc) :
    SameNbr g (addEdge g s t ty') := by
  refine ⟨addEdge_verts g s t ty', ?_⟩
  intro v ty hty
  have hne : ty' ≠ ty := by rcases h with rfl | rfl <;> rcases hty with rfl | rfl <;> simp
  unfold addEdge
  split
  · unfold outL
    simp only [List.filter_append]
    rw [List.filter_cons_of_neg (by simp [hne])]
    simp only [List.filter_nil, List.append_nil]
    rfl
  · rfl

theorem sameNbr_connect {g g' : Graph} {a b : Nat} (h : connect g a b = .ok g') : SameNbr g g' := by
  unfold connect at h
  obtain ⟨pa, h1, h⟩ := Res.bind_ok h
  obtain ⟨pb, h2, h⟩ := Res.bind_ok h
  cases h
  exact (((sameNbr_addEdge _ _ _ _ (.inl rfl)).trans (sameNbr_addEdge _ _ _ _ (.inl rfl))).trans
    (sameNbr_addEdge _ _ _ _ (.inr rfl))).trans (sameNbr_addEdge _ _ _ _ (.inr rfl))

theorem foldRes_inv {α β : Type} {f : β → α → Res β} {R : β → β → Prop} (hr : ∀ b, R b b)
    (ht : ∀ a b c, R a b → R b c → R a c) {l : List α} (hf : ∀ b, ∀ a ∈ l, ∀ b', f b a = .ok b' → R b b') :
    ∀ {b b'}, foldRes f b l = .ok b' → R b b' := by
  induction l with
  | nil => intro b b' h; cases h; exact hr b
  | cons a l ih =>
    intro b b' h
    obtain ⟨b1, h1, h2⟩ := Res.bind_ok (show (f b a >>= fun b' => foldRes f b' l) = .ok b' from h)
    exact ht _ _ _ (hf b a (by simp) b1 h1) (ih (fun b a ha => hf b a (List.mem_cons_of_mem _ ha)) h2)

theorem sameNbr_linkLane {succ pred : Option (List Lane)} {g g' : Graph} {l : Lane}
    (h : linkLane succ pred g l = .ok g') : SameNbr g g' := by
  unfold linkLane at h
  obtain ⟨⟨g1, b⟩, h1, h2⟩ := Res.bind_ok h
  have hs : SameNbr g g1 := by
    unfold succPart at h1
    split at h1
    · cases h1; exact SameNbr.refl g
    · split_ifs at h1
      · cases h1; exact SameNbr.refl g
      · split at h1
        · rename_i x b' _
          cases hc : connect g l.id b'.id with
          | error e => rw [hc] at h1; cases h1
          | ok g2 => rw [hc] at h1; cases h1; exact sameNbr_connect hc
        · cases h1; exact SameNbr.refl g
  refine hs.trans ?_
  cases b with
  | false => simp at h2; cases h2; exact SameNbr.refl _
  | true =>
    simp only [if_true] at h2
    unfold predPart at h2
    split at h2
    · cases h2; exact SameNbr.refl _
    · split_ifs at h2
      · cases h2; exact SameNbr.refl _
      · split at h2
        · exact sameNbr_connect h2
        · cases h2; exact SameNbr.refl _

theorem sameNbr_genLinks {g g' : Graph} {m : XMap} (h : genLinks g m = .ok g') : SameNbr g g' := by
  unfold genLinks at h
  refine foldRes_inv SameNbr.refl (fun _ _ _ => SameNbr.trans) ?_ h
  intro b a _ b' hb
  unfold linkRoad at hb
  split_ifs at hb
  · cases hb; exact SameNbr.refl _
  · obtain ⟨s, _, hb⟩ := Res.bind_ok hb
    obtain ⟨p, _, hb⟩ := Res.bind_ok hb
    exact foldRes_inv SameNbr.refl (fun _ _ _ => SameNbr.trans) (fun b a _ b' h => sameNbr_linkLane h) hb

theorem sameNbr_genJunctions {g g' : Graph} {m : XMap} (h : genJunctions g m = .ok g') : SameNbr g g' := by
  unfold genJunctions at h
  refine foldRes_inv SameNbr.refl (fun _ _ _ => SameNbr.trans) ?_ h
  intro b a _ b' hb
  unfold linkConnection at hb
  obtain ⟨_, _, hb⟩ := Res.bind_ok hb
  obtain ⟨_, _, hb⟩ := Res.bind_ok hb
  obtain ⟨_, _, hb⟩ := Res.bind_ok hb
  obtain ⟨_, _, hb⟩ := Res.bind_ok hb
  refine foldRes_inv SameNbr.refl (fun _ _ _ => SameNbr.trans) ?_ hb
  intro b a _ b' h
  unfold linkConn at h
  split at h
  · exact sameNbr_connect h
  · cases h; exact SameNbr.refl _

/-! ### Neighbour edges of a generated graph -/

/-- the graph after `GenerateNeighbours` -/
def baseGraph (m : XMap) : Graph := genNeighbours (genVertices ⟨[], []⟩ m) m

theorem mem_sections {m : XMap} {s : List Lane} {l : Lane} :
    (s ∈ m.sections ∧ l ∈ s) ↔ ∃ r, LaneIn m r s l := by
  unfold XMap.sections LaneIn
  simp only [List.mem_flatMap]
  constructor
  · rintro ⟨⟨⟨i, r⟩, hr, hs⟩, hl⟩; exact ⟨i, r, hr, hs, hl⟩
  · rintro ⟨i, r, hr, hs, hl⟩; exact ⟨⟨(i, r), hr, hs⟩, hl⟩

theorem ids_eq (m : XMap) :
    m.lanes.map (fun v => v.lane.id) = m.sections.flatMap (fun s => s.map (fun l => l.id)) := by
  simp only [XMap.lanes, XMap.sections, List.map_flatMap, List.flatMap_assoc, List.map_map]
  rfl

theorem laneByPos_mem {s : List Lane} {p : Int} {l : Lane} (h : laneByPos s p = some l) : l ∈ s ∧ l.pos = p := by
  unfold laneByPos at h
  have := List.mem_of_getLast? h
  rw [List.mem_filter] at this
  exact ⟨this.1, by simpa using this.2 |> fun h => (by simpa using h : p = l.pos).symm⟩

theorem laneByPos_none {s : List Lane} {p : Int} (h : laneByPos s p = none) : ∀ l ∈ s, l.pos ≠ p := by
  unfold laneByPos at h
  rw [List.getLast?_eq_none_iff, List.filter_eq_nil_iff] at h
  intro l hl e
  exact h l hl (by simp [e])

theorem laneByPos_unique {s : List Lane} (hu : ∀ l ∈ s, ∀ l' ∈ s, l.pos = l'.pos → l = l') {l : Lane} (hl : l ∈ s) :
    laneByPos s l.pos = some l := by
  cases h : laneByPos s l.pos with
  | none => exact absurd rfl (laneByPos_none h l hl)
  | some l' =>
    obtain ⟨h1, h2⟩ := laneByPos_mem h
    rw [hu l' h1 l hl h2]

theorem edges_src {s : List Lane} {l : Lane} (hl : l ∈ s) {e : Nat × Nat × Ty} (he : e ∈ laneNeighborEdges s l) :
    (∃ a ∈ s, a.id = e.1) ∧ (∃ b ∈ s, b.id = e.2.1) := by
  unfold laneNeighborEdges at he
  split_ifs at he with h
  · split at he
    · rename_i i hi
      have := (laneByPos_mem hi).1
      simp only [List.mem_cons, List.not_mem_nil, or_false] at he
      rcases he with rfl | rfl
      · exact ⟨⟨l, hl, rfl⟩, i, this, rfl⟩
      · exact ⟨⟨i, this, rfl⟩, l, hl, rfl⟩
    · simp at he
  · simp at he

theorem flatMap_nil {α β : Type} {l : List α} {f : α → List β} (h : ∀ a ∈ l, f a = []) : l.flatMap f = [] := by
  rw [List.flatMap_eq_nil_iff]; exact h

theorem flatMap_congr' {α β : Type} {l : List α} {f f' : α → List β} (h : ∀ a ∈ l, f a = f' a) :
    l.flatMap f = l.flatMap f' := by
  induction l with
  | nil => rfl
  | cons a l ih => simp [h a (by simp), ih (fun a ha => h a (List.mem_cons_of_mem _ ha))]

theorem flatMap_if {α β : Type} (l : List α) (c : α → Bool) (f : α → β) :
    l.flatMap (fun a => if c a then [f a] else []) = (l.filter c).map f := by
  induction l with
  | nil => rfl
  | cons a l ih =>
    simp only [List.flatMap_cons, ih]
    by_cases h : c a = true
    · simp [h]
    · simp [h]

section
variable {m : XMap} {s : List Lane} {l : Lane}

/-- targets of the neighbour edges of type `ty` that start at lane `id` -/
def nbrList (m : XMap) (id : Nat) (ty : Ty) : List Nat :=
  ((m.sections.flatMap (fun s => s.flatMap (laneNeighborEdges s))).filter
    (fun e => decide (e.1 = id ∧ e.2.2 = ty))).map (fun e => e.2.1)

theorem sec_split (hw : WellFormed m) (hs : s ∈ m.sections) :
    ∃ A B, m.sections = A ++ s :: B ∧ (s.map (fun l => l.id)).Nodup ∧
      ∀ s' ∈ A ++ B, ∀ a ∈ s', ∀ b ∈ s, a.id ≠ b.id := by
  obtain ⟨A, B, h⟩ := List.append_of_mem hs
  have hn := hw.ids
  rw [ids_eq, h] at hn
  simp only [List.flatMap_append, List.flatMap_cons] at hn
  rw [List.nodup_append] at hn
  obtain ⟨_, h2, h3⟩ := hn
  rw [List.nodup_append] at h2
  refine ⟨A, B, h, h2.1, ?_⟩
  intro s' hs' a ha b hb e
  rcases List.mem_append.1 hs' with h' | h'
  · refine h3 a.id (List.mem_flatMap.2 ⟨s', h', List.mem_map.2 ⟨a, ha, rfl⟩⟩) b.id ?_ e
    exact List.mem_append_left _ (List.mem_map.2 ⟨b, hb, rfl⟩)
  · refine h2.2.2 b.id (List.mem_map.2 ⟨b, hb, rfl⟩) a.id ?_ e.symm
    exact List.mem_flatMap.2 ⟨s', h', List.mem_map.2 ⟨a, ha, rfl⟩⟩

theorem nbrList_sec (hw : WellFormed m) (hs : s ∈ m.sections) (hl : l ∈ s) (ty : Ty) :
    nbrList m l.id ty = s.flatMap (fun l' =>
      ((laneNeighborEdges s l').filter (fun e => decide (e.1 = l.id ∧ e.2.2 = ty))).map (fun e => e.2.1)) := by
  obtain ⟨A, B, h, _, hd⟩ := sec_split hw hs
  unfold nbrList
  rw [h]
  have key : ∀ s' ∈ A ++ B, ((s'.flatMap (laneNeighborEdges s')).filter
      (fun e => decide (e.1 = l.id ∧ e.2.2 = ty))).map (fun e => e.2.1) = [] := by
    intro s' hs'
    rw [List.map_eq_nil_iff, List.filter_eq_nil_iff]
    intro e he
    obtain ⟨l', hl', he⟩ := List.mem_flatMap.1 he
    obtain ⟨⟨a, ha, e1⟩, _⟩ := edges_src hl' he
    have := hd s' hs' a ha l hl
    simp [← e1, this]
  simp only [List.flatMap_append, List.flatMap_cons, List.filter_append, List.map_append, List.filter_flatMap,
    List.map_flatMap] at key ⊢
  rw [flatMap_nil (l := A) (fun a ha => key a (List.mem_append_left _ ha)),
    flatMap_nil (l := B) (fun a ha => key a (List.mem_append_right _ ha))]
  simp

theorem nbrList_inner (hw : WellFormed m) (hs : s ∈ m.sections) (hl : l ∈ s) :
    nbrList m l.id .inner = if l.pos ≠ 0 then ((laneByPos s (innerPos l.pos)).map (fun i => i.id)).toList else [] := by
  rw [nbrList_sec hw hs hl]
  obtain ⟨_, _, _, hn, _⟩ := sec_split hw hs
  obtain ⟨A, B, h⟩ := List.append_of_mem hl
  have hne : ∀ l' ∈ A ++ B, l'.id ≠ l.id := by
    rw [h] at hn
    simp only [List.map_append, List.map_cons] at hn
    rw [List.nodup_append, List.nodup_cons] at hn
    intro l' hl' e
    rcases List.mem_append.1 hl' with h' | h'
    · exact hn.2.2 l'.id (List.mem_map.2 ⟨l', h', rfl⟩) l.id (by simp) e
    · exact hn.2.1.1 (e ▸ List.mem_map.2 ⟨l', h', rfl⟩)
  have key : ∀ l' ∈ A ++ B, ((laneNeighborEdges s l').filter
      (fun e => decide (e.1 = l.id ∧ e.2.2 = .inner))).map (fun e => e.2.1) = [] := by
    intro l' hl'
    rw [List.map_eq_nil_iff, List.filter_eq_nil_iff]
    intro e he
    unfold laneNeighborEdges at he
    split_ifs at he
    · split at he
      · simp only [List.mem_cons, List.not_mem_nil, or_false] at he
        rcases he with rfl | rfl
        · simp [hne l' hl']
        · simp
      · simp at he
    · simp at he
  generalize hf : (fun l' => ((laneNeighborEdges s l').filter
      (fun e => decide (e.1 = l.id ∧ e.2.2 = .inner))).map (fun e => e.2.1)) = f at *
  have hfl : f l = if l.pos ≠ 0 then ((laneByPos s (innerPos l.pos)).map (fun i => i.id)).toList else [] := by
    rw [← hf]
    unfold laneNeighborEdges
    beta_reduce
    by_cases h0 : l.pos = 0
    · simp [h0]
    · rw [if_pos h0, if_pos h0]
      cases laneByPos s (innerPos l.pos) with
      | none => simp
      | some i => simp
  rw [h, List.flatMap_append, List.flatMap_cons,
    flatMap_nil (l := A) (fun a ha => by rw [← hf]; exact key a (List.mem_append_left _ ha)),
    flatMap_nil (l := B) (fun a ha => by rw [← hf]; exact key a (List.mem_append_right _ ha)), hfl, ← h]
  simp

theorem nbrList_outer (hw : WellFormed m) (hs : s ∈ m.sections) (hl : l ∈ s) :
    nbrList m l.id .outer =
      (s.filter (fun o => decide (o.pos ≠ 0 ∧ innerPos o.pos = l.pos))).map (fun o => o.id) := by
  rw [nbrList_sec hw hs hl, ← flatMap_if]
  obtain ⟨_, _, _, hn, _⟩ := sec_split hw hs
  have hu : ∀ a ∈ s, ∀ b ∈ s, a.pos = b.pos → a = b := by
    intro a ha b hb e
    obtain ⟨r, h1⟩ := mem_sections.1 ⟨hs, ha⟩
    obtain ⟨road, h2, h3, _⟩ := h1
    exact hw.pos r s a b ⟨road, h2, h3, ha⟩ ⟨road, h2, h3, hb⟩ e
  apply flatMap_congr'
  intro o _
  unfold laneNeighborEdges
  by_cases h0 : o.pos = 0
  · simp [h0]
  · rw [if_pos h0]
    by_cases hp : innerPos o.pos = l.pos
    · rw [hp, laneByPos_unique hu hl]
      simp [h0]
    · rw [if_neg (by simp [hp])]
      cases hi : laneByPos s (innerPos o.pos) with
      | none => simp
      | some i =>
        obtain ⟨h1, h2⟩ := laneByPos_mem hi
        have : i.id ≠ l.id := by
          intro e
          have := List.inj_on_of_nodup_map hn h1 hl e
          rw [this] at h2; exact hp h2.symm
        simp [this]

theorem base_verts (m : XMap) : (baseGraph m).verts = m.lanes := by
  have : ∀ (E : List (Nat × Nat × Ty)) (g : Graph),
      (E.foldl (fun g e => addEdge g e.1 e.2.1 e.2.2) g).verts = g.verts := by
    intro E
    induction E with
    | nil => intro g; rfl
    | cons e E ih => intro g; rw [List.foldl_cons, ih, addEdge_verts]
  unfold baseGraph genNeighbours
  rw [this, genVertices_eq]; simp

theorem base_nbrs (r : Nat) (hl : LaneIn m r s l) :
    ∃ v, lookup (baseGraph m) l.id = some v ∧ ∀ ty, outL (baseGraph m) v ty = nbrList m l.id ty := by
  have hv : ∀ s' l', (∃ r, LaneIn m r s' l') → ∃ v, lookup (genVertices ⟨[], []⟩ m) l'.id = some v := by
    rintro s' l' ⟨r', h⟩
    refine lookup_known (x := ⟨r', l'⟩) ?_
    rw [genVertices_eq]
    exact List.mem_append_right _ (mem_lanes.2 ⟨s', h⟩)
  obtain ⟨v, hv1⟩ := hv s l ⟨r, hl⟩
  refine ⟨v, ?_, ?_⟩
  · rw [lookup_congr (g := genVertices ⟨[], []⟩ m) (by rw [base_verts, genVertices_eq]; simp)]; exact hv1
  · intro ty
    have := (outL_fold (m.sections.flatMap (fun s => s.flatMap (laneNeighborEdges s))) (genVertices ⟨[], []⟩ m) l.id v
      hv1 (by
        intro e he
        obtain ⟨s', hs', he⟩ := List.mem_flatMap.1 he
        obtain ⟨l', hl', he⟩ := List.mem_flatMap.1 he
        obtain ⟨⟨a, ha, e1⟩, b, hb, e2⟩ := edges_src hl' he
        rw [← e1, ← e2]
        exact ⟨hv s' a (mem_sections.1 ⟨hs', ha⟩), hv s' b (mem_sections.1 ⟨hs', hb⟩)⟩) ty).2
    refine this.trans ?_
    have h0 : outL (genVertices ⟨[], []⟩ m) v ty = [] := by rw [genVertices_eq]; simp [outL]
    rw [h0]
    rfl

end

theorem generate_same {m : XMap} {g : Graph} (h : generate m = .ok g) : SameNbr (baseGraph m) g := by
  unfold generate at h
  obtain ⟨g1, h1, h2⟩ := Res.bind_ok h
  exact (sameNbr_genLinks h1).trans (sameNbr_genJunctions h2)

/-- everything the queries need to know about a lane in a graph with the neighbour edges of the map -/
structure Known (m : XMap) (g : Graph) (r : Nat) (s : List Lane) (l : Lane) (v : Nat) : Prop where
  vertex : lookup g l.id = some v
  vert : g.verts[v]? = some ⟨r, l⟩
  inner : outL g v .inner =
    if l.pos ≠ 0 then ((laneByPos s (innerPos l.pos)).map (fun i => i.id)).toList else []
  outer : outL g v .outer =
    (s.filter (fun o => decide (o.pos ≠ 0 ∧ innerPos o.pos = l.pos))).map (fun o => o.id)

theorem known {m : XMap} {g : Graph} (hw : WellFormed m) (hg : SameNbr (baseGraph m) g) {r : Nat} {s : List Lane}
    {l : Lane} (hl : LaneIn m r s l) : ∃ v, Known m g r s l v := by
  obtain ⟨v, hv, ho⟩ := base_nbrs r hl
  have hv' : lookup g l.id = some v := by rw [lookup_congr hg.1]; exact hv
  obtain ⟨hs, hls⟩ := mem_sections.2 ⟨r, hl⟩
  refine ⟨v, hv', ?_, ?_, ?_⟩
  · obtain ⟨x, hx, e⟩ := lookup_some hv'
    rw [hx]
    have hxm : x ∈ m.lanes := by
      rw [← base_verts, ← hg.1]; exact List.mem_of_getElem? hx
    have := List.inj_on_of_nodup_map hw.ids hxm (mem_lanes.2 ⟨s, hl⟩ : (⟨r, l⟩ : Vert) ∈ m.lanes) e
    rw [this]
  · rw [hg.2 v .inner (.inl rfl), ho, nbrList_inner hw hs hls]
  · rw [hg.2 v .outer (.inr rfl), ho, nbrList_outer hw hs hls]

/-! ### Queries -/

section
variable {m : XMap} {g : Graph} {r : Nat} {s : List Lane} {l : Lane} {v : Nat}

theorem sec_pos (hw : WellFormed m) (hl : LaneIn m r s l) : ∀ a ∈ s, ∀ b ∈ s, a.pos = b.pos → a = b := by
  obtain ⟨road, h2, h3, _⟩ := hl
  intro a ha b hb e
  exact hw.pos r s a b ⟨road, h2, h3, ha⟩ ⟨road, h2, h3, hb⟩ e

theorem sec_mem (hl : LaneIn m r s l) {i : Lane} (hi : i ∈ s) : LaneIn m r s i := by
  obtain ⟨road, h2, h3, _⟩ := hl
  exact ⟨road, h2, h3, hi⟩

theorem innerPos_towards {p q : Int} : (p ≠ 0 ∧ innerPos p = q) ↔ Towards p q := by
  unfold innerPos Towards
  split_ifs with h <;> constructor <;> intro h' <;> omega

theorem inner_spec (hw : WellFormed m) (hg : SameNbr (baseGraph m) g) (hl : LaneIn m r s l) :
    ∃ o, innerNeighbor g l.id = .ok o ∧ ∀ j, o = some j ↔ ∃ i ∈ s, i.id = j ∧ Towards l.pos i.pos := by
  obtain ⟨v, hk⟩ := known hw hg hl
  have hu := sec_pos hw hl
  refine ⟨(outL g v .inner).head?, ?_, ?_⟩
  · unfold innerNeighbor neighbor; rw [outs_known hk.vertex]
  · intro j
    rw [hk.inner]
    by_cases h0 : l.pos = 0
    · rw [if_neg (by simp [h0])]
      simp only [List.head?_nil, reduceCtorEq, false_iff]
      rintro ⟨i, _, _, h⟩
      exact (innerPos_towards.2 h).1 h0
    · rw [if_pos h0]
      constructor
      · intro h
        cases hi : laneByPos s (innerPos l.pos) with
        | none => rw [hi] at h; simp at h
        | some i =>
          rw [hi] at h
          simp only [Option.map_some, Option.toList_some, List.head?_cons, Option.some.injEq] at h
          obtain ⟨h1, h2⟩ := laneByPos_mem hi
          exact ⟨i, h1, h, innerPos_towards.1 ⟨h0, h2.symm⟩⟩
      · rintro ⟨i, hi, rfl, h⟩
        have h2 := (innerPos_towards.2 h).2
        rw [h2, laneByPos_unique hu hi]
        simp

theorem head_unique {L : List Nat} {j : Nat} (h : ∀ x ∈ L, ∀ y ∈ L, x = y) : L.head? = some j ↔ j ∈ L := by
  cases L with
  | nil => simp
  | cons a L =>
    simp only [List.head?_cons, Option.some.injEq]
    constructor
    · rintro rfl; simp
    · intro hj; exact h a (by simp) j hj

theorem mem_outer {j : Nat} : j ∈ (s.filter (fun o => decide (o.pos ≠ 0 ∧ innerPos o.pos = l.pos))).map (fun o => o.id) ↔
    ∃ i ∈ s, i.id = j ∧ Towards i.pos l.pos := by
  simp only [List.mem_map, List.mem_filter, decide_eq_true_eq]
  constructor
  · rintro ⟨i, ⟨h1, h2⟩, h3⟩; exact ⟨i, h1, h3, innerPos_towards.1 h2⟩
  · rintro ⟨i, h1, h3, h2⟩; exact ⟨i, ⟨h1, innerPos_towards.2 h2⟩, h3⟩

theorem outer_mem_spec (hw : WellFormed m) (hg : SameNbr (baseGraph m) g) (hl : LaneIn m r s l) :
    ∃ o, outerNeighbor g l.id = .ok o ∧ ∀ j, o = some j → ∃ i ∈ s, i.id = j ∧ Towards i.pos l.pos := by
  obtain ⟨v, hk⟩ := known hw hg hl
  refine ⟨(outL g v .outer).head?, ?_, ?_⟩
  · unfold outerNeighbor neighbor; rw [outs_known hk.vertex]
  · intro j h
    rw [hk.outer] at h
    exact mem_outer.1 (List.mem_of_head? h)

theorem outer_spec (hw : WellFormed m) (hg : SameNbr (baseGraph m) g) (hl : LaneIn m r s l) (h0 : l.pos ≠ 0) :
    ∃ o, outerNeighbor g l.id = .ok o ∧ ∀ j, o = some j ↔ ∃ i ∈ s, i.id = j ∧ Towards i.pos l.pos := by
  obtain ⟨v, hk⟩ := known hw hg hl
  have hu := sec_pos hw hl
  refine ⟨(outL g v .outer).head?, ?_, ?_⟩
  · unfold outerNeighbor neighbor; rw [outs_known hk.vertex]
  · intro j
    rw [hk.outer, head_unique, mem_outer]
    intro x hx y hy
    obtain ⟨a, ha, rfl, h1⟩ := mem_outer.1 hx
    obtain ⟨b, hb, rfl, h2⟩ := mem_outer.1 hy
    rw [hu a ha b hb (by unfold Towards at h1 h2; omega)]

theorem getLane_known (hw : WellFormed m) (hg : SameNbr (baseGraph m) g) (hl : LaneIn m r s l) :
    getLane g l.id = some l := by
  obtain ⟨v, hk⟩ := known hw hg hl
  unfold getLane; rw [hk.vertex]; simp [hk.vert]

theorem road_known (hw : WellFormed m) (hg : SameNbr (baseGraph m) g) (hl : LaneIn m r s l) :
    roadForLane g l.id = .ok r := by
  obtain ⟨v, hk⟩ := known hw hg hl
  unfold roadForLane; rw [vertexOf_lookup hk.vertex]; simp [hk.vert]

/-- the lane on the other side of the neighbour towards the reference lane, 0 skipped -/
def acrossPos (p : Int) : Int := if p = 1 then -1 else if p = -1 then 1 else innerPos p

theorem across_mem (hw : WellFormed m) (hg : SameNbr (baseGraph m) g) (hl : LaneIn m r s l) :
    ∃ o, innerOrAcross g l.id = .ok o ∧ ∀ j, o = some j → ∃ i ∈ s, i.id = j ∧ i.pos ≠ 0 ∧ i ≠ l := by
  obtain ⟨i, hi, hi2⟩ := inner_spec hw hg hl
  unfold innerOrAcross
  rw [hi, Res.ok_bind]
  cases i with
  | none => exact ⟨none, rfl, by simp⟩
  | some c =>
    obtain ⟨c', hc, rfl, ht⟩ := (hi2 c).1 rfl
    have hlc := sec_mem hl hc
    simp only [getLane_known hw hg hlc]
    by_cases hz : c'.pos = 0
    · rw [if_neg (by simp [hz])]
      obtain ⟨v, hk⟩ := known hw hg hlc
      have : outerNeighbors g c'.id = .ok (outL g v .outer) := by unfold outerNeighbors; rw [outs_known hk.vertex]
      rw [this, Res.ok_bind]
      refine ⟨_, rfl, ?_⟩
      intro j hj
      have h1 := List.mem_of_find?_eq_some hj
      have h2 := List.find?_some hj
      rw [hk.outer] at h1
      obtain ⟨o, ho, rfl, ht'⟩ := mem_outer.1 h1
      refine ⟨o, ho, rfl, by unfold Towards at ht'; omega, ?_⟩
      rintro rfl; simp at h2
    · rw [if_pos hz]
      refine ⟨_, rfl, ?_⟩
      intro j hj; cases hj
      refine ⟨c', hc, rfl, hz, ?_⟩
      rintro rfl; unfold Towards at ht; omega

theorem across_spec (hw : WellFormed m) (hg : SameNbr (baseGraph m) g) (hl : LaneIn m r s l) (h0 : l.pos ≠ 0)
    (href : ∃ z ∈ s, z.pos = 0) :
    ∃ o, innerOrAcross g l.id = .ok o ∧ At s (acrossPos l.pos) o := by
  have hu := sec_pos hw hl
  obtain ⟨i, hi, hi2⟩ := inner_spec hw hg hl
  unfold innerOrAcross
  rw [hi, Res.ok_bind]
  cases i with
  | none =>
    refine ⟨none, rfl, ?_⟩
    intro j
    simp only [reduceCtorEq, false_iff]
    rintro ⟨a, ha, hp, rfl⟩
    obtain ⟨z, hz, hz0⟩ := href
    by_cases h1 : l.pos = 1 ∨ l.pos = -1
    · have := (hi2 z.id).2 ⟨z, hz, rfl, by unfold Towards; omega⟩
      simp at this
    · have := (hi2 a.id).2 ⟨a, ha, rfl, innerPos_towards.1 ⟨h0, by
        rw [hp]; unfold acrossPos; rw [if_neg (fun h => h1 (.inl h)), if_neg (fun h => h1 (.inr h))]⟩⟩
      simp at this
  | some c =>
    obtain ⟨c', hc, rfl, ht⟩ := (hi2 c).1 rfl
    have hlc := sec_mem hl hc
    simp only [getLane_known hw hg hlc]
    by_cases hz : c'.pos = 0
    · rw [if_neg (by simp [hz])]
      obtain ⟨v, hk⟩ := known hw hg hlc
      have : outerNeighbors g c'.id = .ok (outL g v .outer) := by unfold outerNeighbors; rw [outs_known hk.vertex]
      rw [this, Res.ok_bind]
      have hin : ∀ o ∈ s, o.id ≠ l.id → Towards o.pos c'.pos → o.pos = acrossPos l.pos := by
        intro o ho hne hto
        have hp : o.pos ≠ l.pos := fun e => hne (by rw [hu o ho l (mem_sections.2 ⟨r, hl⟩).2 e])
        unfold acrossPos innerPos
        unfold Towards at ht hto
        split_ifs <;> omega
      refine ⟨_, rfl, ?_⟩
      intro j
      constructor
      · intro hj
        have h1 := List.mem_of_find?_eq_some hj
        have h2 := List.find?_some hj
        rw [hk.outer] at h1
        obtain ⟨o, ho, rfl, ht'⟩ := mem_outer.1 h1
        exact ⟨o, ho, hin o ho (by simpa using h2) ht', rfl⟩
      · rintro ⟨a, ha, hp, rfl⟩
        have hta : Towards a.pos c'.pos ∧ a.pos ≠ l.pos := by
          unfold Towards at ht ⊢
          unfold acrossPos innerPos at hp
          split_ifs at hp <;> omega
        have hne : a.id ≠ l.id := by
          intro e
          have := (sec_split hw (mem_sections.2 ⟨r, hl⟩).1)
          obtain ⟨_, _, _, hn, _⟩ := this
          exact hta.2 (congrArg Lane.pos (List.inj_on_of_nodup_map hn ha (mem_sections.2 ⟨r, hl⟩).2 e))
        have hmem : a.id ∈ outL g v .outer := by rw [hk.outer]; exact mem_outer.2 ⟨a, ha, rfl, hta.1⟩
        cases hf : (outL g v .outer).find? (fun o => decide (o ≠ l.id)) with
        | none =>
          rw [List.find?_eq_none] at hf
          exact absurd (by simpa using hne) (hf _ hmem)
        | some o =>
          have h1 := List.mem_of_find?_eq_some hf
          have h2 := List.find?_some hf
          rw [hk.outer] at h1
          obtain ⟨o', ho, rfl, ht'⟩ := mem_outer.1 h1
          rw [hu o' ho a ha (by rw [hin o' ho (by simpa using h2) ht', hp])]
    · rw [if_pos hz]
      refine ⟨_, rfl, ?_⟩
      intro j
      have hac : acrossPos l.pos = c'.pos := by
        unfold acrossPos innerPos
        unfold Towards at ht
        split_ifs <;> omega
      rw [hac]
      constructor
      · intro hj; cases hj; exact ⟨c', hc, rfl, rfl⟩
      · rintro ⟨a, ha, hp, rfl⟩; rw [hu a ha c' hc hp]

/-! ### C32 -/

/-- the inner neighbour is the lane one position closer to the reference lane in the same lane section -/
theorem C32_inner_neighbor (hw : WellFormed m) (hg : generate m = .ok g) (hl : LaneIn m r s l) :
    ∃ o, innerNeighbor g l.id = .ok o ∧ ∀ j, o = some j ↔ ∃ i ∈ s, i.id = j ∧ Towards l.pos i.pos :=
  inner_spec hw (generate_same hg) hl

/-- the outer neighbour of a lane other than the reference lane is the lane one position further away -/
theorem C32_outer_neighbor (hw : WellFormed m) (hg : generate m = .ok g) (hl : LaneIn m r s l) (h0 : l.pos ≠ 0) :
    ∃ o, outerNeighbor g l.id = .ok o ∧ ∀ j, o = some j ↔ ∃ i ∈ s, i.id = j ∧ Towards i.pos l.pos :=
  outer_spec hw (generate_same hg) hl h0

/-- inner and outer neighbour are inverse to each other -/
theorem C32_inverse (hw : WellFormed m) (hg : generate m = .ok g) {a b : Lane} (ha : LaneIn m r s a)
    (hb : LaneIn m r s b) :
    (outerNeighbor g b.id = .ok (some a.id) → innerNeighbor g a.id = .ok (some b.id)) ∧
    (b.pos ≠ 0 → innerNeighbor g a.id = .ok (some b.id) → outerNeighbor g b.id = .ok (some a.id)) := by
  have hsame := generate_same hg
  have hid : ∀ x ∈ s, ∀ y ∈ s, x.id = y.id → x = y := by
    obtain ⟨_, _, _, hn, _⟩ := sec_split hw (mem_sections.2 ⟨r, ha⟩).1
    intro x hx y hy e
    exact List.inj_on_of_nodup_map hn hx hy e
  have has := (mem_sections.2 ⟨r, ha⟩).2
  have hbs := (mem_sections.2 ⟨r, hb⟩).2
  obtain ⟨i, hi, hi2⟩ := inner_spec hw hsame ha
  constructor
  · intro h
    obtain ⟨o, ho, ho2⟩ := outer_mem_spec hw hsame hb
    rw [ho] at h; cases h
    obtain ⟨x, hx, e, ht⟩ := ho2 a.id rfl
    rw [hid x hx a has e] at ht
    rw [hi, (hi2 b.id).2 ⟨b, hbs, rfl, ht⟩]
  · intro h0 h
    obtain ⟨o, ho, ho2⟩ := outer_spec hw hsame hb h0
    rw [hi] at h; cases h
    obtain ⟨x, hx, e, ht⟩ := (hi2 b.id).1 rfl
    rw [hid x hx b hbs e] at ht
    rw [ho, (ho2 a.id).2 ⟨a, has, rfl, ht⟩]

/-- Right-hand traffic, a lane section with a reference lane: seen in driving direction forward the left lane is the one at the
next higher position and the right lane the one at the next lower position (0 skipped), whatever the direction of the lane
itself; seen in direction backward the two are exchanged. -/
theorem C32_left_right (hw : WellFormed m) (hg : generate m = .ok g) (hr : RightHand m) (hl : LaneIn m r s l)
    (h0 : l.pos ≠ 0) (href : ∃ z ∈ s, z.pos = 0) :
    (∃ o, leftLane g l.id .forward = .ok o ∧ At s (leftPos l.pos) o) ∧
    (∃ o, rightLane g l.id .forward = .ok o ∧ At s (rightPos l.pos) o) ∧
    (∃ o, leftLane g l.id .backward = .ok o ∧ At s (rightPos l.pos) o) ∧
    (∃ o, rightLane g l.id .backward = .ok o ∧ At s (leftPos l.pos) o) := by
  have hsame := generate_same hg
  have hla := getLane_known hw hsame hl
  obtain ⟨a, ha, ha2⟩ := across_spec hw hsame hl h0 href
  obtain ⟨o, ho, ho2⟩ := outer_spec hw hsame hl h0
  have hdir := hr r s l hl
  unfold leftLane rightLane
  rw [hla]
  rcases lt_or_gt_of_ne h0 with hneg | hpos
  · have hd := hdir.1 hneg
    have e1 : acrossPos l.pos = leftPos l.pos := by
      unfold acrossPos leftPos innerPos; split_ifs <;> omega
    have e2 : At s (rightPos l.pos) o := by
      intro j
      rw [ho2]
      constructor
      · rintro ⟨i, hi, rfl, ht⟩
        exact ⟨i, hi, by unfold Towards at ht; unfold rightPos; split_ifs <;> omega, rfl⟩
      · rintro ⟨i, hi, hp, rfl⟩
        exact ⟨i, hi, rfl, by unfold Towards; unfold rightPos at hp; split_ifs at hp <;> omega⟩
    simp only [hd, if_true, reduceCtorEq, if_false]
    rw [e1] at ha2
    exact ⟨⟨a, ha, ha2⟩, ⟨o, ho, e2⟩, ⟨o, ho, e2⟩, ⟨a, ha, ha2⟩⟩
  · have hd := hdir.2 hpos
    have e1 : acrossPos l.pos = rightPos l.pos := by
      unfold acrossPos rightPos innerPos; split_ifs <;> omega
    have e2 : At s (leftPos l.pos) o := by
      intro j
      rw [ho2]
      constructor
      · rintro ⟨i, hi, rfl, ht⟩
        exact ⟨i, hi, by unfold Towards at ht; unfold leftPos; split_ifs <;> omega, rfl⟩
      · rintro ⟨i, hi, hp, rfl⟩
        exact ⟨i, hi, rfl, by unfold Towards; unfold leftPos at hp; split_ifs at hp <;> omega⟩
    simp only [hd, if_true, reduceCtorEq, if_false]
    rw [e1] at ha2
    exact ⟨⟨o, ho, e2⟩, ⟨a, ha, ha2⟩, ⟨a, ha, ha2⟩, ⟨o, ho, e2⟩⟩

/-- Right-hand traffic: seen in driving direction forward the left boundary of a lane is the line of the lane itself beyond the reference lane and that of its inner
neighbour before it, the right boundary the other one; seen in direction backward the two are exchanged. -/
theorem C32_boundaries (hw : WellFormed m) (hg : generate m = .ok g) (hr : RightHand m) (hl : LaneIn m r s l) (h0 : l.pos ≠ 0) :
    (∃ o, leftBoundary g l.id .forward = .ok o ∧ At s (lineLeft l.pos) o) ∧
    (∃ o, rightBoundary g l.id .forward = .ok o ∧ At s (lineRight l.pos) o) ∧
    (∃ o, leftBoundary g l.id .backward = .ok o ∧ At s (lineRight l.pos) o) ∧
    (∃ o, rightBoundary g l.id .backward = .ok o ∧ At s (lineLeft l.pos) o) := by
  have hsame := generate_same hg
  have hla := getLane_known hw hsame hl
  obtain ⟨o, ho, ho2⟩ := inner_spec hw hsame hl
  have hdir := hr r s l hl
  have hu := sec_pos hw hl
  have hls := (mem_sections.2 ⟨r, hl⟩).2
  have own : At s l.pos (some l.id) := by
    intro j
    constructor
    · intro e; cases e; exact ⟨l, hls, rfl, rfl⟩
    · rintro ⟨i, hi, hp, rfl⟩; rw [hu i hi l hls hp]
  unfold leftBoundary rightBoundary
  rw [hla]
  rcases lt_or_gt_of_ne h0 with hneg | hpos
  · have hd := hdir.1 hneg
    have e1 : lineRight l.pos = l.pos := if_pos hneg
    have e2 : At s (lineLeft l.pos) o := by
      intro j
      rw [ho2]
      constructor
      · rintro ⟨i, hi, rfl, ht⟩
        exact ⟨i, hi, by unfold Towards at ht; unfold lineLeft; split_ifs <;> omega, rfl⟩
      · rintro ⟨i, hi, hp, rfl⟩
        exact ⟨i, hi, rfl, by unfold Towards; unfold lineLeft at hp; split_ifs at hp <;> omega⟩
    simp only [hd, if_true, reduceCtorEq, if_false, e1]
    exact ⟨⟨o, ho, e2⟩, ⟨_, rfl, own⟩, ⟨_, rfl, own⟩, ⟨o, ho, e2⟩⟩
  · have hd := hdir.2 hpos
    have e1 : lineLeft l.pos = l.pos := if_neg (by omega)
    have e2 : At s (lineRight l.pos) o := by
      intro j
      rw [ho2]
      constructor
      · rintro ⟨i, hi, rfl, ht⟩
        exact ⟨i, hi, by unfold Towards at ht; unfold lineRight; split_ifs <;> omega, rfl⟩
      · rintro ⟨i, hi, hp, rfl⟩
        exact ⟨i, hi, rfl, by unfold Towards; unfold lineRight at hp; split_ifs at hp <;> omega⟩
    simp only [hd, if_true, reduceCtorEq, if_false, e1]
    exact ⟨⟨_, rfl, own⟩, ⟨o, ho, e2⟩, ⟨o, ho, e2⟩, ⟨_, rfl, own⟩⟩

/-- all lane ids: every lane but the reference lanes, each once -/
theorem C32_all_lanes (hw : WellFormed m) (hg : generate m = .ok g) :
    (allLaneIds g).Nodup ∧ ∀ i, i ∈ allLaneIds g ↔ ∃ r s l, LaneIn m r s l ∧ l.pos ≠ 0 ∧ l.id = i := by
  have hv : g.verts = m.lanes := (generate_same hg).1.trans (base_verts m)
  unfold allLaneIds
  rw [hv]
  refine ⟨hw.ids.sublist (List.filter_sublist.map _), fun i => ?_⟩
  simp only [List.mem_map, List.mem_filter, decide_eq_true_eq]
  constructor
  · rintro ⟨⟨r, l⟩, ⟨h1, h2⟩, rfl⟩
    obtain ⟨s, h3⟩ := mem_lanes.1 h1
    exact ⟨r, s, l, h3, h2, rfl⟩
  · rintro ⟨r, s, l, h1, h2, rfl⟩
    exact ⟨⟨r, l⟩, ⟨mem_lanes.2 ⟨s, h1⟩, h2⟩, rfl⟩

/-- no neighbour lookup leads to a different road, and none leads back to the lane itself -/
theorem C32_same_road (hw : WellFormed m) (hg : generate m = .ok g) (hl : LaneIn m r s l) (d : Dir) {j : Nat}
    (h : innerNeighbor g l.id = .ok (some j) ∨ outerNeighbor g l.id = .ok (some j) ∨
      leftLane g l.id d = .ok (some j) ∨ rightLane g l.id d = .ok (some j)) :
    roadForLane g l.id = .ok r ∧ roadForLane g j = .ok r ∧ ∃ l', LaneIn m r s l' ∧ l'.id = j ∧ l' ≠ l := by
  have hsame := generate_same hg
  refine ⟨road_known hw hsame hl, ?_⟩
  have key : ∃ l' ∈ s, l'.id = j ∧ l' ≠ l := by
    obtain ⟨i, hi, hi2⟩ := inner_spec hw hsame hl
    obtain ⟨o, ho, ho2⟩ := outer_mem_spec hw hsame hl
    obtain ⟨a, ha, ha2⟩ := across_mem hw hsame hl
    have k1 : innerNeighbor g l.id = .ok (some j) → ∃ l' ∈ s, l'.id = j ∧ l' ≠ l := by
      intro h; rw [hi] at h; cases h
      obtain ⟨x, hx, e, ht⟩ := (hi2 j).1 rfl
      exact ⟨x, hx, e, by rintro rfl; unfold Towards at ht; omega⟩
    have k2 : outerNeighbor g l.id = .ok (some j) → ∃ l' ∈ s, l'.id = j ∧ l' ≠ l := by
      intro h; rw [ho] at h; cases h
      obtain ⟨x, hx, e, ht⟩ := ho2 j rfl
      exact ⟨x, hx, e, by rintro rfl; unfold Towards at ht; omega⟩
    have k3 : innerOrAcross g l.id = .ok (some j) → ∃ l' ∈ s, l'.id = j ∧ l' ≠ l := by
      intro h; rw [ha] at h; cases h
      obtain ⟨x, hx, e, _, ht⟩ := ha2 j rfl
      exact ⟨x, hx, e, ht⟩
    have hla := getLane_known hw hsame hl
    rcases h with h | h | h | h
    · exact k1 h
    · exact k2 h
    · unfold leftLane at h; rw [hla] at h
      simp only at h
      split_ifs at h
      · exact k3 h
      · exact k2 h
    · unfold rightLane at h; rw [hla] at h
      simp only at h
      split_ifs at h
      · exact k2 h
      · exact k3 h
  obtain ⟨l', hl', e, hne⟩ := key
  have hl'' := sec_mem hl hl'
  exact ⟨e ▸ road_known hw hsame hl'', l', hl'', e, hne⟩

end

end Bark.RG
