import Verif.Props.Roadgraph

namespace Bark.RG
open Spec

section
variable {m : XMap} {g : Graph} {r : Nat} {s : List Lane} {l : Lane} {v : Nat}

/-- number of lanes of the section that are closer to the reference lane -/
def closer (s : List Lane) (l : Lane) : Nat := (s.filter (fun i => decide (i.pos.natAbs < l.pos.natAbs))).length

theorem filter_length_lt {α : Type} {p q : α → Bool} {L : List α} (h : ∀ x ∈ L, p x = true → q x = true) {a : α}
    (ha : a ∈ L) (hq : q a = true) (hp : p a = false) : (L.filter p).length < (L.filter q).length := by
  induction L with
  | nil => simp at ha
  | cons b L ih =>
    have hmono : (L.filter p).length ≤ (L.filter q).length := by
      clear ih ha
      induction L with
      | nil => simp
      | cons c L ih =>
        have := ih (fun x hx => h x (by simp at hx ⊢; tauto))
        have hc := h c (by simp)
        by_cases hpc : p c = true
        · simp [hpc, hc hpc]; omega
        · by_cases hqc : q c = true
          · simp [hpc, hqc]; omega
          · simp [hpc, hqc]; omega
    rcases List.mem_cons.1 ha with rfl | ha
    · simp [hp, hq]; omega
    · have := ih (fun x hx => h x (List.mem_cons_of_mem _ hx)) ha
      have hb := h b (by simp)
      by_cases hpb : p b = true
      · simp [hpb, hb hpb]; omega
      · by_cases hqb : q b = true
        · simp [hpb, hqb]; omega
        · simp [hpb, hqb]; omega

theorem closer_lt {i : Lane} (hi : i ∈ s) (h : Towards l.pos i.pos) : closer s i < closer s l := by
  unfold closer
  refine filter_length_lt (a := i) ?_ hi ?_ ?_
  · intro x _ hx; simp only [decide_eq_true_eq] at hx ⊢; unfold Towards at h; omega
  · simp only [decide_eq_true_eq]; unfold Towards at h; omega
  · simp

theorem sec_length (hg : SameNbr (baseGraph m) g) (hl : LaneIn m r s l) : s.length ≤ g.verts.length := by
  rw [hg.1, base_verts]
  have h := (mem_sections.2 ⟨r, hl⟩).1
  obtain ⟨A, B, e⟩ := List.append_of_mem h
  have : m.lanes.length = (m.lanes.map (fun v => v.lane.id)).length := by simp
  rw [this, ids_eq, e]
  simp only [List.flatMap_append, List.flatMap_cons, List.length_append, List.length_map]
  omega

theorem planLoop_spec (hw : WellFormed m) (hg : SameNbr (baseGraph m) g) : ∀ (fuel : Nat) {l : Lane}
    (_ : LaneIn m r s l) (_ : closer s l < fuel),
    ∃ o, planViewLoop g fuel l.id = .ok o ∧
      ∀ j, o = some j ↔ (∃ z ∈ s, z.pos = 0 ∧ z.id = j) ∧ ∀ q, Between q l.pos → ∃ i ∈ s, i.pos = q := by
  intro fuel
  induction fuel with
  | zero => intro l _ h; omega
  | succ n ih =>
    intro l hl hc
    have hu := sec_pos hw hl
    have hls := (mem_sections.2 ⟨r, hl⟩).2
    simp only [planViewLoop, getLane_known hw hg hl]
    by_cases h0 : l.pos = 0
    · rw [if_pos h0]
      refine ⟨_, rfl, ?_⟩
      intro j
      constructor
      · intro h; cases h
        refine ⟨⟨l, hls, h0, rfl⟩, ?_⟩
        intro q hq
        exact ⟨l, hls, by unfold Between at hq; omega⟩
      · rintro ⟨⟨z, hz, hz0, rfl⟩, _⟩
        rw [hu z hz l hls (by omega)]
    · rw [if_neg h0]
      obtain ⟨o, ho, ho2⟩ := inner_spec hw hg hl
      rw [ho]
      cases o with
      | none =>
        refine ⟨none, rfl, ?_⟩
        intro j
        simp only [reduceCtorEq, false_iff]
        rintro ⟨_, hb⟩
        obtain ⟨i, hi, e⟩ := hb (innerPos l.pos) (by unfold Between innerPos; split_ifs <;> omega)
        have := (ho2 i.id).2 ⟨i, hi, rfl, innerPos_towards.1 ⟨h0, e.symm⟩⟩
        simp at this
      | some c =>
        obtain ⟨i, hi, rfl, ht⟩ := (ho2 c).1 rfl
        obtain ⟨o', h1, h2⟩ := ih (sec_mem hl hi) (by have := closer_lt hi ht; omega)
        refine ⟨o', h1, ?_⟩
        intro j
        rw [h2]
        refine and_congr_right (fun _ => ?_)
        constructor
        · intro h q hq
          by_cases e : q = l.pos
          · exact ⟨l, hls, e.symm⟩
          · exact h q (by unfold Between at hq ⊢; unfold Towards at ht; omega)
        · intro h q hq
          exact h q (by unfold Between at hq ⊢; unfold Towards at ht; omega)

theorem planView_spec (hw : WellFormed m) (hg : SameNbr (baseGraph m) g) (hl : LaneIn m r s l) :
    ∃ o, planViewForLane g l.id = .ok o ∧
      ∀ j, o = some j ↔ (∃ z ∈ s, z.pos = 0 ∧ z.id = j) ∧ ∀ q, Between q l.pos → ∃ i ∈ s, i.pos = q := by
  refine planLoop_spec hw hg _ hl ?_
  have h1 : closer s l ≤ s.length := List.length_filter_le _ _
  have := sec_length hg hl
  omega

/-- following inner neighbours ends, namely at the reference lane of the lane's own section; it is found iff no position is
missing in between -/
theorem C32_reference_lane (hw : WellFormed m) (hg : generate m = .ok g) (hl : LaneIn m r s l) :
    ∃ o, planViewForLane g l.id = .ok o ∧
      ∀ j, o = some j ↔ (∃ z ∈ s, z.pos = 0 ∧ z.id = j) ∧ ∀ q, Between q l.pos → ∃ i ∈ s, i.pos = q :=
  planView_spec hw (generate_same hg) hl

/-! ### Generation succeeds -/

theorem foldRes_ok {α β : Type} {f : β → α → Res β} {P : β → Prop} {l : List α}
    (hf : ∀ b, P b → ∀ a ∈ l, ∃ b', f b a = .ok b' ∧ P b') : ∀ {b}, P b → ∃ b', foldRes f b l = .ok b' ∧ P b' := by
  induction l with
  | nil => intro b h; exact ⟨b, rfl, h⟩
  | cons a l ih =>
    intro b h
    obtain ⟨b1, h1, h2⟩ := hf b h a (by simp)
    obtain ⟨b2, h3, h4⟩ := ih (fun b hb a ha => hf b hb a (List.mem_cons_of_mem _ ha)) h2
    refine ⟨b2, ?_, h4⟩
    show (f b a >>= fun b' => foldRes f b' l) = .ok b2
    rw [h1, Res.ok_bind]; exact h3

theorem connect_ok (hw : WellFormed m) (hg : SameNbr (baseGraph m) g) {a b : Lane} {ra rb : Nat} {sa sb : List Lane}
    (ha : LaneIn m ra sa a) (hb : LaneIn m rb sb b) :
    ∃ g', connect g a.id b.id = .ok g' ∧ SameNbr (baseGraph m) g' := by
  have h1 : SameNbr (baseGraph m) (addEdge (addEdge g a.id b.id .laneSucc) b.id a.id .laneSucc) :=
    hg.trans ((sameNbr_addEdge _ _ _ _ (.inl rfl)).trans (sameNbr_addEdge _ _ _ _ (.inl rfl)))
  obtain ⟨pa, hpa, _⟩ := planView_spec hw h1 ha
  obtain ⟨pb, hpb, _⟩ := planView_spec hw h1 hb
  have : ∃ g', connect g a.id b.id = .ok g' := by
    unfold connect
    simp only [hpa, hpb, Res.ok_bind]
    exact ⟨_, rfl⟩
  obtain ⟨g', hg'⟩ := this
  exact ⟨g', hg', hg.trans (sameNbr_connect hg')⟩

theorem succPart_ok (hw : WellFormed m) (hg : SameNbr (baseGraph m) g) (hl : LaneIn m r s l) {succ : Option (List Lane)}
    (hs : ∀ s', succ = some s' → s' ∈ m.sections) :
    ∃ g' b, succPart g succ l = .ok (g', b) ∧ SameNbr (baseGraph m) g' := by
  unfold succPart
  cases succ with
  | none => exact ⟨g, true, rfl, hg⟩
  | some s' =>
    by_cases h : l.toPos = 0
    · exact ⟨g, false, by simp [h], hg⟩
    · cases hb : laneByPos s' l.toPos with
      | none => exact ⟨g, true, by simp [h, hb], hg⟩
      | some b =>
        obtain ⟨rb, hlb⟩ := mem_sections.1 ⟨hs s' rfl, (laneByPos_mem hb).1⟩
        obtain ⟨g', h1, h2⟩ := connect_ok hw hg hl hlb
        exact ⟨g', true, by simp [h, hb, h1, Except.map], h2⟩

theorem predPart_ok (hw : WellFormed m) (hg : SameNbr (baseGraph m) g) (hl : LaneIn m r s l) {pred : Option (List Lane)}
    (hs : ∀ s', pred = some s' → s' ∈ m.sections) :
    ∃ g', predPart g pred l = .ok g' ∧ SameNbr (baseGraph m) g' := by
  unfold predPart
  cases pred with
  | none => exact ⟨g, rfl, hg⟩
  | some s' =>
    by_cases h : l.fromPos = 0
    · exact ⟨g, by simp [h], hg⟩
    · cases hb : laneByPos s' l.fromPos with
      | none => exact ⟨g, by simp [h, hb], hg⟩
      | some b =>
        obtain ⟨rb, hlb⟩ := mem_sections.1 ⟨hs s' rfl, (laneByPos_mem hb).1⟩
        obtain ⟨g', h1, h2⟩ := connect_ok hw hg hlb hl
        exact ⟨g', by simp [h, hb, h1], h2⟩

theorem linkLane_ok (hw : WellFormed m) (hg : SameNbr (baseGraph m) g) (hl : LaneIn m r s l)
    {succ pred : Option (List Lane)} (hs : ∀ s', succ = some s' → s' ∈ m.sections)
    (hp : ∀ s', pred = some s' → s' ∈ m.sections) :
    ∃ g', linkLane succ pred g l = .ok g' ∧ SameNbr (baseGraph m) g' := by
  obtain ⟨g1, b, h1, h2⟩ := succPart_ok hw hg hl hs
  unfold linkLane
  rw [h1, Res.ok_bind]
  cases b with
  | false => exact ⟨g1, by simp, h2⟩
  | true =>
    obtain ⟨g2, h3, h4⟩ := predPart_ok hw h2 hl hp
    exact ⟨g2, by simp [h3], h4⟩

theorem linkedSection_spec (hw : WellFormed m) (hc : Complete m) (b : Bool) (id : Nat)
    {pick : List (List Lane) → Res (List Lane)} {pk : List (List Lane) → Option (List Lane)}
    (hpick : ∀ L, L ≠ [] → ∃ x, pk L = some x ∧ pick L = .ok x ∧ x ∈ L) :
    ∃ o, linkedSection m b id pick = .ok o ∧
      ∀ s', o = some s' ↔ b = true ∧ ∃ R, (id, R) ∈ m.roads ∧ pk R.sections = some s' := by
  unfold linkedSection
  cases b with
  | false => exact ⟨none, rfl, by simp⟩
  | true =>
    simp only [if_true]
    cases h : OMap.find id m.roads with
    | none =>
      refine ⟨none, rfl, ?_⟩
      intro s'
      simp only [reduceCtorEq, true_and, false_iff]
      rintro ⟨R, hR, _⟩
      rw [OMap.mem_find_some hw.roads hR] at h; cases h
    | some R =>
      have hR := OMap.find_some_mem h
      obtain ⟨x, h1, h2, _⟩ := hpick R.sections (hc.sections id R hR)
      refine ⟨some x, by simp [h2, Except.map], ?_⟩
      intro s'
      simp only [true_and]
      constructor
      · intro e; cases e; exact ⟨R, hR, h1⟩
      · rintro ⟨R', hR', h3⟩
        rw [OMap.mem_find_some hw.roads hR'] at h; cases h
        rw [h1] at h3; exact h3

theorem front_spec {α : Type} (L : List α) (h : L ≠ []) : ∃ x, L.head? = some x ∧ front L = .ok x ∧ x ∈ L := by
  cases L with
  | nil => exact absurd rfl h
  | cons a L => exact ⟨a, rfl, rfl, by simp⟩

theorem back_spec {α : Type} (L : List α) (h : L ≠ []) : ∃ x, L.getLast? = some x ∧ back L = .ok x ∧ x ∈ L := by
  cases e : L.getLast? with
  | none => rw [List.getLast?_eq_none_iff] at e; exact absurd e h
  | some x => exact ⟨x, rfl, by simp [back, e], List.mem_of_getLast? e⟩

theorem road_sections_mem {R : Road} (hR : (r, R) ∈ m.roads) (hs : s ∈ R.sections) : s ∈ m.sections :=
  List.mem_flatMap.2 ⟨(r, R), hR, hs⟩

theorem genLinks_ok (hw : WellFormed m) (hc : Complete m) (hg : SameNbr (baseGraph m) g) :
    ∃ g', genLinks g m = .ok g' ∧ SameNbr (baseGraph m) g' := by
  unfold genLinks
  refine foldRes_ok (P := SameNbr (baseGraph m)) ?_ hg
  rintro b hb ⟨i, R⟩ hR
  unfold linkRoad
  by_cases h : R.succId > 1000
  · exact ⟨b, by simp [h], hb⟩
  · simp only [if_neg h]
    obtain ⟨so, hs1, hs2⟩ := linkedSection_spec hw hc R.succIsRoad R.succId (pk := List.head?) front_spec
    obtain ⟨po, hp1, hp2⟩ := linkedSection_spec hw hc R.predIsRoad R.predId (pk := List.getLast?) back_spec
    rw [hs1, Res.ok_bind, hp1, Res.ok_bind]
    refine foldRes_ok (P := SameNbr (baseGraph m)) ?_ hb
    intro b' hb' l hl
    obtain ⟨s, hs, hls⟩ := List.mem_flatten.1 hl
    refine linkLane_ok hw hb' (r := i) (s := s) ⟨R, hR, hs, hls⟩ ?_ ?_
    · intro s' e
      obtain ⟨_, R', hR', h1⟩ := (hs2 s').1 e
      exact road_sections_mem hR' (List.mem_of_head? h1)
    · intro s' e
      obtain ⟨_, R', hR', h1⟩ := (hp2 s').1 e
      exact road_sections_mem hR' (List.mem_of_getLast? h1)

theorem getRoad_ok (hw : WellFormed m) {i : Nat} {R : Road} (h : (i, R) ∈ m.roads) : getRoad m i = .ok R := by
  unfold getRoad; rw [OMap.mem_find_some hw.roads h]

theorem linkConn_ok (hw : WellFormed m) (hg : SameNbr (baseGraph m) g) {pre suc : List Lane} (h1 : pre ∈ m.sections)
    (h2 : suc ∈ m.sections) (k : Int × Int) : ∃ g', linkConn pre suc g k = .ok g' ∧ SameNbr (baseGraph m) g' := by
  unfold linkConn
  cases ha : laneByPos pre k.1 with
  | none => exact ⟨g, rfl, hg⟩
  | some a =>
    cases hb : laneByPos suc k.2 with
    | none => exact ⟨g, rfl, hg⟩
    | some b =>
      obtain ⟨ra, hla⟩ := mem_sections.1 ⟨h1, (laneByPos_mem ha).1⟩
      obtain ⟨rb, hlb⟩ := mem_sections.1 ⟨h2, (laneByPos_mem hb).1⟩
      exact connect_ok hw hg hla hlb

theorem genJunctions_ok (hw : WellFormed m) (hc : Complete m) (hg : SameNbr (baseGraph m) g) :
    ∃ g', genJunctions g m = .ok g' ∧ SameNbr (baseGraph m) g' := by
  unfold genJunctions
  refine foldRes_ok (P := SameNbr (baseGraph m)) ?_ hg
  intro b hb c hcm
  obtain ⟨⟨A, hA⟩, B, hB⟩ := hc.conns c hcm
  unfold linkConnection
  obtain ⟨x, _, hx, hxm⟩ := front_spec _ (hc.sections _ A hA)
  obtain ⟨y, _, hy, hym⟩ := front_spec _ (hc.sections _ B hB)
  rw [getRoad_ok hw hA, Res.ok_bind, getRoad_ok hw hB, Res.ok_bind, hx, Res.ok_bind, hy, Res.ok_bind]
  refine foldRes_ok (P := SameNbr (baseGraph m)) ?_ hb
  intro b' hb' k _
  exact linkConn_ok hw hb' (road_sections_mem hA hxm) (road_sections_mem hB hym) k

/-- the graph of every complete map can be built -/
theorem C32_generation_succeeds (hw : WellFormed m) (hc : Complete m) : ∃ g, generate m = .ok g := by
  obtain ⟨g1, h1, h2⟩ := genLinks_ok hw hc (SameNbr.refl (baseGraph m))
  obtain ⟨g2, h3, _⟩ := genJunctions_ok hw hc h2
  refine ⟨g2, ?_⟩
  show (genLinks (baseGraph m) m >>= fun g => genJunctions g m) = .ok g2
  rw [h1, Res.ok_bind]; exact h3

/-! ### C66: links between lanes -/

/-- an edge of type `ty` leads from lane `a` to lane `b` -/
def HasEdge (g : Graph) (ty : Ty) (a b : Nat) : Prop :=
  ∃ x y, lookup g a = some x ∧ lookup g b = some y ∧ (⟨x, y, ty⟩ : Edge) ∈ g.edges

theorem hasEdge_add {a b x y : Nat} {ty ty' : Ty} (ha : ∃ v, lookup g a = some v) (hb : ∃ v, lookup g b = some v) :
    HasEdge (addEdge g a b ty') ty x y ↔ HasEdge g ty x y ∨ (ty' = ty ∧ x = a ∧ y = b) := by
  obtain ⟨va, ha⟩ := ha
  obtain ⟨vb, hb⟩ := hb
  have e : addEdge g a b ty' = { g with edges := g.edges ++ [⟨va, vb, ty'⟩] } := by
    unfold addEdge; rw [ha, hb]
  rw [e]
  unfold HasEdge
  have hl : ∀ i, lookup { g with edges := g.edges ++ [⟨va, vb, ty'⟩] } i = lookup g i := fun i => lookup_congr rfl i
  simp only [hl, List.mem_append, List.mem_singleton, Edge.mk.injEq]
  constructor
  · rintro ⟨p, q, h1, h2, h3 | ⟨rfl, rfl, rfl⟩⟩
    · exact .inl ⟨p, q, h1, h2, h3⟩
    · exact .inr ⟨rfl, lookup_inj h1 ha, lookup_inj h2 hb⟩
  · rintro (⟨p, q, h1, h2, h3⟩ | ⟨rfl, rfl, rfl⟩)
    · exact ⟨p, q, h1, h2, .inl h3⟩
    · exact ⟨va, vb, ha, hb, .inr ⟨rfl, rfl, rfl⟩⟩

theorem hasEdge_add_ne {a b x y : Nat} {ty ty' : Ty} (h : ty' ≠ ty) :
    HasEdge (addEdge g a b ty') ty x y ↔ HasEdge g ty x y := by
  unfold addEdge
  split
  · rename_i va vb _ _
    unfold HasEdge
    have hl : ∀ i, lookup { g with edges := g.edges ++ [⟨va, vb, ty'⟩] } i = lookup g i := fun i => lookup_congr rfl i
    simp only [hl, List.mem_append, List.mem_singleton, Edge.mk.injEq]
    constructor
    · rintro ⟨p, q, h1, h2, h3 | ⟨_, _, h4⟩⟩
      · exact ⟨p, q, h1, h2, h3⟩
      · exact absurd h4.symm h
    · rintro ⟨p, q, h1, h2, h3⟩; exact ⟨p, q, h1, h2, .inl h3⟩
  · rfl

theorem lane_lookup (hg : SameNbr (baseGraph m) g) (hl : LaneIn m r s l) : ∃ v, lookup g l.id = some v := by
  refine lookup_known (x := ⟨r, l⟩) ?_
  rw [hg.1, base_verts]; exact mem_lanes.2 ⟨s, hl⟩

theorem connect_edges (hg : SameNbr (baseGraph m) g) {g' : Graph} {a b : Lane} {ra rb : Nat} {sa sb : List Lane}
    (ha : LaneIn m ra sa a) (hb : LaneIn m rb sb b) (h : connect g a.id b.id = .ok g') (x y : Nat) :
    HasEdge g' .laneSucc x y ↔
      HasEdge g .laneSucc x y ∨ ((x = a.id ∧ y = b.id) ∨ (x = b.id ∧ y = a.id)) := by
  unfold connect at h
  obtain ⟨pa, _, h⟩ := Res.bind_ok h
  obtain ⟨pb, _, h⟩ := Res.bind_ok h
  cases h
  have h1 : SameNbr (baseGraph m) (addEdge g a.id b.id .laneSucc) := hg.trans (sameNbr_addEdge _ _ _ _ (.inl rfl))
  rw [hasEdge_add_ne (by simp), hasEdge_add_ne (by simp), hasEdge_add (lane_lookup h1 hb) (lane_lookup h1 ha),
    hasEdge_add (lane_lookup hg ha) (lane_lookup hg hb)]
  simp only [true_and]
  tauto

/-- a fallible loop that adds things: what holds afterwards -/
theorem foldRes_adds {α β : Type} {f : β → α → Res β} {P : β → Prop} {Q : β → Prop} {C : α → Prop} {l : List α}
    (hf : ∀ b, P b → ∀ a ∈ l, ∀ b', f b a = .ok b' → P b' ∧ (Q b' ↔ Q b ∨ C a)) :
    ∀ {b b'}, P b → foldRes f b l = .ok b' → P b' ∧ (Q b' ↔ Q b ∨ ∃ a ∈ l, C a) := by
  induction l with
  | nil => intro b b' hb h; cases h; exact ⟨hb, by simp⟩
  | cons a l ih =>
    intro b b' hb h
    obtain ⟨b1, h1, h2⟩ := Res.bind_ok (show (f b a >>= fun b' => foldRes f b' l) = .ok b' from h)
    obtain ⟨p1, q1⟩ := hf b hb a (by simp) b1 h1
    obtain ⟨p2, q2⟩ := ih (fun b hb a ha => hf b hb a (List.mem_cons_of_mem _ ha)) p1 h2
    refine ⟨p2, ?_⟩
    rw [q2, q1]
    simp only [List.mem_cons, exists_eq_or_imp]
    tauto

/-- the pair of lane ids `x`, `y` is the pair `a`, `b` in one of the two orders -/
def Pair (x y a b : Nat) : Prop := (x = a ∧ y = b) ∨ (x = b ∧ y = a)

theorem linkLane_edges (hw : WellFormed m) (hg : SameNbr (baseGraph m) g) (hl : LaneIn m r s l)
    {succ pred : Option (List Lane)} (hs : ∀ s', succ = some s' → s' ∈ m.sections)
    (hp : ∀ s', pred = some s' → s' ∈ m.sections) {g' : Graph} (h : linkLane succ pred g l = .ok g') (x y : Nat) :
    HasEdge g' .laneSucc x y ↔ HasEdge g .laneSucc x y ∨
      ((∃ s', succ = some s' ∧ l.toPos ≠ 0 ∧ ∃ b ∈ s', b.pos = l.toPos ∧ Pair x y l.id b.id) ∨
       (∃ s', pred = some s' ∧ (succ = none ∨ l.toPos ≠ 0) ∧ l.fromPos ≠ 0 ∧
          ∃ b ∈ s', b.pos = l.fromPos ∧ Pair x y b.id l.id)) := by
  have huniq : ∀ s' ∈ m.sections, ∀ a ∈ s', ∀ b ∈ s', a.pos = b.pos → a = b := by
    intro s' hs' a ha b hb e
    obtain ⟨r', h1⟩ := mem_sections.1 ⟨hs', ha⟩
    exact sec_pos hw h1 a ha b hb e
  unfold linkLane at h
  obtain ⟨⟨g1, c⟩, h1, h2⟩ := Res.bind_ok h
  have hS : SameNbr (baseGraph m) g1 ∧ (c = true ↔ (succ = none ∨ l.toPos ≠ 0)) ∧
      (HasEdge g1 .laneSucc x y ↔ HasEdge g .laneSucc x y ∨
        (∃ s', succ = some s' ∧ l.toPos ≠ 0 ∧ ∃ b ∈ s', b.pos = l.toPos ∧ Pair x y l.id b.id)) := by
    unfold succPart at h1
    cases succ with
    | none => cases h1; exact ⟨hg, by simp, by simp⟩
    | some s' =>
      simp only at h1
      by_cases h0 : l.toPos = 0
      · rw [if_pos h0] at h1; cases h1
        exact ⟨hg, by simp [h0], by simp [h0]⟩
      · rw [if_neg h0] at h1
        cases hb : laneByPos s' l.toPos with
        | none =>
          rw [hb] at h1; cases h1
          refine ⟨hg, by simp [h0], ?_⟩
          constructor
          · intro h; exact .inl h
          · rintro (h | ⟨s'', e, _, b, hbm, hbp, _⟩)
            · exact h
            · cases e; exact absurd hbp (laneByPos_none hb b hbm)
        | some b =>
          rw [hb] at h1
          simp only at h1
          obtain ⟨hbm, hbp⟩ := laneByPos_mem hb
          obtain ⟨rb, hlb⟩ := mem_sections.1 ⟨hs s' rfl, hbm⟩
          cases hcn : connect g l.id b.id with
          | error e => rw [hcn] at h1; cases h1
          | ok g2 =>
            rw [hcn] at h1; cases h1
            refine ⟨hg.trans (sameNbr_connect hcn), by simp [h0], ?_⟩
            rw [connect_edges hg hl hlb hcn]
            refine or_congr_right ?_
            constructor
            · intro h; exact ⟨s', rfl, h0, b, hbm, hbp, h⟩
            · rintro ⟨s'', e, _, b', hbm', hbp', h⟩
              cases e
              rw [huniq s' (hs s' rfl) b' hbm' b hbm (by rw [hbp', hbp])] at h
              exact h
  obtain ⟨hg1, hc, hE⟩ := hS
  cases c with
  | false =>
    simp only [Bool.false_eq_true, if_false] at h2
    cases h2
    rw [hE]
    have : ¬ (succ = none ∨ l.toPos ≠ 0) := fun h => by simpa using hc.2 h
    constructor
    · rintro (h | h)
      · exact .inl h
      · exact .inr (.inl h)
    · rintro (h | h | ⟨_, _, h, _⟩)
      · exact .inl h
      · exact .inr h
      · exact absurd h this
  | true =>
    have hc' := hc.1 rfl
    simp only [if_true] at h2
    unfold predPart at h2
    cases pred with
    | none => cases h2; rw [hE]; simp
    | some s' =>
      simp only at h2
      by_cases h0 : l.fromPos = 0
      · rw [if_pos h0] at h2; cases h2
        rw [hE]; simp [h0]
      · rw [if_neg h0] at h2
        cases hb : laneByPos s' l.fromPos with
        | none =>
          rw [hb] at h2; cases h2
          rw [hE]
          constructor
          · rintro (h | h)
            · exact .inl h
            · exact .inr (.inl h)
          · rintro (h | h | ⟨s'', e, _, _, b, hbm, hbp, _⟩)
            · exact .inl h
            · exact .inr h
            · cases e; exact absurd hbp (laneByPos_none hb b hbm)
        | some b =>
          rw [hb] at h2
          obtain ⟨hbm, hbp⟩ := laneByPos_mem hb
          obtain ⟨rb, hlb⟩ := mem_sections.1 ⟨hp s' rfl, hbm⟩
          rw [connect_edges hg1 hlb hl h2, hE]
          rw [or_assoc]
          refine or_congr_right (or_congr_right ?_)
          constructor
          · intro h; exact ⟨s', rfl, hc', h0, b, hbm, hbp, h⟩
          · rintro ⟨s'', e, _, _, b', hbm', hbp', h⟩
            cases e
            rw [huniq s' (hp s' rfl) b' hbm' b hbm (by rw [hbp', hbp])] at h
            exact h

/-- the links the generator takes up; `Clean` maps lose none -/
inductive Taken (m : XMap) : Lane → Lane → Prop
  | succ {r : Nat} {R R' : Road} {s : List Lane} {a b : Lane} (h0 : R.succId ≤ 1000) (h1 : (r, R) ∈ m.roads)
      (h2 : R.succIsRoad = true) (h3 : (R.succId, R') ∈ m.roads) (h4 : s ∈ R.sections) (h5 : a ∈ s) (h6 : a.toPos ≠ 0)
      (h7 : ∃ s', R'.sections.head? = some s' ∧ b ∈ s' ∧ b.pos = a.toPos) : Taken m a b
  | pred {r : Nat} {R R' : Road} {s : List Lane} {a b : Lane} (h0 : R.succId ≤ 1000) (h1 : (r, R) ∈ m.roads)
      (h2 : R.predIsRoad = true) (h3 : (R.predId, R') ∈ m.roads) (h4 : s ∈ R.sections) (h5 : b ∈ s) (h6 : b.fromPos ≠ 0)
      (h7 : ∃ s', R'.sections.getLast? = some s' ∧ a ∈ s' ∧ a.pos = b.fromPos)
      (h8 : R.succIsRoad = true → (∃ R'', (R.succId, R'') ∈ m.roads) → b.toPos ≠ 0) : Taken m a b
  | junction {c : Conn} {k : Int × Int} {R R' : Road} {a b : Lane} (h1 : c ∈ m.conns) (h2 : k ∈ c.links)
      (h3 : (c.incoming, R) ∈ m.roads) (h4 : (c.connecting, R') ∈ m.roads)
      (h5 : ∃ s, R.sections.head? = some s ∧ a ∈ s ∧ a.pos = k.1)
      (h6 : ∃ s, R'.sections.head? = some s ∧ b ∈ s ∧ b.pos = k.2) : Taken m a b

/-- contribution of one road to the edges -/
def roadAdds (m : XMap) (x y : Nat) (p : Nat × Road) : Prop :=
  p.2.succId ≤ 1000 ∧ ∃ s ∈ p.2.sections, ∃ l ∈ s,
    ((p.2.succIsRoad = true ∧ ∃ R', (p.2.succId, R') ∈ m.roads ∧ l.toPos ≠ 0 ∧
        ∃ s', R'.sections.head? = some s' ∧ ∃ b ∈ s', b.pos = l.toPos ∧ Pair x y l.id b.id) ∨
     (p.2.predIsRoad = true ∧ ∃ R', (p.2.predId, R') ∈ m.roads ∧ l.fromPos ≠ 0 ∧
        (p.2.succIsRoad = true → (∃ R'', (p.2.succId, R'') ∈ m.roads) → l.toPos ≠ 0) ∧
        ∃ s', R'.sections.getLast? = some s' ∧ ∃ b ∈ s', b.pos = l.fromPos ∧ Pair x y b.id l.id))

theorem linkRoad_edges (hw : WellFormed m) (hc : Complete m) (hg : SameNbr (baseGraph m) g) {p : Nat × Road}
    (hp : p ∈ m.roads) {g' : Graph} (h : linkRoad m g p = .ok g') (x y : Nat) :
    SameNbr (baseGraph m) g' ∧
      (HasEdge g' .laneSucc x y ↔ HasEdge g .laneSucc x y ∨ roadAdds m x y p) := by
  obtain ⟨i, R⟩ := p
  unfold linkRoad at h
  by_cases h0 : R.succId > 1000
  · simp only [if_pos h0] at h; cases h
    refine ⟨hg, ?_⟩
    constructor
    · intro h; exact .inl h
    · rintro (h | ⟨h, _⟩)
      · exact h
      · exact absurd h (by simpa using h0)
  · simp only [if_neg h0] at h
    obtain ⟨so, hs1, hs2⟩ := linkedSection_spec hw hc R.succIsRoad R.succId (pk := List.head?) front_spec
    obtain ⟨po, hp1, hp2⟩ := linkedSection_spec hw hc R.predIsRoad R.predId (pk := List.getLast?) back_spec
    rw [hs1, Res.ok_bind, hp1, Res.ok_bind] at h
    have hsm : ∀ s', so = some s' → s' ∈ m.sections := by
      intro s' e
      obtain ⟨_, R', hR', h1⟩ := (hs2 s').1 e
      exact road_sections_mem hR' (List.mem_of_head? h1)
    have hpm : ∀ s', po = some s' → s' ∈ m.sections := by
      intro s' e
      obtain ⟨_, R', hR', h1⟩ := (hp2 s').1 e
      exact road_sections_mem hR' (List.mem_of_getLast? h1)
    have hnone : so = none ↔ ¬ (R.succIsRoad = true ∧ ∃ R'', (R.succId, R'') ∈ m.roads) := by
      constructor
      · rintro e ⟨h1, R'', hR''⟩
        obtain ⟨q, hq, _⟩ := front_spec _ (hc.sections _ R'' hR'')
        have := (hs2 q).2 ⟨h1, R'', hR'', hq⟩
        rw [e] at this; cases this
      · intro hn
        cases so with
        | none => rfl
        | some s' =>
          obtain ⟨h1, R', hR', _⟩ := (hs2 s').1 rfl
          exact absurd ⟨h1, R', hR'⟩ hn
    have := foldRes_adds (P := SameNbr (baseGraph m)) (Q := fun g => HasEdge g .laneSucc x y)
      (C := fun l => (∃ s', so = some s' ∧ l.toPos ≠ 0 ∧ ∃ b ∈ s', b.pos = l.toPos ∧ Pair x y l.id b.id) ∨
       (∃ s', po = some s' ∧ (so = none ∨ l.toPos ≠ 0) ∧ l.fromPos ≠ 0 ∧
          ∃ b ∈ s', b.pos = l.fromPos ∧ Pair x y b.id l.id)) (l := R.sections.flatten)
      (f := linkLane so po) (by
        intro b hb l hl b' hb'
        obtain ⟨s, hs, hls⟩ := List.mem_flatten.1 hl
        exact ⟨hb.trans (sameNbr_linkLane hb'),
          linkLane_edges hw hb (r := i) (s := s) ⟨R, hp, hs, hls⟩ hsm hpm hb' x y⟩) hg h
    refine ⟨this.1, this.2.trans (or_congr_right ?_)⟩
    unfold roadAdds
    simp only
    constructor
    · rintro ⟨l, hl, h1⟩
      obtain ⟨s, hs, hls⟩ := List.mem_flatten.1 hl
      refine ⟨by omega, s, hs, l, hls, ?_⟩
      rcases h1 with ⟨s', e, ht, b, hb⟩ | ⟨s', e, hcond, hf, b, hb⟩
      · obtain ⟨a1, R', a2, a3⟩ := (hs2 s').1 e
        exact .inl ⟨a1, R', a2, ht, s', a3, b, hb⟩
      · obtain ⟨a1, R', a2, a3⟩ := (hp2 s').1 e
        refine .inr ⟨a1, R', a2, hf, ?_, s', a3, b, hb⟩
        intro c1 c2
        rcases hcond with hcond | hcond
        · exact absurd ⟨c1, c2⟩ (hnone.1 hcond)
        · exact hcond
    · rintro ⟨_, s, hs, l, hls, h1⟩
      refine ⟨l, List.mem_flatten.2 ⟨s, hs, hls⟩, ?_⟩
      rcases h1 with ⟨a1, R', a2, ht, s', a3, b, hb⟩ | ⟨a1, R', a2, hf, hcond, s', a3, b, hb⟩
      · exact .inl ⟨s', (hs2 s').2 ⟨a1, R', a2, a3⟩, ht, b, hb⟩
      · refine .inr ⟨s', (hp2 s').2 ⟨a1, R', a2, a3⟩, ?_, hf, b, hb⟩
        by_cases c : R.succIsRoad = true ∧ ∃ R'', (R.succId, R'') ∈ m.roads
        · exact .inr (hcond c.1 c.2)
        · exact .inl (hnone.2 c)

/-- contribution of one junction connection -/
def connAdds (m : XMap) (x y : Nat) (c : Conn) : Prop :=
  ∃ R R' s s', (c.incoming, R) ∈ m.roads ∧ (c.connecting, R') ∈ m.roads ∧ R.sections.head? = some s ∧
    R'.sections.head? = some s' ∧ ∃ k ∈ c.links, ∃ a ∈ s, ∃ b ∈ s', a.pos = k.1 ∧ b.pos = k.2 ∧ Pair x y a.id b.id

theorem linkConnection_edges (hw : WellFormed m) (hc : Complete m) (hg : SameNbr (baseGraph m) g) {c : Conn}
    (hcm : c ∈ m.conns) {g' : Graph} (h : linkConnection m g c = .ok g') (x y : Nat) :
    SameNbr (baseGraph m) g' ∧
      (HasEdge g' .laneSucc x y ↔ HasEdge g .laneSucc x y ∨ connAdds m x y c) := by
  obtain ⟨⟨A, hA⟩, B, hB⟩ := hc.conns c hcm
  unfold linkConnection at h
  obtain ⟨p, hp0, hp, hpm⟩ := front_spec _ (hc.sections _ A hA)
  obtain ⟨q, hq0, hq, hqm⟩ := front_spec _ (hc.sections _ B hB)
  rw [getRoad_ok hw hA, Res.ok_bind, getRoad_ok hw hB, Res.ok_bind, hp, Res.ok_bind, hq, Res.ok_bind] at h
  have hps := road_sections_mem hA hpm
  have hqs := road_sections_mem hB hqm
  have huniq : ∀ s' ∈ m.sections, ∀ a ∈ s', ∀ b ∈ s', a.pos = b.pos → a = b := by
    intro s' hs' a ha b hb e
    obtain ⟨r', h1⟩ := mem_sections.1 ⟨hs', ha⟩
    exact sec_pos hw h1 a ha b hb e
  have := foldRes_adds (P := SameNbr (baseGraph m)) (Q := fun g => HasEdge g .laneSucc x y)
    (C := fun k => ∃ a ∈ p, ∃ b ∈ q, a.pos = k.1 ∧ b.pos = k.2 ∧ Pair x y a.id b.id) (l := c.links)
    (f := linkConn p q) (by
      intro g1 hg1 k _ g2 h12
      unfold linkConn at h12
      cases ha : laneByPos p k.1 with
      | none =>
        rw [ha] at h12; cases h12
        refine ⟨hg1, ?_⟩
        constructor
        · intro h; exact .inl h
        · rintro (h | ⟨a, hap, b, _, e, _⟩)
          · exact h
          · exact absurd e (laneByPos_none ha a hap)
      | some a =>
        cases hb : laneByPos q k.2 with
        | none =>
          rw [ha, hb] at h12; cases h12
          refine ⟨hg1, ?_⟩
          constructor
          · intro h; exact .inl h
          · rintro (h | ⟨a, _, b, hbq, _, e, _⟩)
            · exact h
            · exact absurd e (laneByPos_none hb b hbq)
        | some b =>
          rw [ha, hb] at h12
          obtain ⟨ha1, ha2⟩ := laneByPos_mem ha
          obtain ⟨hb1, hb2⟩ := laneByPos_mem hb
          obtain ⟨ra, hla⟩ := mem_sections.1 ⟨hps, ha1⟩
          obtain ⟨rb, hlb⟩ := mem_sections.1 ⟨hqs, hb1⟩
          refine ⟨hg1.trans (sameNbr_connect h12), ?_⟩
          rw [connect_edges hg1 hla hlb h12]
          refine or_congr_right ?_
          constructor
          · intro h; exact ⟨a, ha1, b, hb1, ha2, hb2, h⟩
          · rintro ⟨a', ha', b', hb', e1, e2, h⟩
            rw [huniq p hps a' ha' a ha1 (by rw [e1, ha2]), huniq q hqs b' hb' b hb1 (by rw [e2, hb2])] at h
            exact h) hg h
  refine ⟨this.1, this.2.trans (or_congr_right ?_)⟩
  constructor
  · rintro ⟨k, hk, a, ha, b, hb, h1, h2, h3⟩
    exact ⟨A, B, p, q, hA, hB, hp0, hq0, k, hk, a, ha, b, hb, h1, h2, h3⟩
  · rintro ⟨R, R', s, s', hR, hR', hs, hs', k, hk, a, ha, b, hb, h1, h2, h3⟩
    have e1 : R = A := by
      have := OMap.mem_find_some hw.roads hR
      rw [OMap.mem_find_some hw.roads hA] at this; cases this; rfl
    have e2 : R' = B := by
      have := OMap.mem_find_some hw.roads hR'
      rw [OMap.mem_find_some hw.roads hB] at this; cases this; rfl
    subst e1; subst e2
    rw [hp0] at hs; cases hs
    rw [hq0] at hs'; cases hs'
    exact ⟨k, hk, a, ha, b, hb, h1, h2, h3⟩

theorem base_no_links (m : XMap) (x y : Nat) : ¬ HasEdge (baseGraph m) .laneSucc x y := by
  have : ∀ (E : List (Nat × Nat × Ty)) (g : Graph), (∀ e ∈ E, e.2.2 ≠ .laneSucc) →
      (HasEdge (E.foldl (fun g e => addEdge g e.1 e.2.1 e.2.2) g) .laneSucc x y ↔ HasEdge g .laneSucc x y) := by
    intro E
    induction E with
    | nil => intro g _; rfl
    | cons e E ih =>
      intro g h
      rw [List.foldl_cons, ih _ (fun e he => h e (List.mem_cons_of_mem _ he)), hasEdge_add_ne (h e (by simp))]
  unfold baseGraph genNeighbours
  rw [this]
  · rw [genVertices_eq]; rintro ⟨_, _, _, _, h⟩; simp at h
  · intro e he
    obtain ⟨s', _, he⟩ := List.mem_flatMap.1 he
    obtain ⟨l', _, he⟩ := List.mem_flatMap.1 he
    unfold laneNeighborEdges at he
    split_ifs at he
    · split at he
      · simp only [List.mem_cons, List.not_mem_nil, or_false] at he
        rcases he with rfl | rfl <;> simp
      · simp at he
    · simp at he

theorem generated_edges (hw : WellFormed m) (hc : Complete m) (hg : generate m = .ok g) (x y : Nat) :
    HasEdge g .laneSucc x y ↔ ∃ a b, Taken m a b ∧ Pair x y a.id b.id := by
  obtain ⟨g1, h1, h2⟩ := Res.bind_ok (show (genLinks (baseGraph m) m >>= fun g => genJunctions g m) = .ok g from hg)
  obtain ⟨s1, e1⟩ := foldRes_adds (P := SameNbr (baseGraph m)) (Q := fun g => HasEdge g .laneSucc x y)
    (C := roadAdds m x y) (f := linkRoad m) (l := m.roads)
    (fun b hb p hp b' h => linkRoad_edges hw hc hb hp h x y) (SameNbr.refl _) h1
  obtain ⟨_, e2⟩ := foldRes_adds (P := SameNbr (baseGraph m)) (Q := fun g => HasEdge g .laneSucc x y)
    (C := connAdds m x y) (f := linkConnection m) (l := m.conns)
    (fun b hb p hp b' h => linkConnection_edges hw hc hb hp h x y) s1 h2
  rw [e2, e1]
  constructor
  · rintro ((h | ⟨⟨i, R⟩, hR, h0, s, hs, l, hl, h⟩) | ⟨c, hcm, R, R', s, s', hR, hR', hs, hs', k, hk, a, ha, b, hb, p1, p2, p3⟩)
    · exact absurd h (base_no_links m x y)
    · rcases h with ⟨c1, R', c2, c3, s', c4, b, c5, c6, c7⟩ | ⟨c1, R', c2, c3, c8, s', c4, b, c5, c6, c7⟩
      · exact ⟨l, b, .succ h0 hR c1 c2 hs hl c3 ⟨s', c4, c5, c6⟩, c7⟩
      · exact ⟨b, l, .pred h0 hR c1 c2 hs hl c3 ⟨s', c4, c5, c6⟩ c8, c7⟩
    · exact ⟨a, b, .junction hcm hk hR hR' ⟨s, hs, ha, p1⟩ ⟨s', hs', hb, p2⟩, p3⟩
  · rintro ⟨a, b, ht, hp⟩
    cases ht with
    | succ h0 h1 h2 h3 h4 h5 h6 h7 =>
      obtain ⟨s', h8, h9, h10⟩ := h7
      exact .inl (.inr ⟨(_, _), h1, h0, _, h4, a, h5, .inl ⟨h2, _, h3, h6, s', h8, b, h9, h10, hp⟩⟩)
    | pred h0 h1 h2 h3 h4 h5 h6 h7 h8 =>
      obtain ⟨s', h9, h10, h11⟩ := h7
      exact .inl (.inr ⟨(_, _), h1, h0, _, h4, b, h5, .inr ⟨h2, _, h3, h6, h8, s', h9, a, h10, h11, hp⟩⟩)
    | junction h1 h2 h3 h4 h5 h6 =>
      obtain ⟨s, h7, h8, h9⟩ := h5
      obtain ⟨s', h10, h11, h12⟩ := h6
      exact .inr ⟨_, h1, _, _, s, s', h3, h4, h7, h10, _, h2, a, h8, b, h11, h9, h12, hp⟩

theorem vertex_of_id (hw : WellFormed m) (hg : g.verts = m.lanes) {v j : Nat} (h : idAt g v = some j) :
    lookup g j = some v := by
  unfold idAt at h
  cases hx : g.verts[v]? with
  | none => rw [hx] at h; cases h
  | some x =>
    rw [hx] at h
    simp only [Option.map_some, Option.some.injEq] at h
    have hxm := List.mem_of_getElem? hx
    obtain ⟨w, hw'⟩ := lookup_known hxm
    rw [h] at hw'
    have hid := idAt_lookup hw'
    unfold idAt at hid
    have hlt := lookup_lt hw'
    have hlt2 := (List.getElem?_eq_some_iff.1 hx).1
    have hnd := hw.ids
    rw [← hg] at hnd
    have e1 : (g.verts.map (fun v => v.lane.id))[v]? = some j := by simp [hx, h]
    have e2 : (g.verts.map (fun v => v.lane.id))[w]? = some j := by
      rw [List.getElem?_map]; exact hid
    have : v = w := by
      have := (List.Nodup.getElem_inj_iff hnd (i := v) (j := w) (hi := by simpa using hlt2) (hj := by simpa using hlt)).1
      apply this
      have f1 := List.getElem?_eq_some_iff.1 e1
      have f2 := List.getElem?_eq_some_iff.1 e2
      rw [f1.2, f2.2]
    rw [this]; exact hw'

theorem successors_hasEdge (hw : WellFormed m) (hg : g.verts = m.lanes) {i : Nat} (hi : ∃ v, lookup g i = some v) :
    (∃ L, successors g i = .ok L ∧ ∀ j, j ∈ L ↔ HasEdge g .laneSucc i j) ∧
    (∃ L, predecessors g i = .ok L ∧ ∀ j, j ∈ L ↔ HasEdge g .laneSucc j i) := by
  obtain ⟨v, hv⟩ := hi
  have hlt := lookup_lt hv
  constructor
  · refine ⟨outL g v .laneSucc, outs_known hv _, ?_⟩
    intro j
    unfold outL HasEdge
    simp only [List.mem_filterMap, List.mem_filter, decide_eq_true_eq]
    constructor
    · rintro ⟨e, ⟨he, hs, ht⟩, hd⟩
      refine ⟨v, e.dst, hv, vertex_of_id hw hg hd, ?_⟩
      obtain ⟨a, b, c⟩ := e
      simp only at hs ht; subst hs; subst ht; exact he
    · rintro ⟨a, b, ha, hb, he⟩
      rw [hv] at ha; cases ha
      exact ⟨_, ⟨he, rfl, rfl⟩, idAt_lookup hb⟩
  · refine ⟨(g.edges.filter (fun e => decide (e.dst = v ∧ e.ty = .laneSucc))).filterMap (fun e => idAt g e.src), ?_, ?_⟩
    · unfold predecessors ins; rw [vertexOf_lookup hv, if_pos hlt]
    · intro j
      unfold HasEdge
      simp only [List.mem_filterMap, List.mem_filter, decide_eq_true_eq]
      constructor
      · rintro ⟨e, ⟨he, hs, ht⟩, hd⟩
        refine ⟨e.src, v, vertex_of_id hw hg hd, hv, ?_⟩
        obtain ⟨a, b, c⟩ := e
        simp only at hs ht; subst hs; subst ht; exact he
      · rintro ⟨a, b, ha, hb, he⟩
        rw [hv] at hb; cases hb
        exact ⟨_, ⟨he, rfl, rfl⟩, idAt_lookup ha⟩

theorem taken_declared {a b : Lane} (h : Taken m a b) : Declared m a b := by
  cases h with
  | succ h0 h1 h2 h3 h4 h5 h6 h7 => exact .succ h1 h2 h3 h4 h5 h6 h7
  | pred h0 h1 h2 h3 h4 h5 h6 h7 h8 => exact .pred h1 h2 h3 h4 h5 h6 h7
  | junction h1 h2 h3 h4 h5 h6 => exact .junction h1 h2 h3 h4 h5 h6

theorem declared_taken (hcl : Clean m) {a b : Lane} (h : Declared m a b) : Taken m a b := by
  cases h with
  | succ h1 h2 h3 h4 h5 h6 h7 => exact .succ (hcl.small _ _ h1) h1 h2 h3 h4 h5 h6 h7
  | pred h1 h2 h3 h4 h5 h6 h7 =>
    exact .pred (hcl.small _ _ h1) h1 h2 h3 h4 h5 h6 h7
      (fun c1 ⟨R'', c2⟩ => hcl.both _ _ _ _ R'' h1 h4 h5 c1 c2 h6)
  | junction h1 h2 h3 h4 h5 h6 => exact .junction h1 h2 h3 h4 h5 h6

/-- On maps without large road ids, the successor lanes of a lane are exactly the lanes that continue it **or that it continues**
according to the map. Missing for the full claim: the orientation (see `C66_successor_is_predecessor`) and maps that are not
`Clean` (see `C66_large_id_violated`). -/
theorem C66_successors_partial (hw : WellFormed m) (hc : Complete m) (hcl : Clean m) (hg : generate m = .ok g)
    (hl : LaneIn m r s l) :
    ∃ L, successors g l.id = .ok L ∧
      ∀ j, j ∈ L ↔ ∃ a b, Declared m a b ∧ ((a.id = l.id ∧ b.id = j) ∨ (b.id = l.id ∧ a.id = j)) := by
  have hs := generate_same hg
  obtain ⟨⟨L, h1, h2⟩, _⟩ := successors_hasEdge hw (hs.1.trans (base_verts m)) (lane_lookup hs hl)
  refine ⟨L, h1, fun j => ?_⟩
  rw [h2, generated_edges hw hc hg]
  constructor
  · rintro ⟨a, b, ht, hp⟩
    refine ⟨a, b, taken_declared ht, ?_⟩
    rcases hp with ⟨e1, e2⟩ | ⟨e1, e2⟩
    · exact .inl ⟨e1.symm, e2.symm⟩
    · exact .inr ⟨e1.symm, e2.symm⟩
  · rintro ⟨a, b, hd, hp⟩
    refine ⟨a, b, declared_taken hcl hd, ?_⟩
    rcases hp with ⟨e1, e2⟩ | ⟨e1, e2⟩
    · exact .inl ⟨e1.symm, e2.symm⟩
    · exact .inr ⟨e1.symm, e2.symm⟩

/-- no link is invented, on any map -/
theorem C66_links_sound (hw : WellFormed m) (hc : Complete m) (hg : generate m = .ok g) (hl : LaneIn m r s l)
    {L : List Nat} (h : successors g l.id = .ok L) {j : Nat} (hj : j ∈ L) :
    ∃ a b, Declared m a b ∧ ((a.id = l.id ∧ b.id = j) ∨ (b.id = l.id ∧ a.id = j)) := by
  have hs := generate_same hg
  obtain ⟨⟨L', h1, h2⟩, _⟩ := successors_hasEdge hw (hs.1.trans (base_verts m)) (lane_lookup hs hl)
  rw [h1] at h; cases h
  obtain ⟨a, b, ht, hp⟩ := (generated_edges hw hc hg _ _).1 ((h2 j).1 hj)
  refine ⟨a, b, taken_declared ht, ?_⟩
  rcases hp with ⟨e1, e2⟩ | ⟨e1, e2⟩
  · exact .inl ⟨e1.symm, e2.symm⟩
  · exact .inr ⟨e1.symm, e2.symm⟩

theorem nextLane_hasEdge (hw : WellFormed m) (hg : g.verts = m.lanes) (roads : List Nat) {i : Nat} (hi : ∃ v, lookup g i = some v) :
    ∃ o, nextLane g roads i = .ok o ∧ (∀ j, o = some j → HasEdge g .laneSucc i j ∧ ∃ x ∈ g.verts, x.lane.id = j ∧ x.road ∈ roads) ∧
      (o = none → ∀ x ∈ g.verts, x.road ∈ roads → ¬ HasEdge g .laneSucc i x.lane.id) := by
  obtain ⟨v, hv⟩ := hi
  unfold nextLane
  rw [vertexOf_lookup hv, if_pos (lookup_lt hv)]
  refine ⟨_, rfl, ?_, ?_⟩
  · intro j hj
    obtain ⟨e, he, h1⟩ := List.exists_of_findSome?_eq_some hj
    simp only [List.mem_filter, decide_eq_true_eq] at he
    obtain ⟨he, hs, ht⟩ := he
    cases hx : g.verts[e.dst]? with
    | none => rw [hx] at h1; cases h1
    | some x =>
      rw [hx] at h1
      dsimp only at h1
      split_ifs at h1 with hr
      simp only [Option.some.injEq] at h1
      refine ⟨⟨v, e.dst, hv, vertex_of_id hw hg (by unfold idAt; rw [hx]; simp [h1]), ?_⟩, x, List.mem_of_getElem? hx, h1, hr⟩
      obtain ⟨a, b, c⟩ := e
      simp only at hs ht
      subst hs; subst ht
      exact he
  · intro hn x hx hr hedge
    obtain ⟨a, b, ha, hb, he⟩ := hedge
    rw [hv] at ha
    cases ha
    obtain ⟨k, hk⟩ := List.mem_iff_getElem?.1 hx
    have hk2 : lookup g x.lane.id = some k := vertex_of_id hw hg (by unfold idAt; rw [hk]; rfl)
    rw [hk2] at hb
    cases hb
    have := List.findSome?_eq_none_iff.1 hn ⟨v, b, .laneSucc⟩ (by simp [he])
    simp [hk, hr] at this

/-- the next lane on given roads is a lane of one of these roads that continues the lane, or that it continues, and is found if there is one. Missing for the full
claim: as in `C66_successors_partial` -/
theorem C66_next_lane_partial (hw : WellFormed m) (hc : Complete m) (hcl : Clean m) (hg : generate m = .ok g) (hl : LaneIn m r s l) (roads : List Nat) :
    ∃ o, nextLane g roads l.id = .ok o ∧
      (∀ j, o = some j → (∃ a b, Declared m a b ∧ ((a.id = l.id ∧ b.id = j) ∨ (b.id = l.id ∧ a.id = j))) ∧ ∃ r' s' l', LaneIn m r' s' l' ∧ l'.id = j ∧ r' ∈ roads) ∧
      (o = none → ∀ r' s' l', LaneIn m r' s' l' → r' ∈ roads →
        ¬ ∃ a b, Declared m a b ∧ ((a.id = l.id ∧ b.id = l'.id) ∨ (b.id = l.id ∧ a.id = l'.id))) := by
  have hs := generate_same hg
  have hv := hs.1.trans (base_verts m)
  obtain ⟨o, h1, h2, h3⟩ := nextLane_hasEdge hw hv roads (lane_lookup hs hl)
  have link : ∀ j, HasEdge g .laneSucc l.id j ↔ ∃ a b, Declared m a b ∧ ((a.id = l.id ∧ b.id = j) ∨ (b.id = l.id ∧ a.id = j)) := by
    intro j
    rw [generated_edges hw hc hg]
    constructor
    · rintro ⟨a, b, ht, hp⟩
      refine ⟨a, b, taken_declared ht, ?_⟩
      rcases hp with ⟨e1, e2⟩ | ⟨e1, e2⟩
      · exact .inl ⟨e1.symm, e2.symm⟩
      · exact .inr ⟨e1.symm, e2.symm⟩
    · rintro ⟨a, b, hd, hp⟩
      refine ⟨a, b, declared_taken hcl hd, ?_⟩
      rcases hp with ⟨e1, e2⟩ | ⟨e1, e2⟩
      · exact .inl ⟨e1.symm, e2.symm⟩
      · exact .inr ⟨e1.symm, e2.symm⟩
  refine ⟨o, h1, ?_, ?_⟩
  · intro j hj
    obtain ⟨k1, x, k2, k3, k4⟩ := h2 j hj
    rw [hv] at k2
    obtain ⟨s', k5⟩ := mem_lanes.1 k2
    exact ⟨(link j).1 k1, x.road, s', x.lane, k5, k3, k4⟩
  · intro ho r' s' l' hl' hr' hd
    exact h3 ho ⟨r', l'⟩ (by rw [hv]; exact mem_lanes.2 ⟨s', hl'⟩) hr' ((link l'.id).2 hd)

/-- asking for the next lane in a graph without lanes is undefined -/
theorem C66_next_lane_undefined (h : g.verts = []) (roads : List Nat) (i : Nat) : nextLane g roads i = .error .ub := by
  unfold nextLane
  simp [h]

/-- Violation: on every generated graph "successor" and "predecessor" of a lane are the same thing. -/
theorem C66_successor_is_predecessor (hw : WellFormed m) (hc : Complete m) (hg : generate m = .ok g)
    (hl : LaneIn m r s l) :
    ∃ L L', successors g l.id = .ok L ∧ predecessors g l.id = .ok L' ∧ ∀ j, j ∈ L ↔ j ∈ L' := by
  have hs := generate_same hg
  obtain ⟨⟨L, h1, h2⟩, L', h3, h4⟩ := successors_hasEdge hw (hs.1.trans (base_verts m)) (lane_lookup hs hl)
  refine ⟨L, L', h1, h3, fun j => ?_⟩
  rw [h2, h4, generated_edges hw hc hg, generated_edges hw hc hg]
  unfold Pair
  constructor
  · rintro ⟨a, b, ht, hp⟩; exact ⟨a, b, ht, by tauto⟩
  · rintro ⟨a, b, ht, hp⟩; exact ⟨a, b, ht, by tauto⟩

end
end Bark.RG
