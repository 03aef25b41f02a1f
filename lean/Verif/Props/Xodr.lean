import Verif.Spec.Xodr
import Verif.Props.LaneLine
import Mathlib.Data.List.Perm.Basic
import Mathlib.Data.List.Flatten

/-!
C158–C162, first part: lanes and sections.
-/
namespace Bark.Xodr
open Bark.Ln Bark.Ln.Spec Bark.PV Bark.LaneLine

theorem need_ok {α : Type} {o : Option α} {x : α} (h : need o = .ok x) : o = some x := by
  cases o with
  | none => cases h
  | some y => injection h with h; rw [h]

theorem bind_ok {α β : Type} {x : Res α} {f : α → Res β} {y : β} (h : (x >>= f) = .ok y) : ∃ a, x = .ok a ∧ f a = .ok y := by
  cases x with
  | error e => cases h
  | ok a => exact ⟨a, rfl, h⟩

theorem map_ok {α β : Type} {x : Res α} {f : α → β} {y : β} (h : x.map f = .ok y) : ∃ a, x = .ok a ∧ f a = y := by
  cases x with
  | error e => cases h
  | ok a => injection h with h; exact ⟨a, rfl, h⟩

theorem real_some {v : Env} {e : Elem} {n : String} {x : ℝ} (h : v.real e n = some x) : Spec.Num v e n x := by
  unfold Env.real at h
  obtain ⟨t, h1, h2⟩ := Option.bind_eq_some_iff.1 h
  exact ⟨t, h1, h2⟩

theorem whole_some {v : Env} {e : Elem} {n : String} {x : ℤ} : v.whole e n = some x ↔ Spec.Whole v e n x := by
  unfold Env.whole
  rw [Option.bind_eq_some_iff]; rfl

theorem mapM_forall {α β : Type} {f : α → Res β} : ∀ {l : List α} {r : List β}, l.mapM f = .ok r →
    List.Forall₂ (fun a b => f a = .ok b) l r := by
  intro l
  induction l with
  | nil => intro r h; cases h; exact .nil
  | cons a l ih =>
    intro r h
    rw [List.mapM_cons] at h
    obtain ⟨b, h1, h⟩ := bind_ok h
    obtain ⟨bs, h2, h⟩ := bind_ok h
    cases h
    exact .cons h1 (ih h2)

/-! ### single lanes -/

theorem laneType_spec (e : Elem) : Spec.TypeOf e (laneType (e.get "type")) := by
  unfold laneType
  split_ifs with h1 h2
  · exact h1
  · exact h2
  · exact ⟨h1, h2⟩

theorem travel_iff (e : Elem) (d : String) : Spec.Travel e d ↔
    ∃ w, ((e.find "userData").bind fun u => u.find "vectorLane") = some w ∧ w.get "travelDir" = some d := by
  constructor
  · rintro ⟨u, w, h1, h2, h3⟩
    exact ⟨w, by rw [h1]; exact h2, h3⟩
  · rintro ⟨w, h1, h3⟩
    obtain ⟨u, h1, h2⟩ := Option.bind_eq_some_iff.1 h1
    exact ⟨u, w, h1, h2, h3⟩

theorem userDir_spec (e : Elem) : (userDir e = some .forward ∧ Spec.Travel e "forward") ∨
    (userDir e = some .backward ∧ Spec.Travel e "backward") ∨
    (userDir e = none ∧ ¬Spec.Travel e "forward" ∧ ¬Spec.Travel e "backward") := by
  rw [travel_iff, travel_iff]
  unfold userDir
  cases h : (e.find "userData").bind fun u => u.find "vectorLane" with
  | none => right; right; simp
  | some w =>
    simp only [Option.some.injEq]
    by_cases h1 : w.get "travelDir" = some "forward"
    · left; rw [if_pos h1]; exact ⟨rfl, w, rfl, h1⟩
    · rw [if_neg h1]
      by_cases h2 : w.get "travelDir" = some "backward"
      · right; left; rw [if_pos h2]; exact ⟨rfl, w, rfl, h2⟩
      · right; right
        rw [if_neg h2]
        refine ⟨rfl, ?_, ?_⟩
        · rintro ⟨w', rfl, g⟩; exact h1 g
        · rintro ⟨w', rfl, g⟩; exact h2 g

theorem laneDir_spec (id : ℤ) (e : Elem) : Spec.DirOf e id (laneDir id e) := by
  unfold laneDir
  rcases userDir_spec e with ⟨h, g⟩ | ⟨h, g⟩ | ⟨h, g1, g2⟩
  · rw [h]; exact Or.inl g
  · rw [h]; exact Or.inl g
  · rw [h]
    show Spec.DirOf e id (if id < 0 then .forward else .backward)
    split_ifs with hn
    · exact Or.inr ⟨g1, g2, hn⟩
    · exact Or.inr ⟨g1, g2, not_lt.1 hn⟩

theorem markColor_spec {c : Option String} {k : Color} (h : markColor c = .ok k) : c = some (Spec.colorName k) := by
  unfold markColor at h
  split_ifs at h with h1 h2 h3
  · cases h; exact h1
  · cases h; exact h2
  · cases h; exact h3

theorem mark_spec {v : Env} {e : Elem} {m : Option PyMark} {k : Option Mark} (h : laneMark v e = .ok m)
    (hk : markOf m = .ok k) : Spec.MarkOf v e k := by
  unfold laneMark at h
  cases hf : e.find "roadMark" with
  | none =>
    rw [hf] at h
    cases h; cases hk
    intro x hx; rw [hf] at hx; cases hx
  | some x =>
    rw [hf] at h
    simp only at h
    unfold parseMark at h
    have done : ∀ (t : MarkType), x.get "type" = some (Spec.typeName t) →
        ((markColor (x.get "color")).map fun c => some (PyMark.mk t c (v.real x "width"))) = .ok m → Spec.MarkOf v e k := by
      intro t ht hm
      obtain ⟨c, h1, rfl⟩ := map_ok hm
      obtain ⟨w, h2, rfl⟩ := map_ok hk
      exact ⟨x, hf, ht, markColor_spec h1, real_some (need_ok h2)⟩
    by_cases h1 : x.get "type" = some "solid"
    · rw [if_pos h1] at h; exact done .solid h1 h
    · rw [if_neg h1] at h
      by_cases h2 : x.get "type" = some "broken"
      · rw [if_pos h2] at h; exact done .broken h2 h
      · rw [if_neg h2] at h
        cases h; cases hk
        intro y hy
        rw [hf] at hy; cases hy
        exact ⟨h1, h2⟩

theorem links_iff (v : Env) (e : Elem) (side : String) (q : ℤ) : Spec.Links v e side q ↔
    ((e.find "link").bind fun l => (l.find side).bind fun x => v.whole x "id") = some q ∧ -2 ^ 31 ≤ q ∧ q < 2 ^ 31 := by
  constructor
  · rintro ⟨l, x, h1, h2, h3, h4⟩
    refine ⟨?_, h4⟩
    rw [h1]
    show (l.find side).bind _ = _
    rw [h2]
    exact whole_some.2 h3
  · rintro ⟨h, h4⟩
    obtain ⟨l, h1, h⟩ := Option.bind_eq_some_iff.1 h
    obtain ⟨x, h2, h⟩ := Option.bind_eq_some_iff.1 h
    exact ⟨l, x, h1, h2, whole_some.1 h, h4⟩

theorem link_spec (v : Env) (e : Elem) (side : String) :
    Spec.LinkOf v e side (linkPos ((e.find "link").bind fun l => (l.find side).bind fun x => v.whole x "id")) := by
  cases h : (e.find "link").bind fun l => (l.find side).bind fun x => v.whole x "id" with
  | none =>
    right
    refine ⟨fun q hq => ?_, rfl⟩
    rw [links_iff, h] at hq
    cases hq.1
  | some i =>
    unfold linkPos
    by_cases g : -2 ^ 31 ≤ i ∧ i < 2 ^ 31
    · simp only [if_pos g]
      left
      rw [links_iff, h]
      exact ⟨rfl, g⟩
    · simp only [if_neg g]
      right
      refine ⟨fun q hq => ?_, rfl⟩
      rw [links_iff, h] at hq
      obtain ⟨rfl, g'⟩ : i = q ∧ _ := ⟨Option.some.inj hq.1, hq.2⟩
      exact g g'

theorem int32_ok {i k : ℤ} (h : int32 i = .ok k) : k = i := by
  unfold int32 at h
  split_ifs at h
  cases h; rfl

theorem uint32_ok {i : ℤ} {n : ℕ} (h : uint32 i = .ok n) : (n : ℤ) = i ∧ n < 2 ^ 32 := by
  unfold uint32 at h
  split_ifs at h with g
  cases h
  exact ⟨Int.toNat_of_nonneg g.1, by omega⟩

theorem junction_spec {j : ℤ} {o : Option ℕ} (h : junctionOf j = .ok o) : Spec.JunctionOf j o := by
  unfold junctionOf at h
  by_cases hj : j ≠ -1
  · rw [if_pos hj] at h
    obtain ⟨n, h', rfl⟩ := map_ok h
    exact Or.inr ⟨_, rfl, (uint32_ok h').1⟩
  · rw [if_neg hj] at h
    cases h
    exact Or.inl ⟨not_not.1 hj, rfl⟩

theorem parseLane_id {v : Env} {id : ℤ} {e : Elem} {p : PyLane} (h : parseLane v id e = .ok p) : p.id = id := by
  unfold parseLane at h
  obtain ⟨m, -, h⟩ := bind_ok h
  cases h; rfl

theorem parseLane_widths {v : Env} {id : ℤ} {e : Elem} {p : PyLane} (h : parseLane v id e = .ok p) :
    p.widths = parseWidths v e id := by
  unfold parseLane at h
  obtain ⟨m, -, h⟩ := bind_ok h
  cases h; rfl

theorem createLane_fields {v : Env} {n : ℕ} {p : PyLane} {sEnd : ℝ} {ref : Line} {off : Offset} {j : ℤ} {l : Lane}
    (h : createLane v n p sEnd ref off j = .ok l) :
    l.id = n + 1 ∧ l.pos = p.id ∧ l.type = p.type ∧ l.dir = p.dir ∧ l.fromPos = linkPos (p.link.bind Prod.fst) ∧
    l.toPos = linkPos (p.link.bind Prod.snd) ∧ markOf p.mark = .ok l.mark ∧ junctionOf j = .ok l.junction ∧
    appendWidths v p.id ref off sEnd Ln.empty p.widths = .ok l.line := by
  unfold createLane at h
  obtain ⟨pos, h1, h⟩ := bind_ok h
  obtain ⟨line, h2, h⟩ := bind_ok h
  obtain ⟨m, h3, h⟩ := bind_ok h
  obtain ⟨jn, h4, h⟩ := bind_ok h
  cases h
  have := int32_ok h1
  subst this
  exact ⟨rfl, rfl, rfl, rfl, rfl, rfl, h3, h4, h2⟩

/-- a lane read from an element and created is the one the element asks for -/
theorem lane_spec {v : Env} {id : ℤ} {e : Elem} {p : PyLane} {n : ℕ} {sEnd : ℝ} {ref : Line} {off : Offset} {j : ℤ}
    {l : Lane} (hid : Spec.Whole v e "id" id) (hp : parseLane v id e = .ok p)
    (hl : createLane v n p sEnd ref off j = .ok l) : Spec.LaneOf v j e l := by
  obtain ⟨-, h2, h3, h4, h5, h6, h7, h8, -⟩ := createLane_fields hl
  have hid' := parseLane_id hp
  unfold parseLane at hp
  obtain ⟨m, hm, hp⟩ := bind_ok hp
  cases hp
  refine ⟨by rw [h2]; exact hid, by rw [h3]; exact laneType_spec e, by rw [h4, h2]; exact laneDir_spec id e, ?_, ?_,
    mark_spec hm h7, junction_spec h8⟩
  · rw [h5]
    have : ((e.find "link").map (parseLaneLink v)).bind Prod.fst =
        ((e.find "link").bind fun l => (l.find "predecessor").bind fun x => v.whole x "id") := by
      cases e.find "link" <;> rfl
    show Spec.LinkOf v e "predecessor" (linkPos (((e.find "link").map (parseLaneLink v)).bind Prod.fst))
    rw [this]; exact link_spec v e "predecessor"
  · rw [h6]
    have : ((e.find "link").map (parseLaneLink v)).bind Prod.snd =
        ((e.find "link").bind fun l => (l.find "successor").bind fun x => v.whole x "id") := by
      cases e.find "link" <;> rfl
    show Spec.LinkOf v e "successor" (linkPos (((e.find "link").map (parseLaneLink v)).bind Prod.snd))
    rw [this]; exact link_spec v e "successor"

/-! ### groups of lanes -/

theorem put_fresh {id : ℤ} {e : Elem} : ∀ {d : List (ℤ × Elem)}, id ∉ d.map Prod.fst → put id e d = d ++ [(id, e)] := by
  intro d
  induction d with
  | nil => intro _; rfl
  | cons x d ih =>
    intro h
    simp only [List.map_cons, List.mem_cons, not_or] at h
    unfold put
    rw [if_neg (fun g => h.1 g.symm), ih h.2]; rfl

theorem put_perm {id : ℤ} {e : Elem} : ∀ {d : List (ℤ × Elem)}, (d.map Prod.fst).Nodup →
    (put id e d).Perm ((d.filter fun x => decide (x.1 ≠ id)) ++ [(id, e)]) ∧ ((put id e d).map Prod.fst).Nodup ∧
    ∀ x ∈ put id e d, x = (id, e) ∨ (x ∈ d ∧ x.1 ≠ id) := by
  intro d
  induction d with
  | nil => intro _; simp [put]
  | cons x d ih =>
    intro hn
    obtain ⟨i, y⟩ := x
    simp only [List.map_cons, List.nodup_cons] at hn
    unfold put
    by_cases g : i = id
    · subst g
      rw [if_pos rfl]
      have hf : (d.filter fun x => decide (x.1 ≠ i)) = d := by
        rw [List.filter_eq_self]
        intro x hx
        have : x.1 ≠ i := fun e => hn.1 (e ▸ List.mem_map.2 ⟨x, hx, rfl⟩)
        simp [this]
      refine ⟨?_, by simpa using hn, ?_⟩
      · simp only [List.filter_cons, ne_eq, not_true_eq_false, decide_false, Bool.false_eq_true, if_false]
        rw [hf]
        exact (List.perm_append_singleton _ _).symm
      · intro x hx
        rcases List.mem_cons.1 hx with rfl | hx
        · exact Or.inl rfl
        · exact Or.inr ⟨List.mem_cons_of_mem _ hx, fun e => hn.1 (e ▸ List.mem_map.2 ⟨x, hx, rfl⟩)⟩
    · rw [if_neg g]
      obtain ⟨h1, h2, h3⟩ := ih hn.2
      refine ⟨?_, ?_, ?_⟩
      · simp only [List.filter_cons, ne_eq, g, not_false_eq_true, decide_true, if_true, List.cons_append]
        exact h1.cons _
      · simp only [List.map_cons, List.nodup_cons]
        refine ⟨?_, h2⟩
        intro hm
        obtain ⟨x, hx, rfl⟩ := List.mem_map.1 hm
        rcases h3 x hx with rfl | ⟨hx, -⟩
        · exact g rfl
        · exact hn.1 (List.mem_map.2 ⟨x, hx, rfl⟩)
      · intro x hx
        rcases List.mem_cons.1 hx with rfl | hx
        · exact Or.inr ⟨List.mem_cons_self, g⟩
        · rcases h3 x hx with h | ⟨h, h'⟩
          · exact Or.inl h
          · exact Or.inr ⟨List.mem_cons_of_mem _ h, h'⟩

open Classical in
/-- the dictionary of a group: what was there and is not replaced, and the last element of each id -/
theorem laneDict_spec {v : Env} : ∀ {es : List Elem} {d r : List (ℤ × Elem)}, laneDict v d es = .ok r →
    (d.map Prod.fst).Nodup → (∀ x ∈ d, Spec.Whole v x.2 "id" x.1) →
    (∀ x ∈ r, Spec.Whole v x.2 "id" x.1) ∧
    (r.map Prod.snd).Perm (((d.filter fun x => decide (¬∃ e ∈ es, Spec.Whole v e "id" x.1)).map Prod.snd) ++
      Spec.lastOfEach v es) := by
  intro es
  induction es with
  | nil =>
    intro d r h hn hd
    cases h
    refine ⟨hd, ?_⟩
    simp [Spec.lastOfEach]
  | cons e es ih =>
    intro d r h hn hd
    unfold laneDict at h
    obtain ⟨id, hid, h⟩ := bind_ok h
    have hw := whole_some.1 (need_ok hid)
    have huniq : ∀ i, Spec.Whole v e "id" i → i = id := by
      rintro i ⟨t, h1, h2⟩
      obtain ⟨t', h1', h2'⟩ := hw
      rw [h1] at h1'; cases h1'
      rw [h2] at h2'; cases h2'; rfl
    obtain ⟨p1, p2, p3⟩ := put_perm (id := id) (e := e) hn
    obtain ⟨g1, g2⟩ := ih h p2 (by
      intro x hx
      rcases p3 x hx with rfl | ⟨hx, -⟩
      · exact hw
      · exact hd x hx)
    refine ⟨g1, g2.trans ?_⟩
    have hfil := (p1.filter fun x => decide (¬∃ e ∈ es, Spec.Whole v e "id" x.1)).map Prod.snd
    refine (hfil.append_right _).trans ?_
    rw [List.filter_append, List.map_append, List.append_assoc, List.filter_filter]
    have hkeep : (d.filter fun a => decide (¬∃ e ∈ es, Spec.Whole v e "id" a.1) && decide (a.1 ≠ id)) =
        d.filter fun x => decide (¬∃ e' ∈ e :: es, Spec.Whole v e' "id" x.1) := by
      apply List.filter_congr
      intro x _
      rw [← Bool.decide_and]
      congr 1
      apply propext
      constructor
      · rintro ⟨a, b⟩ ⟨y, hy, hyw⟩
        rcases List.mem_cons.1 hy with rfl | hy
        · exact b (huniq _ hyw)
        · exact a ⟨y, hy, hyw⟩
      · intro a
        refine ⟨fun ⟨y, hy, hyw⟩ => a ⟨y, List.mem_cons_of_mem _ hy, hyw⟩, fun b => a ⟨e, List.mem_cons_self, ?_⟩⟩
        rw [b]; exact hw
    rw [hkeep]
    apply List.Perm.append_left
    by_cases g : ∃ x ∈ es, Spec.Whole v x "id" id
    · have e1 : Spec.lastOfEach v (e :: es) = Spec.lastOfEach v es := by
        show (if _ then _ else _) = _
        rw [if_pos]
        obtain ⟨x, hx, hxw⟩ := g
        exact ⟨x, hx, id, hw, hxw⟩
      rw [e1]
      have : ([(id, e)].filter fun x => decide (¬∃ e ∈ es, Spec.Whole v e "id" x.1)) = [] := by
        simp only [List.filter_cons, List.filter_nil]
        rw [if_neg]
        simp only [decide_eq_true_eq, not_not]; exact g
      rw [this]
      simp
    · have e1 : Spec.lastOfEach v (e :: es) = e :: Spec.lastOfEach v es := by
        show (if _ then _ else _) = _
        rw [if_neg]
        rintro ⟨x, hx, i, h1, h2⟩
        rw [huniq i h1] at h2
        exact g ⟨x, hx, h2⟩
      rw [e1]
      have : ([(id, e)].filter fun x => decide (¬∃ e ∈ es, Spec.Whole v e "id" x.1)) = [(id, e)] := by
        simp only [List.filter_cons, List.filter_nil]
        rw [if_pos]
        simp only [decide_eq_true_eq]; exact g
      rw [this]
      simp

open Classical in
/-- elements with distinct ids are all kept -/
theorem lastOfEach_distinct {v : Env} {es : List Elem}
    (h : es.Pairwise fun a b => ∀ i, Spec.Whole v a "id" i → ¬Spec.Whole v b "id" i) : Spec.lastOfEach v es = es := by
  induction es with
  | nil => rfl
  | cons e es ih =>
    rw [List.pairwise_cons] at h
    show (if _ then _ else _) = _
    rw [if_neg, ih h.2]
    rintro ⟨x, hx, i, h1, h2⟩
    exact h.1 x hx i h1 h2

/-- lanes as read and the elements they come from -/
def ReadFrom (v : Env) (e : Elem) (p : PyLane) : Prop := ∃ id, Spec.Whole v e "id" id ∧ parseLane v id e = .ok p

theorem parseLanes_spec {v : Env} {es : List Elem} {ps : List PyLane} (h : parseLanes v es = .ok ps) :
    ∃ xs, xs.Perm (Spec.lastOfEach v es) ∧ List.Forall₂ (ReadFrom v) xs ps := by
  unfold parseLanes at h
  obtain ⟨d, h1, h2⟩ := bind_ok h
  obtain ⟨g1, g2⟩ := laneDict_spec h1 (by simp) (by simp)
  simp only [List.filter_nil, List.map_nil, List.nil_append] at g2
  refine ⟨d.map Prod.snd, g2, ?_⟩
  have hF := mapM_forall h2
  clear h1 h2 g2 h
  induction hF with
  | nil => exact .nil
  | @cons a b l1 l2 hab _ ih2 =>
    exact .cons ⟨a.1, g1 a List.mem_cons_self, hab⟩ (ih2 fun x hx => g1 x (List.mem_cons_of_mem _ hx))

theorem flatten_spec {α β γ : Type} {R : β → γ → Prop} {f : α → List β} :
    ∀ {as : List α} {css : List (List γ)}, List.Forall₂ (fun a cs => ∃ xs, xs.Perm (f a) ∧ List.Forall₂ R xs cs) as css →
      ∃ xs, xs.Perm (as.flatMap f) ∧ List.Forall₂ R xs css.flatten := by
  intro as css h
  induction h with
  | nil => exact ⟨[], by simp, .nil⟩
  | @cons a cs as css hab _ ih2 =>
    obtain ⟨xs, h1, h2⟩ := hab
    obtain ⟨ys, g1, g2⟩ := ih2
    exact ⟨xs ++ ys, by rw [List.flatMap_cons]; exact h1.append g1, by rw [List.flatten_cons]; exact List.rel_append h2 g2⟩

theorem forall₂_perm {α β : Type} {R : α → β → Prop} {bs cs : List β} (hp : bs.Perm cs) :
    ∀ {as : List α}, List.Forall₂ R as bs → ∃ as', as'.Perm as ∧ List.Forall₂ R as' cs := by
  induction hp with
  | nil => intro as h; cases h; exact ⟨[], .refl _, .nil⟩
  | cons x _ ih =>
    intro as h
    cases h with
    | cons hab h =>
      obtain ⟨as', h1, h2⟩ := ih h
      exact ⟨_ :: as', h1.cons _, .cons hab h2⟩
  | swap x y l =>
    intro as h
    cases h with
    | cons h1 h => cases h with
      | cons h2 h => exact ⟨_ :: _ :: _, .swap _ _ _, .cons h2 (.cons h1 h)⟩
  | trans _ _ ih1 ih2 =>
    intro as h
    obtain ⟨as', h1, h2⟩ := ih1 h
    obtain ⟨as'', h3, h4⟩ := ih2 h2
    exact ⟨as'', h3.trans h1, h4⟩

theorem inOrder_perm (ls : List PyLane) : (inOrder ls).Perm ls := List.mergeSort_perm _ _

theorem inOrder_sorted (ls : List PyLane) : (inOrder ls).Pairwise fun a b => |a.id| ≤ |b.id| := by
  have := List.pairwise_mergeSort (le := fun a b : PyLane => decide (|a.id| ≤ |b.id|))
    (fun a b c h1 h2 => by simp only [decide_eq_true_eq] at *; exact h1.trans h2)
    (fun a b => by simp only [Bool.or_eq_true, decide_eq_true_eq]; exact le_total _ _) ls
  exact this.imp fun h => by simpa using h

/-- what `addLane` appends: a lane built along the reference line or along the lane inside -/
def Built (v : Env) (r : PyRoad) (j : ℤ) (ref : Line) (n : ℕ) (ls : List Lane) (l : PyLane) (x : Lane) : Prop :=
  (l.id = 0 ∧ ∃ len, r.length = some len ∧ createLane v n l len ref noOffset j = .ok x) ∨
  ((l.id = -1 ∨ l.id = 1) ∧ ∃ len, r.length = some len ∧ createLane v n l len ref r.offset j = .ok x) ∨
  (l.id ≠ 0 ∧ l.id ≠ -1 ∧ l.id ≠ 1 ∧ ∃ p, laneAt ls (inner l.id) = some p ∧
    createLane v n l (Ln.length p.line.pts) p.line noOffset j = .ok x)

theorem addLane_spec {v : Env} {r : PyRoad} {j : ℤ} {ref : Line} {n : ℕ} {ls ls' : List Lane} {l : PyLane}
    (h : addLane v r j ref n ls l = .ok ls') : ∃ x, ls' = ls ++ [x] ∧ Built v r j ref n ls l x := by
  unfold addLane at h
  obtain ⟨x, h1, h⟩ := bind_ok h
  cases h
  refine ⟨x, rfl, ?_⟩
  unfold newLane at h1
  by_cases g0 : l.id = 0
  · rw [if_pos g0] at h1
    obtain ⟨len, h2, h3⟩ := bind_ok h1
    exact Or.inl ⟨g0, len, need_ok h2, h3⟩
  · rw [if_neg g0] at h1
    by_cases g1 : l.id = -1 ∨ l.id = 1
    · rw [if_pos g1] at h1
      obtain ⟨len, h2, h3⟩ := bind_ok h1
      exact Or.inr (Or.inl ⟨g1, len, need_ok h2, h3⟩)
    · rw [if_neg g1] at h1
      obtain ⟨p, h2, h3⟩ := bind_ok h1
      rw [not_or] at g1
      exact Or.inr (Or.inr ⟨g0, g1.1, g1.2, p, need_ok h2, h3⟩)

theorem built_created {v : Env} {r : PyRoad} {j : ℤ} {ref : Line} {n : ℕ} {ls : List Lane} {l : PyLane} {x : Lane}
    (h : Built v r j ref n ls l x) : ∃ sEnd ref' off, createLane v n l sEnd ref' off j = .ok x := by
  rcases h with ⟨-, len, -, h⟩ | ⟨-, len, -, h⟩ | ⟨-, -, -, p, -, h⟩
  · exact ⟨_, _, _, h⟩
  · exact ⟨_, _, _, h⟩
  · exact ⟨_, _, _, h⟩

theorem addLanes_spec {v : Env} {r : PyRoad} {j : ℤ} {ref : Line} : ∀ {ps : List PyLane} {n : ℕ} {ls ls' : List Lane},
    addLanes v r j ref n ls ps = .ok ls' →
    ∃ xs, ls' = ls ++ xs ∧ xs.length = ps.length ∧
      ∀ (i : Nat) (p : PyLane) (x : Lane), ps[i]? = some p → xs[i]? = some x →
        Built v r j ref (n + i) (ls ++ xs.take i) p x := by
  intro ps
  induction ps with
  | nil =>
    intro n ls ls' h
    cases h
    exact ⟨[], by simp, rfl, by simp⟩
  | cons p ps ih =>
    intro n ls ls' h
    unfold addLanes at h
    obtain ⟨l1, h1, h⟩ := bind_ok h
    obtain ⟨x, rfl, hb⟩ := addLane_spec h1
    obtain ⟨xs, h2, h3, h4⟩ := ih h
    refine ⟨x :: xs, by rw [h2]; simp, by simp [h3], ?_⟩
    intro i q y hq hy
    cases i with
    | zero =>
      simp only [List.getElem?_cons_zero, Option.some.injEq] at hq hy
      subst hq; subst hy
      simpa using hb
    | succ i =>
      simp only [List.getElem?_cons_succ] at hq hy
      have := h4 i q y hq hy
      rw [List.append_assoc] at this
      have e : n + 1 + i = n + (i + 1) := by omega
      rw [e] at this
      simpa using this

theorem parseSection_spec {v : Env} {e : Elem} {q : PySection} (h : parseSection v e = .ok q) :
    q.s = v.real e "s" ∧ ∃ xs, xs.Perm (Spec.lanesOf v e) ∧ List.Forall₂ (ReadFrom v) xs q.lanes := by
  unfold parseSection at h
  obtain ⟨ls, h1, h⟩ := bind_ok h
  cases h
  refine ⟨rfl, ?_⟩
  exact flatten_spec ((mapM_forall h1).imp fun g ps hg => parseLanes_spec hg)

theorem forall₂_of_get {α β : Type} {R : α → β → Prop} : ∀ {as : List α} {bs : List β}, as.length = bs.length →
    (∀ (i : Nat) (a : α) (b : β), as[i]? = some a → bs[i]? = some b → R a b) → List.Forall₂ R as bs := by
  intro as
  induction as with
  | nil => intro bs h _; cases bs with
    | nil => exact .nil
    | cons b bs => simp at h
  | cons a as ih =>
    intro bs h hR
    cases bs with
    | nil => simp at h
    | cons b bs =>
      exact .cons (hR 0 a b rfl rfl) (ih (by simpa using h) fun i x y hx hy => hR (i + 1) x y hx hy)

theorem forall₂_get {α β : Type} {R : α → β → Prop} {as : List α} {bs : List β} (h : List.Forall₂ R as bs) :
    ∀ (i : Nat) (b : β), bs[i]? = some b → ∃ a, as[i]? = some a ∧ R a b := by
  induction h with
  | nil => intro i b hb; simp at hb
  | cons hab _ ih =>
    intro i b hb
    cases i with
    | zero =>
      simp only [List.getElem?_cons_zero, Option.some.injEq] at hb
      subst hb
      exact ⟨_, rfl, hab⟩
    | succ i => simpa using ih i b (by simpa using hb)

/-! ### boundaries -/

/-- what a width record read contains -/
def Holds (w : PyWidth) (r : ℝ × Cubic) : Prop :=
  w.s = some r.1 ∧ w.a = some r.2.a ∧ w.b = some r.2.b ∧ w.c = some r.2.c ∧ w.d = some r.2.d

theorem widthOf_spec {w : PyWidth} {next : Option PyWidth} {off : Offset} {sEnd : ℝ} {x : Width}
    (h : widthOf w next off sEnd = .ok x) : ∃ r e, Holds w r ∧ endAt next sEnd = .ok e ∧
      x = Spec.shifted off.s off.poly ⟨r.1, e, r.2⟩ := by
  unfold widthOf at h
  obtain ⟨a, h1, h⟩ := bind_ok h
  obtain ⟨b, h2, h⟩ := bind_ok h
  obtain ⟨c, h3, h⟩ := bind_ok h
  obtain ⟨d, h4, h⟩ := bind_ok h
  obtain ⟨s, h5, h⟩ := bind_ok h
  obtain ⟨e, h6, h⟩ := bind_ok h
  cases h
  exact ⟨(s, ⟨a, b, c, d⟩), e, ⟨need_ok h5, need_ok h1, need_ok h2, need_ok h3, need_ok h4⟩, h6, rfl⟩

theorem appendWidths_spec {v : Env} {pos : ℤ} {ref : Line} {off : Offset} {sEnd : ℝ} : ∀ {ws : List PyWidth}
    {line m : Line}, appendWidths v pos ref off sEnd line ws = .ok m →
    ∃ rs pts, List.Forall₂ Holds ws rs ∧ m.pts = line.pts ++ pts ∧
      Spec.Drawn v ref pos ((Spec.records sEnd rs).map (Spec.shifted off.s off.poly)) pts := by
  intro ws
  induction ws with
  | nil =>
    intro line m h
    cases h
    exact ⟨[], [], .nil, by simp, [], rfl, .nil⟩
  | cons w ws ih =>
    intro line m h
    unfold appendWidths at h
    obtain ⟨x, h1, h⟩ := bind_ok h
    obtain ⟨r, e, hr, he, rfl⟩ := widthOf_spec h1
    obtain ⟨l1, h2, h3⟩ := bind_ok h
    obtain ⟨rs, pts, g1, g2, pieces, rfl, g3⟩ := ih h3
    obtain ⟨l, qs, a1, a2, a3, a4, -⟩ := C157_append _ _ _ _ _ _ _ _ h2
    refine ⟨r :: rs, v.simp qs ++ pieces.flatten, .cons hr g1, by rw [g2, a4, List.append_assoc],
      v.simp qs :: pieces, rfl, ?_⟩
    unfold Spec.records
    rw [List.map_cons]
    have hend : (rs.head?.map Prod.fst).getD sEnd = e := by
      cases g1 with
      | nil => injection he
      | cons hw _ =>
        have := need_ok he
        rw [hw.1] at this
        exact Option.some.inj this
    rw [hend]
    exact .cons ⟨l, qs, a1, a2, a3, rfl⟩ g3

theorem shifted_none : Spec.shifted noOffset.s noOffset.poly = id := by
  funext w
  obtain ⟨a, b, c, d, e⟩ := w
  simp [Spec.shifted, noOffset]

theorem records_spec {v : Env} {e : Elem} {pos : ℤ} {rs : List (ℝ × Cubic)}
    (h : List.Forall₂ Holds (parseWidths v e pos) rs) : Spec.RecordsOf v e pos rs := by
  unfold parseWidths at h
  by_cases g : 0 < (e.findall "width").length
  · rw [if_pos g] at h
    left
    refine ⟨?_, fun g' => by rw [g'] at g; cases g⟩
    rw [List.forall₂_map_left_iff] at h
    exact h.imp fun x r hr => ⟨real_some hr.1, real_some hr.2.1, real_some hr.2.2.1, real_some hr.2.2.2.1, real_some hr.2.2.2.2⟩
  · rw [if_neg g] at h
    have hnil : e.findall "width" = [] := List.length_eq_zero_iff.1 (by omega)
    by_cases g0 : pos = 0
    · rw [if_pos g0] at h
      right
      cases h with
      | cons hr h =>
        cases h
        refine ⟨hnil, g0, ?_⟩
        rename_i r
        obtain ⟨s, a, b, c, d⟩ := r
        obtain ⟨r1, r2, r3, r4, r5⟩ := hr
        simp only [zeroWidth, Option.some.injEq] at r1 r2 r3 r4 r5
        rw [← r1, ← r2, ← r3, ← r4, ← r5]
    · rw [if_neg g0] at h
      cases h
      left
      exact ⟨by rw [hnil]; exact .nil, fun _ => g0⟩

/-- a road read: length and lane offset -/
theorem parseRoad_spec {v : Env} {re : Elem} {r : PyRoad} (h : parseRoad v re = .ok r) :
    r.id = v.whole re "id" ∧ r.name = re.get "name" ∧ r.length = v.real re "length" ∧
    r.junction = v.whole re "junction" ∧ Spec.OffsetOf v re r.offset.s r.offset.poly ∧
    (∃ lanes, re.find "lanes" = some lanes ∧ List.Forall₂ (fun e q => parseSection v e = .ok q) (lanes.findall "laneSection") r.sections) ∧
    (∃ pv, re.find "planView" = some pv ∧ r.plan = (pv.findall "geometry").map (parseGeo v)) ∧
    r.link = (re.find "link").map fun l => ((l.find "predecessor").map (parseEnd v), (l.find "successor").map (parseEnd v)) := by
  unfold parseRoad at h
  obtain ⟨lanes, h1, h⟩ := bind_ok h
  obtain ⟨off, h2, h⟩ := bind_ok h
  obtain ⟨secs, h3, h⟩ := bind_ok h
  obtain ⟨plan, h4, h⟩ := bind_ok h
  cases h
  refine ⟨rfl, rfl, rfl, rfl, ⟨lanes, need_ok h1, ?_⟩, ⟨lanes, need_ok h1, mapM_forall h3⟩, ⟨plan, need_ok h4, rfl⟩, rfl⟩
  cases hx : lanes.find "laneOffset" with
  | none =>
    rw [hx] at h2
    cases h2
    exact Or.inl ⟨rfl, rfl, rfl⟩
  | some x =>
    rw [hx] at h2
    unfold parseOffset at h2
    simp only at h2
    obtain ⟨s, g1, h2⟩ := bind_ok h2
    obtain ⟨a, g2, h2⟩ := bind_ok h2
    obtain ⟨b, g3, h2⟩ := bind_ok h2
    obtain ⟨c, g4, h2⟩ := bind_ok h2
    obtain ⟨d, g5, h2⟩ := bind_ok h2
    cases h2
    exact Or.inr ⟨x, rfl, real_some (need_ok g1), real_some (need_ok g2), real_some (need_ok g3), real_some (need_ok g4),
      real_some (need_ok g5)⟩

theorem built_boundary {v : Env} {re : Elem} {r : PyRoad} {j : ℤ} {ref : Line} {n : ℕ} {ls : List Lane} {p : PyLane}
    {x : Lane} {e : Elem} {id : ℤ} (hr : parseRoad v re = .ok r) (hp : parseLane v id e = .ok p)
    (h : Built v r j ref n ls p x) : Spec.Boundary v re ref ls e x := by
  obtain ⟨-, -, hlen, -, hoff, -⟩ := parseRoad_spec hr
  have hid := parseLane_id hp
  have hw := parseLane_widths hp
  rcases h with ⟨h0, len, hl, hc⟩ | ⟨h1, len, hl, hc⟩ | ⟨h0, h1, h2, q, hq, hc⟩
  · obtain ⟨-, f2, -, -, -, -, -, -, f9⟩ := createLane_fields hc
    obtain ⟨rs, pts, g1, g2, g3⟩ := appendWidths_spec f9
    rw [shifted_none, List.map_id] at g3
    rw [hw, ← hid] at g1
    rw [← f2] at g1 g3
    have : x.line.pts = pts := g2
    rw [← this] at g3
    exact .center len rs (by rw [f2, h0]) (real_some (by rw [← hlen]; exact hl)) (records_spec g1) g3
  · obtain ⟨-, f2, -, -, -, -, -, -, f9⟩ := createLane_fields hc
    obtain ⟨rs, pts, g1, g2, g3⟩ := appendWidths_spec f9
    rw [hw, ← hid] at g1
    rw [← f2] at g1 g3
    have : x.line.pts = pts := g2
    rw [← this] at g3
    refine .beside len r.offset.s r.offset.poly rs ?_ (real_some (by rw [← hlen]; exact hl)) hoff (records_spec g1) g3
    rw [f2]
    rcases h1 with h | h <;> rw [h] <;> rfl
  · obtain ⟨-, f2, -, -, -, -, -, -, f9⟩ := createLane_fields hc
    obtain ⟨rs, pts, g1, g2, g3⟩ := appendWidths_spec f9
    rw [shifted_none, List.map_id] at g3
    rw [hw, ← hid] at g1
    rw [← f2] at g1 g3
    have : x.line.pts = pts := g2
    rw [← this] at g3
    refine .outer q rs ?_ ?_ (records_spec g1) g3
    · rw [f2, le_abs]; omega
    · rw [f2]
      rw [← hq]
      unfold laneAt Spec.lastWith inner
      congr 1

/-- C159: the section made from an element has exactly the lanes the element asks for — type, direction, links, marks,
junction — from the inside to the outside, with consecutive ids -/
theorem C159_section {v : Env} {re : Elem} {r : PyRoad} {j : ℤ} {ref : Line} {n : ℕ} {e : Elem} {q : PySection}
    {s : Section} (hr : parseRoad v re = .ok r) (hq : parseSection v e = .ok q)
    (hs : createSection v r j ref n q = .ok s) :
    Spec.SectionOf v re ref j e s ∧ s.lanes.map (fun l => l.id) = List.range' (n + 1) s.lanes.length := by
  obtain ⟨hqs, xs, hx1, hx2⟩ := parseSection_spec hq
  unfold createSection at hs
  obtain ⟨t, h1, hs⟩ := bind_ok hs
  obtain ⟨ls, h2, hs⟩ := bind_ok hs
  cases hs
  obtain ⟨ys, hls, hlen, hB⟩ := addLanes_spec h2
  rw [List.nil_append] at hls
  subst hls
  obtain ⟨es, he1, he2⟩ := forall₂_perm (inOrder_perm q.lanes).symm hx2
  have hpos : ∀ (i : Nat) (y : Lane), ls[i]? = some y → ∃ p, (inOrder q.lanes)[i]? = some p ∧
      y.id = n + i + 1 ∧ y.pos = p.id ∧ Built v r j ref (n + i) (ls.take i) p y ∧
      ∃ sEnd ref' off, createLane v (n + i) p sEnd ref' off j = .ok y := by
    intro i y hy
    have hi : i < (inOrder q.lanes).length := by rw [← hlen]; exact (List.getElem?_eq_some_iff.1 hy).1
    have hp := List.getElem?_eq_getElem hi
    have hb := hB i _ y hp hy
    rw [List.nil_append] at hb
    obtain ⟨a, b, c, hc⟩ := built_created hb
    obtain ⟨f1, f2, -⟩ := createLane_fields hc
    exact ⟨_, hp, f1, f2, hb, a, b, c, hc⟩
  refine ⟨⟨real_some (by rw [← hqs]; exact need_ok h1), ⟨es, he1.trans hx1, ?_, ?_⟩, ?_⟩, ?_⟩
  · refine forall₂_of_get (by rw [he2.length_eq, hlen]) ?_
    intro i a y ha hy
    obtain ⟨p, hp, -, -, -, sEnd, ref', off, hc⟩ := hpos i y hy
    obtain ⟨a', ha', id, hid, hpl⟩ := forall₂_get he2 i p hp
    rw [ha] at ha'; cases ha'
    exact lane_spec hid hpl hc
  · intro i a y ha hy
    obtain ⟨p, hp, -, -, hb, -⟩ := hpos i y hy
    obtain ⟨a', ha', id, hid, hpl⟩ := forall₂_get he2 i p hp
    rw [ha] at ha'; cases ha'
    exact built_boundary hr hpl hb
  · show ls.Pairwise _
    rw [List.pairwise_iff_getElem]
    intro i k hi hk hik
    obtain ⟨p, hp, -, e1, -⟩ := hpos i _ (List.getElem?_eq_getElem hi)
    obtain ⟨p', hp', -, e2, -⟩ := hpos k _ (List.getElem?_eq_getElem hk)
    rw [e1, e2]
    have hs := List.pairwise_iff_getElem.1 (inOrder_sorted q.lanes)
    obtain ⟨g1, rfl⟩ := List.getElem?_eq_some_iff.1 hp
    obtain ⟨g2, rfl⟩ := List.getElem?_eq_some_iff.1 hp'
    exact hs i k g1 g2 hik
  · show ls.map _ = List.range' (n + 1) ls.length
    apply List.ext_getElem?
    intro i
    rw [List.getElem?_map]
    by_cases hi : i < ls.length
    · rw [List.getElem?_eq_getElem hi, List.getElem?_range' hi]
      obtain ⟨p, -, e1, -⟩ := hpos i _ (List.getElem?_eq_getElem hi)
      simp only [Option.map_some, e1]
      congr 1
      omega
    · rw [List.getElem?_eq_none (not_lt.1 hi), List.getElem?_eq_none (by simp; omega)]; rfl

end Bark.Xodr
