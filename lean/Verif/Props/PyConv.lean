import Verif.Spec.PyConv
import Verif.Lemmas.World

/-!
C54: Python conversion round trip.
-/
namespace Bark.Py
open Spec

theorem ite_step {C : Type} {n k : String} {c d : C} {rest : Option C}
    (h : (if n = k then some d else rest) = some c) : (n = k ∧ d = c) ∨ rest = some c := by
  by_cases g : n = k
  · rw [if_pos g] at h; exact Or.inl ⟨g, Option.some.inj h⟩
  · rw [if_neg g] at h; exact Or.inr h

/-! ### The tables -/

theorem behaviorTo_some (c : BCls) (h : BSupported c) : ∃ n, behaviorTo c = some n ∧ behaviorFrom n = some c := by
  cases c <;> first | exact absurd h id | exact ⟨_, rfl, rfl⟩

theorem behaviorTo_none (c : BCls) (h : ¬ BSupported c) : behaviorTo c = none := by
  cases c <;> first | exact absurd trivial h | rfl

theorem behaviorFrom_some (n : String) (c : BCls) (h : behaviorFrom n = some c) : behaviorTo c = some n := by
  unfold behaviorFrom at h
  repeat (obtain ⟨rfl, rfl⟩ | h := ite_step h; · rfl)
  cases h

theorem goalTo_some (c : GCls) (h : GSupported c) : ∃ n, goalTo c = some n ∧ goalFrom n = some c := by
  cases c <;> first | exact absurd h id | exact ⟨_, rfl, rfl⟩

theorem goalTo_none (c : GCls) (h : ¬ GSupported c) : goalTo c = none := by
  cases c <;> first | exact absurd trivial h | rfl

theorem goalFrom_some (n : String) (c : GCls) (h : goalFrom n = some c) : goalTo c = some n := by
  unfold goalFrom at h
  repeat (obtain ⟨rfl, rfl⟩ | h := ite_step h; · rfl)
  cases h

theorem dynamicTo_some (c : DCls) (h : DSupported c) : ∃ n, dynamicTo c = some n ∧ dynamicFrom n = some c := by
  cases c <;> first | exact absurd h id | exact ⟨_, rfl, rfl⟩

theorem dynamicTo_none (c : DCls) (h : ¬ DSupported c) : dynamicTo c = none := by
  cases c <;> first | exact absurd trivial h | rfl

theorem dynamicFrom_some (n : String) (c : DCls) (h : dynamicFrom n = some c) : dynamicTo c = some n := by
  unfold dynamicFrom at h
  repeat (obtain ⟨rfl, rfl⟩ | h := ite_step h; · rfl)
  cases h

theorem primitiveTo_some (c : PCls) (h : PSupported c) : ∃ n, primitiveTo c = some n ∧ primitiveFrom n = some c := by
  cases c <;> first | exact absurd h id | exact ⟨_, rfl, rfl⟩

theorem primitiveTo_none (c : PCls) (h : ¬ PSupported c) : primitiveTo c = none := by
  cases c <;> first | exact absurd trivial h | rfl

theorem primitiveFrom_some (n : String) (c : PCls) (h : primitiveFrom n = some c) : primitiveTo c = some n := by
  unfold primitiveFrom at h
  repeat (obtain ⟨rfl, rfl⟩ | h := ite_step h; · rfl)
  cases h

theorem labelTo_some (c : LCls) (h : LSupported c) : ∃ n, labelTo c = some n ∧ labelFrom n = some c := by
  cases c <;> first | exact absurd h id | exact ⟨_, rfl, rfl⟩

theorem labelTo_none (c : LCls) (h : ¬ LSupported c) : labelTo c = none := by
  cases c <;> first | exact absurd trivial h | rfl

theorem labelFrom_some (n : String) (c : LCls) (h : labelFrom n = some c) : labelTo c = some n := by
  unfold labelFrom at h
  repeat (obtain ⟨rfl, rfl⟩ | h := ite_step h; · rfl)
  cases h

/-! ### Conversions without null pointers -/

section
variable {C A : Type} [DecidableEq C]

theorem faithful_of_tables (S : C → Prop) (tbl : C → Option String) (frm : String → Option C)
    (h1 : ∀ c, S c → ∃ n, tbl c = some n ∧ frm n = some c) (h2 : ∀ c, ¬ S c → tbl c = none)
    (h3 : ∀ n c, frm n = some c → tbl c = some n) (hd : Inhabited A) (copy : C → A → A)
    (toPy : Option (Obj C A) → Res (Item C A × String))
    (fromPy : Item C A × String → Res (Option (Obj C A)))
    (ht : ∀ o, toPy (some o) = toName tbl o)
    (hf : ∀ t, fromPy t = (fromName frm (fun _ => []) copy t).map some) :
    Faithful S copy toPy fromPy := by
  refine ⟨?_, ?_, ?_, ?_⟩
  · intro o ho
    obtain ⟨n, a, b⟩ := h1 _ ho
    refine ⟨(.obj o, n), by rw [ht, toName, a], rfl, ?_⟩
    simp [hf, fromName, b, castTo, Except.map]
  · intro o ho t
    rw [ht, toName, h2 _ ho]
    simp
  · intro t hn r hr
    rw [hf, fromName] at hr
    cases hc : frm t.2 with
    | none => simp [hc, Except.map] at hr
    | some c =>
      exact hn (some ⟨c, hd.default, none⟩) (.obj ⟨c, hd.default, none⟩, t.2)
        (by rw [ht, toName]; simp only [h3 _ _ hc]) rfl
  · intro o o' t t' e e'
    rw [ht, toName] at e e'
    by_cases g : S o.cls
    · by_cases g' : S o'.cls
      · obtain ⟨n, a, b⟩ := h1 _ g
        obtain ⟨n', a', b'⟩ := h1 _ g'
        rw [a] at e; rw [a'] at e'
        cases e; cases e'
        constructor
        · intro x
          simp only at x
          rw [x, b'] at b
          exact (Option.some.inj b).symm
        · intro x
          rw [x, a'] at a
          exact (Option.some.inj a).symm
      · simp [h2 _ g'] at e'
    · simp [h2 _ g] at e

end

/-- **C54** (goal definitions). -/
theorem C54_goal {A : Type} [Inhabited A] (copy : GCls → A → A) :
    Faithful GSupported copy (goalToPython (A := A)) (fun t => (pythonToGoal copy t).map some) :=
  faithful_of_tables GSupported goalTo goalFrom goalTo_some goalTo_none goalFrom_some inferInstance copy _ _
    (fun _ => rfl) (fun _ => rfl)

example : GSupported .sequential := trivial

/-- **C54** (dynamic models). -/
theorem C54_dynamic {A : Type} [Inhabited A] (copy : DCls → A → A) :
    Faithful DSupported copy (dynamicToPython (A := A)) (fun t => (pythonToDynamic copy t).map some) :=
  faithful_of_tables DSupported dynamicTo dynamicFrom dynamicTo_some dynamicTo_none dynamicFrom_some inferInstance copy _ _
    (fun _ => rfl) (fun _ => rfl)

example : DSupported .singleTrackModel := trivial

/-- **C54** (motion primitives). -/
theorem C54_primitive {A : Type} [Inhabited A] (copy : PCls → A → A) :
    Faithful PSupported copy (primitiveToPython (A := A)) (fun t => (pythonToPrimitive copy t).map some) :=
  faithful_of_tables PSupported primitiveTo primitiveFrom primitiveTo_some primitiveTo_none primitiveFrom_some inferInstance copy _ _
    (fun _ => rfl) (fun _ => rfl)

example : PSupported .gapKeeping := trivial

/-- **C54** (label functions). -/
theorem C54_label {A : Type} [Inhabited A] (copy : LCls → A → A) :
    Faithful LSupported copy (labelToPython (A := A)) (fun t => (pythonToLabel copy t).map some) :=
  faithful_of_tables LSupported labelTo labelFrom labelTo_some labelTo_none labelFrom_some inferInstance copy _ _
    (fun _ => rfl) (fun _ => rfl)

example : LSupported .collisionEgo := trivial

/-! ### Behaviours -/

/-- **C54** (behaviour models). -/
theorem C54_behavior {A : Type} [Inhabited A] (copy : BCls → A → A) :
    Faithful BSupported copy (behaviorToPython (A := A)) (pythonToBehavior copy) := by
  have hN : behaviorFrom "None" = none := by rfl
  refine ⟨?_, ?_, ?_, ?_⟩
  · intro o ho
    obtain ⟨n, a, b⟩ := behaviorTo_some _ ho
    refine ⟨(.obj o, n), by simp [behaviorToPython, toName, a], rfl, ?_⟩
    have g : n ≠ "None" := by
      rintro rfl
      rw [hN] at b; cases b
    have g2 : ¬ (behaviorFrom n = some .py ∧ o.cls ≠ .py) := by
      rintro ⟨x, y⟩
      rw [b] at x
      exact y (Option.some.inj x)
    simp only [pythonToBehavior, if_neg g, if_neg g2]
    simp [fromName, b, castTo, Bind.bind, Except.bind]
  · intro o ho t
    simp [behaviorToPython, toName, behaviorTo_none _ ho]
  · intro t hn r hr
    have g : t.2 ≠ "None" := fun e => hn none _ rfl e.symm
    unfold pythonToBehavior at hr
    rw [if_neg g] at hr
    cases hc : behaviorFrom t.2 with
    | none =>
      cases hi : t.1 with
      | text s => simp [hi] at hr
      | obj o => simp [hi, hc, fromName, Bind.bind, Except.bind] at hr
    | some c =>
      exact hn (some ⟨c, default, none⟩) (.obj ⟨c, default, none⟩, t.2)
        (by simp only [behaviorToPython, toName, behaviorFrom_some _ _ hc]) rfl
  · exact (faithful_of_tables (A := A) BSupported behaviorTo behaviorFrom behaviorTo_some
      behaviorTo_none behaviorFrom_some inferInstance copy behaviorToPython
      (fun t => (fromName behaviorFrom (fun _ => []) copy t).map some)
      (fun _ => rfl) (fun _ => rfl)).distinct

example : BSupported .rssConformant := trivial

/-- **C54** (null pointer).  The null pointer is converted and comes back; it is the only value
converted to a tuple without an object. -/
theorem C54_null {A : Type} (copy : BCls → A → A) :
    (∃ t, behaviorToPython (A := A) none = .ok t ∧ pythonToBehavior copy t = .ok none) ∧
    ∀ (p : Option (Obj BCls A)) (t : Item BCls A × String), behaviorToPython p = .ok t →
      pythonToBehavior copy t = .ok none → p = none := by
  refine ⟨⟨_, rfl, rfl⟩, ?_⟩
  intro p t h1 h2
  cases p with
  | none => rfl
  | some o =>
    by_cases ho : BSupported o.cls
    · obtain ⟨n, a, b⟩ := behaviorTo_some _ ho
      simp only [behaviorToPython, toName, a] at h1
      cases h1
      have g : n ≠ "None" := by
        rintro rfl
        rw [show behaviorFrom "None" = none from rfl] at b; cases b
      have g2 : ¬ (behaviorFrom n = some .py ∧ o.cls ≠ .py) := by
        rintro ⟨x, y⟩
        rw [b] at x
        exact y (Option.some.inj x)
      simp only [pythonToBehavior, if_neg g, if_neg g2] at h2
      simp [fromName, b, castTo, Bind.bind, Except.bind] at h2
    · simp [behaviorToPython, toName, behaviorTo_none _ ho] at h1

/-- **C54** fails for null goals, dynamic models, primitives and labels: unlike a null behaviour they
are dereferenced (an agent without a goal cannot be converted). -/
theorem C54_null_violated :
    goalToPython (A := Unit) none = .error .ub ∧ dynamicToPython (A := Unit) none = .error .ub ∧
    primitiveToPython (A := Unit) none = .error .ub ∧ labelToPython (A := Unit) none = .error .ub :=
  ⟨rfl, rfl, rfl, rfl⟩

/-- **C54** fails for behaviours written in Python: the way back yields an object of the trampoline
class that belongs to no Python instance any more, so that its planning function cannot be found. -/
theorem C54_python_class_violated {A : Type} (copy : BCls → A → A) (d : A) (i : Nat) :
    ∃ t, behaviorToPython (some ⟨.py, d, some i⟩) = .ok t ∧
      pythonToBehavior copy t = .ok (some ⟨.py, copy .py d, none⟩) :=
  ⟨_, rfl, rfl⟩

/-- **C54** (wrong names).  An object under the name of another class is rejected or undefined, unless
it is a random macro action behaviour under the name of the plain one, which loses its type. -/
theorem C54_wrong_name {A : Type} (copy : BCls → A → A) (o : Obj BCls A) (n : String)
    (c : BCls) (hn : behaviorTo c = some n) (hne : o.cls ≠ c) :
    (∃ r, pythonToBehavior copy (.obj o, n) = .ok (some r)) ↔
      (o.cls = .randomMacroActions ∧ c = .mpMacroActions) := by
  have hs : BSupported c := by
    by_contra g
    rw [behaviorTo_none _ g] at hn; cases hn
  obtain ⟨n', a, b⟩ := behaviorTo_some _ hs
  rw [hn] at a; cases a
  have g : n ≠ "None" := by
    rintro rfl
    rw [show behaviorFrom "None" = none from rfl] at b; cases b
  simp only [pythonToBehavior, if_neg g]
  by_cases hp : c = .py
  · subst hp
    rw [if_pos ⟨b, hne⟩]
    simp
  · have g2 : ¬ (behaviorFrom n = some .py ∧ o.cls ≠ .py) := by
      rintro ⟨x, _⟩
      rw [b] at x
      exact hp (Option.some.inj x)
    rw [if_neg g2]
    by_cases hr : o.cls = .randomMacroActions ∧ c = .mpMacroActions
    · have hc : castTo behaviorBases copy c (.obj o) = .ok ⟨c, copy c o.data, none⟩ := by
        unfold castTo behaviorBases
        exact if_pos (Or.inr (by simp [hr.1, hr.2]))
      refine ⟨fun _ => hr, fun _ => ⟨⟨c, copy c o.data, none⟩, ?_⟩⟩
      simp only [fromName, b, hc]
      rfl
    · have hc : castTo behaviorBases copy c (.obj o) = .error .thrown := by
        unfold castTo
        refine if_neg ?_
        rintro (x | x)
        · exact hne x
        · unfold behaviorBases at x
          by_cases k : o.cls = .randomMacroActions
          · rw [if_pos k] at x
            simp only [List.mem_cons, List.not_mem_nil, or_false] at x
            rcases x with x | x
            · exact hr ⟨k, x⟩
            · exact hp x
          · rw [if_neg k] at x
            simp only [List.mem_cons, List.not_mem_nil, or_false] at x
            exact hp x
      simp [fromName, b, hc, hr, Bind.bind, Except.bind]

end Bark.Py
