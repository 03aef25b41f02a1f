import Verif.Props.FrontRear

/-! C14/C15: what is reported on a side where nobody is found. -/
namespace Bark.FrontRearProps
open Bark
set_option linter.unusedSectionVars false
variable {K St Act B E Sh Box O Lane : Type} [Field K] [LinearOrder K] [IsStrictOrderedRing K]

/-- the difference reported on a side without an agent: all components as large as possible, no overlap -/
def Nobody (big : K) (r : Option (Agent K St Act B E Sh) × FDiff K) : Prop :=
  r.1 = none → r.2.lon = big ∧ r.2.lat = big ∧ r.2.vlon = big ∧ r.2.vlat = big ∧ r.2.lonZeroed = false ∧
    r.2.latZeroed = false

theorem frBody_nobody {P : Plug K St Act B E Sh Box O} {G : FRPlug K St Act B E Sh Box Lane} {p : FRParams K} {t : K}
    {lane : Lane} {ego : Nat} {egoSt : St} {egoSh : Sh} {acc r : FrontRear K St Act B E Sh} {a : Agent K St Act B E Sh}
    (h : frBody P G p t lane ego egoSt egoSh acc a = .ok r) (h1 : Nobody G.big acc.front) (h2 : Nobody G.big acc.rear) :
    Nobody G.big r.front ∧ Nobody G.big r.rear := by
  unfold frBody at h
  split at h
  · cases h; exact ⟨h1, h2⟩
  · split at h
    · cases h
    · next s hs =>
      dsimp only at h
      by_cases hz : (frDiff G lane egoSt egoSh s a).latZeroed = true
      all_goals
        simp only [hz] at h
        split_ifs at h <;> cases h
        all_goals first
          | exact ⟨h1, h2⟩
          | exact ⟨fun e => absurd e (by simp), h2⟩
          | exact ⟨h1, fun e => absurd e (by simp)⟩

theorem frLoop_nobody {P : Plug K St Act B E Sh Box O} {G : FRPlug K St Act B E Sh Box Lane} {p : FRParams K} {t : K}
    {lane : Lane} {ego : Nat} {egoSt : St} {egoSh : Sh} : ∀ (m : List (Nat × Agent K St Act B E Sh))
    {acc r : FrontRear K St Act B E Sh}, frLoop P G p t lane ego egoSt egoSh m acc = .ok r → Nobody G.big acc.front →
      Nobody G.big acc.rear → Nobody G.big r.front ∧ Nobody G.big r.rear := by
  intro m
  induction m with
  | nil => intro acc r h h1 h2; cases h; exact ⟨h1, h2⟩
  | cons q m ih =>
    intro acc r h h1 h2
    unfold frLoop at h
    simp only [bind, Except.bind] at h
    split at h
    · cases h
    · next acc' he =>
      obtain ⟨i1, i2⟩ := frBody_nobody he h1 h2
      exact ih h i1 i2

/-- **C14, C15: nobody there.** On a side on which the search finds no agent, the reported differences are the largest
numbers and no overlap is reported, whatever the mode of the search. -/
theorem C14_nobody {P : Plug K St Act B E Sh Box O} {G : FRPlug K St Act B E Sh Box Lane} {p : FRParams K}
    {maxAgents : Nat} {inCorridor : Bool} {lane : Option Lane} {ego : Nat} {w : World K St Act B E Sh Box O}
    {r : FrontRear K St Act B E Sh} (h : getAgentFrontRear P G p maxAgents inCorridor lane ego w = .ok r) :
    Nobody G.big r.front ∧ Nobody G.big r.rear := by
  have hd : Nobody G.big ((none, FDiff.default G.big) : Option (Agent K St Act B E Sh) × FDiff K) :=
    fun _ => ⟨rfl, rfl, rfl, rfl, rfl, rfl⟩
  unfold getAgentFrontRear at h
  simp only [bind, Except.bind] at h
  split at h
  · cases h
  · next m _ =>
    unfold frFrom at h
    dsimp only at h
    split at h
    · cases h; exact ⟨hd, hd⟩
    · split at h
      · simp only [bind, Except.bind] at h
        split at h
        · cases h
        · exact frLoop_nobody _ h hd hd
      · cases h

/-- **C14: when the search is undefined.** Without a corridor, or for an id that is not in the world, the search dereferences a null pointer:
at once where it needs the corridor's area or the vehicle's position to find the others, later if there are others to look at. -/
theorem C14_undefined (P : Plug K St Act B E Sh Box O) (G : FRPlug K St Act B E Sh Box Lane) (p : FRParams K)
    (maxAgents : Nat) (lane : Option Lane) (ego : Nat) (w : World K St Act B E Sh Box O) :
    (lane = none → getAgentFrontRear P G p maxAgents true lane ego w = .error .ub) ∧
    (w.getAgent ego = none → getAgentFrontRear P G p maxAgents false lane ego w = .error .ub) ∧
    (∀ l m, lane = some l → w.getAgent ego = none → w.getAgentsIntersectingPolygon P (G.boxHit l) (G.collide l) = .ok m → m ≠ [] →
      getAgentFrontRear P G p maxAgents true lane ego w = .error .ub) ∧
    (∀ e s m, lane = none → w.getAgent ego = some e → e.currentState = .ok s →
      w.getNearestAgents P (G.nearest s (maxAgents + 1)) = .ok m → m ≠ [] →
      getAgentFrontRear P G p maxAgents false lane ego w = .error .ub) := by
  refine ⟨?_, ?_, ?_, ?_⟩
  · rintro rfl
    rfl
  · intro he
    simp only [getAgentFrontRear, frConsidered, he, bind, Except.bind, Bool.false_eq_true, if_false]
  · rintro l m rfl he hm hne
    cases m with
    | nil => exact absurd rfl hne
    | cons q t =>
      simp only [getAgentFrontRear, frConsidered, hm, bind, Except.bind, if_true, frFrom, he, List.isEmpty_cons, Bool.false_eq_true, if_false]
  · rintro e s m rfl he hs hm hne
    cases m with
    | nil => exact absurd rfl hne
    | cons q t =>
      simp only [getAgentFrontRear, frConsidered, he, hs, hm, bind, Except.bind, Bool.false_eq_true, if_false, frFrom, List.isEmpty_cons]

/-- non-vacuity: the area of the corridor holds vehicles, and the asking one (id 9) is not in the world -/
example : ∃ m, (toyW [0, 20, 7]).getAgent 9 = none ∧
    (toyW [0, 20, 7]).getAgentsIntersectingPolygon toyP (toyG.boxHit ()) (toyG.collide ()) = .ok m ∧ m ≠ [] := by
  have h : (match (toyW [0, 20, 7]).getAgentsIntersectingPolygon toyP (toyG.boxHit ()) (toyG.collide ()) with
    | .ok m => !m.isEmpty | .error _ => false) = true := by decide +kernel
  split at h
  · next m hm => exact ⟨m, rfl, hm, by rintro rfl; simp at h⟩
  · cases h

/-- non-vacuity: a search in a world of three agents in which nobody is behind -/
example : ∃ r, getAgentFrontRear toyP toyG ⟨1, 4, 0⟩ 4 true (some ()) 0 (toyW [0, 20, 7]) = .ok r ∧
    r.front.1.map (·.id) = some 2 ∧ r.rear.1.isNone = true := by
  have h : toyRun 4 true [0, 20, 7] = some (some 2, none) := by decide +kernel
  unfold toyRun at h
  split at h
  · next r hr =>
    refine ⟨r, hr, ?_⟩
    simp only [Option.some.injEq, Prod.mk.injEq, Option.map_eq_none_iff] at h
    exact ⟨h.1, by rw [h.2]; rfl⟩
  · cases h

end Bark.FrontRearProps
