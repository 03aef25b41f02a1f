import Verif.Spec.MapIf
import Verif.Props.RoadPath
import Mathlib.Data.Fintype.EquivFin
import Mathlib.Data.List.Induction

/-!
C111–C114: the map interface.
-/
namespace Bark.MapIf
open Bark.MapIf.Spec

set_option linter.unusedSectionVars false

variable {K : Type} [LinearOrder K] {P : Type} {e : Env K P}

/-! ### C111: the cache of road corridors -/

theorem along_iff {m : RG.XMap} {g : RG.Graph} {full : Bool} {first : Nat} {rest : List Nat} {dir : RG.Dir} {c : Corr K} :
    build e m g full (first :: rest) first dir = .ok c ↔ Along e m g full (first :: rest) dir c := by
  constructor
  · intro h
    unfold build at h
    obtain ⟨rs, h1, h2⟩ := Res.bind_ok h
    obtain ⟨lc, h3, h4⟩ := Res.bind_ok h2
    cases h4
    exact ⟨h1, ⟨first, rfl, h3⟩, rfl, rfl, rfl⟩
  · rintro ⟨h1, ⟨f, hf, h2⟩, h3, h4, h5⟩
    simp only [List.head?_cons, Option.some.injEq] at hf
    subst hf
    unfold build
    rw [h1, Res.ok_bind, h2, Res.ok_bind, ← h3, ← h4, ← h5]

theorem along_unique {m : RG.XMap} {g : RG.Graph} {full : Bool} {ids : List Nat} {dir : RG.Dir} {c c' : Corr K}
    (h : Along e m g full ids dir c) (h' : Along e m g full ids dir c') : c = c' := by
  cases ids with
  | nil => obtain ⟨f, hf, _⟩ := h.lanes; cases hf
  | cons a l =>
    have h1 := along_iff.2 h
    rw [along_iff.2 h'] at h1
    cases h1; rfl

theorem along_ne {m : RG.XMap} {g : RG.Graph} {full : Bool} {ids : List Nat} {dir : RG.Dir} {c : Corr K}
    (h : Along e m g full ids dir c) : ids ≠ [] := by
  obtain ⟨f, hf, _⟩ := h.lanes
  intro hc; subst hc; cases hf

/-- `generate` changes nothing but the corridors -/
theorem generate_frame {s s' : MI K P} {ids : List Nat} {dir : RG.Dir} (h : generate e s ids dir = .ok s') :
    s'.map = s.map ∧ s'.graph = s.graph ∧ s'.rtree = s.rtree ∧ s'.full = s.full ∧ s'.csv = s.csv := by
  unfold generate at h
  by_cases g : (OMap.find (e.hash dir ids) s.corridors).isSome
  · rw [if_pos g] at h; cases h; exact ⟨rfl, rfl, rfl, rfl, rfl⟩
  · rw [if_neg g] at h
    cases ids with
    | nil => cases h; exact ⟨rfl, rfl, rfl, rfl, rfl⟩
    | cons a l =>
      simp only at h
      cases hm : s.map with
      | none => rw [hm] at h; cases h
      | some m =>
        cases hg : s.graph with
        | none => rw [hm, hg] at h; cases h
        | some gr =>
          rw [hm, hg] at h
          obtain ⟨c, _, h2⟩ := Res.bind_ok h
          cases h2
          exact ⟨rfl, rfl, rfl, rfl, rfl⟩

/-- the state after a call of `generate`, whether it throws or not -/
def after (e : Env K P) (s : MI K P) (ids : List Nat) (dir : RG.Dir) : MI K P := step e s (.generate ids dir)

theorem after_eq (s : MI K P) (ids : List Nat) (dir : RG.Dir) : after e s ids dir =
    match generate e s ids dir with
    | .ok s' => s'
    | .error _ => s := rfl

theorem after_frame (s : MI K P) (ids : List Nat) (dir : RG.Dir) :
    (after e s ids dir).map = s.map ∧ (after e s ids dir).graph = s.graph ∧ (after e s ids dir).rtree = s.rtree ∧
    (after e s ids dir).full = s.full ∧ (after e s ids dir).csv = s.csv := by
  rw [after_eq]
  cases h : generate e s ids dir with
  | ok s' => exact generate_frame h
  | error f => exact ⟨rfl, rfl, rfl, rfl, rfl⟩

/-- what is in the cache after a call of `generate`, if everything in it was right before -/
theorem after_get (hinj : NoCollision e) {m : RG.XMap} {g : RG.Graph} {s : MI K P} (hm : s.map = some m) (hg : s.graph = some g)
    (hs : ∀ ids dir c, get e s ids dir = some c → Along e m g s.full ids dir c) (ids0 : List Nat) (dir0 : RG.Dir)
    (ids : List Nat) (dir : RG.Dir) (c : Corr K) :
    get e (after e s ids0 dir0) ids dir = some c ↔
      get e s ids dir = some c ∨ (ids = ids0 ∧ dir = dir0 ∧ Along e m g s.full ids dir c) := by
  rw [after_eq]
  unfold generate
  by_cases gq : (OMap.find (e.hash dir0 ids0) s.corridors).isSome
  · rw [if_pos gq]
    simp only
    constructor
    · exact Or.inl
    · rintro (h | ⟨rfl, rfl, h⟩)
      · exact h
      · obtain ⟨c', hc'⟩ := Option.isSome_iff_exists.1 gq
        have := along_unique h (hs _ _ c' hc')
        rw [this]; exact hc'
  · rw [if_neg gq]
    cases ids0 with
    | nil =>
      simp only
      constructor
      · exact Or.inl
      · rintro (h | ⟨rfl, rfl, h⟩)
        · exact h
        · exact absurd rfl (along_ne h)
    | cons a l =>
      simp only [hm, hg]
      cases hb : build e m g s.full (a :: l) a dir0 with
      | error f =>
        show get e s ids dir = some c ↔ _
        constructor
        · exact Or.inl
        · rintro (h | ⟨rfl, rfl, h⟩)
          · exact h
          · rw [along_iff.2 h] at hb; cases hb
      | ok c0 =>
        rw [Res.ok_bind]
        simp only
        unfold get
        simp only
        rw [OMap.find_insert]
        by_cases hk : e.hash dir ids = e.hash dir0 (a :: l)
        · obtain ⟨rfl, rfl⟩ := hinj _ _ _ _ hk
          rw [if_pos rfl]
          constructor
          · intro h; cases h; exact Or.inr ⟨rfl, rfl, along_iff.1 hb⟩
          · rintro (h | ⟨_, _, h⟩)
            · rw [h] at gq; exact absurd rfl gq
            · rw [along_unique (along_iff.1 hb) h]
        · rw [if_neg hk]
          constructor
          · exact Or.inl
          · rintro (h | ⟨rfl, rfl, h⟩)
            · exact h
            · exact absurd rfl hk

/-- the route `generateTo` looks for: depends on the index and the graph only -/
def route (e : Env K P) (t : List (Entry P)) (gr : Option RG.Graph) (start goal : P) : Res (Option (List Nat × RG.Dir)) :=
  let s : MI K P := ⟨none, gr, t, [], false, false⟩
  match nearest e s start 1 true, laneAtPolygon e s goal with
  | some (a :: _), some b =>
    match gr with
    | some g => do
      let ids ← roadsOf g (RG.findDrivableLanePath g (e.dij g) a.id b)
      .ok (some (ids, a.dir))
    | none => .error .ub
  | _, _ => .ok none

theorem generateTo_eq (s : MI K P) (a b : P) : generateTo e s a b = (do
    match ← route e s.rtree s.graph a b with
    | some x => do
      let s' ← generate e s x.1 x.2
      .ok (s', get e s' x.1 x.2)
    | none => .ok (s, none)) := by
  unfold generateTo route
  have e1 : nearest e s a 1 true = nearest e ⟨none, s.graph, s.rtree, [], false, false⟩ a 1 true := rfl
  have e2 : laneAtPolygon e s b = laneAtPolygon e ⟨none, s.graph, s.rtree, [], false, false⟩ b := rfl
  rw [e1, e2]
  simp only
  generalize nearest e ⟨none, s.graph, s.rtree, [], false, false⟩ a 1 true = n1
  generalize laneAtPolygon e ⟨none, s.graph, s.rtree, [], false, false⟩ b = n2
  cases n1 with
  | none => rfl
  | some l =>
    cases l with
    | nil => rfl
    | cons x xs =>
      cases n2 with
      | none => rfl
      | some y =>
        cases s.graph with
        | none => rfl
        | some g =>
          simp only
          cases roadsOf g (RG.findDrivableLanePath g (e.dij g) x.id y) with
          | ok ids => rfl
          | error f => rfl

theorem step_to (s : MI K P) (a b : P) : step e s (.generateTo a b) =
    match route e s.rtree s.graph a b with
    | .ok (some x) => after e s x.1 x.2
    | _ => s := by
  have e0 : step e s (.generateTo a b) = match generateTo e s a b with
    | .ok r => r.1
    | .error _ => s := rfl
  rw [e0, generateTo_eq]
  cases route e s.rtree s.graph a b with
  | error f => rfl
  | ok o =>
    cases o with
    | none => rfl
    | some x =>
      simp only [Res.ok_bind]
      rw [after_eq]
      cases generate e s x.1 x.2 with
      | ok s' => rfl
      | error f => rfl

/-- when `generateTo` gives a corridor on an interface without corridors -/
theorem requests_to {s : MI K P} {m : RG.XMap} {g : RG.Graph} (hf : Fresh s m g) (hinj : NoCollision e) (a b : P) (ids : List Nat)
    (dir : RG.Dir) : Requests e s ids dir (.generateTo a b) ↔
      route e s.rtree s.graph a b = .ok (some (ids, dir)) ∧ ∃ c, Along e m g s.full ids dir c := by
  have hnone : ∀ ids dir c, get e s ids dir = some c → Along e m g s.full ids dir c := by
    intro ids dir c h; unfold get at h; rw [hf.none] at h; cases h
  have key := after_get hinj hf.map hf.graph hnone
  have hn : ∀ ids dir c, ¬ get e s ids dir = some c := by
    intro ids dir c h; unfold get at h; rw [hf.none] at h; cases h
  constructor
  · rintro ⟨s', c, h, hi, hd⟩
    rw [generateTo_eq] at h
    obtain ⟨o, h1, h2⟩ := Res.bind_ok h
    cases o with
    | none => cases h2
    | some x =>
      obtain ⟨s'', h3, h4⟩ := Res.bind_ok h2
      have h5 : s'' = after e s x.1 x.2 := by rw [after_eq, h3]
      have h6 : get e s'' x.1 x.2 = some c := by
        injection h4 with h4; exact congrArg Prod.snd h4
      rw [h5] at h6
      rcases (key x.1 x.2 x.1 x.2 c).1 h6 with h | ⟨_, _, ha⟩
      · exact absurd h (hn _ _ _)
      · obtain ⟨x1, x2⟩ := x
        simp only at *
        have := ha.ids; have := ha.dir
        subst hi hd
        rw [ha.ids, ha.dir]
        exact ⟨h1, c, ha⟩
  · rintro ⟨h, c, ha⟩
    have h6 := (key ids dir ids dir c).2 (Or.inr ⟨rfl, rfl, ha⟩)
    have h7 : ∃ s', generate e s ids dir = .ok s' := by
      cases hg : generate e s ids dir with
      | ok s' => exact ⟨s', rfl⟩
      | error f =>
        rw [after_eq, hg] at h6
        exact absurd h6 (hn _ _ _)
    obtain ⟨s', h8⟩ := h7
    have h5 : s' = after e s ids dir := by rw [after_eq, h8]
    refine ⟨s', c, ?_, ha.ids, ha.dir⟩
    rw [generateTo_eq, h, Res.ok_bind]
    simp only
    rw [h8, Res.ok_bind, h5, h6]

/-- As long as the map, the lane graph and the setting for junction areas are not changed, and no two routes collide in the hash:
after any sequence of requests the cache answers a route with its corridor if some request asked for it (directly or as the route
from a point to a goal) and the corridor can be built, and with the null pointer otherwise. -/
theorem C111_history_partial (hinj : NoCollision e) {s : MI K P} {m : RG.XMap} {g : RG.Graph} (hf : Fresh s m g)
    (ops : List (Op K P)) (hops : ∀ op ∈ ops, Asks op) (ids : List Nat) (dir : RG.Dir) (c : Corr K) :
    get e (ops.foldl (step e) s) ids dir = some c ↔
      (∃ op ∈ ops, Requests e s ids dir op) ∧ Along e m g s.full ids dir c := by
  have main : ∀ done : List (Op K P), (∀ op ∈ done, Asks op) →
      ((done.foldl (step e) s).map = s.map ∧ (done.foldl (step e) s).graph = s.graph ∧ (done.foldl (step e) s).rtree = s.rtree ∧
        (done.foldl (step e) s).full = s.full) ∧
      ∀ ids dir c, get e (done.foldl (step e) s) ids dir = some c ↔
        (∃ op ∈ done, Requests e s ids dir op) ∧ Along e m g s.full ids dir c := by
    intro done
    induction done using List.reverseRecOn with
    | nil =>
      intro _
      refine ⟨⟨rfl, rfl, rfl, rfl⟩, ?_⟩
      intro ids dir c
      simp [get, hf.none, OMap.find]
    | append_singleton done op ih =>
      intro hall
      obtain ⟨⟨f1, f2, f3, f4⟩, hget⟩ := ih (fun o ho => hall o (by simp [ho]))
      have hop := hall op (by simp)
      rw [List.foldl_append, List.foldl_cons, List.foldl_nil]
      generalize hS : done.foldl (step e) s = S at *
      have hal : ∀ ids dir c, get e S ids dir = some c → Along e m g S.full ids dir c := by
        intro ids dir c h; rw [f4]; exact ((hget ids dir c).1 h).2
      have key := after_get hinj (f1.trans hf.map) (f2.trans hf.graph) hal
      rw [f4] at key
      cases op with
      | generate i0 d0 =>
        obtain ⟨a1, a2, a3, a4, _⟩ := after_frame (e := e) S i0 d0
        refine ⟨⟨a1.trans f1, a2.trans f2, a3.trans f3, a4.trans f4⟩, ?_⟩
        intro ids dir c
        have := key i0 d0 ids dir c
        unfold after at this
        rw [this, hget]
        constructor
        · rintro (⟨⟨o, ho, hr⟩, h⟩ | ⟨rfl, rfl, h⟩)
          · exact ⟨⟨o, by simp [ho], hr⟩, h⟩
          · exact ⟨⟨.generate ids dir, by simp, ⟨rfl, rfl⟩⟩, h⟩
        · rintro ⟨⟨o, ho, hr⟩, h⟩
          rcases List.mem_append.1 ho with ho | ho
          · exact Or.inl ⟨⟨o, ho, hr⟩, h⟩
          · simp only [List.mem_singleton] at ho
            subst ho
            obtain ⟨rfl, rfl⟩ := hr
            exact Or.inr ⟨rfl, rfl, h⟩
      | generateTo a b =>
        rw [step_to, f3, f2]
        have hreq := requests_to (e := e) hf hinj a b
        cases hr : route e s.rtree s.graph a b with
        | error f =>
          refine ⟨⟨f1, f2, f3, f4⟩, ?_⟩
          intro ids dir c
          rw [hr] at hreq
          simp only
          rw [hget]
          constructor
          · rintro ⟨⟨o, ho, hq⟩, h⟩; exact ⟨⟨o, by simp [ho], hq⟩, h⟩
          · rintro ⟨⟨o, ho, hq⟩, h⟩
            rcases List.mem_append.1 ho with ho | ho
            · exact ⟨⟨o, ho, hq⟩, h⟩
            · simp only [List.mem_singleton] at ho
              subst ho
              exact absurd ((hreq ids dir).1 hq).1 (by simp)
        | ok o =>
          rw [hr] at hreq
          cases o with
          | none =>
            refine ⟨⟨f1, f2, f3, f4⟩, ?_⟩
            intro ids dir c
            simp only
            rw [hget]
            constructor
            · rintro ⟨⟨o, ho, hq⟩, h⟩; exact ⟨⟨o, by simp [ho], hq⟩, h⟩
            · rintro ⟨⟨o, ho, hq⟩, h⟩
              rcases List.mem_append.1 ho with ho | ho
              · exact ⟨⟨o, ho, hq⟩, h⟩
              · simp only [List.mem_singleton] at ho
                subst ho
                exact absurd ((hreq ids dir).1 hq).1 (by simp)
          | some x =>
            obtain ⟨i0, d0⟩ := x
            obtain ⟨a1, a2, a3, a4, _⟩ := after_frame (e := e) S i0 d0
            refine ⟨⟨a1.trans f1, a2.trans f2, a3.trans f3, a4.trans f4⟩, ?_⟩
            intro ids dir c
            simp only
            rw [key i0 d0 ids dir c, hget]
            constructor
            · rintro (⟨⟨o, ho, hq⟩, h⟩ | ⟨rfl, rfl, h⟩)
              · exact ⟨⟨o, by simp [ho], hq⟩, h⟩
              · exact ⟨⟨_, by simp, (hreq _ _).2 ⟨rfl, c, h⟩⟩, h⟩
            · rintro ⟨⟨o, ho, hq⟩, h⟩
              rcases List.mem_append.1 ho with ho | ho
              · exact Or.inl ⟨⟨o, ho, hq⟩, h⟩
              · simp only [List.mem_singleton] at ho
                subst ho
                have hx := ((hreq ids dir).1 hq).1
                injection hx with hx; injection hx with hx
                have e1 : i0 = ids := congrArg Prod.fst hx
                have e2 : d0 = dir := congrArg Prod.snd hx
                exact Or.inr ⟨e1.symm, e2.symm, h⟩
      | _ => exact absurd hop (by simp [Asks])
  exact (main ops hops).2 ids dir c

/-- A corridor once in the cache stays: any later request gives the same corridor again (and does no work). -/
theorem C111_same_again {s : MI K P} {ids : List Nat} {dir : RG.Dir} {c : Corr K} (h : get e s ids dir = some c) :
    generate e s ids dir = .ok s ∧ ∀ ids' dir', get e (step e s (.generate ids' dir')) ids dir = some c := by
  constructor
  · unfold generate
    rw [if_pos]
    unfold get at h
    rw [h]; rfl
  · intro ids' dir'
    show get e (after e s ids' dir') ids dir = some c
    rw [after_eq]
    cases hg : generate e s ids' dir' with
    | error f => exact h
    | ok s' =>
      simp only
      unfold generate at hg
      by_cases gq : (OMap.find (e.hash dir' ids') s.corridors).isSome
      · rw [if_pos gq] at hg; cases hg; exact h
      · rw [if_neg gq] at hg
        cases ids' with
        | nil => cases hg; exact h
        | cons a l =>
          simp only at hg
          cases hm : s.map with
          | none => rw [hm] at hg; cases hg
          | some m =>
            cases hgr : s.graph with
            | none => rw [hm, hgr] at hg; cases hg
            | some gr =>
              rw [hm, hgr] at hg
              obtain ⟨c', _, h2⟩ := Res.bind_ok hg
              cases h2
              unfold get at h ⊢
              simp only
              rw [OMap.find_insert]
              by_cases hk : e.hash dir ids = e.hash dir' (a :: l)
              · rw [← hk, h] at gq; exact absurd rfl gq
              · rw [if_neg hk]; exact h

/-- Violation: a corridor of the old map is still handed out after a new map was set, whatever the new map looks like, also if
its roads are not in the new map; asking to generate it again changes nothing. -/
theorem C111_new_map_violated {s : MI K P} {ids : List Nat} {dir : RG.Dir} {c : Corr K} (h : get e s ids dir = some c)
    (m : RG.XMap) : get e (step e s (.map m)) ids dir = some c ∧
      generate e (step e s (.map m)) ids dir = .ok (step e s (.map m)) := by
  have h1 : get e (step e s (.map m)) ids dir = some c := by
    show get e (setMap e s m).1 ids dir = some c
    unfold setMap
    cases RG.generate m with
    | error f => exact h
    | ok g =>
      cases entries e m with
      | error f => exact h
      | ok t => exact h
  exact ⟨h1, (C111_same_again h1).1⟩

/-- Violation: turning the junction areas on (or off) has no effect on a corridor already in the cache -/
theorem C111_junction_setting_violated {s : MI K P} {ids : List Nat} {dir : RG.Dir} {c : Corr K} (h : get e s ids dir = some c)
    (b : Bool) : generate e (step e s (.full b)) ids dir = .ok (step e s (.full b)) ∧
      get e (step e s (.full b)) ids dir = some c ∧ (step e s (.full b)).full = b :=
  ⟨(C111_same_again (e := e) (s := step e s (.full b)) h).1, h, rfl⟩

/-- a map of one road with one lane -/
def lone : RG.XMap := ⟨[(1, ⟨[[⟨1, -1, true, .forward, 0, 0⟩]], 1000000, false, 1000000, false⟩)], []⟩

/-- its lane graph -/
def loneGraph : RG.Graph := ⟨[⟨1, ⟨1, -1, true, .forward, 0, 0⟩⟩], []⟩

theorem lone_graph : RG.generate lone = .ok loneGraph := rfl

/-- its corridor roads -/
def loneRoads : Cor.CRoads := [(1, [(1, ⟨-1, true, .forward, none, none, none⟩)])]

theorem lone_gen : ∀ n rs, (rs = [] ∨ rs = loneRoads) → RG.foldRes (fun rs id => do
    let ls ← Cor.genRoad lone id
    .ok (OMap.insert id ls rs)) rs (List.replicate (n + 1) 1) = .ok loneRoads := by
  intro n
  induction n with
  | zero => rintro rs (rfl | rfl) <;> rfl
  | succ n ih =>
    intro rs hrs
    rw [List.replicate_succ]
    unfold RG.foldRes
    rcases hrs with rfl | rfl
    · exact ih loneRoads (Or.inr rfl)
    · exact ih loneRoads (Or.inr rfl)

theorem lone_link (n : Nat) : ∀ (rest : List Nat) (count : Nat), (∀ r ∈ rest, r = 1) → count ≤ n →
    Cor.linkLoop loneGraph (List.replicate (n + 1) 1) rest loneRoads count = .ok loneRoads := by
  intro rest
  induction rest with
  | nil => intro _ _ _; rfl
  | cons r rest ih =>
    intro count hr hc
    have hr1 := hr r (by simp)
    subst hr1
    unfold Cor.linkLoop
    have ha : (Cor.advance (List.replicate (n + 1) 1) count).1 ≤ n := by
      unfold Cor.advance
      split
      · rename_i h; simp at h; simp; omega
      · exact hc
    have hb : (Cor.advance (List.replicate (n + 1) 1) count).2 = none ∨ (Cor.advance (List.replicate (n + 1) 1) count).2 = some 1 := by
      unfold Cor.advance
      split
      · rename_i h
        right
        show (List.replicate (n + 1) 1)[count + 1]? = some 1
        rw [List.length_replicate] at h
        rw [List.getElem?_replicate, if_pos h]
      · exact Or.inl rfl
    have h1 : Cor.linkRoad loneGraph (List.replicate (n + 1) 1) loneRoads count 1 = .ok loneRoads := by
      unfold Cor.linkRoad
      have : (List.replicate (n + 1) 1)[(Cor.advance (List.replicate (n + 1) 1) count).1]? = some 1 := by
        rw [List.getElem?_replicate, if_pos (by omega)]
      rw [this]
      rcases hb with hb | hb <;> rw [hb] <;> rfl
    rw [h1, Res.ok_bind]
    exact ih _ (fun x hx => hr x (by simp [hx])) ha

theorem lone_build (n : Nat) (hfuel : 0 < e.fuel) : ∃ c, build e lone loneGraph false (List.replicate (n + 1) 1) 1 .forward = .ok c ∧
    c.ids = List.replicate (n + 1) 1 := by
  obtain ⟨k, hk⟩ := Nat.exists_eq_add_of_lt hfuel
  have h1 : Cor.corridorRoads lone loneGraph (List.replicate (n + 1) 1) = .ok loneRoads := by
    unfold Cor.corridorRoads Cor.genRoads
    rw [lone_gen n [] (Or.inl rfl), Res.ok_bind]
    exact lone_link n _ 0 (by simp) (by omega)
  refine ⟨⟨loneRoads, ⟨[[(e.len [(1, 1)], (1, 1))]], [0], [(1, 0)]⟩, _, .forward, false⟩, ?_, rfl⟩
  unfold build
  rw [h1, Res.ok_bind, hk]
  rfl

/-- Violation, whatever the hash function: the hash has finitely many values, so there are two routes with the same hash; asking
for one and reading the other gives the corridor along the wrong route instead of the null pointer. -/
theorem C111_collision_violated (hfuel : 0 < e.fuel) {N : Nat} (hN : ∀ dir ids, e.hash dir ids < N) :
    ∃ ids ids' : List Nat, ids ≠ ids' ∧ ∃ s' c, generate e ⟨some lone, some loneGraph, [], [], false, false⟩ ids .forward = .ok s' ∧
      get e s' ids' .forward = some c ∧ c.ids = ids ∧ get e ⟨some lone, some loneGraph, [], [], false, false⟩ ids' .forward = none := by
  obtain ⟨a, b, hne, hab⟩ : ∃ a b : Nat, a ≠ b ∧ e.hash .forward (List.replicate (a + 1) 1) = e.hash .forward (List.replicate (b + 1) 1) := by
    by_contra hc
    push Not at hc
    have hinj : Function.Injective (fun a : Nat => (⟨e.hash .forward (List.replicate (a + 1) 1), hN _ _⟩ : Fin N)) := by
      intro a b h
      by_contra hne
      exact hc a b hne (by simpa using h)
    exact not_injective_infinite_finite _ hinj
  obtain ⟨c, hc, hi⟩ := lone_build (e := e) a hfuel
  refine ⟨List.replicate (a + 1) 1, List.replicate (b + 1) 1, ?_,
    ⟨some lone, some loneGraph, [], [(e.hash .forward (List.replicate (a + 1) 1), c)], false, false⟩, c, ?_, ?_, hi, rfl⟩
  · intro h
    have := congrArg List.length h
    simp at this
    exact hne this
  · unfold generate
    rw [if_neg (by simp [OMap.find])]
    rw [List.replicate_succ] at hc ⊢
    simp only
    rw [hc]
    rfl
  · unfold get
    simp only [OMap.find]
    rw [hab]
    simp

/-! ### C112: the route from a point to a goal region -/

variable {D : Type} [LinearOrder D] {d : P × P → P → D}

/-- the nearest driving lane -/
theorem nearest_one (hx : Index e d) (s : MI K P) (p : P) :
    (nearest e s p 1 true = none ∧ ∀ c l, (c, l) ∈ s.rtree → l.driving = false) ∨
    ∃ l, nearest e s p 1 true = some [l] ∧ NearestDriving s d p l := by
  obtain ⟨rest, hp, hl, hd⟩ := hx 1 p (s.rtree.filter (fun x => x.2.driving))
  unfold nearest
  simp only [if_true]
  generalize e.knn 1 p (s.rtree.filter (fun x => x.2.driving)) = L at *
  have hmem : ∀ x, x ∈ L ++ rest ↔ x ∈ s.rtree ∧ x.2.driving = true := by
    intro x; rw [hp.mem_iff, List.mem_filter]
  cases L with
  | nil =>
    left
    refine ⟨by simp, ?_⟩
    intro c l h
    by_contra hc
    simp only [Bool.not_eq_false] at hc
    have hm : (c, l) ∈ s.rtree.filter (fun x => x.2.driving) := List.mem_filter.2 ⟨h, hc⟩
    have := List.length_pos_of_mem hm
    simp only [List.length_nil] at hl
    omega
  | cons x xs =>
    right
    have hxs : xs = [] := by
      rw [List.length_cons] at hl
      have : xs.length = 0 := by omega
      exact List.length_eq_zero_iff.1 this
    subst hxs
    obtain ⟨c, l⟩ := x
    refine ⟨l, by simp, c, ((hmem (c, l)).1 (by simp)).1, ((hmem (c, l)).1 (by simp)).2, ?_⟩
    intro c' l' h1 h2
    have := (hmem (c', l')).2 ⟨h1, h2⟩
    rcases List.mem_append.1 this with h | h
    · simp only [List.mem_singleton] at h
      rw [Prod.mk.injEq] at h
      rw [h.1]
    · exact hd (c, l) (by simp) (c', l') h

/-- the roads of lanes of the graph -/
theorem roadsOf_ok {g : RG.Graph} (hu : RG.Spec.UniqueIds g) : ∀ (ls : List Nat), (∀ i ∈ ls, ∃ v ∈ g.verts, v.lane.id = i) →
    ∃ ids, roadsOf g ls = .ok ids ∧ RoadsOf g ls ids := by
  intro ls
  induction ls with
  | nil => intro _; exact ⟨[], rfl, List.Forall₂.nil⟩
  | cons i ls ih =>
    intro h
    obtain ⟨ids, h1, h2⟩ := ih (fun j hj => h j (by simp [hj]))
    obtain ⟨v, hv, rfl⟩ := h i (by simp)
    obtain ⟨k, hlt, hk⟩ := List.mem_iff_getElem.1 hv
    have hk' : g.verts[k]? = some v := by rw [List.getElem?_eq_getElem hlt, hk]
    have hr : RG.roadForLane g v.lane.id = .ok v.road := by
      unfold RG.roadForLane
      rw [RG.vertexOf_lookup (RG.vertex_unique hu hk'), hk']
    refine ⟨v.road :: ids, ?_, List.Forall₂.cons ⟨v, hv, rfl, rfl⟩ h2⟩
    unfold roadsOf at h1 ⊢
    rw [List.mapM_cons, hr, Res.ok_bind, h1, Res.ok_bind]
    rfl

/-- Asking for the corridor from a point to a goal region: without any driving lane the answer is the null pointer. Otherwise the
start and the goal are replaced by driving lanes with nearest chords, and if the goal lane cannot be reached from the start lane
the answer is the null pointer; if it can, the route lists lane by lane the roads of a cheapest drivable way between them, and the
answer is that of asking for the corridor along this route in the direction of the start lane. -/
theorem C112_route (hx : Index e d) {s : MI K P} {g : RG.Graph} (hg : s.graph = some g) (hu : RG.Spec.UniqueIds g)
    (hdij : ∀ a, RG.Spec.DijkstraMap (RG.Spec.VEdge g RG.drivingE RG.drivingV) (RG.Spec.VertOk g RG.drivingV) a (e.dij g a))
    (hin : ∀ c l, (c, l) ∈ s.rtree → ∃ v ∈ g.verts, v.lane = l) (hnil : ∀ dir, get e s [] dir = none) (start goal : P) :
    ((∀ c l, (c, l) ∈ s.rtree → l.driving = false) → generateTo e s start goal = .ok (s, none)) ∧
    ((∃ c l, (c, l) ∈ s.rtree ∧ l.driving = true) →
      ∃ a b, NearestDriving s d start a ∧ NearestDriving s d goal b ∧
        (¬ RG.Spec.Reach (RG.Spec.DriveEdge g) a.id b.id → generateTo e s start goal = .ok (s, none)) ∧
        (RG.Spec.Reach (RG.Spec.DriveEdge g) a.id b.id →
          ∃ ls ids, RG.Spec.Cheapest (RG.Spec.DriveEdge g) a.id b.id ls ∧ RoadsOf g ls ids ∧ ids ≠ [] ∧
            ((∀ s', generate e s ids a.dir = .ok s' → generateTo e s start goal = .ok (s', get e s' ids a.dir)) ∧
             (∀ f, generate e s ids a.dir = .error f → generateTo e s start goal = .error f)))) := by
  rcases nearest_one hx s start with ⟨h1, h2⟩ | ⟨a, ha, na⟩
  · refine ⟨fun _ => ?_, fun h => ?_⟩
    · unfold generateTo; rw [h1]
    · obtain ⟨c, l, hc, hl⟩ := h
      rw [h2 c l hc] at hl; cases hl
  rcases nearest_one hx s goal with ⟨h1, h2⟩ | ⟨b, hb, nb⟩
  · obtain ⟨c, hc, hl, _⟩ := na
    rw [h2 c a hc] at hl; cases hl
  constructor
  · intro h
    obtain ⟨c, hc, hl, _⟩ := na
    rw [h c a hc] at hl; cases hl
  intro _
  have hlane : ∀ l : RG.Lane, (∃ c, (c, l) ∈ s.rtree) → l.driving = true → RG.Spec.HasLane g (fun l => l.driving = true) l.id := by
    rintro l ⟨c, hc⟩ hl
    obtain ⟨v, hv, rfl⟩ := hin c l hc
    exact ⟨v, hv, rfl, hl⟩
  have la := hlane a (na.imp fun c h => h.1) (by obtain ⟨c, _, h, _⟩ := na; exact h)
  have lb := hlane b (nb.imp fun c h => h.1) (by obtain ⟨c, _, h, _⟩ := nb; exact h)
  obtain ⟨p1, p2⟩ := RG.C33_drivable_path hu hdij a.id b.id
  have hgen : generateTo e s start goal = (do
      let ids ← roadsOf g (RG.findDrivableLanePath g (e.dij g) a.id b.id)
      let s' ← generate e s ids a.dir
      .ok (s', get e s' ids a.dir)) := by
    unfold generateTo laneAtPolygon
    rw [ha, hb, hg]
  refine ⟨a, b, na, nb, ?_, ?_⟩
  · intro hr
    have he := p1.2 (fun h => hr h.2.2)
    rw [hgen, he]
    have h0 : roadsOf g [] = .ok [] := rfl
    rw [h0, Res.ok_bind]
    have h1 : generate e s [] a.dir = .ok s := by
      unfold generate
      split
      · rfl
      · rfl
    rw [h1, Res.ok_bind, hnil]
  · intro hr
    have hne : RG.findDrivableLanePath g (e.dij g) a.id b.id ≠ [] := fun h => (p1.1 h) ⟨la, lb, hr⟩
    obtain ⟨q1, q2⟩ := p2 hne
    obtain ⟨ids, r1, r2⟩ := roadsOf_ok hu _ (fun i hi => by obtain ⟨v, hv, h, _⟩ := q2 i hi; exact ⟨v, hv, h⟩)
    refine ⟨_, ids, q1, r2, ?_, ?_, ?_⟩
    · intro hc
      subst hc
      have := r2.length_eq
      exact hne (List.length_eq_zero_iff.1 this)
    · intro s' hs
      rw [hgen, r1, Res.ok_bind, hs, Res.ok_bind]
    · intro f hs
      rw [hgen, r1, Res.ok_bind, hs]
      rfl

/-- Violation: an agent with a goal and no given route dereferences a null pointer when there is no route to the goal, instead of
reporting that it has no corridor. -/
theorem C112_agent_violated {s s' : MI K P} {a : Agent K P} {goal : P} (hc : s.csv = false) (hi : a.ids = []) (hgo : a.goal = some goal)
    (h : generateTo e s a.pos goal = .ok (s', none)) : agentCorridor e s a = .error .ub := by
  unfold agentCorridor agentByGoal
  rw [hc, hi, hgo]
  simp only [Bool.false_eq_true, if_false]
  rw [h]
  rfl

/-- An agent with a route (and a map that does not come from a table): the call succeeds exactly if the corridor along that route
can be had, and the agent then has this corridor and keeps its route; without route and goal it reports failure and changes
nothing. With a goal and a route to it, the agent takes over the road ids and direction of the corridor. -/
theorem C112_agent_partial {s : MI K P} {a : Agent K P} (hc : s.csv = false) :
    (a.ids ≠ [] → ∀ s', generate e s a.ids a.dir = .ok s' →
      agentCorridor e s a = .ok (s', { a with corr := get e s' a.ids a.dir }, (get e s' a.ids a.dir).isSome)) ∧
    (a.ids = [] → a.goal = none → agentCorridor e s a = .ok (s, a, false)) ∧
    (a.ids = [] → ∀ goal s' c, a.goal = some goal → generateTo e s a.pos goal = .ok (s', some c) →
      agentCorridor e s a = .ok (s', { a with corr := some c, ids := c.ids, dir := c.dir }, true)) := by
  obtain ⟨pos, goal, ids, dir, corr⟩ := a
  refine ⟨?_, ?_, ?_⟩
  · intro hne s' h
    unfold agentCorridor
    rw [hc]
    cases ids with
    | nil => exact absurd rfl hne
    | cons i l =>
      simp only [Bool.false_eq_true, if_false]
      simp only at h
      rw [h, Res.ok_bind]
  · intro hi hgo
    simp only at hi hgo
    subst hi hgo
    unfold agentCorridor
    rw [hc]
    rfl
  · intro hi go s' c hgo h
    simp only at hi hgo h
    subst hi hgo
    unfold agentCorridor agentByGoal
    rw [hc]
    simp only [Bool.false_eq_true, if_false]
    rw [h]
    rfl

/-! ### C113: the lane at a point -/

/-- The lane found at a point is a lane of the index that is in the graph and whose polygon touches the point. If none is found,
each lane of the index whose polygon touches the point is beaten by 20 other lanes whose chords are at least as near. -/
theorem C113_lane (hx : Index e d) {s : MI K P} {g : RG.Graph} (hg : s.graph = some g) (p : P) :
    ∃ o, findLane e s p = .ok o ∧
      (∀ l, o = some l → (∃ c, (c, l) ∈ s.rtree) ∧ (∃ v ∈ g.verts, v.lane.id = l.id) ∧ e.touch l.id p = some true) ∧
      (o = none → ∀ c l, (c, l) ∈ s.rtree → (∃ v ∈ g.verts, v.lane.id = l.id) → e.touch l.id p = some true →
        ∃ near : List (Entry P), near.Subperm s.rtree ∧ near.length = 20 ∧ (c, l) ∉ near ∧ ∀ x ∈ near, d x.1 p ≤ d c p) := by
  obtain ⟨rest, hp, hl, hd⟩ := hx 20 p s.rtree
  have hmem : ∀ x, x ∈ e.knn 20 p s.rtree ++ rest ↔ x ∈ s.rtree := fun x => hp.mem_iff
  have hin : ∀ i, isIn e g p i = true ↔ (∃ v ∈ g.verts, v.lane.id = i) ∧ e.touch i p = some true := by
    intro i
    unfold isIn RG.lookup
    have hv : (∃ v ∈ g.verts, v.lane.id = i) ↔ ∃ k, g.verts.findIdx? (fun v => v.lane.id == i) = some k := by
      rw [← Option.isSome_iff_exists, List.findIdx?_isSome, List.any_eq_true]
      constructor
      · rintro ⟨v, h1, h2⟩; exact ⟨v, h1, by simpa using h2⟩
      · rintro ⟨v, h1, h2⟩; exact ⟨v, h1, by simpa using h2⟩
    rw [hv]
    cases hk : g.verts.findIdx? (fun v => v.lane.id == i) with
    | none => simp
    | some k =>
      simp only [Option.some.injEq, exists_eq', true_and]
      cases e.touch i p with
      | none => simp
      | some b => cases b <;> simp
  unfold findLane nearest
  simp only [Bool.false_eq_true, if_false]
  generalize e.knn 20 p s.rtree = L at *
  have hnone : (∀ x ∈ L, isIn e g p x.2.id = false) → ∀ c l, (c, l) ∈ s.rtree → (∃ v ∈ g.verts, v.lane.id = l.id) →
      e.touch l.id p = some true →
      ∃ near : List (Entry P), near.Subperm s.rtree ∧ near.length = 20 ∧ (c, l) ∉ near ∧ ∀ x ∈ near, d x.1 p ≤ d c p := by
    intro hn c l hc hv ht
    have hnl : (c, l) ∉ L := by
      intro h
      have h1 := hn _ h
      rw [(hin l.id).2 ⟨hv, ht⟩] at h1; cases h1
    have hr : (c, l) ∈ rest := by
      rcases List.mem_append.1 ((hmem _).2 hc) with h | h
      · exact absurd h hnl
      · exact h
    refine ⟨L, ?_, ?_, hnl, fun x hx => hd x hx _ hr⟩
    · exact ((List.sublist_append_left L rest).subperm).trans hp.subperm
    · have h1 := hp.length_eq
      rw [List.length_append] at h1
      have := List.length_pos_of_mem hr
      omega
  by_cases hL : L = []
  · rw [if_pos hL]
    refine ⟨none, rfl, ?_, fun _ => hnone (by rw [hL]; simp)⟩
    intro l h; cases h
  · rw [if_neg hL, hg]
    simp only
    refine ⟨_, rfl, ?_, ?_⟩
    · intro l h
      have h1 := List.find?_some h
      have h2 := List.mem_of_find?_eq_some h
      obtain ⟨⟨c, l'⟩, h3, rfl⟩ := List.mem_map.1 h2
      exact ⟨⟨c, (hmem _).1 (List.mem_append_left _ h3)⟩, (hin _).1 h1⟩
    · intro h
      apply hnone
      intro x hxL
      have := List.find?_eq_none.1 h x.2 (List.mem_map.2 ⟨x, hxL, rfl⟩)
      simpa using this

/-- On a map of at most 20 lanes (reference lanes not counted) the search finds a lane exactly if some lane touches the point. -/
theorem C113_small_map (hx : Index e d) {s : MI K P} {g : RG.Graph} (hg : s.graph = some g) (hn : s.rtree.length ≤ 20) (p : P) :
    (∃ l, findLane e s p = .ok (some l)) ↔
      ∃ c l, (c, l) ∈ s.rtree ∧ (∃ v ∈ g.verts, v.lane.id = l.id) ∧ e.touch l.id p = some true := by
  obtain ⟨o, ho, h1, h2⟩ := C113_lane hx hg p
  rw [ho]
  constructor
  · rintro ⟨l, hl⟩
    cases hl
    obtain ⟨⟨c, hc⟩, hv, ht⟩ := h1 l rfl
    exact ⟨c, l, hc, hv, ht⟩
  · rintro ⟨c, l, hc, hv, ht⟩
    cases o with
    | some l => exact ⟨l, rfl⟩
    | none =>
      obtain ⟨near, hs, hl, hni, _⟩ := h2 rfl c l hc hv ht
      exfalso
      have : ((c, l) :: near).Subperm s.rtree := by
        apply List.cons_subperm_of_not_mem_of_mem hni hc hs
      have := this.length_le
      rw [List.length_cons] at this
      omega

/-- Violation: asking for the lane or road at a point where no lane is found dereferences a null pointer. -/
theorem C113_off_lane_violated {s : MI K P} {p : P} (h : findLane e s p = .ok none) :
    currentLane e s p = .error .ub ∧ currentRoad e s p = .error .ub := by
  have : currentLane e s p = .error .ub := by unfold currentLane; rw [h]; rfl
  exact ⟨this, by unfold currentRoad; rw [this]; rfl⟩

/-- where a lane is found, its id and the road it belongs to are given -/
theorem C113_current {s : MI K P} {g : RG.Graph} (hg : s.graph = some g) (hu : RG.Spec.UniqueIds g) {p : P} {l : RG.Lane} {v : RG.Vert}
    (h : findLane e s p = .ok (some l)) (hv : v ∈ g.verts) (hl : v.lane.id = l.id) :
    currentLane e s p = .ok l.id ∧ currentRoad e s p = .ok v.road := by
  have h1 : currentLane e s p = .ok l.id := by unfold currentLane; rw [h]; rfl
  refine ⟨h1, ?_⟩
  unfold currentRoad
  rw [h1, Res.ok_bind, hg]
  obtain ⟨k, hlt, hk⟩ := List.mem_iff_getElem.1 hv
  have hk' : g.verts[k]? = some v := by rw [List.getElem?_eq_getElem hlt, hk]
  simp only
  unfold RG.roadForLane
  rw [← hl, RG.vertexOf_lookup (RG.vertex_unique hu hk'), hk']

end Bark.MapIf
