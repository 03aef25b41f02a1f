import Verif.Spec.Primitives
import Verif.Lemmas.World
import Mathlib.Data.List.Nodup
import Mathlib.Data.List.Forall2
import Mathlib.Tactic.NormNum
import Batteries.Data.List.Perm

/-!
C50, C94–C96 – macro actions.
-/
set_option linter.unusedSectionVars false
namespace Bark.Mac
open Bark Spec
variable {K C A T : Type} [LinearOrder K]

theorem corridors_ok {v : View K C} {b : Beh C A T} {c : C} (hd : Heading v b c) :
    corridors v b.target = .ok ⟨c, (v.sides c).1, (v.sides c).2⟩ := by
  rcases hd with h | ⟨h, h2⟩
  · rw [h]; rfl
  · rw [h]; simp only [corridors, h2]

theorem corridors_none {v : View K C} (hl : v.lane = none) : corridors v (none : Option C) = .error .ub := by
  simp only [corridors, hl]

theorem load_ok {h : Heap K A T} {r : Nat} {o : Obj K A T} (ho : h r = some o) : load h r = .ok o := by
  simp only [load, ho]

theorem at_ok {l : List Nat} {i x : Nat} (h : l[i]? = some x) : at' l i = .ok x := by simp only [at', h]
theorem at_none {l : List Nat} {i : Nat} (h : l[i]? = none) : at' l i = .error .thrown := by simp only [at', h]

/-- selection of the corridor to drive along -/
theorem driven_leads (v : View K C) (c : C) (p : Prim K) (hg : p.kind = .gap → v.lane.isSome = true) :
    ∃ c', driven v p (select v ⟨c, (v.sides c).1, (v.sides c).2⟩ p) = some c' ∧ Leads v c p c' ∧
      (p.kind ≠ .gap → select v ⟨c, (v.sides c).1, (v.sides c).2⟩ p = some c') := by
  unfold driven select Leads
  cases hk : p.kind with
  | stay => exact ⟨c, rfl, rfl, fun _ => rfl⟩
  | left =>
    cases hs : (v.sides c).1 with
    | none => exact ⟨c, rfl, Or.inr ⟨rfl, rfl⟩, fun _ => rfl⟩
    | some l => exact ⟨l, rfl, Or.inl rfl, fun _ => rfl⟩
  | right =>
    cases hs : (v.sides c).2 with
    | none => exact ⟨c, rfl, Or.inr ⟨rfl, rfl⟩, fun _ => rfl⟩
    | some l => exact ⟨l, rfl, Or.inl rfl, fun _ => rfl⟩
  | gap =>
    obtain ⟨l, hl⟩ := Option.isSome_iff_exists.1 (hg hk)
    exact ⟨l, hl, hl, fun h => absurd rfl h⟩

/-- one planning step, given what `choose` returns -/
theorem plan_step (gen : Prim K → View K C → C → T × A) {v : View K C} {h : Heap K A T} {b : Beh C A T} {c : C} {vs : List Nat}
    {j r r2 : Nat} {o o2 : Obj K A T} (hd : Heading v b c) (hch : choose h v ⟨c, (v.sides c).1, (v.sides c).2⟩ b = .ok (vs, j))
    (hr : b.prims[j]? = some r) (ho : h r = some o) (hr2 : b.prims[b.active]? = some r2) (ho2 : h r2 = some o2)
    (hg : o.prim.kind = .gap → v.lane.isSome = true) :
    ∃ h' b' c', plan gen v h b = .ok (h', b', (gen o.prim v c').1) ∧ Leads v c o.prim c' ∧
      (r2 = r → b'.lastAction = (gen o.prim v c').2) ∧ (r2 ≠ r → b'.lastAction = o2.lastAction) ∧
      b'.lastTraj = (gen o.prim v c').1 ∧ (o.prim.kind ≠ .gap → b'.target = some c') ∧
      (o.prim.kind = .gap → b'.target = v.here) ∧ b'.valid = vs ∧ b'.prims = b.prims ∧ b'.check = b.check ∧
      h' = (fun q => if q = r then some ⟨o.prim, (gen o.prim v c').2, (gen o.prim v c').1⟩ else h q) := by
  obtain ⟨c', e1, e2, e3⟩ := driven_leads v c o.prim hg
  have hp : planPrim gen v (select v ⟨c, (v.sides c).1, (v.sides c).2⟩ o.prim) o =
      (⟨o.prim, (gen o.prim v c').2, (gen o.prim v c').1⟩, (gen o.prim v c').1) := by
    unfold planPrim; rw [e1]
  have hl2 : load (fun q => if q = r then some ⟨o.prim, (gen o.prim v c').2, (gen o.prim v c').1⟩ else h q) r2 =
      .ok (if r2 = r then ⟨o.prim, (gen o.prim v c').2, (gen o.prim v c').1⟩ else o2) := by
    by_cases e : r2 = r
    · exact load_ok (by simp only [e, if_true])
    · exact load_ok (by simp only [e, if_false, ho2])
  have hg' : o.prim.kind = .gap → select v ⟨c, (v.sides c).1, (v.sides c).2⟩ o.prim = v.here := by
    intro hk; simp only [select, hk]
  refine ⟨_, ⟨b.prims, vs, b.check, select v ⟨c, (v.sides c).1, (v.sides c).2⟩ o.prim, b.active,
    (if r2 = r then (⟨o.prim, (gen o.prim v c').2, (gen o.prim v c').1⟩ : Obj K A T) else o2).lastAction, (gen o.prim v c').1⟩, c', ?_, e2, ?_, ?_,
    rfl, e3, hg', rfl, rfl, rfl, rfl⟩
  · unfold plan
    rw [corridors_ok hd]
    simp only [Res.ok_bind, hch, at_ok hr, load_ok ho, hp, at_ok hr2, hl2]
  · intro e; simp only [e, if_true]
  · intro e; simp only [e, if_false]

/-- **C50**, without validity checking: the selected primitive is executed, from the corridor the ego heads for, its action is
reported, no other primitive is touched. -/
theorem C50_unchecked (gen : Prim K → View K C → C → T × A) {v : View K C} {h : Heap K A T} {b : Beh C A T} {c : C} {r : Nat}
    {o : Obj K A T} (hc : b.check = false) (hd : Heading v b c) (hr : b.prims[b.active]? = some r) (ho : h r = some o)
    (hg : o.prim.kind = .gap → v.lane.isSome = true) :
    ∃ h' b' c', plan gen v h b = .ok (h', b', (gen o.prim v c').1) ∧ Leads v c o.prim c' ∧
      b'.lastAction = (gen o.prim v c').2 ∧ b'.lastTraj = (gen o.prim v c').1 ∧
      (o.prim.kind ≠ .gap → b'.target = some c') ∧ (o.prim.kind = .gap → b'.target = v.here) ∧
      b'.prims = b.prims ∧ ∀ q, q ≠ r → h' q = h q := by
  have hch : choose h v ⟨c, (v.sides c).1, (v.sides c).2⟩ b = .ok (b.valid, b.active) := by
    unfold choose; rw [hc]; rfl
  obtain ⟨h', b', c', e, a1, a2, _, a4, a5, a6, _, a8, _, a10⟩ := plan_step gen hd hch hr ho hr ho hg
  refine ⟨h', b', c', e, a1, a2 rfl, a4, a5, a6, a8, fun q hq => ?_⟩
  rw [a10]; simp only [hq, if_false]

/-- **C50**: an action that is no index of a primitive is rejected with an exception -/
theorem C50_unknown_action (gen : Prim K → View K C → C → T × A) {v : View K C} {h : Heap K A T} {b : Beh C A T} {c : C}
    (hc : b.check = false) (hd : Heading v b c) (hr : b.prims.length ≤ b.active) : plan gen v h b = .error .thrown := by
  have hch : choose h v ⟨c, (v.sides c).1, (v.sides c).2⟩ b = .ok (b.valid, b.active) := by
    unfold choose; rw [hc]; rfl
  unfold plan
  rw [corridors_ok hd]
  simp only [Res.ok_bind, hch, at_none (List.getElem?_eq_none hr)]
  rfl

theorem precond_ok {v : View K C} (hs : v.singleTrack = true) (c : C) (p : Prim K) :
    ∃ ok, precond v ⟨c, (v.sides c).1, (v.sides c).2⟩ p = .ok ok ∧ (ok = true ↔ Enabled v c p) := by
  unfold precond Enabled
  cases hk : p.kind with
  | stay =>
    simp only [hs, if_true]
    refine ⟨_, rfl, ?_⟩
    rw [Bool.and_eq_true, decide_eq_true_eq, decide_eq_true_eq]
  | left =>
    refine ⟨_, rfl, ?_⟩
    cases (v.sides c).1 with
    | none => simp [longEnough]
    | some l => simp [longEnough]
  | right =>
    refine ⟨_, rfl, ?_⟩
    cases (v.sides c).2 with
    | none => simp [longEnough]
    | some l => simp [longEnough]
  | gap => exact ⟨true, rfl, by simp⟩

theorem validFrom_ok {v : View K C} {h : Heap K A T} (hs : v.singleTrack = true) (c : C) : ∀ (rs : List Nat) (i : Nat),
    (∀ r ∈ rs, (h r).isSome = true) → ∃ vs, validFrom h v ⟨c, (v.sides c).1, (v.sides c).2⟩ i rs = .ok vs ∧
      vs.Pairwise (· < ·) ∧ ∀ k, k ∈ vs ↔ ∃ m r o, k = i + m ∧ rs[m]? = some r ∧ h r = some o ∧ Enabled v c o.prim
  | [], i, _ => ⟨[], rfl, List.Pairwise.nil, by simp⟩
  | r :: rs, i, hg => by
    obtain ⟨o, ho⟩ := Option.isSome_iff_exists.1 (hg r (List.mem_cons_self))
    obtain ⟨ok, e1, e2⟩ := precond_ok hs c o.prim
    obtain ⟨vs, e3, e4, e5⟩ := validFrom_ok hs c rs (i + 1) (fun q hq => hg q (List.mem_cons_of_mem _ hq))
    have hrec : validFrom h v ⟨c, (v.sides c).1, (v.sides c).2⟩ i (r :: rs) = .ok (if ok = true then i :: vs else vs) := by
      show (load h r >>= fun o => precond v ⟨c, (v.sides c).1, (v.sides c).2⟩ o.prim >>= fun ok =>
        validFrom h v ⟨c, (v.sides c).1, (v.sides c).2⟩ (i + 1) rs >>= fun rest => .ok (if ok = true then i :: rest else rest)) = _
      simp only [load_ok ho, Res.ok_bind, e1, e3]
    refine ⟨_, hrec, ?_, fun k => ?_⟩
    · by_cases hk : ok = true
      · rw [if_pos hk]
        refine List.pairwise_cons.2 ⟨fun k hk' => ?_, e4⟩
        obtain ⟨m, _, _, h1, _⟩ := (e5 k).1 hk'
        omega
      · rw [if_neg hk]; exact e4
    · constructor
      · intro hm
        have : (k = i ∧ ok = true) ∨ k ∈ vs := by
          by_cases hk : ok = true
          · rw [if_pos hk] at hm
            rcases List.mem_cons.1 hm with h1 | h1
            · exact Or.inl ⟨h1, hk⟩
            · exact Or.inr h1
          · rw [if_neg hk] at hm; exact Or.inr hm
        rcases this with ⟨h1, h2⟩ | h1
        · exact ⟨0, r, o, by omega, rfl, ho, e2.1 h2⟩
        · obtain ⟨m, r', o', h1, h2, h3, h4⟩ := (e5 k).1 h1
          exact ⟨m + 1, r', o', by omega, h2, h3, h4⟩
      · rintro ⟨m, r', o', h1, h2, h3, h4⟩
        cases m with
        | zero =>
          obtain rfl : r = r' := by simpa using h2
          obtain rfl : o = o' := Option.some.inj (ho.symm.trans h3)
          rw [if_pos (e2.2 h4)]
          exact List.mem_cons.2 (Or.inl (by omega))
        | succ m =>
          have hm : k ∈ vs := (e5 k).2 ⟨m, r', o', by omega, h2, h3, h4⟩
          by_cases hk : ok = true
          · rw [if_pos hk]; exact List.mem_cons_of_mem _ hm
          · rw [if_neg hk]; exact hm

theorem enabledList_ok {v : View K C} {h : Heap K A T} {b : Beh C A T} (hs : v.singleTrack = true) (c : C) (hgood : Good h b) :
    ∃ vs, validFrom h v ⟨c, (v.sides c).1, (v.sides c).2⟩ 0 b.prims = .ok vs ∧ EnabledList h v c b vs := by
  obtain ⟨vs, e1, e2, e3⟩ := validFrom_ok (h := h) hs c b.prims 0 hgood
  refine ⟨vs, e1, e2, fun i => (e3 i).trans ⟨?_, ?_⟩⟩
  · rintro ⟨m, r, o, h1, h2⟩
    obtain rfl : i = m := by omega
    exact ⟨r, o, h2⟩
  · rintro ⟨r, o, h2⟩
    exact ⟨i, r, o, by omega, h2⟩

/-- entries of a strictly increasing list of naturals are at least their positions -/
theorem le_of_increasing {vs : List Nat} (h : vs.Pairwise (· < ·)) : ∀ k (hk : k < vs.length), k ≤ vs[k]
  | 0, _ => Nat.zero_le _
  | k + 1, hk => by
    have h1 := le_of_increasing h k (by omega)
    have h2 := List.pairwise_iff_getElem.1 h k (k + 1) (by omega) hk (by omega)
    omega

/-- the positions listed are positions of primitives; there are at most as many -/
theorem enabled_bounds {v : View K C} {h : Heap K A T} {b : Beh C A T} {c : C} {vs : List Nat} (he : EnabledList h v c b vs) :
    ∀ k (hk : k < vs.length), k ≤ vs[k] ∧ vs[k] < b.prims.length := by
  intro k hk
  refine ⟨le_of_increasing he.1 k hk, ?_⟩
  obtain ⟨r, _, hr, _⟩ := (he.2 vs[k]).1 (List.getElem_mem hk)
  exact (List.getElem?_eq_some_iff.1 hr).1

/-- **C50** (partial), with validity checking, first planning call: the action selects among the enabled primitives, in their order;
actions beyond are rejected. (Missing: the report of the executed action, see `C50_reported_violated`, and later calls, see
`C50_stale_violated`.) -/
theorem C50_first_call (gen : Prim K → View K C → C → T × A) {v : View K C} {h : Heap K A T} {b : Beh C A T} {c : C}
    (hc : b.check = true) (hv : b.valid = []) (hd : Heading v b c) (hgood : Good h b) (hs : v.singleTrack = true)
    (hl : v.lane.isSome = true) :
    ∃ vs, EnabledList h v c b vs ∧
      (∀ j, vs[b.active]? = some j → ∃ r o h' b' c', b.prims[j]? = some r ∧ h r = some o ∧ Enabled v c o.prim ∧
        plan gen v h b = .ok (h', b', (gen o.prim v c').1) ∧ Leads v c o.prim c' ∧ b'.lastTraj = (gen o.prim v c').1 ∧
        b'.valid = vs ∧ (j = b.active → b'.lastAction = (gen o.prim v c').2)) ∧
      (vs.length ≤ b.active → plan gen v h b = .error .thrown) := by
  obtain ⟨vs, e1, e2⟩ := enabledList_ok (b := b) hs c hgood
  have href : refresh h v ⟨c, (v.sides c).1, (v.sides c).2⟩ b = .ok vs := by
    unfold refresh; rw [hv]; exact e1
  refine ⟨vs, e2, fun j hj => ?_, fun hle => ?_⟩
  · obtain ⟨hk, hkj⟩ := List.getElem?_eq_some_iff.1 hj
    obtain ⟨r, o, hr, ho, hen⟩ := (e2.2 j).1 (List.mem_of_getElem? hj)
    have hb := enabled_bounds e2 b.active hk
    have hlt : b.active < b.prims.length := lt_of_le_of_lt hb.1 hb.2
    obtain ⟨o2, ho2⟩ := Option.isSome_iff_exists.1 (hgood _ (List.getElem_mem hlt))
    have hch : choose h v ⟨c, (v.sides c).1, (v.sides c).2⟩ b = .ok (vs, j) := by
      unfold choose; rw [if_pos hc, href]
      simp only [Res.ok_bind, at_ok hj]
    obtain ⟨h', b', c', a0, a1, a2, _, a4, _, _, a7, _, _, _⟩ :=
      plan_step gen hd hch hr ho (List.getElem?_eq_getElem hlt) ho2 (fun _ => hl)
    refine ⟨r, o, h', b', c', hr, ho, hen, a0, a1, a4, a7, fun hja => a2 ?_⟩
    rw [hja] at hr
    exact Option.some.inj ((List.getElem?_eq_getElem hlt).symm.trans hr)
  · have hch : choose h v ⟨c, (v.sides c).1, (v.sides c).2⟩ b = .error .thrown := by
      unfold choose; rw [if_pos hc, href]
      simp only [Res.ok_bind, at_none (List.getElem?_eq_none hle)]
      rfl
    unfold plan
    rw [corridors_ok hd]
    simp only [Res.ok_bind, hch]
    rfl

/-- **C50 violated**: whenever the primitive executed is not the one at the position given by the action (an earlier primitive is not
enabled), the action reported is what some other primitive did last, whatever was executed now. -/
theorem C50_reported_violated (gen : Prim K → View K C → C → T × A) {v : View K C} {h : Heap K A T} {b : Beh C A T} {c : C}
    {vs : List Nat} {j r2 : Nat} {o2 : Obj K A T}
    (hc : b.check = true) (hv : b.valid = []) (hd : Heading v b c) (hgood : Good h b) (hs : v.singleTrack = true)
    (hl : v.lane.isSome = true) (he : EnabledList h v c b vs) (hj : vs[b.active]? = some j) (hne : j ≠ b.active)
    (hnd : b.prims.Nodup) (hr2 : b.prims[b.active]? = some r2) (ho2 : h r2 = some o2) :
    ∃ h' b' t, plan gen v h b = .ok (h', b', t) ∧ b'.lastAction = o2.lastAction := by
  obtain ⟨ws, e1, e2⟩ := enabledList_ok (b := b) hs c hgood
  have hws : ws = vs := by
    refine List.Perm.eq_of_pairwise (le := fun x y : Nat => x < y) (fun a b _ _ h1 h2 => by omega) e2.1 he.1 ?_
    exact (List.perm_ext_iff_of_nodup (e2.1.imp (fun h => by omega)) (he.1.imp (fun h => by omega))).2
      (fun i => (e2.2 i).trans (he.2 i).symm)
  subst hws
  have href : refresh h v ⟨c, (v.sides c).1, (v.sides c).2⟩ b = .ok ws := by
    unfold refresh; rw [hv]; exact e1
  obtain ⟨r, o, hr, ho, _⟩ := (e2.2 j).1 (List.mem_of_getElem? hj)
  have hch : choose h v ⟨c, (v.sides c).1, (v.sides c).2⟩ b = .ok (ws, j) := by
    unfold choose; rw [if_pos hc, href]
    simp only [Res.ok_bind, at_ok hj]
  obtain ⟨h', b', c', a0, _, _, a3, _⟩ := plan_step gen hd hch hr ho hr2 ho2 (fun _ => hl)
  refine ⟨h', b', _, a0, a3 (fun e => ?_)⟩
  subst e
  obtain ⟨l1, g1⟩ := List.getElem?_eq_some_iff.1 hr
  obtain ⟨l2, g2⟩ := List.getElem?_eq_some_iff.1 hr2
  exact hne ((List.Nodup.getElem_inj_iff hnd (hi := l1) (hj := l2)).1 (g1.trans g2.symm))

/-- **C50 violated**: `GetNumMotionPrimitives` does not say which actions are possible: if some primitive is not enabled, an action below
that number throws; a random choice among them (`draw`) does too. -/
theorem C50_number_violated (gen : Prim K → View K C → C → T × A) {v : View K C} {h : Heap K A T} {b : Beh C A T} {c : C}
    (hc : b.check = true) (hv : b.valid = []) (hd : Heading v b c) (hgood : Good h b) (hs : v.singleTrack = true)
    (hl : v.lane.isSome = true) {k rk : Nat} {ok : Obj K A T} (hk : b.prims[k]? = some rk) (hok : h rk = some ok)
    (hdis : ¬ Enabled v c ok.prim) :
    ∃ i, i < numPrimitives b ∧ plan gen v h (setAction i b) = .error .thrown ∧
      ∀ draw : Nat → Nat → Nat, draw 0 (b.prims.length - 1) = i → planRandom gen draw v h b = .error .thrown := by
  obtain ⟨vs, e1, _, e3⟩ := C50_first_call gen (b := setAction (b.prims.length - 1) b) (c := c) hc hv hd hgood hs hl
  have hbnd := enabled_bounds e1
  have hlen : vs.length < b.prims.length := by
    have hkl : k < b.prims.length := (List.getElem?_eq_some_iff.1 hk).1
    have hnot : k ∉ vs := fun hm => by
      obtain ⟨r, o, h1, h2, h3⟩ := (e1.2 k).1 hm
      have : r = rk := Option.some.inj (h1.symm.trans hk)
      subst this
      have : o = ok := Option.some.inj (h2.symm.trans hok)
      subst this
      exact hdis h3
    have hnd : (k :: vs).Nodup := List.nodup_cons.2 ⟨hnot, e1.1.imp (fun h => by omega)⟩
    have hsub : (k :: vs) ⊆ List.range b.prims.length := by
      intro x hx
      rcases List.mem_cons.1 hx with h1 | h1
      · subst h1; exact List.mem_range.2 hkl
      · obtain ⟨n, hn, hx⟩ := List.getElem_of_mem h1
        have := (hbnd n hn).2
        rw [hx] at this
        exact List.mem_range.2 this
    have := (List.subperm_of_subset hnd hsub).length_le
    simp only [List.length_cons, List.length_range] at this
    omega
  refine ⟨b.prims.length - 1, by unfold numPrimitives; omega, e3 (show vs.length ≤ b.prims.length - 1 by omega), fun draw hdr => ?_⟩
  unfold planRandom
  rw [if_neg (by omega), hdr]
  exact e3 (show vs.length ≤ b.prims.length - 1 by omega)

/-- planning keeps the list of primitives and, once it is there, the list of valid ones -/
theorem plan_keeps (gen : Prim K → View K C → C → T × A) {v : View K C} {h : Heap K A T} {b : Beh C A T}
    {r : Heap K A T × Beh C A T × T} (hp : plan gen v h b = .ok r) : r.2.1.prims = b.prims ∧ r.2.1.check = b.check ∧
      (b.valid ≠ [] → r.2.1.valid = b.valid) ∧ (b.check = true → r.2.1.valid ≠ []) := by
  unfold plan at hp
  obtain ⟨a, _, hp⟩ := Res.bind_ok hp
  obtain ⟨c, hch, hp⟩ := Res.bind_ok hp
  obtain ⟨r1, _, hp⟩ := Res.bind_ok hp
  obtain ⟨o, _, hp⟩ := Res.bind_ok hp
  obtain ⟨r2, _, hp⟩ := Res.bind_ok hp
  obtain ⟨o2, _, hp⟩ := Res.bind_ok hp
  cases hp
  refine ⟨rfl, rfl, fun hne => ?_, fun hck => ?_⟩
  · show c.1 = b.valid
    unfold choose at hch
    by_cases hck : b.check = true
    · rw [if_pos hck] at hch
      obtain ⟨vs, hvs, hch⟩ := Res.bind_ok hch
      obtain ⟨j, _, hch⟩ := Res.bind_ok hch
      cases hch
      unfold refresh at hvs
      have : ¬ (b.valid.isEmpty = true) := by simpa using hne
      rw [if_neg this] at hvs
      exact (Except.ok.inj hvs).symm
    · rw [if_neg hck] at hch
      cases hch; rfl
  · show c.1 ≠ []
    unfold choose at hch
    rw [if_pos hck] at hch
    obtain ⟨vs, hvs, hch⟩ := Res.bind_ok hch
    obtain ⟨j, hj, hch⟩ := Res.bind_ok hch
    cases hch
    intro e
    subst e
    cases hj

theorem run_keeps (gen : Prim K → View K C → C → T × A) : ∀ (xs : List (Nat × View K C)) {s s' : Heap K A T × Beh C A T},
    s.2.valid ≠ [] → run gen xs s = .ok s' → s'.2.valid = s.2.valid ∧ s'.2.prims = s.2.prims ∧ s'.2.check = s.2.check
  | [], s, s', _, hr => by cases hr; exact ⟨rfl, rfl, rfl⟩
  | (i, v) :: xs, s, s', hne, hr => by
    unfold run at hr
    obtain ⟨r, hp, hr⟩ := Res.bind_ok hr
    have hk := plan_keeps gen hp
    have h3 : r.2.1.valid = s.2.valid := hk.2.2.1 hne
    have := run_keeps gen xs (s := (r.1, r.2.1)) (by show r.2.1.valid ≠ []; rw [h3]; exact hne) hr
    exact ⟨this.1.trans h3, this.2.1.trans hk.1, this.2.2.trans hk.2.1⟩

/-- **C50**: with validity checking, `GetValidPrimitives` and all later selections keep using the primitives that were enabled in the
first world planned in, whatever the worlds are later. -/
theorem C50_frozen (gen : Prim K → View K C → C → T × A) {v : View K C} {h : Heap K A T} {b : Beh C A T} {c : C} {i : Nat}
    (hc : b.check = true) (hv : b.valid = []) (hd : Heading v b c) (hgood : Good h b) (hs : v.singleTrack = true)
    (hl : v.lane.isSome = true) (xs : List (Nat × View K C)) {s' : Heap K A T × Beh C A T}
    (hr : run gen ((i, v) :: xs) (h, b) = .ok s') : EnabledList h v c b (validPrimitives s'.2) := by
  unfold run at hr
  obtain ⟨r, hp, hr⟩ := Res.bind_ok hr
  obtain ⟨vs, e1, e2, e3⟩ := C50_first_call gen (b := setAction i b) (c := c) hc hv hd hgood hs hl
  have hne := (plan_keeps gen hp).2.2.2 hc
  have hk := run_keeps gen xs (s := (r.1, r.2.1)) hne hr
  have : r.2.1.valid = vs := by
    cases hj : vs[i]? with
    | none =>
      have := e3 (List.getElem?_eq_none_iff.1 hj)
      rw [this] at hp; cases hp
    | some j =>
      obtain ⟨_, _, h', b', _, _, _, _, e, _, _, hv', _⟩ := e2 j hj
      rw [e] at hp
      cases hp
      exact hv'
  unfold validPrimitives
  rw [hk.1]
  show EnabledList h v c b r.2.1.valid
  rw [this]
  exact e1

/-! ### C94: clones -/

/-- two heaps hold the same primitives up to their memory of what they did last -/
def SameParams (h h' : Heap K A T) : Prop := ∀ q, (h q).map Obj.prim = (h' q).map Obj.prim

theorem plan_sameParams (gen : Prim K → View K C → C → T × A) {v : View K C} {h : Heap K A T} {b : Beh C A T}
    {r : Heap K A T × Beh C A T × T} (hp : plan gen v h b = .ok r) : SameParams h r.1 := by
  unfold plan at hp
  obtain ⟨a, _, hp⟩ := Res.bind_ok hp
  obtain ⟨c, _, hp⟩ := Res.bind_ok hp
  obtain ⟨r1, _, hp⟩ := Res.bind_ok hp
  obtain ⟨o, ho, hp⟩ := Res.bind_ok hp
  obtain ⟨r2, _, hp⟩ := Res.bind_ok hp
  obtain ⟨o2, _, hp⟩ := Res.bind_ok hp
  cases hp
  intro q
  show (h q).map Obj.prim = (if q = r1 then some _ else h q).map Obj.prim
  by_cases e : q = r1
  · subst e
    rw [if_pos rfl]
    unfold load at ho
    cases hq : h q with
    | none => rw [hq] at ho; cases ho
    | some x =>
      rw [hq] at ho
      cases ho
      unfold planPrim
      cases driven v o.prim (select v a o.prim) <;> rfl
  · rw [if_neg e]

theorem run_sameParams (gen : Prim K → View K C → C → T × A) : ∀ (xs : List (Nat × View K C)) {s s' : Heap K A T × Beh C A T},
    run gen xs s = .ok s' → SameParams s.1 s'.1
  | [], s, s', hr => by cases hr; intro q; rfl
  | (i, v) :: xs, s, s', hr => by
    unfold run at hr
    obtain ⟨r, hp, hr⟩ := Res.bind_ok hr
    have h1 := plan_sameParams gen hp
    have h2 := run_sameParams gen xs hr
    exact fun q => (h1 q).trans (h2 q)

/-- **C94** (partial): without validity checking, whatever is done with a clone, the original plans the same and reports the same. -/
theorem C94_unchecked_independent (gen : Prim K → View K C → C → T × A) {h : Heap K A T} {b : Beh C A T}
    (hc : b.check = false) (xs : List (Nat × View K C)) {s : Heap K A T × Beh C A T} (hr : run gen xs (h, clone b) = .ok s)
    {v : View K C} (hl : v.lane.isSome = true) (i : Nat) :
    (plan gen v h (setAction i b)).map Prod.snd = (plan gen v s.1 (setAction i b)).map Prod.snd := by
  have hsame := run_sameParams gen xs hr
  have hpar : ∀ q, (h q).map Obj.prim = (s.1 q).map Obj.prim := hsame
  obtain ⟨c, hd⟩ : ∃ c, Heading v (setAction i b) c := by
    cases ht : b.target with
    | none => obtain ⟨l, hl⟩ := Option.isSome_iff_exists.1 hl; exact ⟨l, Or.inr ⟨ht, hl⟩⟩
    | some c => exact ⟨c, Or.inl ht⟩
  have hch : ∀ h : Heap K A T, choose h v ⟨c, (v.sides c).1, (v.sides c).2⟩ (setAction i b) = .ok (b.valid, i) := by
    intro h; unfold choose; rw [if_neg (by show ¬ b.check = true; rw [hc]; simp)]; rfl
  cases hi : b.prims[i]? with
  | none =>
    have e := fun h : Heap K A T => C50_unknown_action gen (h := h) (b := setAction i b) hc hd (List.getElem?_eq_none_iff.1 hi)
    rw [e, e]
  | some r =>
    cases ho : h r with
    | none =>
      have ho' : s.1 r = none := by
        have := hpar r; rw [ho] at this
        cases hq : s.1 r with
        | none => rfl
        | some x => rw [hq] at this; cases this
      have e : ∀ h : Heap K A T, h r = none → plan gen v h (setAction i b) = .error .ub := by
        intro h ho
        unfold plan
        rw [corridors_ok hd]
        have : load h r = .error .ub := by simp only [load, ho]
        have hat : at' (setAction i b).prims i = .ok r := at_ok hi
        simp only [Res.ok_bind, hch, hat, this]
        rfl
      rw [e h ho, e s.1 ho']
    | some o =>
      obtain ⟨o', ho', hp⟩ : ∃ o', s.1 r = some o' ∧ o'.prim = o.prim := by
        have := hpar r; rw [ho] at this
        cases hq : s.1 r with
        | none => rw [hq] at this; cases this
        | some x => rw [hq] at this; exact ⟨x, rfl, (Option.some.inj this).symm⟩
      have hi' : (setAction i b).prims[(setAction i b).active]? = some r := hi
      have key : ∀ (h : Heap K A T) (o : Obj K A T), h r = some o → ∃ c', Leads v c o.prim c' ∧
          (plan gen v h (setAction i b)).map Prod.snd = .ok (⟨b.prims, b.valid, b.check,
            select v ⟨c, (v.sides c).1, (v.sides c).2⟩ o.prim, i, (gen o.prim v c').2, (gen o.prim v c').1⟩, (gen o.prim v c').1) ∧
          driven v o.prim (select v ⟨c, (v.sides c).1, (v.sides c).2⟩ o.prim) = some c' := by
        intro h o ho
        obtain ⟨c', e1, e2, e3⟩ := driven_leads v c o.prim (fun _ => hl)
        refine ⟨c', e2, ?_, e1⟩
        have hpp : planPrim gen v (select v ⟨c, (v.sides c).1, (v.sides c).2⟩ o.prim) o =
            (⟨o.prim, (gen o.prim v c').2, (gen o.prim v c').1⟩, (gen o.prim v c').1) := by
          unfold planPrim; rw [e1]
        unfold plan
        rw [corridors_ok hd]
        simp only [Res.ok_bind, hch]
        have hat : at' (setAction i b).prims (setAction i b).active = .ok r := at_ok hi
        have hat2 : at' (setAction i b).prims i = .ok r := at_ok hi
        rw [hat2]
        simp only [load_ok ho, Res.ok_bind, hat, hpp]
        simp only [load, if_true]
        rfl
      obtain ⟨c1, _, e1, d1⟩ := key h o ho
      obtain ⟨c2, _, e2, d2⟩ := key s.1 o' ho'
      rw [hp] at e2 d2
      obtain rfl : c1 = c2 := Option.some.inj (d1.symm.trans d2)
      rw [e1, e2]

/-! ### witnesses -/

/-- a trajectory is represented by the acceleration and the corridor, the action is the acceleration -/
def wGen : Prim ℚ → View ℚ Nat → Nat → (ℚ × Nat) × ℚ := fun p _ c => ((p.acc, c), p.acc)

/-- three primitives: accelerate with 5, keep the velocity, change to the left lane -/
def wHeap : Heap ℚ ℚ (ℚ × Nat)
  | 0 => some ⟨⟨.stay, 5, 0, false⟩, 77, (0, 0)⟩
  | 1 => some ⟨⟨.stay, 0, 0, false⟩, 88, (0, 0)⟩
  | 2 => some ⟨⟨.left, 1, 10, false⟩, 99, (0, 0)⟩
  | _ => none

def wBeh (check : Bool) : Beh Nat ℚ (ℚ × Nat) := ⟨[0, 1, 2], [], check, none, 0, 0, (0, 0)⟩

/-- lanes are numbered from the right; the left neighbour exists up to lane 3; accelerations up to `amax` -/
def wView (amax : ℚ) : View ℚ Nat :=
  ⟨some 1, some 1, fun c => (if c < 3 then some (c + 1) else none, if 0 < c then some (c - 1) else none), fun _ => 20, -8, amax, true⟩

/-- the hypotheses of `C50_unchecked` and `C50_first_call` are met -/
example : Heading (wView 3) (wBeh true) 1 ∧ Good wHeap (wBeh true) ∧ (wView 3).singleTrack = true ∧ (wView 3).lane.isSome = true ∧
    EnabledList wHeap (wView 3) 1 (wBeh true) [1, 2] := by
  refine ⟨Or.inr ⟨rfl, rfl⟩, ?_, rfl, rfl, by simp, fun i => ?_⟩
  · intro r hr
    simp only [wBeh, List.mem_cons, List.not_mem_nil, or_false] at hr
    rcases hr with rfl | rfl | rfl <;> rfl
  · constructor
    · intro hi
      simp only [List.mem_cons, List.not_mem_nil, or_false] at hi
      rcases hi with rfl | rfl
      · exact ⟨1, _, rfl, rfl, by simp [Enabled, wView]⟩
      · exact ⟨2, _, rfl, rfl, by simp [Enabled, wView]; norm_num⟩
    · rintro ⟨r, o, h1, h2, h3⟩
      rcases i with _ | _ | _ | i
      · simp only [wBeh, List.getElem?_cons_zero, Option.some.injEq] at h1
        subst h1
        cases h2
        simp [Enabled, wView] at h3
        norm_num at h3
      · simp
      · simp
      · simp [wBeh] at h1

/-- **C50 violated**: with validity checking, action 0 executes the second primitive (acceleration 0) and reports the memory of the
first, which is not possible here. -/
example : (plan wGen (wView 3) wHeap (wBeh true)).map (fun r => (r.2.1.lastAction, r.2.2)) = .ok (77, (0, 1)) := by decide +kernel

/-- **C50 violated**: the set of valid primitives is not updated: after planning once where accelerating with 5 is possible, it is still
executed where at most 3 is possible. -/
theorem C50_stale_violated : ∃ (gen : Prim ℚ → View ℚ Nat → Nat → (ℚ × Nat) × ℚ) (h : Heap ℚ ℚ (ℚ × Nat)) (b : Beh Nat ℚ (ℚ × Nat))
    (v1 v2 : View ℚ Nat) (p : Prim ℚ), b.check = true ∧ b.valid = [] ∧ ¬ Enabled v2 1 p ∧
    ((run gen [(0, v1)] (h, b)).bind fun s => (plan gen v2 s.1 s.2).map fun r => (r.2.1.target, r.2.2)) = .ok (some 1, (gen p v2 1).1) := by
  refine ⟨wGen, wHeap, wBeh true, wView 6, wView 3, ⟨.stay, 5, 0, false⟩, rfl, rfl, ?_, by decide +kernel⟩
  simp [Enabled, wView]; norm_num

/-- **C94 violated**: with validity checking the clone's planning changes the action the original reports for the same plan -/
theorem C94_clone_violated : ∃ (gen : Prim ℚ → View ℚ Nat → Nat → (ℚ × Nat) × ℚ) (h : Heap ℚ ℚ (ℚ × Nat)) (b : Beh Nat ℚ (ℚ × Nat))
    (v v' : View ℚ Nat),
    (plan gen v h b).map (fun r => (r.2.1.lastAction, r.2.2)) = .ok (77, (0, 1)) ∧
    ((run gen [(0, v')] (h, clone b)).bind fun s => (plan gen v s.1 b).map fun r => (r.2.1.lastAction, r.2.2)) = .ok (5, (0, 1)) :=
  ⟨wGen, wHeap, wBeh true, wView 3, wView 6, by decide +kernel, by decide +kernel⟩

/-! ### C95: equality -/

/-- **C95 violated**: two behaviours that compare equal, of which one can change lane and the other rejects the same action: the
required length of the target lane is not compared. -/
theorem C95_equal_violated : ∃ (p q : Prim ℚ) (v : View ℚ Nat), behEq true true [p] [q] = true ∧
    (plan wGen v (fun r => if r = 0 then some ⟨p, 0, (0, 0)⟩ else none) ⟨[0], [], true, none, 0, 0, (0, 0)⟩).map (fun r => r.2.2) =
      .ok (1, 2) ∧
    (plan wGen v (fun r => if r = 0 then some ⟨q, 0, (0, 0)⟩ else none) ⟨[0], [], true, none, 0, 0, (0, 0)⟩).map (fun r => r.2.2) =
      .error .thrown :=
  ⟨⟨.left, 1, 10, false⟩, ⟨.left, 1, 30, false⟩, wView 3, by decide +kernel, by decide +kernel, by decide +kernel⟩

theorem primsEq_iff : ∀ (ps qs : List (Prim K)), primsEq ps qs = true ↔
    List.Forall₂ (fun p q => p.kind = q.kind ∧ (p.kind ≠ .gap → p.acc = q.acc)) ps qs
  | [], [] => by simp [primsEq]
  | [], q :: qs => by simp [primsEq]
  | p :: ps, [] => by simp [primsEq]
  | p :: ps, q :: qs => by
    rw [primsEq, Bool.and_eq_true, primsEq_iff ps qs, List.forall₂_cons]
    refine and_congr_left fun _ => ?_
    unfold primEq
    rw [Bool.and_eq_true, Bool.or_eq_true]
    simp only [decide_eq_true_eq]
    refine and_congr_right fun _ => ?_
    by_cases h : p.kind = .gap <;> simp [h]

/-- **C95** (partial): macro-action behaviours compare equal exactly if they agree in validity checking and, position by position, in
the class and (where it matters) the acceleration of their primitives. (Missing: the remaining parameters of the primitives.) -/
theorem C95_equal_partial (c c' : Bool) (ps qs : List (Prim K)) : behEq c c' ps qs = true ↔
    c = c' ∧ List.Forall₂ (fun p q => p.kind = q.kind ∧ (p.kind ≠ .gap → p.acc = q.acc)) ps qs := by
  unfold behEq
  rw [Bool.and_eq_true, Bool.and_eq_true, primsEq_iff, decide_eq_true_eq, decide_eq_true_eq]
  exact ⟨fun h => ⟨h.1, h.2.2⟩, fun h => ⟨h.1, h.2.length_eq, h.2⟩⟩

/-! ### C96: repeated lane changes -/

/-- `n` times to the left from `c`, staying where there is no further lane -/
inductive Lefts (v : View K C) : Nat → C → C → Prop
  | zero (c) : Lefts v 0 c c
  | move {n c d e} (h : (v.sides c).1 = some d) (r : Lefts v n d e) : Lefts v (n + 1) c e
  | stay {n c e} (h : (v.sides c).1 = none) (r : Lefts v n c e) : Lefts v (n + 1) c e

/-- **C96**: `n` lane change commands to the left, given while the ego has not moved, aim `n` lanes to the left of the lane the
behaviour headed for. -/
theorem C96_repeated_left (gen : Prim K → View K C → C → T × A) {v : View K C} {i r : Nat} {a ml : K} {rs : Bool} :
    ∀ (n : Nat) {h : Heap K A T} {b : Beh C A T} {c : C} {oa : A} {ot : T}, b.check = false → b.target = some c → b.prims[i]? = some r →
      h r = some ⟨⟨.left, a, ml, rs⟩, oa, ot⟩ →
      ∃ h' b' e, run gen (List.replicate n (i, v)) (h, b) = .ok (h', b') ∧ b'.target = some e ∧ Lefts v n c e
  | 0, h, b, c, _, _, _, ht, _, _ => ⟨h, b, c, rfl, ht, .zero c⟩
  | n + 1, h, b, c, oa, ot, hc, ht, hr, ho => by
    have hch : choose h v ⟨c, (v.sides c).1, (v.sides c).2⟩ (setAction i b) = .ok (b.valid, i) := by
      unfold choose; rw [if_neg (by show ¬ b.check = true; rw [hc]; simp)]; rfl
    obtain ⟨h1, b1, c1, e, hlead, _, _, _, htgt, _, _, hpr, hck, hh⟩ :=
      plan_step gen (b := setAction i b) (Or.inl ht) hch hr ho hr ho (by intro h; cases h)
    have ht1 : b1.target = some c1 := htgt (by intro h; cases h)
    obtain ⟨h2, b2, e2, r2, t2, l2⟩ := C96_repeated_left gen (a := a) (ml := ml) (rs := rs) n (h := h1) (b := b1) (c := c1) (hck.trans hc) ht1
      (by rw [hpr]; exact hr) (by rw [hh]; simp only [if_true]; rfl)
    refine ⟨h2, b2, e2, ?_, t2, ?_⟩
    · show (plan gen v h (setAction i b) >>= fun r => run gen (List.replicate n (i, v)) (r.1, r.2.1)) = _
      rw [e]
      exact r2
    · rcases hlead with hl | ⟨hl, hcc⟩
      · exact .move hl l2
      · subst hcc; exact .stay hl l2

/-- three commands from lane 1 lead to lane 3, the leftmost -/
example : (run wGen (List.replicate 3 (2, wView 3)) (wHeap, { wBeh false with target := some 1 })).map (fun s => s.2.target) =
    .ok (some 3) := by decide +kernel

end Bark.Mac
