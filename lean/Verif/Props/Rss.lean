import Verif.Spec.Rss
import Verif.Lemmas.World
import Verif.Props.Angle
import Mathlib.Analysis.SpecialFunctions.Trigonometric.Deriv

/-!
C55 and related properties of the RSS-conformant behaviour.
-/
namespace Bark.Rss
open Spec

section
variable {W C M T A L K : Type} [DecidableEq C] [LinearOrder K]

theorem at'_some {α : Type} {l : List α} {i : Nat} {a : α} (h : l[i]? = some a) :
    at' l i = .ok a := by simp [at', h]

theorem at'_ok {α : Type} {l : List α} {i : Nat} {a : α} (h : at' l i = .ok a) :
    l[i]? = some a := by
  unfold at' at h
  cases g : l[i]? with
  | none => rw [g] at h; cases h
  | some b => rw [g] at h; cases h; rfl

theorem set_self {α : Type} {l : List α} {i : Nat} {a : α} (h : l[i]? = some a) : l.set i a = l := by
  apply List.ext_getElem?
  intro n
  rw [List.getElem?_set]
  split
  · next e =>
    subst e
    obtain ⟨hl, hv⟩ := List.getElem?_eq_some_iff.mp h
    simp [hl, hv]
  · rfl

theorem lt_of_some {α : Type} {l : List α} {i : Nat} {a : α} (h : l[i]? = some a) : i < l.length :=
  (List.getElem?_eq_some_iff.mp h).1

/-- **C55** (nominal).  Once planning has begun and while the ego is on a lane: when the situation is
rated safe (or safety manoeuvres are switched off) the behaviour returns, reports as last trajectory
and as last action exactly what the nominal model plans in this world, after the acceleration
limits were handed to it if this is configured; it reports the nominal status iff the situation is
rated safe, and it leaves the model inside the safety behaviour alone. -/
theorem C55_nominal (P : Plug W C M T A L K) (w : W) (s : Sys C M T A L K) (r : Nat)
    (o : Obj C T A L K) (f : Safe C T A) (mn ms : M) (hr : Ready P s r o f mn ms) (c : C)
    (hc : P.laneCorr w = some c) (hx : o.cfg.switchOffX = true → P.roadX w = true) (v : Bool)
    (hv : P.verdict w = some v) (hs : v = true ∨ o.cfg.noSafety = true)
    (lim : L) (hl : lim = if P.isRss then P.convert w o.lastA else o.limits)
    (m' : M) (hm : P.plan (if P.rssBuild = true ∧ o.cfg.accNominal = true then P.setLimits lim mn
      else mn) w = .ok m') :
    ∃ s' o', plan P w s r = .ok (s', P.traj m') ∧ s'.objs[r]? = some o' ∧
      o'.lastT = P.traj m' ∧ o'.lastA = P.act m' ∧ o'.nominalStatus = v ∧ o'.expired = false ∧
      o'.limits = lim ∧ o'.cfg = o.cfg ∧ o'.initial = o.initial ∧
      s'.models[o.nominal]? = some m' ∧ s'.models[f.model]? = some ms := by
  obtain ⟨i, hi⟩ := Option.isSome_iff_exists.mp hr.planned
  obtain ⟨j, hj⟩ := Option.isSome_iff_exists.mp hr.corridor
  have hn := lt_of_some hr.nominal
  have ho := lt_of_some hr.obj
  have hx' : ¬ (o.cfg.switchOffX = true ∧ P.roadX w = false) := by
    rintro ⟨h1, h2⟩; rw [hx h1] at h2; cases h2
  obtain ⟨f', hf⟩ : ∃ f', shortCorridor P w o.cfg f = .ok f' := by
    unfold shortCorridor
    rw [if_neg hx', hj]
    by_cases g : P.lengthUntilEnd w j ≤ o.cfg.minLength
    · exact ⟨{ f with initial := P.laneCorr w }, by simp only [if_pos g]⟩
    · exact ⟨f, by simp only [if_neg g]⟩
  have hres : restrict P o.cfg.accNominal lim mn =
      .ok (if P.rssBuild = true ∧ o.cfg.accNominal = true then P.setLimits lim mn else mn) := by
    unfold restrict
    by_cases g : P.rssBuild = true ∧ o.cfg.accNominal = true
    · rw [if_pos g, if_pos g, if_pos hr.ltn]
    · rw [if_neg g, if_neg g]
  have hfc : firstCall P w o f mn = .ok (o, f, mn) := by simp only [firstCall, hi]
  refine ⟨⟨(s.models.set o.nominal mn).set o.nominal m', s.safes.set o.safety f',
    s.objs.set r ⟨o.cfg, o.nominal, o.safety, o.initial, false, v, lim, P.traj m', P.act m'⟩⟩,
    ⟨o.cfg, o.nominal, o.safety, o.initial, false, v, lim, P.traj m', P.act m'⟩,
    ?_, ?_, ?_⟩
  rotate_left 1
  · rw [List.getElem?_set_self ho]
  · refine ⟨rfl, rfl, rfl, rfl, rfl, rfl, rfl, ?_, ?_⟩
    · rw [List.getElem?_set_self (by simpa using hn)]
    · rw [List.getElem?_set_ne hr.distinct, List.getElem?_set_ne hr.distinct]; exact hr.inner
  · unfold plan
    rw [at'_some hr.obj, Res.ok_bind, at'_some hr.safe, Res.ok_bind, at'_some hr.nominal,
      Res.ok_bind, hfc, Res.ok_bind, hf, Res.ok_bind]
    unfold decide'
    rw [hc, hv]
    simp only [act]
    rw [if_pos hs, at'_some (List.getElem?_set_self hn), Res.ok_bind, ← hl, hres, Res.ok_bind, hm,
      Res.ok_bind]

/-- **C55** (safety).  Under the same conditions, when the situation is rated unsafe and safety
manoeuvres are on, the behaviour returns and reports exactly what the model inside the safety
behaviour plans in this world along the safety corridor (the initial lane corridor, or the current
one when at most the configured length of it is left), with the limits handed over if configured;
the nominal model is not asked and stays as it was. -/
theorem C55_safety (P : Plug W C M T A L K) (w : W) (s : Sys C M T A L K) (r : Nat)
    (o : Obj C T A L K) (f : Safe C T A) (mn ms : M) (hr : Ready P s r o f mn ms) (c : C)
    (hc : P.laneCorr w = some c) (hx : o.cfg.switchOffX = true → P.roadX w = true)
    (hv : P.verdict w = some false) (hs : o.cfg.noSafety = false)
    (lim : L) (hl : lim = if P.isRss then P.convert w o.lastA else o.limits)
    (i : C) (hi : f.initial = some i) (ms' m' : M)
    (hms : ms' = if P.rssBuild = true ∧ o.cfg.accSafety = true then P.setLimits lim ms else ms)
    (hlt : P.laneTracking ms' = true)
    (hm : P.plan (P.setConst (some (if P.lengthUntilEnd w i ≤ o.cfg.minLength then c else i)) ms') w
      = .ok m') :
    ∃ s' o', plan P w s r = .ok (s', P.traj m') ∧ s'.objs[r]? = some o' ∧
      o'.lastT = P.traj m' ∧ o'.lastA = P.act m' ∧ o'.nominalStatus = false ∧
      o'.expired = false ∧ o'.limits = lim ∧ o'.cfg = o.cfg ∧ o'.initial = o.initial ∧
      s'.models[f.model]? = some m' ∧ s'.models[o.nominal]? = some mn := by
  obtain ⟨i0, hi0⟩ := Option.isSome_iff_exists.mp hr.planned
  have hn := lt_of_some hr.nominal
  have hin := lt_of_some hr.inner
  have ho := lt_of_some hr.obj
  have hx' : ¬ (o.cfg.switchOffX = true ∧ P.roadX w = false) := by
    rintro ⟨h1, h2⟩; rw [hx h1] at h2; cases h2
  have hf : shortCorridor P w o.cfg f =
      .ok { f with initial := some (if P.lengthUntilEnd w i ≤ o.cfg.minLength then c else i) } := by
    unfold shortCorridor
    rw [if_neg hx', hi]
    by_cases g : P.lengthUntilEnd w i ≤ o.cfg.minLength
    · simp only [if_pos g, hc]
    · simp only [if_neg g]; rw [← hi]
  have hres : restrict P o.cfg.accSafety lim ms = .ok ms' := by
    unfold restrict
    rw [hms]
    by_cases g : P.rssBuild = true ∧ o.cfg.accSafety = true
    · rw [if_pos g, if_pos g, if_pos hr.lts]
    · rw [if_neg g, if_neg g]
  have hfc : firstCall P w o f mn = .ok (o, f, mn) := by simp only [firstCall, hi0]
  refine ⟨⟨(s.models.set o.nominal mn).set f.model m',
    (s.safes.set o.safety ⟨f.model, some (if P.lengthUntilEnd w i ≤ o.cfg.minLength then c else i),
      f.lastT, f.lastA⟩).set o.safety
      ⟨f.model, some (if P.lengthUntilEnd w i ≤ o.cfg.minLength then c else i), P.traj m', P.act m'⟩,
    s.objs.set r ⟨o.cfg, o.nominal, o.safety, o.initial, false, false, lim, P.traj m', P.act m'⟩⟩,
    ⟨o.cfg, o.nominal, o.safety, o.initial, false, false, lim, P.traj m', P.act m'⟩,
    ?_, ?_, ?_⟩
  rotate_left 1
  · rw [List.getElem?_set_self ho]
  · refine ⟨rfl, rfl, rfl, rfl, rfl, rfl, rfl, ?_, ?_⟩
    · rw [List.getElem?_set_self (by simpa using hin)]
    · rw [List.getElem?_set_ne (Ne.symm hr.distinct), List.getElem?_set_self hn]
  · unfold plan
    rw [at'_some hr.obj, Res.ok_bind, at'_some hr.safe, Res.ok_bind, at'_some hr.nominal,
      Res.ok_bind, hfc, Res.ok_bind, hf, Res.ok_bind]
    unfold decide'
    rw [hc, hv]
    simp only [act]
    have hno : ¬ (false = true ∨ o.cfg.noSafety = true) := by rw [hs]; simp
    have hms1 : (s.models.set o.nominal mn)[f.model]? = some ms := by
      rw [List.getElem?_set_ne hr.distinct]; exact hr.inner
    rw [if_neg hno, at'_some hms1, Res.ok_bind, ← hl, hres, Res.ok_bind]
    unfold safetyPlan
    rw [if_pos hlt]
    simp only [hm, Res.ok_bind]

/-- **C55** (no hysteresis).  Whatever happened before: a planning step on a lane that succeeds leaves
the behaviour with exactly the rating of this step as its status, not expired, and with the returned
trajectory as its last trajectory. -/
theorem C55_no_hysteresis (P : Plug W C M T A L K) (w : W) (s s' : Sys C M T A L K) (r : Nat) (t : T)
    (c : C) (hc : P.laneCorr w = some c) (hp : plan P w s r = .ok (s', t)) :
    ∃ o', s'.objs[r]? = some o' ∧ P.verdict w = some o'.nominalStatus ∧ o'.expired = false ∧
      o'.lastT = t := by
  unfold plan at hp
  obtain ⟨o, h1, hp⟩ := Res.bind_ok hp
  obtain ⟨f, h2, hp⟩ := Res.bind_ok hp
  obtain ⟨m, h3, hp⟩ := Res.bind_ok hp
  obtain ⟨q, h4, hp⟩ := Res.bind_ok hp
  obtain ⟨f', h5, hp⟩ := Res.bind_ok hp
  have ho := lt_of_some (at'_ok h1)
  unfold decide' at hp
  rw [hc] at hp
  simp only at hp
  cases hv : P.verdict w with
  | none => rw [hv] at hp; cases hp
  | some v =>
    rw [hv] at hp
    simp only [act] at hp
    by_cases g : v = true ∨ q.1.cfg.noSafety = true
    · rw [if_pos g] at hp
      obtain ⟨m0, _, hp⟩ := Res.bind_ok hp
      obtain ⟨m1, _, hp⟩ := Res.bind_ok hp
      obtain ⟨m2, _, hp⟩ := Res.bind_ok hp
      cases hp
      exact ⟨_, List.getElem?_set_self ho, rfl, rfl, rfl⟩
    · rw [if_neg g] at hp
      obtain ⟨m0, _, hp⟩ := Res.bind_ok hp
      obtain ⟨m1, _, hp⟩ := Res.bind_ok hp
      obtain ⟨m2, _, hp⟩ := Res.bind_ok hp
      cases hp
      exact ⟨_, List.getElem?_set_self ho, rfl, rfl, rfl⟩

/-- **C55** over a history: after any sequence of planning steps that succeeds and ends on a lane, the
status is the rating of the last world, independent of everything before. -/
theorem C55_history (P : Plug W C M T A L K) (ws : List W) (w : W) (s s' : Sys C M T A L K) (r : Nat)
    (ts : List T) (c : C) (hc : P.laneCorr w = some c)
    (hp : run P r (ws ++ [w]) s = .ok (s', ts)) :
    ∃ o', s'.objs[r]? = some o' ∧ P.verdict w = some o'.nominalStatus ∧
      ts.getLast? = some o'.lastT := by
  induction ws generalizing s ts with
  | nil =>
    simp only [List.nil_append, run] at hp
    obtain ⟨q, h1, hp⟩ := Res.bind_ok hp
    simp only [Res.ok_bind] at hp
    cases hp
    obtain ⟨o', a, b, _, d⟩ := C55_no_hysteresis P w s q.1 r q.2 c hc h1
    exact ⟨o', a, b, by simp [d]⟩
  | cons w0 ws ih =>
    simp only [List.cons_append, run] at hp
    obtain ⟨q, h1, hp⟩ := Res.bind_ok hp
    obtain ⟨q', h2, hp⟩ := Res.bind_ok hp
    cases hp
    obtain ⟨o', a, b, d⟩ := ih q.1 q'.2 h2
    refine ⟨o', a, b, ?_⟩
    cases e : q'.2 with
    | nil => rw [e] at d; cases d
    | cons x xs => rw [List.getLast?_cons_cons, ← e]; exact d

theorem setTargets_spec (P : Plug W C M T A L K) (c : C) (hlt : ∀ x m, P.laneTracking (P.setConst x m)
    = P.laneTracking m) (hcc : ∀ x y m, P.setConst x (P.setConst y m) = P.setConst x m) (cs : List C) :
    ∀ m, P.laneTracking m = true → setTargets P (some c) m cs =
      .ok (match (cs.filter (fun x => decide (x ≠ c))).getLast? with
        | some l => P.setConst (some l) m
        | none => m) := by
  induction cs with
  | nil => intro m _; rfl
  | cons x xs ih =>
    intro m hm
    by_cases g : c = x
    · subst g
      simp only [setTargets, if_true]
      rw [ih m hm]
      simp
    · have g' : ¬ (some c = some x) := fun e => g (Option.some.inj e)
      simp only [setTargets, if_neg g', if_pos hm]
      rw [ih (P.setConst (some x) m) (by rw [hlt]; exact hm)]
      have e : (x :: xs).filter (fun y => decide (y ≠ c)) = x :: xs.filter (fun y => decide (y ≠ c)) := by
        rw [List.filter_cons_of_pos]; simpa using fun h => g h.symm
      rw [e]
      cases hl : (xs.filter (fun y => decide (y ≠ c))) with
      | nil => simp
      | cons y ys =>
        rw [List.getLast?_cons_cons]
        cases hg : (y :: ys).getLast? with
        | none => simp at hg
        | some z => simp only; rw [hcc]

/-- **C55** (first call).  The first planning step behaves as if the behaviour had been prepared
beforehand: the lane the ego is on becomes the initial corridor and the safety corridor, and the
nominal model is told to head for the last of the other lanes of the road corridor, if there is
one. -/
theorem C55_first_call (P : Plug W C M T A L K) (w : W) (s : Sys C M T A L K) (r : Nat)
    (o : Obj C T A L K) (f : Safe C T A) (mn : M) (c : C) (cs : List C)
    (ho : s.objs[r]? = some o) (hf : s.safes[o.safety]? = some f)
    (hn : s.models[o.nominal]? = some mn) (hi : o.initial = none) (hlane : P.laneTracking mn = true)
    (hc : P.laneCorr w = some c) (hcs : P.roadCorrs w = some cs)
    (hlt : ∀ x m, P.laneTracking (P.setConst x m) = P.laneTracking m)
    (hcc : ∀ x y m, P.setConst x (P.setConst y m) = P.setConst x m) :
    plan P w s r = plan P w
      ⟨s.models.set o.nominal (match (cs.filter (fun x => decide (x ≠ c))).getLast? with
          | some l => P.setConst (some l) mn
          | none => mn),
        s.safes.set o.safety ⟨f.model, some c, f.lastT, f.lastA⟩,
        s.objs.set r ⟨o.cfg, o.nominal, o.safety, some c, o.expired, o.nominalStatus, o.limits,
          o.lastT, o.lastA⟩⟩ r := by
  have l1 := lt_of_some ho
  have l2 := lt_of_some hf
  have l3 := lt_of_some hn
  generalize hM : (match (cs.filter (fun x => decide (x ≠ c))).getLast? with
          | some l => P.setConst (some l) mn
          | none => mn) = M'
  have hfc : firstCall P w o f mn = .ok (⟨o.cfg, o.nominal, o.safety, some c, o.expired,
      o.nominalStatus, o.limits, o.lastT, o.lastA⟩, ⟨f.model, some c, f.lastT, f.lastA⟩, M') := by
    unfold firstCall
    rw [hi, hcs]
    simp only [hc, setTargets_spec P c hlt hcc cs mn hlane, Res.ok_bind, hM]
  unfold plan
  rw [at'_some ho, Res.ok_bind, at'_some hf, Res.ok_bind, at'_some hn, Res.ok_bind, hfc, Res.ok_bind]
  simp only
  rw [at'_some (List.getElem?_set_self l1), Res.ok_bind]
  simp only
  rw [at'_some (List.getElem?_set_self l2), Res.ok_bind, at'_some (List.getElem?_set_self l3),
    Res.ok_bind]
  simp only [firstCall, Res.ok_bind]
  cases shortCorridor P w o.cfg ⟨f.model, some c, f.lastT, f.lastA⟩ with
  | error e => rfl
  | ok f' =>
    simp only [Res.ok_bind, List.set_set]
    unfold decide'
    rw [hc]
    simp only
    cases P.verdict w with
    | none => rfl
    | some v => simp only [act, List.set_set]

/-- An empty rating (the evaluator has no opinion, or there is none) is dereferenced. -/
theorem C55_empty_rating_violated (P : Plug W C M T A L K) (w : W) (s : Sys C M T A L K) (r : Nat)
    (c : C) (hc : P.laneCorr w = some c) (hv : P.verdict w = none) :
    ∀ q, plan P w s r ≠ .ok q := by
  rintro ⟨s', t⟩ hp
  obtain ⟨o', _, h, _⟩ := C55_no_hysteresis P w s s' r t c hc hp
  rw [hv] at h; cases h

/-- **C97** (off the lanes).  A planning step without a lane corridor marks the behaviour as expired,
returns the last trajectory again, and keeps the last action, the status, the limits and the initial
corridor. -/
theorem C97_expires (P : Plug W C M T A L K) (w : W) (s s' : Sys C M T A L K) (r : Nat) (t : T)
    (o : Obj C T A L K) (ho : s.objs[r]? = some o) (hpl : o.initial.isSome)
    (hc : P.laneCorr w = none) (hp : plan P w s r = .ok (s', t)) :
    t = o.lastT ∧ s'.objs[r]? = some ⟨o.cfg, o.nominal, o.safety, o.initial, true, o.nominalStatus,
      o.limits, o.lastT, o.lastA⟩ ∧ s'.models = s.models := by
  unfold plan at hp
  obtain ⟨o1, h1, hp⟩ := Res.bind_ok hp
  obtain ⟨f, h2, hp⟩ := Res.bind_ok hp
  obtain ⟨m, h3, hp⟩ := Res.bind_ok hp
  obtain ⟨q, h4, hp⟩ := Res.bind_ok hp
  obtain ⟨f', h5, hp⟩ := Res.bind_ok hp
  have e1 : o1 = o := by have := at'_ok h1; rw [ho] at this; exact (Option.some.inj this).symm
  subst e1
  obtain ⟨i, hi⟩ := Option.isSome_iff_exists.mp hpl
  simp only [firstCall, hi] at h4
  cases h4
  unfold decide' at hp
  rw [hc] at hp
  cases hp
  refine ⟨rfl, ?_, set_self (at'_ok h3)⟩
  rw [List.getElem?_set_self (lt_of_some ho), hi]

/-- **C97** fails.  If the ego is off its lanes at a moment when no more than the minimal length of
the safety corridor is left, that step still works (the behaviour expires), but every later planning
step dereferences null, also when the ego is back on a lane. -/
theorem C97_crash_after_leaving_violated (P : Plug W C M T A L K) (w : W) (s s' : Sys C M T A L K)
    (r : Nat) (t : T) (o : Obj C T A L K) (f : Safe C T A) (i : C) (ho : s.objs[r]? = some o)
    (hpl : o.initial.isSome) (hf : s.safes[o.safety]? = some f) (hi : f.initial = some i)
    (hshort : P.lengthUntilEnd w i ≤ o.cfg.minLength)
    (hc : P.laneCorr w = none) (hp : plan P w s r = .ok (s', t)) :
    ∀ w', plan P w' s' r = .error .ub := by
  unfold plan at hp
  obtain ⟨o1, h1, hp⟩ := Res.bind_ok hp
  obtain ⟨f1, h2, hp⟩ := Res.bind_ok hp
  obtain ⟨m, h3, hp⟩ := Res.bind_ok hp
  obtain ⟨q, h4, hp⟩ := Res.bind_ok hp
  obtain ⟨f', h5, hp⟩ := Res.bind_ok hp
  have e1 : o1 = o := by have := at'_ok h1; rw [ho] at this; exact (Option.some.inj this).symm
  subst e1
  have e2 : f1 = f := by have := at'_ok h2; rw [hf] at this; exact (Option.some.inj this).symm
  subst e2
  obtain ⟨i0, hi0⟩ := Option.isSome_iff_exists.mp hpl
  simp only [firstCall, hi0] at h4
  cases h4
  simp only [shortCorridor, hi] at h5
  by_cases gx : o1.cfg.switchOffX = true ∧ P.roadX w = false
  · rw [if_pos gx] at h5; cases h5
  · rw [if_neg gx, if_pos hshort] at h5
    cases h5
    unfold decide' at hp
    rw [hc] at hp
    cases hp
    intro w'
    have l1 := lt_of_some ho
    have l2 := lt_of_some hf
    have l3 := lt_of_some (at'_ok h3)
    unfold plan
    rw [at'_some (List.getElem?_set_self l1), Res.ok_bind]
    simp only
    rw [at'_some (List.getElem?_set_self l2), Res.ok_bind, at'_some (List.getElem?_set_self l3),
      Res.ok_bind]
    simp only [firstCall, hi0, Res.ok_bind]
    unfold shortCorridor
    simp only
    by_cases g2 : o1.cfg.switchOffX = true ∧ P.roadX w' = false
    · rw [if_pos g2]; rfl
    · rw [if_neg g2]; rfl

/-- **C97** (the rest of the claim).  If more than the minimal length is left, the safety corridor
survives leaving the lanes. -/
theorem C97_survives_partial (P : Plug W C M T A L K) (w : W) (s s' : Sys C M T A L K)
    (r : Nat) (t : T) (o : Obj C T A L K) (f : Safe C T A) (i : C) (ho : s.objs[r]? = some o)
    (hpl : o.initial.isSome) (hf : s.safes[o.safety]? = some f) (hi : f.initial = some i)
    (hlong : o.cfg.minLength < P.lengthUntilEnd w i)
    (hc : P.laneCorr w = none) (hp : plan P w s r = .ok (s', t)) :
    s'.safes[o.safety]? = some f := by
  unfold plan at hp
  obtain ⟨o1, h1, hp⟩ := Res.bind_ok hp
  obtain ⟨f1, h2, hp⟩ := Res.bind_ok hp
  obtain ⟨m, h3, hp⟩ := Res.bind_ok hp
  obtain ⟨q, h4, hp⟩ := Res.bind_ok hp
  obtain ⟨f', h5, hp⟩ := Res.bind_ok hp
  have e1 : o1 = o := by have := at'_ok h1; rw [ho] at this; exact (Option.some.inj this).symm
  subst e1
  have e2 : f1 = f := by have := at'_ok h2; rw [hf] at this; exact (Option.some.inj this).symm
  subst e2
  obtain ⟨i0, hi0⟩ := Option.isSome_iff_exists.mp hpl
  simp only [firstCall, hi0] at h4
  cases h4
  simp only [shortCorridor, hi] at h5
  by_cases gx : o1.cfg.switchOffX = true ∧ P.roadX w = false
  · rw [if_pos gx] at h5; cases h5
  · rw [if_neg gx, if_neg (not_le.mpr hlong)] at h5
    cases h5
    unfold decide' at hp
    rw [hc] at hp
    cases hp
    simp only
    rw [List.getElem?_set_self (lt_of_some hf)]

/-- **C97** fails at the start, too: a behaviour whose first planning step happens off the lanes
dereferences null. -/
theorem C97_start_off_lane_violated (P : Plug W C M T A L K) (w : W) (s : Sys C M T A L K)
    (r : Nat) (o : Obj C T A L K) (ho : s.objs[r]? = some o) (hi : o.initial = none)
    (hc : P.laneCorr w = none) : ∀ q, plan P w s r ≠ .ok q := by
  intro q0 hp
  unfold plan at hp
  obtain ⟨o1, h1, hp⟩ := Res.bind_ok hp
  obtain ⟨f1, h2, hp⟩ := Res.bind_ok hp
  obtain ⟨m, h3, hp⟩ := Res.bind_ok hp
  obtain ⟨q, h4, hp⟩ := Res.bind_ok hp
  obtain ⟨f', h5, hp⟩ := Res.bind_ok hp
  have e1 : o1 = o := by have := at'_ok h1; rw [ho] at this; exact (Option.some.inj this).symm
  subst e1
  unfold firstCall at h4
  rw [hi] at h4
  simp only at h4
  cases hr : P.roadCorrs w with
  | none => rw [hr] at h4; cases h4
  | some cs =>
    rw [hr] at h4
    simp only [hc] at h4
    obtain ⟨m', _, h4⟩ := Res.bind_ok h4
    cases h4
    simp only [shortCorridor] at h5
    split_ifs at h5

/-- **C98** (clones).  Planning with a clone leaves what the original itself records alone: its last
trajectory and action, status, limits and initial corridor. -/
theorem C98_own_record_partial (P : Plug W C M T A L K) (w : W) (s s1 s2 : Sys C M T A L K)
    (r r' : Nat) (t : T) (hcl : clone s r = .ok (s1, r')) (hp : plan P w s1 r' = .ok (s2, t)) :
    r' ≠ r ∧ s2.objs[r]? = s.objs[r]? := by
  unfold clone at hcl
  obtain ⟨o, h1, hcl⟩ := Res.bind_ok hcl
  cases hcl
  have hl := lt_of_some (at'_ok h1)
  have hne : s.objs.length ≠ r := by omega
  refine ⟨hne, ?_⟩
  unfold plan at hp
  obtain ⟨o1, g1, hp⟩ := Res.bind_ok hp
  obtain ⟨f, g2, hp⟩ := Res.bind_ok hp
  obtain ⟨m, g3, hp⟩ := Res.bind_ok hp
  obtain ⟨q, g4, hp⟩ := Res.bind_ok hp
  obtain ⟨f', g5, hp⟩ := Res.bind_ok hp
  have fin : ∀ x : Obj C T A L K, ((s.objs ++ [o]).set s.objs.length x)[r]? = s.objs[r]? := by
    intro x
    rw [List.getElem?_set_ne hne, List.getElem?_append_left hl]
  unfold decide' at hp
  cases hc : P.laneCorr w with
  | none => rw [hc] at hp; cases hp; exact fin _
  | some c =>
    rw [hc] at hp
    simp only at hp
    cases hv : P.verdict w with
    | none => rw [hv] at hp; cases hp
    | some v =>
      rw [hv] at hp
      simp only [act] at hp
      by_cases g : v = true ∨ q.1.cfg.noSafety = true
      · rw [if_pos g] at hp
        obtain ⟨m0, _, hp⟩ := Res.bind_ok hp
        obtain ⟨m1, _, hp⟩ := Res.bind_ok hp
        obtain ⟨m2, _, hp⟩ := Res.bind_ok hp
        cases hp
        exact fin _
      · rw [if_neg g] at hp
        obtain ⟨m0, _, hp⟩ := Res.bind_ok hp
        obtain ⟨m1, _, hp⟩ := Res.bind_ok hp
        obtain ⟨m2, _, hp⟩ := Res.bind_ok hp
        cases hp
        exact fin _

/-- **C98** fails.  The clone plans with the inner models of the original: after the clone planned in
a safe situation, the original's nominal model is in the state the clone's planning left it in. -/
theorem C98_shared_models_violated (P : Plug W C M T A L K) (w : W) (s : Sys C M T A L K) (r : Nat)
    (o : Obj C T A L K) (f : Safe C T A) (mn ms : M) (hr : Ready P s r o f mn ms) (c : C)
    (hc : P.laneCorr w = some c) (hx : o.cfg.switchOffX = true → P.roadX w = true)
    (hv : P.verdict w = some true) (hno : P.rssBuild = false) (m' : M)
    (hm : P.plan mn w = .ok m') :
    ∃ s1 r' s2 t, clone s r = .ok (s1, r') ∧ plan P w s1 r' = .ok (s2, t) ∧
      s2.objs[r]? = some o ∧ s2.models[o.nominal]? = some m' := by
  have hl := lt_of_some hr.obj
  have hR : Ready P { s with objs := s.objs ++ [o] } s.objs.length o f mn ms :=
    ⟨by simp, hr.safe, hr.nominal, hr.inner, hr.distinct, hr.planned, hr.corridor, hr.ltn, hr.lts⟩
  obtain ⟨s2, o', h1, h2, _, _, _, _, _, _, _, h3, _⟩ :=
    C55_nominal P w { s with objs := s.objs ++ [o] } s.objs.length o f mn ms hR c hc hx true hv
      (Or.inl rfl) _ rfl m' (by rw [hno]; simpa using hm)
  have hcl : clone s r = .ok ({ s with objs := s.objs ++ [o] }, s.objs.length) := by
    unfold clone; rw [at'_some hr.obj]; rfl
  refine ⟨_, _, s2, P.traj m', hcl, h1, ?_, h3⟩
  rw [(C98_own_record_partial P w s _ s2 r _ _ hcl h1).2]
  exact hr.obj

end

/-! ### A concrete behaviour -/

/-- Worlds are numbers: odd ones are rated safe, 100 and above are off the lanes; two lanes; the
inner models count their planning steps (first component), remember the constant lane corridor and
their acceleration limits. -/
def toy : Plug Nat Nat (Nat × Option Nat × Int × Int) Nat Nat (Int × Int) Nat where
  laneCorr w := if w < 100 then some 7 else none
  roadCorrs _ := some [7, 8]
  lengthUntilEnd w _ := 200 - w
  roadX _ := true
  verdict w := some (w % 2 == 1)
  rssBuild := true
  isRss := true
  convert _ _ := (-5, 5)
  laneTracking _ := true
  setConst c m := (m.1, c, m.2.2)
  setLimits l m := (m.1, m.2.1, l)
  plan m _ := .ok (m.1 + 1, m.2)
  traj m := m.1
  act m := m.1

/-- One RSS behaviour; both inner models are configured with limits [-1, 1]. -/
def toySys (accNominal : Bool) (minLength : Nat) :
    Sys Nat (Nat × Option Nat × Int × Int) Nat Nat (Int × Int) Nat :=
  ⟨[(0, none, -1, 1), (50, none, -1, 1)], [⟨1, none, 0, 0⟩],
    [⟨⟨minLength, accNominal, false, false, false⟩, 0, 0, none, false, true, (0, 0), 0, 0⟩]⟩

/-- Safe, unsafe, safe: nominal, safety, nominal plans. -/
example : (run toy 0 [1, 2, 3] (toySys false 0)).map Prod.snd = .ok [1, 51, 2] := by decide

/-- The hypotheses of `C55_nominal` / `C55_safety` are met after the first step. -/
example : (run toy 0 [1] (toySys false 0)).map (fun q => q.1.objs[0]?.map (·.initial)) =
    .ok (some (some 7)) := by decide
example : (run toy 0 [1] (toySys false 0)).map (fun q => q.1.safes[0]?.map (·.initial)) =
    .ok (some (some 7)) := by decide
example : (run toy 0 [1] (toySys false 0)).map (fun q => q.1.models) =
    .ok [(1, some 8, -1, 1), (50, none, -1, 1)] := by decide

/-- **C55** (limits) fails: with restrictions for the nominal model switched on, the limits the model
is configured with are not intersected with the restrictions but replaced by them: a model limited
to [-1, 1] plans with [-5, 5]. -/
theorem C55_limits_replaced_violated :
    (run toy 0 [1] (toySys true 0)).map (fun q => q.1.models[0]?.map (fun m => m.2.2)) =
      .ok (some (-5, 5)) ∧ (toySys true 0).models[0]?.map (fun m => m.2.2) = some (-1, 1) := by
  decide

/-- **C98** concretely: the original plans 2 after its clone has planned, 1 otherwise … -/
theorem C98_trace_violated :
    (run toy 0 [1, 3] (toySys false 0)).map Prod.snd = .ok [1, 2] ∧
    (run toy 0 [1] (toySys false 0) >>= fun q => clone q.1 0 >>= fun k =>
      plan toy 3 k.1 k.2 >>= fun z => plan toy 3 z.1 0).map Prod.snd = .ok 3 := by
  decide

/-- **C97** concretely: on the lane, off the lane close to the end, back on the lane. -/
theorem C97_trace_violated :
    (run toy 0 [1, 150] (toySys false 60)).map Prod.snd = .ok [1, 1] ∧
    (run toy 0 [1, 150, 1] (toySys false 60)).map Prod.snd = .error .ub ∧
    (run toy 0 [1, 150, 1] (toySys false 10)).map Prod.snd = .ok [1, 1, 2] := by
  decide

end Bark.Rss
