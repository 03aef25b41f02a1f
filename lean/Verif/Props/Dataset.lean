import Verif.Spec.Dataset
import Mathlib.Tactic.Ring
import Mathlib.Tactic.Linarith
import Mathlib.Data.List.Basic
import Mathlib.Data.List.Nodup

/-!
C134 – trajectories and initial states from recorded tracks. C135 – decomposition of a track file into scenarios.
-/
set_option linter.unusedSectionVars false
namespace Bark.Data
open Spec

section
variable {K : Type} [Field K] [LinearOrder K] [IsStrictOrderedRing K] {norm : K → K} {speed : K → K → K}

theorem shows_barkState (off : K × K) (toff : Int) (m : Motion K) :
    Shows norm speed off (m.t - toff) m (barkState norm speed off toff m) := by
  refine ⟨?_, rfl, rfl, rfl, rfl⟩
  unfold barkState
  simp only
  rw [div_mul_cancel₀]
  norm_num

theorem replays_filter (off : K × K) (start stop : Int) (ms : List (Motion K)) :
    Replays norm speed off start stop ms
      ((ms.filter fun m => decide (start ≤ m.t ∧ m.t ≤ stop)).map (barkState norm speed off start)) := by
  refine ⟨ms.filter fun m => decide (start ≤ m.t ∧ m.t ≤ stop), List.filter_sublist, ?_, ?_⟩
  · intro m
    rw [List.mem_filter, decide_eq_true_eq]
  · rw [List.forall₂_map_right_iff, List.forall₂_same]
    intro m _
    exact shows_barkState off start m

/-- **C134.** A recorded trajectory has exactly the recorded states of the time span, in order and timed from its
beginning. -/
theorem C134_trajectory (off : K × K) (start stop : Int) (ms : List (Motion K)) :
    ∃ rows, trajectory norm speed off start (some stop) ms = .ok rows ∧ Replays norm speed off start stop ms rows :=
  ⟨_, by unfold trajectory; cases ms.getLast? <;> rfl, replays_filter off start stop ms⟩

/-- Without an end it ends with the last recorded state; a track without states raises. -/
theorem C134_trajectory_open (off : K × K) (start : Int) (ms : List (Motion K)) :
    (ms = [] → trajectory norm speed off start none ms = .error .thrown) ∧
    (∀ l, ms.getLast? = some l → ∃ rows, trajectory norm speed off start none ms = .ok rows ∧
      Replays norm speed off start l.t ms rows) := by
  constructor
  · rintro rfl
    rfl
  · intro l hl
    refine ⟨_, ?_, replays_filter off start l.t ms⟩
    unfold trajectory
    rw [hl]

/-- times of a replayed trajectory -/
theorem C134_times {off : K × K} {start stop : Int} {ms : List (Motion K)} {rows}
    (h : trajectory norm speed off start (some stop) ms = .ok rows) :
    ∀ r ∈ rows, 0 ≤ r.time ∧ r.time * 1000 ≤ ((stop - start : Int) : K) := by
  obtain ⟨rows', h', part, -, hmem, hf⟩ := C134_trajectory (norm := norm) (speed := speed) off start stop ms
  rw [h'] at h
  cases h
  intro r hr
  obtain ⟨i, hi, rfl⟩ := List.getElem_of_mem hr
  have hi' : i < part.length := by rw [hf.length_eq]; exact hi
  have hs := hf.get hi' hi
  simp only [List.get_eq_getElem] at hs
  have hm := (hmem part[i]).1 (List.getElem_mem hi')
  have h1 : (0 : K) ≤ ((part[i].t - start : Int) : K) := by
    have : (0 : Int) ≤ part[i].t - start := by omega
    exact_mod_cast this
  have h2 : ((part[i].t - start : Int) : K) ≤ ((stop - start : Int) : K) := by
    have : part[i].t - start ≤ stop - start := by omega
    exact_mod_cast this
  rw [← hs.1] at h1 h2
  refine ⟨?_, h2⟩
  by_contra hneg
  push Not at hneg
  have : rows[i].time * 1000 < 0 := by nlinarith
  linarith

theorem minTime_spec : ∀ {ms : List (Motion K)} {t : Int}, minTime ms = some t →
    (∃ m ∈ ms, m.t = t) ∧ ∀ m ∈ ms, t ≤ m.t
  | [], t, h => by cases h
  | m :: ms, t, h => by
    unfold minTime at h
    cases hm : minTime ms with
    | none =>
      rw [hm] at h
      simp only [Option.some.injEq] at h
      subst h
      have hnil : ms = [] := by
        cases ms with
        | nil => rfl
        | cons a l =>
          unfold minTime at hm
          cases hl : minTime l <;> simp [hl] at hm
      subst hnil
      exact ⟨⟨m, by simp, rfl⟩, by simp⟩
    | some t' =>
      rw [hm] at h
      simp only [Option.some.injEq] at h
      obtain ⟨⟨m', hm', e⟩, hall⟩ := minTime_spec hm
      by_cases g : m.t ≤ t'
      · rw [if_pos g] at h
        subst h
        refine ⟨⟨m, by simp, rfl⟩, ?_⟩
        intro x hx
        rcases List.mem_cons.1 hx with rfl | hx
        · exact le_refl _
        · exact le_trans g (hall x hx)
      · rw [if_neg g] at h
        subst h
        refine ⟨⟨m', by simp [hm'], e⟩, ?_⟩
        intro x hx
        rcases List.mem_cons.1 hx with rfl | hx
        · omega
        · exact hall x hx

theorem minTime_isSome : ∀ {ms : List (Motion K)}, ms ≠ [] → ∃ t, minTime ms = some t
  | m :: ms, _ => by
    unfold minTime
    cases minTime ms with
    | none => exact ⟨_, rfl⟩
    | some t => exact ⟨_, rfl⟩

/-- **C134, initial states.** The initial state of a track for a start time is its recorded state at this time, or its
first one if it begins later; its time is 0. It raises if and only if there is no recorded state at that time. -/
theorem C134_init (off : K × K) (start : Int) {ms : List (Motion K)} {m0 : Motion K} (h0 : m0 ∈ ms)
    (hmin : ∀ m ∈ ms, m0.t ≤ m.t) :
    (∀ i, initState norm speed off start ms = .ok i → ∃ m ∈ ms, m.t = max start m0.t ∧ Shows norm speed off 0 m i) ∧
    (initState norm speed off start ms = .error .thrown ↔ ∀ m ∈ ms, m.t ≠ max start m0.t) ∧
    ((∃ i, initState norm speed off start ms = .ok i) ∨ initState norm speed off start ms = .error .thrown) := by
  obtain ⟨t, ht⟩ := minTime_isSome (ms := ms) (List.ne_nil_of_mem h0)
  obtain ⟨⟨m1, hm1, e1⟩, hall⟩ := minTime_spec ht
  have et : t = m0.t := le_antisymm (hall m0 h0) (e1 ▸ hmin m1 hm1)
  have emax : (if start < t then t else start) = max start m0.t := by
    rw [et]
    by_cases g : start < m0.t
    · rw [if_pos g, max_eq_right g.le]
    · rw [if_neg g, max_eq_left (not_lt.1 g)]
  have e : initState norm speed off start ms = match ms.find? fun m => m.t = max start m0.t with
      | none => .error .thrown
      | some m => .ok (barkState norm speed off m.t m) := by
    unfold initState
    rw [ht]
    simp only [emax]
    cases ms.find? fun m => m.t = max start m0.t <;> rfl
  cases hf : ms.find? fun m => m.t = max start m0.t with
  | none =>
    simp only [hf] at e
    rw [e]
    refine ⟨fun i h => (by cases h), ?_, Or.inr rfl⟩
    constructor
    · intro _ m hm
      have := List.find?_eq_none.1 hf m hm
      simpa using this
    · intro _
      rfl
  | some m =>
    simp only [hf] at e
    rw [e]
    have hm := List.mem_of_find?_eq_some hf
    have hp := List.find?_some hf
    simp only [decide_eq_true_eq] at hp
    refine ⟨?_, ?_, Or.inl ⟨_, rfl⟩⟩
    · intro i hi
      cases hi
      refine ⟨m, hm, hp, ?_⟩
      have := shows_barkState (norm := norm) (speed := speed) off m.t m
      rwa [Int.sub_self] at this
    · constructor
      · intro h
        cases h
      · intro h
        exact absurd hp (h m hm)

/-! ### Rounding -/

theorem round100_rounded (t : Int) : Rounded t (round100 t) := by
  unfold round100
  simp only
  have h1 : t = 100 * (t / 100) + t % 100 := by omega
  split
  · exact ⟨⟨_, rfl⟩, by omega, by omega, fun _ => by omega⟩
  · split
    · exact ⟨⟨_, rfl⟩, by omega, by omega, fun _ => by omega⟩
    · split
      · exact ⟨⟨_, rfl⟩, by omega, by omega, fun _ => ⟨t / 100 / 2, by omega⟩⟩
      · exact ⟨⟨_, rfl⟩, by omega, by omega, fun _ => ⟨(t / 100 + 1) / 2, by omega⟩⟩

theorem round100_fix (q : Int) : round100 (100 * q) = 100 * q := by
  unfold round100
  simp only
  rw [if_pos (by omega)]
  omega

theorem round100_idem (t : Int) : round100 (round100 t) = round100 t := by
  obtain ⟨⟨q, h⟩, -⟩ := round100_rounded t
  rw [h, round100_fix]

/-- **C135.** Times of a track are rounded to hundreds of milliseconds; full hundreds are kept. -/
theorem C135_rounded (id : Nat) (a b : Int) : (mkInfo id a b).id = id ∧ Rounded a (mkInfo id a b).start ∧
    Rounded b (mkInfo id a b).stop ∧ ((∃ q, a = 100 * q) → (mkInfo id a b).start = a) ∧
    ((∃ q, b = 100 * q) → (mkInfo id a b).stop = b) := by
  refine ⟨rfl, round100_rounded a, round100_rounded b, ?_, ?_⟩
  · rintro ⟨q, rfl⟩
    exact round100_fix q
  · rintro ⟨q, rfl⟩
    exact round100_fix q

/-! ### The tracks that are used -/

theorem find?_first {α : Type} {p : α → Bool} : ∀ {l : List α} {a : α}, l.find? p = some a →
    ∃ i : Nat, l[i]? = some a ∧ p a = true ∧ ∀ (j : Nat) b, j < i → l[j]? = some b → p b = false
  | [], a, h => by cases h
  | x :: l, a, h => by
    rw [List.find?_cons] at h
    cases hp : p x with
    | true =>
      rw [hp] at h
      cases h
      exact ⟨0, rfl, hp, fun j b hj => absurd hj (Nat.not_lt_zero j)⟩
    | false =>
      rw [hp] at h
      obtain ⟨i, h1, h2, h3⟩ := find?_first h
      refine ⟨i + 1, by simpa using h1, h2, ?_⟩
      intro j b hj hb
      cases j with
      | zero =>
        simp at hb
        rw [← hb]
        exact hp
      | succ j => exact h3 j b (by omega) (by simpa using hb)

/-- the map test on a recorded state -/
def onM (norm : K → K) (speed : K → K → K) (onMap : St K → Bool) (off : K × K) (m : Motion K) : Prop :=
  ∀ r, Shows norm speed off m.t m r → onMap r = true

theorem shows_unique {off : K × K} {ms : Int} {m : Motion K} {r r' : St K} (h : Shows norm speed off ms m r)
    (h' : Shows norm speed off ms m r') : r = r' := by
  obtain ⟨a1, a2, a3, a4, a5⟩ := h
  obtain ⟨b1, b2, b3, b4, b5⟩ := h'
  have ht : r.time = r'.time := by
    have : r.time * 1000 = r'.time * 1000 := a1.trans b1.symm
    exact mul_right_cancel₀ (by norm_num) this
  cases r
  cases r'
  simp only at *
  simp [ht, a2, a3, a4, a5, b2, b3, b4, b5]

theorem onM_iff {onMap : St K → Bool} {off : K × K} {m : Motion K} :
    onM norm speed onMap off m ↔ onMap (barkState norm speed off 0 m) = true := by
  have hs : Shows norm speed off m.t m (barkState norm speed off 0 m) := by
    have := shows_barkState (norm := norm) (speed := speed) off 0 m
    rwa [Int.sub_zero] at this
  constructor
  · intro h
    exact h _ hs
  · intro h r hr
    rw [shows_unique hr hs]
    exact h

/-- **C135.** A track of the file is used exactly if it is a car, not too long, and once on the map; its time span begins
with its first state on the map, delayed by the starting offset, and ends with its last state. -/
theorem C135_used {onMap : St K → Bool} {off : K × K} {startOff : Int} {maxLen : K} {tr : Track K} {l : Motion K}
    (hl : tr.motions.getLast? = some l) (hlast : ∀ m ∈ tr.motions, m.t ≤ l.t) :
    (∀ i, trackInfo norm speed onMap off startOff maxLen tr = .ok (some i) → tr.car = true ∧ tr.length ≤ maxLen ∧
      ∃ m, FirstOnMap (onM norm speed onMap off) tr.motions m ∧ i.id = tr.id ∧ Rounded (m.t + startOff) i.start ∧
        Rounded l.t i.stop) ∧
    (trackInfo norm speed onMap off startOff maxLen tr = .ok none → tr.car = false ∨ maxLen < tr.length ∨
      ∀ m ∈ tr.motions, 0 ≤ m.t → ¬ onM norm speed onMap off m) ∧
    ∃ r, trackInfo norm speed onMap off startOff maxLen tr = .ok r := by
  unfold trackInfo firstOnMap
  rw [hl]
  simp only
  cases hf : tr.motions.find? fun m => decide (0 ≤ m.t ∧ m.t ≤ l.t) && onMap (barkState norm speed off 0 m) with
  | none =>
    simp only
    refine ⟨fun i h => (by cases h), fun _ => Or.inr (Or.inr ?_), none, rfl⟩
    intro m hm h0 hon
    have := List.find?_eq_none.1 hf m hm
    simp [h0, hlast m hm, onM_iff.1 hon] at this
  | some m =>
    simp only
    obtain ⟨i, h1, h2, h3⟩ := find?_first hf
    simp only [Bool.and_eq_true, decide_eq_true_eq] at h2
    have hfirst : FirstOnMap (onM norm speed onMap off) tr.motions m := by
      refine ⟨i, h1, h2.1.1, onM_iff.2 h2.2, ?_⟩
      intro j m' hj hm' h0 hon
      have := h3 j m' hj hm'
      simp [h0, hlast m' (List.mem_of_getElem? hm'), onM_iff.1 hon] at this
    by_cases g1 : tr.car = false
    · rw [if_pos g1]
      exact ⟨fun i h => (by cases h), fun _ => Or.inl g1, _, rfl⟩
    · rw [if_neg g1]
      by_cases g2 : maxLen < tr.length
      · rw [if_pos g2]
        exact ⟨fun i h => (by cases h), fun _ => Or.inr (Or.inl g2), _, rfl⟩
      · rw [if_neg g2]
        refine ⟨?_, fun h => (by cases h), _, rfl⟩
        intro i hi
        cases hi
        exact ⟨by simpa using g1, not_lt.1 g2, m, hfirst, rfl, round100_rounded _, round100_rounded _⟩

theorem trackInfos_spec {onMap : St K → Bool} {off : K × K} {startOff : Int} {maxLen : K} :
    ∀ {trs : List (Track K)} {infos}, trackInfos norm speed onMap off startOff maxLen trs = .ok infos →
    (∃ os : List (Option Info), List.Forall₂ (fun tr o => trackInfo norm speed onMap off startOff maxLen tr = .ok o) trs os ∧
      infos = os.flatMap Option.toList)
  | [], infos, h => by
    simp only [trackInfos, Except.ok.injEq] at h
    subst h
    exact ⟨[], .nil, rfl⟩
  | tr :: trs, infos, h => by
    unfold trackInfos at h
    cases hi : trackInfo norm speed onMap off startOff maxLen tr with
    | error f => rw [hi] at h; cases h
    | ok o =>
      rw [hi] at h
      simp only at h
      cases hr : trackInfos norm speed onMap off startOff maxLen trs with
      | error f => rw [hr] at h; cases h
      | ok is =>
        rw [hr] at h
        simp only [Except.ok.injEq] at h
        obtain ⟨os, h1, h2⟩ := trackInfos_spec hr
        refine ⟨o :: os, .cons hi h1, ?_⟩
        rw [← h, h2]
        rfl

theorem trackInfo_id {onMap : St K → Bool} {off : K × K} {startOff : Int} {maxLen : K} {tr : Track K} {i : Info}
    (h : trackInfo norm speed onMap off startOff maxLen tr = .ok (some i)) :
    i.id = tr.id ∧ ∃ a b, i = mkInfo tr.id a b := by
  unfold trackInfo at h
  generalize firstOnMap norm speed onMap off startOff tr.motions = f at h
  cases hl : tr.motions.getLast? with
  | none =>
    rw [hl] at h
    match f, h with
    | .error _, h => cases h
    | .ok none, h => cases h
    | .ok (some _), h => cases h
  | some l =>
    rw [hl] at h
    match f, h with
    | .error _, h => cases h
    | .ok none, h => cases h
    | .ok (some t), h =>
      simp only at h
      split at h
      · cases h
      · split at h
        · cases h
        · cases h
          exact ⟨rfl, t, l.t, rfl⟩

/-- the infos of a file: ids of different tracks, times in full hundreds -/
theorem trackInfos_ids {onMap : St K → Bool} {off : K × K} {startOff : Int} {maxLen : K} :
    ∀ {trs : List (Track K)} {infos}, trackInfos norm speed onMap off startOff maxLen trs = .ok infos →
    (infos.map Info.id).Sublist (trs.map Track.id) ∧
    ∀ i ∈ infos, round100 i.start = i.start ∧ round100 i.stop = i.stop
  | [], infos, h => by
    simp only [trackInfos, Except.ok.injEq] at h
    subst h
    simp
  | tr :: trs, infos, h => by
    unfold trackInfos at h
    cases hi : trackInfo norm speed onMap off startOff maxLen tr with
    | error f => rw [hi] at h; cases h
    | ok o =>
      rw [hi] at h
      simp only at h
      cases hr : trackInfos norm speed onMap off startOff maxLen trs with
      | error f => rw [hr] at h; cases h
      | ok is =>
        rw [hr] at h
        simp only [Except.ok.injEq] at h
        subst h
        obtain ⟨a1, a2⟩ := trackInfos_ids hr
        cases o with
        | none => exact ⟨a1.cons _, a2⟩
        | some i =>
          obtain ⟨e1, a, b, e2⟩ := trackInfo_id hi
          constructor
          · simp only [Option.toList, List.singleton_append, List.map_cons, e1]
            exact a1.cons₂ _
          · intro j hj
            simp only [Option.toList, List.singleton_append, List.mem_cons] at hj
            rcases hj with rfl | hj
            · rw [e2]
              exact ⟨round100_idem _, round100_idem _⟩
            · exact a2 j hj

/-- **C135, the tracks of a file**: the used ones in the order of the file, each once. -/
theorem C135_tracks {onMap : St K → Bool} {off : K × K} {startOff : Int} {maxLen : K} {trs : List (Track K)} {infos}
    (h : trackInfos norm speed onMap off startOff maxLen trs = .ok infos) (hn : (trs.map Track.id).Nodup) :
    (infos.map Info.id).Sublist (trs.map Track.id) ∧ (infos.map Info.id).Nodup ∧
    ∀ tr ∈ trs, ∀ i, trackInfo norm speed onMap off startOff maxLen tr = .ok (some i) → i ∈ infos := by
  obtain ⟨a1, -⟩ := trackInfos_ids h
  refine ⟨a1, a1.nodup hn, ?_⟩
  intro tr htr i hi
  obtain ⟨os, hf, rfl⟩ := trackInfos_spec h
  obtain ⟨n, hlt, rfl⟩ := List.getElem_of_mem htr
  have hlt' : n < os.length := hf.length_eq ▸ hlt
  have := hf.get hlt hlt'
  simp only [List.get_eq_getElem] at this
  rw [hi] at this
  cases this' : os[n] with
  | none => rw [this'] at this; cases this
  | some j =>
    rw [this'] at this
    cases this
    rw [List.mem_flatMap]
    exact ⟨os[n], List.getElem_mem hlt', by rw [this']; simp⟩

end

/-! ### Decomposition -/

theorem findOthers_mem {infos : List Info} {ego o : Info} :
    o ∈ findOthers infos ego ↔ o ∈ infos ∧ o.id ≠ ego.id ∧ Overlap ego o := by
  unfold findOthers Overlap
  rw [List.mem_filter]
  simp only [Bool.not_eq_true', Bool.or_eq_false_iff, decide_eq_false_iff_not, not_le]
  constructor
  · rintro ⟨h1, ⟨h2, h3⟩, h4⟩
    exact ⟨h1, fun e => h2 e.symm, h3, h4⟩
  · rintro ⟨h1, h2, h3, h4⟩
    exact ⟨h1, ⟨fun e => h2 e.symm, h3⟩, h4⟩

theorem putInfo_fresh {o : Info} : ∀ {l : List Info}, (∀ p ∈ l, p.id ≠ o.id) → putInfo o l = l ++ [o]
  | [], _ => rfl
  | p :: l, h => by
    unfold putInfo
    rw [if_neg (h p (by simp)), putInfo_fresh fun q hq => h q (by simp [hq])]
    rfl

theorem addOthers_ok : ∀ {os : List Info} {s : ScenInfo}, (∀ o ∈ os, o.start ≤ s.stop) →
    ((s.others ++ os).map Info.id).Nodup → addOthers s os = .ok { s with others := s.others ++ os }
  | [], s, _, _ => by simp [addOthers]
  | o :: os, s, h, hn => by
    have e : addOther s o = .ok { s with others := s.others ++ [o] } := by
      unfold addOther
      rw [if_neg (not_lt.2 (h o (by simp))), putInfo_fresh]
      intro p hp hid
      rw [List.map_append, List.nodup_append] at hn
      exact hn.2.2 p.id (List.mem_map.2 ⟨p, hp, rfl⟩) o.id (by simp) hid
    unfold addOthers
    rw [e]
    simp only
    rw [addOthers_ok]
    · simp
    · intro p hp
      exact h p (by simp [hp])
    · simpa using hn

theorem mapM_ok_forall₂ {α β : Type} {f : α → Res β} : ∀ {l : List α}, (∀ a ∈ l, ∃ b, f a = .ok b) →
    ∃ bs, l.mapM f = .ok bs ∧ List.Forall₂ (fun a b => f a = .ok b) l bs
  | [], _ => ⟨[], rfl, .nil⟩
  | a :: l, h => by
    obtain ⟨b, hb⟩ := h a (by simp)
    obtain ⟨bs, h1, h2⟩ := mapM_ok_forall₂ (f := f) (l := l) fun x hx => h x (by simp [hx])
    refine ⟨b :: bs, ?_, .cons hb h2⟩
    rw [List.mapM_cons, hb]
    simp only [bind, Except.bind, pure, Except.pure, h1]

/-- **C135.** Decomposing a file with the given used tracks gives one scenario per track, in order, over its time span;
the other agents of a scenario are exactly the other tracks whose time spans overlap with it. -/
theorem C135_decompose {infos : List Info} (hn : (infos.map Info.id).Nodup)
    (hr : ∀ i ∈ infos, round100 i.start = i.start ∧ round100 i.stop = i.stop) :
    ∃ ss, decompose infos = .ok ss ∧ List.Forall₂ (fun e s => s.ego = e ∧ s.start = e.start ∧ s.stop = e.stop ∧
      (s.others.map Info.id).Nodup ∧ s.others.Sublist infos ∧
      ∀ o, o ∈ s.others ↔ o ∈ infos ∧ o.id ≠ e.id ∧ Overlap e o) infos ss := by
  have key : ∀ e ∈ infos, addOthers (mkScen e) (findOthers infos e) =
      .ok ⟨e, e.start, e.stop, findOthers infos e⟩ := by
    intro e he
    have hsub : (findOthers infos e).Sublist infos := List.filter_sublist
    rw [addOthers_ok]
    · simp [mkScen, hr e he]
    · intro o ho
      have := (findOthers_mem.1 ho).2.2.2
      simp only [mkScen, (hr e he).2]
      omega
    · simp only [mkScen, List.nil_append]
      exact (hsub.map _).nodup hn
  obtain ⟨ss, h1, h2⟩ := mapM_ok_forall₂ (f := fun e => addOthers (mkScen e) (findOthers infos e)) (l := infos)
    fun e he => ⟨_, key e he⟩
  refine ⟨ss, h1, ?_⟩
  have h3 : List.Forall₂ (fun e s => e ∈ infos ∧ addOthers (mkScen e) (findOthers infos e) = .ok s) infos ss := by
    rw [List.forall₂_iff_get] at h2 ⊢
    refine ⟨h2.1, fun i hi hi' => ⟨?_, h2.2 i hi hi'⟩⟩
    exact List.getElem_mem hi
  refine h3.imp ?_
  rintro e s ⟨he, hs⟩
  rw [key e he] at hs
  cases hs
  have hsub : (findOthers infos e).Sublist infos := List.filter_sublist
  exact ⟨rfl, rfl, rfl, (hsub.map _).nodup hn, hsub, fun o => findOthers_mem⟩

/-- Being in each other's scenario is mutual. -/
theorem C135_mutual {infos : List Info} (hn : (infos.map Info.id).Nodup)
    (hr : ∀ i ∈ infos, round100 i.start = i.start ∧ round100 i.stop = i.stop) {ss}
    (h : decompose infos = .ok ss) {s t : ScenInfo} (hs : s ∈ ss) (ht : t ∈ ss) :
    t.ego ∈ s.others ↔ s.ego ∈ t.others := by
  obtain ⟨ss', h', hf⟩ := C135_decompose hn hr
  rw [h'] at h
  cases h
  have get : ∀ s ∈ ss, s.ego ∈ infos ∧ ∀ o, o ∈ s.others ↔ o ∈ infos ∧ o.id ≠ s.ego.id ∧ Overlap s.ego o := by
    intro s hs
    obtain ⟨i, hi, rfl⟩ := List.getElem_of_mem hs
    have hi' : i < infos.length := hf.length_eq ▸ hi
    have := hf.get hi' hi
    simp only [List.get_eq_getElem] at this
    obtain ⟨e1, -, -, -, -, e2⟩ := this
    rw [e1]
    exact ⟨List.getElem_mem hi', e2⟩
  obtain ⟨s1, s2⟩ := get s hs
  obtain ⟨t1, t2⟩ := get t ht
  rw [s2, t2]
  constructor
  · rintro ⟨-, h2, h3, h4⟩
    exact ⟨s1, Ne.symm h2, h4, h3⟩
  · rintro ⟨-, h2, h3, h4⟩
    exact ⟨t1, Ne.symm h2, h4, h3⟩

/-- three tracks, the first and the third do not overlap -/
example : (decompose [⟨1, 0, 1000⟩, ⟨2, 500, 2000⟩, ⟨5, 1000, 3000⟩]).map (fun l => l.map fun s => s.others.map Info.id) =
    .ok [[2], [1, 5], [2]] := by decide +kernel

end Bark.Data
