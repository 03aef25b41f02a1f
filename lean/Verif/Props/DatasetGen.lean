import Verif.Props.Dataset

/-!
C136 – scenarios generated from track files. C137 – replaying chosen tracks.
-/
set_option linter.unusedSectionVars false
namespace Bark.Data
open Spec

section
variable {K : Type} [Field K] [LinearOrder K] [IsStrictOrderedRing K] {norm : K → K} {speed : K → K → K}

/-- the beginning of the time span of an agent of the scenario -/
def beginOf (s : ScenInfo) (id : Nat) : Int :=
  match s.others.find? fun o => o.id = id with
  | some o => o.start
  | none => s.start

theorem initStart_eq (s : ScenInfo) (id : Nat) : initStart s id = max s.start (beginOf s id) := by
  unfold initStart beginOf
  cases s.others.find? fun o => o.id = id with
  | none => simp
  | some o =>
    simp only
    by_cases g : o.start < s.start
    · rw [if_pos g, max_eq_left g.le]
    · rw [if_neg g, max_eq_right (not_lt.1 g)]

theorem beginOf_begins {s : ScenInfo} {id : Nat} (h : id ∈ s.others.map Info.id ++ [s.ego.id]) :
    Begins s id (beginOf s id) := by
  unfold beginOf
  cases hf : s.others.find? fun o => o.id = id with
  | none =>
    rcases List.mem_append.1 h with h | h
    · obtain ⟨o, ho, rfl⟩ := List.mem_map.1 h
      have := List.find?_eq_none.1 hf o ho
      simp at this
    · exact Or.inl ⟨by simpa using h, rfl⟩
  | some o =>
    have h2 := List.find?_some hf
    exact Or.inr ⟨o, List.mem_of_find?_eq_some hf, by simpa using h2, rfl⟩

theorem map_of_forall₂ {α β : Type} {f : β → α} : ∀ {l : List α} {as : List β}, List.Forall₂ (fun x a => f a = x) l as →
    as.map f = l
  | [], _, h => by cases h; rfl
  | x :: l, _, h => by
    cases h with
    | cons h1 h2 => rw [List.map_cons, h1, map_of_forall₂ h2]

theorem forall₂_mem_left {α β : Type} {r : α → β → Prop} {l : List α} {as : List β} (h : List.Forall₂ r l as) :
    List.Forall₂ (fun x a => x ∈ l ∧ r x a) l as := by
  rw [List.forall₂_iff_get] at h ⊢
  exact ⟨h.1, fun i hi hi' => ⟨List.getElem_mem hi, h.2 i hi hi'⟩⟩

theorem min_exists : ∀ {ms : List (Motion K)}, ms ≠ [] → ∃ m0 ∈ ms, ∀ m ∈ ms, m0.t ≤ m.t := by
  intro ms h
  obtain ⟨t, ht⟩ := minTime_isSome h
  obtain ⟨⟨m, hm, e⟩, hall⟩ := minTime_spec ht
  exact ⟨m, hm, fun x hx => e ▸ hall x hx⟩

theorem agentFrom_spec {off : K × K} {trs : List (Track K)} {s : ScenInfo} {model : Bool} {id : Nat} {a : Made K}
    (h : agentFrom norm speed off trs s model id = .ok a) :
    a.firstValid = none ∧ ∃ tr ∈ trs, tr.id = id ∧ AgentOf norm speed off s (beginOf s id) model tr a := by
  unfold agentFrom at h
  split at h
  · cases hf : trs.find? fun tr => tr.id = id with
    | none => simp only [hf] at h; cases h
    | some tr =>
      simp only [hf] at h
      have htr := List.mem_of_find?_eq_some hf
      have hid := List.find?_some hf
      simp only [decide_eq_true_eq] at hid
      obtain ⟨rows, hrows, hrep⟩ := C134_trajectory (norm := norm) (speed := speed) off s.start s.stop tr.motions
      rw [hrows] at h
      cases hi : initState norm speed off (initStart s id) tr.motions with
      | error f => simp only [hi] at h; cases h
      | ok i =>
        simp only [hi] at h
        cases hl : tr.motions.getLast? with
        | none => simp only [goalCenter, hl] at h; cases h
        | some l =>
          simp only [goalCenter, hl, Except.ok.injEq] at h
          subst h
          refine ⟨rfl, tr, htr, hid, ?_⟩
          have hne : tr.motions ≠ [] := by
            intro e
            rw [e] at hl
            cases hl
          obtain ⟨m0, hm0, hmin⟩ := min_exists hne
          obtain ⟨m, hm, ht, hsh⟩ := (C134_init off (initStart s id) hm0 hmin).1 i hi
          rw [initStart_eq] at ht
          constructor
          · exact hid.symm
          · intro e
            simp [e]
          · intro e
            exact ⟨rows, by simp [e], hrep⟩
          · refine ⟨m, hm, hsh, ?_, ?_⟩
            · rw [ht]
              exact le_max_left _ _
            · rcases le_total (max s.start (beginOf s id)) m0.t with g | g
              · right
                rw [ht, max_eq_right g]
                exact hmin
              · left
                rw [ht, max_eq_left g]
          · simp only
            ring
          · simp only
            ring
          · exact ⟨l, hl, rfl⟩
  · cases h

/-- when an agent takes part, relative to the beginning of the scenario -/
theorem timeOffset_spec {s : ScenInfo} {id : Nat} {v : K} (h : timeOffset (K := K) s id = .ok v)
    (hego : ∀ o ∈ s.others, o.id ≠ s.ego.id) : v * 1000 = ((beginOf s id - s.start : Int) : K) := by
  unfold timeOffset at h
  unfold beginOf
  by_cases g : id = s.ego.id
  · rw [if_pos g] at h
    cases h
    have : s.others.find? (fun o => o.id = id) = none := by
      rw [List.find?_eq_none]
      intro o ho
      simp only [decide_eq_true_eq]
      rw [g]
      exact hego o ho
    simp [this]
  · rw [if_neg g] at h
    cases hf : s.others.find? fun o => o.id = id with
    | none => simp only [hf] at h; cases h
    | some o =>
      simp only [hf, Except.ok.injEq] at h
      subst h
      simp only
      rw [div_mul_cancel₀]
      norm_num

theorem makeAgents_spec {off : K × K} {trs : List (Track K)} {s : ScenInfo} {model : Bool}
    (hego : ∀ o ∈ s.others, o.id ≠ s.ego.id) : ∀ {ids : List Nat} {as},
    makeAgents norm speed off trs s model ids = .ok as →
    List.Forall₂ (fun id a => ∃ tr ∈ trs, tr.id = id ∧
      AgentOf norm speed off s (beginOf s id) (model && decide (id ≠ s.ego.id)) tr a ∧
      ∃ v, a.firstValid = some v ∧ v * 1000 = ((beginOf s id - s.start : Int) : K)) ids as
  | [], as, h => by
    simp only [makeAgents, Except.ok.injEq] at h
    subst h
    exact .nil
  | id :: ids, as, h => by
    unfold makeAgents at h
    cases ha : agentFrom norm speed off trs s (model && decide (id ≠ s.ego.id)) id with
    | error f =>
      rw [ha] at h
      cases h
    | ok a =>
      cases hv : timeOffset (K := K) s id with
      | error f => rw [ha, hv] at h; cases h
      | ok v =>
        rw [ha, hv] at h
        simp only at h
        cases hr : makeAgents norm speed off trs s model ids with
        | error f => rw [hr] at h; cases h
        | ok as' =>
          rw [hr] at h
          simp only [Except.ok.injEq] at h
          subst h
          obtain ⟨-, tr, htr, hid, hA⟩ := agentFrom_spec ha
          refine .cons ⟨tr, htr, hid, ?_, v, rfl, timeOffset_spec hv hego⟩ (makeAgents_spec hego hr)
          exact ⟨hA.id, hA.modelled, hA.recorded, hA.init, hA.width, hA.length, hA.goal⟩

/-- **C136, one scenario.** Its agents are the other tracks and the ego, each once; each replays its track over the time
span of the scenario (or follows the behavior model, except for the ego), starts with its recorded state, and becomes
valid when its time span begins; the ego is the evaluated agent. -/
theorem C136_scenario {off : K × K} {trs : List (Track K)} {model : Bool} {s : ScenInfo} {sc : Scen K}
    (h : singleScenario norm speed off trs model s = .ok sc) (hego : ∀ o ∈ s.others, o.id ≠ s.ego.id)
    (hn : (s.others.map Info.id).Nodup) :
    sc.evalIds = [s.ego.id] ∧ (sc.agents.map Made.id).Nodup ∧
    List.Forall₂ (fun id a => ∃ tr ∈ trs, tr.id = id ∧ a.id = id ∧ ∃ t, Begins s id t ∧
      AgentOf norm speed off s t (model && decide (id ≠ s.ego.id)) tr a ∧
      ∃ v, a.firstValid = some v ∧ v * 1000 = ((t - s.start : Int) : K))
      (s.others.map Info.id ++ [s.ego.id]) sc.agents := by
  unfold singleScenario at h
  cases hs : sane s with
  | error f => rw [hs] at h; cases h
  | ok u =>
    rw [hs] at h
    simp only at h
    cases ha : makeAgents norm speed off trs s model (s.others.map Info.id ++ [s.ego.id]) with
    | error f => rw [ha] at h; cases h
    | ok as =>
      rw [ha] at h
      simp only [Except.ok.injEq] at h
      subst h
      have hf := makeAgents_spec hego ha
      refine ⟨rfl, ?_, ?_⟩
      · have hids : as.map Made.id = s.others.map Info.id ++ [s.ego.id] :=
          map_of_forall₂ (hf.imp fun id a ⟨_, _, h1, h2, _⟩ => h2.id.trans h1)
        rw [hids, List.nodup_append]
        refine ⟨hn, by simp, ?_⟩
        intro x hx y hy
        simp only [List.mem_singleton] at hy
        subst hy
        obtain ⟨o, ho, rfl⟩ := List.mem_map.1 hx
        exact hego o ho
      · refine (forall₂_mem_left hf).imp ?_
        rintro id a ⟨hm, tr, h1, h2, h3, h4⟩
        exact ⟨tr, h1, h2, h3.id.trans h2, _, beginOf_begins hm, h3, h4⟩

/-! ### The loop over the scenarios -/

theorem fileLoop_spec {off : K × K} {trs : List (Track K)} {model : Bool} {num : Nat} {excluded : List Nat} :
    ∀ {ss : List ScenInfo} {i : Nat} {r}, fileLoop norm speed off trs model num excluded i ss = .ok r →
    List.Forall₂ (fun s sc => singleScenario norm speed off trs model s = .ok sc)
      ((ss.take (num - i)).takeWhile fun s => decide (s.ego.id ∉ excluded)) r
  | [], i, r, h => by
    simp only [fileLoop, Except.ok.injEq] at h
    subst h
    simp
  | s :: ss, i, r, h => by
    unfold fileLoop at h
    by_cases g : i < num ∧ s.ego.id ∉ excluded
    · rw [if_pos g] at h
      cases hs : singleScenario norm speed off trs model s with
      | error f => rw [hs] at h; cases h
      | ok sc =>
        rw [hs] at h
        simp only at h
        cases hr : fileLoop norm speed off trs model num excluded (i + 1) ss with
        | error f => rw [hr] at h; cases h
        | ok r' =>
          rw [hr] at h
          simp only [Except.ok.injEq] at h
          subst h
          have e : num - i = (num - (i + 1)) + 1 := by omega
          rw [e, List.take_succ_cons, List.takeWhile_cons, if_pos (by simpa using g.2)]
          exact .cons hs (fileLoop_spec hr)
    · rw [if_neg g] at h
      cases h
      by_cases g1 : i < num
      · have g2 : s.ego.id ∈ excluded := by
          by_contra g2
          exact g ⟨g1, g2⟩
        have e : num - i = (num - (i + 1)) + 1 := by omega
        rw [e, List.take_succ_cons, List.takeWhile_cons, if_neg (by simpa using g2)]
        exact .nil
      · have e : num - i = 0 := by omega
        rw [e]
        exact .nil

theorem fileLoop_ok {off : K × K} {trs : List (Track K)} {model : Bool} {num : Nat} {excluded : List Nat} :
    ∀ {ss : List ScenInfo} (i : Nat), (∀ s ∈ ss, ∃ sc, singleScenario norm speed off trs model s = .ok sc) →
    ∃ r, fileLoop norm speed off trs model num excluded i ss = .ok r
  | [], i, _ => ⟨[], rfl⟩
  | s :: ss, i, h => by
    unfold fileLoop
    by_cases g : i < num ∧ s.ego.id ∉ excluded
    · rw [if_pos g]
      obtain ⟨sc, hs⟩ := h s (by simp)
      obtain ⟨r, hr⟩ := fileLoop_ok (num := num) (excluded := excluded) (ss := ss) (i + 1)
        fun x hx => h x (by simp [hx])
      rw [hs]
      simp only [hr]
      exact ⟨_, rfl⟩
    · rw [if_neg g]
      exact ⟨_, rfl⟩

/-- **C136.** The scenarios made from one file, as they are: one for each used track, in order, up to the wanted number
– and up to the first excluded track. Each is the scenario of C135 for this track. -/
theorem C136_file {onMap : St K → Bool} {c : Config K} {num : Nat} {trs : List (Track K)} {r : List (Scen K)} {infos}
    (hi : trackInfos norm speed onMap c.off c.startOff c.maxLen trs = .ok infos)
    (hn : (trs.map Track.id).Nodup) (h : fileScenarios norm speed onMap c num trs = .ok r) :
    ∃ ss, decompose infos = .ok ss ∧ List.Forall₂ (fun e s => ScenInfo.ego s = e) infos ss ∧
      List.Forall₂ (fun s sc => singleScenario norm speed c.off trs c.model s = .ok sc ∧ sc.evalIds = [s.ego.id])
        ((ss.take num).takeWhile fun s => decide (s.ego.id ∉ c.excluded)) r ∧
      r.map Scen.evalIds = (((infos.take num).map Info.id).takeWhile fun i => decide (i ∉ c.excluded)).map fun i => [i] := by
  obtain ⟨a1, a2⟩ := trackInfos_ids hi
  obtain ⟨ss, h1, h2⟩ := C135_decompose (a1.nodup hn) a2
  unfold fileScenarios at h
  rw [hi] at h
  simp only [h1] at h
  have hf := fileLoop_spec h
  rw [Nat.sub_zero] at hf
  have hf' : List.Forall₂ (fun s sc => singleScenario norm speed c.off trs c.model s = .ok sc ∧ sc.evalIds = [s.ego.id])
      ((ss.take num).takeWhile fun s => decide (s.ego.id ∉ c.excluded)) r := by
    refine hf.imp ?_
    intro s sc hs
    refine ⟨hs, ?_⟩
    unfold singleScenario at hs
    cases hz : sane s with
    | error f => rw [hz] at hs; cases hs
    | ok u =>
      rw [hz] at hs
      simp only at hs
      cases hm : makeAgents norm speed c.off trs s c.model (s.others.map Info.id ++ [s.ego.id]) with
      | error f => rw [hm] at hs; cases hs
      | ok as => rw [hm] at hs; cases hs; rfl
  have hego : List.Forall₂ (fun e s => ScenInfo.ego s = e) infos ss := h2.imp fun e s hs => hs.1
  refine ⟨ss, h1, hego, hf', ?_⟩
  have hss : ss.map ScenInfo.ego = infos := map_of_forall₂ hego
  have e1 : r.map Scen.evalIds = ((ss.take num).takeWhile fun s => decide (s.ego.id ∉ c.excluded)).map
      fun s => [s.ego.id] := by
    apply map_of_forall₂
    rw [List.forall₂_map_left_iff]
    exact hf'.imp fun s sc hs => hs.2
  rw [e1, ← hss, ← List.map_take, List.map_map, List.takeWhile_map, List.map_map]
  rfl

theorem takeWhile_all {α : Type} {p : α → Bool} : ∀ {l : List α}, (∀ a ∈ l, p a = true) → l.takeWhile p = l
  | [], _ => rfl
  | a :: l, h => by rw [List.takeWhile_cons, if_pos (h a (by simp)), takeWhile_all fun x hx => h x (by simp [hx])]

/-- **C136** (without exclusions): exactly the first `num` used tracks. -/
theorem C136_partial {onMap : St K → Bool} {c : Config K} {num : Nat} {trs : List (Track K)} {r : List (Scen K)} {infos}
    (hi : trackInfos norm speed onMap c.off c.startOff c.maxLen trs = .ok infos)
    (hn : (trs.map Track.id).Nodup) (h : fileScenarios norm speed onMap c num trs = .ok r) (hx : c.excluded = []) :
    r.map Scen.evalIds = ((infos.take num).map Info.id).map fun i => [i] := by
  obtain ⟨ss, -, -, -, h4⟩ := C136_file hi hn h
  rw [h4, hx, takeWhile_all (by simp)]

/-- **C136 violated:** if the first used track is excluded, no scenario at all is made from the file. -/
theorem C136_excluded_violated {onMap : St K → Bool} {c : Config K} {trs : List (Track K)} {e : Info} {infos}
    (hi : trackInfos norm speed onMap c.off c.startOff c.maxLen trs = .ok (e :: infos))
    (hn : (trs.map Track.id).Nodup) (hx : e.id ∈ c.excluded) (num : Nat) :
    fileScenarios norm speed onMap c num trs = .ok [] := by
  obtain ⟨a1, a2⟩ := trackInfos_ids hi
  obtain ⟨ss, h1, h2⟩ := C135_decompose (a1.nodup hn) a2
  unfold fileScenarios
  rw [hi]
  simp only [h1]
  cases h2 with
  | cons hs _ =>
    unfold fileLoop
    rw [if_neg (by rw [hs.1]; exact fun g => g.2 hx)]

theorem create_append {onMap : St K → Bool} {c : Config K} {num : Nat} : ∀ {fs : List (List (Track K))} {r},
    createScenarios norm speed onMap c num fs = .ok r →
    ∃ rs, List.Forall₂ (fun f a => fileScenarios norm speed onMap c num f = .ok a) fs rs ∧ r = rs.flatten
  | [], r, h => by
    simp only [createScenarios, Except.ok.injEq] at h
    subst h
    exact ⟨[], .nil, rfl⟩
  | f :: fs, r, h => by
    unfold createScenarios at h
    cases ha : fileScenarios norm speed onMap c num f with
    | error e => rw [ha] at h; cases h
    | ok a =>
      rw [ha] at h
      simp only at h
      cases hb : createScenarios norm speed onMap c num fs with
      | error e => rw [hb] at h; cases h
      | ok b =>
        rw [hb] at h
        simp only [Except.ok.injEq] at h
        obtain ⟨rs, h1, h2⟩ := create_append hb
        exact ⟨a :: rs, .cons ha h1, by rw [← h, h2]; rfl⟩

/-- **C136, several files:** the scenarios of all files, one after the other. -/
theorem C136_files {onMap : St K → Bool} {c : Config K} {num : Nat} {fs : List (List (Track K))} {r}
    (h : createScenarios norm speed onMap c num fs = .ok r) :
    ∃ rs, List.Forall₂ (fun f a => fileScenarios norm speed onMap c num f = .ok a) fs rs ∧ r = rs.flatten :=
  create_append h

/-- **C136 violated:** the wanted number is a number per file: with the same file twice, whatever is made from it comes
twice, also if the number was reached with the first one. -/
theorem C136_number_violated {onMap : St K → Bool} {c : Config K} {trs : List (Track K)} {r : List (Scen K)}
    (h : fileScenarios norm speed onMap c r.length trs = .ok r) (hne : r ≠ []) :
    ∃ r', createScenarios norm speed onMap c r.length [trs, trs] = .ok r' ∧ r.length < r'.length := by
  refine ⟨r ++ (r ++ []), ?_, ?_⟩
  · unfold createScenarios createScenarios createScenarios
    rw [h]
  · have := List.length_pos_of_ne_nil hne
    simp
    omega

/-! ### When generation succeeds -/

theorem grid_at {ms : List (Motion K)} (h : Grid ms) {l m0 : Motion K} (hl : ms.getLast? = some l)
    (h0 : m0 ∈ ms) {q : Int} (h1 : m0.t ≤ 100 * q) (h2 : 100 * q ≤ l.t) : ∃ m ∈ ms, m.t = 100 * q := by
  obtain ⟨hne, q0, -, hg⟩ := h
  obtain ⟨j, hj, rfl⟩ := List.getElem_of_mem h0
  have e1 := hg j _ (List.getElem?_eq_getElem hj)
  rw [List.getLast?_eq_getElem?] at hl
  have e2 := hg _ _ hl
  have hlen := List.length_pos_of_ne_nil hne
  have hk : (q - q0).toNat < ms.length := by omega
  refine ⟨ms[(q - q0).toNat], List.getElem_mem hk, ?_⟩
  rw [hg _ _ (List.getElem?_eq_getElem hk)]
  omega

theorem grid_last {ms : List (Motion K)} (h : Grid ms) {l : Motion K} (hl : ms.getLast? = some l) :
    (∀ m ∈ ms, m.t ≤ l.t) ∧ ∃ q, l.t = 100 * q := by
  obtain ⟨hne, q0, -, hg⟩ := h
  rw [List.getLast?_eq_getElem?] at hl
  have e2 := hg _ _ hl
  refine ⟨?_, _, e2⟩
  intro m hm
  obtain ⟨j, hj, rfl⟩ := List.getElem_of_mem hm
  have e1 := hg j _ (List.getElem?_eq_getElem hj)
  omega

theorem rounded_hundred {t r : Int} (h : Rounded t r) (hq : ∃ q, t = 100 * q) : r = t := by
  obtain ⟨⟨a, rfl⟩, h1, h2⟩ := h
  obtain ⟨q, rfl⟩ := hq
  omega

/-- an info of a file belongs to a track of it -/
theorem info_track {onMap : St K → Bool} {off : K × K} {startOff : Int} {maxLen : K} {trs : List (Track K)} {infos}
    (h : trackInfos norm speed onMap off startOff maxLen trs = .ok infos) {i : Info} (hi : i ∈ infos) :
    ∃ tr ∈ trs, trackInfo norm speed onMap off startOff maxLen tr = .ok (some i) := by
  obtain ⟨os, hf, rfl⟩ := trackInfos_spec h
  obtain ⟨o, ho, hio⟩ := List.mem_flatMap.1 hi
  cases o with
  | none => simp at hio
  | some j =>
    simp only [Option.toList, List.mem_singleton] at hio
    subst hio
    obtain ⟨n, hn, e⟩ := List.getElem_of_mem ho
    have hn' : n < trs.length := hf.length_eq ▸ hn
    have := hf.get hn' hn
    simp only [List.get_eq_getElem, e] at this
    exact ⟨trs[n], List.getElem_mem hn', this⟩

theorem find_track {trs : List (Track K)} (hn : (trs.map Track.id).Nodup) {tr : Track K} (h : tr ∈ trs) :
    trs.find? (fun x => decide (x.id = tr.id)) = some tr := by
  cases hf : trs.find? fun x => decide (x.id = tr.id) with
  | none =>
    have := List.find?_eq_none.1 hf tr h
    simp at this
  | some x =>
    have h1 := List.mem_of_find?_eq_some hf
    have h2 := List.find?_some hf
    simp only [decide_eq_true_eq] at h2
    rw [List.inj_on_of_nodup_map hn h1 h h2]

theorem makeAgents_ok {off : K × K} {trs : List (Track K)} {s : ScenInfo} {model : Bool} : ∀ {ids : List Nat},
    (∀ id ∈ ids, ∀ b, ∃ a, agentFrom norm speed off trs s b id = .ok a) →
    (∀ id ∈ ids, ∃ v, timeOffset (K := K) s id = .ok v) →
    ∃ as, makeAgents norm speed off trs s model ids = .ok as
  | [], _, _ => ⟨[], rfl⟩
  | id :: ids, h1, h2 => by
    obtain ⟨a, ha⟩ := h1 id (by simp) (model && decide (id ≠ s.ego.id))
    obtain ⟨v, hv⟩ := h2 id (by simp)
    obtain ⟨as, hr⟩ := makeAgents_ok (model := model) (ids := ids) (fun x hx => h1 x (by simp [hx]))
      (fun x hx => h2 x (by simp [hx]))
    unfold makeAgents
    rw [ha, hv]
    simp only [hr]
    exact ⟨_, rfl⟩

/-- **C136, success.** If all tracks are recorded every 100 ms without gaps, the starting offset is a non-negative
multiple of 100 ms and every used track is still recorded after it, generation succeeds for every wanted number and
every exclusion. -/
theorem C136_succeeds {onMap : St K → Bool} {c : Config K} {trs : List (Track K)} (hn : (trs.map Track.id).Nodup)
    (hg : ∀ tr ∈ trs, Grid tr.motions) (ho : 0 ≤ c.startOff) (hq : ∃ q, c.startOff = 100 * q)
    (hlong : ∀ tr ∈ trs, ∀ m l, FirstOnMap (onM norm speed onMap c.off) tr.motions m → tr.motions.getLast? = some l →
      m.t + c.startOff ≤ l.t) (num : Nat) : ∃ r, fileScenarios norm speed onMap c num trs = .ok r := by
  have hlast : ∀ tr ∈ trs, ∃ l, tr.motions.getLast? = some l := by
    intro tr htr
    cases h : tr.motions.getLast? with
    | none => exact absurd (List.getLast?_eq_none_iff.1 h) (hg tr htr).1
    | some l => exact ⟨l, rfl⟩
  have hinfos : ∀ ts : List (Track K), (∀ tr ∈ ts, tr ∈ trs) →
      ∃ infos, trackInfos norm speed onMap c.off c.startOff c.maxLen ts = .ok infos := by
    intro ts
    induction ts with
    | nil => exact fun _ => ⟨[], rfl⟩
    | cons tr ts ih =>
      intro h
      obtain ⟨l, hl⟩ := hlast tr (h tr (by simp))
      obtain ⟨-, -, o, hor⟩ := C135_used (norm := norm) (speed := speed) (onMap := onMap) (off := c.off)
        (startOff := c.startOff) (maxLen := c.maxLen) hl (grid_last (hg tr (h tr (by simp))) hl).1
      obtain ⟨is, his⟩ := ih fun x hx => h x (by simp [hx])
      unfold trackInfos
      rw [hor]
      simp only [his]
      exact ⟨_, rfl⟩
  obtain ⟨infos, hi⟩ := hinfos trs fun _ h => h
  obtain ⟨a1, a2⟩ := trackInfos_ids hi
  obtain ⟨ss, h1, h2⟩ := C135_decompose (a1.nodup hn) a2
  -- what is known of an info
  have hinfo : ∀ i ∈ infos, ∃ tr ∈ trs, i.id = tr.id ∧ (∃ q, i.start = 100 * q) ∧ (∃ m ∈ tr.motions, m.t ≤ i.start) ∧
      i.start ≤ i.stop ∧ tr.motions ≠ [] ∧ ∀ l, tr.motions.getLast? = some l → l.t = i.stop := by
    intro i hmem
    obtain ⟨tr, htr, ht⟩ := info_track hi hmem
    obtain ⟨l, hl⟩ := hlast tr htr
    obtain ⟨g1, g2⟩ := grid_last (hg tr htr) hl
    obtain ⟨-, -, m, hm, hid, hr1, hr2⟩ := (C135_used (norm := norm) (speed := speed) hl g1).1 i ht
    obtain ⟨j, hj, h0, hon, hbefore⟩ := hm
    have hmq : ∃ q, m.t + c.startOff = 100 * q := by
      obtain ⟨-, q0, -, hgr⟩ := hg tr htr
      obtain ⟨q, hq⟩ := hq
      exact ⟨q0 + j + q, by rw [hgr j m hj, hq]; ring⟩
    have es := rounded_hundred hr1 hmq
    have ee := rounded_hundred hr2 g2
    have hle := hlong tr htr m l ⟨j, hj, h0, hon, hbefore⟩ hl
    refine ⟨tr, htr, hid, es ▸ hmq, ⟨m, List.mem_of_getElem? hj, by omega⟩, by omega, (hg tr htr).1, ?_⟩
    intro l' hl'
    rw [hl] at hl'
    cases hl'
    exact ee.symm
  have hall : ∀ s ∈ ss, ∃ sc, singleScenario norm speed c.off trs c.model s = .ok sc := by
    intro s hs
    obtain ⟨k, hk, rfl⟩ := List.getElem_of_mem hs
    have hk' : k < infos.length := h2.length_eq ▸ hk
    have hspec := h2.get hk' hk
    simp only [List.get_eq_getElem] at hspec
    obtain ⟨p1, p2, p3, p4, p5, p6⟩ := hspec
    generalize ss[k] = s at *
    have hemem : infos[k] ∈ infos := List.getElem_mem hk'
    generalize infos[k] = e at *
    have hsane : sane s = .ok () := by
      unfold sane
      rw [p1, p2, p3]
      simp
    have hagent : ∀ i ∈ infos, i = e ∨ i ∈ s.others → ∀ b, ∃ a, agentFrom norm speed c.off trs s b i.id = .ok a := by
      intro i hmem hcase b
      obtain ⟨tr, htr, hid, ⟨q, hq⟩, ⟨m0', hm0', hm0le⟩, hle, hne, hst⟩ := hinfo i hmem
      obtain ⟨te, -, -, ⟨qe, hqe⟩, -, hlee, -, -⟩ := hinfo e hemem
      obtain ⟨l, hl⟩ := hlast tr htr
      obtain ⟨m0, hm0, hmin⟩ := min_exists hne
      have hstart : ∃ q, initStart s i.id = 100 * q ∧ m0.t ≤ 100 * q ∧ 100 * q ≤ l.t := by
        rw [initStart_eq]
        unfold beginOf
        have hl' := hst l hl
        have hm : m0.t ≤ m0'.t := hmin m0' hm0'
        cases hf : s.others.find? fun o => o.id = i.id with
        | none =>
          rcases hcase with rfl | hin
          · simp only [max_self, p2]
            exact ⟨q, hq, by omega, by omega⟩
          · have := List.find?_eq_none.1 hf i hin
            simp at this
        | some o =>
          simp only
          have ho1 := List.mem_of_find?_eq_some hf
          have ho2 := List.find?_some hf
          simp only [decide_eq_true_eq] at ho2
          have hoi : o = i := List.inj_on_of_nodup_map (a1.nodup hn) (p6 o |>.1 ho1).1 hmem ho2
          subst hoi
          have hov := (p6 o |>.1 ho1).2.2
          unfold Overlap at hov
          rw [p2]
          rcases le_total e.start o.start with g | g
          · rw [max_eq_right g]
            exact ⟨q, hq, by omega, by omega⟩
          · rw [max_eq_left g]
            exact ⟨qe, hqe, by omega, by omega⟩
      obtain ⟨q1, e1, e2, e3⟩ := hstart
      obtain ⟨m, hm, hmt⟩ := grid_at (hg tr htr) hl hm0 e2 e3
      have hinit : ∃ st, initState norm speed c.off (initStart s i.id) tr.motions = .ok st := by
        obtain ⟨-, b2, b3⟩ := C134_init (norm := norm) (speed := speed) c.off (initStart s i.id) hm0 hmin
        rcases b3 with b3 | b3
        · exact b3
        · exact absurd (by rw [e1, max_eq_left e2]; exact hmt) (b2.1 b3 m hm)
      obtain ⟨st, hst'⟩ := hinit
      obtain ⟨rows, hrows, -⟩ := C134_trajectory (norm := norm) (speed := speed) c.off s.start s.stop tr.motions
      have hknown : i.id = s.ego.id ∨ (s.others.any fun o => o.id = i.id) = true := by
        rcases hcase with rfl | hin
        · left
          rw [p1]
        · right
          rw [List.any_eq_true]
          exact ⟨i, hin, by simp⟩
      unfold agentFrom
      rw [if_pos hknown]
      have hft : trs.find? (fun x => decide (x.id = i.id)) = some tr := by
        rw [hid]
        exact find_track hn htr
      rw [hft]
      simp only [hrows, hst', goalCenter, hl]
      exact ⟨_, rfl⟩
    obtain ⟨as, has⟩ := makeAgents_ok (norm := norm) (speed := speed) (off := c.off) (trs := trs) (s := s)
      (model := c.model) (ids := s.others.map Info.id ++ [s.ego.id]) (by
        intro id hid
        rcases List.mem_append.1 hid with hid | hid
        · obtain ⟨o, ho', rfl⟩ := List.mem_map.1 hid
          exact hagent o ((p6 o).1 ho').1 (Or.inr ho')
        · simp only [List.mem_singleton] at hid
          rw [hid, p1]
          exact hagent e hemem (Or.inl rfl)) (by
        intro id hid
        unfold timeOffset
        by_cases g : id = s.ego.id
        · rw [if_pos g]
          exact ⟨_, rfl⟩
        · rw [if_neg g]
          rcases List.mem_append.1 hid with hid | hid
          · obtain ⟨o, ho', rfl⟩ := List.mem_map.1 hid
            cases hf : s.others.find? fun o' => o'.id = o.id with
            | none =>
              have := List.find?_eq_none.1 hf o ho'
              simp at this
            | some o' => exact ⟨_, rfl⟩
          · exact absurd (by simpa using hid) g)
    refine ⟨⟨as, [s.ego.id]⟩, ?_⟩
    unfold singleScenario
    rw [hsane]
    simp only [has]
  obtain ⟨r, hr⟩ := fileLoop_ok (norm := norm) (speed := speed) (off := c.off) (trs := trs) (model := c.model) (num := num)
    (excluded := c.excluded) 0 hall
  refine ⟨r, ?_⟩
  unfold fileScenarios
  rw [hi]
  simp only [h1]
  exact hr

/-! ### When it fails -/

theorem agentFrom_fails {off : K × K} {trs : List (Track K)} {s : ScenInfo} {b : Bool} {id : Nat}
    (h : ∀ tr ∈ trs, tr.id = id → ∀ m ∈ tr.motions, m.t < s.start) :
    ∀ a, agentFrom norm speed off trs s b id ≠ .ok a := by
  intro a ha
  obtain ⟨-, tr, htr, hid, hA⟩ := agentFrom_spec ha
  obtain ⟨m, hm, -, hle, -⟩ := hA.init
  have := h tr htr hid m hm
  have h2 := le_max_left s.start (beginOf s id)
  omega

theorem makeAgents_fails {off : K × K} {trs : List (Track K)} {s : ScenInfo} {model : Bool} {id : Nat}
    (h : ∀ b a, agentFrom norm speed off trs s b id ≠ .ok a) : ∀ {ids : List Nat}, id ∈ ids →
    ∀ as, makeAgents norm speed off trs s model ids ≠ .ok as
  | x :: ids, hm, as => by
    intro hmk
    unfold makeAgents at hmk
    cases ha : agentFrom norm speed off trs s (model && decide (x ≠ s.ego.id)) x with
    | error f => rw [ha] at hmk; cases hmk
    | ok a =>
      cases hv : timeOffset (K := K) s x with
      | error f => rw [ha, hv] at hmk; cases hmk
      | ok v =>
        rw [ha, hv] at hmk
        simp only at hmk
        cases hr : makeAgents norm speed off trs s model ids with
        | error f => rw [hr] at hmk; cases hmk
        | ok as' =>
          rcases List.mem_cons.1 hm with rfl | hm
          · exact h _ _ ha
          · exact makeAgents_fails h hm as' hr

/-- **C136 violated:** one used track that is not recorded after the starting offset any more makes generation fail
for the whole file, whatever the other tracks are (if it is reached by the loop). -/
theorem C136_short_track_violated {onMap : St K → Bool} {c : Config K} {num : Nat} {trs : List (Track K)} {infos}
    (hi : trackInfos norm speed onMap c.off c.startOff c.maxLen trs = .ok infos) (hn : (trs.map Track.id).Nodup)
    (hx : c.excluded = []) {k : Nat} {e : Info} (hk : infos[k]? = some e) (hnum : k < num)
    (hshort : ∀ tr ∈ trs, tr.id = e.id → ∀ m ∈ tr.motions, m.t < e.start) :
    ∀ r, fileScenarios norm speed onMap c num trs ≠ .ok r := by
  intro r h
  obtain ⟨ss, h1, hego, hf, -⟩ := C136_file hi hn h
  rw [hx] at hf
  have htw : ((ss.take num).takeWhile fun s => decide (s.ego.id ∉ ([] : List Nat))) = ss.take num :=
    takeWhile_all (by simp)
  rw [htw] at hf
  obtain ⟨a1, a2⟩ := trackInfos_ids hi
  obtain ⟨ss', h1', h2⟩ := C135_decompose (a1.nodup hn) a2
  rw [h1] at h1'
  cases h1'
  have hki : k < infos.length := (List.getElem?_eq_some_iff.1 hk).1
  have hks : k < ss.length := h2.length_eq ▸ hki
  have hspec := h2.get hki hks
  simp only [List.get_eq_getElem] at hspec
  have he : infos[k] = e := (List.getElem?_eq_some_iff.1 hk).2
  rw [he] at hspec
  have hkt : k < (ss.take num).length := by
    rw [List.length_take]
    omega
  have hkr : k < r.length := hf.length_eq ▸ hkt
  have hsc := hf.get hkt hkr
  simp only [List.get_eq_getElem, List.getElem_take] at hsc
  have hs := hsc.1
  unfold singleScenario at hs
  cases hz : sane ss[k] with
  | error f => rw [hz] at hs; cases hs
  | ok u =>
    rw [hz] at hs
    simp only at hs
    cases hm : makeAgents norm speed c.off trs ss[k] c.model (ss[k].others.map Info.id ++ [ss[k].ego.id]) with
    | error f => rw [hm] at hs; cases hs
    | ok as =>
      refine makeAgents_fails (id := ss[k].ego.id) ?_ (by simp) as hm
      intro b
      apply agentFrom_fails
      rw [hspec.1, hspec.2.1]
      exact hshort


/-! ### Replaying chosen tracks -/

theorem replayAgents_spec {off : K × K} {trs : List (Track K)} {s : ScenInfo} {models : List Nat} :
    ∀ {ids : List Nat} {as}, replayAgents norm speed off trs s models ids = .ok as →
    List.Forall₂ (fun id a => ∃ tr ∈ trs, tr.id = id ∧
      AgentOf norm speed off s (beginOf s id) (decide (id ∈ models)) tr a) ids as
  | [], as, h => by
    simp only [replayAgents, Except.ok.injEq] at h
    subst h
    exact .nil
  | id :: ids, as, h => by
    unfold replayAgents at h
    cases ha : agentFrom norm speed off trs s (decide (id ∈ models)) id with
    | error f => rw [ha] at h; cases h
    | ok a =>
      rw [ha] at h
      simp only at h
      cases hr : replayAgents norm speed off trs s models ids with
      | error f => rw [hr] at h; cases h
      | ok as' =>
        rw [hr] at h
        simp only [Except.ok.injEq] at h
        subst h
        obtain ⟨-, tr, htr, hid, hA⟩ := agentFrom_spec ha
        exact .cons ⟨tr, htr, hid, hA⟩ (replayAgents_spec hr)

theorem putInfo_ids {o : Info} : ∀ {l : List Info}, (l.map Info.id).Nodup →
    ((putInfo o l).map Info.id).Nodup ∧ (∀ i, i ∈ (putInfo o l).map Info.id ↔ i ∈ l.map Info.id ∨ i = o.id) ∧
    ∀ p ∈ putInfo o l, p ∈ l ∨ p = o
  | [], _ => by simp [putInfo]
  | p :: l, h => by
    rw [List.map_cons, List.nodup_cons] at h
    unfold putInfo
    by_cases g : p.id = o.id
    · rw [if_pos g]
      refine ⟨?_, ?_, ?_⟩
      · rw [List.map_cons, List.nodup_cons]
        exact ⟨g ▸ h.1, h.2⟩
      · intro i
        rw [List.map_cons, List.map_cons, List.mem_cons, List.mem_cons, g]
        tauto
      · intro q hq
        rcases List.mem_cons.1 hq with h' | h'
        · exact Or.inr h'
        · exact Or.inl (by simp [h'])
    · rw [if_neg g]
      obtain ⟨a1, a2, a3⟩ := putInfo_ids (o := o) h.2
      refine ⟨?_, ?_, ?_⟩
      · rw [List.map_cons, List.nodup_cons, a2]
        refine ⟨?_, a1⟩
        rintro (h' | h')
        · exact h.1 h'
        · exact g h'
      · intro i
        rw [List.map_cons, List.mem_cons, a2, List.map_cons, List.mem_cons]
        tauto
      · intro q hq
        rcases List.mem_cons.1 hq with h' | h'
        · exact Or.inl (by simp [h'])
        · rcases a3 q h' with h'' | h''
          · exact Or.inl (by simp [h''])
          · exact Or.inr h''

theorem addOthers_ids : ∀ {os : List Info} {s s' : ScenInfo}, addOthers s os = .ok s' → (s.others.map Info.id).Nodup →
    s'.ego = s.ego ∧ s'.start = s.start ∧ s'.stop = s.stop ∧ (s'.others.map Info.id).Nodup ∧
    (∀ i, i ∈ s'.others.map Info.id ↔ i ∈ s.others.map Info.id ∨ i ∈ os.map Info.id) ∧
    ∀ p ∈ s'.others, p ∈ s.others ∨ p ∈ os
  | [], s, s', h, hn => by
    simp only [addOthers, Except.ok.injEq] at h
    subst h
    exact ⟨rfl, rfl, rfl, hn, by simp, fun p hp => Or.inl hp⟩
  | o :: os, s, s', h, hn => by
    unfold addOthers at h
    cases ha : addOther s o with
    | error f => rw [ha] at h; cases h
    | ok s1 =>
      rw [ha] at h
      simp only at h
      unfold addOther at ha
      by_cases g : s.stop < o.start
      · rw [if_pos g] at ha; cases ha
      · rw [if_neg g] at ha
        cases ha
        obtain ⟨p1, p2, p3⟩ := putInfo_ids (o := o) hn
        obtain ⟨a1, a2, a3, a4, a5, a6⟩ := addOthers_ids h p1
        refine ⟨a1, a2, a3, a4, ?_, ?_⟩
        · intro i
          rw [a5, p2, List.map_cons, List.mem_cons]
          tauto
        · intro p hp
          rcases a6 p hp with h' | h'
          · rcases p3 p h' with h' | h'
            · exact Or.inl h'
            · exact Or.inr (by simp [h'])
          · exact Or.inr (by simp [h'])

/-- **C137** (the ego is not among the chosen tracks; see the next theorem otherwise). Replaying gives one scenario with
an agent for every chosen track, once, and the ego, which is evaluated; each follows its model or its track from the
start to the end. -/
theorem C137_replay_partial {off : K × K} {trs : List (Track K)} {ids : List Nat} {e : Nat} {start stop : Int}
    {models : List Nat} {r}
    (h : replay norm speed off trs ids (some e) start (some stop) models 1 = .ok r) :
    ∃ sc s os, r = [sc] ∧ sc.evalIds = [e] ∧ os.Nodup ∧ (∀ i, i ∈ os ↔ i ∈ ids) ∧
      Rounded start s.start ∧ Rounded stop s.stop ∧ sc.agents.map Made.id = os ++ [e] ∧
      (e ∉ ids → (sc.agents.map Made.id).Nodup) ∧
      List.Forall₂ (fun id a => ∃ tr ∈ trs, tr.id = id ∧
        AgentOf norm speed off s s.start (decide (id ∈ models)) tr a) (os ++ [e]) sc.agents := by
  unfold replay at h
  rw [if_neg (by simp)] at h
  simp only at h
  cases hs : addOthers (mkScen (mkInfo e start stop)) (ids.map fun i => mkInfo i start stop) with
  | error f => rw [hs] at h; cases h
  | ok s =>
    rw [hs] at h
    simp only at h
    cases hz : sane s with
    | error f => rw [hz] at h; cases h
    | ok u =>
      rw [hz] at h
      simp only at h
      cases hm : replayAgents norm speed off trs s models (s.others.map Info.id ++ [e]) with
      | error f => rw [hm] at h; cases h
      | ok as =>
        rw [hm] at h
        simp only [Except.ok.injEq] at h
        obtain ⟨a1, a2, a3, a4, a5, a6⟩ := addOthers_ids hs (by simp [mkScen])
        have hmem : ∀ i, i ∈ s.others.map Info.id ↔ i ∈ ids := by
          intro i
          rw [a5]
          simp [mkScen, mkInfo]
        have hstart : s.start = round100 start := by
          rw [a2]
          exact round100_idem start
        have hstop : s.stop = round100 stop := by
          rw [a3]
          exact round100_idem stop
        have hbegin : ∀ id, beginOf s id = s.start := by
          intro id
          unfold beginOf
          cases hf : s.others.find? fun o => o.id = id with
          | none => rfl
          | some o =>
            simp only
            rcases a6 o (List.mem_of_find?_eq_some hf) with h' | h'
            · simp [mkScen] at h'
            · obtain ⟨i, -, rfl⟩ := List.mem_map.1 h'
              rw [hstart]
              rfl
        have hf := replayAgents_spec hm
        have hids : as.map Made.id = s.others.map Info.id ++ [e] :=
          map_of_forall₂ (hf.imp fun id a ⟨_, _, h1, h2⟩ => h2.id.trans h1)
        refine ⟨⟨as, [e]⟩, s, s.others.map Info.id, h.symm, rfl, a4, hmem, ?_, ?_, hids, ?_, ?_⟩
        · rw [hstart]
          exact round100_rounded start
        · rw [hstop]
          exact round100_rounded stop
        · intro he
          simp only
          rw [hids, List.nodup_append]
          refine ⟨a4, by simp, ?_⟩
          intro x hx y hy
          simp only [List.mem_singleton] at hy
          subst hy
          rintro rfl
          exact he ((hmem _).1 hx)
        · refine hf.imp ?_
          rintro id a ⟨tr, h1, h2, h3⟩
          rw [hbegin] at h3
          exact ⟨tr, h1, h2, h3⟩

/-- **C137 violated:** if the ego is among the chosen tracks, two agents of the scenario have its id. -/
theorem C137_ego_twice_violated {off : K × K} {trs : List (Track K)} {ids : List Nat} {e : Nat} {start stop : Int}
    {models : List Nat} {sc} (he : e ∈ ids)
    (h : replay norm speed off trs ids (some e) start (some stop) models 1 = .ok [sc]) :
    (sc.agents.map Made.id).count e = 2 := by
  obtain ⟨sc', s, os, h1, -, hn, hm, -, -, hids, -⟩ := C137_replay_partial h
  cases h1
  rw [hids, List.count_append, List.count_eq_one_of_mem hn ((hm e).2 he)]
  simp

/-- **C137 violated:** with the default end (none given) replaying always raises. -/
theorem C137_default_end_violated (off : K × K) (trs : List (Track K)) (ids : List Nat) (ego : Option Nat) (start : Int)
    (models : List Nat) (num : Nat) : replay norm speed off trs ids ego start none models num = .error .thrown := by
  unfold replay
  split
  · rfl
  · cases ego <;> rfl

/-- Other numbers than one scenario and a missing ego raise. -/
theorem C137_raises (off : K × K) (trs : List (Track K)) (ids : List Nat) (ego : Option Nat) (start : Int)
    (stop : Option Int) (models : List Nat) (num : Nat) (h : num ≠ 1 ∨ ego = none) :
    replay norm speed off trs ids ego start stop models num = .error .thrown := by
  unfold replay
  by_cases g : num ≠ 1
  · rw [if_pos g]
  · rw [if_neg g]
    rcases h with h | h
    · exact absurd h g
    · rw [h]

end

/-! ### A small file -/

/-- a motion at time `t` and place `x` -/
def mo (t : Int) (x : ℚ) : Motion ℚ := ⟨t, x, 0, 0, 3, 4⟩

/-- two cars recorded for a second each, the second one 500 ms later -/
def demo : List (Track ℚ) :=
  [⟨1, true, 4, 2, (List.range 11).map fun i => mo (100 * i) i⟩,
   ⟨2, true, 4, 2, (List.range 11).map fun i => mo (100 * (i + 5)) (i - 5)⟩]

/-- everything right of 2 is on the map -/
def demoMap (s : St ℚ) : Bool := decide (2 ≤ s.x)

def demoC : Config ℚ := ⟨(0, 0), 100, 5, false, []⟩

example : ((fileScenarios id (fun _ _ => 5) demoMap demoC 10 demo).map fun l => l.map fun s => s.agents.map fun a => a.id) =
    .ok [[1], [2]] := by decide +kernel

example : (trackInfos id (fun _ _ => 5) demoMap (0, 0) 100 5 demo) = .ok [⟨1, 300, 1000⟩, ⟨2, 1300, 1500⟩] := by
  decide +kernel

/-- with a larger starting offset the second car is over before its scenario begins: the whole file fails -/
example : ((fileScenarios id (fun _ _ => 5) demoMap { demoC with startOff := 500 } 10 demo).map fun l =>
    l.map fun s => s.agents.map fun a => a.id) = .error .thrown := by decide +kernel

/-- excluding the first car excludes the second one as well -/
example : ((fileScenarios id (fun _ _ => 5) demoMap { demoC with excluded := [1] } 10 demo).map fun l =>
    l.map fun s => s.agents.map fun a => a.id) = .ok [] := by decide +kernel

example : ((replay id (fun _ _ => 5) (0, 0) demo [1, 2] (some 1) 500 (some 900) [] 1).map fun l =>
    l.map fun s => s.agents.map fun a => a.id) = .ok [[1, 2, 1]] := by decide +kernel

end Bark.Data
