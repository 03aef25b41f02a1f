import Verif.Props.Bench
import Mathlib.Data.List.Nodup

/-!
Result archives: the lemmas behind C117, C118 and C120.
-/
set_option linter.unusedSectionVars false
namespace Bark.Bench

variable {V C H X : Type}

/-! ### Splitting -/

theorem chunks_spec {α : Type} {k : Nat} (hk : 0 < k) (n : Nat) (l : List α) (hn : l.length ≤ n) :
    (chunks k n l).flatten = l ∧ ∀ c ∈ chunks k n l, c ≠ [] := by
  induction n generalizing l with
  | zero =>
    have : l = [] := List.length_eq_zero_iff.1 (by omega)
    subst this; exact ⟨rfl, by simp [chunks]⟩
  | succ n ih =>
    match l with
    | [] => exact ⟨rfl, by simp [chunks]⟩
    | a :: l =>
      obtain ⟨h1, h2⟩ := ih ((a :: l).drop k) (by simp only [List.length_drop, List.length_cons] at hn ⊢; omega)
      unfold chunks
      refine ⟨by rw [List.flatten_cons, h1, List.take_append_drop], ?_⟩
      intro c hc
      rcases List.mem_cons.1 hc with rfl | hc
      · obtain ⟨m, rfl⟩ : ∃ m, k = m + 1 := ⟨k - 1, by omega⟩
        simp
      · exact h2 c hc

theorem addParts {ps : Parts X} (cs : List (List (Nat × X))) (hne : ∀ c ∈ cs, c ≠ []) (hnd : (cs.flatten.map Prod.fst).Nodup)
    (hps : ∀ p ∈ ps, ∀ c ∈ cs, p.1 ≠ c.map Prod.fst) :
    cs.foldl addPart ps = ps ++ cs.map (fun c => (c.map Prod.fst, c)) := by
  induction cs generalizing ps with
  | nil => simp
  | cons c cs ih =>
    have h1 : addPart ps c = ps ++ [(c.map Prod.fst, c)] := by
      unfold addPart
      rw [if_neg]
      intro h
      obtain ⟨p, hp, e⟩ := List.mem_map.1 h
      exact hps p hp c (by simp) e
    rw [List.foldl_cons, h1]
    simp only [List.flatten_cons, List.map_append] at hnd
    rw [List.nodup_append] at hnd
    rw [ih (fun c' h => hne c' (by simp [h])) hnd.2.1]
    · simp
    · intro p hp c' hc' e
      rcases List.mem_append.1 hp with hp | hp
      · exact hps p hp c' (by simp [hc']) e
      · simp only [List.mem_singleton] at hp
        subst hp
        simp only at e
        obtain ⟨x, hx⟩ := List.exists_mem_of_ne_nil _ (hne c (by simp))
        have a1 : x.1 ∈ c.map Prod.fst := List.mem_map_of_mem hx
        have a2 : x.1 ∈ c'.map Prod.fst := e ▸ a1
        obtain ⟨y, hy, ey⟩ := List.mem_map.1 a2
        exact hnd.2.2 x.1 a1 x.1 (List.mem_map.2 ⟨y, List.mem_flatten.2 ⟨c', hc', hy⟩, ey⟩) rfl

theorem insert_perm {k : Nat} {v : X} {m : OMap Nat X} (h : k ∉ m.map Prod.fst) : (OMap.insert k v m).Perm ((k, v) :: m) := by
  induction m with
  | nil => exact List.Perm.refl _
  | cons x m ih =>
    obtain ⟨k', v'⟩ := x
    simp only [List.map_cons, List.mem_cons, not_or] at h
    unfold OMap.insert
    by_cases g : k < k'
    · rw [if_pos g]
    · rw [if_neg g, if_neg h.1]
      exact ((ih h.2).cons _).trans (List.Perm.swap _ _ _)

theorem ofList_perm (items : List (Nat × X)) (m : OMap Nat X) (hnd : ((m ++ items).map Prod.fst).Nodup) :
    (items.foldl (fun m x => OMap.insert x.1 x.2 m) m).Perm (m ++ items) := by
  induction items generalizing m with
  | nil => simp
  | cons x items ih =>
    have hx : x.1 ∉ m.map Prod.fst := by
      rw [List.map_append, List.nodup_append] at hnd
      intro h
      exact hnd.2.2 x.1 h x.1 (by simp) rfl
    have hp := insert_perm (v := x.2) hx
    rw [List.foldl_cons]
    have hp2 : (OMap.insert x.1 x.2 m ++ items).Perm (m ++ x :: items) := by
      refine (hp.append_right items).trans ?_
      exact (List.perm_middle (l₁ := m) (l₂ := items) (a := x)).symm
    refine (ih _ ?_).trans hp2
    exact (hp2.map Prod.fst).nodup_iff.2 hnd

theorem ofList_sorted (items : List (Nat × X)) (m : OMap Nat X) (hs : OMap.Sorted m) :
    OMap.Sorted (items.foldl (fun m x => OMap.insert x.1 x.2 m) m) := by
  induction items generalizing m with
  | nil => exact hs
  | cons x items ih => exact ih _ (OMap.sorted_insert _ _ hs)

/-- the number of members is between one and the number of items -/
theorem num_bounds {b maxB len : Nat} (h0 : 0 < b) (h1 : b ≤ maxB * len) :
    (b + maxB - 1) / maxB ≠ 0 ∧ len / ((b + maxB - 1) / maxB) ≠ 0 := by
  have hm : 0 < maxB := by
    rcases Nat.eq_zero_or_pos maxB with h | h
    · subst h; simp at h1; omega
    · exact h
  have a1 : 0 < (b + maxB - 1) / maxB := Nat.div_pos (by omega) hm
  have a2 : (b + maxB - 1) / maxB ≤ len := by
    have : (b + maxB - 1) / maxB < len + 1 := (Nat.div_lt_iff_lt_mul hm).2 (by rw [Nat.mul_comm, Nat.mul_add]; omega)
    omega
  exact ⟨by omega, by have := Nat.div_pos a2 a1; omega⟩

theorem saveSplit_ok {bytes : List (Nat × X) → Nat} {maxB : Nat} {ps : Parts X} {items : List (Nat × X)}
    (h0 : 0 < bytes items) (h1 : bytes items ≤ maxB * items.length)
    (hnd : (items.map Prod.fst).Nodup) (hps : ∀ p ∈ ps, p.1 ≠ [] ∧ ∀ i ∈ p.1, i ∉ items.map Prod.fst) :
    ∃ qs, saveSplit bytes maxB ps items = .ok (ps ++ qs) ∧ Spec.Holds qs items ∧ OMap.Sorted (qs.flatMap Prod.snd) := by
  obtain ⟨a1, a2⟩ := num_bounds h0 h1
  unfold saveSplit
  rw [if_neg a1]
  simp only
  rw [if_neg a2]
  have hperm := ofList_perm items [] (by simpa using hnd)
  have hsort := ofList_sorted items ([] : OMap Nat X) OMap.sorted_nil
  simp only [List.nil_append] at hperm
  generalize items.foldl (fun m x => OMap.insert x.1 x.2 m) ([] : OMap Nat X) = m at hperm hsort
  obtain ⟨c1, c2⟩ := chunks_spec (Nat.pos_of_ne_zero a2) m.length m (Nat.le_refl _)
  generalize chunks (items.length / ((bytes items + maxB - 1) / maxB)) m.length m = cs at c1 c2
  have hfl : (cs.map (fun c => (c.map Prod.fst, c))).flatMap Prod.snd = m := by
    rw [List.flatMap_map]; simp only; rw [← c1]; simp [List.flatMap_def]
  refine ⟨cs.map (fun c => (c.map Prod.fst, c)), ?_, ⟨?_, ?_⟩, ?_⟩
  · congr 1
    apply addParts cs c2
    · rw [c1]; exact (hperm.map Prod.fst).nodup_iff.2 hnd
    · intro p hp c hc e
      obtain ⟨x, hx⟩ := List.exists_mem_of_ne_nil _ (c2 c hc)
      have hxm : x ∈ m := c1 ▸ List.mem_flatten.2 ⟨c, hc, hx⟩
      exact (hps p hp).2 x.1 (e ▸ List.mem_map_of_mem hx) (List.mem_map_of_mem (hperm.mem_iff.1 hxm))
  · rw [hfl]; exact hperm
  · intro p hp
    obtain ⟨c, hc, rfl⟩ := List.mem_map.1 hp
    exact ⟨rfl, by simpa using c2 c hc⟩
  · rw [hfl]; exact hsort

/-! ### Directories and results -/

theorem set_self (d : Dir V C H) (f : FName) (z : Option (Zip V C H)) : d.set f z f = z := by simp [Dir.set]
theorem set_other (d : Dir V C H) {f g : FName} (h : g ≠ f) (z : Option (Zip V C H)) : d.set f z g = d g := by simp [Dir.set, h]

theorem remove_self {d : Dir V C H} {f : FName} {z : Zip V C H} (h : d f = some z) :
    removeResults d f f = some { z with results := none } := by
  unfold removeResults; rw [h]; simp [Dir.set]
theorem remove_none {d : Dir V C H} {f : FName} (h : d f = none) : removeResults d f = d := by
  unfold removeResults; rw [h]
theorem remove_other (d : Dir V C H) {f g : FName} (h : g ≠ f) : removeResults d f g = d g := by
  unfold removeResults
  cases d f with
  | none => rfl
  | some z => exact set_other d h _

theorem dict_le (b : BR V C H) : b.dict.length ≤ b.getFrame.length := by
  unfold BR.getFrame
  cases b.frame with
  | none => exact Nat.le_refl _
  | some l => simp only; split <;> omega

theorem getDict_le (b : BR V C H) : b.getDict.length ≤ b.getFrame.length := by
  have := dict_le b
  unfold BR.getDict BR.getFrame at *
  cases hd : b.dict with
  | nil =>
    cases hf : b.frame with
    | none => simp
    | some l => simp
  | cons x l => simp only; rw [hd] at this; exact this

theorem indices_of_frame {b : BR V C H} (h : b.getFrame ≠ []) : b.indices = b.getFrame.map Prod.fst := by
  unfold BR.indices
  cases hf : b.getFrame with
  | nil => exact absurd hf h
  | cons x l => rfl

theorem indices_nil {b : BR V C H} (h : b.getFrame = []) (hc : b.configs = []) : b.indices = [] := by
  unfold BR.indices; rw [h, hc]; rfl

/-- the file is the archive of the result, or is not there and the result is empty -/
def Backed (d : Dir V C H) (f : FName) (R : List (Nat × V)) (CF : List (Nat × C)) (HS : List (Nat × H)) : Prop :=
  Spec.Archive d f R CF HS ∨ (d f = none ∧ R = [] ∧ CF = [] ∧ HS = [])

/-- indices of the members are among those of the results -/
structure Within (R : List (Nat × V)) (CF : List (Nat × C)) (HS : List (Nat × H)) : Prop where
  conf : ∀ x ∈ CF, x.1 ∈ R.map Prod.fst
  hist : ∀ x ∈ HS, x.1 ∈ R.map Prod.fst

theorem holds_append {ps qs : Parts X} {l m : List (Nat × X)} (h1 : Spec.Holds ps l) (h2 : Spec.Holds qs m) : Spec.Holds (ps ++ qs) (l ++ m) := by
  refine ⟨?_, ?_⟩
  · rw [List.flatMap_append]; exact h1.1.append h2.1
  · intro p hp
    rcases List.mem_append.1 hp with hp | hp
    · exact h1.2 p hp
    · exact h2.2 p hp

theorem holds_name {ps : Parts X} {l : List (Nat × X)} (h : Spec.Holds ps l) {p} (hp : p ∈ ps) {i : Nat} (hi : i ∈ p.1) : i ∈ l.map Prod.fst := by
  rw [(h.2 p hp).1] at hi
  obtain ⟨x, hx, rfl⟩ := List.mem_map.1 hi
  exact List.mem_map_of_mem (h.1.mem_iff.1 (List.mem_flatMap.2 ⟨p, hp, hx⟩))

theorem move_ok {src dst : Parts X} {l m : List (Nat × X)} (hs : Spec.Holds src l) (hd : Spec.Holds dst m)
    (hdis : ∀ i ∈ l.map Prod.fst, i ∉ m.map Prod.fst) : moveParts src dst = .ok (dst ++ src) := by
  unfold moveParts
  rw [if_neg]
  intro h
  obtain ⟨p, hp, h⟩ := List.any_eq_true.1 h
  simp only [decide_eq_true_eq] at h
  obtain ⟨q, hq, e⟩ := List.mem_map.1 h
  obtain ⟨i, hi⟩ := List.exists_mem_of_ne_nil _ (hs.2 p hp).2
  exact hdis i (holds_name hs hp hi) (holds_name hd hq (e ▸ hi))

theorem dumpParts_none (bytes : List (Nat × X) → Nat) (maxB : Nat) (on : Bool) (ps : Parts X) : dumpParts bytes maxB on ps [] = .ok ps := by
  unfold dumpParts; simp

/-- `dump` of a result without loaded configs, into its own file, appending -/
theorem dump_append (sz : Sizes C H) {b : BR V C H} {d : Dir V C H} {f : FName} (hf : b.file = some f) (hc : b.configs = []) (hh : b.hist = []) :
    dump sz b d f true true true = .ok ({ b with file := some f, frame := some b.getFrame },
      (removeResults d f).set f (some { ((removeResults d f) f).getD Zip.empty with results := some b.getFrame })) := by
  have hr : renamed b d f = (d, false) := by unfold renamed; rw [hf]; simp
  unfold dump
  rw [hr, hc, hh]
  simp only [Bool.true_or, if_true, dumpParts_none, Res.ok_bind]

/-- extension of a result by another one with other indices -/
theorem extend_ok (sz : Sizes C H) {b o : BR V C H} {d : Dir V C H} {f g : FName} {R L : List (Nat × V)} {CF Cs : List (Nat × C)}
    {HS Hs : List (Nat × H)} (hfg : f ≠ g) (hbf : b.file = some f) (hog : o.file = some g) (hbc : b.configs = []) (hbh : b.hist = [])
    (hR : b.getFrame = R) (hL : o.getFrame = L) (hne : L ≠ []) (hb : Backed d f R CF HS) (ho : Spec.Archive d g L Cs Hs)
    (wb : Within R CF HS) (wo : Within L Cs Hs) (hdis : ∀ i ∈ L.map Prod.fst, i ∉ R.map Prod.fst) :
    ∃ b' d', extend sz b o true d = .ok (b', d') ∧ b'.file = some f ∧ b'.getFrame = R ++ L ∧ b'.dict = b.dict ++ o.getDict ∧
      b'.configs = [] ∧ b'.hist = [] ∧ Spec.Archive d' f (R ++ L) (CF ++ Cs) (HS ++ Hs) ∧ ∀ h, h ≠ f → d' h = d h := by
  obtain ⟨zo, hzo, hor, hoc, hoh⟩ := ho
  have hidx : o.indices = L.map Prod.fst := by rw [indices_of_frame (by rw [hL]; exact hne), hL]
  have hbidx : ∀ i, i ∈ b.indices → i ∈ R.map Prod.fst := by
    intro i hi
    unfold BR.indices at hi
    rw [hR, hbc] at hi
    match R, hi with
    | x :: l, hi => exact hi
  have hn1 : o.indices ≠ [] := by rw [hidx]; simpa using hne
  have hn2 : ¬ (o.indices.any (fun i => decide (i ∈ b.indices)) = true) := by
    intro h
    obtain ⟨i, hi, h⟩ := List.any_eq_true.1 h
    simp only [decide_eq_true_eq] at h
    exact hdis i (hidx ▸ hi) (hbidx i h)
  have hlen : ¬ ((b.getFrame ++ o.getFrame).length < (b.dict ++ o.getDict).length) := by
    have := dict_le b; have := getDict_le o; simp only [List.length_append]; omega
  -- the archive written to
  obtain ⟨zc, zh, hbase, hzc, hzh⟩ : ∃ zc zh, (removeResults (removeResults d f) f f).getD Zip.empty = (⟨none, zc, zh⟩ : Zip V C H) ∧
      Spec.Holds zc CF ∧ Spec.Holds zh HS := by
    rcases hb with ⟨z, hz, _, h2, h3⟩ | ⟨hz, _, rfl, rfl⟩
    · refine ⟨z.configs, z.hist, ?_, h2, h3⟩
      rw [remove_self (remove_self hz)]; rfl
    · refine ⟨[], [], ?_, ⟨by simp, by simp⟩, ⟨by simp, by simp⟩⟩
      rw [remove_none hz, remove_none hz, hz]; rfl
  have m1 := move_ok hoc hzc (by
    intro i hi hi'
    obtain ⟨x, hx, rfl⟩ := List.mem_map.1 hi
    obtain ⟨y, hy, e⟩ := List.mem_map.1 hi'
    exact hdis _ (wo.conf x hx) (e ▸ wb.conf y hy))
  have m2 := move_ok hoh hzh (by
    intro i hi hi'
    obtain ⟨x, hx, rfl⟩ := List.mem_map.1 hi
    obtain ⟨y, hy, e⟩ := List.mem_map.1 hi'
    exact hdis _ (wo.hist x hx) (e ▸ wb.hist y hy))
  have hb1 : (⟨b.dict ++ o.getDict, some (b.getFrame ++ o.getFrame), b.configs, b.hist, b.file⟩ : BR V C H).getFrame = R ++ L := by
    show (if _ then _ else _) = _
    rw [if_neg hlen, hR, hL]
  have hdump := dump_append sz (b := ⟨b.dict ++ o.getDict, some (b.getFrame ++ o.getFrame), b.configs, b.hist, b.file⟩)
    (d := removeResults d f) hbf hbc hbh
  rw [hb1, hbase] at hdump
  have hmove : moveAll ((removeResults (removeResults d f) f).set f (some ⟨some (R ++ L), zc, zh⟩)) g f =
      .ok (((removeResults (removeResults d f) f).set f (some ⟨some (R ++ L), zc, zh⟩)).set f
        (some ⟨some (R ++ L), zc ++ zo.configs, zh ++ zo.hist⟩)) := by
    unfold moveAll
    rw [set_self, set_other _ (Ne.symm hfg), remove_other _ (Ne.symm hfg), remove_other _ (Ne.symm hfg), hzo]
    simp only
    rw [m1, m2]
    rfl
  refine ⟨⟨b.dict ++ o.getDict, some (R ++ L), b.configs, b.hist, some f⟩,
    ((removeResults (removeResults d f) f).set f (some ⟨some (R ++ L), zc, zh⟩)).set f
      (some ⟨some (R ++ L), zc ++ zo.configs, zh ++ zo.hist⟩), ?_, ?_⟩
  · unfold extend
    rw [if_neg hn1, if_neg hn2]
    simp only [if_true]
    rw [hbf, hog]
    simp only
    rw [hbf] at hdump
    rw [hdump, Res.ok_bind]
    simp only
    rw [hmove, Res.ok_bind]
  · refine ⟨rfl, ?_, rfl, hbc, hbh, ?_, ?_⟩
    · have : ¬ ((R ++ L).length < (b.dict ++ o.getDict).length) := by rw [← hR, ← hL]; exact hlen
      show (if _ then _ else _) = _
      rw [if_neg this]
    · exact ⟨_, set_self _ _ _, rfl, holds_append hzc hoc, holds_append hzh hoh⟩
    · intro h hh
      rw [set_other _ hh, set_other _ hh, remove_other _ hh, remove_other _ hh]

theorem extend_nil (sz : Sizes C H) {b o : BR V C H} {d : Dir V C H} {fl : Bool} (h : o.getFrame = []) (hc : o.configs = []) :
    extend sz b o fl d = .ok (b, d) := by
  unfold extend; rw [if_pos (indices_nil h hc)]

/-- common indices: nothing is done -/
theorem extend_overlap (sz : Sizes C H) {b o : BR V C H} {d : Dir V C H} {fl : Bool} {i : Nat} (h1 : i ∈ o.getFrame.map Prod.fst)
    (h2 : i ∈ b.getFrame.map Prod.fst) : extend sz b o fl d = .error .thrown := by
  have n1 : o.getFrame ≠ [] := by rintro h; rw [h] at h1; cases h1
  have n2 : b.getFrame ≠ [] := by rintro h; rw [h] at h2; cases h2
  unfold extend
  rw [if_neg, if_pos]
  · rw [List.any_eq_true]
    exact ⟨i, by rw [indices_of_frame n1]; exact h1, by rw [indices_of_frame n2]; simpa using h2⟩
  · rw [indices_of_frame n1]; simpa using n1

/-- `dump` of the last results into the temporary file -/
theorem dump_fresh {sz : Sizes C H} (hfit : Spec.Fits sz) (d : Dir V C H) (f : FName) (keep : Bool) {rows : List (Nat × V)} {confs : List (Nat × C)}
    {hists : List (Nat × H)} (hc : (confs.map Prod.fst).Nodup) (hh : (hists.map Prod.fst).Nodup) :
    ∃ d', dump sz ⟨rows, none, confs, hists, some f⟩ d f true keep false = .ok (⟨rows, some rows, confs, hists, some f⟩, d') ∧
      Spec.Archive d' f rows confs (if keep then hists else []) ∧ ∀ h, h ≠ f → d' h = d h := by
  have hr : renamed (⟨rows, none, confs, hists, some f⟩ : BR V C H) d f = (d, false) := by unfold renamed; simp
  have nil_holds : ∀ {X : Type}, Spec.Holds ([] : Parts X) [] := ⟨by simp, by simp⟩
  have e1 : ∃ cs, dumpParts sz.conf sz.maxB true [] confs = .ok cs ∧ Spec.Holds cs confs := by
    by_cases g : confs = []
    · subst g; exact ⟨[], dumpParts_none _ _ _ _, nil_holds⟩
    · obtain ⟨qs, h1, h2, _⟩ := saveSplit_ok (ps := []) (hfit.1 confs g).1 (hfit.1 confs g).2 hc (by simp)
      exact ⟨qs, by unfold dumpParts; rw [if_pos (by simpa using g), h1]; simp, h2⟩
  have e2 : ∃ hs, dumpParts sz.hist sz.maxB keep [] hists = .ok hs ∧ Spec.Holds hs (if keep then hists else []) := by
    cases keep with
    | false => exact ⟨[], by unfold dumpParts; simp, nil_holds⟩
    | true =>
      by_cases g : hists = []
      · subst g; exact ⟨[], dumpParts_none _ _ _ _, nil_holds⟩
      · obtain ⟨qs, h1, h2, _⟩ := saveSplit_ok (ps := []) (hfit.2 hists g).1 (hfit.2 hists g).2 hh (by simp)
        exact ⟨qs, by unfold dumpParts; rw [if_pos (by simpa using g), h1]; simp, h2⟩
  obtain ⟨cs, hcs, hcs'⟩ := e1
  obtain ⟨hs, hhs, hhs'⟩ := e2
  refine ⟨d.set f (some ⟨some rows, cs, hs⟩), ?_, ⟨_, set_self _ _ _, rfl, hcs', hhs'⟩, fun h hh => set_other _ hh _⟩
  unfold dump
  rw [hr]
  simp only [Bool.or_false, Bool.false_eq_true, if_false]
  have z1 : (Zip.empty : Zip V C H).configs = [] := rfl
  have z2 : (Zip.empty : Zip V C H).hist = [] := rfl
  rw [z1, z2, hcs, Res.ok_bind, hhs, Res.ok_bind]
  rfl

end Bark.Bench
