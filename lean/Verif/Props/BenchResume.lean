import Verif.Props.BenchRun

/-!
Interrupted and resumed runs (C118), saving and loading results (C120).
-/
set_option linter.unusedSectionVars false
namespace Bark.Bench

variable {V C H X : Type}
variable {sz : Sizes C H} {actor : Option Nat} {keep : Bool} {v v2 : Nat × C → V} {h h2 : Nat × C → H} {d0 : Dir V C H}

/-! ### C118 -/

theorem crash_inv (hfit : Spec.Fits sz) {c : Nat} (hc : 0 < c) {run : Nat → C → Res (V × H)} {confs : List (Nat × C)} (hd : d0 (.ckpt actor) = none)
    {k : Nat} (hk : k ≤ confs.length) (hrun : ∀ x ∈ confs.take k, run x.1 x.2 = .ok (v x, h x)) (hnd : (confs.map Prod.fst).Nodup) :
    ∃ s, runLoop sz actor keep (some c) run (confs.take k) 0 ⟨[], [], [], BR.new (.ckpt actor), d0⟩ = .ok s ∧
      Inv actor keep v h d0 (confs.take (k - k % c)) ((confs.take k).drop (k - k % c)) s := by
  have hnd' : ((confs.take k).map Prod.fst).Nodup := by
    rw [List.map_take]; exact hnd.sublist (List.take_sublist _ _)
  obtain ⟨s, fl, pe, a1, a2, a3, a4⟩ := loop_inv hfit (every := some c) (actor := actor) (keep := keep) (d0 := d0) (confs.take k) 0 hrun (inv_init hd)
    (by simpa using hnd') (by cases c <;> simp [pending])
  refine ⟨s, a1, ?_⟩
  simp only [List.nil_append] at a3
  have hlen : (confs.take k).length = k := by simp; omega
  have hpe : pe.length = k % c := by
    obtain ⟨c, rfl⟩ : ∃ e, c = e + 1 := ⟨c - 1, by omega⟩
    rw [a4, hlen]; simp [pending]
  have hfl : fl.length = k - k % c := by
    have := congrArg List.length a3; rw [List.length_append, hlen] at this; omega
  have e1 : fl = confs.take (k - k % c) := by
    have : (confs.take k).take (k - k % c) = fl := by rw [← a3, ← hfl]; simp
    rw [List.take_take, Nat.min_eq_left (by omega)] at this
    exact this.symm
  have e2 : pe = (confs.take k).drop (k - k % c) := by rw [← a3, ← hfl]; simp
  rw [← e1, ← e2]; exact a2

/-- Crash points between configs: after `k` configs, with a checkpoint every `c > 0` configs, the checkpoint file holds exactly the
results of the first `⌊k/c⌋·c` configs, with configs and (if kept) histories; it does not exist if that is none. -/
theorem C118_durable (hfit : Spec.Fits sz) {c : Nat} (hc : 0 < c) {run : Nat → C → Res (V × H)} {confs : List (Nat × C)} (hd : d0 (.ckpt actor) = none)
    {k : Nat} (hk : k ≤ confs.length) (hrun : ∀ x ∈ confs.take k, run x.1 x.2 = .ok (v x, h x)) (hnd : (confs.map Prod.fst).Nodup) :
    ∃ s, runLoop sz actor keep (some c) run (confs.take k) 0 ⟨[], [], [], BR.new (.ckpt actor), d0⟩ = .ok s ∧
      (c ≤ k → Spec.Archive s.dir (.ckpt actor) ((confs.take (k / c * c)).map (fun x => (x.1, v x))) (confs.take (k / c * c))
        (if keep then (confs.take (k / c * c)).map (fun x => (x.1, h x)) else [])) ∧
      (k < c → s.dir = d0) := by
  obtain ⟨s, a1, a2⟩ := crash_inv (keep := keep) hfit hc hd hk hrun hnd
  have e : k - k % c = k / c * c := by have := Nat.div_add_mod k c; rw [Nat.mul_comm] at this; omega
  refine ⟨s, a1, ?_, ?_⟩
  · intro hck
    rw [e] at a2
    rcases a2.backed with hA | ⟨_, hn, _⟩
    · exact hA
    · exfalso
      rw [tag_nil_iff] at hn
      have h1 := congrArg List.length hn
      rw [List.length_take, List.length_nil] at h1
      have h2 : 1 ≤ k / c := Nat.div_pos hck hc
      have h3 : c ≤ k / c * c := Nat.le_mul_of_pos_left c h2
      omega
  · intro hck
    have e0 : k - k % c = 0 := by rw [Nat.mod_eq_of_lt hck]; omega
    rw [e0] at a2
    funext f
    by_cases g1 : f = .ckpt actor
    · subst g1
      rcases a2.backed with ⟨z, hz, h1, _⟩ | ⟨hz, _⟩
      · -- nothing was written
        exfalso
        have key : ∀ (l : List (Nat × C)) (j : Nat) (s s' : RunSt V C H), j + l.length < c →
            runLoop sz actor keep (some c) run l j s = .ok s' → s'.dir = s.dir := by
          intro l
          induction l with
          | nil => intro j s s' _ hs; cases hs; rfl
          | cons x l ih =>
            intro j s s' hj hs
            unfold runLoop at hs
            obtain ⟨r, b1, b2⟩ := Res.bind_ok hs
            have g : ¬ (due (some c) (j + 1) = true) := by
              obtain ⟨c, rfl⟩ : ∃ e, c = e + 1 := ⟨c - 1, by omega⟩
              simp only [due, decide_eq_true_eq]
              simp only [List.length_cons] at hj
              rw [Nat.mod_eq_of_lt (by omega)]; omega
            simp only at b2
            rw [if_neg g] at b2
            have := ih (j + 1) _ _ (by simp at hj; omega) b2
            rw [this]
        have := key _ _ _ _ (by simp; omega) a1
        rw [this] at hz
        exact absurd (hd.symm.trans hz) (by simp)
      · rw [hz, hd]
    · by_cases g2 : f = .tmp actor
      · subst g2; exact a2.tmp (by simp)
      · exact a2.others f g1 g2

theorem load_archive {d : Dir V C H} {f : FName} {R : List (Nat × V)} {CF : List (Nat × C)} {HS : List (Nat × H)} (hA : Spec.Archive d f R CF HS) :
    loadResults d f = .ok ⟨[], some R, [], [], some f⟩ := by
  obtain ⟨z, hz, hr, _⟩ := hA
  unfold loadResults; rw [hz]; simp only; rw [hr]

theorem load_frame (R : List (Nat × V)) (f : Option FName) : (⟨[], some R, [], [], f⟩ : BR V C H).getFrame = R := by
  unfold BR.getFrame; simp

theorem dump_frame {sz : Sizes C H} {b b' : BR V C H} {d d' : Dir V C H} {f : FName} {x y w : Bool} (hd : dump sz b d f x y w = .ok (b', d')) :
    b'.getFrame = b.getFrame ∧ b'.file = some f ∧ ∃ z, d' f = some z ∧ z.results = some b.getFrame := by
  unfold dump at hd
  obtain ⟨cs, _, h1⟩ := Res.bind_ok hd
  obtain ⟨hs, _, h2⟩ := Res.bind_ok h1
  injection h2 with h2
  have e1 : b' = ⟨b.dict, some b.getFrame, b.configs, b.hist, some f⟩ := (congrArg Prod.fst h2).symm
  have e2 := congrArg Prod.snd h2
  simp only at e2
  refine ⟨?_, by rw [e1], ?_⟩
  · rw [e1]
    have := dict_le b
    show (if b.getFrame.length < b.dict.length then b.dict else b.getFrame) = _
    rw [if_neg (by omega)]
  · rw [← e2]
    exact ⟨_, set_self _ _ _, rfl⟩

theorem moveAll_results {d d' : Dir V C H} {g f : FName} {z : Zip V C H} (hm : moveAll d g f = .ok d') (hz : d f = some z) :
    ∃ z', d' f = some z' ∧ z'.results = z.results := by
  unfold moveAll at hm
  rw [hz] at hm
  cases hg : d g with
  | none => rw [hg] at hm; cases hm
  | some zs =>
    rw [hg] at hm
    simp only at hm
    obtain ⟨c1, _, hm⟩ := Res.bind_ok hm
    obtain ⟨c2, _, hm⟩ := Res.bind_ok hm
    injection hm with hm
    subst hm
    exact ⟨_, set_self _ _ _, rfl⟩

theorem merge_one (sz : Sizes C H) {d : Dir V C H} {g : FName} (hg : g ≠ .merged) (hm : d .merged = none) {R : List (Nat × V)} {CF : List (Nat × C)}
    {HS : List (Nat × H)} (hA : Spec.Archive d g R CF HS) (hne : R ≠ []) (hw : Within R CF HS) :
    ∃ b d', extend sz (BR.new .merged) ⟨[], some R, [], [], some g⟩ true d = .ok (b, d') ∧ b.file = some .merged ∧ b.getFrame = R ∧ b.dict = R ∧
      b.configs = [] ∧ b.hist = [] ∧ Spec.Archive d' .merged R CF HS ∧ ∀ f, f ≠ .merged → d' f = d f := by
  obtain ⟨b, d', e1, e2, e3, e4, e5, e6, e7, e8⟩ := extend_ok sz (b := BR.new .merged) (o := ⟨[], some R, [], [], some g⟩) (f := .merged) (g := g)
    (R := []) (CF := []) (HS := []) (Ne.symm hg) rfl rfl rfl rfl rfl (load_frame R _) hne (.inr ⟨hm, rfl, rfl, rfl⟩) hA ⟨by simp, by simp⟩ hw (by simp)
  exact ⟨b, d', e1, e2, by rw [e3]; simp, by rw [e4]; rfl, e5, e6, by simpa using e7, e8⟩

/-- Resuming works if the temporary file of the interrupted run was deleted by hand: after a crash once `k ≥ c` configs were run,
only the configs without a checkpointed result are run again (with `run2`, which may behave differently now), and the result has
exactly one row for every config: the new rows and the checkpointed ones. -/
theorem C118_resume (hfit : Spec.Fits sz) {c : Nat} (hc : 0 < c) {run run2 : Nat → C → Res (V × H)} {confs : List (Nat × C)}
    (hd : d0 (.ckpt none) = none) (hm : d0 .merged = none) {k : Nat} (hk : k ≤ confs.length) (hck : c ≤ k)
    (hrun : ∀ x ∈ confs.take k, run x.1 x.2 = .ok (v x, h x)) (hrun2 : ∀ x ∈ confs.drop (k / c * c), run2 x.1 x.2 = .ok (v2 x, h2 x))
    (hnd : (confs.map Prod.fst).Nodup) (every : Option Nat) :
    ∃ s b d1, runLoop sz none keep (some c) run (confs.take k) 0 ⟨[], [], [], BR.new (.ckpt none), d0⟩ = .ok s ∧
      resume sz keep every run2 confs (s.dir.set (.tmp none) none) [.ckpt none] = .ok (b, d1) ∧
      b.getFrame = (confs.drop (k / c * c)).map (fun x => (x.1, v2 x)) ++ (confs.take (k / c * c)).map (fun x => (x.1, v x)) ∧
      (b.getFrame.map Prod.fst).Perm (confs.map Prod.fst) ∧
      Spec.Archive d1 (.ckpt none) b.getFrame (confs.drop (k / c * c) ++ confs.take (k / c * c))
        (if keep then (confs.drop (k / c * c)).map (fun x => (x.1, h2 x)) ++ (confs.take (k / c * c)).map (fun x => (x.1, h x)) else []) ∧
      Spec.Archive d1 .merged ((confs.take (k / c * c)).map (fun x => (x.1, v x))) (confs.take (k / c * c))
        (if keep then (confs.take (k / c * c)).map (fun x => (x.1, h x)) else []) := by
  obtain ⟨s, a1, a2⟩ := crash_inv (keep := keep) (actor := none) hfit hc hd hk hrun hnd
  obtain ⟨s0, a1', a3, _⟩ := C118_durable (keep := keep) (actor := none) hfit hc hd hk hrun hnd
  rw [a1] at a1'
  injection a1' with a1'
  subst a1'
  have hA := a3 hck
  have hmle : k / c * c ≤ confs.length := Nat.le_trans (Nat.div_mul_le_self k c) hk
  have hmpos : 0 < k / c * c := Nat.mul_pos (Nat.div_pos hck hc) hc
  generalize k / c * c = m at *
  have hne : tag v (confs.take m) ≠ [] := by
    rw [Ne, tag_nil_iff]
    intro hn
    have := congrArg List.length hn
    rw [List.length_take, List.length_nil] at this; omega
  have hA' : Spec.Archive (s.dir.set (.tmp none) none) (.ckpt none) (tag v (confs.take m)) (confs.take m) (hists keep h (confs.take m)) := by
    obtain ⟨z, hz, r⟩ := hA
    exact ⟨z, by rw [set_other _ (by simp)]; exact hz, r⟩
  have hm' : (s.dir.set (.tmp none) none) .merged = none := by
    rw [set_other _ (by simp), a2.others _ (by simp) (by simp), hm]
  obtain ⟨b1, d2, e1, e2, e3, e4, e5, e6, e7, e8⟩ := merge_one sz (g := .ckpt none) (by simp) hm' hA' hne (within_tag v h keep _)
  -- the directory after merging
  have hmerge : mergeCkpts sz (s.dir.set (.tmp none) none) [.ckpt none] =
      .ok (b1, fun f => if f ∈ [FName.ckpt none] ∧ f ≠ .merged then none else d2 f) := by
    unfold mergeCkpts
    rw [hm']
    simp only
    rw [Res.ok_bind, List.foldlM_cons]
    simp only
    rw [load_archive hA', Res.ok_bind, e1, Res.ok_bind]
    rfl
  have hidx : b1.indices = (confs.take m).map Prod.fst := by
    rw [indices_of_frame (by rw [e3]; exact hne), e3, tag_keys]
  have hdis : ∀ x ∈ confs.drop m, x.1 ∉ (confs.take m).map Prod.fst := by
    intro x hx hx'
    have hnd2 := hnd
    rw [← List.take_append_drop m confs, List.map_append, List.nodup_append] at hnd2
    exact hnd2.2.2 x.1 hx' x.1 (List.mem_map_of_mem hx) rfl
  have hcr : configsToRun confs b1 = confs.drop m := by
    unfold configsToRun
    rw [hidx]
    have f1 : (confs.take m).filter (fun c => !(decide (c.1 ∈ (confs.take m).map Prod.fst))) = [] := by
      rw [List.filter_eq_nil_iff]; intro x hx
      simp only [Bool.not_eq_true', Bool.not_eq_false, decide_eq_false_iff_not, not_not]
      exact List.mem_map_of_mem hx
    have f2 : (confs.drop m).filter (fun c => !(decide (c.1 ∈ (confs.take m).map Prod.fst))) = confs.drop m := by
      rw [List.filter_eq_self]; intro x hx
      simpa using fun a => (by simpa using hdis x hx : ∀ _, _) a
    conv => lhs; arg 2; rw [← List.take_append_drop m confs]
    rw [List.filter_append, f1, f2, List.nil_append]
  have hndd : ((confs.drop m).map Prod.fst).Nodup := by
    rw [List.map_drop]; exact hnd.sublist (List.drop_sublist _ _)
  obtain ⟨b, d3, g1, g2, g3, g4, g5, g6, g7, g8, g9⟩ := run_own (actor := none) (keep := keep) hfit (every := every) (v := v2) (h := h2) (run := run2)
    (toRun := confs.drop m) (d0 := fun f => if f ∈ [FName.ckpt none] ∧ f ≠ .merged then none else d2 f) (by simp) hrun2 hndd b1
  have hmd : Spec.Archive d3 .merged (tag v (confs.take m)) (confs.take m) (hists keep h (confs.take m)) := by
    obtain ⟨z, hz, r⟩ := e7
    refine ⟨z, ?_, r⟩
    rw [g9 _ (by simp) (by simp)]
    simpa using hz
  obtain ⟨b', d', i1, i2, i3, i4, i5, i6, i7, i8⟩ := extend_ok sz (b := b) (o := b1) (f := .ckpt none) (g := .merged) (by simp) g6 e2 g4 g5 g3 e3 hne g7 hmd
    (within_tag v2 h2 keep _) (within_tag v h keep _) (by
      intro i hi hi'
      rw [tag_keys] at hi hi'
      obtain ⟨x, hx, rfl⟩ := List.mem_map.1 hi'
      exact hdis x hx hi)
  refine ⟨s, b', d', a1, ?_, i3, ?_, ?_, ?_⟩
  · unfold resume
    rw [hmerge, Res.ok_bind]
    simp only
    rw [hcr, g1, i1]
  · rw [i3, List.map_append, tag_keys, tag_keys]
    refine List.perm_append_comm.trans ?_
    rw [← List.map_append, List.take_append_drop]
  · rw [i3]
    obtain ⟨z, hz, r1, r2, r3⟩ := i7
    refine ⟨z, hz, r1, r2, ?_⟩
    cases keep
    · exact r3
    · exact r3
  · obtain ⟨z, hz, r⟩ := hmd
    exact ⟨z, by rw [i8 _ (by simp)]; exact hz, r⟩

/-- before the first checkpoint there is nothing to merge, and everything is run -/
theorem C118_resume_early (every : Option Nat) {run : Nat → C → Res (V × H)} {confs : List (Nat × C)} (hm : d0 .merged = none) :
    resume sz keep every run confs d0 [] = runAll sz none keep every run confs noExisting d0 := by
  have hmerge : mergeCkpts sz d0 [] = .ok (BR.new .merged, d0) := by
    unfold mergeCkpts
    rw [hm]
    simp only [List.foldlM_nil, Res.ok_bind]
    show Except.ok _ = _
    simp
  unfold resume
  rw [hmerge, Res.ok_bind]
  have : configsToRun confs (BR.new .merged : BR V C H) = confs := by
    unfold configsToRun
    rw [List.filter_eq_self]; intro x _; rfl
  simp only
  rw [this]
  rfl

/-- Violation: as the crash leaves it, the directory has the temporary file of the last checkpoint, which has the same ending as the
checkpoint and results that are also in the checkpoint. Resuming (in whatever order the two files are found) raises, for every
crash after the first checkpoint. -/
theorem C118_resume_violated (hfit : Spec.Fits sz) {c : Nat} (hc : 0 < c) {run run2 : Nat → C → Res (V × H)} {confs : List (Nat × C)}
    (hd : d0 (.ckpt none) = none) (hm : d0 .merged = none) {k : Nat} (hk : k ≤ confs.length) (hck : c ≤ k)
    (hrun : ∀ x ∈ confs.take k, run x.1 x.2 = .ok (v x, h x)) (hnd : (confs.map Prod.fst).Nodup) (every : Option Nat) :
    ∃ s, runLoop sz none keep (some c) run (confs.take k) 0 ⟨[], [], [], BR.new (.ckpt none), d0⟩ = .ok s ∧
      resume sz keep every run2 confs s.dir [.ckpt none, .tmp none] = .error .thrown ∧
      resume sz keep every run2 confs s.dir [.tmp none, .ckpt none] = .error .thrown := by
  obtain ⟨s, a1, a2⟩ := crash_inv (keep := keep) (actor := none) hfit hc hd hk hrun hnd
  refine ⟨s, a1, ?_⟩
  have hm' : s.dir .merged = none := by rw [a2.others _ (by simp) (by simp), hm]
  generalize hfl : confs.take (k - k % c) = fl at a2
  have hflne : fl ≠ [] := by
    rintro rfl
    have h1 := congrArg List.length hfl
    rw [List.length_take, List.length_nil] at h1
    have h2 : k - k % c = k / c * c := by have := Nat.div_add_mod k c; rw [Nat.mul_comm] at this; omega
    have h3 : 0 < k / c * c := Nat.mul_pos (Nat.div_pos hck hc) hc
    omega
  obtain ⟨a, l, hal, hl, hT⟩ := a2.tmp' hflne
  have hA : Spec.Archive s.dir (.ckpt none) (tag v fl) fl (hists keep h fl) := by
    rcases a2.backed with hA | ⟨_, hn, _⟩
    · exact hA
    · exact absurd ((tag_nil_iff v fl).1 hn) hflne
  have nl : tag v l ≠ [] := by rw [Ne, tag_nil_iff]; exact hl
  have nfl : tag v fl ≠ [] := by rw [Ne, tag_nil_iff]; exact hflne
  obtain ⟨x, hx⟩ := List.exists_mem_of_ne_nil _ hl
  have hx1 : x.1 ∈ (tag v l).map Prod.fst := by rw [tag_keys]; exact List.mem_map_of_mem hx
  have hx2 : x.1 ∈ (tag v fl).map Prod.fst := by rw [tag_keys, hal]; exact List.mem_map_of_mem (List.mem_append_right _ hx)
  have two : ∀ (g g' : FName) (R R' : List (Nat × V)) (CF CF' : List (Nat × C)) (HS HS' : List (Nat × H)), g ≠ .merged → g' ≠ .merged →
      Spec.Archive s.dir g R CF HS → Spec.Archive s.dir g' R' CF' HS' → R ≠ [] → Within R CF HS → x.1 ∈ R.map Prod.fst → x.1 ∈ R'.map Prod.fst →
      resume sz keep every run2 confs s.dir [g, g'] = .error .thrown := by
    intro g g' R R' CF CF' HS HS' hg hg' hG hG' hne hw i1 i2
    obtain ⟨b1, d2, e1, e2, e3, _, _, _, _, e8⟩ := merge_one sz hg hm' hG hne hw
    have hG2 : Spec.Archive d2 g' R' CF' HS' := by
      obtain ⟨z, hz, r⟩ := hG'
      exact ⟨z, by rw [e8 _ hg']; exact hz, r⟩
    have : mergeCkpts sz s.dir [g, g'] = .error .thrown := by
      unfold mergeCkpts
      rw [hm']
      simp only
      rw [Res.ok_bind, List.foldlM_cons]
      simp only
      rw [load_archive hG, Res.ok_bind, e1, Res.ok_bind, List.foldlM_cons]
      simp only
      rw [load_archive hG2, Res.ok_bind, extend_overlap sz (i := x.1) (by rw [load_frame]; exact i2) (by rw [e3]; exact i1)]
      rfl
    unfold resume
    rw [this]
    rfl
  exact ⟨two _ _ _ _ _ _ _ _ (by simp) (by simp) hA hT nfl (within_tag v h keep _) hx2 hx1,
    two _ _ _ _ _ _ _ _ (by simp) (by simp) hT hA nl (within_tag v h keep _) hx1 hx2⟩

/-- Violation: resuming works at most once. Whenever the directory has merged results (with at least one row), merging again fails,
whatever other checkpoint files there are: the pattern of the checkpoint files also matches the merged results, which are then added
to themselves. -/
theorem C118_second_resume_violated (sz : Sizes C H) {d : Dir V C H} {z : Zip V C H} {R : List (Nat × V)} (hz : d .merged = some z)
    (hR : z.results = some R) (hne : R ≠ []) {files : List FName} (hmem : FName.merged ∈ files) (r : BR V C H × Dir V C H) :
    mergeCkpts sz d files ≠ .ok r := by
  have step : ∀ (x y : BR V C H × Dir V C H) (f : FName), x.1.getFrame ≠ [] → x.1.file = some .merged →
      (∃ z, x.2 .merged = some z ∧ z.results = some x.1.getFrame) →
      ((loadResults x.2 f) >>= fun l => extend sz x.1 l true x.2) = .ok y →
      f ≠ .merged ∧ y.1.getFrame ≠ [] ∧ y.1.file = some .merged ∧ (∃ z, y.2 .merged = some z ∧ z.results = some y.1.getFrame) := by
    rintro ⟨b, dd⟩ y f hb hfile ⟨z, hz, hr⟩ hs
    simp only at hb hfile hz hr hs
    obtain ⟨l, h1, h2⟩ := Res.bind_ok hs
    have hf : f ≠ .merged := by
      rintro rfl
      have : l = ⟨[], some b.getFrame, [], [], some .merged⟩ := by
        unfold loadResults at h1
        rw [hz] at h1
        simp only at h1
        rw [hr] at h1
        injection h1 with h1
        exact h1.symm
      obtain ⟨x, hx⟩ := List.exists_mem_of_ne_nil _ hb
      rw [this, extend_overlap sz (i := x.1) (by rw [load_frame]; exact List.mem_map_of_mem hx) (List.mem_map_of_mem hx)] at h2
      cases h2
    refine ⟨hf, ?_⟩
    unfold extend at h2
    by_cases g1 : l.indices = []
    · rw [if_pos g1] at h2; cases h2; exact ⟨hb, hfile, z, hz, hr⟩
    · rw [if_neg g1] at h2
      by_cases g2 : (l.indices.any (fun i => decide (i ∈ b.indices))) = true
      · rw [if_pos g2] at h2; cases h2
      · rw [if_neg g2] at h2
        simp only [if_true] at h2
        rw [hfile] at h2
        cases hg : l.file with
        | none => rw [hg] at h2; cases h2
        | some g =>
          rw [hg] at h2
          simp only at h2
          obtain ⟨rd, h3, h4⟩ := Res.bind_ok h2
          obtain ⟨d2, h5, h6⟩ := Res.bind_ok h4
          injection h6 with h6
          subst h6
          obtain ⟨f1, f2, z1, f3, f4⟩ := dump_frame h3
          obtain ⟨z2, f5, f6⟩ := moveAll_results h5 f3
          refine ⟨?_, f2, z2, f5, by rw [f6, f4, f1]⟩
          intro hn
          have hn' : rd.1.getFrame = [] := hn
          rw [f1] at hn'
          have hfr2 : (b.getFrame ++ l.getFrame).length ≤
              (⟨b.dict ++ l.getDict, some (b.getFrame ++ l.getFrame), b.configs, b.hist, some .merged⟩ : BR V C H).getFrame.length := by
            generalize b.getFrame ++ l.getFrame = fr
            generalize b.dict ++ l.getDict = di
            show _ ≤ (if fr.length < di.length then di else fr).length
            split
            · rename_i g; exact Nat.le_of_lt g
            · exact Nat.le_refl _
          have e0 := congrArg List.length hn'
          rw [List.length_nil] at e0
          rw [List.length_append] at hfr2
          exact hb (List.length_eq_zero_iff.1 (by omega))
  have fold : ∀ (files : List FName) (x : BR V C H × Dir V C H), FName.merged ∈ files → x.1.getFrame ≠ [] → x.1.file = some .merged →
      (∃ z, x.2 .merged = some z ∧ z.results = some x.1.getFrame) → ∀ y,
      files.foldlM (fun (x : BR V C H × Dir V C H) f => (loadResults x.2 f) >>= fun l => extend sz x.1 l true x.2) x ≠ .ok y := by
    intro files
    induction files with
    | nil => intro x hm; cases hm
    | cons f files ih =>
      intro x hm hb hfile hz y hy
      rw [List.foldlM_cons] at hy
      obtain ⟨x', h1, h2⟩ := Res.bind_ok hy
      obtain ⟨hf, p1, p2, p3⟩ := step x x' f hb hfile hz h1
      rcases List.mem_cons.1 hm with e | hm
      · exact hf e.symm
      · exact ih x' hm p1 p2 p3 y h2
  intro hok
  unfold mergeCkpts at hok
  rw [hz] at hok
  simp only at hok
  have hl : loadResults d .merged = .ok ⟨[], some R, [], [], some .merged⟩ := by unfold loadResults; rw [hz]; simp only; rw [hR]
  rw [hl, Res.ok_bind] at hok
  obtain ⟨y, h1, _⟩ := Res.bind_ok hok
  exact fold files _ hmem (by rw [load_frame]; exact hne) rfl ⟨z, hz, by rw [hR, load_frame]⟩ y h1

theorem extend_other {sz : Sizes C H} {b o b' : BR V C H} {d d' : Dir V C H} {m : FName} (hm : b.file = some m)
    (he : extend sz b o true d = .ok (b', d')) : b'.file = some m ∧ ∀ f, f ≠ m → d' f = d f := by
  unfold extend at he
  by_cases g1 : o.indices = []
  · rw [if_pos g1] at he
    injection he with he
    rw [show b' = b from (congrArg Prod.fst he).symm, show d' = d from (congrArg Prod.snd he).symm]
    exact ⟨hm, fun _ _ => rfl⟩
  · rw [if_neg g1] at he
    by_cases g2 : (o.indices.any (fun i => decide (i ∈ b.indices))) = true
    · rw [if_pos g2] at he; cases he
    · rw [if_neg g2] at he
      simp only [if_true] at he
      rw [hm] at he
      cases hg : o.file with
      | none => rw [hg] at he; cases he
      | some g =>
        rw [hg] at he
        simp only at he
        obtain ⟨rd, h3, h4⟩ := Res.bind_ok he
        obtain ⟨d2, h5, h6⟩ := Res.bind_ok h4
        injection h6 with h6
        have e1 : rd.1 = b' := congrArg Prod.fst h6
        have e2 : d2 = d' := congrArg Prod.snd h6
        refine ⟨by rw [← e1]; exact (dump_frame h3).2.1, ?_⟩
        intro f hf
        have a1 : d2 f = rd.2 f := by
          unfold moveAll at h5
          cases hs : rd.2 g with
          | none => rw [hs] at h5; cases h5
          | some zs =>
            cases ht : rd.2 m with
            | none => rw [hs, ht] at h5; cases h5
            | some zd =>
              rw [hs, ht] at h5
              simp only at h5
              obtain ⟨c1, _, h5⟩ := Res.bind_ok h5
              obtain ⟨c2, _, h5⟩ := Res.bind_ok h5
              injection h5 with h5
              rw [← h5, set_other _ hf]
        have a2 : rd.2 f = d f := by
          unfold dump at h3
          have hr : ∀ (x : List (Nat × V)) y, renamed (⟨x, y, b.configs, b.hist, some m⟩ : BR V C H) (removeResults d m) m = (removeResults d m, false) := by
            intro x y; unfold renamed; simp
          rw [hr] at h3
          simp only [Bool.true_or, if_true] at h3
          obtain ⟨cs, _, h3⟩ := Res.bind_ok h3
          obtain ⟨hs, _, h3⟩ := Res.bind_ok h3
          injection h3 with h3
          have e3 := congrArg Prod.snd h3
          simp only at e3
          rw [← e3, set_other _ hf, remove_other _ hf, remove_other _ hf]
        rw [← e2, a1, a2]

/-- a written frame is read back as it was -/
theorem frame_idem {f : FName} (b : BR V C H) : ({ b with file := some f, frame := some b.getFrame } : BR V C H).getFrame = b.getFrame := by
  unfold BR.getFrame
  cases b.frame with
  | none => simp
  | some l =>
    simp only
    split_ifs with h h' <;> first | rfl | omega

/-- C118: the states a crash can leave behind begin with the directory as it was and end with the one `extend` leaves, and the last but
one already holds the results the extended checkpoint has. -/
theorem C118_extend_states (sz : Sizes C H) {b o b' : BR V C H} {d d' : Dir V C H} {f g : FName} (hne : o.indices ≠ [])
    (hf : b.file = some f) (hg : o.file = some g) (h : extend sz b o true d = .ok (b', d')) :
    ∃ d1 d2, extendStates sz b o d f g = [d, d1, d2, d'] ∧ (d2 f).bind (·.results) = some b'.getFrame ∧
      (d' f).bind (·.results) = some b'.getFrame := by
  unfold extend at h
  rw [if_neg hne] at h
  split_ifs at h with hc h0
  swap
  · exact absurd rfl h0
  simp only [hf, hg] at h
  obtain ⟨r, h1, h2⟩ := Res.bind_ok h
  obtain ⟨d3, h3, h4⟩ := Res.bind_ok h2
  injection h4 with h4
  have e1 : r.1 = b' := congrArg Prod.fst h4
  have e2 : d3 = d' := congrArg Prod.snd h4
  subst e1 e2
  refine ⟨removeResults d f, r.2, ?_, ?_⟩
  · unfold extendStates
    simp only [hf] at h1 ⊢
    rw [h1]
    simp only [h3]
  · have hr : ∃ z, r.2 f = some z ∧ z.results = some r.1.getFrame := by
      unfold dump at h1
      simp only at h1
      obtain ⟨cs, _, h1⟩ := Res.bind_ok h1
      obtain ⟨hs, _, h1⟩ := Res.bind_ok h1
      injection h1 with h1
      subst h1
      exact ⟨_, set_self _ _ _, congrArg some (frame_idem _).symm⟩
    obtain ⟨z, hz, hz'⟩ := hr
    refine ⟨by rw [hz]; exact hz', ?_⟩
    unfold moveAll at h3
    rw [hz] at h3
    cases hs : r.2 g with
    | none => rw [hs] at h3; cases h3
    | some zs =>
      rw [hs] at h3
      simp only at h3
      obtain ⟨c1, _, h3⟩ := Res.bind_ok h3
      obtain ⟨c2, _, h3⟩ := Res.bind_ok h3
      injection h3 with h3
      rw [← h3, set_self]
      exact hz'

/-- Violation: a crash while the checkpoint is being extended can lose results that were durable before. `extend` first removes the old
results from the checkpoint file: the directory goes through a state from which the checkpoint cannot be loaded, and in which
merging the files of the directory fails. -/
theorem C118_crash_in_extend_violated (sz : Sizes C H) (b o : BR V C H) {d : Dir V C H} {f : FName} (g : FName) {z : Zip V C H} (hz : d f = some z) :
    ∃ d' ∈ extendStates sz b o d f g, loadResults d' f = .error .thrown ∧
      ∀ (files : List FName) r, f ∈ files → f ≠ .merged → mergeCkpts sz d' files ≠ .ok r := by
  refine ⟨removeResults d f, by simp [extendStates], ?_, ?_⟩
  · unfold loadResults; rw [remove_self hz]
  · intro files r hf hfm hok
    have key : ∀ (l : List FName) (x : BR V C H × Dir V C H), f ∈ l → x.1.file = some .merged → x.2 f = some { z with results := none } → ∀ y,
        l.foldlM (fun (x : BR V C H × Dir V C H) f => (loadResults x.2 f) >>= fun l => extend sz x.1 l true x.2) x ≠ .ok y := by
      intro l
      induction l with
      | nil => intro x hm'; cases hm'
      | cons a l ih =>
        intro x hml hfile hx y hy
        rw [List.foldlM_cons] at hy
        obtain ⟨x', h1, h2⟩ := Res.bind_ok hy
        obtain ⟨lr, h3, h4⟩ := Res.bind_ok h1
        by_cases ha : a = f
        · subst ha
          unfold loadResults at h3
          rw [hx] at h3
          cases h3
        · obtain ⟨e1, e2⟩ := extend_other (b' := x'.1) (d' := x'.2) hfile h4
          rcases List.mem_cons.1 hml with e | hm'
          · exact ha e.symm
          · exact ih x' hm' e1 (by rw [e2 f hfm]; exact hx) y h2
    unfold mergeCkpts at hok
    obtain ⟨m, h0, hok⟩ := Res.bind_ok hok
    obtain ⟨y, h1, _⟩ := Res.bind_ok hok
    refine key files (m, removeResults d f) hf ?_ (remove_self hz) y h1
    cases hm : removeResults d f .merged with
    | none => rw [hm] at h0; simp only at h0; injection h0 with h0; rw [← h0]; rfl
    | some zm =>
      rw [hm] at h0
      simp only at h0
      unfold loadResults at h0
      rw [hm] at h0
      simp only at h0
      cases hr : zm.results with
      | none => rw [hr] at h0; cases h0
      | some R => rw [hr] at h0; simp only at h0; injection h0 with h0; rw [← h0]

/-- Violation: a second run with the same configs in the same directory, without merging, raises when it writes its first checkpoint:
the members have the names of those already there. -/
theorem C118_rerun_violated (hfit : Spec.Fits sz) {run run2 : Nat → C → Res (V × H)} {confs : List (Nat × C)} (hne : confs ≠ [])
    (hd : d0 (.ckpt actor) = none) (hrun : ∀ x ∈ confs, run x.1 x.2 = .ok (v x, h x)) (hrun2 : ∀ x ∈ confs, run2 x.1 x.2 = .ok (v2 x, h2 x))
    (hnd : (confs.map Prod.fst).Nodup) :
    ∃ b d1, runAll sz actor keep none run confs noExisting d0 = .ok (b, d1) ∧
      runAll sz actor keep none run2 confs noExisting d1 = .error .thrown := by
  -- without checkpoints in between, all is left to the end
  have loopAll : ∀ (w : Nat × C → V) (u : Nat × C → H) (run : Nat → C → Res (V × H)) (l : List (Nat × C)) (k : Nat) (s : RunSt V C H) (pe : List (Nat × C)),
      (∀ x ∈ l, run x.1 x.2 = .ok (w x, u x)) → ((pe ++ l).map Prod.fst).Nodup → s.lastHist = tag u pe → s.last = tag w pe → s.lastConf = pe →
      runLoop sz actor keep none run l k s = .ok ⟨tag w (pe ++ l), tag u (pe ++ l), pe ++ l, s.res, s.dir⟩ := by
    intro w u run l
    induction l with
    | nil => intro k s pe _ _ e1 e2 e3; cases s; simp only at e1 e2 e3; subst e1 e2 e3; simp [runLoop]
    | cons x l ih =>
      intro k s pe hr hn e1 e2 e3
      unfold runLoop
      rw [hr x (by simp), Res.ok_bind]
      simp only
      have hx : x.1 ∉ (tag u pe).map Prod.fst := by
        rw [tag_keys]
        intro hin
        rw [List.map_append, List.nodup_append] at hn
        exact hn.2.2 x.1 hin x.1 (by simp) rfl
      rw [if_neg (by simp [due])]
      rw [ih (k + 1) _ (pe ++ [x]) (fun y hy => hr y (by simp [hy])) (by simpa using hn)]
      · simp
      · show dput _ _ = _; rw [e1, dput_new (x := (x.1, u x)) hx, tag_append]; rfl
      · show s.last ++ _ = _; rw [e2, tag_append]; rfl
      · show s.lastConf ++ _ = _; rw [e3]
  obtain ⟨b, d1, a1, _, _, a2, _, _, _⟩ := C117_one_row_per_config (keep := keep) (actor := actor) hfit none hd hrun hnd
  refine ⟨b, d1, a1, ?_⟩
  -- the members written by the first run
  obtain ⟨qs, q1, q2, _⟩ := saveSplit_ok (bytes := sz.conf) (maxB := sz.maxB) (ps := []) (items := confs) (hfit.1 confs hne).1 (hfit.1 confs hne).2 hnd (by simp)
  rw [List.nil_append] at q1
  have qne : qs ≠ [] := by
    rintro rfl
    have := q2.1
    simp at this
    exact hne this
  have hdp : dumpParts sz.conf sz.maxB true [] confs = .ok qs := by
    unfold dumpParts; rw [if_pos (by simpa using hne)]; exact q1
  have dumped : ∀ (w : Nat × C → V) (u : Nat × C → H) (d : Dir V C H), ∃ hs, dump sz ⟨tag w confs, none, confs, tag u confs, some (.tmp actor)⟩ d (.tmp actor) true keep false =
      .ok (⟨tag w confs, some (tag w confs), confs, tag u confs, some (.tmp actor)⟩, d.set (.tmp actor) (some ⟨some (tag w confs), qs, hs⟩)) := by
    intro w u d
    have e2 : ∃ hs, dumpParts sz.hist sz.maxB keep [] (tag u confs) = .ok hs := by
      cases keep with
      | false => exact ⟨[], by unfold dumpParts; simp⟩
      | true =>
        have g : tag u confs ≠ [] := by rw [Ne, tag_nil_iff]; exact hne
        obtain ⟨qs, h1, _⟩ := saveSplit_ok (ps := []) (hfit.2 _ g).1 (hfit.2 _ g).2 (by rw [tag_keys]; exact hnd) (by simp)
        exact ⟨_, by unfold dumpParts; rw [if_pos (by simpa using g), h1]⟩
    obtain ⟨hs, hhs⟩ := e2
    refine ⟨hs, ?_⟩
    have hr : renamed (⟨tag w confs, none, confs, tag u confs, some (.tmp actor)⟩ : BR V C H) d (.tmp actor) = (d, false) := by unfold renamed; simp
    unfold dump
    rw [hr]
    simp only [Bool.or_false, Bool.false_eq_true, if_false]
    have z1 : (Zip.empty : Zip V C H).configs = [] := rfl
    have z2 : (Zip.empty : Zip V C H).hist = [] := rfl
    rw [z1, z2, hdp, Res.ok_bind, hhs, Res.ok_bind]
    rfl
  -- configs in the checkpoint after the first run
  obtain ⟨hs1, hdump1⟩ := dumped v h d0
  have hidx : ∀ (w : Nat × C → V) (u : Nat × C → H), (⟨tag w confs, some (tag w confs), confs, tag u confs, some (.tmp actor)⟩ : BR V C H).getFrame = tag w confs := by
    intro w u; unfold BR.getFrame; simp
  have nt : ∀ w : Nat × C → V, tag w confs ≠ [] := fun w => by rw [Ne, tag_nil_iff]; exact hne
  have ext : ∀ (w : Nat × C → V) (u : Nat × C → H) (d : Dir V C H) (hs : Parts H) (zc : Parts C) (zh : Parts H) (zr : Option (List (Nat × V))),
      (d (.ckpt actor) = some ⟨zr, zc, zh⟩ ∨ (d (.ckpt actor) = none ∧ zc = [] ∧ zh = [])) → d (.tmp actor) = some ⟨some (tag w confs), qs, hs⟩ →
      extend sz (BR.new (.ckpt actor)) ⟨tag w confs, some (tag w confs), confs, tag u confs, some (.tmp actor)⟩ true d =
        ((moveParts qs zc) >>= fun cs => (moveParts hs zh) >>= fun hs' =>
          .ok (⟨tag w confs, some (tag w confs), [], [], some (.ckpt actor)⟩,
            ((removeResults (removeResults d (.ckpt actor)) (.ckpt actor)).set (.ckpt actor) (some ⟨some (tag w confs), zc, zh⟩)).set (.ckpt actor) (some ⟨some (tag w confs), cs, hs'⟩))) := by
    intro w u d hs zc zh zr hck htmp
    have i1 : (⟨tag w confs, some (tag w confs), confs, tag u confs, some (.tmp actor)⟩ : BR V C H).indices ≠ [] := by
      rw [indices_of_frame (by rw [hidx]; exact nt w), hidx]; simpa using nt w
    have i2 : (BR.new (.ckpt actor) : BR V C H).indices = [] := rfl
    have i3 : (⟨tag w confs, some (tag w confs), confs, tag u confs, some (.tmp actor)⟩ : BR V C H).getDict = tag w confs := by
      unfold BR.getDict
      cases tag w confs <;> rfl
    have hbase : (removeResults (removeResults d (.ckpt actor)) (.ckpt actor) (.ckpt actor)).getD Zip.empty = (⟨none, zc, zh⟩ : Zip V C H) := by
      rcases hck with hz | ⟨hz, rfl, rfl⟩
      · rw [remove_self (remove_self hz)]; rfl
      · rw [remove_none hz, remove_none hz, hz]; rfl
    have hb1 : (⟨tag w confs, some (tag w confs), [], [], some (.ckpt actor)⟩ : BR V C H).getFrame = tag w confs := by unfold BR.getFrame; simp
    have hdump := dump_append sz (b := (⟨tag w confs, some (tag w confs), [], [], some (.ckpt actor)⟩ : BR V C H)) (d := removeResults d (.ckpt actor))
      (f := .ckpt actor) rfl rfl rfl
    rw [hb1, hbase] at hdump
    unfold extend
    rw [if_neg i1, i2, if_neg (by simp), i3, hidx]
    have n1 : (BR.new (.ckpt actor) : BR V C H).dict = [] := rfl
    have n2 : (BR.new (.ckpt actor) : BR V C H).getFrame = [] := rfl
    have n3 : (BR.new (.ckpt actor) : BR V C H).file = some (.ckpt actor) := rfl
    have n4 : (BR.new (.ckpt actor) : BR V C H).configs = [] := rfl
    have n5 : (BR.new (.ckpt actor) : BR V C H).hist = [] := rfl
    simp only [if_true, n1, n2, n3, n4, n5, List.nil_append]
    rw [hdump, Res.ok_bind]
    simp only
    unfold moveAll
    rw [set_self, set_other _ (by simp), remove_other _ (by simp), remove_other _ (by simp), htmp]
    simp only
    cases moveParts qs zc with
    | error f => rfl
    | ok cs =>
      simp only [Res.ok_bind]
      cases moveParts hs zh with
      | error f => rfl
      | ok hs' => rfl
  have z1 := ext v h (d0.set (.tmp actor) (some ⟨some (tag v confs), qs, hs1⟩)) hs1 [] [] none (.inr ⟨by rw [set_other _ (by simp)]; exact hd, rfl, rfl⟩) (set_self _ _ _)
  have m1 : moveParts qs [] = .ok qs := by unfold moveParts; simp
  have m2 : moveParts hs1 [] = .ok hs1 := by unfold moveParts; simp
  rw [m1, Res.ok_bind, m2, Res.ok_bind] at z1
  have l1 := loopAll v h run confs 0 ⟨[], [], [], BR.new (.ckpt actor), d0⟩ [] hrun (by simpa using hnd) rfl rfl rfl
  have l2 := loopAll v2 h2 run2 confs 0 ⟨[], [], [], BR.new (.ckpt actor), d1⟩ [] hrun2 (by simpa using hnd) rfl rfl rfl
  simp only [List.nil_append] at l1 l2
  have hd1 : d1 (.ckpt actor) = some ⟨some (tag v confs), qs, hs1⟩ := by
    unfold runAll checkpoint at a1
    rw [l1, Res.ok_bind] at a1
    simp only at a1
    rw [hdump1, Res.ok_bind] at a1
    simp only at a1
    rw [z1, Res.ok_bind] at a1
    simp only at a1
    rw [Res.ok_bind, extend_nil sz (o := noExisting) rfl rfl] at a1
    injection a1 with a1
    have e : _ = d1 := congrArg Prod.snd a1
    rw [← e]
    simp only
    rw [set_other _ (by simp), set_self]
  obtain ⟨hs2, hdump2⟩ := dumped v2 h2 d1
  have z2 := ext v2 h2 (d1.set (.tmp actor) (some ⟨some (tag v2 confs), qs, hs2⟩)) hs2 qs hs1 (some (tag v confs)) (.inl (by rw [set_other _ (by simp)]; exact hd1)) (set_self _ _ _)
  have m3 : moveParts qs qs = .error .thrown := by
    unfold moveParts
    rw [if_pos]
    obtain ⟨p, hp⟩ := List.exists_mem_of_ne_nil _ qne
    exact List.any_eq_true.2 ⟨p, hp, by simpa using List.mem_map_of_mem (f := Prod.fst) hp⟩
  rw [m3] at z2
  unfold runAll checkpoint
  rw [l2, Res.ok_bind]
  simp only
  rw [hdump2, Res.ok_bind]
  simp only
  rw [z2]
  rfl

end Bark.Bench
