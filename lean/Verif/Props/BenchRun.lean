import Verif.Props.BenchStore

/-!
Complete benchmark runs (C117), interrupted and resumed runs (C118), saving and loading results (C120).
-/
set_option linter.unusedSectionVars false
namespace Bark.Bench

variable {V C H X : Type}

/-- one row per config -/
def tag {Y : Type} (v : Nat × C → Y) (l : List (Nat × C)) : List (Nat × Y) := l.map (fun c => (c.1, v c))

theorem tag_keys {Y : Type} (v : Nat × C → Y) (l : List (Nat × C)) : (tag v l).map Prod.fst = l.map Prod.fst := by
  unfold tag; rw [List.map_map]; rfl

theorem tag_append {Y : Type} (v : Nat × C → Y) (l m : List (Nat × C)) : tag v (l ++ m) = tag v l ++ tag v m := by
  unfold tag; rw [List.map_append]

theorem tag_nil_iff {Y : Type} (v : Nat × C → Y) (l : List (Nat × C)) : tag v l = [] ↔ l = [] := by unfold tag; simp

/-- histories kept -/
def hists {Y : Type} (keep : Bool) (h : Nat × C → Y) (l : List (Nat × C)) : List (Nat × Y) := if keep then tag h l else []

theorem hists_append {Y : Type} (keep : Bool) (h : Nat × C → Y) (l m : List (Nat × C)) : hists keep h (l ++ m) = hists keep h l ++ hists keep h m := by
  unfold hists; cases keep <;> simp [tag_append]

theorem within_tag (v : Nat × C → V) (h : Nat × C → H) (keep : Bool) (l : List (Nat × C)) : Within (tag v l) l (hists keep h l) := by
  refine ⟨fun x hx => by rw [tag_keys]; exact List.mem_map_of_mem hx, fun x hx => ?_⟩
  unfold hists at hx
  cases keep with
  | false => simp at hx
  | true =>
    simp only [if_true] at hx
    rw [tag_keys, ← tag_keys h]; exact List.mem_map_of_mem hx

theorem dput_new {m : List (Nat × X)} {x : Nat × X} (h : x.1 ∉ m.map Prod.fst) : dput m x = m ++ [x] := by
  unfold dput; rw [if_neg h]

/-- state of a run in which the configs `fl` were written to the checkpoint and the configs `pe` were run since -/
structure Inv (actor : Option Nat) (keep : Bool) (v : Nat × C → V) (h : Nat × C → H) (d0 : Dir V C H) (fl pe : List (Nat × C)) (s : RunSt V C H) : Prop where
  last : s.last = tag v pe
  lastConf : s.lastConf = pe
  lastHist : s.lastHist = tag h pe
  dict : s.res.dict = tag v fl
  frame : s.res.getFrame = tag v fl
  conf : s.res.configs = []
  hist : s.res.hist = []
  file : s.res.file = some (.ckpt actor)
  backed : Backed s.dir (.ckpt actor) (tag v fl) fl (hists keep h fl)
  others : ∀ f, f ≠ .ckpt actor → f ≠ .tmp actor → s.dir f = d0 f
  tmp : fl = [] → s.dir (.tmp actor) = d0 (.tmp actor)
  tmp' : fl ≠ [] → ∃ a l, fl = a ++ l ∧ l ≠ [] ∧ Spec.Archive s.dir (.tmp actor) (tag v l) l (hists keep h l)

theorem nodup_right {α : Type} {a b : List α} (h : (a ++ b).Nodup) : b.Nodup := (List.nodup_append.1 h).2.1

variable {sz : Sizes C H} {actor : Option Nat} {keep : Bool} {v : Nat × C → V} {h : Nat × C → H} {d0 : Dir V C H}

theorem checkpoint_ok (hfit : Spec.Fits sz) {fl pe : List (Nat × C)} {s : RunSt V C H} (hi : Inv actor keep v h d0 fl pe s)
    (hnd : ((fl ++ pe).map Prod.fst).Nodup) (hpe : pe ≠ []) :
    ∃ s', checkpoint sz actor keep s = .ok s' ∧ Inv actor keep v h d0 (fl ++ pe) [] { s' with last := [], lastHist := [], lastConf := [] } := by
  have hnd2 : (pe.map Prod.fst).Nodup := by rw [List.map_append] at hnd; exact nodup_right hnd
  obtain ⟨d1, h1, h2, h3⟩ := dump_fresh hfit s.dir (.tmp actor) keep (rows := tag v pe) (confs := pe) (hists := tag h pe) hnd2
    (by rw [tag_keys]; exact hnd2)
  have hba : Backed d1 (.ckpt actor) (tag v fl) fl (hists keep h fl) := by
    have e : d1 (.ckpt actor) = s.dir (.ckpt actor) := h3 _ (by simp)
    rcases hi.backed with ⟨z, hz, r⟩ | ⟨hz, r⟩
    · exact .inl ⟨z, e.trans hz, r⟩
    · exact .inr ⟨e.trans hz, r⟩
  obtain ⟨b', d', e1, e2, e3, e4, e5, e6, e7, e8⟩ := extend_ok sz (b := s.res) (o := ⟨tag v pe, some (tag v pe), pe, tag h pe, some (.tmp actor)⟩)
    (f := .ckpt actor) (g := .tmp actor) (L := tag v pe) (by simp) hi.file rfl hi.conf hi.hist hi.frame
    (by show (if _ then _ else _) = _; simp)
    (by rw [Ne, tag_nil_iff]; exact hpe) hba h2 (within_tag v h keep fl) (within_tag v h keep pe) (by
      intro i hi1 hi2
      rw [tag_keys] at hi1 hi2
      rw [List.map_append, List.nodup_append] at hnd
      exact hnd.2.2 i hi2 i hi1 rfl)
  refine ⟨{ s with res := b', dir := d' }, ?_, ?_⟩
  · unfold checkpoint
    rw [hi.last, hi.lastConf, hi.lastHist, h1, Res.ok_bind]
    simp only
    rw [e1, Res.ok_bind]
  · refine ⟨rfl, rfl, rfl, ?_, ?_, e5, e6, e2, .inl ?_, ?_, ?_, ?_⟩
    · show b'.dict = _
      rw [e4, hi.dict, tag_append]
      congr 1
      show (match tag v pe, some (tag v pe) with | [], some l => l | d, _ => d) = _
      split <;> simp_all
    · show b'.getFrame = _; rw [e3, tag_append]
    · show Spec.Archive d' _ _ _ _
      rw [tag_append, hists_append]
      exact e7
    · intro f g1 g2
      show d' f = _
      rw [e8 f g1, h3 f g2, hi.others f g1 g2]
    · intro hnil
      simp at hnil
      exact absurd hnil.2 hpe
    · intro _
      refine ⟨fl, pe, rfl, hpe, ?_⟩
      show Spec.Archive d' _ _ _ _
      obtain ⟨z, hz, r⟩ := h2
      exact ⟨z, by rw [e8 _ (by simp)]; exact hz, r⟩

/-- configs run since the last checkpoint, after `k` configs -/
def pending (every : Option Nat) (k : Nat) : Nat :=
  match every with
  | some (c + 1) => k % (c + 1)
  | _ => k

theorem pending_due {every : Option Nat} {k : Nat} : (due every (k + 1) = true → pending every (k + 1) = 0) ∧
    (due every (k + 1) = false → pending every (k + 1) = pending every k + 1) := by
  match every with
  | none => exact ⟨by simp [due], by simp [pending]⟩
  | some 0 => exact ⟨by simp [due], by simp [pending]⟩
  | some (c + 1) =>
    refine ⟨by simp [due, pending], ?_⟩
    intro g
    simp only [due, decide_eq_false_iff_not] at g
    simp only [pending]
    have h1 := Nat.mod_lt k (show 0 < c + 1 from Nat.succ_pos c)
    by_cases h2 : k % (c + 1) + 1 = c + 1
    · exfalso; apply g
      have := Nat.div_add_mod k (c + 1)
      have e : k + 1 = (c + 1) * (k / (c + 1)) + (c + 1) := by omega
      rw [e, Nat.add_mod_right, Nat.mul_mod_right]
    · rw [Nat.add_mod, Nat.mod_eq_of_lt (show (k % (c+1) + 1 % (c + 1)) < c + 1 by
        rcases Nat.eq_zero_or_pos c with rfl | hc
        · simp at h2 h1 ⊢; omega
        · rw [Nat.mod_eq_of_lt (show 1 < c + 1 by omega)]; omega)]
      rcases Nat.eq_zero_or_pos c with rfl | hc
      · simp at h2; omega
      · rw [Nat.mod_eq_of_lt (show 1 < c + 1 by omega)]

theorem loop_inv (hfit : Spec.Fits sz) {every : Option Nat} {run : Nat → C → Res (V × H)} (cs : List (Nat × C)) :
    ∀ (k : Nat) {fl pe : List (Nat × C)} {s : RunSt V C H}, (∀ c ∈ cs, run c.1 c.2 = .ok (v c, h c)) → Inv actor keep v h d0 fl pe s →
      ((fl ++ pe ++ cs).map Prod.fst).Nodup → pe.length = pending every k →
      ∃ s' fl' pe', runLoop sz actor keep every run cs k s = .ok s' ∧ Inv actor keep v h d0 fl' pe' s' ∧ fl' ++ pe' = fl ++ pe ++ cs ∧
        pe'.length = pending every (k + cs.length) := by
  induction cs with
  | nil => intro k fl pe s _ hi _ hp; exact ⟨s, fl, pe, rfl, hi, by simp, by simpa using hp⟩
  | cons c cs ih =>
    intro k fl pe s hrun hi hnd hp
    have hc : c.1 ∉ (tag h pe).map Prod.fst := by
      rw [tag_keys]
      intro hin
      rw [List.map_append, List.nodup_append] at hnd
      exact hnd.2.2 c.1 (by rw [List.map_append]; exact List.mem_append_right _ hin) c.1 (by simp) rfl
    have hi1 : Inv actor keep v h d0 fl (pe ++ [c])
        { s with last := s.last ++ [(c.1, v c)], lastHist := dput s.lastHist (c.1, h c), lastConf := s.lastConf ++ [c] } :=
      ⟨by show s.last ++ _ = _; rw [hi.last, tag_append]; rfl, by show s.lastConf ++ _ = _; rw [hi.lastConf],
        by show dput _ _ = _; rw [hi.lastHist, dput_new (x := (c.1, h c)) hc, tag_append]; rfl,
        hi.dict, hi.frame, hi.conf, hi.hist, hi.file, hi.backed, hi.others, hi.tmp, hi.tmp'⟩
    have hrc := hrun c (by simp)
    have hnd' : ((fl ++ (pe ++ [c]) ++ cs).map Prod.fst).Nodup := by simpa using hnd
    have hk : k + (c :: cs).length = (k + 1) + cs.length := by simp; omega
    by_cases g : due every (k + 1) = true
    · obtain ⟨s2, e1, e2⟩ := checkpoint_ok hfit hi1 (by
        rw [List.map_append] at hnd'; exact (List.nodup_append.1 hnd').1) (by simp)
      obtain ⟨s', fl', pe', a1, a2, a3, a4⟩ := ih (k + 1) (fun x hx => hrun x (by simp [hx])) e2 (by simpa using hnd') (pending_due.1 g).symm
      refine ⟨s', fl', pe', ?_, a2, by rw [a3]; simp, by rw [hk]; exact a4⟩
      unfold runLoop
      rw [hrc, Res.ok_bind]
      simp only
      rw [if_pos g, e1, Res.ok_bind]
      exact a1
    · have g' : due every (k + 1) = false := by simpa using g
      obtain ⟨s', fl', pe', a1, a2, a3, a4⟩ := ih (k + 1) (fun x hx => hrun x (by simp [hx])) hi1 hnd' (by
        rw [pending_due.2 g', List.length_append, hp]; rfl)
      refine ⟨s', fl', pe', ?_, a2, by rw [a3]; simp, by rw [hk]; exact a4⟩
      unfold runLoop
      rw [hrc, Res.ok_bind]
      simp only
      rw [if_neg g]
      exact a1

theorem inv_init {d0 : Dir V C H} (hd : d0 (.ckpt actor) = none) : Inv actor keep v h d0 [] [] ⟨[], [], [], BR.new (.ckpt actor), d0⟩ :=
  ⟨rfl, rfl, rfl, rfl, rfl, rfl, rfl, rfl, .inr ⟨hd, rfl, rfl, by cases keep <;> rfl⟩, fun _ _ _ => rfl, fun _ => rfl, fun g => absurd rfl g⟩

/-- the part of `run` before the existing results are added -/
theorem run_own (hfit : Spec.Fits sz) {every : Option Nat} {run : Nat → C → Res (V × H)} {toRun : List (Nat × C)} (hd : d0 (.ckpt actor) = none)
    (hrun : ∀ c ∈ toRun, run c.1 c.2 = .ok (v c, h c)) (hnd : (toRun.map Prod.fst).Nodup) (existing : BR V C H) :
    ∃ b d1, runAll sz actor keep every run toRun existing d0 = extend sz b existing true d1 ∧
      b.dict = tag v toRun ∧ b.getFrame = tag v toRun ∧ b.configs = [] ∧ b.hist = [] ∧ b.file = some (.ckpt actor) ∧
      Backed d1 (.ckpt actor) (tag v toRun) toRun (hists keep h toRun) ∧ d1 (.tmp actor) = none ∧
      ∀ f, f ≠ .ckpt actor → f ≠ .tmp actor → d1 f = d0 f := by
  obtain ⟨s, fl, pe, a1, a2, a3, _⟩ := loop_inv hfit (every := every) (actor := actor) (keep := keep) (d0 := d0) toRun 0 hrun (inv_init hd)
    (by simpa using hnd) (by cases every with | none => rfl | some c => cases c <;> simp [pending])
  simp only [List.nil_append] at a3
  have hset : ∀ (d : Dir V C H) f, f ≠ .tmp actor → d.set (.tmp actor) none f = d f := fun d f hf => set_other d hf none
  by_cases hpe : pe = []
  · subst hpe
    rw [List.append_nil] at a3
    subst a3
    obtain ⟨d1, h1, h2, h3⟩ := dump_fresh hfit s.dir (.tmp actor) keep (rows := ([] : List (Nat × V))) (confs := ([] : List (Nat × C)))
      (hists := ([] : List (Nat × H))) (by simp) (by simp)
    have hck : checkpoint sz actor keep s = .ok { s with dir := d1 } := by
      have e1 : s.last = [] := a2.last
      have e3 : s.lastHist = [] := a2.lastHist
      unfold checkpoint
      rw [e1, a2.lastConf, e3, h1, Res.ok_bind]
      rw [extend_nil sz rfl rfl, Res.ok_bind]
    refine ⟨s.res, d1.set (.tmp actor) none, ?_, a2.dict, a2.frame, a2.conf, a2.hist, a2.file, ?_, set_self _ _ _, ?_⟩
    · unfold runAll
      rw [a1, Res.ok_bind, hck, Res.ok_bind]
    · have e : d1.set (.tmp actor) none (.ckpt actor) = s.dir (.ckpt actor) := by
        rw [hset _ _ (by simp)]; exact h3 _ (by simp)
      rcases a2.backed with ⟨z, hz, r⟩ | ⟨hz, r⟩
      · exact .inl ⟨z, e.trans hz, r⟩
      · exact .inr ⟨e.trans hz, r⟩
    · intro f g1 g2
      rw [hset _ _ g2, h3 f g2, a2.others f g1 g2]
  · obtain ⟨s', e1, e2⟩ := checkpoint_ok hfit a2 (by rw [a3]; exact hnd) hpe
    rw [a3] at e2
    refine ⟨s'.res, s'.dir.set (.tmp actor) none, ?_, e2.dict, e2.frame, e2.conf, e2.hist, e2.file, ?_, set_self _ _ _, ?_⟩
    · unfold runAll
      rw [a1, Res.ok_bind, e1, Res.ok_bind]
    · have e : s'.dir.set (.tmp actor) none (.ckpt actor) = s'.dir (.ckpt actor) := hset _ _ (by simp)
      rcases e2.backed with ⟨z, hz, r⟩ | ⟨hz, r⟩
      · exact .inl ⟨z, e.trans hz, r⟩
      · exact .inr ⟨e.trans hz, r⟩
    · intro f g1 g2
      rw [hset _ _ g2]
      exact e2.others f g1 g2

/-! ### C117 -/

/-- A run of any configs with different indices, none of which raises out of its run, in a directory without a checkpoint file of this
runner: whatever the interval of checkpoints, the result has exactly one row per config, in order; if there are configs, the
checkpoint file holds all rows and configs, and all histories if asked for; the temporary file is gone and no other file is
touched. -/
theorem C117_one_row_per_config (hfit : Spec.Fits sz) (every : Option Nat) {run : Nat → C → Res (V × H)} {toRun : List (Nat × C)}
    (hd : d0 (.ckpt actor) = none) (hrun : ∀ c ∈ toRun, run c.1 c.2 = .ok (v c, h c)) (hnd : (toRun.map Prod.fst).Nodup) :
    ∃ b d1, runAll sz actor keep every run toRun noExisting d0 = .ok (b, d1) ∧
      b.getFrame = toRun.map (fun c => (c.1, v c)) ∧ b.getDict = toRun.map (fun c => (c.1, v c)) ∧
      (toRun ≠ [] → Spec.Archive d1 (.ckpt actor) (toRun.map (fun c => (c.1, v c))) toRun
        (if keep then toRun.map (fun c => (c.1, h c)) else [])) ∧
      (toRun = [] → d1 (.ckpt actor) = none) ∧ d1 (.tmp actor) = none ∧ ∀ f, f ≠ .ckpt actor → f ≠ .tmp actor → d1 f = d0 f := by
  obtain ⟨b, d1, a1, a2, a3, a4, a5, a6, a7, a8, a9⟩ := run_own (keep := keep) hfit (every := every) hd hrun hnd noExisting
  refine ⟨b, d1, ?_, a3, ?_, ?_, ?_, a8, a9⟩
  · rw [a1]; exact extend_nil sz rfl rfl
  · unfold BR.getDict
    rw [a2]
    cases hb : tag v toRun with
    | nil =>
      have e : toRun.map (fun c => (c.1, v c)) = [] := hb
      rw [e]
      cases hf : b.frame with
      | none => rfl
      | some l =>
        simp only
        have : b.getFrame = l := by unfold BR.getFrame; rw [hf, a2, hb]; simp
        rw [← this, a3, hb]
    | cons x l => exact hb.symm
  · intro hne
    rcases a7 with hA | ⟨_, hn, _⟩
    · exact hA
    · exact absurd ((tag_nil_iff v toRun).1 hn) hne
  · rintro rfl
    rcases a7 with ⟨z, hz, h1, _⟩ | ⟨hz, _⟩
    · -- an archive is only written for results
      exfalso
      have hs : runLoop sz actor keep every run [] 0 ⟨[], [], [], BR.new (.ckpt actor), d0⟩ = .ok ⟨[], [], [], BR.new (.ckpt actor), d0⟩ := rfl
      obtain ⟨d2, h1', h2', h3'⟩ := dump_fresh hfit d0 (.tmp actor) keep (rows := ([] : List (Nat × V))) (confs := ([] : List (Nat × C)))
        (hists := ([] : List (Nat × H))) (by simp) (by simp)
      have hr : runAll sz actor keep every run [] noExisting d0 = .ok (BR.new (.ckpt actor), d2.set (.tmp actor) none) := by
        unfold runAll checkpoint
        rw [hs, Res.ok_bind]
        simp only
        rw [h1', Res.ok_bind, extend_nil sz rfl rfl, Res.ok_bind]
        simp only
        rw [Res.ok_bind]
        exact extend_nil sz rfl rfl
      rw [hr] at a1
      rw [extend_nil sz (o := noExisting) rfl rfl] at a1
      injection a1 with a1
      have : d1 = d2.set (.tmp actor) none := (congrArg Prod.snd a1).symm
      rw [this, set_other _ (by simp), h3' _ (by simp), hd] at hz
      cases hz
    · exact hz

/-- an exception out of the run of one config stops everything: no result is returned, whatever was run before -/
theorem C117_exception_aborts (hfit : Spec.Fits sz) (every : Option Nat) {run : Nat → C → Res (V × H)} {a b : List (Nat × C)} {c : Nat × C}
    (hd : d0 (.ckpt actor) = none) (hrun : ∀ x ∈ a, run x.1 x.2 = .ok (v x, h x)) (hnd : (a.map Prod.fst).Nodup) {f : Fault}
    (hc : run c.1 c.2 = .error f) (existing : BR V C H) : runAll sz actor keep every run (a ++ c :: b) existing d0 = .error f := by
  have key : ∀ (a : List (Nat × C)) (k : Nat) (s s' : RunSt V C H), runLoop sz actor keep every run a k s = .ok s' →
      runLoop sz actor keep every run (a ++ c :: b) k s = .error f := by
    intro a
    induction a with
    | nil => intro k s s' _; show runLoop sz actor keep every run (c :: b) k s = _; unfold runLoop; rw [hc]; rfl
    | cons x a ih =>
      intro k s s' hs
      unfold runLoop at hs
      obtain ⟨r, h1, h2⟩ := Res.bind_ok hs
      show runLoop sz actor keep every run (x :: (a ++ c :: b)) k s = _
      unfold runLoop
      rw [h1, Res.ok_bind]
      simp only at h2 ⊢
      by_cases g : due every (k + 1) = true
      · rw [if_pos g] at h2 ⊢
        obtain ⟨s2, h3, h4⟩ := Res.bind_ok h2
        rw [h3, Res.ok_bind]
        exact ih _ _ _ h4
      · rw [if_neg g] at h2 ⊢
        exact ih _ _ _ h2
  obtain ⟨s, _, _, a1, _⟩ := loop_inv hfit (every := every) (actor := actor) (keep := keep) (d0 := d0) a 0 hrun (inv_init hd)
    (by simpa using hnd) (by cases every with | none => rfl | some c => cases c <;> simp [pending])
  unfold runAll
  rw [key a 0 _ s a1]
  rfl

end Bark.Bench
