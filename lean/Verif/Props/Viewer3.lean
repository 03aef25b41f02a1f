import Mathlib.Algebra.Field.Basic
import Mathlib.Data.List.Induction
import Mathlib.Data.List.Forall2
import Mathlib.Tactic.Ring
import Mathlib.Tactic.FieldSimp
import Mathlib.Tactic.Linarith
import Mathlib.Algebra.Order.Field.Rat
import Verif.Spec.Viewer

/-! C187: videos; C188: the threaded viewer; C189: the render buffer. -/

namespace Bark.View
open Spec
set_option linter.unusedSectionVars false

/-! ### Videos -/

section
variable {W : Type}

theorem mem_save {n k : Nat} {w x : W} {fs : List (Nat × W)} :
    (k, x) ∈ save n w fs ↔ (k ≠ n ∧ (k, x) ∈ fs) ∨ (k = n ∧ x = w) := by
  simp only [save, List.mem_append, List.mem_filter, List.mem_singleton, Prod.mk.injEq, decide_eq_true_eq, ne_eq]
  tauto

theorem save_keys {n : Nat} {w : W} {fs : List (Nat × W)} (h : (fs.map Prod.fst).Nodup) : ((save n w fs).map Prod.fst).Nodup := by
  rw [save, List.map_append]
  refine List.nodup_append.2 ⟨?_, by simp, ?_⟩
  · exact h.sublist (List.Sublist.map _ List.filter_sublist)
  · intro a ha b hb
    simp only [List.map_cons, List.map_nil, List.mem_singleton] at hb
    subst hb
    obtain ⟨x, hx, rfl⟩ := List.mem_map.1 ha
    simpa using (List.mem_filter.1 hx).2

/-- **One image per world.** Without intermediate steps the worlds drawn one after the other are in the frame directory under the numbers
0, 1, 2, … in this order, and nothing else. -/
theorem C187_numbered {K : Type} [Field K] (at' : W → K → W) (time : W → K) (dt : K) (ws : List W) :
    let v := ws.foldl (fun v w => record at' time dt none w v) ⟨0, []⟩
    v.count = ws.length ∧ Numbered v.files ws := by
  induction ws using List.reverseRecOn with
  | nil => exact ⟨rfl, by simp, by simp⟩
  | append_singleton ws w ih =>
    simp only [List.foldl_append, List.foldl_cons, List.foldl_nil] at ih ⊢
    generalize ws.foldl (fun v w => record at' time dt none w v) ⟨0, []⟩ = v at ih ⊢
    obtain ⟨h1, h2, h3⟩ := ih
    refine ⟨by simp [record, h1], save_keys h2, ?_⟩
    intro k x
    simp only [record]
    rw [mem_save, h1, h3]
    by_cases hk : k < ws.length
    · rw [List.getElem?_append_left hk]
      constructor
      · rintro (⟨_, h⟩ | ⟨h, _⟩)
        · exact h
        · omega
      · exact fun h => Or.inl ⟨by omega, h⟩
    · rw [List.getElem?_append_right (by omega), List.getElem?_eq_none (l := ws) (by omega)]
      by_cases hk' : k = ws.length
      · subst hk'; simp [eq_comm]
      · rw [List.getElem?_eq_none (by simp; omega)]
        simp [hk']

/-- the image left by the loop over `k + 1` intermediate steps: the world predicted step by step to the last of the times -/
def lastImage {K : Type} [Field K] (at' : W → K → W) (d : K) : Nat → W → K → W
  | 0, w, t => at' w t
  | k + 1, w, t => lastImage at' d k (at' w t) (t + d)

theorem lastImage_time {K : Type} [Field K] {at' : W → K → W} (hcomp : ∀ w a b, at' (at' w a) b = at' w b) (d : K) :
    ∀ (k : Nat) (w : W) (t : K), lastImage at' d k w t = at' w (t + k * d)
  | 0, w, t => by simp [lastImage]
  | k + 1, w, t => by
    rw [lastImage, lastImage_time hcomp d k, hcomp]
    push_cast; congr 1; ring

theorem save_save (n : Nat) (a b : W) (fs : List (Nat × W)) : save n b (save n a fs) = save n b fs := by
  simp only [save, List.filter_append, List.filter_filter, Bool.and_self]
  simp

theorem intermediate_eq {K : Type} [Field K] (at' : W → K → W) (d : K) (n : Nat) : ∀ (k : Nat) (w : W) (t : K) (v : Video W),
    intermediate at' d n (k + 1) w t v = { count := v.count + (k + 1), files := save n (lastImage at' d k w t) v.files }
  | 0, w, t, v => rfl
  | k + 1, w, t, v => by
    rw [intermediate, intermediate_eq at' d n k, lastImage]
    simp only [save_save, Video.mk.injEq, and_true]
    omega

/-- **Violation: intermediate steps.** With `n + 1` intermediate steps the images of one world all have the same number, so that only the
last one is left; the numbers left are the multiples of `n + 1` (with gaps if `n > 0`), one per world, although the video is played with
`n + 1` images per time step. -/
theorem C187_intermediate_violated {K : Type} [Field K] (at' : W → K → W) (hcomp : ∀ w a b, at' (at' w a) b = at' w b)
    (time : W → K) (dt : K) (n : Nat) (ws : List W) :
    let v := ws.foldl (fun v w => record at' time dt (some (n + 1)) w v) ⟨0, []⟩
    v.count = ws.length * (n + 1) ∧ (v.files.map Prod.fst).Nodup ∧
      (∀ k x, (k, x) ∈ v.files ↔ ∃ j w, ws[j]? = some w ∧ k = j * (n + 1) ∧ x = at' w (time w + n * (dt / ((n : K) + 1)))) ∧
      frameRate dt (some (n + 1)) = ((n : K) + 1) / dt := by
  have e4 : frameRate dt (some (n + 1)) = ((n : K) + 1) / dt := by
    simp only [frameRate]; push_cast; rw [one_div_div]
  induction ws using List.reverseRecOn with
  | nil => exact ⟨by simp, by simp, by simp, e4⟩
  | append_singleton ws w ih =>
    simp only [List.foldl_append, List.foldl_cons, List.foldl_nil] at ih ⊢
    generalize ws.foldl (fun v w => record at' time dt (some (n + 1)) w v) ⟨0, []⟩ = v at ih ⊢
    obtain ⟨h1, h2, h3, _⟩ := ih
    have e : record at' time dt (some (n + 1)) w v = { count := v.count + (n + 1), files := save v.count (at' w (time w + n * (dt / ((n : K) + 1)))) v.files } := by
      simp only [record]
      rw [intermediate_eq, lastImage_time hcomp]
      push_cast; rfl
    rw [e]
    refine ⟨by simp [h1]; ring, save_keys h2, ?_, e4⟩
    intro k x
    rw [mem_save, h3, h1]
    constructor
    · rintro (⟨_, j, u, hj, rfl, rfl⟩ | ⟨rfl, rfl⟩)
      · have hl := (List.getElem?_eq_some_iff.1 hj).1
        exact ⟨j, u, by rw [List.getElem?_append_left hl]; exact hj, rfl, rfl⟩
      · exact ⟨ws.length, w, by simp, rfl, rfl⟩
    · rintro ⟨j, u, hj, rfl, rfl⟩
      by_cases hl : j < ws.length
      · rw [List.getElem?_append_left hl] at hj
        refine Or.inl ⟨?_, j, u, hj, rfl, rfl⟩
        intro he
        have := Nat.eq_of_mul_eq_mul_right (Nat.succ_pos n) he
        omega
      · rw [List.getElem?_append_right (by omega)] at hj
        have h0 : j - ws.length = 0 := by
          by_contra hne
          rw [List.getElem?_eq_none (by simp; omega)] at hj; cases hj
        rw [h0] at hj
        simp only [List.getElem?_cons_zero, Option.some.injEq] at hj
        subst hj
        have : j = ws.length := by omega
        subst this
        exact Or.inr ⟨rfl, rfl⟩

/-- in particular the images are not numbered consecutively: after any two worlds the number 1 is missing -/
theorem C187_gap_violated {K : Type} [Field K] (at' : W → K → W) (hcomp : ∀ w a b, at' (at' w a) b = at' w b)
    (time : W → K) (dt : K) (n : Nat) (ws : List W) (x : W) :
    (1, x) ∉ (ws.foldl (fun v w => record at' time dt (some (n + 2)) w v) ⟨0, []⟩).files := by
  obtain ⟨_, _, h, _⟩ := C187_intermediate_violated at' hcomp time dt (n + 1) ws
  intro hm
  obtain ⟨j, _, _, h1, _⟩ := (h 1 x).1 hm
  cases j with
  | zero => simp at h1
  | succ j =>
    have : (j + 1) * (n + 1 + 1) ≥ 1 * (n + 1 + 1) := Nat.mul_le_mul_right _ (by omega)
    omega

/-- **Frame rate** without intermediate steps: one image per time step -/
theorem C187_frame_rate {K : Type} [Field K] (dt : K) (h : dt ≠ 0) : frameRate dt none * dt = 1 := by
  simp only [frameRate]; field_simp

/-- with zero intermediate steps nothing is recorded -/
theorem C187_zero_steps {K : Type} [Field K] (at' : W → K → W) (time : W → K) (dt : K) (w : W) (v : Video W) :
    record at' time dt (some 0) w v = v := rfl

/-- worlds that are just their time, predicted exactly -/
example : ([0, 1, 2].foldl (fun v w => record (fun (_ : ℚ) t => t) (fun w => w) 1 (some 4) w v) (⟨0, []⟩ : Video ℚ)).files =
    [(0, 3 / 4), (4, 7 / 4), (8, 11 / 4)] := by decide +kernel
example : ([0, 1, 2].foldl (fun v w => record (fun (_ : ℚ) t => t) (fun w => w) 1 none w v) (⟨0, []⟩ : Video ℚ)).files =
    [(0, 0), (1, 1), (2, 2)] := by decide +kernel

/-! ### The threaded viewer -/

variable {K : Type} [LinearOrder K]

theorem closest_some {t : K} {times : List K} {i : Nat} :
    closest t times = some i ↔ ∃ w, times[i]? = some w ∧ w ≤ t ∧ ∀ j u, i < j → times[j]? = some u → t < u := by
  induction times using List.reverseRecOn generalizing i with
  | nil => simp [closest]
  | append_singleton ts x ih =>
    unfold closest at ih ⊢
    rw [List.reverse_append, List.reverse_singleton, List.singleton_append, List.findIdx?_cons]
    by_cases hx : x ≤ t
    · simp only [hx, decide_true, cond_true, Option.map_some, Option.some.injEq, List.length_append, List.length_singleton, if_true]
      constructor
      · rintro rfl
        refine ⟨x, by simp, hx, ?_⟩
        intro j u hj hu
        rw [List.getElem?_eq_none (by simp; omega)] at hu; cases hu
      · rintro ⟨w, hw, _, h⟩
        have hl := (List.getElem?_eq_some_iff.1 hw).1
        rw [List.length_append, List.length_singleton] at hl
        by_contra hne
        have := h ts.length x (by omega) (by simp)
        exact absurd hx (not_le.2 this)
    · have hx' : decide (x ≤ t) = false := by simpa using hx
      simp only [hx', Bool.false_eq_true, if_false, Option.map_map, List.length_append, List.length_singleton]
      have e : (fun idx => ts.length + 1 - 1 - idx) ∘ (fun i => i + 1) = fun idx => ts.length - 1 - idx := by
        funext k; simp only [Function.comp]; omega
      rw [e, ih]
      constructor
      · rintro ⟨w, hw, hwt, h⟩
        have hl := (List.getElem?_eq_some_iff.1 hw).1
        refine ⟨w, by rw [List.getElem?_append_left hl]; exact hw, hwt, ?_⟩
        intro j u hj hu
        by_cases hjl : j < ts.length
        · rw [List.getElem?_append_left hjl] at hu; exact h j u hj hu
        · rw [List.getElem?_append_right (by omega)] at hu
          have h0 : j - ts.length = 0 := by
            by_contra hne
            rw [List.getElem?_eq_none (by simp; omega)] at hu; cases hu
          rw [h0] at hu
          simp only [List.getElem?_cons_zero, Option.some.injEq] at hu
          subst hu; exact not_le.1 hx
      · rintro ⟨w, hw, hwt, h⟩
        have hl := (List.getElem?_eq_some_iff.1 hw).1
        rw [List.length_append, List.length_singleton] at hl
        by_cases hil : i < ts.length
        · rw [List.getElem?_append_left hil] at hw
          refine ⟨w, hw, hwt, fun j u hj hu => h j u hj ?_⟩
          have := (List.getElem?_eq_some_iff.1 hu).1
          rw [List.getElem?_append_left this]; exact hu
        · exfalso
          have : i = ts.length := by omega
          subst this
          simp at hw; subst hw
          exact hx hwt

theorem closest_none {t : K} {times : List K} : closest t times = none ↔ ∀ w ∈ times, t < w := by
  simp [closest, List.findIdx?_eq_none_iff]

/-- **World shown at a render time.** If worlds are queued in the order of time, the one shown is one of those not later than the
render time, and no such world is later than it; it is the one queued last among those with its time. -/
theorem C188_latest {t : K} {times : List K} {ws : List W} (hl : times.length = ws.length) (hs : times.Pairwise (· ≤ ·)) {w : W} :
    pick t times ws = .ok w ↔ ∃ (i : Nat) (u : K), times[i]? = some u ∧ ws[i]? = some w ∧ u ≤ t ∧
      (∀ x ∈ times, x ≤ t → x ≤ u) ∧ ∀ j x, i < j → times[j]? = some x → t < x := by
  unfold pick
  cases hc : closest t times with
  | none =>
    simp only [reduceCtorEq, false_iff]
    rintro ⟨i, u, hu, _, hut, _⟩
    exact absurd hut (not_le.2 (closest_none.1 hc u (List.mem_of_getElem? hu)))
  | some i =>
    obtain ⟨u, hu, hut, h⟩ := closest_some.1 hc
    have hi := (List.getElem?_eq_some_iff.1 hu).1
    have hwi : ws[i]? = some ws[i] := List.getElem?_eq_getElem (by omega)
    simp only [hwi, Except.ok.injEq]
    constructor
    · rintro rfl
      refine ⟨i, u, hu, hwi, hut, ?_, h⟩
      intro x hx hxt
      obtain ⟨j, hj⟩ := List.mem_iff_getElem?.1 hx
      by_cases hij : i < j
      · exact absurd hxt (not_le.2 (h j x hij hj))
      · by_cases hji : j = i
        · subst hji; rw [hu] at hj; cases hj; exact le_refl _
        · obtain ⟨h1, rfl⟩ := List.getElem?_eq_some_iff.1 hj
          obtain ⟨h2, rfl⟩ := List.getElem?_eq_some_iff.1 hu
          exact List.pairwise_iff_getElem.1 hs j i h1 h2 (by omega)
    · rintro ⟨j, x, hj, hw, hxt, _, h'⟩
      have : i = j := by
        rcases Nat.lt_trichotomy i j with hlt | he | hgt
        · exact absurd hxt (not_le.2 (h j x hlt hj))
        · exact he
        · exact absurd hut (not_le.2 (h' i u hgt hu))
      subst this
      rw [hwi] at hw; exact Option.some.inj hw

/-- **Violation: worlds that begin later.** The render time starts at 0; while all worlds queued are later, showing raises an exception,
which ends the thread. -/
theorem C188_later_violated {t : K} {times : List K} (ws : List W) (h : ∀ w ∈ times, t < w) : pick t times ws = .error .type := by
  unfold pick
  rw [closest_none.2 h]

example : pick (3 / 2 : ℚ) [0, 1, 1, 2] ["a", "b", "c", "d"] = .ok "c" := by decide +kernel
example : pick (0 : ℚ) [5, 6] ["a", "b"] = .error .type := C188_later_violated _ (by decide +kernel)

end

/-! ### The render buffer -/

section
variable {P L : Type}

theorem under_add (n m : String) (p : P) : ∀ b : Buffer P, under (b.add n p) m = if m = n then under b m ++ [p] else under b m
  | [] => by
    by_cases h : m = n
    · subst h; simp [Buffer.add, under]
    · have : (m == n) = false := by simpa using h
      simp [Buffer.add, under, List.lookup_cons, this, h]
  | (k, ps) :: b => by
    have ih := under_add n m p b
    unfold under at ih ⊢
    by_cases hk : k = n
    · subst hk
      simp only [Buffer.add, if_true, List.lookup_cons]
      by_cases h : m = k
      · subst h; simp
      · have : (m == k) = false := by simpa using h
        simp [this, h]
    · simp only [Buffer.add, if_neg hk, List.lookup_cons]
      by_cases h : m = k
      · subst h; simp [hk]
      · have : (m == k) = false := by simpa using h
        simp only [this]; exact ih

/-- **The buffer.** After any sequence of additions the primitives under a name are those that were there, followed by those added under
this name, in order. -/
theorem C189_buffer (adds : List (String × P)) (b : Buffer P) (m : String) :
    under (adds.foldl (fun b x => b.add x.1 x.2) b) m = under b m ++ (adds.filter (fun x => decide (x.1 = m))).map Prod.snd := by
  induction adds generalizing b with
  | nil => simp
  | cons x adds ih =>
    rw [List.foldl_cons, ih, under_add]
    by_cases h : m = x.1
    · rw [if_pos h, List.filter_cons_of_pos (by simp [h])]; simp
    · rw [if_neg h, List.filter_cons_of_neg (by simpa [eq_comm] using h)]

/-- what a frame is: every lane with its style, the ego vehicle, the other vehicles, the state of the ego vehicle -/
structure FrameOf (lanes : List (L × Mark)) (agents : List Nat) (e : Nat) (before after : Buffer (Prim L)) : Prop where
  map : under after "MAP_LINE" = under before "MAP_LINE" ++
    lanes.map (fun l => Prim.lane l.1 (decide (l.2 = .broken ∨ l.2 = .none)))
  ego : under after "EGO_AGENT" = under before "EGO_AGENT" ++ [Prim.vehicle e true]
  others : under after "OTHER_AGENT" = under before "OTHER_AGENT" ++ (agents.filter (fun i => decide (i ≠ e))).map (fun i => Prim.vehicle i false)
  state : under after "EGO_AGENT_STATE" = under before "EGO_AGENT_STATE" ++ [Prim.egoState e]
  rest : ∀ m, m ≠ "MAP_LINE" → m ≠ "EGO_AGENT" → m ≠ "OTHER_AGENT" → m ≠ "EGO_AGENT_STATE" → under after m = under before m

theorem lanes_under (m : String) : ∀ (lanes : List (L × Mark)) (b : Buffer (Prim L)),
    under (lanes.foldl (fun b l => drawLane l b) b) m = under b m ++
      if m = "MAP_LINE" then lanes.map (fun l => Prim.lane l.1 (decide (l.2 = .broken ∨ l.2 = .none))) else []
  | [], b => by simp
  | l :: lanes, b => by
    rw [List.foldl_cons, lanes_under m lanes, drawLane, under_add]
    obtain ⟨x, k⟩ := l
    by_cases h : m = "MAP_LINE"
    · simp only [if_pos h, List.map_cons, List.append_assoc, List.singleton_append]
      cases k <;> simp
    · simp only [if_neg h]

theorem vehicles_under (m : String) (e : Nat) : ∀ (agents : List Nat) (b : Buffer (Prim L)),
    under (agents.foldl (drawVehicle e) b) m = under b m ++
      if m = "EGO_AGENT" then (agents.filter (fun i => decide (i = e))).map (fun i => Prim.vehicle i true)
      else if m = "OTHER_AGENT" then (agents.filter (fun i => decide (i ≠ e))).map (fun i => Prim.vehicle i false) else []
  | [], b => by simp
  | i :: l, b => by
    rw [List.foldl_cons, vehicles_under m e l, drawVehicle]
    by_cases hi : i = e
    · rw [if_pos hi, under_add, List.filter_cons_of_pos (by simp [hi]), List.filter_cons_of_neg (by simp [hi])]
      by_cases h : m = "EGO_AGENT"
      · subst h; simp
      · simp only [if_neg h]
    · rw [if_neg hi, under_add, List.filter_cons_of_neg (by simp [hi]), List.filter_cons_of_pos (by simp [hi])]
      by_cases h : m = "OTHER_AGENT"
      · subst h
        simp only [String.reduceEq, if_true, if_false]
        simp
      · simp only [if_neg h]

/-- **A frame in the buffer.** If the first evaluated agent is in the world, a frame of the buffered viewer adds one line per lane (with
dashed style exactly for broken and missing marks), the evaluated agent as ego vehicle with its state, every other agent once as other
vehicle, and nothing else. -/
theorem C189_frame (lanes : List (L × Mark)) {agents : List Nat} (hn : agents.Nodup) {e : Nat} (he : e ∈ agents) (l : List Nat)
    (b : Buffer (Prim L)) :
    ∃ b', bufferWorld lanes agents (some (e :: l)) b = (b', none) ∧ FrameOf lanes agents e b b' := by
  refine ⟨((agents.foldl (drawVehicle e) (lanes.foldl (fun b l => drawLane l b) b)).add "EGO_AGENT_STATE" (.egoState e)),
    by simp only [bufferWorld, firstEval, if_pos he], ?_⟩
  have hf : agents.filter (fun i => decide (i = e)) = [e] := by
    clear b l lanes
    induction agents with
    | nil => cases he
    | cons a l ih =>
      rw [List.nodup_cons] at hn
      by_cases h : a = e
      · subst h
        rw [List.filter_cons_of_pos (by simp), List.filter_eq_nil_iff.2]
        intro x hx hxe
        simp only [decide_eq_true_eq] at hxe
        subst hxe; exact hn.1 hx
      · rw [List.filter_cons_of_neg (by simpa using h)]
        rcases List.mem_cons.1 he with rfl | he
        · exact absurd rfl h
        · exact ih hn.2 he
  constructor
  · rw [under_add, vehicles_under, lanes_under]; simp
  · rw [under_add, vehicles_under, lanes_under, hf]; simp
  · rw [under_add, vehicles_under, lanes_under]; simp
  · rw [under_add, vehicles_under, lanes_under]; simp
  · intro m h1 h2 h3 h4
    rw [under_add, vehicles_under, lanes_under, if_neg h1, if_neg h2, if_neg h3, if_neg h4]; simp

/-- **A frame that raises.** A frame of the buffered viewer raises exactly if no evaluated agent is given or the first one is not in the
world; it has then added the lanes, and nothing else. -/
theorem C189_raises (lanes : List (L × Mark)) (agents : List Nat) (ev : Option (List Nat)) (b : Buffer (Prim L)) :
    ((bufferWorld lanes agents ev b).2 ≠ none ↔ ∀ e l, ev = some (e :: l) → e ∉ agents) ∧
    ((bufferWorld lanes agents ev b).2 ≠ none →
      under (bufferWorld lanes agents ev b).1 "MAP_LINE" = under b "MAP_LINE" ++
          lanes.map (fun l => .lane l.1 (decide (l.2 = .broken ∨ l.2 = .none))) ∧
      ∀ m, m ≠ "MAP_LINE" → under (bufferWorld lanes agents ev b).1 m = under b m) := by
  have hl : under (lanes.foldl (fun b l => drawLane l b) b) "MAP_LINE" = under b "MAP_LINE" ++
          lanes.map (fun l => .lane l.1 (decide (l.2 = .broken ∨ l.2 = .none))) := by
    rw [lanes_under]; simp
  have hm : ∀ m, m ≠ "MAP_LINE" → under (lanes.foldl (fun b l => drawLane l b) b) m = under b m := by
    intro m h; rw [lanes_under]; simp [h]
  unfold bufferWorld
  match ev with
  | none => simp only [firstEval]; exact ⟨by simp, fun _ => ⟨hl, hm⟩⟩
  | some [] => simp only [firstEval]; exact ⟨by simp, fun _ => ⟨hl, hm⟩⟩
  | some (e :: l) =>
    simp only [firstEval]
    by_cases h : e ∈ agents
    · rw [if_pos h]; simp [h]
    · rw [if_neg h]
      refine ⟨?_, fun _ => ⟨hl, hm⟩⟩
      simp only [ne_eq, reduceCtorEq, not_false_eq_true, Option.some.injEq, List.cons.injEq, true_iff]
      rintro e' l' ⟨rfl, _⟩; exact h

/-- **Frames of the matplotlib buffer viewer.** In any sequence of frames each with its evaluated agent in the world, starting with an empty
buffer, every frame renders exactly its own world, and the buffer is empty again. -/
theorem C189_rendered (frames : List (List (L × Mark) × List Nat × Nat × List Nat))
    (h : ∀ f ∈ frames, f.2.1.Nodup ∧ f.2.2.1 ∈ f.2.1) :
    (frames.foldl (fun (q : List (Option (Buffer (Prim L))) × Buffer (Prim L)) f =>
        let r := bufferMP f.1 f.2.1 (some (f.2.2.1 :: f.2.2.2)) q.2
        (q.1 ++ [r.1], r.2)) ([], [])).2 = [] ∧
    List.Forall₂ (fun f o => ∃ b', o = some b' ∧ FrameOf f.1 f.2.1 f.2.2.1 [] b') frames
      (frames.foldl (fun (q : List (Option (Buffer (Prim L))) × Buffer (Prim L)) f =>
        let r := bufferMP f.1 f.2.1 (some (f.2.2.1 :: f.2.2.2)) q.2
        (q.1 ++ [r.1], r.2)) ([], [])).1 := by
  induction frames using List.reverseRecOn with
  | nil => exact ⟨rfl, .nil⟩
  | append_singleton fs f ih =>
    obtain ⟨i1, i2⟩ := ih (fun f hf => h f (List.mem_append_left _ hf))
    obtain ⟨hn, he⟩ := h f (by simp)
    obtain ⟨b', hb, hF⟩ := C189_frame f.1 hn he f.2.2.2 []
    simp only [List.foldl_append, List.foldl_cons, List.foldl_nil]
    rw [i1]
    simp only [bufferMP, hb]
    exact ⟨trivial, List.rel_append i2 (.cons ⟨b', rfl, hF⟩ .nil)⟩

/-- **Violation: growth.** The buffered viewer itself never empties the buffer: after `k` frames of the same world there are `k` ego
vehicles in it. -/
theorem C189_grows_violated (lanes : List (L × Mark)) {agents : List Nat} (hn : agents.Nodup) {e : Nat} (he : e ∈ agents) (k : Nat) :
    (under ((List.replicate k ()).foldl (fun b _ => (bufferWorld lanes agents (some [e]) b).1) []) "EGO_AGENT").length = k := by
  induction k with
  | zero => rfl
  | succ k ih =>
    rw [List.replicate_succ', List.foldl_append, List.foldl_cons, List.foldl_nil]
    generalize (List.replicate k ()).foldl (fun b _ => (bufferWorld lanes agents (some [e]) b).1) [] = b at ih ⊢
    obtain ⟨b', hb, hF⟩ := C189_frame lanes hn he [] b
    rw [hb]
    show (under b' "EGO_AGENT").length = k + 1
    rw [hF.ego, List.length_append, ih]; rfl

/-- **Violation: a frame without the evaluated agent** raises, but leaves the lanes in the buffer, so that the next frame has them twice. -/
theorem C189_failed_frame_violated (lanes : List (L × Mark)) {agents agents' : List Nat} {e : Nat} (h : e ∉ agents)
    (hn : agents'.Nodup) (he : e ∈ agents') :
    (bufferMP lanes agents (some [e]) []).1 = none ∧
    ∃ b', (bufferMP lanes agents' (some [e]) (bufferMP lanes agents (some [e]) []).2).1 = some b' ∧
      (under b' "MAP_LINE").length = 2 * lanes.length := by
  have e1 : bufferMP lanes agents (some [e]) [] = (none, lanes.foldl (fun b l => drawLane l b) []) := by
    simp only [bufferMP, bufferWorld, firstEval, if_neg h]
  rw [e1]
  obtain ⟨b', hb, hF⟩ := C189_frame lanes hn he [] (lanes.foldl (fun b l => drawLane l b) [])
  refine ⟨rfl, b', by simp only [bufferMP, hb], ?_⟩
  rw [hF.map, lanes_under]
  simp [under]; omega

example : bufferMP [("a", Mark.solid), ("b", Mark.broken)] [3, 7] (some [7]) [] = (some
    [("MAP_LINE", [.lane "a" false, .lane "b" true]), ("OTHER_AGENT", [.vehicle 3 false]), ("EGO_AGENT", [.vehicle 7 true]),
     ("EGO_AGENT_STATE", [.egoState 7])], []) := by decide +kernel

end

end Bark.View
