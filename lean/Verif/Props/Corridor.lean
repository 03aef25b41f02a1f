import Verif.Spec.Corridor
import Verif.Props.RoadLinks

/-!
C35: lane corridors of a road corridor.
-/
set_option linter.unusedSectionVars false
namespace Bark.Cor
open Spec

theorem foldRes_append {α β : Type} {f : β → α → Res β} (l m : List α) (b : β) :
    RG.foldRes f b (l ++ m) = (RG.foldRes f b l) >>= (fun b' => RG.foldRes f b' m) := by
  induction l generalizing b with
  | nil => rfl
  | cons a l ih =>
    simp only [List.cons_append, RG.foldRes]
    cases f b a with
    | error e => rfl
    | ok b1 => exact ih b1

theorem foldRes_map {α β γ : Type} {f : β → α → Res β} (h : γ → α) (l : List γ) (b : β) :
    RG.foldRes f b (l.map h) = RG.foldRes (fun b x => f b (h x)) b l := by
  induction l generalizing b with
  | nil => rfl
  | cons a l ih =>
    simp only [List.map_cons, RG.foldRes]
    cases f b (h a) with
    | error e => rfl
    | ok b1 => exact ih b1

theorem foldRes_flatMap {α β γ : Type} {f : β → α → Res β} (h : γ → List α) (l : List γ) (b : β) :
    RG.foldRes f b (l.flatMap h) = RG.foldRes (fun b x => RG.foldRes f b (h x)) b l := by
  induction l generalizing b with
  | nil => rfl
  | cons a l ih =>
    simp only [List.flatMap_cons, RG.foldRes, foldRes_append]
    cases RG.foldRes f b (h a) with
    | error e => rfl
    | ok b1 => exact ih b1

/-- induction over the processed part of a loop -/
theorem foldRes_prefix {α β : Type} {f : β → α → Res β} {P : List α → β → Prop} {l : List α}
    (hf : ∀ done x rest b b', l = done ++ x :: rest → P done b → f b x = .ok b' → P (done ++ [x]) b')
    {b b' : β} (h0 : P [] b) (h : RG.foldRes f b l = .ok b') : P l b' := by
  suffices ∀ rest done b, l = done ++ rest → P done b → RG.foldRes f b rest = .ok b' → P l b' from this l [] b rfl h0 h
  intro rest
  induction rest with
  | nil => intro done b e hp h; cases h; rw [e, List.append_nil]; exact hp
  | cons x rest ih =>
    intro done b e hp h
    obtain ⟨b1, h1, h2⟩ := Res.bind_ok h
    exact ih (done ++ [x]) b1 (by simp [e]) (hf done x rest b b1 e hp h1) h2

section
variable {K : Type} [LinearOrder K] {rs : CRoads} {cl : List Ptr → K}

/-- the entries added to a corridor while following lanes -/
def insAll (cl : List Ptr → K) : List Ptr → List Ptr → OMap K Ptr → OMap K Ptr
  | _, [], m => m
  | seq, q :: tl, m => insAll cl (seq ++ [q]) tl (OMap.insert (cl (seq ++ [q])) q m)

theorem setLC_unique {s : RC K} {lid c : Nat} (h : c ∈ s.unique) : (setLaneCorridor s lid c).unique = s.unique := by
  simp [setLaneCorridor, h]

theorem modify_modify {α : Type} (l : List α) (i : Nat) (f g : α → α) :
    (l.modify i f).modify i g = l.modify i (fun x => g (f x)) := by
  apply List.ext_getElem?
  intro j
  simp only [List.getElem?_modify, Option.map_map]
  by_cases h : i = j
  · subst h; cases l[i]? <;> simp
  · cases l[j]? <;> simp [h]

theorem modify_id {α : Type} (l : List α) (i : Nat) : l.modify i (fun x => x) = l := by
  apply List.ext_getElem?
  intro j
  simp only [List.getElem?_modify]
  cases l[j]? <;> simp

theorem extend_ok {c : Nat} : ∀ {n : Nat} {seq : List Ptr} {p : Ptr} {s s' : RC K}, c ∈ s.unique →
    extend rs cl c n seq p s = .ok s' →
    ∃ tl, Chain (nextOf rs) p (p :: tl) ∧ s'.store = s.store.modify c (insAll cl seq tl) ∧
      (∀ lid, OMap.find lid s'.byLane = if ∃ q ∈ tl, q.2 = lid then some c else OMap.find lid s.byLane) ∧
      s'.unique = s.unique
  | 0, _, _, _, _, _, h => by simp [extend] at h
  | n + 1, seq, p, s, s', hc, h => by
    unfold extend at h
    cases hn : nextOf rs p with
    | none =>
      rw [hn] at h
      simp only at h
      cases h
      exact ⟨[], .last hn, by simp only [insAll]; exact (modify_id _ _).symm, by simp, rfl⟩
    | some q =>
      rw [hn] at h
      simp only at h
      have hc1 : c ∈ (setLaneCorridor (setLane s c (cl (seq ++ [q])) q) q.2 c).unique := by
        rw [setLC_unique (by exact hc)]; exact hc
      obtain ⟨tl, h1, h2, h3, h4⟩ := extend_ok hc1 h
      refine ⟨q :: tl, .step hn h1, ?_, ?_, ?_⟩
      · rw [h2]
        simp only [setLaneCorridor, setLane]
        rw [modify_modify]
        rfl
      · intro lid
        rw [h3]
        simp only [setLaneCorridor, setLane, OMap.find_insert]
        by_cases g : ∃ x ∈ tl, x.2 = lid
        · rw [if_pos g, if_pos]
          obtain ⟨x, hx, e⟩ := g
          exact ⟨x, by simp [hx], e⟩
        · rw [if_neg g]
          by_cases g2 : lid = q.2
          · rw [if_pos g2, if_pos ⟨q, by simp, g2.symm⟩]
          · rw [if_neg g2, if_neg]
            rintro ⟨x, hx, e⟩
            rcases List.mem_cons.1 hx with rfl | hx
            · exact g2 e.symm
            · exact g ⟨x, hx, e⟩
      · rw [h4, setLC_unique (by exact hc)]
        rfl

theorem extend_total {c : Nat} : ∀ {n : Nat} {tl seq : List Ptr} {p : Ptr} {s : RC K},
    Chain (nextOf rs) p (p :: tl) → tl.length < n → ∃ s', extend rs cl c n seq p s = .ok s'
  | 0, _, _, _, _, _, h => by omega
  | n + 1, tl, seq, p, s, hch, h => by
    unfold extend
    cases hch with
    | last hn => rw [hn]; exact ⟨_, rfl⟩
    | @step _ q _ hn t =>
      rw [hn]
      simp only
      cases t with
      | last h2 => exact extend_total (.last h2) (by simp at h ⊢; omega)
      | step h2 t2 => exact extend_total (.step h2 t2) (by simp at h ⊢; omega)

/-- the only fault is non-termination -/
theorem extend_fault {c : Nat} : ∀ {n : Nat} {seq : List Ptr} {p : Ptr} {s : RC K} {e : Fault},
    extend rs cl c n seq p s = .error e → e = .diverges
  | 0, _, _, _, _, h => by simp [extend] at h; exact h.symm
  | n + 1, seq, p, s, e, h => by
    unfold extend at h
    cases hn : nextOf rs p with
    | none => rw [hn] at h; simp at h
    | some q => rw [hn] at h; exact extend_fault h

/-- the content of a corridor made from a sequence of lanes -/
def content (cl : List Ptr → K) : List Ptr → OMap K Ptr
  | [] => []
  | p :: tl => insAll cl [p] tl [(cl [p], p)]

theorem start_ok {n : Nat} {p : Ptr} {s s' : RC K} (hu : s.unique = List.range s.store.length)
    (h : startCorridor rs cl n p s = .ok s') :
    ∃ tl, Chain (nextOf rs) p (p :: tl) ∧ s'.store = s.store ++ [content cl (p :: tl)] ∧
      (∀ lid, OMap.find lid s'.byLane = if ∃ q ∈ p :: tl, q.2 = lid then some s.store.length else OMap.find lid s.byLane) ∧
      s'.unique = List.range s'.store.length := by
  unfold startCorridor at h
  have hnot : s.store.length ∉ s.unique := by rw [hu]; simp
  obtain ⟨tl, h1, h2, h3, h4⟩ := extend_ok (by simp [setLaneCorridor, hnot]) h
  have hst : s'.store = s.store ++ [content cl (p :: tl)] := by
    rw [h2]
    simp only [setLaneCorridor]
    apply List.ext_getElem?
    intro j
    rw [List.getElem?_modify]
    rcases Nat.lt_trichotomy j s.store.length with hj | hj | hj
    · rw [List.getElem?_append_left hj, List.getElem?_append_left hj]
      cases s.store[j]? <;> simp [Nat.ne_of_gt hj]
    · subst hj
      simp [content]
    · rw [List.getElem?_append_right hj.le, List.getElem?_append_right hj.le]
      obtain ⟨k, hk⟩ : ∃ k, j - s.store.length = k + 1 := ⟨j - s.store.length - 1, by omega⟩
      rw [hk]; simp
  refine ⟨tl, h1, hst, ?_, ?_⟩
  · intro lid
    rw [h3]
    simp only [setLaneCorridor, OMap.find_insert]
    by_cases g : ∃ x ∈ tl, x.2 = lid
    · rw [if_pos g, if_pos]
      obtain ⟨x, hx, e⟩ := g
      exact ⟨x, by simp [hx], e⟩
    · rw [if_neg g]
      by_cases g2 : lid = p.2
      · rw [if_pos g2, if_pos ⟨p, by simp, g2.symm⟩]
      · rw [if_neg g2, if_neg]
        rintro ⟨x, hx, e⟩
        rcases List.mem_cons.1 hx with rfl | hx
        · exact g2 e.symm
        · exact g ⟨x, hx, e⟩
  · rw [h4, hst]
    simp only [setLaneCorridor, if_neg hnot, List.length_append, List.length_singleton, List.range_succ]
    rw [hu]

/-- all lanes in the order in which they are looked at -/
def order (rs : CRoads) (first : Nat) (ls : OMap Nat CLane) : List (Nat × Nat × CLane) :=
  ls.map (fun x => (first, x)) ++ rs.flatMap (fun r => r.2.map (fun x => (r.1, x)))

theorem calcAll_order {n first : Nat} {ls : OMap Nat CLane} (h : OMap.find first rs = some ls) :
    calcAll rs cl n first = RG.foldRes (fun s x => calcLane rs cl n x.1 s x.2) RC.empty (order rs first ls) := by
  unfold calcAll order
  rw [h, foldRes_append, foldRes_map]
  simp only [foldRes_flatMap, foldRes_map]
  rfl

/-- invariant of the generation: `seqs` are the lane sequences of the corridors, `done` the lanes looked at -/
structure Inv (rs : CRoads) (cl : List Ptr → K) (done : List (Nat × Nat × CLane)) (s : RC K) (seqs : List (List Ptr)) :
    Prop where
  store : s.store = seqs.map (content cl)
  chain : ∀ sq ∈ seqs, ∃ a tl l, sq = a :: tl ∧ Chain (nextOf rs) a (a :: tl) ∧ (a.1, a.2, l) ∈ done ∧
    l.driving = true ∧ l.pos ≠ 0
  unique : s.unique = List.range s.store.length
  byLane : ∀ lid c, OMap.find lid s.byLane = some c → ∃ r sq, seqs[c]? = some sq ∧ (r, lid) ∈ sq
  covered : ∀ sq ∈ seqs, ∀ q ∈ sq, (OMap.find q.2 s.byLane).isSome
  done : ∀ x ∈ done, x.2.2.driving = true → x.2.2.pos ≠ 0 → (OMap.find x.2.1 s.byLane).isSome

theorem inv_step {n : Nat} {done : List (Nat × Nat × CLane)} {x : Nat × Nat × CLane} {s s' : RC K}
    {seqs : List (List Ptr)} (hi : Inv rs cl done s seqs) (h : calcLane rs cl n x.1 s x.2 = .ok s') :
    (s' = s ∧ Inv rs cl (done ++ [x]) s' seqs) ∨
    (∃ tl, Chain (nextOf rs) (x.1, x.2.1) ((x.1, x.2.1) :: tl) ∧ OMap.find x.2.1 s.byLane = none ∧
      x.2.2.driving = true ∧ x.2.2.pos ≠ 0 ∧
      Inv rs cl (done ++ [x]) s' (seqs ++ [(x.1, x.2.1) :: tl])) := by
  unfold calcLane at h
  have keep : (x.2.2.driving = true → x.2.2.pos ≠ 0 → (OMap.find x.2.1 s.byLane).isSome) → s' = s →
      s' = s ∧ Inv rs cl (done ++ [x]) s' seqs := by
    intro hx e
    refine ⟨e, ?_⟩
    rw [e]
    refine ⟨hi.store, ?_, hi.unique, hi.byLane, hi.covered, ?_⟩
    · intro sq hsq
      obtain ⟨a, tl, l, h1, h2, h3, h4⟩ := hi.chain sq hsq
      exact ⟨a, tl, l, h1, h2, by simp [h3], h4⟩
    · intro y hy h1 h2
      rcases List.mem_append.1 hy with hy | hy
      · exact hi.done y hy h1 h2
      · rw [List.mem_singleton.1 hy] at h1 h2 ⊢
        exact hx h1 h2
  by_cases g : (OMap.find x.2.1 s.byLane).isSome ∨ x.2.2.pos = 0
  · rw [if_pos g] at h
    refine Or.inl (keep ?_ (by cases h; rfl))
    intro _ h2
    rcases g with g | g
    · exact g
    · exact absurd g h2
  · rw [if_neg g] at h
    by_cases g2 : x.2.2.driving = false
    · rw [if_pos g2] at h
      refine Or.inl (keep ?_ (by cases h; rfl))
      intro h1; rw [g2] at h1; cases h1
    · rw [if_neg g2] at h
      obtain ⟨tl, h1, h2, h3, h4⟩ := start_ok hi.unique h
      push Not at g
      have hd : x.2.2.driving = true := by simpa using g2
      refine Or.inr ⟨tl, h1, by simpa using g.1, hd, g.2, ?_⟩
      have hlen : s.store.length = seqs.length := by rw [hi.store]; simp
      have hnew : ∀ lid, (OMap.find lid s.byLane).isSome → (OMap.find lid s'.byLane).isSome := by
        intro lid hl
        rw [h3]
        split_ifs
        · rfl
        · exact hl
      refine ⟨by rw [h2, hi.store]; simp, ?_, h4, ?_, ?_, ?_⟩
      · intro sq hsq
        rcases List.mem_append.1 hsq with hsq | hsq
        · obtain ⟨a, t, l, e1, e2, e3, e4⟩ := hi.chain sq hsq
          exact ⟨a, t, l, e1, e2, by simp [e3], e4⟩
        · rw [List.mem_singleton.1 hsq]
          exact ⟨(x.1, x.2.1), tl, x.2.2, rfl, h1, by simp, hd, g.2⟩
      · intro lid c hl
        rw [h3] at hl
        by_cases g3 : ∃ q ∈ (x.1, x.2.1) :: tl, q.2 = lid
        · rw [if_pos g3] at hl
          cases hl
          obtain ⟨q, hq, e⟩ := g3
          refine ⟨q.1, _, by rw [hlen]; simp; rfl, ?_⟩
          rw [← e]; exact hq
        · rw [if_neg g3] at hl
          obtain ⟨r, sq, e1, e2⟩ := hi.byLane lid c hl
          refine ⟨r, sq, ?_, e2⟩
          have hlt := (List.getElem?_eq_some_iff.1 e1).1
          rw [List.getElem?_append_left hlt]; exact e1
      · intro sq hsq q hq
        rcases List.mem_append.1 hsq with hsq | hsq
        · exact hnew _ (hi.covered sq hsq q hq)
        · rw [List.mem_singleton.1 hsq] at hq
          rw [h3, if_pos ⟨q, hq, rfl⟩]; rfl
      · intro y hy e1 e2
        rcases List.mem_append.1 hy with hy | hy
        · exact hnew _ (hi.done y hy e1 e2)
        · rw [List.mem_singleton.1 hy]
          rw [h3, if_pos ⟨(x.1, x.2.1), by simp, rfl⟩]; rfl

theorem inv_empty : Inv rs cl [] (RC.empty : RC K) [] :=
  ⟨rfl, by simp, rfl, by intro lid c h; simp [RC.empty, OMap.find] at h, by simp, by simp⟩

theorem inv_all {n first : Nat} {ls : OMap Nat CLane} {s : RC K} (hf : OMap.find first rs = some ls)
    (h : calcAll rs cl n first = .ok s) : ∃ seqs, Inv rs cl (order rs first ls) s seqs := by
  rw [calcAll_order hf] at h
  refine foldRes_prefix (P := fun done s => ∃ seqs, Inv rs cl done s seqs) ?_ ⟨[], inv_empty⟩ h
  rintro done x rest b b' - ⟨seqs, hi⟩ hb
  rcases inv_step hi hb with ⟨-, h1⟩ | ⟨tl, -, -, -, -, h1⟩
  · exact ⟨_, h1⟩
  · exact ⟨_, h1⟩

theorem isLane_find (hv : Valid rs) {p : Ptr} {l : CLane} (h : IsLane rs p l) : laneAt rs p = some l := by
  obtain ⟨ls, h1, h2⟩ := h
  unfold laneAt
  rw [OMap.mem_find_some hv.roads h1]
  exact OMap.mem_find_some (hv.lanes _ _ h1) h2

theorem find_isLane {p : Ptr} {l : CLane} (h : laneAt rs p = some l) : IsLane rs p l := by
  unfold laneAt at h
  cases hr : OMap.find p.1 rs with
  | none => rw [hr] at h; simp at h
  | some ls =>
    rw [hr] at h
    exact ⟨ls, OMap.find_some_mem hr, OMap.find_some_mem h⟩

theorem mem_order {first : Nat} {ls : OMap Nat CLane} (hf : OMap.find first rs = some ls) {p : Ptr} {l : CLane} :
    (p.1, p.2, l) ∈ order rs first ls ↔ IsLane rs p l := by
  unfold order IsLane
  simp only [List.mem_append, List.mem_map, List.mem_flatMap, Prod.mk.injEq]
  constructor
  · rintro (⟨x, hx, e1, e2⟩ | ⟨r, hr, x, hx, e1, e2⟩)
    · exact ⟨ls, by rw [← e1]; exact OMap.find_some_mem hf, by rw [← e2]; exact hx⟩
    · exact ⟨r.2, by rw [← e1]; exact hr, by rw [← e2]; exact hx⟩
  · rintro ⟨ls', h1, h2⟩
    exact Or.inr ⟨(p.1, ls'), h1, (p.2, l), h2, rfl, rfl⟩

theorem chain_valid (hv : Valid rs) {p : Ptr} {sq : List Ptr} (h : Chain (nextOf rs) p sq) :
    (∃ l, IsLane rs p l) → ∀ q ∈ sq, ∃ l, IsLane rs q l := by
  induction h with
  | last h => intro hp q hq; rw [List.mem_singleton.1 hq]; exact hp
  | step h t ih =>
    intro hp q hq
    rcases List.mem_cons.1 hq with rfl | hq
    · exact hp
    · refine ih ?_ q hq
      obtain ⟨l, hl⟩ := hp
      unfold nextOf at h
      rw [isLane_find hv hl] at h
      exact hv.next _ _ _ hl h

theorem chain_split {next : Ptr → Option Ptr} {p : Ptr} {sq : List Ptr} (h : Chain next p sq) :
    ∀ q ∈ sq, ∃ pre ch, sq = pre ++ ch ∧ Chain next q ch := by
  induction h with
  | last h => intro q hq; rw [List.mem_singleton.1 hq]; exact ⟨[], _, rfl, .last h⟩
  | step h t ih =>
    intro q hq
    rcases List.mem_cons.1 hq with rfl | hq
    · exact ⟨[], _, rfl, .step h t⟩
    · obtain ⟨pre, ch, e, hc⟩ := ih q hq
      exact ⟨_ :: pre, ch, by rw [e]; rfl, hc⟩

theorem insert_last {α : Type} {m : OMap K α} {x : K} {v : α} (h : ∀ e ∈ m, e.1 < x) :
    OMap.insert x v m = m ++ [(x, v)] := by
  induction m with
  | nil => rfl
  | cons e m ih =>
    obtain ⟨k, w⟩ := e
    have hk : k < x := h (k, w) (by simp)
    simp only [OMap.insert, if_neg (not_lt.2 hk.le), if_neg (ne_of_gt hk), List.cons_append]
    rw [ih (fun e he => h e (by simp [he]))]

theorem insAll_growing (hg : Growing cl) : ∀ (tl seq : List Ptr) (m : OMap K Ptr), seq ≠ [] →
    (∀ e ∈ m, e.1 ≤ cl seq) → (insAll cl seq tl m).map Prod.snd = m.map Prod.snd ++ tl
  | [], _, _, _, _ => by simp [insAll]
  | q :: tl, seq, m, hne, hm => by
    have hlt : ∀ e ∈ m, e.1 < cl (seq ++ [q]) := fun e he => lt_of_le_of_lt (hm e he) (hg seq q hne)
    simp only [insAll]
    rw [insAll_growing hg tl _ _ (by simp), insert_last hlt]
    · simp
    · rw [insert_last hlt]
      intro e he
      rcases List.mem_append.1 he with he | he
      · exact (hlt e he).le
      · rw [List.mem_singleton.1 he]

theorem content_growing (hg : Growing cl) (sq : List Ptr) : (content cl sq).map Prod.snd = sq := by
  cases sq with
  | nil => rfl
  | cons p tl =>
    unfold content
    rw [insAll_growing hg _ _ _ (by simp) (by simp)]
    rfl

theorem inv_lanesOf {done : List (Nat × Nat × CLane)} {s : RC K} {seqs : List (List Ptr)} (hi : Inv rs cl done s seqs)
    (hg : Growing cl) {c : Nat} {sq : List Ptr} (h : seqs[c]? = some sq) : lanesOf s c = sq := by
  unfold lanesOf
  rw [hi.store, List.getElem?_map, h]
  exact content_growing hg sq

/-- C35: every drivable lane of the roads has a lane corridor. -/
theorem C35_every_lane {n first : Nat} {s : RC K} (h : calcAll rs cl n first = .ok s) {p : Ptr} (hp : Drivable rs p) :
    ∃ c, laneCorridor s p.2 = some c := by
  cases hf : OMap.find first rs with
  | none => unfold calcAll at h; rw [hf] at h; cases h
  | some ls =>
    obtain ⟨seqs, hi⟩ := inv_all hf h
    obtain ⟨l, h1, h2, h3⟩ := hp
    exact Option.isSome_iff_exists.1 (hi.done _ ((mem_order hf).2 h1) h2 h3)

/-- C35: the list of lane corridors has no duplicates and contains the corridor of every lane. -/
theorem C35_list {n first : Nat} {s : RC K} (h : calcAll rs cl n first = .ok s) :
    s.unique.Nodup ∧ (∀ c, c ∈ s.unique ↔ c < s.store.length) ∧
      ∀ lid c, laneCorridor s lid = some c → c ∈ s.unique := by
  cases hf : OMap.find first rs with
  | none => unfold calcAll at h; rw [hf] at h; cases h
  | some ls =>
    obtain ⟨seqs, hi⟩ := inv_all hf h
    refine ⟨by rw [hi.unique]; exact List.nodup_range, by intro c; rw [hi.unique]; simp, ?_⟩
    intro lid c hc
    obtain ⟨r, sq, h1, h2⟩ := hi.byLane lid c hc
    have := (List.getElem?_eq_some_iff.1 h1).1
    rw [hi.unique, hi.store]
    simpa using this

/-- C35: the lanes of a corridor in the list are, in the order of arc length, those met when following the next-lane links from a
drivable lane, its first lane. -/
theorem C35_corridor_is_chain (hg : Growing cl) {n first : Nat} {s : RC K}
    (h : calcAll rs cl n first = .ok s) {c : Nat} (hc : c ∈ s.unique) :
    ∃ p, Drivable rs p ∧ Chain (nextOf rs) p (lanesOf s c) := by
  cases hf : OMap.find first rs with
  | none => unfold calcAll at h; rw [hf] at h; cases h
  | some ls =>
    obtain ⟨seqs, hi⟩ := inv_all hf h
    rw [hi.unique, hi.store] at hc
    have hlt : c < seqs.length := by simpa using hc
    obtain ⟨a, tl, l, h1, h2, h3, h4, h5⟩ := hi.chain _ (List.getElem_mem hlt)
    refine ⟨a, ⟨l, (mem_order hf).1 h3, h4, h5⟩, ?_⟩
    rw [inv_lanesOf hi hg (List.getElem?_eq_getElem hlt), h1]
    exact h2

/-- C35: the corridor of a lane contains the lane and, after it, all lanes reached by following the next-lane links. -/
theorem C35_contains_followers (hv : Valid rs) (hg : Growing cl) {n first : Nat} {s : RC K}
    (h : calcAll rs cl n first = .ok s) {p : Ptr} {l : CLane} (hp : IsLane rs p l) {c : Nat}
    (hc : laneCorridor s p.2 = some c) :
    ∃ pre ch, lanesOf s c = pre ++ ch ∧ Chain (nextOf rs) p ch := by
  cases hf : OMap.find first rs with
  | none => unfold calcAll at h; rw [hf] at h; cases h
  | some ls =>
    obtain ⟨seqs, hi⟩ := inv_all hf h
    obtain ⟨r, sq, h1, h2⟩ := hi.byLane _ c hc
    obtain ⟨a, tl, l', e1, e2, e3, -, -⟩ := hi.chain _ (List.mem_of_getElem? h1)
    rw [← e1] at e2
    obtain ⟨l2, hl2⟩ := chain_valid hv e2 ⟨l', (mem_order hf).1 e3⟩ _ h2
    have e : (r, p.2) = p := hv.ids _ _ _ _ hl2 hp rfl
    rw [e] at h2
    rw [inv_lanesOf hi hg h1]
    exact chain_split e2 p h2

theorem start_total {n : Nat} {p : Ptr} {s : RC K} {tl : List Ptr} (h : Chain (nextOf rs) p (p :: tl)) (hn : tl.length < n) :
    ∃ s', startCorridor rs cl n p s = .ok s' := by
  unfold startCorridor
  exact extend_total h hn

theorem start_fault {n : Nat} {p : Ptr} {s : RC K} {e : Fault} (h : startCorridor rs cl n p s = .error e) :
    e = .diverges := extend_fault h

theorem calcLane_total {n road : Nat} {x : Nat × CLane} {s : RC K}
    (h : x.2.driving = true → x.2.pos ≠ 0 → ∃ tl, Chain (nextOf rs) (road, x.1) ((road, x.1) :: tl) ∧ tl.length < n) :
    ∃ s', calcLane rs cl n road s x = .ok s' := by
  unfold calcLane
  by_cases g : (OMap.find x.1 s.byLane).isSome ∨ x.2.pos = 0
  · rw [if_pos g]; exact ⟨_, rfl⟩
  · rw [if_neg g]
    by_cases g2 : x.2.driving = false
    · rw [if_pos g2]; exact ⟨_, rfl⟩
    · rw [if_neg g2]
      push Not at g
      obtain ⟨tl, h1, h2⟩ := h (by simpa using g2) g.2
      exact start_total h1 h2

theorem foldRes_total {α β : Type} {f : β → α → Res β} {l : List α} (hf : ∀ b, ∀ a ∈ l, ∃ b', f b a = .ok b') (b : β) :
    ∃ b', RG.foldRes f b l = .ok b' := by
  obtain ⟨b', h, -⟩ := RG.foldRes_ok (P := fun _ => True) (f := f) (l := l)
    (fun b _ a ha => (hf b a ha).imp (fun _ h => ⟨h, trivial⟩)) (b := b) trivial
  exact ⟨b', h⟩

theorem chain_head {next : Ptr → Option Ptr} {p : Ptr} {sq : List Ptr} (h : Chain next p sq) : ∃ tl, sq = p :: tl := by
  cases h with
  | last h => exact ⟨[], rfl⟩
  | step h t => exact ⟨_, rfl⟩

theorem bound_exists {α : Type} {P : α → Nat → Prop} (mono : ∀ a n m, n ≤ m → P a n → P a m) :
    ∀ l : List α, (∀ a ∈ l, ∃ n, P a n) → ∃ n, ∀ a ∈ l, P a n
  | [], _ => ⟨0, by simp⟩
  | a :: l, h => by
    obtain ⟨n, hn⟩ := h a (by simp)
    obtain ⟨m, hm⟩ := bound_exists mono l (fun b hb => h b (by simp [hb]))
    refine ⟨max n m, ?_⟩
    intro b hb
    rcases List.mem_cons.1 hb with rfl | hb
    · exact mono _ _ _ (le_max_left _ _) hn
    · exact mono _ _ _ (le_max_right _ _) (hm b hb)

/-- C35: the generation ends exactly when following the next-lane links from any drivable lane ends. -/
theorem C35_terminates_iff (hv : Valid rs) {first : Nat} {ls : OMap Nat CLane} (hf : (first, ls) ∈ rs) :
    (∃ n s, calcAll rs cl n first = .ok s) ↔ ∀ p, Drivable rs p → ∃ ch, Chain (nextOf rs) p ch := by
  have hff := OMap.mem_find_some hv.roads hf
  constructor
  · rintro ⟨n, s, h⟩ p hp
    obtain ⟨c, hc⟩ := C35_every_lane h hp
    obtain ⟨seqs, hi⟩ := inv_all hff h
    obtain ⟨l, hl, -⟩ := hp
    obtain ⟨r, sq, h1, h2⟩ := hi.byLane _ c hc
    obtain ⟨a, tl, l', e1, e2, e3, -, -⟩ := hi.chain _ (List.mem_of_getElem? h1)
    rw [← e1] at e2
    obtain ⟨l2, hl2⟩ := chain_valid hv e2 ⟨l', (mem_order hff).1 e3⟩ _ h2
    have e : (r, p.2) = p := hv.ids _ _ _ _ hl2 hl rfl
    rw [e] at h2
    obtain ⟨pre, ch, -, h3⟩ := chain_split e2 p h2
    exact ⟨ch, h3⟩
  · intro h
    obtain ⟨n, hn⟩ := bound_exists (P := fun (x : Nat × Nat × CLane) n => x.2.2.driving = true → x.2.2.pos ≠ 0 →
        ∃ tl, Chain (nextOf rs) (x.1, x.2.1) ((x.1, x.2.1) :: tl) ∧ tl.length < n)
      (fun a n m hnm ha h1 h2 => (ha h1 h2).imp (fun _ h => ⟨h.1, lt_of_lt_of_le h.2 hnm⟩)) (order rs first ls) (by
        intro x hx
        by_cases g : x.2.2.driving = true ∧ x.2.2.pos ≠ 0
        · obtain ⟨ch, hch⟩ := h (x.1, x.2.1) ⟨x.2.2, (mem_order hff).1 hx, g.1, g.2⟩
          obtain ⟨tl, rfl⟩ := chain_head hch
          exact ⟨tl.length + 1, fun _ _ => ⟨tl, hch, Nat.lt_succ_self _⟩⟩
        · exact ⟨0, fun h1 h2 => absurd ⟨h1, h2⟩ g⟩)
    refine ⟨n, ?_⟩
    rw [calcAll_order hff]
    exact foldRes_total (fun s x hx => calcLane_total (hn x hx)) _

theorem foldRes_fault {α β : Type} {f : β → α → Res β} {l : List α} {e : Fault} (hf : ∀ b, ∀ a ∈ l, ∀ e', f b a = .error e' → e' = e)
    {b : β} {e' : Fault} (h : RG.foldRes f b l = .error e') : e' = e := by
  induction l generalizing b with
  | nil => cases h
  | cons a l ih =>
    simp only [RG.foldRes] at h
    cases hb : f b a with
    | error e2 => rw [hb] at h; cases h; exact hf b a (by simp) _ hb
    | ok b1 => rw [hb] at h; exact ih (fun b a ha => hf b a (by simp [ha])) h

/-- C35: a drivable lane from which the links never end makes the generation run forever: no number of rounds is enough. -/
theorem C35_cycle_diverges (hv : Valid rs) {first : Nat} {ls : OMap Nat CLane} (hf : (first, ls) ∈ rs) {p : Ptr}
    (hp : Drivable rs p) (h : ¬ ∃ ch, Chain (nextOf rs) p ch) (n : Nat) : calcAll rs cl n first = .error .diverges := by
  cases hc : calcAll rs cl n first with
  | ok s => exact absurd ((C35_terminates_iff (cl := cl) hv hf).1 ⟨n, s, hc⟩ p hp) h
  | error e =>
    rw [calcAll_order (OMap.mem_find_some hv.roads hf)] at hc
    rw [foldRes_fault (e := .diverges) ?_ hc]
    intro s x _ e' he
    unfold calcLane at he
    by_cases g : (OMap.find x.2.1 s.byLane).isSome ∨ x.2.2.pos = 0
    · rw [if_pos g] at he; cases he
    · rw [if_neg g] at he
      by_cases g2 : x.2.2.driving = false
      · rw [if_pos g2] at he; cases he
      · rw [if_neg g2] at he; exact start_fault he

end
end Bark.Cor
