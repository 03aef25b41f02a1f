import Verif.Spec.Heap
import Verif.Lemmas.World

/-! C11: cloning isolates the agents of the original. -/
namespace Bark.Props
open Bark Ptr

variable {V : Type}

/-- `h'` extends `h`: old objects are untouched -/
def Ext (h h' : Heap V) : Prop := h.next ≤ h'.next ∧ ∀ r, r < h.next → h'.mem r = h.mem r

theorem Ext.refl (h : Heap V) : Ext h h := ⟨le_rfl, fun _ _ => rfl⟩
theorem Ext.trans {a b c : Heap V} (h1 : Ext a b) (h2 : Ext b c) : Ext a c :=
  ⟨le_trans h1.1 h2.1, fun r hr => by rw [h2.2 r (lt_of_lt_of_le hr h1.1), h1.2 r hr]⟩

theorem alloc_ext (h : Heap V) (o : Obj V) : Ext h (alloc h o).1 :=
  ⟨Nat.le_succ _, fun r hr => by simp [alloc, Nat.ne_of_lt hr]⟩

/-- copies of models: fresh, same content, in order -/
theorem cloneModels_ok {h h' : Heap V} {rs rs' : List Ref} (hc : cloneModels h rs = .ok (h', rs'))
    (hlt : ∀ r ∈ rs, r < h.next) :
    Ext h h' ∧ rs'.length = rs.length ∧ (∀ r ∈ rs', h.next ≤ r ∧ r < h'.next) ∧
    (∀ p ∈ rs.zip rs', h'.mem p.2 = h.mem p.1 ∧ (h.mem p.1).isSome) ∧
    (∀ r, h.next ≤ r → r < h'.next → r ∈ rs') := by
  induction rs generalizing h h' rs' with
  | nil =>
    unfold cloneModels at hc; cases hc
    exact ⟨Ext.refl _, rfl, by simp, by simp, fun r h1 h2 => absurd h1 (not_le.2 h2)⟩
  | cons r rs ih =>
    unfold cloneModels at hc
    obtain ⟨⟨h1, r'⟩, hc1, hc⟩ := Res.bind_ok hc
    obtain ⟨⟨h2, rs1⟩, hc2, hc⟩ := Res.bind_ok hc
    cases hc
    unfold cloneModel at hc1
    split at hc1
    · cases hc1
    · rename_i o ho
      cases hc1
      have hr : r < h.next := hlt r (by simp)
      have e1 := alloc_ext h o
      obtain ⟨i1, i2, i3, i4, i5⟩ := ih hc2 (fun x hx => lt_of_lt_of_le (hlt x (by simp [hx])) e1.1)
      refine ⟨e1.trans i1, by simp [i2], ?_, ?_, ?_⟩
      · intro x hx
        rcases List.mem_cons.1 hx with rfl | hx
        · exact ⟨le_rfl, lt_of_lt_of_le (Nat.lt_succ_self _) i1.1⟩
        · exact ⟨le_trans (Nat.le_succ _) (i3 x hx).1, (i3 x hx).2⟩
      · intro p hp
        rw [List.zip_cons_cons] at hp
        rcases List.mem_cons.1 hp with rfl | hp
        · constructor
          · show h'.mem h.next = _
            rw [i1.2 h.next (Nat.lt_succ_self _), ho]; simp [alloc]
          · rw [ho]; rfl
        · obtain ⟨j1, j2⟩ := i4 p hp
          have hp1 : p.1 < h.next := hlt p.1 (by
            have := (List.of_mem_zip hp).1; simp [this])
          have ee := e1.2 p.1 hp1
          exact ⟨j1.trans ee, by rw [← ee]; exact j2⟩
      · intro x hx1 hx2
        by_cases hxe : x = h.next
        · subst hxe; exact List.mem_cons_self
        · exact List.mem_cons_of_mem _ (i5 x (by
            have : h.next < x := lt_of_le_of_ne hx1 (Ne.symm hxe)
            exact this) hx2)

/-- what is known about one copied agent -/
structure CopyOf (h h' : Heap V) (lo hi : Ref) (a a' : Ref) : Prop where
  fresh : lo ≤ a' ∧ a' < hi
  content : ∃ o own', h.mem a = some o ∧ h'.mem a' = some ⟨o.val, own', o.shared⟩ ∧
    own'.length = o.own.length ∧ (∀ r ∈ own', lo ≤ r ∧ r < hi) ∧
    (∀ p ∈ o.own.zip own', h'.mem p.2 = h.mem p.1 ∧ (h.mem p.1).isSome)

theorem cloneAgent_ok {h h' : Heap V} {a a' : Ref} (hv : Valid h)
    (hc : cloneAgent h a = .ok (h', a')) :
    Ext h h' ∧ CopyOf h h' h.next h'.next a a' ∧
    (∀ r o, h.next ≤ r → h'.mem r = some o →
      (∃ oa, h.mem a = some oa ∧ (∀ x ∈ o.refs, (h.next ≤ x ∧ x < h'.next) ∨ x ∈ oa.shared ∨
        ∃ m ∈ oa.own, ∃ om, h.mem m = some om ∧ x ∈ om.refs))) := by
  unfold cloneAgent at hc
  split at hc
  · cases hc
  · rename_i o ho
    obtain ⟨⟨h1, own'⟩, hc1, hc⟩ := Res.bind_ok hc
    cases hc
    have hlt : ∀ r ∈ o.own, r < h.next := by
      intro r hr
      obtain ⟨x, hx⟩ := Option.isSome_iff_exists.1 ((hv a o ho).2 r (by simp [Obj.refs, hr]))
      exact (hv r x hx).1
    obtain ⟨i1, i2, i3, i4, i5⟩ := cloneModels_ok hc1 hlt
    have e2 := alloc_ext h1 ({ val := o.val, own := own', shared := o.shared } : Obj V)
    refine ⟨i1.trans e2, ⟨⟨i1.1, Nat.lt_succ_self _⟩, o, own', ho, by simp [alloc], i2, ?_, ?_⟩, ?_⟩
    · intro r hr; exact ⟨(i3 r hr).1, lt_of_lt_of_le (i3 r hr).2 e2.1⟩
    · intro p hp
      obtain ⟨j1, j2⟩ := i4 p hp
      have : p.2 ∈ own' := (List.of_mem_zip hp).2
      exact ⟨(e2.2 p.2 (i3 _ this).2).trans j1, j2⟩
    · intro r or hr hor
      refine ⟨o, ho, fun x hx => ?_⟩
      by_cases hrn : r = h1.next
      · subst hrn
        simp only [alloc, if_true] at hor
        cases hor
        rcases List.mem_append.1 hx with hx | hx
        · exact Or.inl ⟨(i3 x hx).1, lt_of_lt_of_le (i3 x hx).2 e2.1⟩
        · exact Or.inr (Or.inl hx)
      · have hor1 : h1.mem r = some or := by simpa [alloc, hrn] using hor
        by_cases hlt2 : r < h1.next
        · have hmem := i5 r hr hlt2
          obtain ⟨n, hn, rfl⟩ := List.mem_iff_getElem.1 hmem
          have hn' : n < o.own.length := i2 ▸ hn
          have hz : (o.own[n], own'[n]) ∈ o.own.zip own' := by
            rw [List.mem_iff_getElem]
            exact ⟨n, by simp [hn, hn'], by simp⟩
          obtain ⟨j1, _⟩ := i4 _ hz
          rw [hor1] at j1
          exact Or.inr (Or.inr ⟨o.own[n], List.getElem_mem _, or, j1.symm, hx⟩)
        · exfalso
          -- nothing is stored at or beyond `h1.next`
          have key : ∀ (rs : List Ref) (g g' : Heap V) (rs' : List Ref),
              (∀ r o, g.mem r = some o → r < g.next) → cloneModels g rs = .ok (g', rs') →
              ∀ r o, g'.mem r = some o → r < g'.next := by
            intro rs
            induction rs with
            | nil => intro g g' rs' hg hcg; unfold cloneModels at hcg; cases hcg; exact hg
            | cons y ys ih =>
              intro g g' rs' hg hcg
              unfold cloneModels at hcg
              obtain ⟨⟨g1, y'⟩, c1, hcg⟩ := Res.bind_ok hcg
              obtain ⟨⟨g2, ys'⟩, c2, hcg⟩ := Res.bind_ok hcg
              cases hcg
              unfold cloneModel at c1
              split at c1
              · cases c1
              · cases c1
                refine ih _ _ _ ?_ c2
                intro r o hro
                simp only [alloc] at hro ⊢
                split_ifs at hro with hh
                · rw [hh]; exact Nat.lt_succ_self _
                · exact lt_trans (hg r o hro) (Nat.lt_succ_self _)
          exact hlt2 (key _ _ _ _ (fun r o hro => (hv r o hro).1) hc1 r or hor1)

theorem cloneAgent_valid {h h' : Heap V} {a a' : Ref} (hv : Valid h)
    (hc : cloneAgent h a = .ok (h', a')) : Valid h' := by
  have key : ∀ (g : Heap V) (o : Obj V), Valid g → (∀ x ∈ o.refs, (g.mem x).isSome) →
      Valid (alloc g o).1 := by
    intro g o hg ho r or hr
    simp only [alloc] at hr ⊢
    have lift : ∀ x, (g.mem x).isSome → (if x = g.next then some o else g.mem x).isSome := by
      intro x hx; split_ifs
      · rfl
      · exact hx
    split_ifs at hr with hh
    · cases hr; exact ⟨by rw [hh]; exact Nat.lt_succ_self _, fun x hx => lift x (ho x hx)⟩
    · obtain ⟨k1, k2⟩ := hg r or hr
      exact ⟨lt_trans k1 (Nat.lt_succ_self _), fun x hx => lift x (k2 x hx)⟩
  have keyM : ∀ (rs : List Ref) (g g' : Heap V) (rs' : List Ref), Valid g →
      cloneModels g rs = .ok (g', rs') → Valid g' ∧ (∀ x ∈ rs', (g'.mem x).isSome) ∧
        (∀ x, (g.mem x).isSome → (g'.mem x).isSome) := by
    intro rs
    induction rs with
    | nil => intro g g' rs' hg hcg; unfold cloneModels at hcg; cases hcg; exact ⟨hg, by simp, fun _ h => h⟩
    | cons y ys ih =>
      intro g g' rs' hg hcg
      unfold cloneModels at hcg
      obtain ⟨⟨g1, y'⟩, c1, hcg⟩ := Res.bind_ok hcg
      obtain ⟨⟨g2, ys'⟩, c2, hcg⟩ := Res.bind_ok hcg
      cases hcg
      unfold cloneModel at c1
      split at c1
      · cases c1
      · rename_i o ho
        cases c1
        obtain ⟨j1, j2, j3⟩ := ih _ _ _ (key g o hg (hg y o ho).2) c2
        refine ⟨j1, ?_, ?_⟩
        · intro x hx
          rcases List.mem_cons.1 hx with rfl | hx
          · exact j3 _ (by simp [alloc])
          · exact j2 x hx
        · intro x hx
          apply j3
          simp only [alloc]; split_ifs
          · rfl
          · exact hx
  unfold cloneAgent at hc
  split at hc
  · cases hc
  · rename_i o ho
    obtain ⟨⟨h1, own'⟩, hc1, hc⟩ := Res.bind_ok hc
    cases hc
    obtain ⟨j1, j2, j3⟩ := keyM _ _ _ _ hv hc1
    apply key _ _ j1
    intro x hx
    rcases List.mem_append.1 hx with hx | hx
    · exact j2 x hx
    · exact j3 x ((hv a o ho).2 x (by simp [Obj.refs] at hx ⊢; exact Or.inr hx))

theorem CopyOf.mono {h h1 h' : Heap V} {lo hi lo' hi' : Ref} {a a' : Ref} (c : CopyOf h h1 lo hi a a')
    (hlo : lo' ≤ lo) (hhi : hi ≤ hi') (he : ∀ r, r < hi → h'.mem r = h1.mem r) :
    CopyOf h h' lo' hi' a a' := by
  obtain ⟨f, o, own', c1, c2, c3, c4, c5⟩ := c
  refine ⟨⟨le_trans hlo f.1, lt_of_lt_of_le f.2 hhi⟩, o, own', c1, ?_, c3, ?_, ?_⟩
  · rw [he a' f.2]; exact c2
  · intro r hr; exact ⟨le_trans hlo (c4 r hr).1, lt_of_lt_of_le (c4 r hr).2 hhi⟩
  · intro p hp
    have : p.2 ∈ own' := (List.of_mem_zip hp).2
    rw [he p.2 (c4 _ this).2]; exact c5 p hp

theorem CopyOf.ofExt {h0 h h' : Heap V} {lo hi : Ref} {a a' : Ref} (hv : Valid h0)
    (c : CopyOf h h' lo hi a a') (ha : (h0.mem a).isSome) (he : Ext h0 h) :
    CopyOf h0 h' lo hi a a' := by
  obtain ⟨f, o, own', c1, c2, c3, c4, c5⟩ := c
  obtain ⟨o0, ho0⟩ := Option.isSome_iff_exists.1 ha
  have hoo : h.mem a = h0.mem a := he.2 a (hv a o0 ho0).1
  refine ⟨f, o, own', by rw [← hoo]; exact c1, c2, c3, c4, ?_⟩
  intro p hp
  have hp1 : p.1 ∈ o.own := (List.of_mem_zip hp).1
  have hs : (h0.mem p.1).isSome := by
    rw [hoo] at c1
    exact (hv a o c1).2 p.1 (by simp [Obj.refs, hp1])
  obtain ⟨x, hx⟩ := Option.isSome_iff_exists.1 hs
  have := he.2 p.1 (hv p.1 x hx).1
  rw [← this]; exact c5 p hp

theorem cloneAgents_ok {h0 h h' : Heap V} {m m' : OMap Nat Ref} (hv0 : Valid h0) (hv : Valid h)
    (he : Ext h0 h) (hm : ∀ p ∈ m, (h0.mem p.2).isSome) (hc : cloneAgents h m = .ok (h', m')) :
    Valid h' ∧ Ext h h' ∧ m'.map Prod.fst = m.map Prod.fst ∧
    (∀ p ∈ m.zip m', CopyOf h0 h' h.next h'.next p.1.2 p.2.2) ∧
    (∀ p ∈ m', h.next ≤ p.2) ∧
    (∀ r o, h.next ≤ r → h'.mem r = some o → ∀ x ∈ o.refs, h.next ≤ x ∨
      ∃ p ∈ m, ∃ oa, h0.mem p.2 = some oa ∧ (x ∈ oa.shared ∨
        ∃ k ∈ oa.own, ∃ om, h0.mem k = some om ∧ x ∈ om.refs)) := by
  induction m generalizing h h' m' with
  | nil =>
    unfold cloneAgents at hc; cases hc
    refine ⟨hv, Ext.refl _, rfl, by simp, by simp, ?_⟩
    intro r o hr ho; exact absurd (hv r o ho).1 (not_lt.2 hr)
  | cons q m ih =>
    obtain ⟨i, a⟩ := q
    unfold cloneAgents at hc
    obtain ⟨⟨h1, a'⟩, hc1, hc⟩ := Res.bind_ok hc
    obtain ⟨⟨h2, m1⟩, hc2, hc⟩ := Res.bind_ok hc
    cases hc
    obtain ⟨e1, c1, r1⟩ := cloneAgent_ok hv hc1
    have hv1 := cloneAgent_valid hv hc1
    obtain ⟨j1, j2, j3, j4, j5, j6⟩ := ih hv1 (he.trans e1) (fun p hp => hm p (by simp [hp])) hc2
    have ha : (h0.mem a).isSome := hm (i, a) (by simp)
    refine ⟨j1, e1.trans j2, by simp [j3], ?_, ?_, ?_⟩
    · intro p hp
      rw [List.zip_cons_cons] at hp
      rcases List.mem_cons.1 hp with rfl | hp
      · exact (c1.ofExt hv0 ha he).mono le_rfl j2.1 (fun r hr => j2.2 r hr)
      · exact (j4 p hp).mono e1.1 le_rfl (fun _ _ => rfl)
    · intro p hp
      rcases List.mem_cons.1 hp with rfl | hp
      · exact c1.fresh.1
      · exact le_trans e1.1 (j5 p hp)
    · intro r o hr ho x hx
      by_cases hlt : r < h1.next
      · have ho1 : h1.mem r = some o := by rw [← j2.2 r hlt]; exact ho
        obtain ⟨oa, hoa, hx2⟩ := r1 r o hr ho1
        obtain ⟨o0, ho0⟩ := Option.isSome_iff_exists.1 ha
        have hoo : h.mem a = h0.mem a := he.2 a (hv0 a o0 ho0).1
        rw [hoo] at hoa
        rcases hx2 x hx with hx3 | hx3 | ⟨k, hk, om, hom, hx3⟩
        · exact Or.inl hx3.1
        · exact Or.inr ⟨(i, a), by simp, oa, hoa, Or.inl hx3⟩
        · refine Or.inr ⟨(i, a), by simp, oa, hoa, Or.inr ⟨k, hk, om, ?_, hx3⟩⟩
          obtain ⟨y, hy⟩ := Option.isSome_iff_exists.1 ((hv0 a oa hoa).2 k (by simp [Obj.refs, hk]))
          rw [← he.2 k (hv0 k y hy).1]; exact hom
      · rcases j6 r o (not_lt.1 hlt) ho x hx with hx2 | ⟨p, hp, rest⟩
        · exact Or.inl (le_trans e1.1 hx2)
        · exact Or.inr ⟨p, by simp [hp], rest⟩

/-- **C11** (a copy is a faithful copy): the clone has the same ids; every agent of the clone is a new
object with the same content whose behaviour, dynamic, execution model and goal are new objects with the
same content as the original's. Old objects are untouched by cloning. -/
theorem C11_clone_faithful {h h' : Heap V} {w w' : WorldR} (hv : Valid h)
    (hw : ∀ p ∈ w.agents, (h.mem p.2).isSome) (hc : cloneWorld h w = .ok (h', w')) :
    w'.agents.map Prod.fst = w.agents.map Prod.fst ∧
    (∀ r, r < h.next → h'.mem r = h.mem r) ∧
    (∀ p ∈ w.agents.zip w'.agents, ∃ o own', h.mem p.1.2 = some o ∧
      h'.mem p.2.2 = some ⟨o.val, own', o.shared⟩ ∧ h.next ≤ p.2.2 ∧ own'.length = o.own.length ∧
      (∀ r ∈ own', h.next ≤ r) ∧ (∀ q ∈ o.own.zip own', h'.mem q.2 = h.mem q.1)) := by
  unfold cloneWorld at hc
  obtain ⟨⟨h1, m⟩, hc1, hc⟩ := Res.bind_ok hc
  cases hc
  obtain ⟨_, j2, j3, j4, _, _⟩ := cloneAgents_ok hv hv (Ext.refl h) hw hc1
  refine ⟨j3, j2.2, fun p hp => ?_⟩
  obtain ⟨f, o, own', c1, c2, c3, c4, c5⟩ := j4 p hp
  exact ⟨o, own', c1, c2, f.1, c3, fun r hr => (c4 r hr).1, fun q hq => (c5 q hq).1⟩

theorem confined_invariant (R : Ref → Prop) (ops : List (HeapOp V)) (K : Ref → Prop) (h : Heap V)
    (hK : ∀ r, K r → ¬ R r) (hR : ∀ r, R r → r < h.next) (hc : Confined K h ops) :
    ∀ r, R r → (exec h ops).mem r = h.mem r := by
  induction ops generalizing K h with
  | nil => intro r _; rfl
  | cons op ops ih =>
    intro r hr
    cases op with
    | write x o =>
      obtain ⟨h1, _, h3⟩ := hc
      have := ih K (execOp h (.write x o)) hK hR h3 r hr
      show (exec (execOp h (.write x o)) ops).mem r = _
      rw [this]
      have hne : r ≠ x := fun e => hK x h1 (e ▸ hr)
      simp [execOp, hne]
    | alloc o =>
      obtain ⟨_, h3⟩ := hc
      have := ih _ (execOp h (.alloc o)) (by
        rintro x (hx | hx)
        · exact hK x hx
        · subst hx; intro hR'; exact absurd (hR _ hR') (lt_irrefl _))
        (fun x hx => lt_trans (hR x hx) (Nat.lt_succ_self _)) h3 r hr
      show (exec (execOp h (.alloc o)) ops).mem r = _
      rw [this]
      simp [execOp, alloc, Nat.ne_of_lt (hR r hr)]

/-- **C11** (isolation): clone a world; then run *any* program that starts from the clone (stepping it,
replacing its models, predicting, allocating, …). Every agent of the original and every behaviour,
dynamic, execution model and goal it owns is bit for bit what it was before. Precondition: what is shared
by design has no pointer back into the owned objects. -/
theorem C11_clone_isolated {h h' : Heap V} {w w' : WorldR} {S : Ref → Prop} (hv : Valid h)
    (hw : ∀ p ∈ w.agents, (h.mem p.2).isSome) (hS : NoWayBack h w S)
    (hc : cloneWorld h w = .ok (h', w')) (ops : List (HeapOp V))
    (hops : Confined (Reach h' w'.roots) h' ops) :
    ∀ r, Owned h w r → (exec h' ops).mem r = h.mem r := by
  unfold cloneWorld at hc
  obtain ⟨⟨h1, m⟩, hc1, hc⟩ := Res.bind_ok hc
  cases hc
  obtain ⟨hv', j2, j3, j4, j5, j6⟩ := cloneAgents_ok hv hv (Ext.refl h) hw hc1
  have hown : ∀ r, Owned h w r → r < h.next := by
    rintro r (⟨i, hi⟩ | ⟨i, a, o, hi, ho, hr⟩)
    · obtain ⟨o, ho⟩ := Option.isSome_iff_exists.1 (hw _ hi); exact (hv r o ho).1
    · obtain ⟨x, hx⟩ := Option.isSome_iff_exists.1 ((hv a o ho).2 r (by simp [Obj.refs, hr]))
      exact (hv r x hx).1
  have hreach : ∀ r, Reach h' (WorldR.roots { agents := m, extra := w.extra }) r → h.next ≤ r ∨ S r := by
    intro r hr
    induction hr with
    | root hr =>
      rcases List.mem_append.1 hr with hr | hr
      · obtain ⟨p, hp, rfl⟩ := List.mem_map.1 hr
        exact Or.inl (j5 p hp)
      · exact Or.inr (hS.extra _ hr)
    | @step r o x _ ho hx ih =>
      by_cases hge : h.next ≤ r
      · rcases j6 r o hge ho x hx with hx2 | ⟨p, hp, oa, hoa, hx3 | ⟨k, hk, om, hom, hx3⟩⟩
        · exact Or.inl hx2
        · exact Or.inr (hS.agentShared p.1 p.2 oa hp hoa x hx3)
        · exact Or.inr (hS.inner p.1 p.2 oa hp hoa k hk om hom x hx3)
      · rcases ih with h1 | h1
        · exact absurd h1 hge
        · rw [j2.2 r (not_le.1 hge)] at ho
          exact Or.inr (hS.closed r o h1 ho x hx)
  intro r hr
  have := confined_invariant (Owned h w) ops _ h' (fun x hx hO => by
      rcases hreach x hx with h1 | h1
      · exact absurd (hown x hO) (not_lt.2 h1)
      · exact hS.disjoint x h1 hO) (fun x hx => lt_of_lt_of_le (hown x hx) j2.1) hops r hr
  rw [this, j2.2 r (hown r hr)]

/-- **C11** (violation for composite models): an object that a model of the original points to (inner
behaviour models of the RSS and safety behaviours, motion primitives, nested goals) is reachable from the
clone as well, and a program confined to the clone can change it. -/
theorem C11_inner_models_shared {h h' : Heap V} {w w' : WorldR} (hv : Valid h)
    (hw : ∀ p ∈ w.agents, (h.mem p.2).isSome) (hc : cloneWorld h w = .ok (h', w'))
    {i a m x : Ref} {o om ox : Obj V} (ha : (i, a) ∈ w.agents) (ho : h.mem a = some o)
    (hm : m ∈ o.own) (hom : h.mem m = some om) (hx : x ∈ om.refs) (hox : h.mem x = some ox) (v : V) :
    ∃ ops, Confined (Reach h' w'.roots) h' ops ∧
      (exec h' ops).mem x = some { ox with val := v } ∧ Reach h w.roots x := by
  unfold cloneWorld at hc
  obtain ⟨⟨h1, mm⟩, hc1, hc⟩ := Res.bind_ok hc
  cases hc
  obtain ⟨hv', j2, j3, j4, j5, j6⟩ := cloneAgents_ok hv hv (Ext.refl h) hw hc1
  obtain ⟨n, hn, hne⟩ := List.mem_iff_getElem.1 ha
  have hlen : w.agents.length = mm.length := by
    have := congrArg List.length j3; simpa using this.symm
  have hn' : n < mm.length := hlen ▸ hn
  have hz : (w.agents[n], mm[n]) ∈ w.agents.zip mm := by
    rw [List.mem_iff_getElem]; exact ⟨n, by simp [hn, hn'], by simp⟩
  obtain ⟨f, o', own', c1, c2, c3, c4, c5⟩ := j4 _ hz
  simp only [hne] at c1
  rw [ho] at c1; cases c1
  obtain ⟨k, hk, hke⟩ := List.mem_iff_getElem.1 hm
  have hk' : k < own'.length := c3 ▸ hk
  have hz2 : (o.own[k], own'[k]) ∈ o.own.zip own' := by
    rw [List.mem_iff_getElem]; exact ⟨k, by simp [hk, hk'], by simp⟩
  obtain ⟨c6, _⟩ := c5 _ hz2
  simp only [hke, hom] at c6
  have r1 : Reach h' (WorldR.roots { agents := mm, extra := w.extra }) (mm[n]).2 :=
    Reach.root (List.mem_append_left _ (List.mem_map_of_mem (List.getElem_mem _)))
  have r2 : Reach h' (WorldR.roots { agents := mm, extra := w.extra }) own'[k] :=
    Reach.step r1 c2 (List.mem_append_left _ (List.getElem_mem _))
  have r3 : Reach h' (WorldR.roots { agents := mm, extra := w.extra }) x := Reach.step r2 c6 hx
  have hxx : h'.mem x = some ox := by rw [j2.2 x (hv x ox hox).1]; exact hox
  refine ⟨[.write x { ox with val := v }], ⟨r3, fun y hy => Reach.step r3 hxx hy, trivial⟩, ?_, ?_⟩
  · simp [exec, execOp]
  · exact Reach.step (Reach.step (Reach.root (List.mem_append_left _ (List.mem_map.2 ⟨_, ha, rfl⟩))) ho
      (List.mem_append_left _ hm)) hom hx

/-- **C11** (shared by design): the evaluators, observer, map and renderer of the clone are those of the
original; a program confined to the clone can change them. -/
theorem C11_extras_shared {h h' : Heap V} {w w' : WorldR} (hc : cloneWorld h w = .ok (h', w'))
    {x : Ref} {ox : Obj V} (hx : x ∈ w.extra) (hox : h'.mem x = some ox) (v : V) :
    ∃ ops, Confined (Reach h' w'.roots) h' ops ∧ (exec h' ops).mem x = some { ox with val := v } := by
  unfold cloneWorld at hc
  obtain ⟨⟨h1, mm⟩, hc1, hc⟩ := Res.bind_ok hc
  cases hc
  have r : Reach h' (WorldR.roots { agents := mm, extra := w.extra }) x :=
    Reach.root (List.mem_append_right _ hx)
  exact ⟨[.write x { ox with val := v }], ⟨r, fun y hy => Reach.step r hox hy, trivial⟩, by simp [exec, execOp]⟩

/-- **C11** (observations alias each other): with the default observer all observed worlds returned by one
`Observe` call are the same set of agent objects, so changing one (e.g. setting up its prediction models)
changes the others; the original is not affected (`C11_clone_isolated`). -/
theorem C11_observations_alias {h h' : Heap V} {w : WorldR} {ids : List Nat} {l : List (Nat × WorldR)}
    (hc : observeNone h w ids = .ok (h', l)) : ∀ p ∈ l, ∀ q ∈ l, p.2.agents = q.2.agents := by
  unfold observeNone at hc
  obtain ⟨⟨h1, c⟩, _, hc⟩ := Res.bind_ok hc
  cases hc
  intro p hp q hq
  obtain ⟨_, _, rfl⟩ := List.mem_map.1 hp
  obtain ⟨_, _, rfl⟩ := List.mem_map.1 hq
  rfl

/-- **C11** (observations are isolated from the world): whatever a holder of an observed world does with what it can
reach does not change the observed world's original. -/
theorem C11_observation_isolated {h h' : Heap V} {w : WorldR} {S : Ref → Prop} {ids : List Nat} {l : List (Nat × WorldR)}
    (hv : Valid h) (hw : ∀ p ∈ w.agents, (h.mem p.2).isSome) (hS : NoWayBack h w S)
    (hc : observeNone h w ids = .ok (h', l)) {p : Nat × WorldR} (hp : p ∈ l) (ops : List (HeapOp V))
    (hops : Confined (Reach h' p.2.roots) h' ops) :
    ∀ r, Owned h w r → (exec h' ops).mem r = h.mem r := by
  unfold observeNone at hc
  obtain ⟨⟨h1, c⟩, h1c, hc⟩ := Res.bind_ok hc
  cases hc
  obtain ⟨_, _, rfl⟩ := List.mem_map.1 hp
  exact C11_clone_isolated hv hw hS h1c ops hops

/-- a heap with one agent (object 0) owning one model (object 1) that points to an inner model (object 2) -/
def toyHeap : Heap Nat where
  next := 3
  mem r := match r with
    | 0 => some ⟨10, [1], []⟩
    | 1 => some ⟨20, [], [2]⟩
    | 2 => some ⟨30, [], []⟩
    | _ => none

theorem toyHeap_valid : Valid toyHeap := by
  intro r o h
  match r, h with
  | 0, h => cases h; exact ⟨by decide, by simp [Obj.refs, toyHeap]⟩
  | 1, h => cases h; exact ⟨by decide, by simp [Obj.refs, toyHeap]⟩
  | 2, h => cases h; exact ⟨by decide, by simp [Obj.refs]⟩
  | n + 3, h => cases h

/-- non-vacuity: cloning succeeds and the sharing hypothesis holds with `S = {2}` -/
example : (∃ r, cloneWorld toyHeap ⟨[(7, 0)], []⟩ = .ok r) ∧
    NoWayBack toyHeap ⟨[(7, 0)], []⟩ (fun r => r = 2) := by
  refine ⟨⟨_, rfl⟩, ?_, ?_, ?_, ?_, ?_, ?_⟩
  · simp
  · intro i a o h1 h2; simp at h1; obtain ⟨_, rfl⟩ := h1; cases h2; simp
  · intro i a o h1 h2 m hm om hom x hx
    simp at h1; obtain ⟨_, rfl⟩ := h1; cases h2; simp at hm; subst hm; cases hom
    simpa [Obj.refs] using hx
  · intro r o hr ho x hx; subst hr; cases ho; simp [Obj.refs] at hx
  · intro r hr; subst hr; decide
  · rintro r hr (⟨i, h1⟩ | ⟨i, a, o, h1, h2, h3⟩)
    · subst hr; simp at h1
    · subst hr; simp at h1; obtain ⟨_, rfl⟩ := h1; cases h2; simp at h3

end Bark.Props
