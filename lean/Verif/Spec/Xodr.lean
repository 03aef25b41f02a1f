import Verif.Model.Xodr
import Verif.Spec.LaneLine
import Mathlib.Data.List.Forall2

/-!
Specification vocabulary for reading OpenDRIVE documents (C158–C162): what a document asks for, in terms of its elements.
-/
namespace Bark.Xodr.Spec
open Bark.Ln Bark.Ln.Spec Bark.PV Bark.LaneLine

/-- the attribute is the real number `x` -/
def Num (v : Env) (e : Elem) (name : String) (x : ℝ) : Prop := ∃ t, e.get name = some t ∧ v.fl t = some x

/-- the attribute is the whole number `i` -/
def Whole (v : Env) (e : Elem) (name : String) (i : ℤ) : Prop := ∃ t, e.get name = some t ∧ v.int t = some i

/-- type of a lane: what is neither driving nor border counts as sidewalk -/
def TypeOf (e : Elem) : LaneType → Prop
  | .driving => e.get "type" = some "driving"
  | .border => e.get "type" = some "border"
  | .sidewalk => e.get "type" ≠ some "driving" ∧ e.get "type" ≠ some "border"
  | _ => False

/-- the user data name a direction -/
def Travel (e : Elem) (d : String) : Prop :=
  ∃ u w, e.find "userData" = some u ∧ u.find "vectorLane" = some w ∧ w.get "travelDir" = some d

/-- driving direction: that of the user data, otherwise forward exactly for lanes on the right -/
def DirOf (e : Elem) (pos : ℤ) : RG.Dir → Prop
  | .forward => Travel e "forward" ∨ (¬Travel e "forward" ∧ ¬Travel e "backward" ∧ pos < 0)
  | .backward => Travel e "backward" ∨ (¬Travel e "forward" ∧ ¬Travel e "backward" ∧ 0 ≤ pos)
  | .both => False

/-- the position linked at one end of a lane -/
def Links (v : Env) (e : Elem) (side : String) (p : ℤ) : Prop :=
  ∃ l x, e.find "link" = some l ∧ l.find side = some x ∧ Whole v x "id" p ∧ -2 ^ 31 ≤ p ∧ p < 2 ^ 31

/-- `p` is the linked position, or 0 if there is none -/
def LinkOf (v : Env) (e : Elem) (side : String) (p : ℤ) : Prop :=
  Links v e side p ∨ ((∀ q, ¬Links v e side q) ∧ p = 0)

/-- names of the road mark types -/
def typeName : MarkType → String
  | .solid => "solid"
  | .broken => "broken"

/-- names of the colors -/
def colorName : Color → String
  | .standard => "standard"
  | .white => "white"
  | .yellow => "yellow"

/-- road mark of a lane -/
def MarkOf (v : Env) (e : Elem) : Option Mark → Prop
  | none => ∀ m, e.find "roadMark" = some m → m.get "type" ≠ some "solid" ∧ m.get "type" ≠ some "broken"
  | some k => ∃ m, e.find "roadMark" = some m ∧ m.get "type" = some (typeName k.type) ∧
      m.get "color" = some (colorName k.color) ∧ Num v m "width" k.width

/-- junction of a lane: −1 stands for none -/
def JunctionOf (j : ℤ) (o : Option ℕ) : Prop := (j = -1 ∧ o = none) ∨ ∃ n : ℕ, o = some n ∧ (n : ℤ) = j

/-- the lane is the one the element asks for -/
structure LaneOf (v : Env) (j : ℤ) (e : Elem) (l : Lane) : Prop where
  pos : Whole v e "id" l.pos
  type : TypeOf e l.type
  dir : DirOf e l.pos l.dir
  pred : LinkOf v e "predecessor" l.fromPos
  succ : LinkOf v e "successor" l.toPos
  mark : MarkOf v e l.mark
  junction : JunctionOf j l.junction

open Classical in
/-- the elements that are not followed by one with the same id -/
noncomputable def lastOfEach (v : Env) : List Elem → List Elem
  | [] => []
  | e :: es => if ∃ x ∈ es, ∃ i, Whole v e "id" i ∧ Whole v x "id" i then lastOfEach v es else e :: lastOfEach v es

/-- the groups of lanes of a section, and the lanes asked for -/
noncomputable def lanesOf (v : Env) (e : Elem) : List Elem :=
  (e.findall "left" ++ e.findall "center" ++ e.findall "right").flatMap fun g => lastOfEach v (g.findall "lane")

/-- the last element with a property -/
def lastWith {α : Type} (f : α → Bool) (l : List α) : Option α := l.reverse.find? f

/-- the widths asked for by records (beginning, polynomial): each holds up to the beginning of the next one, the last
one up to `e` -/
def records (e : ℝ) : List (ℝ × Cubic) → List Width
  | [] => []
  | r :: rs => ⟨r.1, (rs.head?.map Prod.fst).getD e, r.2⟩ :: records e rs

/-- a record of a width element -/
def RecordOf (v : Env) (x : Elem) (r : ℝ × Cubic) : Prop :=
  Num v x "sOffset" r.1 ∧ Num v x "a" r.2.a ∧ Num v x "b" r.2.b ∧ Num v x "c" r.2.c ∧ Num v x "d" r.2.d

/-- the records of a lane; the center lane without records has width 0 -/
def RecordsOf (v : Env) (e : Elem) (pos : ℤ) (rs : List (ℝ × Cubic)) : Prop :=
  List.Forall₂ (RecordOf v) (e.findall "width") rs ∧ (e.findall "width" = [] → pos ≠ 0) ∨
  e.findall "width" = [] ∧ pos = 0 ∧ rs = [(0, ⟨0, 0, 0, 0⟩)]

/-- the points are those of the pieces drawn along the inner line for each record in turn -/
def Drawn (v : Env) (inner : Line) (pos : ℤ) (ws : List Width) (pts : List Pt) : Prop :=
  ∃ pieces : List (List Pt), pts = pieces.flatten ∧
    List.Forall₂ (fun w ps => ∃ l qs, TableRight l ∧ l.pts = v.simp (unique inner.pts) ∧
      offsetPoints v.fuel l pos w 0.2 = .ok qs ∧ ps = v.simp qs) ws pieces

/-- records with the offset `o`, which begins at `t`, added -/
def shifted (t : ℝ) (o : Cubic) (w : Width) : Width :=
  ⟨w.s0 + t, w.s1, ⟨w.off.a + o.a, w.off.b + o.b, w.off.c + o.c, w.off.d + o.d⟩⟩

/-- the lane offset of a road: the first one, or none -/
def OffsetOf (v : Env) (road : Elem) (t : ℝ) (o : Cubic) : Prop :=
  ∃ lanes, road.find "lanes" = some lanes ∧
    ((lanes.find "laneOffset" = none ∧ t = 0 ∧ o = ⟨0, 0, 0, 0⟩) ∨
      ∃ x, lanes.find "laneOffset" = some x ∧ Num v x "s" t ∧ Num v x "a" o.a ∧ Num v x "b" o.b ∧ Num v x "c" o.c ∧
        Num v x "d" o.d)

/-- how the boundary of a lane is drawn: the center lane along the reference line, the lanes beside it likewise with the
lane offset, every other one along the lane next to it on the inside, which must have been drawn before -/
inductive Boundary (v : Env) (road : Elem) (ref : Line) (before : List Lane) (e : Elem) (l : Lane) : Prop
  | center (len : ℝ) (rs : List (ℝ × Cubic)) : l.pos = 0 → Num v road "length" len → RecordsOf v e l.pos rs →
      Drawn v ref l.pos (records len rs) l.line.pts → Boundary v road ref before e l
  | beside (len t : ℝ) (o : Cubic) (rs : List (ℝ × Cubic)) : |l.pos| = 1 → Num v road "length" len → OffsetOf v road t o →
      RecordsOf v e l.pos rs → Drawn v ref l.pos ((records len rs).map (shifted t o)) l.line.pts →
      Boundary v road ref before e l
  | outer (p : Lane) (rs : List (ℝ × Cubic)) : 2 ≤ |l.pos| →
      lastWith (fun x => decide (x.pos = if 0 < l.pos then l.pos - 1 else l.pos + 1)) before = some p →
      RecordsOf v e l.pos rs → Drawn v p.line l.pos (records (Ln.length p.line.pts) rs) l.line.pts →
      Boundary v road ref before e l

/-- the section has the lanes the element asks for, from the inside to the outside, each with its boundary -/
structure SectionOf (v : Env) (road : Elem) (ref : Line) (j : ℤ) (e : Elem) (q : Section) : Prop where
  start : Num v e "s" q.s
  lanes : ∃ es, es.Perm (lanesOf v e) ∧ List.Forall₂ (LaneOf v j) es q.lanes ∧
    ∀ (i : Nat) (x : Elem) (l : Lane), es[i]? = some x → q.lanes[i]? = some l → Boundary v road ref (q.lanes.take i) x l
  sorted : q.lanes.Pairwise fun a b => |a.pos| ≤ |b.pos|

/-- road linked at one end of a road -/
def Joins (v : Env) (e : Elem) (side : String) (x : RoadEnd) : Prop :=
  ∃ l d, e.find "link" = some l ∧ l.find side = some d ∧ Whole v d "elementId" x.id ∧ d.get "elementType" = some x.type ∧
    x.id < 2 ^ 32

/-- `x` is the road or junction linked, or the default -/
def EndOf (v : Env) (e : Elem) (side : String) (x : RoadEnd) : Prop :=
  Joins v e side x ∨ ((∀ y, ¬Joins v e side y) ∧ x = ⟨1000000, ""⟩)

/-- adding one geometry of a plan view -/
inductive Adds (v : Env) (g : Elem) (p p' : PlanView) : Prop
  | line (x y h len st : ℝ) : (g.find "line").isSome → g.find "arc" = none → g.find "spiral" = none →
      Num v g "x" x → Num v g "y" y → Num v g "hdg" h → Num v g "length" len →
      (v.sIncLine = .whole ∧ st = len ∨ v.sIncLine = .step st) → addLine p (x, y) h len st = .ok p' → Adds v g p p'
  | arc (a : Elem) (x y h len c : ℝ) : g.find "arc" = some a →
      Num v g "x" x → Num v g "y" y → Num v g "hdg" h → Num v g "length" len → Num v a "curvature" c →
      addArc v.fuel p (x, y) h len c v.sIncCurves = .ok p' → Adds v g p p'
  | spiral (a : Elem) (x y h len c d : ℝ) : g.find "spiral" = some a → g.find "arc" = none →
      Num v g "x" x → Num v g "y" y → Num v g "hdg" h → Num v g "length" len → Num v a "curvStart" c →
      Num v a "curvEnd" d → addSpiral v.fuel p (v.spiral (x, y) h len c d) len v.sIncCurves = .ok p' → Adds v g p p'

/-- adding geometries in order -/
inductive Grown (v : Env) : List Elem → PlanView → PlanView → Prop
  | nil (p : PlanView) : Grown v [] p p
  | cons {g : Elem} {gs : List Elem} {p q r : PlanView} : Adds v g p q → Grown v gs q r → Grown v (g :: gs) p r

/-- the header of a document asks for this shift -/
def ShiftOf (v : Env) (doc : Elem) : Shift → Prop
  | none => ∃ h, doc.find "header" = some h ∧ h.find "offset" = none
  | some (x, y, a) => ∃ h o, doc.find "header" = some h ∧ h.find "offset" = some o ∧ Num v o "x" x ∧ Num v o "y" y ∧
      Num v o "hdg" a

/-- the plan view after the shift of the header -/
def Moved : Shift → PlanView → PlanView → Prop
  | none, q, p => p = q
  | some (x, y, a), q, p => p = applyOffset q x y a

/-- the plan view is the one asked for: all geometries, then the shift of the header -/
def PlanOf (v : Env) (o : Shift) (e : Elem) (p : PlanView) : Prop :=
  ∃ pv q, e.find "planView" = some pv ∧ Grown v (pv.findall "geometry") PlanView.new q ∧ Moved o q p

/-- the road is the one the element asks for -/
structure RoadOf (v : Env) (o : Shift) (e : Elem) (r : Road) : Prop where
  id : Whole v e "id" r.id
  name : e.get "name" = some r.name
  pred : EndOf v e "predecessor" r.pred
  succ : EndOf v e "successor" r.succ
  plan : PlanOf v o e r.plan
  sections : ∃ lanes j, e.find "lanes" = some lanes ∧ Whole v e "junction" j ∧
    List.Forall₂ (SectionOf v e r.plan.line j) (lanes.findall "laneSection") r.sections

/-- the connection is the one asked for -/
structure ConnOf (v : Env) (e : Elem) (c : Conn) : Prop where
  id : Whole v e "id" c.id
  incoming : Whole v e "incomingRoad" c.incoming
  connecting : Whole v e "connectingRoad" c.connecting
  links : List.Forall₂ (fun x p => Whole v x "from" p.1 ∧ Whole v x "to" p.2) (e.findall "laneLink") c.links

/-- the junction is the one asked for: its id modulo 2³², and of connections with the same id the last one -/
structure CrossingOf (v : Env) (e : Elem) (k : Junction) : Prop where
  id : ∃ i, Whole v e "id" i ∧ -2 ^ 31 ≤ i ∧ i < 2 ^ 31 ∧ (2 ^ 32 : ℤ) ∣ i - k.id ∧ k.id < 2 ^ 32
  conns : ∃ cs, List.Forall₂ (ConnOf v) (e.findall "connection") cs ∧
    ∀ i, OMap.find i k.conns = lastWith (fun c => decide (c.id = i)) cs

/-- all lanes of a road -/
def allLanes (r : Road) : List Lane := r.sections.flatMap fun s => s.lanes

end Bark.Xodr.Spec
