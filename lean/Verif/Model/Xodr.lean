import Verif.Model.LaneLine
import Verif.Model.Roadgraph

/-!
Model of `bark/runtime/commons/xodr_parser.py`: an OpenDRIVE document is read into Python dictionaries and converted into
the C++ map. Python's `int` and `float` on strings are parameters. Conversions are done where an attribute is read; that an
attribute is missing or cannot be converted shows where its value is used, as in the code (except for the order in which
several failures of one document show). Every exception is `thrown`.
-/
namespace Bark.Xodr
open Bark.Ln Bark.PV Bark.LaneLine

/-- an element of the document (`lxml.etree`): tag, attributes, children in document order -/
inductive Elem where
  | mk (tag : String) (attrs : List (String × String)) (kids : List Elem)

/-- tag -/
def Elem.tag : Elem → String
  | .mk t _ _ => t

/-- children -/
def Elem.kids : Elem → List Elem
  | .mk _ _ k => k

/-- `element.get(name)` -/
def Elem.get (e : Elem) (name : String) : Option String :=
  match e with
  | .mk _ a _ => (a.find? fun x => x.1 == name).map Prod.snd

/-- `element.find(tag)`: the first child of that tag -/
def Elem.find (e : Elem) (t : String) : Option Elem := e.kids.find? fun k => k.tag == t

/-- `element.findall(tag)` -/
def Elem.findall (e : Elem) (t : String) : List Elem := e.kids.filter fun k => k.tag == t

/-- `s_inc_straight_line`, xodr_parser.py:20, 294-299: None, a float, or anything else -/
inductive SInc where
  | whole
  | step (x : ℝ)
  | other

/-- parameters: Python's conversions, boost's `simplify`, `odrSpiral`, the bound on loop iterations, and the settings
xodr_parser.py:20-21 -/
structure Env where
  fl : String → Option ℝ
  int : String → Option ℤ
  simp : List Pt → List Pt
  spiral : Pt → ℝ → ℝ → ℝ → ℝ → ℝ → Pt
  fuel : ℕ
  sIncLine : SInc
  sIncCurves : ℝ

/-- `float(element.get(name))` -/
def Env.real (v : Env) (e : Elem) (name : String) : Option ℝ := (e.get name).bind v.fl

/-- `int(element.get(name))` -/
def Env.whole (v : Env) (e : Elem) (name : String) : Option ℤ := (e.get name).bind v.int

/-- use of a value that may be missing -/
def need {α : Type} : Option α → Res α
  | some x => .ok x
  | none => .error .thrown

/-- conversion to `int32_t` by pybind -/
def int32 (i : ℤ) : Res ℤ := if -2 ^ 31 ≤ i ∧ i < 2 ^ 31 then .ok i else .error .thrown

/-- conversion to `uint32_t` by pybind -/
def uint32 (i : ℤ) : Res ℕ := if 0 ≤ i ∧ i < 2 ^ 32 then .ok i.toNat else .error .thrown

/-- opendrive/commons.hpp:92-98 `XodrLaneType` -/
inductive LaneType where
  | none
  | driving
  | biking
  | sidewalk
  | border
  deriving DecidableEq

/-- xodr_parser.py:110-112 -/
def laneType (t : Option String) : LaneType :=
  if t = some "driving" then .driving
  else if t = some "border" then .border
  else .sidewalk

/-- xodr_parser.py:114-119: the direction given in the user data -/
def userDir (e : Elem) : Option RG.Dir :=
  match (e.find "userData").bind fun u => u.find "vectorLane" with
  | Option.none => Option.none
  | some x =>
    if x.get "travelDir" = some "forward" then some .forward
    else if x.get "travelDir" = some "backward" then some .backward
    else Option.none

/-- xodr_parser.py:114-125 -/
def laneDir (id : ℤ) (e : Elem) : RG.Dir := (userDir e).getD (if id < 0 then .forward else .backward)

/-- opendrive/commons.hpp:122-126, 142-147 -/
inductive MarkType where
  | solid
  | broken
  deriving DecidableEq

/-- the colors bound in python_wrapper/world/opendrive.cpp:68-73 -/
inductive Color where
  | standard
  | white
  | yellow
  deriving DecidableEq

/-- road mark as read: xodr_parser.py:56-66 -/
structure PyMark where
  type : MarkType
  color : Color
  width : Option ℝ

/-- `XodrRoadMarkColor.__members__[…]` -/
def markColor (c : Option String) : Res Color :=
  if c = some "standard" then .ok .standard
  else if c = some "white" then .ok .white
  else if c = some "yellow" then .ok .yellow
  else .error .thrown

/-- xodr_parser.py:56-66 `parse_lane_road_mark`; other types give an empty dictionary -/
def parseMark (v : Env) (e : Elem) : Res (Option PyMark) :=
  if e.get "type" = some "solid" then (markColor (e.get "color")).map fun c => some ⟨.solid, c, v.real e "width"⟩
  else if e.get "type" = some "broken" then (markColor (e.get "color")).map fun c => some ⟨.broken, c, v.real e "width"⟩
  else .ok Option.none

/-- xodr_parser.py:68-75 -/
structure PyWidth where
  s : Option ℝ
  a : Option ℝ
  b : Option ℝ
  c : Option ℝ
  d : Option ℝ

/-- xodr_parser.py:68-75 `parse_lane_width` -/
def parseWidth (v : Env) (e : Elem) : PyWidth :=
  ⟨v.real e "sOffset", v.real e "a", v.real e "b", v.real e "c", v.real e "d"⟩

/-- xodr_parser.py:77-85 `zero_lane_width` -/
def zeroWidth : PyWidth := ⟨some 0, some 0, some 0, some 0, some 0⟩

/-- xodr_parser.py:87-99 `parse_lane_widths_from_lane` -/
def parseWidths (v : Env) (e : Elem) (id : ℤ) : List PyWidth :=
  if 0 < (e.findall "width").length then (e.findall "width").map (parseWidth v)
  else if id = 0 then [zeroWidth]
  else []

/-- a lane as read: xodr_parser.py:107-137. `link`: the predecessor and successor positions -/
structure PyLane where
  id : ℤ
  type : LaneType
  dir : RG.Dir
  link : Option (Option ℤ × Option ℤ)
  mark : Option PyMark
  widths : List PyWidth

/-- xodr_parser.py:48-54 `parse_lane_link` -/
def parseLaneLink (v : Env) (e : Elem) : Option ℤ × Option ℤ :=
  ((e.find "predecessor").bind fun x => v.whole x "id", (e.find "successor").bind fun x => v.whole x "id")

/-- xodr_parser.py:130-133 -/
def laneMark (v : Env) (e : Elem) : Res (Option PyMark) :=
  match e.find "roadMark" with
  | Option.none => .ok Option.none
  | some m => parseMark v m

/-- xodr_parser.py:107-137 -/
def parseLane (v : Env) (id : ℤ) (e : Elem) : Res PyLane := do
  let m ← laneMark v e
  .ok ⟨id, laneType (e.get "type"), laneDir id e, (e.find "link").map (parseLaneLink v), m, parseWidths v e id⟩

/-- assignment to a Python dictionary -/
def put (id : ℤ) (e : Elem) : List (ℤ × Elem) → List (ℤ × Elem)
  | [] => [(id, e)]
  | (i, x) :: d => if i = id then (i, e) :: d else (i, x) :: put id e d

/-- xodr_parser.py:103-105: `lane_dict` -/
def laneDict (v : Env) (d : List (ℤ × Elem)) : List Elem → Res (List (ℤ × Elem))
  | [] => .ok d
  | e :: es => do
    let id ← need (v.whole e "id")
    laneDict v (put id e d) es

/-- xodr_parser.py:101-138 `parse_lanes_from_lane_sections` -/
def parseLanes (v : Env) (es : List Elem) : Res (List PyLane) := do
  let d ← laneDict v [] es
  d.mapM fun x => parseLane v x.1 x.2

/-- a lane section as read -/
structure PySection where
  s : Option ℝ
  lanes : List PyLane

/-- the groups of xodr_parser.py:165-171 in the order they are visited -/
def groups (e : Elem) : List Elem := e.findall "left" ++ e.findall "center" ++ e.findall "right"

/-- xodr_parser.py:162-172 -/
def parseSection (v : Env) (e : Elem) : Res PySection := do
  let ls ← (groups e).mapM fun g => parseLanes v (g.findall "lane")
  .ok ⟨v.real e "s", ls.flatten⟩

/-- `lane_offset`, xodr_parser.py:516-529 -/
structure Offset where
  s : ℝ
  poly : Cubic

/-- no lane offset -/
def noOffset : Offset := ⟨0, ⟨0, 0, 0, 0⟩⟩

/-- xodr_parser.py:516-529 `parse_lane_offset` -/
def parseOffset (v : Env) : Option Elem → Res Offset
  | Option.none => .ok noOffset
  | some e => do
    let s ← need (v.real e "s")
    let a ← need (v.real e "a")
    let b ← need (v.real e "b")
    let c ← need (v.real e "c")
    let d ← need (v.real e "d")
    .ok ⟨s, ⟨a, b, c, d⟩⟩

/-- kinds of plan view geometries read -/
inductive Kind where
  | line
  | spiral (from_ to_ : Option ℝ)
  | arc (curvature : Option ℝ)

/-- xodr_parser.py:186-198: a later kind replaces an earlier one -/
def parseKind (v : Env) (e : Elem) : Option Kind :=
  match e.find "arc" with
  | some x => some (.arc (v.real x "curvature"))
  | Option.none =>
    match e.find "spiral" with
    | some x => some (.spiral (v.real x "curvStart") (v.real x "curvEnd"))
    | Option.none => (e.find "line").map fun _ => .line

/-- a plan view geometry as read: xodr_parser.py:179-199 -/
structure PyGeo where
  x : Option ℝ
  y : Option ℝ
  hdg : Option ℝ
  length : Option ℝ
  kind : Option Kind

/-- xodr_parser.py:179-199 -/
def parseGeo (v : Env) (e : Elem) : PyGeo :=
  ⟨v.real e "x", v.real e "y", v.real e "hdg", v.real e "length", parseKind v e⟩

/-- one end of a road link as read: `element_id`, `element_type` -/
structure PyEnd where
  id : Option ℤ
  type : Option String

/-- xodr_parser.py:203-211 -/
def parseEnd (v : Env) (e : Elem) : PyEnd := ⟨v.whole e "elementId", e.get "elementType"⟩

/-- a road as read: xodr_parser.py:223-237 -/
structure PyRoad where
  id : Option ℤ
  name : Option String
  length : Option ℝ
  junction : Option ℤ
  offset : Offset
  sections : List PySection
  plan : List PyGeo
  link : Option (Option PyEnd × Option PyEnd)

/-- xodr_parser.py:223-237 `parse_road` -/
def parseRoad (v : Env) (e : Elem) : Res PyRoad := do
  let lanes ← need (e.find "lanes")
  let off ← parseOffset v (lanes.find "laneOffset")
  let secs ← (lanes.findall "laneSection").mapM (parseSection v)
  let plan ← need (e.find "planView")
  .ok ⟨v.whole e "id", e.get "name", v.real e "length", v.whole e "junction", off, secs,
    (plan.findall "geometry").map (parseGeo v),
    (e.find "link").map fun l => ((l.find "predecessor").map (parseEnd v), (l.find "successor").map (parseEnd v))⟩

/-- header offset (x, y, hdg) -/
abbrev Shift := Option (ℝ × ℝ × ℝ)

/-- xodr_parser.py:140-157 `parse_header`, `parse_offset`; without a header `None.get` raises -/
def parseHeader (v : Env) (doc : Elem) : Res Shift := do
  let h ← need (doc.find "header")
  match h.find "offset" with
  | Option.none => .ok Option.none
  | some o => do
    let x ← need (v.real o "x")
    let y ← need (v.real o "y")
    let _ ← need (v.real o "z")
    let a ← need (v.real o "hdg")
    .ok (some (x, y, a))

/-- `s_inc_straight_line`, xodr_parser.py:294-299 -/
def lineStep (v : Env) (len : ℝ) : Res ℝ :=
  match v.sIncLine with
  | .whole => .ok len
  | .step x => .ok x
  | .other => .error .thrown

/-- one geometry, xodr_parser.py:291-309 -/
noncomputable def addGeo (v : Env) (p : PlanView) (g : PyGeo) : Res PlanView := do
  let x ← need g.x
  let y ← need g.y
  let k ← need g.kind
  let h ← need g.hdg
  let len ← need g.length
  match k with
  | .line => do
    let st ← lineStep v len
    addLine p (x, y) h len st
  | .arc c => do
    let c ← need c
    addArc v.fuel p (x, y) h len c v.sIncCurves
  | .spiral a b => do
    let a ← need a
    let b ← need b
    addSpiral v.fuel p (v.spiral (x, y) h len a b) len v.sIncCurves

/-- repeated `addGeo` -/
noncomputable def addGeos (v : Env) (p : PlanView) : List PyGeo → Res PlanView
  | [] => .ok p
  | g :: gs => do
    let p' ← addGeo v p g
    addGeos v p' gs

/-- xodr_parser.py:287-320 `create_cpp_plan_view` -/
noncomputable def planView (v : Env) (gs : List PyGeo) (o : Shift) : Res PlanView := do
  let p ← addGeos v PlanView.new gs
  match o with
  | Option.none => .ok p
  | some (x, y, a) => .ok (applyOffset p x y a)

/-- `XodrRoadLinkInfo`, opendrive/commons.hpp:24-30 -/
structure RoadEnd where
  id : ℕ
  type : String
  deriving DecidableEq

/-- default constructor, opendrive/commons.hpp:25 -/
def noEnd : RoadEnd := ⟨1000000, ""⟩

/-- one end in xodr_parser.py:322-339: any failure leaves the default -/
def roadEnd : Option PyEnd → RoadEnd
  | some ⟨some i, some t⟩ => if 0 ≤ i ∧ i < 2 ^ 32 then ⟨i.toNat, t⟩ else noEnd
  | _ => noEnd

/-- road mark, opendrive/commons.hpp:151-155 -/
structure Mark where
  type : MarkType
  color : Color
  width : ℝ

/-- the fields of `XodrLane`, opendrive/lane.hpp:80-89 -/
structure Lane where
  id : ℕ
  pos : ℤ
  type : LaneType
  dir : RG.Dir
  fromPos : ℤ
  toPos : ℤ
  mark : Option Mark
  junction : Option ℕ
  line : Line

/-- xodr_parser.py:356-371 `create_lane_link`: what cannot be converted stays 0 -/
def linkPos : Option ℤ → ℤ
  | some i => if -2 ^ 31 ≤ i ∧ i < 2 ^ 31 then i else 0
  | Option.none => 0

/-- where a width record ends: xodr_parser.py:388-392 -/
def endAt (next : Option PyWidth) (sEnd : ℝ) : Res ℝ :=
  match next with
  | Option.none => .ok sEnd
  | some n => need n.s

/-- the width record number `i`: xodr_parser.py:379-394; `next` is the record after it -/
def widthOf (w : PyWidth) (next : Option PyWidth) (off : Offset) (sEnd : ℝ) : Res Width := do
  let a ← need w.a
  let b ← need w.b
  let c ← need w.c
  let d ← need w.d
  let s ← need w.s
  let e ← endAt next sEnd
  .ok ⟨s + off.s, e, ⟨a + off.poly.a, b + off.poly.b, c + off.poly.c, d + off.poly.d⟩⟩

/-- the loop xodr_parser.py:377-397 -/
noncomputable def appendWidths (v : Env) (pos : ℤ) (ref : Line) (off : Offset) (sEnd : ℝ) (line : Line) :
    List PyWidth → Res Line
  | [] => .ok line
  | w :: ws => do
    let x ← widthOf w ws.head? off sEnd
    let line' ← LaneLine.append v.simp v.fuel line ref pos x 0.2
    appendWidths v pos ref off sEnd line' ws

/-- road mark of a lane: xodr_parser.py:407-413 -/
def markOf : Option PyMark → Res (Option Mark)
  | Option.none => .ok Option.none
  | some m => (need m.width).map fun w => some ⟨m.type, m.color, w⟩

/-- xodr_parser.py:415-419 -/
def junctionOf (j : ℤ) : Res (Option ℕ) := if j ≠ -1 then (uint32 j).map some else .ok Option.none

/-- xodr_parser.py:373-425 `create_cpp_lane`; `n` is the number of lanes created before -/
noncomputable def createLane (v : Env) (n : ℕ) (l : PyLane) (sEnd : ℝ) (ref : Line) (off : Offset) (j : ℤ) :
    Res Lane := do
  let pos ← int32 l.id
  let line ← appendWidths v pos ref off sEnd Ln.empty l.widths
  let m ← markOf l.mark
  let jn ← junctionOf j
  .ok ⟨n + 1, pos, l.type, l.dir, linkPos (l.link.bind Prod.fst), linkPos (l.link.bind Prod.snd), m, jn, line⟩

/-- lane_section.cpp:24-33 `GetLaneByPosition`: the last one -/
def laneAt (ls : List Lane) (pos : ℤ) : Option Lane := ls.reverse.find? fun l => l.pos == pos

/-- the inner neighbor's position, xodr_parser.py:462-471 -/
def inner (id : ℤ) : ℤ := if 0 < id then id - 1 else id + 1

/-- the new lane in the body of the loop xodr_parser.py:448-473 -/
noncomputable def newLane (v : Env) (r : PyRoad) (j : ℤ) (ref : Line) (n : ℕ) (ls : List Lane) (l : PyLane) :
    Res Lane :=
  if l.id = 0 then do
    let len ← need r.length
    createLane v n l len ref noOffset j
  else if l.id = -1 ∨ l.id = 1 then do
    let len ← need r.length
    createLane v n l len ref r.offset j
  else do
    let p ← need (laneAt ls (inner l.id))
    createLane v n l (Ln.length p.line.pts) p.line noOffset j

/-- body of the loop xodr_parser.py:448-473 with `AddLane` -/
noncomputable def addLane (v : Env) (r : PyRoad) (j : ℤ) (ref : Line) (n : ℕ) (ls : List Lane) (l : PyLane) :
    Res (List Lane) := do
  let x ← newLane v r j ref n ls l
  .ok (ls ++ [x])

/-- the loop xodr_parser.py:448-473 -/
noncomputable def addLanes (v : Env) (r : PyRoad) (j : ℤ) (ref : Line) (n : ℕ) (ls : List Lane) :
    List PyLane → Res (List Lane)
  | [] => .ok ls
  | l :: rest => do
    let ls' ← addLane v r j ref n ls l
    addLanes v r j ref (n + 1) ls' rest

/-- xodr_parser.py:427-428 `sortedIndices`: Python's sort is stable -/
def inOrder (ls : List PyLane) : List PyLane := ls.mergeSort fun a b => decide (|a.id| ≤ |b.id|)

/-- a lane section, opendrive/lane_section.hpp; the lanes in the order of their ids -/
structure Section where
  s : ℝ
  lanes : List Lane

/-- body of the loop xodr_parser.py:438-475 -/
noncomputable def createSection (v : Env) (r : PyRoad) (j : ℤ) (ref : Line) (n : ℕ) (q : PySection) : Res Section := do
  let s ← need q.s
  let ls ← addLanes v r j ref n [] (inOrder q.lanes)
  .ok ⟨s, ls⟩

/-- the loop xodr_parser.py:438-475 -/
noncomputable def createSections (v : Env) (r : PyRoad) (j : ℤ) (ref : Line) (n : ℕ) :
    List PySection → Res (List Section)
  | [] => .ok []
  | q :: qs => do
    let x ← createSection v r j ref n q
    let xs ← createSections v r j ref (n + x.lanes.length) qs
    .ok (x :: xs)

/-- a road, opendrive/road.hpp:69-74 -/
structure Road where
  id : ℕ
  name : String
  plan : PlanView
  pred : RoadEnd
  succ : RoadEnd
  sections : List Section

/-- number of lanes of a road -/
def Road.count (r : Road) : ℕ := (r.sections.map fun s => s.lanes.length).sum

/-- xodr_parser.py:341-354 `create_cpp_road` with `create_cpp_lane_section`, 430-476; `name` must be a string -/
noncomputable def createRoad (v : Env) (o : Shift) (n : ℕ) (r : PyRoad) : Res Road := do
  let i ← need r.id
  let id ← uint32 i
  let name ← need r.name
  let plan ← planView v r.plan o
  let j ← need r.junction
  let secs ← createSections v r j plan.line n r.sections
  .ok ⟨id, name, plan, roadEnd (r.link.bind Prod.fst), roadEnd (r.link.bind Prod.snd), secs⟩

/-- the loop xodr_parser.py:508-510, without `AddRoad` -/
noncomputable def createRoads (v : Env) (o : Shift) (n : ℕ) : List PyRoad → Res (List Road)
  | [] => .ok []
  | r :: rs => do
    let x ← createRoad v o n r
    let xs ← createRoads v o (n + x.count) rs
    .ok (x :: xs)

/-- a connection, opendrive/commons.hpp:81-88 -/
structure Conn where
  id : ℕ
  incoming : ℕ
  connecting : ℕ
  links : List (ℤ × ℤ)

/-- a junction, opendrive/junction.hpp -/
structure Junction where
  id : ℕ
  conns : OMap ℕ Conn

/-- a lane link of a connection: xodr_parser.py:239-246, 491-495 -/
def createLink (v : Env) (e : Elem) : Res (ℤ × ℤ) := do
  let a ← need (v.whole e "from")
  let a ← int32 a
  let b ← need (v.whole e "to")
  let b ← int32 b
  .ok (a, b)

/-- xodr_parser.py:253-264, 485-496 -/
def createConn (v : Env) (e : Elem) : Res Conn := do
  let i ← need (v.whole e "incomingRoad")
  let i ← uint32 i
  let c ← need (v.whole e "connectingRoad")
  let c ← uint32 c
  let n ← need (v.whole e "id")
  let n ← uint32 n
  let ls ← (e.findall "laneLink").mapM (createLink v)
  .ok ⟨n, i, c, ls⟩

/-- xodr_parser.py:248-265 and 483-497; the constructor takes an `int`, which becomes the unsigned id -/
def createJunction (v : Env) (e : Elem) : Res Junction := do
  let i ← need (v.whole e "id")
  let i ← int32 i
  let cs ← (e.findall "connection").mapM (createConn v)
  .ok ⟨(i % 2 ^ 32).toNat, cs.foldl (fun m c => OMap.insert c.id c m) []⟩

/-- the map, opendrive/opendrive.hpp:68-71 -/
structure XMap where
  roads : OMap ℕ Road
  lanes : OMap ℕ Lane
  junctions : OMap ℕ Junction

/-- `std::map::insert` of a range: existing entries stay -/
def insertAll (m : OMap ℕ Lane) (ls : List Lane) : OMap ℕ Lane :=
  ls.foldl (fun m l => if (OMap.find l.id m).isSome then m else OMap.insert l.id l m) m

/-- opendrive.hpp:32-37 `AddRoad` -/
def addRoad (m : XMap) (r : Road) : XMap :=
  { m with roads := OMap.insert r.id r m.roads, lanes := insertAll m.lanes (r.sections.flatMap fun s => s.lanes) }

/-- opendrive.hpp:38-41 `AddJunction` -/
def addJunction (m : XMap) (j : Junction) : XMap := { m with junctions := OMap.insert j.id j m.junctions }

/-- xodr_parser.py:18-25, 267-281, 499-514: the whole parser on the root element; `n` lanes were created before -/
noncomputable def parse (v : Env) (n : ℕ) (doc : Elem) : Res XMap := do
  let o ← parseHeader v doc
  let rs ← (doc.findall "road").mapM (parseRoad v)
  let roads ← createRoads v o n rs
  let js ← (doc.findall "junction").mapM (createJunction v)
  .ok (js.foldl addJunction (roads.foldl addRoad ⟨[], [], []⟩))

end Bark.Xodr
