import Mathlib.Algebra.Order.Field.Basic

/-!
Model of the Python viewers: /repo/bark/runtime/viewer/viewer.py (camera, choice of what is drawn, colours),
matplotlib_viewer.py (colour map, aspect ratio is a parameter), video_renderer.py, threaded_viewer.py, buffered_viewer.py,
buffered_mp_viewer.py and /repo/bark/world/renderer/renderer.hpp, primitive.hpp.
Not modelled: the drawing calls of matplotlib and pygame, texts, the map and the debug drawings themselves.
-/

namespace Bark.View

/-- Python exceptions raised while drawing -/
inductive Err
  | type | key | index
  deriving DecidableEq, Repr

abbrev Out := Except Err

/-- viewer.py:110-111: `FollowAgentIds` as read from the parameters: absent, a truth value, an agent id or a list of ids -/
inductive Follow
  | nobody | flag (b : Bool) | id (i : Nat) | ids (l : List Nat)
  deriving DecidableEq, Repr

/-- viewer.py:108-131: camera settings -/
structure Camera (K : Type) where
  useBounds : Bool
  follow : Follow
  center : K × K
  enforceX : Bool
  enforceY : Bool
  xLen : K
  yLen : K

/-- viewer.py:133-134: the part of the world that is shown -/
structure Range (K : Type) where
  x : K × K
  y : K × K
  deriving DecidableEq

/-- the parts of a world the viewer reads: the ids of `world.agents` in their order, `world.agents_valid`, the positions of the
agents, `world.bounding_box` -/
structure Scene (K : Type) where
  agents : List Nat
  valid : List Nat
  pos : Nat → K × K
  box : (K × K) × (K × K)

/-- viewer.py:142-155 `_get_draw_eval_agent_ids`. A truth value is a Python integer, so as a key of `world.agents` it is 0 or 1; a
list is no possible key. -/
def drawEvalId (f : Follow) (agents : List Nat) (evalIds : Option (List Nat)) : Out (Option Nat) :=
  match f with
  | .nobody => .ok none
  | .ids _ => .error .type
  | .id i => .ok (if i ∈ agents then some i else none)
  | .flag b =>
    let d := match evalIds with
      | some [e] => e
      | _ => b.toNat
    .ok (if d ∈ agents then some d else none)

section
variable {K : Type} [Field K] [LinearOrder K]

/-- viewer.py:189-201 `_update_world_dynamic_range` -/
def dynamicRange (aspect : K) (c : Camera K) (p : K × K) (v : Range K) : Range K :=
  let v := if c.enforceX then
      { x := (-c.xLen / 2 + p.1, c.xLen / 2 + p.1)
        y := (-c.xLen / 2 / aspect + p.2, c.xLen / 2 / aspect + p.2) }
    else v
  if c.enforceY then
    { x := (-c.yLen / 2 * aspect + p.1, c.yLen / 2 * aspect + p.1)
      y := (-c.yLen / 2 + p.2, c.yLen / 2 + p.2) }
  else v

/-- viewer.py:168-185: the whole map, extended to a square -/
def boxRange (b : (K × K) × (K × K)) : Range K :=
  let x := (b.1.1, b.2.1)
  let y := (b.1.2, b.2.2)
  let dx := |x.2 - x.1|
  let dy := |y.2 - y.1|
  if dx > dy then { x := x, y := (y.1 - (dx - dy) / 2, y.2 + (dx - dy) / 2) }
  else { x := (x.1 - (dy - dx) / 2, x.2 + (dy - dx) / 2), y := y }

/-- viewer.py:156-187 `_update_world_view_range` -/
def viewRange (aspect : K) (c : Camera K) (s : Scene K) (evalIds : Option (List Nat)) (v : Range K) : Out (Range K) :=
  match drawEvalId c.follow s.agents evalIds with
  | .error e => .error e
  | .ok (some i) => .ok (dynamicRange aspect c (s.pos i) v)
  | .ok none =>
    if c.useBounds then .ok (boxRange s.box)
    else .ok (dynamicRange aspect c c.center v)

end

/-- viewer.py:32-103: drawing settings; `size` and `cmap` are `getSizeOfColormap` and `getColorFromMap`; `needsEval`
says whether one of the drawings that read `eval_agent_ids[0]` unconditionally (viewer.py:409-427) is switched on -/
structure Config (C K : Type) where
  drawInvalid : Bool
  colormap : Bool
  fixedLine : Bool
  evalLine : C
  evalFace : C
  otherLine : C
  otherFace : C
  white : C
  alphaEval : K
  alphaOther : K
  size : Nat
  cmap : Nat → C
  reference : Bool
  needsEval : Bool

/-- one vehicle drawn: the arguments of `drawAgent` (viewer.py:477); `outline` marks those of `drawTrueWorld` -/
structure Patch (C K : Type) where
  id : Nat
  line : C
  face : C
  alpha : K
  hatch : Bool
  outline : Bool
  deriving DecidableEq

/-- viewer.py:105: `agent_color_map`, a dictionary -/
abbrev Colors (C : Type) := List (Nat × C)

/-- viewer.py:322-345 `GetAgentColor`: line colour, face colour, alpha, and the colour map afterwards -/
def agentColor {C K : Type} (g : Config C K) (m : Colors C) (evalIds : Option (List Nat)) (i : Nat) : (C × C × K) × Colors C :=
  if i ∈ evalIds.getD [] then ((g.evalLine, g.evalFace, g.alphaEval), m)
  else if g.colormap then
    let m' := if (m.lookup i).isSome then m else m ++ [(i, g.cmap (m.length % g.size))]
    let col := (m'.lookup i).getD g.otherFace
    ((if g.fixedLine then g.otherLine else col, col, g.alphaOther), m')
  else ((g.otherLine, g.otherFace, g.alphaOther), m)

/-- viewer.py:313-320 `drawTrueWorld`: every agent of the true world, white inside -/
def drawTrue {C K : Type} (g : Config C K) (evalIds : Option (List Nat)) : List Nat → Colors C → List (Patch C K) × Colors C
  | [], m => ([], m)
  | i :: l, m =>
    let c := agentColor g m evalIds i
    let r := drawTrue g evalIds l c.2
    ({ id := i, line := c.1.1, face := g.white, alpha := c.1.2.2, hatch := false, outline := true } :: r.1, r.2)

/-- viewer.py:373-388: the loop over the agents in `drawWorldImplementation` -/
def drawShown {C K : Type} (g : Config C K) (valid : List Nat) (evalIds : Option (List Nat)) :
    List Nat → Colors C → List (Patch C K) × Colors C
  | [], m => ([], m)
  | i :: l, m =>
    let c := agentColor g m evalIds i
    let r := drawShown g valid evalIds l c.2
    if i ∈ valid ∨ g.drawInvalid = true then
      ({ id := i, line := c.1.1, face := c.1.2.1, alpha := c.1.2.2, hatch := !decide (i ∈ valid), outline := false } :: r.1, r.2)
    else (r.1, r.2)

/-- what a viewer remembers between frames -/
structure State (C K : Type) where
  range : Range K
  colors : Colors C

/-- `eval_agent_ids[0]` -/
def firstEval : Option (List Nat) → Out Nat
  | none => .error .type
  | some [] => .error .index
  | some (e :: _) => .ok e

/-- `world.agents[i]` -/
def agentKey (agents : List Nat) (i : Nat) : Out Unit :=
  if i ∈ agents then .ok () else .error .key

section
variable {C K : Type} [Field K] [LinearOrder K]

/-- viewer.py:356-361: the reference line of the evaluated agent -/
def checkReference (g : Config C K) (agents : List Nat) (evalIds : Option (List Nat)) : Out Unit :=
  if g.reference && evalIds.isSome then firstEval evalIds >>= agentKey agents else .ok ()

/-- viewer.py:390-407: texts about the evaluated agent -/
def checkText (agents : List Nat) (debugText : Bool) (evalIds : Option (List Nat)) : Out Unit :=
  match debugText, evalIds with
  | true, some (e :: _) => agentKey agents e
  | _, _ => .ok ()

/-- viewer.py:409-427: the debug drawings; only their access to `eval_agent_ids[0]` -/
def checkEval (g : Config C K) (evalIds : Option (List Nat)) : Out Unit :=
  if g.needsEval then (firstEval evalIds).map (fun _ => ()) else .ok ()

/-- viewer.py:347-427 `drawWorldImplementation`: the vehicles drawn and the state afterwards -/
def drawImpl (g : Config C K) (c : Camera K) (aspect : K) (s : Scene K) (evalIds : Option (List Nat)) (debugText : Bool)
    (st : State C K) : Out (List (Patch C K) × State C K) := do
  let v ← viewRange aspect c s evalIds st.range
  checkReference g s.agents evalIds
  let r := drawShown g s.valid evalIds s.agents st.colors
  checkText s.agents debugText evalIds
  checkEval g evalIds
  .ok (r.1, { range := v, colors := r.2 })

/-- a call of `drawWorld`: the world, what each of its agents has sensed last, the evaluated agents, whether texts are drawn -/
structure Frame (K : Type) where
  world : Scene K
  sensed : Nat → Option (Scene K)
  evalIds : Option (List Nat)
  debugText : Bool

/-- viewer.py:297-298: without the first evaluated agent in the world no agent is evaluated -/
def keptIds (f : Frame K) : Option (List Nat) :=
  match f.evalIds with
  | some (e :: l) => if e ∈ f.world.agents then some (e :: l) else none
  | o => o

/-- viewer.py:299-300: what the first evaluated agent has sensed -/
def sensedWorld (f : Frame K) : Option (Scene K) :=
  match keptIds f with
  | some (e :: _) => f.sensed e
  | _ => none

/-- viewer.py:295-307 `drawWorld` -/
def drawWorld (g : Config C K) (c : Camera K) (aspect : K) (f : Frame K) (st : State C K) :
    Out (List (Patch C K) × State C K) :=
  match sensedWorld f with
  | some s => do
    let t := drawTrue g (keptIds f) f.world.agents st.colors
    let r ← drawImpl g c aspect s (keptIds f) f.debugText { st with colors := t.2 }
    .ok (t.1 ++ r.1, r.2)
  | none => drawImpl g c aspect f.world (keptIds f) f.debugText st

/-- successive calls of `drawWorld` on one viewer -/
def drawAll (g : Config C K) (c : Camera K) (aspect : K) : List (Frame K) → State C K → Out (List (List (Patch C K)) × State C K)
  | [], st => .ok ([], st)
  | f :: fs, st => do
    let r ← drawWorld g c aspect f st
    let q ← drawAll g c aspect fs r.2
    .ok (r.1 :: q.1, q.2)

/-- viewer.py:252-266 `drawHistory`: the opacity of the entry `idx` of a history of `lh` entries -/
def historyAlpha (lh idx : Nat) : K :=
  let a := 1 - 8 / 10 * ((lh : K) - idx) / (34 / 10)
  if a < 0 then 0 else a

end

/-- matplotlib_viewer.py:173-179: `tab20` without its entries 6 and 7 has 18 colours (here the numbers 0..17); indices beyond the end
of a matplotlib colour map give its last colour. The size reported is 20 (matplotlib_viewer.py:170-171). -/
def mpColor (i : Nat) : Nat := if i < 18 then i else 17

/-- matplotlib_viewer.py:170-171 `getSizeOfColormap` -/
def mpSize : Nat := 20

/-! ### video_renderer.py -/

/-- video_renderer.py:23-38: number of the next frame, and the image files of the frame directory by number -/
structure Video (W : Type) where
  count : Nat
  files : List (Nat × W)

section
variable {W : Type}

/-- saving an image under a number that exists replaces it -/
def save (n : Nat) (w : W) (fs : List (Nat × W)) : List (Nat × W) :=
  fs.filter (fun x => x.1 ≠ n) ++ [(n, w)]

/-- video_renderer.py:47-53: the loop over intermediate steps; `at'` is `GetWorldAtTime`, `dt` the step between two images, `n` the
file number, determined before the loop -/
def intermediate {K : Type} [Add K] (at' : W → K → W) (dt : K) (n : Nat) : Nat → W → K → Video W → Video W
  | 0, _, _, v => v
  | k + 1, w, t, v =>
    let w' := at' w t
    intermediate at' dt n k w' (t + dt) { count := v.count + 1, files := save n w' v.files }

/-- video_renderer.py:40-53 `drawWorld`: `steps` is `render_intermediate_steps` -/
def record {K : Type} [Field K] (at' : W → K → W) (time : W → K) (stepTime : K) (steps : Option Nat) (w : W) (v : Video W) :
    Video W :=
  match steps with
  | none => { count := v.count + 1, files := save v.count w v.files }
  | some k => intermediate at' (stepTime / k) v.count k w (time w) v

/-- video_renderer.py:66-70: the frame rate of the exported video -/
def frameRate {K : Type} [Field K] (stepTime : K) (steps : Option Nat) : K :=
  match steps with
  | none => 1 / stepTime
  | some k => 1 / (stepTime / k)

/-! ### threaded_viewer.py -/

/-- threaded_viewer.py:30-33 `_closest_world_queue_index`: the loop over the reversed times -/
def closest {K : Type} [LE K] [DecidableLE K] (t : K) (times : List K) : Option Nat :=
  (times.reverse.findIdx? (fun w => decide (w ≤ t))).map (fun idx => times.length - 1 - idx)

/-- threaded_viewer.py:45-49: the queued world that is shown; without index the list access raises -/
def pick {K : Type} [LE K] [DecidableLE K] (t : K) (times : List K) (ws : List W) : Out W :=
  match closest t times with
  | none => .error .type
  | some i =>
    match ws[i]? with
    | some w => .ok w
    | none => .error .index

end

/-! ### renderer.hpp, buffered_viewer.py, buffered_mp_viewer.py -/

/-- renderer.hpp:61: the primitives by name, with names in order (std::map); a list of (name, primitives) -/
abbrev Buffer (P : Type) := List (String × List P)

/-- renderer.hpp:30-32 `Add` -/
def Buffer.add {P : Type} (name : String) (p : P) : Buffer P → Buffer P
  | [] => [(name, [p])]
  | (n, ps) :: b => if n = name then (n, ps ++ [p]) :: b else (n, ps) :: Buffer.add name p b

/-- a primitive of the buffered viewer: a lane line with its style, a vehicle with its colours, the state of the ego vehicle -/
inductive Prim (L : Type)
  | lane (l : L) (dashed : Bool)
  | vehicle (id : Nat) (ego : Bool)
  | egoState (id : Nat)
  deriving DecidableEq

/-- type of a road mark, as far as it matters (buffered_viewer.py:74-75) -/
inductive Mark
  | solid | broken | none | other
  deriving DecidableEq, Repr

/-- buffered_viewer.py:70-78 `DrawLane`: the second `Add` of a colour replaces the first (primitive.hpp:36) -/
def drawLane {L : Type} (l : L × Mark) (b : Buffer (Prim L)) : Buffer (Prim L) :=
  b.add "MAP_LINE" (.lane l.1 (match l.2 with | .broken => true | .none => true | _ => false))

/-- buffered_viewer.py:39-53 `DrawAgents`: one vehicle -/
def drawVehicle {L : Type} (ego : Nat) (b : Buffer (Prim L)) (i : Nat) : Buffer (Prim L) :=
  if i = ego then b.add "EGO_AGENT" (.vehicle i true) else b.add "OTHER_AGENT" (.vehicle i false)

/-- buffered_viewer.py:55-61 `drawWorld` of `BufferedViewer`: the buffer afterwards and whether it raised -/
def bufferWorld {L : Type} (lanes : List (L × Mark)) (agents : List Nat) (evalIds : Option (List Nat)) (b : Buffer (Prim L)) :
    Buffer (Prim L) × Option Err :=
  let b1 := lanes.foldl (fun b l => drawLane l b) b
  match firstEval evalIds with
  | .error e => (b1, some e)
  | .ok e =>
    if e ∈ agents then ((agents.foldl (drawVehicle e) b1).add "EGO_AGENT_STATE" (.egoState e), none)
    else (b1, some .key)

/-- buffered_mp_viewer.py:24-28 `drawWorld` of `BufferedMPViewer`: what is rendered (`none` if it raised) and the buffer afterwards;
`Clear` empties the buffer (renderer.hpp:34-37) -/
def bufferMP {L : Type} (lanes : List (L × Mark)) (agents : List Nat) (evalIds : Option (List Nat)) (b : Buffer (Prim L)) :
    Option (Buffer (Prim L)) × Buffer (Prim L) :=
  match bufferWorld lanes agents evalIds b with
  | (b', none) => (some b', [])
  | (b', some _) => (none, b')

end Bark.View
