import Verif.Model.Roadgraph

/-!
Paths in a weighted graph, and what a shortest-path search (Dijkstra) leaves in its predecessor map.
-/
namespace Bark.RG.Spec

/-- `Route E a b l k`: the nodes `l` lead from `a` to `b` along edges of `E` (source, target, weight) with total weight `k` -/
inductive Route (E : Nat → Nat → Nat → Prop) : Nat → Nat → List Nat → Nat → Prop
  | here (a : Nat) : Route E a a [a] 0
  | step {a b c w k : Nat} {l : List Nat} (h : E a b w) (r : Route E b c l k) : Route E a c (a :: l) (w + k)

/-- there is a route -/
def Reach (E : Nat → Nat → Nat → Prop) (a b : Nat) : Prop := ∃ l k, Route E a b l k

/-- the nodes `l` are a cheapest way from `a` to `b` -/
def Cheapest (E : Nat → Nat → Nat → Prop) (a b : Nat) (l : List Nat) : Prop :=
  ∃ k, Route E a b l k ∧ ∀ l' k', Route E a b l' k' → k ≤ k'

/-- `d` is the distance from `a` to `b` -/
def Dist (E : Nat → Nat → Nat → Prop) (a b d : Nat) : Prop :=
  (∃ l, Route E a b l d) ∧ ∀ l k, Route E a b l k → d ≤ k

/-- contract of `boost::dijkstra_shortest_paths` from `s` for the nodes `ok`: an unreached node is its own predecessor, a
reached one other than `s` has a predecessor on a cheapest way to it -/
def DijkstraMap (E : Nat → Nat → Nat → Prop) (ok : Nat → Prop) (s : Nat) (p : Nat → Nat) : Prop :=
  ∀ v, ok v → v ≠ s →
    (¬ Reach E s v → p v = v) ∧ (∀ d, Dist E s v d → ∃ w d', E (p v) v w ∧ Dist E s (p v) d' ∧ d = d' + w)

/-- edges of the filtered graph between vertex numbers -/
def VEdge (g : Graph) (okE : Graph → Edge → Bool) (okV : Vert → Bool) (x y w : Nat) : Prop :=
  ∃ e ∈ g.edges, visible g okE okV e = true ∧ e.src = x ∧ e.dst = y ∧ w = weight e.ty

/-- edges of the filtered graph between lane ids -/
def LEdge (g : Graph) (okE : Graph → Edge → Bool) (okV : Vert → Bool) (x y w : Nat) : Prop :=
  ∃ e ∈ g.edges, okE g e = true ∧ w = weight e.ty ∧
    ∃ a b, g.verts[e.src]? = some a ∧ g.verts[e.dst]? = some b ∧ okV a = true ∧ okV b = true ∧ a.lane.id = x ∧ b.lane.id = y

/-- the lane exists and passes the filter -/
def LaneOk (g : Graph) (okV : Vert → Bool) (id : Nat) : Prop := ∃ v ∈ g.verts, v.lane.id = id ∧ okV v = true

/-- a node of the filtered graph -/
def VertOk (g : Graph) (okV : Vert → Bool) (v : Nat) : Prop := ∃ x, g.verts[v]? = some x ∧ okV x = true

/-- lane ids are unique in the graph -/
def UniqueIds (g : Graph) : Prop := (g.verts.map (fun v => v.lane.id)).Nodup

end Bark.RG.Spec

namespace Bark.RG.Spec

/-- cost of an edge: following a lane costs 1, a lane change or the like 10 -/
def cost : Ty → Nat
  | .laneSucc => 1
  | _ => 10

/-- an edge of the road graph whose type satisfies `T` between two lanes satisfying `V`, with its cost -/
def EdgeBetween (g : Graph) (T : Ty → Prop) (V : Lane → Prop) (x y w : Nat) : Prop :=
  ∃ e ∈ g.edges, T e.ty ∧ w = cost e.ty ∧
    ∃ a b, g.verts[e.src]? = some a ∧ g.verts[e.dst]? = some b ∧ V a.lane ∧ V b.lane ∧ a.lane.id = x ∧ b.lane.id = y

/-- lane `id` is in the graph and satisfies `V` -/
def HasLane (g : Graph) (V : Lane → Prop) (id : Nat) : Prop := ∃ v ∈ g.verts, v.lane.id = id ∧ V v.lane

/-- an edge between two driving lanes -/
def DriveEdge (g : Graph) : Nat → Nat → Nat → Prop := EdgeBetween g (fun _ => True) (fun l => l.driving = true)

/-- a link between two roads -/
def RoadEdge (g : Graph) : Nat → Nat → Nat → Prop := EdgeBetween g (fun t => t = .roadSucc) (fun _ => True)

/-- an edge of one of the given types between two of the given lanes -/
def SubEdge (g : Graph) (types : List Ty) (lanes : List Nat) : Nat → Nat → Nat → Prop :=
  EdgeBetween g (fun t => t ∈ types) (fun l => l.id ∈ lanes)

/-- a lane of the subgraph that no edge of the subgraph leads to -/
def Source (g : Graph) (types : List Ty) (lanes : List Nat) (s : Nat) : Prop :=
  HasLane g (fun l => l.id ∈ lanes) s ∧ ∀ x w, ¬ SubEdge g types lanes x s w

/-- a lane of the subgraph that no edge of the subgraph leaves -/
def Sink (g : Graph) (types : List Ty) (lanes : List Nat) (t : Nat) : Prop :=
  HasLane g (fun l => l.id ∈ lanes) t ∧ ∀ x w, ¬ SubEdge g types lanes t x w

end Bark.RG.Spec
