import Verif.Model.Roadgraph

/-!
Vocabulary for the statements about maps and the lane graph.
-/
namespace Bark.RG.Spec

/-- lane `l` belongs to lane section `s` of road `r` of the map -/
def LaneIn (m : XMap) (r : Nat) (s : List Lane) (l : Lane) : Prop :=
  ∃ road : Road, (r, road) ∈ m.roads ∧ s ∈ road.sections ∧ l ∈ s

/-- lane ids are unique in the map (`XodrLane` numbers its instances), positions are unique in a section, roads are a
`std::map`, and id 0 is not used (`lane_count` is incremented before use) -/
structure WellFormed (m : XMap) : Prop where
  roads : OMap.Sorted m.roads
  ids : (m.lanes.map (fun v => v.lane.id)).Nodup
  pos : ∀ r s l l', LaneIn m r s l → LaneIn m r s l' → l.pos = l'.pos → l = l'
  zero : ∀ r s l, LaneIn m r s l → l.id ≠ 0

/-- position `q` is the neighbour of position `p` on the side of the reference lane (position 0) -/
def Towards (p q : Int) : Prop := (0 < p ∧ q = p - 1) ∨ (p < 0 ∧ q = p + 1)

/-- position to the left of `p` for someone looking along the reference line: positions grow to the left, 0 is a line only -/
def leftPos (p : Int) : Int := if p = -1 then 1 else p + 1

/-- position to the right of `p` for someone looking along the reference line -/
def rightPos (p : Int) : Int := if p = 1 then -1 else p - 1

/-- the lane whose line (the outer one) is the border of the lane at `p` to the left of someone looking along the reference line: beyond the reference lane its own,
before it that of the next one -/
def lineLeft (p : Int) : Int := if p < 0 then p + 1 else p

/-- the lane whose line is its border to the right -/
def lineRight (p : Int) : Int := if p < 0 then p else p - 1

/-- driving directions as set by the map reader (runtime/commons/xodr_parser.py:121-125) for right-hand traffic -/
def RightHand (m : XMap) : Prop :=
  ∀ r s l, LaneIn m r s l → (l.pos < 0 → l.dir = .forward) ∧ (0 < l.pos → l.dir = .backward)

/-- a lane id and position in a section, as an answer: `o` names the lane of `s` at position `p` and is `none` if there is none -/
def At (s : List Lane) (p : Int) (o : Option Nat) : Prop :=
  ∀ j, o = some j ↔ ∃ l ∈ s, l.pos = p ∧ l.id = j

end Bark.RG.Spec

namespace Bark.RG.Spec

/-- positions from the reference lane up to `p` (both included) -/
def Between (q p : Int) : Prop := (0 ≤ q ∧ q ≤ p) ∨ (p ≤ q ∧ q ≤ 0)

/-- no position is left out between the reference lane and a lane of the section -/
def Contiguous (s : List Lane) : Prop := ∀ l ∈ s, ∀ q, Between q l.pos → ∃ i ∈ s, i.pos = q

/-- two positions on the same side of the reference lane -/
def SameSide (p q : Int) : Prop := (0 < p ∧ 0 < q) ∨ (p < 0 ∧ q < 0)

/-- what the map needs so that the graph can be built: no road without lane section, junctions name existing roads -/
structure Complete (m : XMap) : Prop where
  sections : ∀ r road, (r, road) ∈ m.roads → road.sections ≠ []
  conns : ∀ c ∈ m.conns, (∃ a, (c.incoming, a) ∈ m.roads) ∧ (∃ b, (c.connecting, b) ∈ m.roads)

/-- Lane `b` continues lane `a` according to the map.
* `succ`: the road of `a` names a successor road and `a` a position in its first lane section
* `pred`: the road of `b` names a predecessor road and `b` a position in its last lane section
* `junction`: a connection of a junction links the two positions (first lane sections) -/
inductive Declared (m : XMap) : Lane → Lane → Prop
  | succ {r : Nat} {R R' : Road} {s : List Lane} {a b : Lane} (h1 : (r, R) ∈ m.roads) (h2 : R.succIsRoad = true)
      (h3 : (R.succId, R') ∈ m.roads) (h4 : s ∈ R.sections) (h5 : a ∈ s) (h6 : a.toPos ≠ 0)
      (h7 : ∃ s', R'.sections.head? = some s' ∧ b ∈ s' ∧ b.pos = a.toPos) : Declared m a b
  | pred {r : Nat} {R R' : Road} {s : List Lane} {a b : Lane} (h1 : (r, R) ∈ m.roads) (h2 : R.predIsRoad = true)
      (h3 : (R.predId, R') ∈ m.roads) (h4 : s ∈ R.sections) (h5 : b ∈ s) (h6 : b.fromPos ≠ 0)
      (h7 : ∃ s', R'.sections.getLast? = some s' ∧ a ∈ s' ∧ a.pos = b.fromPos) : Declared m a b
  | junction {c : Conn} {k : Int × Int} {R R' : Road} {a b : Lane} (h1 : c ∈ m.conns) (h2 : k ∈ c.links)
      (h3 : (c.incoming, R) ∈ m.roads) (h4 : (c.connecting, R') ∈ m.roads)
      (h5 : ∃ s, R.sections.head? = some s ∧ a ∈ s ∧ a.pos = k.1)
      (h6 : ∃ s, R'.sections.head? = some s ∧ b ∈ s ∧ b.pos = k.2) : Declared m a b

/-- conditions under which the generator takes up all links: no road names a successor id above 1000 (or names none, which is
stored as id 1000000), and a lane that names a predecessor also names a successor if its road has one -/
structure Clean (m : XMap) : Prop where
  small : ∀ r R, (r, R) ∈ m.roads → R.succId ≤ 1000
  both : ∀ r R s l R', (r, R) ∈ m.roads → s ∈ R.sections → l ∈ s → R.succIsRoad = true →
    (R.succId, R') ∈ m.roads → l.fromPos ≠ 0 → l.toPos ≠ 0

end Bark.RG.Spec
