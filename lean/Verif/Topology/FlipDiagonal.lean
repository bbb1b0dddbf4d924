import Verif.Topology.Model

/-!
# Model of lib/mito/topology/FlipDiagonal.icc

Assertions are assumed to be compiled in; the outcomes tell an exception, a failed assertion, undefined
behaviour (following a null pointer) and a failure inside the topology apart.  `std::set` of simplices or
vertices is ordered by address: the increasing list of ids.
-/

namespace Mito.Topology

/-- how a call of `flip_diagonal` may end -/
inductive Outcome (α : Type) where
  | ok (a : α)
  | throws
  | assertion
  | undefined
  | fails
deriving DecidableEq, Repr

/-- `_find_shared_simplex`, lib/mito/topology/FlipDiagonal.icc:13-33: the footprint of the first
subsimplex of the first simplex that is also one of the second; `none` is the exception -/
def Topo.findShared (t : Topo) (c0 c1 : List Id) : Option Id :=
  (c0.find? fun x => c1.any fun y => t.fp 1 x == t.fp 1 y).map (t.fp 1)

/-- `_opposite_vertices`, lib/mito/topology/FlipDiagonal.icc:35-60, without the assertion -/
def Topo.oppositeVertices (t : Topo) (x y f : Id) : List Id :=
  (((t.vertexSet 2 (t.fp 2 x) ++ t.vertexSet 2 (t.fp 2 y)).dedup).insertionSort (· ≤ ·)).filter
    (· ∉ t.vertexSet 1 f)

/-- `headTailConnected`, lib/mito/topology/utilities.h:120-127 -/
def Topo.connected (t : Topo) (x y : Id) : Bool := t.head x == t.tail y

/-- the set of subsimplices other than the shared one, lib/mito/topology/FlipDiagonal.icc:96-114 -/
def Topo.rim (t : Topo) (f : Id) (c : List Id) : List Id :=
  ((c.filter fun x => t.fp 1 x ≠ f).dedup).insertionSort (· ≤ ·)

/-- `_erase_subsimplex`, lib/mito/topology/FlipDiagonal.icc:63-76: the set left, the entry written
(`none`: it stays null), and the new `subsimplex_to_erase` -/
def Topo.takeConnected (t : Topo) (S : List Id) (cur erase : Id) : List Id × Option Id × Id :=
  match S.find? (t.connected cur) with
  | some s => (S.erase s, some s, s)
  | none => (S.erase erase, none, erase)

/-- the two rounds of a loop (lib/mito/topology/FlipDiagonal.icc:121-128 and 133-139) with the assertions
that follow: `n` elements are left in the set, and the loop is closed -/
def Topo.closeLoop (t : Topo) (n : Nat) (S : List Id) (d erase : Id) :
    Outcome (List Id × Id × Id × Id) :=
  match t.takeConnected S d erase with
  | (_, none, _) => .undefined
  | (S1, some e1, er1) =>
    match t.takeConnected S1 e1 er1 with
    | (S2, e2, er2) =>
      if S2.length ≠ n then .assertion
      else
        match e2 with
        | none => .undefined
        | some e2 => if t.connected e2 d then .ok (S2, e1, e2, er2) else .assertion

/-- the part of `flip_diagonal` that uses the diagonals `d` and `d'`,
lib/mito/topology/FlipDiagonal.icc:95-146 -/
def Topo.flipWith (t : Topo) (x y f d d' : Id) : Outcome (Topo × Id × Id) :=
  let S0 := t.rim f (t.composition 2 x)
  let S := t.rim f (t.composition 2 x ++ t.composition 2 y)
  if S0.length ≠ 2 then .assertion
  else if S.length ≠ 4 then .assertion
  else
    match t.closeLoop 2 S d (S.headD 0) with
    | .ok (S2, e1, e2, er) =>
      match t.closeLoop 0 S2 d' er with
      | .ok (_, e3, e4, _) =>
        match t.simplex 1 [d, e1, e2] with
        | none => .fails
        | some (t1, x') =>
          match t1.simplex 1 [d', e3, e4] with
          | none => .fails
          | some (t2, y') => .ok (t2, x', y')
      | .throws => .throws
      | .assertion => .assertion
      | .undefined => .undefined
      | .fails => .fails
    | .throws => .throws
    | .assertion => .assertion
    | .undefined => .undefined
    | .fails => .fails

/-- `flip_diagonal`, lib/mito/topology/FlipDiagonal.icc:78-146 -/
def Topo.flipDiagonal (t : Topo) (x y : Id) : Outcome (Topo × Id × Id) :=
  match t.findShared (t.composition 2 x) (t.composition 2 y) with
  | none => .throws
  | some f =>
    match t.oppositeVertices x y f with
    | [v0, v1] =>
      match t.segment v0 v1 with
      | none => .fails
      | some (t1, d) =>
        match t1.segment v1 v0 with
        | none => .fails
        | some (t2, d') => t2.flipWith x y f d d'
    | _ => .assertion

end Mito.Topology
