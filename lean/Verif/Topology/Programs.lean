import Verif.Spec.Topology
import Verif.Topology.Edges

/-!
# Programs that use a topology

What a user writes (see the tests in tests/mito.lib/topology): a sequence of calls on one `Topology`,
the results kept in variables, the variables passed to further calls, and questions about them whose
answers may decide how the program goes on.

Simplifications.  The variables are numbered in the order in which they are made.  A variable
is a handle on an oriented simplex or on an unoriented one, or null once it was dropped or reset by
`erase`.  What the user can see of the addresses (`id()` of a simplex) is left out on purpose: these
are the programs that do not look at them.
-/

namespace Mito.Topology

/-- a handle: `unoriented_simplex_t<N>` or `simplex_t<N>`,
lib/mito/topology/forward1.h:44-48 -/
inductive Val where
  | fp (N : Nat) (f : Id)
  | or (N : Nat) (o : Id)
  deriving DecidableEq, Repr

/-- the variables of the program; `none` is a null handle
(lib/mito/utilities/SharedPointer.icc:57-65) -/
abbrev Env := List (Option Val)

/-- the topology and the variables -/
structure Machine where
  topo : Topo
  env : Env

/-- the value of a variable -/
def look (env : Env) (v : Nat) : Option Val := (env[v]?).join

/-- a variable with a vertex -/
def lookV (env : Env) (v : Nat) : Option Id :=
  match look env v with
  | some (.fp 0 f) => some f
  | _ => none

/-- a variable with an oriented simplex -/
def lookO (env : Env) (v : Nat) : Option (Nat × Id) :=
  match look env v with
  | some (.or N o) => some (N, o)
  | _ => none

/-- variables with oriented simplices of one order -/
def lookC (env : Env) (vs : List Nat) : Option (Nat × List Id) :=
  match vs.mapM (lookO env) with
  | some (p :: l) => if ∀ q ∈ l, q.1 = p.1 then some (p.1, (p :: l).map Prod.snd) else none
  | _ => none

/-- a call of the user (lib/mito/topology/Topology.h:30-115, lib/mito/utilities/SharedPointer.icc:35-199) -/
inductive Cmd where
  /-- `auto x = topology.vertex()` -/
  | vertex
  /-- `auto x = topology.simplex(v, s)` -/
  | oriented (v : Nat) (s : Int)
  /-- `auto x = topology.simplex<N>({ … })`, a composition -/
  | simplex (vs : List Nat)
  | segment (a b : Nat)
  | triangle (a b c : Nat)
  | tetrahedron (a b c d : Nat)
  /-- `auto x = topology.flip(v)` -/
  | flip (v : Nat)
  /-- `auto x = v` -/
  | copy (v : Nat)
  /-- `auto x = v->footprint()` -/
  | footprint (v : Nat)
  /-- `auto x = v->composition()[i]` -/
  | sub (v i : Nat)
  /-- `v.reset()`, or the end of the life of `v` -/
  | drop (v : Nat)
  /-- `topology.erase(v)` -/
  | erase (v : Nat)
  deriving DecidableEq, Repr

/-- the operation on the topology that a call stands for -/
def Cmd.op (t : Topo) (env : Env) : Cmd → Option Op
  | .vertex => some .vertex
  | .oriented v s =>
    match look env v with
    | some (.fp N f) => some (.oriented N f s)
    | _ => none
  | .simplex vs =>
    match lookC env vs with
    | some (N, c) => some (.simplex N c)
    | none => none
  | .segment a b =>
    match lookV env a, lookV env b with
    | some a, some b => some (.segment a b)
    | _, _ => none
  | .triangle a b c =>
    match lookV env a, lookV env b, lookV env c with
    | some a, some b, some c => some (.triangle a b c)
    | _, _, _ => none
  | .tetrahedron a b c d =>
    match lookV env a, lookV env b, lookV env c, lookV env d with
    | some a, some b, some c, some d => some (.tetrahedron a b c d)
    | _, _, _, _ => none
  | .flip v =>
    match lookO env v with
    | some (N, o) => some (.flip N o)
    | none => none
  | .copy v =>
    match look env v with
    | some (.fp N f) => some (.holdF N f)
    | some (.or N o) => some (.hold N o)
    | none => none
  | .footprint v =>
    match lookO env v with
    | some (N, o) => some (.holdF N (t.fp N o))
    | none => none
  | .sub v i =>
    match lookO env v with
    | some (N + 1, o) =>
      match (t.composition (N + 1) o)[i]? with
      | some x => some (.hold N x)
      | none => none
    | _ => none
  | .drop v =>
    match look env v with
    | some (.fp N f) => some (.dropF N f)
    | some (.or N o) => some (.drop N o)
    | none => none
  | .erase v =>
    match lookO env v with
    | some (N, o) => some (.erase N o)
    | none => none

/-- what the call returns -/
def result (t : Topo) : Op → Option Val
  | .vertex => t.vertex.map fun r => .fp 0 r.2
  | .hold N o => some (.or N o)
  | .holdF N f => some (.fp N f)
  | op => (returned t op).map fun p => .or p.1 p.2

/-- the variables after the call, without its result: a dropped one is null, and so is one that was
passed to `erase` if the simplex was erased (lib/mito/topology/OrientedSimplexFactory.h:194-222) -/
def Cmd.left (t : Topo) (env : Env) : Cmd → Env
  | .drop v => env.set v none
  | .erase v =>
    match lookO env v with
    | some (N, o) => if (Topo.erase N t o).2 then env.set v none else env
    | none => env
  | _ => env

/-- `erase` of a null handle, lib/mito/topology/Topology.icc:236-248 -/
def Cmd.idle (env : Env) : Cmd → Bool
  | .erase v => env[v]? == some none
  | _ => false

/-- One call.  `none`: the arguments are not what the call wants, or as in `step`. -/
def exec (σ : Machine) (c : Cmd) : Option Machine :=
  match c.op σ.topo σ.env with
  | none => if c.idle σ.env then some σ else none
  | some op =>
    match step σ.topo op with
    | none => none
    | some t => some ⟨t, c.left σ.topo σ.env ++ (result σ.topo op).toList.map some⟩

/-- The vertices of an oriented simplex in their order, `vertices()` with its assertions:
lib/mito/topology/OrientedSimplex.h:134-155, Simplex.h:92-131.  `none`: an assertion fails, or the
composition is too short. -/
def Topo.arrangement (t : Topo) : (N : Nat) → Id → Option (List Id)
  | 0, o => some [t.fp 0 o]
  | 1, o => t.verticesOf 1 o
  | N + 2, o =>
    match t.compF (N + 2) (t.fp (N + 2) o) with
    | x :: y :: _ =>
      match t.arrangement (N + 1) x with
      | none => none
      | some l =>
        let l' := l ++ (t.vertexSet (N + 1) (t.fp (N + 1) y)).filter (· ∉ l)
        if l'.length = N + 3 then some (if t.sg (N + 2) o = -1 then swap01 l' else l') else none
    | _ => none

/-- a question of the user -/
inductive Query where
  /-- `v.is_nullptr()`, lib/mito/utilities/SharedPointer.icc:57-65 -/
  | isNull (v : Nat)
  /-- `v == w`: are they handles on the same simplex -/
  | same (v w : Nat)
  /-- `topology.n_simplices<N>()` -/
  | count (N : Nat)
  /-- `v.references()` -/
  | references (v : Nat)
  /-- `v->orientation()` -/
  | orientation (v : Nat)
  /-- `topology.exists_flipped(v)` -/
  | existsFlipped (v : Nat)
  /-- `topology.exists({ a, b })`, vertices -/
  | existsSegment (a b : Nat)
  /-- `topology.exists({ … })`, a composition -/
  | existsComp (vs : List Nat)
  /-- `v->sanityCheck()` -/
  | sanityCheck (v : Nat)
  /-- `tail(v) == w` -/
  | tail (v w : Nat)
  /-- `head(v) == w` -/
  | head (v w : Nat)
  /-- `v->composition()[i] == w` -/
  | sub (v i w : Nat)
  /-- `v->footprint() == w` -/
  | footprint (v w : Nat)
  /-- `v->vertices().contains(w)`, and the number of them if `w` is not a vertex:
  lib/mito/topology/Simplex.h:62-88 -/
  | vertices (v w : Nat)
  /-- `permutation_sign(v->vertices(), { … })`, lib/mito/math/combinatorics.h:65-79 -/
  | arranged (v : Nat) (vs : List Nat)
  /-- does `v->edges(edges)` insert `w`, and how many edges does it insert if `w` is not an oriented segment:
  lib/mito/topology/OrientedSimplex.h:157-162 -/
  | edges (v w : Nat)
  deriving DecidableEq, Repr

/-- a truth value as a number -/
def ofBool (b : Bool) : Int := if b then 1 else 0

/-- The answer.  `none`: the arguments are not what the question wants, or an assertion fails. -/
def ask (σ : Machine) : Query → Option Int
  | .isNull v => some (ofBool (look σ.env v).isNone)
  | .same v w =>
    match look σ.env v, look σ.env w with
    | some x, some y => some (ofBool (x == y))
    | _, _ => none
  | .count N => some (σ.topo.nSimplices N)
  | .references v =>
    match look σ.env v with
    | some (.fp N f) => some (σ.topo.refsF N f)
    | some (.or N o) => some (σ.topo.refs N o)
    | none => none
  | .orientation v => (lookO σ.env v).map fun p => σ.topo.sg p.1 p.2
  | .existsFlipped v => (lookO σ.env v).map fun p => ofBool (σ.topo.existsFlipped p.1 p.2)
  | .existsSegment a b =>
    match lookV σ.env a, lookV σ.env b with
    | some a, some b => (σ.topo.existsSegment a b).map ofBool
    | _, _ => none
  | .existsComp vs =>
    match lookC σ.env vs with
    | some (N, c) => (σ.topo.existsComp N c).map ofBool
    | none => none
  | .sanityCheck v => (lookO σ.env v).map fun p => ofBool (σ.topo.sanityCheck p.1 p.2)
  | .tail v w =>
    match lookO σ.env v, lookV σ.env w with
    | some (1, o), some x => (σ.topo.tail o).map fun y => ofBool (y == x)
    | _, _ => none
  | .head v w =>
    match lookO σ.env v, lookV σ.env w with
    | some (1, o), some x => (σ.topo.head o).map fun y => ofBool (y == x)
    | _, _ => none
  | .sub v i w =>
    match lookO σ.env v, lookO σ.env w with
    | some (N + 1, o), some (M, x) =>
      ((σ.topo.composition (N + 1) o)[i]?).map fun y => ofBool (N == M && y == x)
    | _, _ => none
  | .footprint v w =>
    match lookO σ.env v, look σ.env w with
    | some (N, o), some (.fp M f) => some (ofBool (N == M && σ.topo.fp N o == f))
    | _, _ => none
  | .vertices v w =>
    match lookO σ.env v with
    | some (N, o) =>
      match lookV σ.env w with
      | some x => some (ofBool ((σ.topo.vertexSet N (σ.topo.fp N o)).contains x))
      | none => some (σ.topo.vertexSet N (σ.topo.fp N o)).length
    | none => none
  | .arranged v vs =>
    match lookO σ.env v, vs.mapM (lookV σ.env) with
    | some (N, o), some l =>
      match σ.topo.arrangement N o with
      | some m => Combinatorics.permutationSign m l
      | none => none
    | _, _ => none
  | .edges v w =>
    match lookO σ.env v with
    | some (N, o) =>
      match lookO σ.env w with
      | some (1, x) => some (ofBool ((σ.topo.edges N o).contains x))
      | _ => some (σ.topo.edges N o).dedup.length
    | none => none

/-- A program: it makes calls, asks, goes on depending on the answer, and ends with a number. -/
inductive Prog where
  | done (n : Int)
  | call (c : Cmd) (p : Prog)
  | ask (q : Query) (k : Option Int → Prog)

/-- The end of a program: the state and the number; `none`: a call failed. -/
def Prog.run : Prog → Machine → Option (Machine × Int)
  | .done n, σ => some (σ, n)
  | .call c p, σ =>
    match exec σ c with
    | none => none
    | some σ' => p.run σ'
  | .ask q k, σ => (k (Topology.ask σ q)).run σ

/-- the number of calls that a program makes -/
def Prog.calls : Prog → Machine → Nat
  | .done _, _ => 0
  | .call c p, σ =>
    match exec σ c with
    | none => 1
    | some σ' => p.calls σ' + 1
  | .ask q k, σ => (k (Topology.ask σ q)).calls σ

/-- a test: calls, and questions with the answer that is expected -/
inductive Item where
  | call (c : Cmd)
  | expect (q : Query) (a : Int)

/-- A test as a program: it ends with 0 if every answer is the one expected, and with 1 at the first
that is not (`EXPECT_EQ`, `EXPECT_TRUE`). -/
def test : List Item → Prog
  | [] => .done 0
  | .call c :: l => .call c (test l)
  | .expect q a :: l => .ask q fun b => if b = some a then test l else .done 1

end Mito.Topology
