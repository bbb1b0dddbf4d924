import Verif.Topology.Programs

/-! # Two topologies that differ in their addresses only -/

namespace Mito.Topology

/-- `φ` and `ω` rename the unoriented and the oriented simplices of `t` to those of `t'`: the
simplices alive are the renamed ones, different ones have different names, and the subsimplices,
the footprints, the orientations and the numbers of handles are the same. -/
structure Iso (φ ω : Nat → Id → Id) (t t' : Topo) : Prop where
  fps : ∀ N, (t'.lvl N).fps = (t.lvl N).fps.image (φ N)
  ors : ∀ N, (t'.lvl N).ors = (t.lvl N).ors.image (ω N)
  injF : ∀ N, Set.InjOn (φ N) (t.lvl N).fps
  injO : ∀ N, Set.InjOn (ω N) (t.lvl N).ors
  comp : ∀ N, ∀ f ∈ (t.lvl (N + 1)).fps,
    t'.compF (N + 1) (φ (N + 1) f) = (t.compF (N + 1) f).map (ω N)
  fp : ∀ N, ∀ o ∈ (t.lvl N).ors, t'.fp N (ω N o) = φ N (t.fp N o)
  sg : ∀ N, ∀ o ∈ (t.lvl N).ors, t'.sg N (ω N o) = t.sg N o
  ext : ∀ N, ∀ o ∈ (t.lvl N).ors, t'.ext N (ω N o) = t.ext N o
  extF : ∀ N, ∀ f ∈ (t.lvl N).fps, t'.extF N (φ N f) = t.extF N f

/-- a renamed handle -/
def Val.rename (φ ω : Nat → Id → Id) : Val → Val
  | .fp N f => .fp N (φ N f)
  | .or N o => .or N (ω N o)

/-- renamed variables -/
def rename (φ ω : Nat → Id → Id) (env : Env) : Env := env.map (Option.map (Val.rename φ ω))

/-- two machines that differ in their addresses only -/
def SameUpToAddresses (σ σ' : Machine) : Prop :=
  ∃ φ ω, Iso φ ω σ.topo σ'.topo ∧ σ'.env = rename φ ω σ.env

/-- at the start of a program -/
def start (supply : List Id) : Machine := ⟨.init supply, []⟩

/-- a machine that a program can reach -/
def MReachable (σ : Machine) : Prop := ∃ supply p n, Prog.run p (start supply) = some (σ, n)

end Mito.Topology
