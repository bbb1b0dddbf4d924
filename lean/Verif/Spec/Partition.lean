import Verif.Mesh.Partition

/-! # Specification vocabulary for partitions (C29) -/

namespace Mito.Meshes

/-- the elements with color `rank` -/
def colored {β : Type} (painting : List Int) (rank : Int) (cells : List β) : List β :=
  ((cells.zip painting).filter fun x => x.2 = rank).map (·.1)

end Mito.Meshes
