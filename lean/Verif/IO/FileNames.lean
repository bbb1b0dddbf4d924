/-!
# The files that writers create

The names of the files, lib/mito/io/vtk/GridVTKWriter.h:32-50, lib/mito/io/vtk/ParallelGridVTKWriter.h:34-75, lib/mito/io/summit/MeshSummitWriter.h:64-72.
Strings are lists of characters.  The pieces that `vtkXMLPUnstructuredGridWriter` writes by itself have the names of the files of the tasks and are
left out.
-/

namespace Mito.FileNames

/-- the kinds of writers -/
inductive Kind where
  /-- `GridVTKWriter` -/
  | serial
  /-- `ParallelGridVTKWriter` -/
  | parallel
  /-- `MeshSummitWriter` -/
  | summit
  deriving DecidableEq

/-- a writer with its `_filename`, lib/mito/io/Writer.h:16-24 -/
structure Writer where
  kind : Kind
  name : List Char
  deriving DecidableEq

/-- `_filename + "_" + std::to_string(task_id)` -/
def numbered (name : List Char) (task : Nat) : List Char := name ++ '_' :: Nat.toDigits 10 task

/-- the file with the data that a task writes -/
def Writer.dataFile (w : Writer) (task : Nat) : List Char :=
  match w.kind with
  | .serial => w.name ++ ['.', 'v', 't', 'u']
  | .parallel => numbered w.name task ++ ['.', 'v', 't', 'u']
  | .summit => w.name ++ ['.', 's', 'u', 'm', 'm', 'i', 't']

/-- the file that lists the pieces, lib/mito/io/vtk/ParallelGridVTKWriter.h:58-68; all the tasks name it -/
def Writer.summaryFile (w : Writer) : Option (List Char) :=
  match w.kind with
  | .parallel => some (w.name ++ ['.', 'p', 'v', 't', 'u'])
  | _ => none

end Mito.FileNames
