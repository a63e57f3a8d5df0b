import Verif.Model.Files
/-!
# Several processes that save the same file

`Model/Files.lean` assumes that nobody else changes the file meanwhile. Here several processes run `to_file` on the same path at the
same time. Each has opened the file on its own and writes at its own position, as POSIX `open(…, O_TRUNC)` and `write` do; opening
truncates the file for all of them. The order of the steps of different processes is arbitrary.

Simplifications: all processes name the file by the same path, the file is not removed or replaced meanwhile, no step is lost, a step
of one process is not interrupted by a step of another.
-/
namespace Kiutils

/-- A step of a process that saves: `open(filepath, 'w')`, or some bytes reach the file. -/
inductive FileOp where
  | opens
  | writes (b : Bytes)

/-- The file, and the position of each process in it. -/
structure Shared where
  content : Bytes
  position : Nat → Nat

/-- Bytes written at a position: what was there is overwritten, what is before and behind stays; a hole is filled with zeros. -/
def overwrite (content : Bytes) (position : Nat) (b : Bytes) : Bytes :=
  (content ++ List.replicate (position - content.length) 0).take position ++ b ++ content.drop (position + b.length)

/-- A step of the process `i`. -/
def Shared.step (s : Shared) (i : Nat) : FileOp → Shared
  | .opens => { content := [], position := fun j => if j = i then 0 else s.position j }
  | .writes b =>
    { content := overwrite s.content (s.position i) b
      position := fun j => if j = i then s.position i + b.length else s.position j }

/-- The steps of `to_file` (libraries.py 179–197, dru.py 275–293, wks.py 925–941, symbol.py 555–573, schematic.py 212–230,
footprint.py 989–1007, board.py 223–241; `Attempt` of `Model/Files.lean`) as seen by the file that is written. -/
def Attempt.ops (a : Attempt) : List FileOp :=
  a.steps.map fun
    | .truncate _ => .opens
    | .append _ b => .writes b

/-- The file after steps of several processes, in this order; `old` is its content before. -/
def sharedRun (old : Bytes) (l : List (Nat × FileOp)) : Shared :=
  l.foldl (fun s x => s.step x.1 x.2) { content := old, position := fun _ => 0 }

end Kiutils
