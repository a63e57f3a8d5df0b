import Verif.Format.Board
/-!
# Round holes with an offset

`DrillDefinition.WF` (and with it `Pad.WF`, `Footprint.WF`, `Board.WF`) leaves out round holes with an offset, because the loader also
stores the offset as the width (footprint.py 269). Here are the same conditions with these holes allowed.
-/
namespace Kiutils

/-- A hole as KiCad writes it: an oval one with two sizes or a round one with one size, both with or without an offset. -/
structure DrillDefinition.Hole [TextRule] (o : DrillDefinition) : Prop where
  diameter : NumOk o.diameter
  oval : o.oval = true → ∃ w, o.width = some w ∧ NumOk w
  round : o.oval = false → o.width = none
  offset : ∀ v, o.offset = some v → v.WFXY

/-- A pad with such a hole. -/
structure Pad.Holed [TextRule] (o : Pad) : Prop where
  rest : ({ o with drill := none } : Pad).WF
  drill : ∀ d, o.drill = some d → d.Hole

/-- A footprint with such pads. -/
structure Footprint.Holed [TextRule] (o : Footprint) : Prop where
  rest : ({ o with pads := [] } : Footprint).WF
  pads : ∀ p ∈ o.pads, p.Holed

/-- A board with such footprints. -/
structure Board.Holed [TextRule] (o : Board) : Prop where
  rest : ({ o with footprints := [] } : Board).WF
  footprints : ∀ f ∈ o.footprints, f.Holed

/-- The hole after loading: the offset of a round hole, as it stands in the file, is its width as well. -/
def DrillDefinition.loaded (o : DrillDefinition) : DrillDefinition :=
  { o with width := if o.oval then o.width else o.offset.map fun p => .list [.str k!"offset", p.X.canon, p.Y.canon] }

def Pad.loaded (o : Pad) : Pad := { o with drill := o.drill.map DrillDefinition.loaded }

def Footprint.loaded (o : Footprint) : Footprint := { o with pads := o.pads.map Pad.loaded, filePath := none }

def Board.loaded (o : Board) : Board :=
  { o with setup := o.setup.asRead, footprints := o.footprints.map Footprint.loaded, filePath := none }

end Kiutils
