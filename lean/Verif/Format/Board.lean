import Verif.Model.Board
import Verif.Format.Footprint
import Verif.Format.BrdItems
import Verif.Format.Dimensions
/-!
# Boards: values and well-formedness
-/
namespace Kiutils

def TraceItem.toVal : TraceItem → Val
  | .segment o => o.toVal
  | .arc o => o.toVal
  | .via o => o.toVal

def TraceItem.WF [TextRule] : TraceItem → Prop
  | .segment o => o.WF
  | .arc o => o.WF
  | .via o => o.WF

/-- What is left of a board after reading it back: `useAuxOrigin` of the plot settings is off, and paths of files are not part of the text. -/
def Board.asRead (o : Board) : Board :=
  { o with setup := o.setup.asRead, footprints := o.footprints.map fun f => { f with filePath := none }, filePath := none }

def Board.toVal (o : Board) : Val :=
  .list ([.str k!"kicad_pcb", .list [.str k!"version", o.version.canon], .list [.str k!"generator", o.generator.canon], o.general.toVal, o.paper.toVal] ++
    (optL o.titleBlock fun v => [v.toVal]) ++
    [.list (.str k!"layers" :: o.layers.map LayerToken.toVal), o.setup.toVal] ++
    (o.properties.map fun p => .list [.str k!"property", p.1.canon, p.2.canon]) ++ o.nets.map Net.toVal ++
    o.footprints.map Footprint.toVal ++ o.graphicItems.map GrItem.toVal ++ o.dimensions.map Dimension.toVal ++
    o.targets.map Target.toVal ++ o.traceItems.map TraceItem.toVal ++ o.zones.map Zone.toVal ++
    o.groups.map Group.toVal)

structure Board.WF [TextRule] (o : Board) : Prop where
  version : AtomOk o.version
  generator : AtomOk o.generator
  general : o.general.WF
  paper : o.paper.WF
  titleBlock : ∀ v, o.titleBlock = some v → v.WF
  layers : ∀ v ∈ o.layers, v.WF
  setup : o.setup.WF
  propertyNames : ∀ p ∈ o.properties, TextOk p.1
  properties : ∀ p ∈ o.properties, TextOk p.2
  /-- it is a dict: no two keys are equal -/
  distinct : o.properties.Pairwise fun a b => a.1.keyEq b.1 = false
  nets : ∀ v ∈ o.nets, v.WF
  footprints : ∀ v ∈ o.footprints, v.WF
  graphicItems : ∀ v ∈ o.graphicItems, v.WF
  dimensions : ∀ v ∈ o.dimensions, v.WF
  targets : ∀ v ∈ o.targets, v.WF
  traceItems : ∀ v ∈ o.traceItems, v.WF
  zones : ∀ v ∈ o.zones, v.WF
  groups : ∀ v ∈ o.groups, v.WF

end Kiutils
