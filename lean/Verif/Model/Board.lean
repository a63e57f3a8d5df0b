import Verif.Model.Footprint
import Verif.Model.BrdItems
import Verif.Model.Dimensions
/-!
# `src/kiutils/board.py`
-/
namespace Kiutils

/-- The trace items of a board (board.py 77) -/
inductive TraceItem where
  | segment (x : Segment)
  | arc (x : TraceArc)
  | via (x : Via)

instance : Canon TraceItem := ⟨fun
  | .segment x => .segment (canon x)
  | .arc x => .arc (canon x)
  | .via x => .via (canon x)⟩

/-- `item.to_sexpr(indent)` of a trace item (board.py 311) -/
def TraceItem.toSexpr (o : TraceItem) (indent : Nat) : Str :=
  match o with
  | .segment x => x.toSexpr indent
  | .arc x => x.toSexpr indent
  | .via x => x.toSexpr indent

/-- board.py 32–94 -/
structure Board where
  version : Val := st k!""
  generator : Val := st k!""
  general : GeneralSettings := {}
  paper : PageSettings := {}
  titleBlock : Option TitleBlock := none
  layers : List LayerToken := []
  setup : SetupData := {}
  properties : Dict Val := []
  nets : List Net := []
  footprints : List Footprint := []
  graphicItems : List GrItem := []
  traceItems : List TraceItem := []
  zones : List Zone := []
  dimensions : List Dimension := []
  targets : List Target := []
  groups : List Group := []
  filePath : Option Str := none
derive_canon Board

/-- Loop body, board.py 117–145 -/
def Board.step (tedit : Val) (o : Board) (item : Val) : PyM Board := do
  let k ← item.idx 0
  if k.is k!"version" then return { o with version := ← item.idx 1 }
  else if k.is k!"generator" then return { o with generator := ← item.idx 1 }
  else if k.is k!"general" then return { o with general := ← GeneralSettings.fromSexpr item }
  else if k.is k!"paper" then return { o with paper := ← PageSettings.fromSexpr item }
  else if k.is k!"title_block" then return { o with titleBlock := some (← TitleBlock.fromSexpr item) }
  else if k.is k!"layers" then return { o with layers := o.layers ++ (← mapM' LayerToken.fromSexpr (← item.slice 1)) }
  else if k.is k!"setup" then return { o with setup := ← SetupData.fromSexpr item }
  else if k.is k!"property" then
    let k ← item.idx 1
    let v ← item.idx 2
    return { o with properties := ← o.properties.update k v }
  else if k.is k!"net" then return { o with nets := o.nets ++ [← Net.fromSexpr item] }
  else if k.is k!"footprint" then return { o with footprints := o.footprints ++ [← Footprint.fromSexpr tedit item] }
  else if k.is k!"gr_text" then return { o with graphicItems := o.graphicItems ++ [.text (← GrText.fromSexpr item)] }
  else if k.is k!"gr_text_box" then return { o with graphicItems := o.graphicItems ++ [.textBox (← GrTextBox.fromSexpr item)] }
  else if k.is k!"gr_line" then return { o with graphicItems := o.graphicItems ++ [.line (← GrLine.fromSexpr item)] }
  else if k.is k!"gr_rect" then return { o with graphicItems := o.graphicItems ++ [.rect (← GrRect.fromSexpr item)] }
  else if k.is k!"gr_circle" then return { o with graphicItems := o.graphicItems ++ [.circle (← GrCircle.fromSexpr item)] }
  else if k.is k!"gr_arc" then return { o with graphicItems := o.graphicItems ++ [.arc (← GrArc.fromSexpr item)] }
  else if k.is k!"gr_poly" then return { o with graphicItems := o.graphicItems ++ [.poly (← GrPoly.fromSexpr item)] }
  else if k.is k!"gr_curve" then return { o with graphicItems := o.graphicItems ++ [.curve (← GrCurve.fromSexpr item)] }
  else if k.is k!"image" then return { o with graphicItems := o.graphicItems ++ [.image (← Image.fromSexpr item)] }
  else if k.is k!"dimension" then return { o with dimensions := o.dimensions ++ [← Dimension.fromSexpr item] }
  else if k.is k!"target" then return { o with targets := o.targets ++ [← Target.fromSexpr item] }
  else if k.is k!"segment" then return { o with traceItems := o.traceItems ++ [.segment (← Segment.fromSexpr item)] }
  else if k.is k!"arc" then return { o with traceItems := o.traceItems ++ [.arc (← TraceArc.fromSexpr item)] }
  else if k.is k!"via" then return { o with traceItems := o.traceItems ++ [.via (← Via.fromSexpr item)] }
  else if k.is k!"zone" then return { o with zones := o.zones ++ [← Zone.fromSexpr item] }
  else if k.is k!"group" then return { o with groups := o.groups ++ [← Group.fromSexpr item] }
  else return o

/-- board.py 96–147. `tedit` is the default of that attribute of a footprint. -/
def Board.fromSexpr (tedit : Val) (exp : Val) : PyM Board := do
  forM (Board.step tedit) {} (← checkHead k!"kicad_pcb" exp)

/-- board.py 243–323. Properties are written with a fixed indentation. -/
def Board.toSexpr (o : Board) (indent : Nat := 0) (newline : Bool := true) : PyM Str := do
  let paper ← o.paper.toSexpr (indent + 2)
  let setup ← o.setup.toSexpr (indent + 2)
  let footprints ← forSM o.footprints fun f => do return py!"{← f.toSexpr (indent + 2) true true}\n"
  let graphicItems ← forSM o.graphicItems fun i => i.toSexpr (indent + 2) true true
  let dimensions ← forSM o.dimensions fun i => i.toSexpr (indent + 2)
  let addNewLine := !o.graphicItems.isEmpty || !o.dimensions.isEmpty || !o.targets.isEmpty
  let zones ← forSM o.zones fun i => i.toSexpr (indent + 2)
  return py!"{indents indent}(kicad_pcb (version {o.version.pyStr}) (generator {o.generator.pyStr})\n\n" ++
    py!"{o.general.toSexpr (indent + 2)}\n" ++ paper ++
    (optS o.titleBlock fun t => py!"{t.toSexpr (indent + 2)}\n") ++
    py!"{indents indent}  (layers\n" ++
    (forS o.layers fun l => l.toSexpr (indent + 4)) ++
    py!"{indents indent}  )\n\n" ++
    py!"{setup}\n" ++
    ifS (!o.properties.isEmpty) ((forS o.properties fun p => py!"  (property \"{dq p.1}\" \"{dq p.2}\")\n") ++ py!"\n") ++
    ifS (!o.nets.isEmpty) ((forS o.nets fun n => n.toSexpr (indent + 2) true) ++ py!"\n") ++
    footprints ++ graphicItems ++ dimensions ++
    (forS o.targets fun t => t.toSexpr (indent + 2)) ++
    ifS addNewLine py!"\n" ++
    ifS (!o.traceItems.isEmpty) ((forS o.traceItems fun t => t.toSexpr (indent + 2)) ++ py!"\n") ++
    zones ++
    (forS o.groups fun g => g.toSexpr (indent + 2)) ++
    py!"{indents indent}){endl newline}"

/-- The layers of a new board, board.py 186–216 -/
def standardLayers : List LayerToken :=
  [{ ordinal := .int 0, name := st k!"F.Cu", type := st k!"signal" },
   { ordinal := .int 31, name := st k!"B.Cu", type := st k!"signal" },
   { ordinal := .int 32, name := st k!"B.Adhes", type := st k!"user", userName := some (st k!"B.Adhesive") },
   { ordinal := .int 33, name := st k!"F.Adhes", type := st k!"user", userName := some (st k!"F.Adhesive") },
   { ordinal := .int 34, name := st k!"B.Paste", type := st k!"user" },
   { ordinal := .int 35, name := st k!"F.Paste", type := st k!"user" },
   { ordinal := .int 36, name := st k!"B.SilkS", type := st k!"user", userName := some (st k!"B.Silkscreen") },
   { ordinal := .int 37, name := st k!"F.SilkS", type := st k!"user", userName := some (st k!"F.Silkscreen") },
   { ordinal := .int 38, name := st k!"B.Mask", type := st k!"user" },
   { ordinal := .int 39, name := st k!"F.Mask", type := st k!"user" },
   { ordinal := .int 40, name := st k!"Dwgs.User", type := st k!"user", userName := some (st k!"User.Drawings") },
   { ordinal := .int 41, name := st k!"Cmts.User", type := st k!"user", userName := some (st k!"User.Comments") },
   { ordinal := .int 42, name := st k!"Eco1.User", type := st k!"user", userName := some (st k!"User.Eco1") },
   { ordinal := .int 43, name := st k!"Eco2.User", type := st k!"user", userName := some (st k!"User.Eco2") },
   { ordinal := .int 44, name := st k!"Edge.Cuts", type := st k!"user" },
   { ordinal := .int 45, name := st k!"Margin", type := st k!"user" },
   { ordinal := .int 46, name := st k!"B.CrtYd", type := st k!"user", userName := some (st k!"B.Courtyard") },
   { ordinal := .int 47, name := st k!"F.CrtYd", type := st k!"user", userName := some (st k!"F.Courtyard") },
   { ordinal := .int 48, name := st k!"B.Fab", type := st k!"user" },
   { ordinal := .int 49, name := st k!"F.Fab", type := st k!"user" },
   { ordinal := .int 50, name := st k!"User.1", type := st k!"user" },
   { ordinal := .int 51, name := st k!"User.2", type := st k!"user" },
   { ordinal := .int 52, name := st k!"User.3", type := st k!"user" },
   { ordinal := .int 53, name := st k!"User.4", type := st k!"user" },
   { ordinal := .int 54, name := st k!"User.5", type := st k!"user" },
   { ordinal := .int 55, name := st k!"User.6", type := st k!"user" },
   { ordinal := .int 56, name := st k!"User.7", type := st k!"user" },
   { ordinal := .int 57, name := st k!"User.8", type := st k!"user" },
   { ordinal := .int 58, name := st k!"User.9", type := st k!"user" }]

/-- board.py 173–221 -/
def Board.createNew : Board :=
  { version := createNewVersion, generator := createNewGenerator, layers := standardLayers, nets := [{}] }

end Kiutils
