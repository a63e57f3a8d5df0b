import Verif.Model.FpItems
import Verif.Model.Zones
import Verif.Model.LibId
import Verif.Model.Symbol
/-!
# `src/kiutils/footprint.py`
-/
namespace Kiutils

/-- footprint.py 33–60 -/
structure Attributes where
  type : Option Val := none
  boardOnly : Bool := false
  excludeFromPosFiles : Bool := false
  excludeFromBom : Bool := false
  allowMissingCourtyard : Bool := false
derive_canon Attributes

/-- Loop body, footprint.py 90–94 -/
def Attributes.step (o : Attributes) (item : Val) : PyM Attributes :=
  if item.is k!"board_only" then return { o with boardOnly := true }
  else if item.is k!"exclude_from_pos_files" then return { o with excludeFromPosFiles := true }
  else if item.is k!"exclude_from_bom" then return { o with excludeFromBom := true }
  else if item.is k!"allow_missing_courtyard" then return { o with allowMissingCourtyard := true }
  else return o

/-- footprint.py 63–95 -/
def Attributes.fromSexpr (exp : Val) : PyM Attributes := do
  let l ← checkHead k!"attr" exp
  let type := match l with
    | _ :: x :: _ => if x.is k!"through_hole" || x.is k!"smd" then some x else none
    | _ => none
  forM Attributes.step { type := type } l

/-- The condition of footprint.py 115–119: nothing to write. -/
def Attributes.isDefault (o : Attributes) : Bool :=
  o.type.isNone && !o.boardOnly && !o.excludeFromBom && !o.excludeFromPosFiles && !o.allowMissingCourtyard

/-- footprint.py 97–132 -/
def Attributes.toSexpr (o : Attributes) (indent : Nat := 0) (newline : Bool := false) : Str :=
  if o.isDefault then []
  else
    let type := optS o.type fun t => py!" {t.pyStr}"
    py!"{indents indent}(attr{type}" ++
    ifS o.boardOnly py!" board_only" ++
    ifS o.excludeFromPosFiles py!" exclude_from_pos_files" ++
    ifS o.excludeFromBom py!" exclude_from_bom" ++
    ifS o.allowMissingCourtyard py!" allow_missing_courtyard" ++
    py!"){endl newline}"

/-- footprint.py 134–158 -/
structure Model where
  path : Val := st k!""
  pos : Coordinate := { X := fl k!"0" k!"0", Y := fl k!"0" k!"0", Z := fl k!"0" k!"0" }
  scale : Coordinate := { X := fl k!"1" k!"0", Y := fl k!"1" k!"0", Z := fl k!"1" k!"0" }
  rotate : Coordinate := { X := fl k!"0" k!"0", Y := fl k!"0" k!"0", Z := fl k!"0" k!"0" }
  hide : Bool := false
  opacity : Option Val := none
derive_canon Model

/-- Loop body, footprint.py 186–194 -/
def Model.step (o : Model) (item : Val) : PyM Model := do
  let k ← item.idx 0
  if k.is k!"opacity" then return { o with opacity := some (← item.idx 1) }
  else if k.is k!"offset" then return { o with pos := ← Coordinate.fromSexpr (← item.idx 1) }
  else if k.is k!"scale" then return { o with scale := ← Coordinate.fromSexpr (← item.idx 1) }
  else if k.is k!"rotate" then return { o with rotate := ← Coordinate.fromSexpr (← item.idx 1) }
  else return o

/-- footprint.py 160–195 (`len(exp) < 5` is rejected before the head is looked at) -/
def Model.fromSexpr (exp : Val) : PyM Model :=
  match exp with
  | .list (h :: path :: x :: y :: z :: r) =>
    if h.is k!"model" then forM Model.step { path := path, hide := x.is k!"hide" } (x :: y :: z :: r) else .error .exception
  | _ => .error .exception

/-- footprint.py 197–218 -/
def Model.toSexpr (o : Model) (indent : Nat := 2) (newline : Bool := true) : Str :=
  let hide := ifS o.hide py!" hide"
  py!"{indents indent}(model \"{dq o.path}\"{hide}\n" ++
  (optS o.opacity fun v => py!"{indents indent}  (opacity {v.pyStr})\n") ++
  py!"{indents indent}  (offset {o.pos.toSexpr})\n" ++
  py!"{indents indent}  (scale {o.scale.toSexpr})\n" ++
  py!"{indents indent}  (rotate {o.rotate.toSexpr})\n" ++
  py!"{indents indent}){endl newline}"

/-- footprint.py 220–238 -/
structure DrillDefinition where
  oval : Bool := false
  diameter : Val := fl k!"0" k!"0"
  width : Option Val := none
  offset : Option Position := none
derive_canon DrillDefinition

/-- Loop body, footprint.py 272–274 -/
def DrillDefinition.step (o : DrillDefinition) (item : Val) : PyM DrillDefinition :=
  match item with
  | .list _ => do
    let k ← item.idx 0
    if k.is k!"offset" then return { o with offset := some (← Position.fromSexpr item) }
    else return o
  | _ => return o

/-- footprint.py 240–275. Without `oval` the second element after the head is stored as the width, whatever it is. -/
def DrillDefinition.fromSexpr (exp : Val) : PyM DrillDefinition := do
  let l ← checkHead k!"drill" exp
  let x ← getI l 1
  if x.is k!"oval" then
    let d ← getI l 2
    let w ← getI l 3
    forM DrillDefinition.step { oval := true, diameter := d, width := some w } l
  else forM DrillDefinition.step { diameter := x, width := l[2]? } l

/-- footprint.py 277–294 -/
def DrillDefinition.toSexpr (o : DrillDefinition) (indent : Nat := 0) (newline : Bool := false) : Str :=
  let oval := ifS o.oval py!" oval"
  let width := ifS o.oval (optS o.width fun w => py!" {w.pyStr}")
  let offset := optS o.offset fun p => py!" (offset {p.X.pyStr} {p.Y.pyStr})"
  py!"{indents indent}(drill{oval} {o.diameter.pyStr}{width}{offset}){endl newline}"

/-- footprint.py 296–309 -/
structure PadOptions where
  clearance : Val := st k!"outline"
  anchor : Val := st k!"rect"
derive_canon PadOptions

/-- Loop body, footprint.py 333–335 -/
def PadOptions.step (o : PadOptions) (item : Val) : PyM PadOptions := do
  let k ← item.idx 0
  if k.is k!"clearance" then return { o with clearance := ← item.idx 1 }
  else if k.is k!"anchor" then return { o with anchor := ← item.idx 1 }
  else return o

/-- footprint.py 312–336 -/
def PadOptions.fromSexpr (exp : Val) : PyM PadOptions := do
  forM PadOptions.step {} (← checkHead k!"options" exp)

/-- footprint.py 338–351 -/
def PadOptions.toSexpr (o : PadOptions) (indent : Nat := 0) (newline : Bool := false) : Str :=
  py!"{indents indent}(options (clearance {o.clearance.pyStr}) (anchor {o.anchor.pyStr})){endl newline}"

/-- footprint.py 353–478. Simplification: the list of primitives is never `None` (line 653). -/
structure Pad where
  number : Val := st k!"x"
  type : Val := st k!"smd"
  shape : Val := st k!"rect"
  position : Position := {}
  locked : Bool := false
  size : Position := {}
  drill : Option DrillDefinition := none
  layers : List Val := []
  property : Option Val := none
  removeUnusedLayers : Bool := false
  keepEndLayers : Bool := false
  roundrectRatio : Option Val := none
  chamferRatio : Option Val := none
  chamfer : List Val := []
  net : Option Net := none
  tstamp : Option Val := none
  pinFunction : Option Val := none
  pinType : Option Val := none
  dieLength : Option Val := none
  solderMaskMargin : Option Val := none
  solderPasteMargin : Option Val := none
  solderPasteMarginRatio : Option Val := none
  clearance : Option Val := none
  zoneConnect : Option Val := none
  thermalWidth : Option Val := none
  thermalGap : Option Val := none
  customPadOptions : Option PadOptions := none
  customPadPrimitives : List GrItem := []
derive_canon Pad

/-- Loop body over the primitives, footprint.py 537–548 -/
def padPrimitive (acc : List GrItem) (item : Val) : PyM (List GrItem) := do
  let k ← item.idx 0
  if k.is k!"gr_text" then return acc ++ [.text (← GrText.fromSexpr item)]
  else if k.is k!"gr_text_box" then return acc ++ [.textBox (← GrTextBox.fromSexpr item)]
  else if k.is k!"gr_line" then return acc ++ [.line (← GrLine.fromSexpr item)]
  else if k.is k!"gr_rect" then return acc ++ [.rect (← GrRect.fromSexpr item)]
  else if k.is k!"gr_circle" then return acc ++ [.circle (← GrCircle.fromSexpr item)]
  else if k.is k!"gr_arc" then return acc ++ [.arc (← GrArc.fromSexpr item)]
  else if k.is k!"gr_poly" then return acc ++ [.poly (← GrPoly.fromSexpr item)]
  else if k.is k!"gr_curve" then return acc ++ [.curve (← GrCurve.fromSexpr item)]
  else if k.is k!"dimension" then .error .notImplemented
  else return acc

/-- Loop body, footprint.py 505–548. Words other than `locked` are not skipped: `item[0]` is their first character, an empty
string or a number raises. -/
def Pad.step (o : Pad) (item : Val) : PyM Pad := do
  let o : Pad := if item.is k!"locked" then { o with locked := true } else o
  let k ← item.idx 0
  if k.is k!"at" then return { o with position := ← Position.fromSexpr item }
  else if k.is k!"size" then return { o with size := ← Position.fromSexpr item }
  else if k.is k!"drill" then return { o with drill := some (← DrillDefinition.fromSexpr item) }
  else if k.is k!"layers" then return { o with layers := o.layers ++ (← item.slice 1) }
  else if k.is k!"property" then return { o with property := some (← item.idx 1) }
  else if k.is k!"remove_unused_layers" then return { o with removeUnusedLayers := true }
  else if k.is k!"keep_end_layers" then return { o with keepEndLayers := true }
  else if k.is k!"roundrect_rratio" then return { o with roundrectRatio := some (← item.idx 1) }
  else if k.is k!"chamfer_ratio" then return { o with chamferRatio := some (← item.idx 1) }
  else if k.is k!"chamfer" then return { o with chamfer := o.chamfer ++ (← item.slice 1) }
  else if k.is k!"net" then return { o with net := some (← Net.fromSexpr item) }
  else if k.is k!"tstamp" then return { o with tstamp := some (← item.idx 1) }
  else if k.is k!"pinfunction" then return { o with pinFunction := some (← item.idx 1) }
  else if k.is k!"pintype" then return { o with pinType := some (← item.idx 1) }
  else if k.is k!"die_length" then return { o with dieLength := some (← item.idx 1) }
  else if k.is k!"solder_mask_margin" then return { o with solderMaskMargin := some (← item.idx 1) }
  else if k.is k!"solder_paste_margin" then return { o with solderPasteMargin := some (← item.idx 1) }
  else if k.is k!"solder_paste_margin_ratio" then return { o with solderPasteMarginRatio := some (← item.idx 1) }
  else if k.is k!"clearance" then return { o with clearance := some (← item.idx 1) }
  else if k.is k!"zone_connect" then return { o with zoneConnect := some (← item.idx 1) }
  else if k.is k!"thermal_width" then return { o with thermalWidth := some (← item.idx 1) }
  else if k.is k!"thermal_gap" then return { o with thermalGap := some (← item.idx 1) }
  else if k.is k!"options" then return { o with customPadOptions := some (← PadOptions.fromSexpr item) }
  else if k.is k!"primitives" then return { o with customPadPrimitives := ← forM padPrimitive o.customPadPrimitives (← item.slice 1) }
  else return o

/-- footprint.py 480–549. The loop also sees the shape (`exp[3:]`). -/
def Pad.fromSexpr (exp : Val) : PyM Pad := do
  let l ← checkHead k!"pad" exp
  let a1 ← getI l 1
  let a2 ← getI l 2
  let a3 ← getI l 3
  forM Pad.step { number := a1, type := a2, shape := a3 } (l.drop 3)

/-- `sub in s` for strings -/
def hasSub (sub : Str) : Str → Bool
  | [] => sub.isEmpty
  | c :: r => sub.isPrefixOf (c :: r) || hasSub sub r

/-- `"*." in layer or "&" in layer` (footprint.py 570); a number is not iterable, for a list it is a test for an element. -/
def isWildcard : Val → PyM Bool
  | .str s => .ok (hasSub k!"*." s || hasSub k!"&" s)
  | .list l => .ok (l.any (·.is k!"*.") || l.any (·.is k!"&"))
  | _ => .error .typeError

/-- Loop body, footprint.py 567–573 -/
def padLayer (l : Val) : PyM Str := do
  if ← isWildcard l then return py!" {l.pyStr}" else return py!" \"{dq l}\""

/-- footprint.py 551–661 -/
def Pad.toSexpr (o : Pad) (indent : Nat := 2) (newline : Bool := true) : PyM Str := do
  let layers ← forSM o.layers padLayer
  let locked := ifS o.locked py!" locked"
  let drill := optS o.drill fun d => py!" {d.toSexpr}"
  let property := optS o.property fun t => py!" (property {t.pyStr})"
  let rul := ifS o.removeUnusedLayers py!" (remove_unused_layers)"
  let kel := ifS o.keepEndLayers py!" (keep_end_layers)"
  let roundrectRatio := optS o.roundrectRatio fun t => py!" (roundrect_rratio {t.pyStr})"
  let net := optS o.net fun n => py!" {n.toSexpr}"
  let pinFunction := optS o.pinFunction fun t => py!" (pinfunction \"{dq t}\")"
  let pinType := optS o.pinType fun t => py!" (pintype \"{dq t}\")"
  let schematicSymbolAssociated := o.net.isSome || o.pinFunction.isSome || o.pinType.isSome
  let tstamp := optS o.tstamp fun t => py!" (tstamp {t.pyStr})"
  let champferFound := !o.chamfer.isEmpty || o.chamferRatio.isSome
  let c := ifS (!o.chamfer.isEmpty) (py!" (chamfer" ++ (forS o.chamfer fun c => py!" {c.pyStr}") ++ py!")")
  let chamferRatio := optS o.chamferRatio fun t => py!" (chamfer_ratio {t.pyStr})"
  let marginFound := o.solderMaskMargin.isSome || o.solderPasteMargin.isSome || o.solderPasteMarginRatio.isSome || o.clearance.isSome || o.zoneConnect.isSome || o.thermalWidth.isSome || o.thermalGap.isSome
  let solderMaskMargin := optS o.solderMaskMargin fun t => py!" (solder_mask_margin {t.pyStr})"
  let solderPasteMargin := optS o.solderPasteMargin fun t => py!" (solder_paste_margin {t.pyStr})"
  let solderPasteMarginRatio := optS o.solderPasteMarginRatio fun t => py!" (solder_paste_margin_ratio {t.pyStr})"
  let clearance := optS o.clearance fun t => py!" (clearance {t.pyStr})"
  let zoneConnect := optS o.zoneConnect fun t => py!" (zone_connect {t.pyStr})"
  let thermalWidth := optS o.thermalWidth fun t => py!" (thermal_width {t.pyStr})"
  let thermalGap := optS o.thermalGap fun t => py!" (thermal_gap {t.pyStr})"
  let primitives ← forSM o.customPadPrimitives fun p => do return py!"\n{← p.toSexpr (indent + 4) false false}"
  return py!"{indents indent}(pad \"{dq o.number}\" {o.type.pyStr} {o.shape.pyStr}{locked} (at {o.position.X.pyStr} {o.position.Y.pyStr}{o.position.sang}) (size {o.size.X.pyStr} {o.size.Y.pyStr}){drill}{property} (layers{layers}){rul}{kel}{roundrectRatio}" ++
    ifS champferFound py!"\n{indents indent} {chamferRatio}{c}" ++
    (optS o.dieLength fun t => py!"\n{indents indent}  (die_length {t.pyStr})") ++
    ifS (marginFound || schematicSymbolAssociated) py!"\n{indents indent} {net}{pinFunction}{pinType}{solderMaskMargin}{solderPasteMargin}{solderPasteMarginRatio}{clearance}{zoneConnect}{thermalWidth}{thermalGap}" ++
    (optS o.customPadOptions fun p => py!"\n{indents indent}  {p.toSexpr}") ++
    ifS (!o.customPadPrimitives.isEmpty) (py!"\n{indents indent}  (primitives" ++ primitives ++ py!"\n{indents indent}  )") ++
    py!"{tstamp}){endl newline}"

/-- footprint.py 663–838. `tedit` has no default here: Python computes it from the clock when the module is imported
(line 729), so everything that needs it takes it as an argument. Simplification: `attributes` is never `None` (line 1068). -/
structure Footprint where
  libraryNickname : Option Val := none
  entryName : Option Val := none
  version : Option Val := none
  generator : Option Val := none
  locked : Bool := false
  placed : Bool := false
  layer : Val := st k!"F.Cu"
  tedit : Val
  tstamp : Option Val := none
  position : Option Position := none
  description : Option Val := none
  tags : Option Val := none
  properties : Dict Val := []
  path : Option Val := none
  autoplaceCost90 : Option Val := none
  autoplaceCost180 : Option Val := none
  solderMaskMargin : Option Val := none
  solderPasteMargin : Option Val := none
  solderPasteRatio : Option Val := none
  clearance : Option Val := none
  zoneConnect : Option Val := none
  thermalWidth : Option Val := none
  thermalGap : Option Val := none
  attributes : Attributes := {}
  privateLayers : List Val := []
  netTiePadGroups : List Val := []
  graphicItems : List FpItem := []
  pads : List Pad := []
  zones : List Zone := []
  groups : List Group := []
  models : List Model := []
  filePath : Option Str := none
derive_canon Footprint

/-- Getter of `libId`, footprint.py 671–686 -/
def Footprint.libId (o : Footprint) : Str :=
  match o.libraryNickname with
  | some n => if n.truthy then py!"{n.pyStr}:{optPyStr o.entryName}" else optPyStr o.entryName
  | none => optPyStr o.entryName

/-- Setter of `libId`, footprint.py 688–704. -/
def Footprint.setLibId (o : Footprint) (id : Val) : Footprint :=
  match matchNick id.pyStr with
  | some (n, e) => { o with libraryNickname := some (.str n), entryName := some (.str e) }
  | none => { o with libraryNickname := none, entryName := some id }

/-- Loop body, footprint.py 862–908 -/
def Footprint.step (o : Footprint) (item : Val) : PyM Footprint :=
  match item with
  | .list _ => do
    let k ← item.idx 0
    if k.is k!"version" then return { o with version := some (← item.idx 1) }
    else if k.is k!"generator" then return { o with generator := some (← item.idx 1) }
    else if k.is k!"layer" then return { o with layer := ← item.idx 1 }
    else if k.is k!"tedit" then return { o with tedit := ← item.idx 1 }
    else if k.is k!"tstamp" then return { o with tstamp := some (← item.idx 1) }
    else if k.is k!"descr" then return { o with description := some (← item.idx 1) }
    else if k.is k!"tags" then return { o with tags := some (← item.idx 1) }
    else if k.is k!"path" then return { o with path := some (← item.idx 1) }
    else if k.is k!"at" then return { o with position := some (← Position.fromSexpr item) }
    else if k.is k!"autoplace_cost90" then return { o with autoplaceCost90 := some (← item.idx 1) }
    else if k.is k!"autoplace_cost180" then return { o with autoplaceCost180 := some (← item.idx 1) }
    else if k.is k!"solder_mask_margin" then return { o with solderMaskMargin := some (← item.idx 1) }
    else if k.is k!"solder_paste_margin" then return { o with solderPasteMargin := some (← item.idx 1) }
    else if k.is k!"solder_paste_ratio" then return { o with solderPasteRatio := some (← item.idx 1) }
    else if k.is k!"clearance" then return { o with clearance := some (← item.idx 1) }
    else if k.is k!"zone_connect" then return { o with zoneConnect := some (← item.idx 1) }
    else if k.is k!"thermal_width" then return { o with thermalWidth := some (← item.idx 1) }
    else if k.is k!"thermal_gap" then return { o with thermalGap := some (← item.idx 1) }
    else if k.is k!"attr" then return { o with attributes := ← Attributes.fromSexpr item }
    else if k.is k!"model" then return { o with models := o.models ++ [← Model.fromSexpr item] }
    else if k.is k!"fp_text" then return { o with graphicItems := o.graphicItems ++ [.text (← FpText.fromSexpr item)] }
    else if k.is k!"fp_text_box" then return { o with graphicItems := o.graphicItems ++ [.textBox (← FpTextBox.fromSexpr item)] }
    else if k.is k!"fp_line" then return { o with graphicItems := o.graphicItems ++ [.line (← FpLine.fromSexpr item)] }
    else if k.is k!"fp_rect" then return { o with graphicItems := o.graphicItems ++ [.rect (← FpRect.fromSexpr item)] }
    else if k.is k!"fp_circle" then return { o with graphicItems := o.graphicItems ++ [.circle (← FpCircle.fromSexpr item)] }
    else if k.is k!"fp_arc" then return { o with graphicItems := o.graphicItems ++ [.arc (← FpArc.fromSexpr item)] }
    else if k.is k!"fp_poly" then return { o with graphicItems := o.graphicItems ++ [.poly (← FpPoly.fromSexpr item)] }
    else if k.is k!"fp_curve" then return { o with graphicItems := o.graphicItems ++ [.curve (← FpCurve.fromSexpr item)] }
    else if k.is k!"image" then return { o with graphicItems := o.graphicItems ++ [.image (← Image.fromSexpr item)] }
    else if k.is k!"pad" then return { o with pads := o.pads ++ [← Pad.fromSexpr item] }
    else if k.is k!"zone" then return { o with zones := o.zones ++ [← Zone.fromSexpr item] }
    else if k.is k!"property" then
      let k ← item.idx 1
      let v ← item.idx 2
      return { o with properties := ← o.properties.update k v }
    else if k.is k!"group" then return { o with groups := o.groups ++ [← Group.fromSexpr item] }
    else if k.is k!"private_layers" then return { o with privateLayers := o.privateLayers ++ (← item.slice 1) }
    else if k.is k!"net_tie_pad_groups" then return { o with netTiePadGroups := o.netTiePadGroups ++ (← item.slice 1) }
    else if k.is k!"dimension" then .error .notImplemented
    else return o
  | _ => if item.is k!"locked" then return { o with locked := true } else if item.is k!"placed" then return { o with placed := true } else return o

/-- footprint.py 840–910. `tedit` is the default of the attribute. -/
def Footprint.fromSexpr (tedit : Val) (exp : Val) : PyM Footprint :=
  match exp with
  | .list (h :: r) =>
    if h.is k!"module" || h.is k!"footprint" then
      match r with
      | id :: r' => forM Footprint.step (Footprint.setLibId { tedit := tedit } id) r'
      | [] => .error .indexError
    else .error .exception
  | .list [] => .error .indexError
  | _ => .error .exception

/-- footprint.py 1009–1097 -/
def Footprint.toSexpr (o : Footprint) (indent : Nat := 0) (newline : Bool := true) (layerInFirstLine : Bool := false) : PyM Str := do
  let locked := ifS o.locked py!" locked"
  let placed := ifS o.placed py!" placed"
  let version := optS o.version fun t => py!" (version {t.pyStr})"
  let generator := optS o.generator fun t => py!" (generator {t.pyStr})"
  let tstamp := optS o.tstamp fun t => py!" (tstamp {t.pyStr})"
  let graphicItems ← forSM o.graphicItems fun i => i.toSexpr (indent + 2)
  let pads ← forSM o.pads fun i => i.toSexpr (indent + 2)
  let zones ← forSM o.zones fun i => i.toSexpr (indent + 2)
  return py!"{indents indent}(footprint \"{dequote o.libId}\"{locked}{placed}{version}{generator}" ++
    (if layerInFirstLine then py!" (layer \"{dq o.layer}\")\n" else py!"\n{indents indent}  (layer \"{dq o.layer}\")\n") ++
    py!"{indents indent}  (tedit {o.tedit.pyStr}){tstamp}\n" ++
    (optS o.position fun p => py!"{indents indent}  (at {p.X.pyStr} {p.Y.pyStr}{p.sang})\n") ++
    (optS o.description fun t => py!"{indents indent}  (descr \"{dq t}\")\n") ++
    (optS o.tags fun t => py!"{indents indent}  (tags \"{dq t}\")\n") ++
    (forS o.properties fun p => py!"{indents indent}  (property \"{dq p.1}\" \"{dq p.2}\")\n") ++
    (optS o.path fun t => py!"{indents indent}  (path \"{dq t}\")\n") ++
    (optS o.autoplaceCost90 fun t => py!"{indents indent}  (autoplace_cost90 {t.pyStr})\n") ++
    (optS o.autoplaceCost180 fun t => py!"{indents indent}  (autoplace_cost180 {t.pyStr})\n") ++
    (optS o.solderMaskMargin fun t => py!"{indents indent}  (solder_mask_margin {t.pyStr})\n") ++
    (optS o.solderPasteMargin fun t => py!"{indents indent}  (solder_paste_margin {t.pyStr})\n") ++
    (optS o.solderPasteRatio fun t => py!"{indents indent}  (solder_paste_ratio {t.pyStr})\n") ++
    (optS o.clearance fun t => py!"{indents indent}  (clearance {t.pyStr})\n") ++
    (optS o.zoneConnect fun t => py!"{indents indent}  (zone_connect {t.pyStr})\n") ++
    (optS o.thermalWidth fun t => py!"{indents indent}  (thermal_width {t.pyStr})\n") ++
    (optS o.thermalGap fun t => py!"{indents indent}  (thermal_gap {t.pyStr})\n") ++
    o.attributes.toSexpr (indent + 2) true ++
    ifS (!o.privateLayers.isEmpty) (py!"{indents indent}  (private_layers" ++ (forS o.privateLayers fun l => py!" \"{dq l}\"") ++ py!")\n") ++
    ifS (!o.netTiePadGroups.isEmpty) (py!"{indents indent}  (net_tie_pad_groups" ++ (forS o.netTiePadGroups fun l => py!" \"{dq l}\"") ++ py!")\n") ++
    graphicItems ++ pads ++ zones ++
    (forS o.models fun i => i.toSexpr (indent + 2)) ++
    (forS o.groups fun i => i.toSexpr (indent + 2)) ++
    py!"{indents indent}){endl newline}"

/-- The version that `create_new` writes, misc/config.py 13 -/
def createNewVersion : Val := st k!"20211014"
/-- The generator that `create_new` writes, misc/config.py 16 -/
def createNewGenerator : Val := st k!"kiutils"

/-- One of the three texts of a new footprint, footprint.py 965–979 -/
def newFpText (type : Str) (text : Val) (layer : Str) (y : Val) : FpText :=
  { type := .str type, text := text, layer := .str layer, effects := { font := { thickness := some (fl k!"0" k!"15") } },
    position := { X := .int 0, Y := y, unlocked := true } }

/-- footprint.py 937–987. `tedit` is the default of the attribute. -/
def Footprint.createNew (tedit : Val) (libraryId value : Str) (type : Str := k!"other") (reference : Str := k!"REF**") : PyM Footprint :=
  if type == k!"smd" || type == k!"through_hole" || type == k!"other" then
    let fp := Footprint.setLibId { tedit := tedit, version := some createNewVersion, generator := some createNewGenerator } (.str libraryId)
    let fp := { fp with graphicItems := fp.graphicItems ++
      [.text (newFpText k!"reference" (.str reference) k!"F.SilkS" (.flt (F64.ofDecimal true k!"0" k!"5"))),
       .text (newFpText k!"value" (.str value) k!"F.Fab" (.int 1)),
       .text (newFpText k!"user" (st k!"${REFERENCE}") k!"F.Fab" (fl k!"2" k!"5"))] }
    .ok (if type == k!"other" then fp else { fp with attributes := { fp.attributes with type := some (.str type) } })
  else .error .exception

end Kiutils
