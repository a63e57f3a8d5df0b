import Verif.Model.GrItems
/-!
# `src/kiutils/items/dimensions.py`
-/
namespace Kiutils

/-- dimensions.py 26–63 -/
structure DimensionFormat where
  «prefix» : Option Val := none
  suffix : Option Val := none
  units : Val := .int 3
  unitsFormat : Val := .int 1
  precision : Val := .int 4
  overrideValue : Option Val := none
  suppressZeroes : Bool := false
derive_canon DimensionFormat

/-- Loop body, dimensions.py 86–96 -/
def DimensionFormat.step (o : DimensionFormat) (item : Val) : PyM DimensionFormat :=
  match item with
  | .list _ => do
    let k ← item.idx 0
    if k.is k!"prefix" then return { o with «prefix» := some (← item.idx 1) }
    else if k.is k!"suffix" then return { o with suffix := some (← item.idx 1) }
    else if k.is k!"units" then return { o with units := ← item.idx 1 }
    else if k.is k!"units_format" then return { o with unitsFormat := ← item.idx 1 }
    else if k.is k!"precision" then return { o with precision := ← item.idx 1 }
    else if k.is k!"override_value" then return { o with overrideValue := some (← item.idx 1) }
    else return o
  | _ => if item.is k!"suppress_zeroes" then return { o with suppressZeroes := true } else return o

/-- dimensions.py 65–97 -/
def DimensionFormat.fromSexpr (exp : Val) : PyM DimensionFormat := do
  let l ← checkHead k!"format" exp
  forM DimensionFormat.step {} (l.drop 1)

/-- dimensions.py 99–118 -/
def DimensionFormat.toSexpr (o : DimensionFormat) (indent : Nat := 4) (newline : Bool := true) : Str :=
  let prefix_ := optS o.«prefix» fun t => py!" (prefix \"{dq t}\")"
  let suffix := optS o.suffix fun t => py!" (suffix \"{dq t}\")"
  let overwriteVal := optS o.overrideValue fun t => py!" (override_value \"{dq t}\")"
  let suppressZeroes := ifS o.suppressZeroes py!" suppress_zeroes"
  py!"{indents indent}(format{prefix_}{suffix} (units {o.units.pyStr}) (units_format {o.unitsFormat.pyStr}) (precision {o.precision.pyStr}){overwriteVal}{suppressZeroes}){endl newline}"

/-- dimensions.py 120–160 -/
structure DimensionStyle where
  thickness : Val := fl k!"0" k!"0"
  arrowLength : Val := fl k!"0" k!"0"
  textPositionMode : Val := .int 0
  extensionHeight : Option Val := none
  textFrame : Option Val := none
  extensionOffset : Option Val := none
  keepTextAligned : Bool := false
derive_canon DimensionStyle

/-- Loop body, dimensions.py 183–192 -/
def DimensionStyle.step (o : DimensionStyle) (item : Val) : PyM DimensionStyle :=
  match item with
  | .list _ => do
    let k ← item.idx 0
    if k.is k!"thickness" then return { o with thickness := ← item.idx 1 }
    else if k.is k!"arrow_length" then return { o with arrowLength := ← item.idx 1 }
    else if k.is k!"text_position_mode" then return { o with textPositionMode := ← item.idx 1 }
    else if k.is k!"extension_height" then return { o with extensionHeight := some (← item.idx 1) }
    else if k.is k!"text_frame" then return { o with textFrame := some (← item.idx 1) }
    else if k.is k!"extension_offset" then return { o with extensionOffset := some (← item.idx 1) }
    else return o
  | _ => if item.is k!"keep_text_aligned" then return { o with keepTextAligned := true } else return o

/-- dimensions.py 162–193 -/
def DimensionStyle.fromSexpr (exp : Val) : PyM DimensionStyle := do
  let l ← checkHead k!"style" exp
  forM DimensionStyle.step {} (l.drop 1)

/-- dimensions.py 195–214 -/
def DimensionStyle.toSexpr (o : DimensionStyle) (indent : Nat := 4) (newline : Bool := true) : Str :=
  let extensionHeight := optS o.extensionHeight fun t => py!" (extension_height {t.pyStr})"
  let textFrame := optS o.textFrame fun t => py!" (text_frame {t.pyStr})"
  let extensionOffset := optS o.extensionOffset fun t => py!" (extension_offset {t.pyStr})"
  let keepAligned := ifS o.keepTextAligned py!" keep_text_aligned"
  py!"{indents indent}(style (thickness {o.thickness.pyStr}) (arrow_length {o.arrowLength.pyStr}) (text_position_mode {o.textPositionMode.pyStr}){extensionHeight}{textFrame}{extensionOffset}{keepAligned}){endl newline}"

/-- dimensions.py 216–260 -/
structure Dimension where
  locked : Bool := false
  type : Val := st k!"aligned"
  layer : Val := st k!"F.Cu"
  tstamp : Option Val := none
  pts : List Position := []
  height : Option Val := none
  orientation : Option Val := none
  leaderLength : Option Val := none
  grText : Option GrText := none
  format : Option DimensionFormat := none
  style : DimensionStyle := {}
derive_canon Dimension

/-- Loop body, dimensions.py 283–298 -/
def Dimension.step (o : Dimension) (item : Val) : PyM Dimension :=
  match item with
  | .list _ => do
    let k ← item.idx 0
    if k.is k!"type" then return { o with type := ← item.idx 1 }
    else if k.is k!"layer" then return { o with layer := ← item.idx 1 }
    else if k.is k!"tstamp" then return { o with tstamp := some (← item.idx 1) }
    else if k.is k!"height" then return { o with height := some (← item.idx 1) }
    else if k.is k!"orientation" then return { o with orientation := some (← item.idx 1) }
    else if k.is k!"leader_length" then return { o with leaderLength := some (← item.idx 1) }
    else if k.is k!"gr_text" then return { o with grText := some (← GrText.fromSexpr item) }
    else if k.is k!"format" then return { o with format := some (← DimensionFormat.fromSexpr item) }
    else if k.is k!"style" then return { o with style := ← DimensionStyle.fromSexpr item }
    else if k.is k!"pts" then return { o with pts := o.pts ++ (← mapM' Position.fromSexpr (← item.slice 1)) }
    else return o
  | _ => if item.is k!"locked" then return { o with locked := true } else return o

/-- dimensions.py 262–300 -/
def Dimension.fromSexpr (exp : Val) : PyM Dimension := do
  let l ← checkHead k!"dimension" exp
  forM Dimension.step {} (l.drop 1)

/-- dimensions.py 302–338. The flag `locked` is not written, the layer is written without escapes, a missing time stamp as `None`. -/
def Dimension.toSexpr (o : Dimension) (indent : Nat := 2) (newline : Bool := true) : PyM Str :=
  let points := forS o.pts fun p => py!" (xy {p.X.pyStr} {p.Y.pyStr})"
  if points.isEmpty then .error .exception
  else .ok <|
    py!"{indents indent}(dimension (type {o.type.pyStr}) (layer \"{o.layer.pyStr}\") (tstamp {optPyStr o.tstamp})\n" ++
    py!"{indents indent}  (pts{points})\n" ++
    (optS o.height fun t => py!"{indents indent}  (height {t.pyStr})\n") ++
    (optS o.orientation fun t => py!"{indents indent}  (orientation {t.pyStr})\n") ++
    (optS o.leaderLength fun t => py!"{indents indent}  (leader_length {t.pyStr})\n") ++
    (optS o.grText fun t => t.toSexpr (indent + 2)) ++
    (optS o.format fun t => t.toSexpr (indent + 2)) ++
    o.style.toSexpr (indent + 2) ++
    py!"{indents indent}){endl newline}"

end Kiutils
