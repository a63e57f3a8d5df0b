import Verif.Model.Common
/-!
# `src/kiutils/items/gritems.py`
-/
namespace Kiutils

/-- `f' {angle}' if angle is not None else ''` -/
abbrev Position.sang (p : Position) : Str := optS p.angle fun a => py!" {a.pyStr}"

/-- gritems.py 26–60 -/
structure GrText where
  text : Val := st k!""
  knockout : Bool := false
  position : Position := {}
  layer : Option Val := none
  effects : Effects := {}
  tstamp : Option Val := none
  locked : Bool := false
  renderCache : Option RenderCache := none
derive_canon GrText

/-- Loop body, gritems.py 85–97 -/
def GrText.step (o : GrText) (item : Val) : PyM GrText :=
  match item with
  | .list _ => do
    let k ← item.idx 0
    if k.is k!"at" then return { o with position := ← Position.fromSexpr item }
    else if k.is k!"layer" then
      let l := { o with layer := some (← item.idx 1) }
      if (← item.len) > 2 then
        return (if (← item.idx 2).is k!"knockout" then { l with knockout := true } else l)
      else return l
    else if k.is k!"effects" then return { o with effects := ← Effects.fromSexpr item }
    else if k.is k!"tstamp" then return { o with tstamp := some (← item.idx 1) }
    else if k.is k!"render_cache" then return { o with renderCache := some (← RenderCache.fromSexpr item) }
    else return o
  | _ => if item.is k!"locked" then return { o with locked := true } else return o

/-- gritems.py 63–98. The first element after the head is always taken for the text. -/
def GrText.fromSexpr (exp : Val) : PyM GrText := do
  let l ← checkHead k!"gr_text" exp
  let a1 ← getI l 1
  forM GrText.step { text := a1 } (l.drop 2)

/-- gritems.py 100–124 -/
def GrText.toSexpr (o : GrText) (indent : Nat := 2) (newline : Bool := true) : Str :=
  let ko := ifS o.knockout py!" knockout"
  let layer := optS o.layer fun l => py!" (layer \"{dq l}\"{ko})"
  let tstamp := optS o.tstamp fun t => py!" (tstamp {t.pyStr})"
  let locked := ifS o.locked py!" locked"
  py!"{indents indent}(gr_text{locked} \"{dq o.text}\" (at {o.position.X.pyStr} {o.position.Y.pyStr}{o.position.sang}){layer}{tstamp}\n" ++
  py!"{indents indent}  {o.effects.toSexpr}" ++
  (optS o.renderCache fun r => r.toSexpr (indent + 2)) ++
  py!"{indents indent}){endl newline}"

/-- `angle in [0.0, 90.0, 180.0, 270.0]` (gritems.py 244, 247, fpitems.py 442, 445) -/
def isCardinal (v : Val) : Bool := [.int 0, .int 90, .int 180, .int 270].any v.keyEq

/-- `angle is not None and angle not in […]` (gritems.py 244, fpitems.py 442) -/
def isOblique : Option Val → Bool
  | some a => !isCardinal a
  | none => false

/-- `angle is None or angle in […]` (gritems.py 247, fpitems.py 445) -/
def isRight : Option Val → Bool
  | some a => isCardinal a
  | none => true

/-- gritems.py 126–179 -/
structure GrTextBox where
  locked : Bool := false
  text : Val := st k!""
  start : Option Position := none
  «end» : Option Position := none
  pts : List Position := []
  angle : Option Val := none
  layer : Val := st k!"F.Cu"
  tstamp : Option Val := none
  effects : Option Effects := none
  stroke : Option Stroke := none
  renderCache : Option RenderCache := none
derive_canon GrTextBox

/-- Loop body, gritems.py 213–224 -/
def GrTextBox.step (o : GrTextBox) (item : Val) : PyM GrTextBox := do
  let k ← item.idx 0
  if k.is k!"start" then return { o with start := some (← Position.fromSexpr item) }
  else if k.is k!"end" then return { o with «end» := some (← Position.fromSexpr item) }
  else if k.is k!"pts" then return { o with pts := o.pts ++ (← mapM' Position.fromSexpr (← item.slice 1)) }
  else if k.is k!"angle" then return { o with angle := some (← item.idx 1) }
  else if k.is k!"layer" then return { o with layer := ← item.idx 1 }
  else if k.is k!"tstamp" then return { o with tstamp := some (← item.idx 1) }
  else if k.is k!"effects" then return { o with effects := some (← Effects.fromSexpr item) }
  else if k.is k!"stroke" then return { o with stroke := some (← Stroke.fromSexpr item) }
  else if k.is k!"render_cache" then return { o with renderCache := some (← RenderCache.fromSexpr item) }
  else return o

/-- gritems.py 182–226. If the first element is `locked` the second is looked at; a missing second element raises `IndexError`. -/
def GrTextBox.fromSexpr (exp : Val) : PyM GrTextBox :=
  match exp with
  | .list (h :: x :: r) =>
    if h.is k!"gr_text_box" then
      if x.is k!"locked" then
        match r with
        | [] => .error .indexError
        | y :: r' =>
          if y.isList then forM GrTextBox.step { text := x } r
          else forM GrTextBox.step { locked := true, text := y } r'
      else forM GrTextBox.step { text := x } r
    else .error .exception
  | _ => .error .exception

/-- gritems.py 228–273 -/
def GrTextBox.toSexpr (o : GrTextBox) (indent : Nat := 2) (newline : Bool := true) : PyM Str := do
  if isOblique o.angle && o.pts.length != 4 then .error .exception
  else if isRight o.angle && (o.start.isNone || o.«end».isNone) then .error .exception
  else
    let tstamp := optS o.tstamp fun t => py!" (tstamp {t.pyStr})"
    let angle := optS o.angle fun a => py!"(angle {a.pyStr}) "
    let start := optS o.start fun p => py!"(start {p.X.pyStr} {p.Y.pyStr}) "
    let «end» := optS o.«end» fun p => py!"(end {p.X.pyStr} {p.Y.pyStr}) "
    let locked := ifS o.locked py!" locked"
    let pts := match o.pts with
      | [a, b, c, d] =>
        py!"{indents indent}  (pts\n" ++
        py!"{indents indent}    (xy {a.X.pyStr} {a.Y.pyStr})        (xy {b.X.pyStr} {b.Y.pyStr})        (xy {c.X.pyStr} {c.Y.pyStr})        (xy {d.X.pyStr} {d.Y.pyStr})\n" ++
        py!"{indents indent}  )\n"
      | _ => []
    return py!"{indents indent}(gr_text_box{locked} \"{dq o.text}\"\n" ++ pts ++
      py!"{indents indent}  {start}{«end»}{angle}(layer \"{dq o.layer}\"){tstamp}\n" ++
      (optS o.effects fun e => e.toSexpr (indent + 2)) ++
      (optS o.stroke fun e => e.toSexpr (indent + 2)) ++
      (optS o.renderCache fun r => r.toSexpr (indent + 2)) ++
      py!"{indents indent}){endl newline}"

/-- gritems.py 275–302 -/
structure GrLine where
  start : Position := {}
  «end» : Position := {}
  angle : Option Val := none
  layer : Option Val := none
  width : Option Val := some (fl k!"0" k!"12")
  tstamp : Option Val := none
  locked : Bool := false
derive_canon GrLine

/-- Loop body, gritems.py 325–333 -/
def GrLine.step (o : GrLine) (item : Val) : PyM GrLine :=
  match item with
  | .list _ => do
    let k ← item.idx 0
    if k.is k!"start" then return { o with start := ← Position.fromSexpr item }
    else if k.is k!"end" then return { o with «end» := ← Position.fromSexpr item }
    else if k.is k!"layer" then return { o with layer := some (← item.idx 1) }
    else if k.is k!"tstamp" then return { o with tstamp := some (← item.idx 1) }
    else if k.is k!"width" then return { o with width := some (← item.idx 1) }
    else return o
  | _ => if item.is k!"locked" then return { o with locked := true } else return o

/-- gritems.py 304–334 -/
def GrLine.fromSexpr (exp : Val) : PyM GrLine := do
  forM GrLine.step {} (← checkHead k!"gr_line" exp)

/-- gritems.py 336–354 -/
def GrLine.toSexpr (o : GrLine) (indent : Nat := 2) (newline : Bool := true) : Str :=
  let locked := ifS o.locked py!" locked"
  let tstamp := optS o.tstamp fun t => py!" (tstamp {t.pyStr})"
  let layer := optS o.layer fun l => py!" (layer \"{dq l}\")"
  /- the closing bracket is missing in line 352 -/
  let angle := optS o.angle fun a => py!" (angle {a.pyStr}"
  py!"{indents indent}(gr_line{locked} (start {o.start.X.pyStr} {o.start.Y.pyStr}) (end {o.«end».X.pyStr} {o.«end».Y.pyStr}){angle}{layer} (width {optPyStr o.width}){tstamp}){endl newline}"

/-- gritems.py 356–383 -/
structure GrRect where
  start : Position := {}
  «end» : Position := {}
  layer : Option Val := none
  width : Option Val := some (fl k!"0" k!"12")
  fill : Option Val := none
  tstamp : Option Val := none
  locked : Bool := false
derive_canon GrRect

/-- Loop body, gritems.py 406–415 -/
def GrRect.step (o : GrRect) (item : Val) : PyM GrRect :=
  match item with
  | .list _ => do
    let k ← item.idx 0
    if k.is k!"start" then return { o with start := ← Position.fromSexpr item }
    else if k.is k!"end" then return { o with «end» := ← Position.fromSexpr item }
    else if k.is k!"layer" then return { o with layer := some (← item.idx 1) }
    else if k.is k!"tstamp" then return { o with tstamp := some (← item.idx 1) }
    else if k.is k!"fill" then return { o with fill := some (← item.idx 1) }
    else if k.is k!"width" then return { o with width := some (← item.idx 1) }
    else return o
  | _ => if item.is k!"locked" then return { o with locked := true } else return o

/-- gritems.py 385–416 -/
def GrRect.fromSexpr (exp : Val) : PyM GrRect := do
  forM GrRect.step {} (← checkHead k!"gr_rect" exp)

/-- gritems.py 418–436 -/
def GrRect.toSexpr (o : GrRect) (indent : Nat := 2) (newline : Bool := true) : Str :=
  let locked := ifS o.locked py!" locked"
  let tstamp := optS o.tstamp fun t => py!" (tstamp {t.pyStr})"
  let layer := optS o.layer fun l => py!" (layer \"{dq l}\")"
  let fill := optS o.fill fun t => py!" (fill {t.pyStr})"
  py!"{indents indent}(gr_rect{locked} (start {o.start.X.pyStr} {o.start.Y.pyStr}) (end {o.«end».X.pyStr} {o.«end».Y.pyStr}){layer} (width {optPyStr o.width}){fill}{tstamp}){endl newline}"

/-- gritems.py 438–465 -/
structure GrCircle where
  center : Position := {}
  «end» : Position := {}
  layer : Option Val := none
  width : Option Val := some (fl k!"0" k!"12")
  fill : Option Val := none
  tstamp : Option Val := none
  locked : Bool := false
derive_canon GrCircle

/-- Loop body, gritems.py 488–497 -/
def GrCircle.step (o : GrCircle) (item : Val) : PyM GrCircle :=
  match item with
  | .list _ => do
    let k ← item.idx 0
    if k.is k!"center" then return { o with center := ← Position.fromSexpr item }
    else if k.is k!"end" then return { o with «end» := ← Position.fromSexpr item }
    else if k.is k!"layer" then return { o with layer := some (← item.idx 1) }
    else if k.is k!"tstamp" then return { o with tstamp := some (← item.idx 1) }
    else if k.is k!"fill" then return { o with fill := some (← item.idx 1) }
    else if k.is k!"width" then return { o with width := some (← item.idx 1) }
    else return o
  | _ => if item.is k!"locked" then return { o with locked := true } else return o

/-- gritems.py 467–499 -/
def GrCircle.fromSexpr (exp : Val) : PyM GrCircle := do
  forM GrCircle.step {} (← checkHead k!"gr_circle" exp)

/-- gritems.py 501–519 -/
def GrCircle.toSexpr (o : GrCircle) (indent : Nat := 2) (newline : Bool := true) : Str :=
  let locked := ifS o.locked py!" locked"
  let tstamp := optS o.tstamp fun t => py!" (tstamp {t.pyStr})"
  let layer := optS o.layer fun l => py!" (layer \"{dq l}\")"
  let fill := optS o.fill fun t => py!" (fill {t.pyStr})"
  py!"{indents indent}(gr_circle{locked} (center {o.center.X.pyStr} {o.center.Y.pyStr}) (end {o.«end».X.pyStr} {o.«end».Y.pyStr}){layer} (width {optPyStr o.width}){fill}{tstamp}){endl newline}"

/-- gritems.py 521–548 -/
structure GrArc where
  start : Position := {}
  mid : Position := {}
  «end» : Position := {}
  layer : Option Val := none
  width : Option Val := some (fl k!"0" k!"12")
  tstamp : Option Val := none
  locked : Bool := false
derive_canon GrArc

/-- Loop body, gritems.py 571–580 -/
def GrArc.step (o : GrArc) (item : Val) : PyM GrArc :=
  match item with
  | .list _ => do
    let k ← item.idx 0
    if k.is k!"start" then return { o with start := ← Position.fromSexpr item }
    else if k.is k!"mid" then return { o with mid := ← Position.fromSexpr item }
    else if k.is k!"end" then return { o with «end» := ← Position.fromSexpr item }
    else if k.is k!"layer" then return { o with layer := some (← item.idx 1) }
    else if k.is k!"tstamp" then return { o with tstamp := some (← item.idx 1) }
    else if k.is k!"width" then return { o with width := some (← item.idx 1) }
    else return o
  | _ => if item.is k!"locked" then return { o with locked := true } else return o

/-- gritems.py 550–582 -/
def GrArc.fromSexpr (exp : Val) : PyM GrArc := do
  forM GrArc.step {} (← checkHead k!"gr_arc" exp)

/-- gritems.py 584–601 -/
def GrArc.toSexpr (o : GrArc) (indent : Nat := 2) (newline : Bool := true) : Str :=
  let locked := ifS o.locked py!" locked"
  let tstamp := optS o.tstamp fun t => py!" (tstamp {t.pyStr})"
  let layer := optS o.layer fun l => py!" (layer \"{dq l}\")"
  py!"{indents indent}(gr_arc{locked} (start {o.start.X.pyStr} {o.start.Y.pyStr}) (mid {o.mid.X.pyStr} {o.mid.Y.pyStr}) (end {o.«end».X.pyStr} {o.«end».Y.pyStr}){layer} (width {optPyStr o.width}){tstamp}){endl newline}"

/-- gritems.py 603–627 -/
structure GrPoly where
  layer : Option Val := none
  coordinates : List Position := []
  width : Option Val := some (fl k!"0" k!"12")
  fill : Option Val := none
  tstamp : Option Val := none
  locked : Bool := false
derive_canon GrPoly

/-- Loop body, gritems.py 651–661 -/
def GrPoly.step (o : GrPoly) (item : Val) : PyM GrPoly :=
  match item with
  | .list _ => do
    let k ← item.idx 0
    if k.is k!"pts" then return { o with coordinates := o.coordinates ++ (← mapM' Position.fromSexpr (← item.slice 1)) }
    else if k.is k!"layer" then return { o with layer := some (← item.idx 1) }
    else if k.is k!"tstamp" then return { o with tstamp := some (← item.idx 1) }
    else if k.is k!"fill" then return { o with fill := some (← item.idx 1) }
    else if k.is k!"width" then return { o with width := some (← item.idx 1) }
    else return o
  | _ => if item.is k!"locked" then return { o with locked := true } else return o

/-- gritems.py 629–663 -/
def GrPoly.fromSexpr (exp : Val) : PyM GrPoly := do
  forM GrPoly.step {} (← checkHead k!"gr_poly" exp)

/-- gritems.py 665–698 -/
def GrPoly.toSexpr (o : GrPoly) (indent : Nat := 2) (newline : Bool := true) (ptsNewline : Bool := false) : Str :=
  if o.coordinates.isEmpty then py!"{indents indent}{endl newline}"
  else
    let tstamp := optS o.tstamp fun t => py!" (tstamp {t.pyStr})"
    let layer := optS o.layer fun l => py!" (layer \"{dq l}\")"
    let fill := optS o.fill fun t => py!" (fill {t.pyStr})"
    let locked := ifS o.locked py!" locked"
    (if ptsNewline then py!"{indents indent}(gr_poly{locked}\n{indents indent}  (pts\n"
     else py!"{indents indent}(gr_poly{locked} (pts\n") ++
    (forS o.coordinates fun p => py!"{indents indent}    (xy {p.X.pyStr} {p.Y.pyStr})\n") ++
    py!"{indents indent}  ){layer} (width {optPyStr o.width}){fill}{tstamp}){endl newline}"

/-- gritems.py 700–720 -/
structure GrCurve where
  coordinates : List Position := []
  layer : Option Val := none
  width : Option Val := some (fl k!"0" k!"12")
  tstamp : Option Val := none
  locked : Bool := false
derive_canon GrCurve

/-- Loop body, gritems.py 743–752 -/
def GrCurve.step (o : GrCurve) (item : Val) : PyM GrCurve :=
  match item with
  | .list _ => do
    let k ← item.idx 0
    if k.is k!"pts" then return { o with coordinates := o.coordinates ++ (← mapM' Position.fromSexpr (← item.slice 1)) }
    else if k.is k!"layer" then return { o with layer := some (← item.idx 1) }
    else if k.is k!"tstamp" then return { o with tstamp := some (← item.idx 1) }
    else if k.is k!"width" then return { o with width := some (← item.idx 1) }
    else return o
  | _ => if item.is k!"locked" then return { o with locked := true } else return o

/-- gritems.py 722–754 -/
def GrCurve.fromSexpr (exp : Val) : PyM GrCurve := do
  forM GrCurve.step {} (← checkHead k!"gr_curve" exp)

/-- gritems.py 756–780 -/
def GrCurve.toSexpr (o : GrCurve) (indent : Nat := 2) (newline : Bool := true) : Str :=
  if o.coordinates.isEmpty then py!"{indents indent}{endl newline}"
  else
    let tstamp := optS o.tstamp fun t => py!" (tstamp {t.pyStr})"
    let layer := optS o.layer fun l => py!" (layer \"{dq l}\")"
    let locked := ifS o.locked py!" locked"
    py!"{indents indent}(gr_curve{locked} (pts\n" ++
    (forS o.coordinates fun p => py!"{indents indent}  (xy {p.X.pyStr} {p.Y.pyStr})\n") ++
    py!"{indents indent}){layer} (width {optPyStr o.width}){tstamp}){endl newline}"

/-- The graphic items of a board (board.py 70–76) or of a pad (footprint.py 476). -/
inductive GrItem where
  | text (x : GrText)
  | textBox (x : GrTextBox)
  | line (x : GrLine)
  | rect (x : GrRect)
  | circle (x : GrCircle)
  | arc (x : GrArc)
  | poly (x : GrPoly)
  | curve (x : GrCurve)
  | image (x : Image)

instance : Canon GrItem := ⟨fun
  | .text x => .text (canon x)
  | .textBox x => .textBox (canon x)
  | .line x => .line (canon x)
  | .rect x => .rect (canon x)
  | .circle x => .circle (canon x)
  | .arc x => .arc (canon x)
  | .poly x => .poly (canon x)
  | .curve x => .curve (canon x)
  | .image x => .image (canon x)⟩

/-- `item.to_sexpr(…)` of a graphic item; only polygons take the last parameter. -/
def GrItem.toSexpr (o : GrItem) (indent : Nat) (newline : Bool) (ptsNewline : Bool) : PyM Str :=
  match o with
  | .text x => .ok (x.toSexpr indent newline)
  | .textBox x => x.toSexpr indent newline
  | .line x => .ok (x.toSexpr indent newline)
  | .rect x => .ok (x.toSexpr indent newline)
  | .circle x => .ok (x.toSexpr indent newline)
  | .arc x => .ok (x.toSexpr indent newline)
  | .poly x => .ok (x.toSexpr indent newline ptsNewline)
  | .curve x => .ok (x.toSexpr indent newline)
  | .image x => .ok (x.toSexpr indent newline)

end Kiutils
