import Verif.Model.GrItems
/-!
# `src/kiutils/items/fpitems.py`
-/
namespace Kiutils

/-- fpitems.py 29–67 -/
structure FpText where
  type : Val := st k!"reference"
  text : Val := st k!"%REF"
  position : Position := {}
  layer : Val := st k!"F.Cu"
  knockout : Bool := false
  hide : Bool := false
  effects : Effects := {}
  tstamp : Option Val := none
  renderCache : Option RenderCache := none
derive_canon FpText

/-- Loop body, fpitems.py 93–105 -/
def FpText.step (o : FpText) (item : Val) : PyM FpText :=
  match item with
  | .list _ => do
    let k ← item.idx 0
    if k.is k!"at" then return { o with position := ← Position.fromSexpr item }
    else if k.is k!"layer" then
      let l := { o with layer := ← item.idx 1 }
      if (← item.len) > 2 then
        return (if (← item.idx 2).is k!"knockout" then { l with knockout := true } else l)
      else return l
    else if k.is k!"effects" then return { o with effects := ← Effects.fromSexpr item }
    else if k.is k!"tstamp" then return { o with tstamp := some (← item.idx 1) }
    else if k.is k!"render_cache" then return { o with renderCache := some (← RenderCache.fromSexpr item) }
    else return o
  | _ => if item.is k!"hide" then return { o with hide := true } else return o

/-- fpitems.py 70–106 -/
def FpText.fromSexpr (exp : Val) : PyM FpText := do
  let l ← checkHead k!"fp_text" exp
  let a1 ← getI l 1
  let a2 ← getI l 2
  forM FpText.step { type := a1, text := a2 } (l.drop 3)

/-- fpitems.py 108–133 -/
def FpText.toSexpr (o : FpText) (indent : Nat := 2) (newline : Bool := true) : Str :=
  let hide := ifS o.hide py!" hide"
  let unlocked := ifS o.position.unlocked py!" unlocked"
  let ko := ifS o.knockout py!" knockout"
  py!"{indents indent}(fp_text {o.type.pyStr} \"{dq o.text}\" (at {o.position.X.pyStr} {o.position.Y.pyStr}{o.position.sang}{unlocked}) (layer \"{dq o.layer}\"{ko}){hide}\n" ++
  py!"{indents indent}  {o.effects.toSexpr}" ++
  (optS o.tstamp fun t => py!"{indents indent}  (tstamp {t.pyStr})\n") ++
  (optS o.renderCache fun r => r.toSexpr (indent + 2)) ++
  py!"{indents indent}){endl newline}"

/-- The width or the stroke of a line (fpitems.py 218–223, 317–322, 563–568, 660–665, 761–766, 859–864): the width wins. -/
def widthText (width : Option Val) (stroke : Option Stroke) : Str :=
  match width, stroke with
  | some w, _ => py!" (width {w.pyStr})"
  | none, some s => py!" {s.toSexpr 0 false}"
  | none, none => []

/-- fpitems.py 135–164 -/
structure FpLine where
  start : Position := {}
  «end» : Position := {}
  layer : Val := st k!"F.Cu"
  width : Option Val := some (fl k!"0" k!"12")
  stroke : Option Stroke := none
  locked : Bool := false
  tstamp : Option Val := none
derive_canon FpLine

/-- Loop body, fpitems.py 187–201 -/
def FpLine.step (o : FpLine) (item : Val) : PyM FpLine :=
  match item with
  | .list _ => do
    let k ← item.idx 0
    if k.is k!"start" then return { o with start := ← Position.fromSexpr item }
    else if k.is k!"end" then return { o with «end» := ← Position.fromSexpr item }
    else if k.is k!"layer" then return { o with layer := ← item.idx 1 }
    else if k.is k!"tstamp" then return { o with tstamp := some (← item.idx 1) }
    else if k.is k!"width" then return { o with width := some (← item.idx 1), stroke := none }
    else if k.is k!"stroke" then return { o with stroke := some (← Stroke.fromSexpr item), width := none }
    else return o
  | _ => if item.is k!"locked" then return { o with locked := true } else return o

/-- fpitems.py 166–203 -/
def FpLine.fromSexpr (exp : Val) : PyM FpLine := do
  forM FpLine.step {} (← checkHead k!"fp_line" exp)

/-- fpitems.py 205–225. The flag `locked` is not written. -/
def FpLine.toSexpr (o : FpLine) (indent : Nat := 2) (newline : Bool := true) : Str :=
  let tstamp := optS o.tstamp fun t => py!" (tstamp {t.pyStr})"
  py!"{indents indent}(fp_line (start {o.start.X.pyStr} {o.start.Y.pyStr}) (end {o.«end».X.pyStr} {o.«end».Y.pyStr}) (layer \"{dq o.layer}\"){widthText o.width o.stroke}{tstamp}){endl newline}"

/-- fpitems.py 227–258 -/
structure FpRect where
  start : Position := {}
  «end» : Position := {}
  layer : Val := st k!"F.Cu"
  width : Option Val := some (fl k!"0" k!"12")
  stroke : Option Stroke := none
  fill : Option Val := none
  locked : Bool := false
  tstamp : Option Val := none
derive_canon FpRect

/-- Loop body, fpitems.py 281–296 -/
def FpRect.step (o : FpRect) (item : Val) : PyM FpRect :=
  match item with
  | .list _ => do
    let k ← item.idx 0
    if k.is k!"start" then return { o with start := ← Position.fromSexpr item }
    else if k.is k!"end" then return { o with «end» := ← Position.fromSexpr item }
    else if k.is k!"layer" then return { o with layer := ← item.idx 1 }
    else if k.is k!"tstamp" then return { o with tstamp := some (← item.idx 1) }
    else if k.is k!"fill" then return { o with fill := some (← item.idx 1) }
    else if k.is k!"width" then return { o with width := some (← item.idx 1), stroke := none }
    else if k.is k!"stroke" then return { o with stroke := some (← Stroke.fromSexpr item), width := none }
    else return o
  | _ => if item.is k!"locked" then return { o with locked := true } else return o

/-- fpitems.py 260–298 -/
def FpRect.fromSexpr (exp : Val) : PyM FpRect := do
  forM FpRect.step {} (← checkHead k!"fp_rect" exp)

/-- fpitems.py 300–324 -/
def FpRect.toSexpr (o : FpRect) (indent : Nat := 2) (newline : Bool := true) : Str :=
  let tstamp := optS o.tstamp fun t => py!" (tstamp {t.pyStr})"
  let locked := ifS o.locked py!" locked"
  let fill := optS o.fill fun t => py!" (fill {t.pyStr})"
  py!"{indents indent}(fp_rect (start {o.start.X.pyStr} {o.start.Y.pyStr}) (end {o.«end».X.pyStr} {o.«end».Y.pyStr}) (layer \"{dq o.layer}\"){widthText o.width o.stroke}{fill}{locked}{tstamp}){endl newline}"

/-- fpitems.py 326–378 -/
structure FpTextBox where
  locked : Bool := false
  text : Val := st k!""
  start : Option Position := none
  «end» : Option Position := none
  pts : List Position := []
  angle : Option Val := none
  layer : Val := st k!"F.Cu"
  tstamp : Option Val := none
  effects : Option Effects := none
  stroke : Option Stroke := none
  renderCache : Option RenderCache := none
derive_canon FpTextBox

/-- Loop body, fpitems.py 411–422 -/
def FpTextBox.step (o : FpTextBox) (item : Val) : PyM FpTextBox := do
  let k ← item.idx 0
  if k.is k!"start" then return { o with start := some (← Position.fromSexpr item) }
  else if k.is k!"end" then return { o with «end» := some (← Position.fromSexpr item) }
  else if k.is k!"pts" then return { o with pts := o.pts ++ (← mapM' Position.fromSexpr (← item.slice 1)) }
  else if k.is k!"angle" then return { o with angle := some (← item.idx 1) }
  else if k.is k!"layer" then return { o with layer := ← item.idx 1 }
  else if k.is k!"tstamp" then return { o with tstamp := some (← item.idx 1) }
  else if k.is k!"effects" then return { o with effects := some (← Effects.fromSexpr item) }
  else if k.is k!"stroke" then return { o with stroke := some (← Stroke.fromSexpr item) }
  else if k.is k!"render_cache" then return { o with renderCache := some (← RenderCache.fromSexpr item) }
  else return o

/-- fpitems.py 380–424. If the first element is `locked` the second is looked at; a missing second element raises `IndexError`. -/
def FpTextBox.fromSexpr (exp : Val) : PyM FpTextBox :=
  match exp with
  | .list (h :: x :: r) =>
    if h.is k!"fp_text_box" then
      if x.is k!"locked" then
        match r with
        | [] => .error .indexError
        | y :: r' =>
          if y.isList then forM FpTextBox.step { text := x } r
          else forM FpTextBox.step { locked := true, text := y } r'
      else forM FpTextBox.step { text := x } r
    else .error .exception
  | _ => .error .exception

/-- fpitems.py 426–471 -/
def FpTextBox.toSexpr (o : FpTextBox) (indent : Nat := 2) (newline : Bool := true) : PyM Str := do
  if isOblique o.angle && o.pts.length != 4 then .error .exception
  else if isRight o.angle && (o.start.isNone || o.«end».isNone) then .error .exception
  else
    let tstamp := optS o.tstamp fun t => py!" (tstamp {t.pyStr})"
    let angle := optS o.angle fun a => py!"(angle {a.pyStr}) "
    let start := optS o.start fun p => py!"(start {p.X.pyStr} {p.Y.pyStr}) "
    let «end» := optS o.«end» fun p => py!"(end {p.X.pyStr} {p.Y.pyStr}) "
    let locked := ifS o.locked py!" locked"
    let pts := match o.pts with
      | [a, b, c, d] =>
        py!"{indents indent}  (pts\n" ++
        py!"{indents indent}    (xy {a.X.pyStr} {a.Y.pyStr})      (xy {b.X.pyStr} {b.Y.pyStr})      (xy {c.X.pyStr} {c.Y.pyStr})      (xy {d.X.pyStr} {d.Y.pyStr})\n" ++
        py!"{indents indent}  )\n"
      | _ => []
    return py!"{indents indent}(fp_text_box{locked} \"{dq o.text}\"\n" ++ pts ++
      py!"{indents indent}  {start}{«end»}{angle}(layer \"{dq o.layer}\"){tstamp}\n" ++
      (optS o.effects fun e => e.toSexpr (indent + 2)) ++
      (optS o.stroke fun e => e.toSexpr (indent + 2)) ++
      (optS o.renderCache fun r => r.toSexpr (indent + 2)) ++
      py!"{indents indent}){endl newline}"

/-- fpitems.py 473–504 -/
structure FpCircle where
  center : Position := {}
  «end» : Position := {}
  layer : Val := st k!"F.Cu"
  width : Option Val := some (fl k!"0" k!"12")
  stroke : Option Stroke := none
  fill : Option Val := none
  locked : Bool := false
  tstamp : Option Val := none
derive_canon FpCircle

/-- Loop body, fpitems.py 527–542 -/
def FpCircle.step (o : FpCircle) (item : Val) : PyM FpCircle :=
  match item with
  | .list _ => do
    let k ← item.idx 0
    if k.is k!"center" then return { o with center := ← Position.fromSexpr item }
    else if k.is k!"end" then return { o with «end» := ← Position.fromSexpr item }
    else if k.is k!"layer" then return { o with layer := ← item.idx 1 }
    else if k.is k!"tstamp" then return { o with tstamp := some (← item.idx 1) }
    else if k.is k!"fill" then return { o with fill := some (← item.idx 1) }
    else if k.is k!"width" then return { o with width := some (← item.idx 1), stroke := none }
    else if k.is k!"stroke" then return { o with stroke := some (← Stroke.fromSexpr item), width := none }
    else return o
  | _ => if item.is k!"locked" then return { o with locked := true } else return o

/-- fpitems.py 506–544 -/
def FpCircle.fromSexpr (exp : Val) : PyM FpCircle := do
  forM FpCircle.step {} (← checkHead k!"fp_circle" exp)

/-- fpitems.py 546–570 -/
def FpCircle.toSexpr (o : FpCircle) (indent : Nat := 2) (newline : Bool := true) : Str :=
  let tstamp := optS o.tstamp fun t => py!" (tstamp {t.pyStr})"
  let locked := ifS o.locked py!" locked"
  let fill := optS o.fill fun t => py!" (fill {t.pyStr})"
  py!"{indents indent}(fp_circle (center {o.center.X.pyStr} {o.center.Y.pyStr}) (end {o.«end».X.pyStr} {o.«end».Y.pyStr}) (layer \"{dq o.layer}\"){widthText o.width o.stroke}{fill}{locked}{tstamp}){endl newline}"

/-- fpitems.py 572–602 -/
structure FpArc where
  start : Position := {}
  mid : Position := {}
  «end» : Position := {}
  layer : Val := st k!"F.Cu"
  width : Option Val := some (fl k!"0" k!"12")
  stroke : Option Stroke := none
  locked : Bool := false
  tstamp : Option Val := none
derive_canon FpArc

/-- Loop body, fpitems.py 625–640 -/
def FpArc.step (o : FpArc) (item : Val) : PyM FpArc :=
  match item with
  | .list _ => do
    let k ← item.idx 0
    if k.is k!"start" then return { o with start := ← Position.fromSexpr item }
    else if k.is k!"mid" then return { o with mid := ← Position.fromSexpr item }
    else if k.is k!"end" then return { o with «end» := ← Position.fromSexpr item }
    else if k.is k!"layer" then return { o with layer := ← item.idx 1 }
    else if k.is k!"tstamp" then return { o with tstamp := some (← item.idx 1) }
    else if k.is k!"width" then return { o with width := some (← item.idx 1), stroke := none }
    else if k.is k!"stroke" then return { o with stroke := some (← Stroke.fromSexpr item), width := none }
    else return o
  | _ => if item.is k!"locked" then return { o with locked := true } else return o

/-- fpitems.py 604–642 -/
def FpArc.fromSexpr (exp : Val) : PyM FpArc := do
  forM FpArc.step {} (← checkHead k!"fp_arc" exp)

/-- fpitems.py 644–667 -/
def FpArc.toSexpr (o : FpArc) (indent : Nat := 2) (newline : Bool := true) : Str :=
  let tstamp := optS o.tstamp fun t => py!" (tstamp {t.pyStr})"
  let locked := ifS o.locked py!" locked"
  py!"{indents indent}(fp_arc (start {o.start.X.pyStr} {o.start.Y.pyStr}) (mid {o.mid.X.pyStr} {o.mid.Y.pyStr}) (end {o.«end».X.pyStr} {o.«end».Y.pyStr}) (layer \"{dq o.layer}\"){widthText o.width o.stroke}{locked}{tstamp}){endl newline}"

/-- fpitems.py 669–697 -/
structure FpPoly where
  layer : Val := st k!"F.Cu"
  coordinates : List Position := []
  width : Option Val := some (fl k!"0" k!"12")
  stroke : Option Stroke := none
  fill : Option Val := none
  locked : Bool := false
  tstamp : Option Val := none
derive_canon FpPoly

/-- Loop body, fpitems.py 721–737 -/
def FpPoly.step (o : FpPoly) (item : Val) : PyM FpPoly :=
  match item with
  | .list _ => do
    let k ← item.idx 0
    if k.is k!"pts" then return { o with coordinates := o.coordinates ++ (← mapM' Position.fromSexpr (← item.slice 1)) }
    else if k.is k!"layer" then return { o with layer := ← item.idx 1 }
    else if k.is k!"tstamp" then return { o with tstamp := some (← item.idx 1) }
    else if k.is k!"fill" then return { o with fill := some (← item.idx 1) }
    else if k.is k!"width" then return { o with width := some (← item.idx 1), stroke := none }
    else if k.is k!"stroke" then return { o with stroke := some (← Stroke.fromSexpr item), width := none }
    else return o
  | _ => if item.is k!"locked" then return { o with locked := true } else return o

/-- fpitems.py 699–739 -/
def FpPoly.fromSexpr (exp : Val) : PyM FpPoly := do
  forM FpPoly.step {} (← checkHead k!"fp_poly" exp)

/-- fpitems.py 741–772 -/
def FpPoly.toSexpr (o : FpPoly) (indent : Nat := 2) (newline : Bool := true) : Str :=
  if o.coordinates.isEmpty then py!"{indents indent}{endl newline}"
  else
    let tstamp := optS o.tstamp fun t => py!" (tstamp {t.pyStr})"
    let locked := ifS o.locked py!" locked"
    let fill := optS o.fill fun t => py!" (fill {t.pyStr})"
    py!"{indents indent}(fp_poly (pts\n" ++
    (forS o.coordinates fun p => py!"{indents indent}    (xy {p.X.pyStr} {p.Y.pyStr})\n") ++
    py!"{indents indent}  ) (layer \"{dq o.layer}\"){widthText o.width o.stroke}{fill}{locked}{tstamp}){endl newline}"

/-- fpitems.py 774–798 -/
structure FpCurve where
  coordinates : List Position := []
  layer : Val := st k!"F.Cu"
  width : Option Val := some (fl k!"0" k!"12")
  stroke : Option Stroke := none
  locked : Bool := false
  tstamp : Option Val := none
derive_canon FpCurve

/-- Loop body, fpitems.py 821–836 -/
def FpCurve.step (o : FpCurve) (item : Val) : PyM FpCurve :=
  match item with
  | .list _ => do
    let k ← item.idx 0
    if k.is k!"pts" then return { o with coordinates := o.coordinates ++ (← mapM' Position.fromSexpr (← item.slice 1)) }
    else if k.is k!"layer" then return { o with layer := ← item.idx 1 }
    else if k.is k!"tstamp" then return { o with tstamp := some (← item.idx 1) }
    else if k.is k!"width" then return { o with width := some (← item.idx 1), stroke := none }
    else if k.is k!"stroke" then return { o with stroke := some (← Stroke.fromSexpr item), width := none }
    else return o
  | _ => if item.is k!"locked" then return { o with locked := true } else return o

/-- fpitems.py 800–838 -/
def FpCurve.fromSexpr (exp : Val) : PyM FpCurve := do
  forM FpCurve.step {} (← checkHead k!"fp_curve" exp)

/-- fpitems.py 840–870 -/
def FpCurve.toSexpr (o : FpCurve) (indent : Nat := 2) (newline : Bool := true) : Str :=
  if o.coordinates.isEmpty then py!"{indents indent}{endl newline}"
  else
    let tstamp := optS o.tstamp fun t => py!" (tstamp {t.pyStr})"
    let locked := ifS o.locked py!" locked"
    py!"{indents indent}(fp_curve (pts\n" ++
    (forS o.coordinates fun p => py!"{indents indent}  (xy {p.X.pyStr} {p.Y.pyStr})\n") ++
    py!"{indents indent}) (layer \"{dq o.layer}\"){widthText o.width o.stroke}{locked}{tstamp}){endl newline}"

/-- The graphic items of a footprint (footprint.py 816–823). -/
inductive FpItem where
  | text (x : FpText)
  | textBox (x : FpTextBox)
  | line (x : FpLine)
  | rect (x : FpRect)
  | circle (x : FpCircle)
  | arc (x : FpArc)
  | poly (x : FpPoly)
  | curve (x : FpCurve)
  | image (x : Image)

instance : Canon FpItem := ⟨fun
  | .text x => .text (canon x)
  | .textBox x => .textBox (canon x)
  | .line x => .line (canon x)
  | .rect x => .rect (canon x)
  | .circle x => .circle (canon x)
  | .arc x => .arc (canon x)
  | .poly x => .poly (canon x)
  | .curve x => .curve (canon x)
  | .image x => .image (canon x)⟩

/-- `item.to_sexpr(indent=…)` of a graphic item (footprint.py 1086) -/
def FpItem.toSexpr (o : FpItem) (indent : Nat) : PyM Str :=
  match o with
  | .text x => .ok (x.toSexpr indent)
  | .textBox x => x.toSexpr indent
  | .line x => .ok (x.toSexpr indent)
  | .rect x => .ok (x.toSexpr indent)
  | .circle x => .ok (x.toSexpr indent)
  | .arc x => .ok (x.toSexpr indent)
  | .poly x => .ok (x.toSexpr indent)
  | .curve x => .ok (x.toSexpr indent)
  | .image x => .ok (x.toSexpr indent)

end Kiutils
