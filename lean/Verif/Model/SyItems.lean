import Verif.Model.Common
/-!
# `src/kiutils/items/syitems.py`
-/
namespace Kiutils

/-- `f'(key {p.X} {p.Y}{posA})'` with `posA = f' {p.angle}' if p.angle is not None else ''`, as in syitems.py 101 and 106 and
many other places. -/
abbrev Position.ang (p : Position) : Str := optS p.angle fun a => py!" {a.pyStr}"

/-- syitems.py 27–53 -/
structure SyArc where
  priv : Bool := false
  start : Position := {}
  mid : Position := {}
  «end» : Position := {}
  stroke : Stroke := {}
  fill : Fill := {}
derive_canon SyArc

/-- Loop body, syitems.py 78–85 -/
def SyArc.step (o : SyArc) (item : Val) : PyM SyArc :=
  match item with
  | .str s => if s == k!"private" then return { o with priv := true } else return o
  | _ => do
    let k ← item.idx 0
    if k.is k!"start" then return { o with start := ← Position.fromSexpr item }
    else if k.is k!"mid" then return { o with mid := ← Position.fromSexpr item }
    else if k.is k!"end" then return { o with «end» := ← Position.fromSexpr item }
    else if k.is k!"stroke" then return { o with stroke := ← Stroke.fromSexpr item }
    else if k.is k!"fill" then return { o with fill := ← Fill.fromSexpr item }
    else return o

/-- syitems.py 55–86 -/
def SyArc.fromSexpr (exp : Val) : PyM SyArc := do
  forM SyArc.step {} (← checkHead k!"arc" exp)

/-- syitems.py 88–110 -/
def SyArc.toSexpr (o : SyArc) (indent : Nat := 6) (newline : Bool := true) : Str :=
  let priv := ifS o.priv py!" private"
  py!"{indents indent}(arc{priv} (start {o.start.X.pyStr} {o.start.Y.pyStr}{o.start.ang}) (mid {o.mid.X.pyStr} {o.mid.Y.pyStr}{o.mid.ang}) (end {o.end.X.pyStr} {o.end.Y.pyStr}{o.end.ang})\n" ++
  o.stroke.toSexpr (indent + 2) ++ o.fill.toSexpr (indent + 2) ++ py!"{indents indent}){endl newline}"

/-- syitems.py 113–136 -/
structure SyCircle where
  priv : Bool := false
  center : Position := {}
  radius : Val := fl k!"0" k!"0"
  stroke : Stroke := {}
  fill : Fill := {}
derive_canon SyCircle

/-- Loop body, syitems.py 161–167 -/
def SyCircle.step (o : SyCircle) (item : Val) : PyM SyCircle :=
  match item with
  | .str s => if s == k!"private" then return { o with priv := true } else return o
  | _ => do
    let k ← item.idx 0
    if k.is k!"center" then return { o with center := ← Position.fromSexpr item }
    else if k.is k!"radius" then return { o with radius := ← item.idx 1 }
    else if k.is k!"stroke" then return { o with stroke := ← Stroke.fromSexpr item }
    else if k.is k!"fill" then return { o with fill := ← Fill.fromSexpr item }
    else return o

/-- syitems.py 138–168 -/
def SyCircle.fromSexpr (exp : Val) : PyM SyCircle := do
  forM SyCircle.step {} (← checkHead k!"circle" exp)

/-- syitems.py 170–188. The angle of the centre is not written. -/
def SyCircle.toSexpr (o : SyCircle) (indent : Nat := 6) (newline : Bool := true) : Str :=
  let priv := ifS o.priv py!" private"
  py!"{indents indent}(circle{priv} (center {o.center.X.pyStr} {o.center.Y.pyStr}) (radius {o.radius.pyStr})\n" ++
  o.stroke.toSexpr (indent + 2) ++ o.fill.toSexpr (indent + 2) ++ py!"{indents indent}){endl newline}"

/-- syitems.py 191–205 -/
structure SyCurve where
  points : List Position := []
  stroke : Stroke := {}
  fill : Fill := {}
derive_canon SyCurve

/-- Loop body, syitems.py 229–233 -/
def SyCurve.step (o : SyCurve) (item : Val) : PyM SyCurve := do
  let k ← item.idx 0
  if k.is k!"stroke" then return { o with stroke := ← Stroke.fromSexpr item }
  else if k.is k!"fill" then return { o with fill := ← Fill.fromSexpr item }
  else if k.is k!"pts" then return { o with points := o.points ++ (← mapM' Position.fromSexpr (← item.slice 1)) }
  else return o

/-- syitems.py 207–234 -/
def SyCurve.fromSexpr (exp : Val) : PyM SyCurve := do
  forM SyCurve.step {} (← checkHead k!"curve" exp)

/-- syitems.py 236–257. Lines 250, 252 and 253 assign (`expression =`) where they should append: everything written before line
253 is lost, in particular the head and the points. -/
def SyCurve.toSexpr (o : SyCurve) (indent : Nat := 6) (newline : Bool := true) : Str :=
  py!"{indents indent}  )\n" ++
  o.stroke.toSexpr (indent + 2) ++ o.fill.toSexpr (indent + 2) ++ py!"{indents indent}){endl newline}"

/-- syitems.py 260–274 -/
structure SyPolyLine where
  points : List Position := []
  stroke : Stroke := {}
  fill : Fill := {}
derive_canon SyPolyLine

/-- Loop body, syitems.py 298–302 -/
def SyPolyLine.step (o : SyPolyLine) (item : Val) : PyM SyPolyLine := do
  let k ← item.idx 0
  if k.is k!"stroke" then return { o with stroke := ← Stroke.fromSexpr item }
  else if k.is k!"fill" then return { o with fill := ← Fill.fromSexpr item }
  else if k.is k!"pts" then return { o with points := o.points ++ (← mapM' Position.fromSexpr (← item.slice 1)) }
  else return o

/-- syitems.py 276–303 -/
def SyPolyLine.fromSexpr (exp : Val) : PyM SyPolyLine := do
  forM SyPolyLine.step {} (← checkHead k!"polyline" exp)

/-- syitems.py 305–326 -/
def SyPolyLine.toSexpr (o : SyPolyLine) (indent : Nat := 6) (newline : Bool := true) : Str :=
  py!"{indents indent}(polyline\n{indents indent}  (pts\n" ++
  (forS o.points fun p => py!"{indents indent}    (xy {p.X.pyStr} {p.Y.pyStr})\n") ++
  py!"{indents indent}  )\n" ++
  o.stroke.toSexpr (indent + 2) ++ o.fill.toSexpr (indent + 2) ++ py!"{indents indent}){endl newline}"

/-- syitems.py 329–352 -/
structure SyRect where
  priv : Bool := false
  start : Position := {}
  «end» : Position := {}
  stroke : Stroke := {}
  fill : Fill := {}
derive_canon SyRect

/-- Loop body, syitems.py 377–383 -/
def SyRect.step (o : SyRect) (item : Val) : PyM SyRect :=
  match item with
  | .str s => if s == k!"private" then return { o with priv := true } else return o
  | _ => do
    let k ← item.idx 0
    if k.is k!"start" then return { o with start := ← Position.fromSexpr item }
    else if k.is k!"end" then return { o with «end» := ← Position.fromSexpr item }
    else if k.is k!"stroke" then return { o with stroke := ← Stroke.fromSexpr item }
    else if k.is k!"fill" then return { o with fill := ← Fill.fromSexpr item }
    else return o

/-- syitems.py 354–384 -/
def SyRect.fromSexpr (exp : Val) : PyM SyRect := do
  forM SyRect.step {} (← checkHead k!"rectangle" exp)

/-- syitems.py 386–404. The angles of the two corners are not written. -/
def SyRect.toSexpr (o : SyRect) (indent : Nat := 6) (newline : Bool := true) : Str :=
  let priv := ifS o.priv py!" private"
  py!"{indents indent}(rectangle{priv} (start {o.start.X.pyStr} {o.start.Y.pyStr}) (end {o.end.X.pyStr} {o.end.Y.pyStr})\n" ++
  o.stroke.toSexpr (indent + 2) ++ o.fill.toSexpr (indent + 2) ++ py!"{indents indent}){endl newline}"

/-- syitems.py 407–421 -/
structure SyText where
  text : Val := st k!""
  position : Position := {}
  effects : Effects := {}
derive_canon SyText

/-- Loop body, syitems.py 446–447 -/
def SyText.step (o : SyText) (item : Val) : PyM SyText := do
  let k ← item.idx 0
  if k.is k!"at" then return { o with position := ← Position.fromSexpr item }
  else if k.is k!"effects" then return { o with effects := ← Effects.fromSexpr item }
  else return o

/-- syitems.py 423–448 -/
def SyText.fromSexpr (exp : Val) : PyM SyText := do
  let l ← checkHead k!"text" exp
  let text ← getI l 1
  forM SyText.step { text := text } (l.drop 2)

/-- syitems.py 450–468 -/
def SyText.toSexpr (o : SyText) (indent : Nat := 6) (newline : Bool := true) : Str :=
  py!"{indents indent}(text \"{dq o.text}\" (at {o.position.X.pyStr} {o.position.Y.pyStr}{o.position.ang})\n" ++
  py!"{indents indent}  {o.effects.toSexpr}{indents indent}){endl newline}"

/-- syitems.py 471–506 -/
structure SyTextBox where
  text : Val := st k!""
  priv : Bool := false
  position : Position := {}
  size : Position := {}
  stroke : Stroke := {}
  fill : Fill := {}
  effects : Effects := {}
  uuid : Option Val := none
derive_canon SyTextBox

/-- Loop body, syitems.py 540–545 -/
def SyTextBox.step (o : SyTextBox) (item : Val) : PyM SyTextBox := do
  let k ← item.idx 0
  if k.is k!"at" then return { o with position := ← Position.fromSexpr item }
  else if k.is k!"size" then return { o with size := ← Position.fromSexpr item }
  else if k.is k!"effects" then return { o with effects := ← Effects.fromSexpr item }
  else if k.is k!"stroke" then return { o with stroke := ← Stroke.fromSexpr item }
  else if k.is k!"fill" then return { o with fill := ← Fill.fromSexpr item }
  else if k.is k!"uuid" then return { o with uuid := some (← item.idx 1) }
  else return o

/-- syitems.py 508–546. The word `private` is a flag only if it is not directly followed by a list. -/
def SyTextBox.fromSexpr (exp : Val) : PyM SyTextBox := do
  let l ← checkHead k!"text_box" exp
  let a ← getI l 1
  if a.is k!"private" then
    let b ← getI l 2
    if b.isList then forM SyTextBox.step { text := a } (l.drop 2)
    else forM SyTextBox.step { priv := true, text := b } (l.drop 3)
  else forM SyTextBox.step { text := a } (l.drop 2)

/-- syitems.py 548–572 -/
def SyTextBox.toSexpr (o : SyTextBox) (indent : Nat := 2) (newline : Bool := true) : Str :=
  let priv := ifS o.priv py!" private"
  py!"{indents indent}(text_box{priv} \"{dq o.text}\"\n" ++
  py!"{indents indent}  (at {o.position.X.pyStr} {o.position.Y.pyStr}{o.position.ang}) (size {o.size.X.pyStr} {o.size.Y.pyStr})\n" ++
  o.stroke.toSexpr (indent + 2) ++ o.fill.toSexpr (indent + 2) ++ o.effects.toSexpr (indent + 2) ++
  (optS o.uuid fun u => py!"{indents indent}  (uuid {u.pyStr})\n") ++
  py!"{indents indent}){endl newline}"

/-- An element of `Symbol.graphicItems` (symbol.py 346): an instance of one of the classes of this file. -/
inductive SyItem where
  | arc (o : SyArc)
  | circle (o : SyCircle)
  | curve (o : SyCurve)
  | polyline (o : SyPolyLine)
  | rect (o : SyRect)
  | text (o : SyText)
  | textBox (o : SyTextBox)

instance : Canon SyItem := ⟨fun
  | .arc o => .arc (canon o)
  | .circle o => .circle (canon o)
  | .curve o => .curve (canon o)
  | .polyline o => .polyline (canon o)
  | .rect o => .rect (canon o)
  | .text o => .text (canon o)
  | .textBox o => .textBox (canon o)⟩

/-- `item.to_sexpr(indent)` (symbol.py 474): the method of the class of the item. -/
def SyItem.toSexpr (o : SyItem) (indent : Nat) : Str :=
  match o with
  | .arc o => o.toSexpr indent
  | .circle o => o.toSexpr indent
  | .curve o => o.toSexpr indent
  | .polyline o => o.toSexpr indent
  | .rect o => o.toSexpr indent
  | .text o => o.toSexpr indent
  | .textBox o => o.toSexpr indent

end Kiutils
