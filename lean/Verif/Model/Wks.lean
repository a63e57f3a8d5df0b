import Verif.Model.Common
/-!
# `src/kiutils/wks.py`

`Line` and `Rect` (wks.py 192–289 and 291–388) are the same code except for the head word; they are modelled by one structure and
functions that take the head word as a parameter. `Polygon` (390–456) raises `NotImplementedError` in both directions.
-/
namespace Kiutils

/-- wks.py 27–35 -/
structure WksFontSize where
  width : Val := fl k!"1" k!"0"
  height : Val := fl k!"1" k!"0"
derive_canon WksFontSize

/-- wks.py 37–60 -/
def WksFontSize.fromSexpr (exp : Val) : PyM WksFontSize :=
  match exp with
  | .list [h, w, x] => if h.is k!"size" then .ok { width := w, height := x } else .error .exception
  | _ => .error .exception

/-- wks.py 62–74 -/
def WksFontSize.toSexpr (o : WksFontSize) (indent : Nat := 0) (newline : Bool := false) : Str :=
  py!"{indents indent}(size {o.width.pyStr} {o.height.pyStr}){endl newline}"

/-- wks.py 76–90 -/
structure WksFont where
  linewidth : Option Val := none
  size : Option WksFontSize := none
  bold : Bool := false
  italic : Bool := false
derive_canon WksFont

/-- Loop body, wks.py 114–119 -/
def WksFont.step (o : WksFont) (item : Val) : PyM WksFont :=
  match item with
  | .list _ => do
    let k ← item.idx 0
    if k.is k!"linewidth" then return { o with linewidth := some (← item.idx 1) }
    else if k.is k!"size" then return { o with size := some (← WksFontSize.fromSexpr item) }
    else return o
  | _ =>
    if item.is k!"bold" then return { o with bold := true }
    else if item.is k!"italic" then return { o with italic := true }
    else return o

/-- wks.py 92–120 -/
def WksFont.fromSexpr (exp : Val) : PyM WksFont := do
  forM WksFont.step {} (← checkHead k!"font" exp)

/-- The condition of wks.py 141: nothing to write. -/
def WksFont.isEmpty (o : WksFont) : Bool := o.linewidth.isNone && o.size.isNone && !o.bold && !o.italic

/-- wks.py 122–144 -/
def WksFont.toSexpr (o : WksFont) (indent : Nat := 0) (newline : Bool := false) : Str :=
  let lw := optS o.linewidth fun v => py!" (linewidth {v.pyStr})"
  let size := optS o.size fun v => py!" {v.toSexpr}"
  let bold := ifS o.bold py!" bold"
  let italic := ifS o.italic py!" italic"
  if o.isEmpty then [] else py!"{indents indent}(font{lw}{size}{bold}{italic}){endl newline}"

/-- wks.py 146–159 -/
structure WksPosition where
  X : Val := fl k!"0" k!"0"
  Y : Val := fl k!"0" k!"0"
  corner : Option Val := none
derive_canon WksPosition

/-- wks.py 161–186 -/
def WksPosition.fromSexpr (exp : Val) : PyM WksPosition :=
  match exp with
  | .list (_ :: x :: y :: r) => .ok { X := x, Y := y, corner := r.head? }
  | _ => .error .exception

/-- The part of `(start X Y corner)` after the head word, as printed by wks.py 276, 286 and the like. -/
def WksPosition.text (p : WksPosition) : Str :=
  py!"{p.X.pyStr} {p.Y.pyStr}{optS p.corner fun c => py!" {c.pyStr}"}"

/-- `Line`, wks.py 192–228, and `Rect`, wks.py 291–327 -/
structure WksShape where
  name : Val := st k!""
  start : WksPosition := {}
  «end» : WksPosition := {}
  option : Option Val := none
  lineWidth : Option Val := none
  «repeat» : Option Val := none
  incrx : Option Val := none
  incry : Option Val := none
  comment : Option Val := none
derive_canon WksShape

/-- Loop body, wks.py 252–260 and 351–359 -/
def WksShape.step (o : WksShape) (item : Val) : PyM WksShape := do
  let k ← item.idx 0
  if k.is k!"name" then return { o with name := ← item.idx 1 }
  else if k.is k!"start" then return { o with start := ← WksPosition.fromSexpr item }
  else if k.is k!"end" then return { o with «end» := ← WksPosition.fromSexpr item }
  else if k.is k!"option" then return { o with option := some (← item.idx 1) }
  else if k.is k!"linewidth" then return { o with lineWidth := some (← item.idx 1) }
  else if k.is k!"repeat" then return { o with «repeat» := some (← item.idx 1) }
  else if k.is k!"incrx" then return { o with incrx := some (← item.idx 1) }
  else if k.is k!"incry" then return { o with incry := some (← item.idx 1) }
  else if k.is k!"comment" then return { o with comment := some (← item.idx 1) }
  else return o

/-- wks.py 230–261 (`head = "line"`) and 329–360 (`head = "rect"`) -/
def WksShape.fromSexpr (head : Str) (exp : Val) : PyM WksShape := do
  forM WksShape.step {} ((← checkHead head exp).drop 1)

/-- wks.py 263–289 (`head = "line"`) and 362–388 (`head = "rect"`) -/
def WksShape.toSexpr (head : Str) (o : WksShape) (indent : Nat := 2) (newline : Bool := true) : Str :=
  let option := optS o.option fun v => py!" (option {v.pyStr})"
  let «repeat» := optS o.repeat fun v => py!" (repeat {v.pyStr})"
  let incrx := optS o.incrx fun v => py!" (incrx {v.pyStr})"
  let incry := optS o.incry fun v => py!" (incry {v.pyStr})"
  let comment := optS o.comment fun v => py!" (comment \"{dq v}\")\n"
  let lw := optS o.lineWidth fun v => py!" (linewidth {v.pyStr})"
  py!"{indents indent}({kw head} (name \"{dq o.name}\") " ++
  py!"(start {o.start.text}) " ++
  py!"(end {o.end.text})" ++
  py!"{option}{lw}{«repeat»}{incrx}{incry}{comment}){endl newline}"

/-- wks.py 458–505 -/
structure Bitmap where
  name : Val := st k!""
  position : WksPosition := {}
  option : Option Val := none
  scale : Val := fl k!"1" k!"0"
  «repeat» : Option Val := none
  incrx : Option Val := none
  incry : Option Val := none
  comment : Option Val := none
  pngdata : List Val := []
derive_canon Bitmap

/-- The inner loop of wks.py 539–541 -/
def Bitmap.data (items : List Val) : PyM (List Val) :=
  match items with
  | [] => .ok []
  | d :: r => do
    let k ← d.idx 0
    if k.is k!"data" then
      let v ← d.idx 1
      return v :: (← Bitmap.data r)
    else Bitmap.data r

/-- Loop body, wks.py 529–541 -/
def Bitmap.step (o : Bitmap) (item : Val) : PyM Bitmap := do
  let k ← item.idx 0
  if k.is k!"name" then return { o with name := ← item.idx 1 }
  else if k.is k!"pos" then return { o with position := ← WksPosition.fromSexpr item }
  else if k.is k!"option" then return { o with option := some (← item.idx 1) }
  else if k.is k!"scale" then return { o with scale := ← item.idx 1 }
  else if k.is k!"repeat" then return { o with «repeat» := some (← item.idx 1) }
  else if k.is k!"incrx" then return { o with incrx := some (← item.idx 1) }
  else if k.is k!"incry" then return { o with incry := some (← item.idx 1) }
  else if k.is k!"comment" then return { o with comment := some (← item.idx 1) }
  else if k.is k!"pngdata" then return { o with pngdata := o.pngdata ++ (← Bitmap.data (← item.slice 1)) }
  else return o

/-- wks.py 507–542 -/
def Bitmap.fromSexpr (exp : Val) : PyM Bitmap := do
  forM Bitmap.step {} ((← checkHead k!"bitmap" exp).drop 1)

/-- wks.py 544–574. The image data is not escaped. -/
def Bitmap.toSexpr (o : Bitmap) (indent : Nat := 2) (newline : Bool := true) : Str :=
  let «repeat» := optS o.repeat fun v => py!" (repeat {v.pyStr})"
  let incrx := optS o.incrx fun v => py!" (incrx {v.pyStr})"
  let incry := optS o.incry fun v => py!" (incry {v.pyStr})"
  let option := optS o.option fun v => py!" (option {v.pyStr})"
  py!"{indents indent}(bitmap (name \"{dq o.name}\") " ++
  py!"(pos {o.position.text}){option} (scale {o.scale.pyStr})" ++
  py!"{«repeat»}{incrx}{incry}\n" ++
  (optS o.comment fun v => py!" (comment \"{dq v}\")\n") ++
  py!"{indents indent}(pngdata\n" ++
  (forS o.pngdata fun d => py!"{indents indent}  (data \"{d.pyStr}\")\n") ++
  py!"{indents indent}  )\n" ++
  py!"{indents indent}){endl newline}"

/-- wks.py 577–629 -/
structure TbText where
  text : Val := st k!""
  name : Val := st k!""
  position : WksPosition := {}
  option : Option Val := none
  rotate : Option Val := none
  font : WksFont := {}
  justify : Option Justify := none
  maxlen : Option Val := none
  maxheight : Option Val := none
  «repeat» : Option Val := none
  incrx : Option Val := none
  incry : Option Val := none
  incrlabel : Option Val := none
  comment : Option Val := none
derive_canon TbText

/-- Loop body, wks.py 654–666 -/
def TbText.step (o : TbText) (item : Val) : PyM TbText := do
  let k ← item.idx 0
  if k.is k!"name" then return { o with name := ← item.idx 1 }
  else if k.is k!"pos" then return { o with position := ← WksPosition.fromSexpr item }
  else if k.is k!"option" then return { o with option := some (← item.idx 1) }
  else if k.is k!"rotate" then return { o with rotate := some (← item.idx 1) }
  else if k.is k!"font" then return { o with font := ← WksFont.fromSexpr item }
  else if k.is k!"justify" then return { o with justify := some (← Justify.fromSexpr item) }
  else if k.is k!"maxlen" then return { o with maxlen := some (← item.idx 1) }
  else if k.is k!"maxheight" then return { o with maxheight := some (← item.idx 1) }
  else if k.is k!"repeat" then return { o with «repeat» := some (← item.idx 1) }
  else if k.is k!"incrx" then return { o with incrx := some (← item.idx 1) }
  else if k.is k!"incry" then return { o with incry := some (← item.idx 1) }
  else if k.is k!"incrlabel" then return { o with incrlabel := some (← item.idx 1) }
  else if k.is k!"comment" then return { o with comment := some (← item.idx 1) }
  else return o

/-- wks.py 631–667 -/
def TbText.fromSexpr (exp : Val) : PyM TbText := do
  let l ← checkHead k!"tbtext" exp
  let text ← getI l 1
  forM TbText.step { text := text } (l.drop 2)

/-- wks.py 669–700 -/
def TbText.toSexpr (o : TbText) (indent : Nat := 2) (newline : Bool := true) : Str :=
  let «repeat» := optS o.repeat fun v => py!" (repeat {v.pyStr})"
  let incrx := optS o.incrx fun v => py!" (incrx {v.pyStr})"
  let incry := optS o.incry fun v => py!" (incry {v.pyStr})"
  let option := optS o.option fun v => py!" (option {v.pyStr})"
  let rotate := optS o.rotate fun v => py!" (rotate {v.pyStr})"
  let justify := optS o.justify fun v => py!" {v.toSexpr}"
  let maxlen := optS o.maxlen fun v => py!" (maxlen {v.pyStr})"
  let maxheight := optS o.maxheight fun v => py!" (maxheight {v.pyStr})"
  let incrlabel := optS o.incrlabel fun v => py!" (incrlabel {v.pyStr})"
  let font := ifS (!o.font.toSexpr.isEmpty) py!" {o.font.toSexpr}"
  py!"{indents indent}(tbtext \"{dq o.text}\" (name \"{dq o.name}\") " ++
  py!"(pos {o.position.text}){option}{rotate}" ++
  py!"{font}{justify}{maxlen}{maxheight}{«repeat»}{incrx}{incry}{incrlabel}" ++
  (optS o.comment fun v => py!" (comment \"{dq v}\")\n") ++
  py!"){endl newline}"

/-- wks.py 703–711 -/
structure TextSize where
  width : Val := fl k!"1" k!"5"
  height : Val := fl k!"1" k!"5"
derive_canon TextSize

/-- wks.py 713–736 -/
def TextSize.fromSexpr (exp : Val) : PyM TextSize :=
  match exp with
  | .list [h, w, x] => if h.is k!"textsize" then .ok { width := w, height := x } else .error .exception
  | _ => .error .exception

/-- wks.py 738–750 -/
def TextSize.toSexpr (o : TextSize) (indent : Nat := 0) (newline : Bool := false) : Str :=
  py!"{indents indent}(textsize {o.width.pyStr} {o.height.pyStr}){endl newline}"

/-- wks.py 752–779 -/
structure Setup where
  textSize : TextSize := {}
  lineWidth : Val := fl k!"0" k!"15"
  textLineWidth : Val := fl k!"0" k!"15"
  leftMargin : Val := fl k!"10" k!"0"
  rightMargin : Val := fl k!"10" k!"0"
  topMargin : Val := fl k!"10" k!"0"
  bottomMargin : Val := fl k!"10" k!"0"
derive_canon Setup

/-- Loop body, wks.py 803–809 -/
def Setup.step (o : Setup) (item : Val) : PyM Setup := do
  let k ← item.idx 0
  if k.is k!"textsize" then return { o with textSize := ← TextSize.fromSexpr item }
  else if k.is k!"linewidth" then return { o with lineWidth := ← item.idx 1 }
  else if k.is k!"textlinewidth" then return { o with textLineWidth := ← item.idx 1 }
  else if k.is k!"left_margin" then return { o with leftMargin := ← item.idx 1 }
  else if k.is k!"right_margin" then return { o with rightMargin := ← item.idx 1 }
  else if k.is k!"top_margin" then return { o with topMargin := ← item.idx 1 }
  else if k.is k!"bottom_margin" then return { o with bottomMargin := ← item.idx 1 }
  else return o

/-- wks.py 781–810 -/
def Setup.fromSexpr (exp : Val) : PyM Setup := do
  forM Setup.step {} ((← checkHead k!"setup" exp).drop 1)

/-- wks.py 812–832 -/
def Setup.toSexpr (o : Setup) (indent : Nat := 2) (newline : Bool := true) : Str :=
  py!"{indents indent}(setup {o.textSize.toSexpr}(linewidth {o.lineWidth.pyStr})" ++
  py!"(textlinewidth {o.textLineWidth.pyStr})\n{indents indent}" ++
  py!"(left_margin {o.leftMargin.pyStr})(right_margin {o.rightMargin.pyStr})" ++
  py!"(top_margin {o.topMargin.pyStr})(bottom_margin {o.bottomMargin.pyStr})" ++
  py!"){endl newline}"

/-- The objects in `WorkSheet.drawingObjects`. A `Polygon` cannot be read; one put in by hand makes `to_sexpr` raise
`NotImplementedError` (wks.py 456); its fields do not matter. -/
inductive WksItem where
  | line (o : WksShape)
  | rect (o : WksShape)
  | polygon
  | bitmap (o : Bitmap)
  | tbtext (o : TbText)

instance : Canon WksItem where
  canon
    | .line o => .line (canon o)
    | .rect o => .rect (canon o)
    | .polygon => .polygon
    | .bitmap o => .bitmap (canon o)
    | .tbtext o => .tbtext (canon o)

/-- `item.to_sexpr(indent)` for the class of the item -/
def WksItem.toSexpr (o : WksItem) (indent : Nat) : PyM Str :=
  match o with
  | .line o => .ok (o.toSexpr k!"line" indent)
  | .rect o => .ok (o.toSexpr k!"rect" indent)
  | .polygon => .error .notImplemented
  | .bitmap o => .ok (o.toSexpr indent)
  | .tbtext o => .ok (o.toSexpr indent)

/-- wks.py 834–855. `version` and `generator` default to the strings of misc/config.py 13 and 16. -/
structure WorkSheet where
  version : Val := st k!"20211014"
  generator : Val := st k!"kiutils"
  setup : Setup := {}
  drawingObjects : List WksItem := []
  filePath : Option Str := none
derive_canon WorkSheet

/-- Loop body, wks.py 879–886 -/
def WorkSheet.step (o : WorkSheet) (item : Val) : PyM WorkSheet := do
  let k ← item.idx 0
  if k.is k!"version" then return { o with version := ← item.idx 1 }
  else if k.is k!"generator" then return { o with generator := ← item.idx 1 }
  else if k.is k!"setup" then return { o with setup := ← Setup.fromSexpr item }
  else if k.is k!"rect" then return { o with drawingObjects := o.drawingObjects ++ [.rect (← WksShape.fromSexpr k!"rect" item)] }
  else if k.is k!"line" then return { o with drawingObjects := o.drawingObjects ++ [.line (← WksShape.fromSexpr k!"line" item)] }
  else if k.is k!"polygon" then .error .notImplemented
  else if k.is k!"tbtext" then return { o with drawingObjects := o.drawingObjects ++ [.tbtext (← TbText.fromSexpr item)] }
  else if k.is k!"bitmap" then return { o with drawingObjects := o.drawingObjects ++ [.bitmap (← Bitmap.fromSexpr item)] }
  else return o

/-- wks.py 857–887 -/
def WorkSheet.fromSexpr (exp : Val) : PyM WorkSheet := do
  forM WorkSheet.step {} ((← checkHead k!"kicad_wks" exp).drop 1)

/-- wks.py 913–923 -/
def WorkSheet.createNew : WorkSheet := {}

/-- wks.py 943–962 -/
def WorkSheet.toSexpr (o : WorkSheet) (indent : Nat := 0) (newline : Bool := true) : PyM Str := do
  let items ← forSM o.drawingObjects fun i => i.toSexpr (indent + 2)
  return py!"{indents indent}(kicad_wks (version {o.version.pyStr}) (generator {o.generator.pyStr})\n" ++
    o.setup.toSexpr (indent + 2) ++
    items ++
    py!"{indents indent}){endl newline}"

end Kiutils
