import Verif.Py
import Verif.FloatText
/-!
# `src/kiutils/items/common.py`

`from_sexpr` loops of the form `for item in exp: if item[0] == 'a': …; if item[0] == 'b': …` are written as `if … else if …`:
the keys are pairwise different, so at most one branch is taken. `item[0]` on a number raises `TypeError`, on an empty string or
list `IndexError` (`Val.idx`).
-/
namespace Kiutils

/-- A Python float literal `ip.fp`. -/
def fl (ip fp : Str) : Val := .flt (F64.ofDecimal false ip fp)
/-- A Python string literal. -/
def st (s : Str) : Val := .str s

/-- common.py 25–46 -/
structure Position where
  X : Val := fl k!"0" k!"0"
  Y : Val := fl k!"0" k!"0"
  angle : Option Val := none
  unlocked : Bool := false
derive_canon Position

/-- common.py 48–76. `exp[3] != 'unlocked'` decides whether the fourth element is the angle; any element equal to `'unlocked'`
(the head and the coordinates included) sets the flag. -/
def Position.fromSexpr (exp : Val) : PyM Position :=
  match exp with
  | .list (h :: x :: y :: r) => do
    let o : Position := { X := x, Y := y }
    let o := match r with
      | a :: _ => if a.is k!"unlocked" then o else { o with angle := some a }
      | [] => o
    return { o with unlocked := (h :: x :: y :: r).any (·.is k!"unlocked") }
  | _ => .error .exception

/-- common.py 83–94 -/
structure Coordinate where
  X : Val := fl k!"0" k!"0"
  Y : Val := fl k!"0" k!"0"
  Z : Val := fl k!"0" k!"0"
derive_canon Coordinate

/-- common.py 96–120 -/
def Coordinate.fromSexpr (exp : Val) : PyM Coordinate :=
  match exp with
  | .list [h, x, y, z] => if h.is k!"xyz" then .ok { X := x, Y := y, Z := z } else .error .exception
  | _ => .error .exception

/-- common.py 122–134 -/
def Coordinate.toSexpr (o : Coordinate) (indent : Nat := 0) (newline : Bool := false) : Str :=
  py!"{indents indent}(xyz {o.X.pyStr} {o.Y.pyStr} {o.Z.pyStr}){endl newline}"

/-- common.py 137–155 -/
structure ColorRGBA where
  R : Val := .int 0
  G : Val := .int 0
  B : Val := .int 0
  A : Val := .int 0
  precision : Option Nat := none
derive_canon ColorRGBA

/-- common.py 157–182 -/
def ColorRGBA.fromSexpr (exp : Val) : PyM ColorRGBA :=
  match exp with
  | .list [h, r, g, b, a] => if h.is k!"color" then .ok { R := r, G := g, B := b, A := a } else .error .exception
  | _ => .error .exception

/-- The text of `f'{v:.{p}f}'` for a number in the range of doubles. For everything else Python raises an exception (`formatFixed` and
`floatFixed` say which) and this function prints something else. -/
def fmtFixedVal (p : Nat) : Val → Str
  | .int n => F64.fmtFixed p (F64.ofRat (decide (n < 0)) n.natAbs 1)
  | .flt f => F64.fmtFixed p f
  | v => v.pyStr

/-- common.py 184–202. Simplification: when `precision` is set and alpha is not a number, Python raises an exception. Only
`HierarchicalSheet.from_sexpr` sets `precision`; that class uses `toSexprM`, all others this function. -/
def ColorRGBA.toSexpr (o : ColorRGBA) (indent : Nat := 0) (newline : Bool := false) : Str :=
  let alpha := match o.precision with
    | some p => fmtFixedVal p o.A
    | none => o.A.pyStr
  py!"{indents indent}(color {o.R.pyStr} {o.G.pyStr} {o.B.pyStr} {alpha}){endl newline}"

/-- common.py 184–202, with the exceptions of line 198 -/
def ColorRGBA.toSexprM (o : ColorRGBA) (indent : Nat := 0) (newline : Bool := false) : PyM Str :=
  match o.precision with
  | some p => do
    let alpha ← formatFixed p o.A
    return py!"{indents indent}(color {o.R.pyStr} {o.G.pyStr} {o.B.pyStr} {alpha}){endl newline}"
  | none => return py!"{indents indent}(color {o.R.pyStr} {o.G.pyStr} {o.B.pyStr} {o.A.pyStr}){endl newline}"

/-- common.py 204–223 -/
structure Stroke where
  width : Val := fl k!"0" k!"0"
  type : Option Val := none
  color : Option ColorRGBA := none
derive_canon Stroke

/-- Loop body, common.py 247–251 -/
def Stroke.step (o : Stroke) (item : Val) : PyM Stroke :=
  match item with
  | .list _ => do
    let k ← item.idx 0
    if k.is k!"width" then return { o with width := ← item.idx 1 }
    else if k.is k!"type" then return { o with type := some (← item.idx 1) }
    else if k.is k!"color" then return { o with color := some (← ColorRGBA.fromSexpr item) }
    else return o
  | _ => return o

/-- common.py 225–252 (`len(exp) < 2` is rejected before the head is looked at) -/
def Stroke.fromSexpr (exp : Val) : PyM Stroke :=
  match exp with
  | .list (h :: x :: r) => if h.is k!"stroke" then forM Stroke.step {} (h :: x :: r) else .error .exception
  | _ => .error .exception

/-- common.py 254–268 -/
def Stroke.toSexpr (o : Stroke) (indent : Nat := 2) (newline : Bool := true) : Str :=
  let color := optS o.color fun c => py!" {c.toSexpr}"
  let theType := optS o.type fun t => py!" (type {t.pyStr})"
  py!"{indents indent}(stroke (width {o.width.pyStr}){theType}{color}){endl newline}"

/-- common.py 272–305 -/
structure Font where
  face : Option Val := none
  height : Val := fl k!"1" k!"0"
  width : Val := fl k!"1" k!"0"
  thickness : Option Val := none
  bold : Bool := false
  italic : Bool := false
  lineSpacing : Option Val := none
  color : Option ColorRGBA := none
derive_canon Font

/-- Loop body, common.py 329–339 -/
def Font.step (o : Font) (item : Val) : PyM Font :=
  match item with
  | .list _ => do
    let k ← item.idx 0
    if k.is k!"face" then return { o with face := some (← item.idx 1) }
    else if k.is k!"size" then return { o with height := ← item.idx 1, width := ← item.idx 2 }
    else if k.is k!"thickness" then return { o with thickness := some (← item.idx 1) }
    else if k.is k!"line_spacing" then return { o with lineSpacing := some (← item.idx 1) }
    else if k.is k!"color" then return { o with color := some (← ColorRGBA.fromSexpr item) }
    else return o
  | _ =>
    if item.is k!"bold" then return { o with bold := true }
    else if item.is k!"italic" then return { o with italic := true }
    else return o

/-- common.py 307–340 -/
def Font.fromSexpr (exp : Val) : PyM Font := do
  forM Font.step {} (← checkHead k!"font" exp)

/-- common.py 342–364 -/
def Font.toSexpr (o : Font) (indent : Nat := 0) (newline : Bool := false) : Str :=
  let faceName := optS o.face fun f => py!"(face \"{dq f}\") "
  let thickness := optS o.thickness fun t => py!" (thickness {t.pyStr})"
  let bold := ifS o.bold py!" bold"
  let italic := ifS o.italic py!" italic"
  let linespacing := optS o.lineSpacing fun t => py!" (line_spacing {t.pyStr})"
  let color := optS o.color fun c => py!" {c.toSexpr}"
  py!"{indents indent}(font {faceName}(size {o.height.pyStr} {o.width.pyStr}){color}{thickness}{bold}{italic}{linespacing}){endl newline}"

/-- common.py 366–381 -/
structure Justify where
  horizontally : Option Val := none
  vertically : Option Val := none
  mirror : Bool := false
derive_canon Justify

/-- Loop body, common.py 405–408 -/
def Justify.step (o : Justify) (item : Val) : PyM Justify :=
  if item.is k!"left" || item.is k!"right" || item.is k!"center" then return { o with horizontally := some item }
  else if item.is k!"top" || item.is k!"bottom" then return { o with vertically := some item }
  else if item.is k!"mirror" then return { o with mirror := true }
  else return o

/-- common.py 383–409 -/
def Justify.fromSexpr (exp : Val) : PyM Justify := do
  forM Justify.step {} (← checkHead k!"justify" exp)

/-- The condition of common.py 426: nothing to write. -/
def Justify.isEmpty (o : Justify) : Bool := o.horizontally.isNone && o.vertically.isNone && !o.mirror

/-- common.py 411–436 -/
def Justify.toSexpr (o : Justify) (indent : Nat := 0) (newline : Bool := false) : Str :=
  if o.isEmpty then py!"{indents indent}{endl newline}"
  else
    let horizontally := optS o.horizontally fun h => py!" {h.pyStr}"
    let vertically := optS o.vertically fun h => py!" {h.pyStr}"
    let mirror := ifS o.mirror py!" mirror"
    py!"{indents indent}(justify{horizontally}{vertically}{mirror}){endl newline}"

/-- common.py 438–458 -/
structure Effects where
  font : Font := {}
  justify : Justify := {}
  hide : Bool := false
  href : Option Val := none
derive_canon Effects

/-- Loop body, common.py 482–487. After `'hide'` the code goes on to compare `item[0] == 'h'`, which has no effect. -/
def Effects.step (o : Effects) (item : Val) : PyM Effects :=
  match item with
  | .list _ => do
    let k ← item.idx 0
    if k.is k!"font" then return { o with font := ← Font.fromSexpr item }
    else if k.is k!"justify" then return { o with justify := ← Justify.fromSexpr item }
    else if k.is k!"href" then return { o with href := some (← item.idx 1) }
    else return o
  | _ => if item.is k!"hide" then return { o with hide := true } else return o

/-- common.py 460–488 -/
def Effects.fromSexpr (exp : Val) : PyM Effects := do
  forM Effects.step {} (← checkHead k!"effects" exp)

/-- common.py 490–508 -/
def Effects.toSexpr (o : Effects) (indent : Nat := 0) (newline : Bool := true) : Str :=
  let justify := ifS (!o.justify.toSexpr.isEmpty) py!" {o.justify.toSexpr}"
  let hide := ifS o.hide py!" hide"
  let href := optS o.href fun h => py!" (href \"{dq h}\")"
  py!"{indents indent}(effects {o.font.toSexpr}{justify}{href}{hide}){endl newline}"

/-- common.py 511–519 -/
structure Net where
  number : Val := .int 0
  name : Val := st k!""
derive_canon Net

/-- common.py 521–544 -/
def Net.fromSexpr (exp : Val) : PyM Net := do
  let l ← checkHead k!"net" exp
  let number ← getI l 1
  let name ← getI l 2
  return { number := number, name := name }

/-- common.py 546–559 -/
def Net.toSexpr (o : Net) (indent : Nat := 0) (newline : Bool := false) : Str :=
  py!"{indents indent}(net {o.number.pyStr} \"{dq o.name}\"){endl newline}"

/-- common.py 561–579 -/
structure Group where
  name : Val := st k!""
  locked : Bool := false
  id : Val := st k!""
  members : List Val := []
derive_canon Group

/-- Loop body, common.py 604–610. It also sees the name, so a group named `locked` becomes locked. -/
def Group.step (o : Group) (item : Val) : PyM Group :=
  match item with
  | .list _ => do
    let k ← item.idx 0
    if k.is k!"id" then return { o with id := ← item.idx 1 }
    else if k.is k!"members" then return { o with members := o.members ++ (← item.slice 1) }
    else return o
  | _ => if item.is k!"locked" then return { o with locked := true } else return o

/-- common.py 581–611 -/
def Group.fromSexpr (exp : Val) : PyM Group := do
  let l ← checkHead k!"group" exp
  let name ← getI l 1
  forM Group.step { name := name } l

/-- common.py 613–634 -/
def Group.toSexpr (o : Group) (indent : Nat := 2) (newline : Bool := true) : Str :=
  let locked := ifS o.locked py!" locked"
  let members := forS o.members fun m => py!"{indents indent}    {m.pyStr}\n"
  py!"{indents indent}(group \"{dq o.name}\"{locked} (id {o.id.pyStr})\n" ++
  py!"{indents indent}  (members\n{members}{indents indent}  )\n{indents indent}){endl newline}"

/-- common.py 636–655 -/
structure PageSettings where
  paperSize : Val := st k!"A4"
  width : Option Val := none
  height : Option Val := none
  portrait : Bool := false
derive_canon PageSettings

/-- Loop body, common.py 687–689. It also sees the page size, so a page size `portrait` sets the flag. -/
def PageSettings.step (o : PageSettings) (item : Val) : PyM PageSettings :=
  if item.is k!"portrait" then return { o with portrait := true } else return o

/-- common.py 657–690 -/
def PageSettings.fromSexpr (exp : Val) : PyM PageSettings := do
  let l ← checkHead k!"paper" exp
  let size ← getI l 1
  let o : PageSettings := { paperSize := size }
  if size.is k!"User" then
    if l.length < 4 then .error .exception
    else
      let w ← getI l 2
      let h ← getI l 3
      forM PageSettings.step { o with width := some w, height := some h } l
  else forM PageSettings.step o l

/-- common.py 692–715. Raises if the page is user-defined and a dimension is missing. -/
def PageSettings.toSexpr (o : PageSettings) (indent : Nat := 2) (newline : Bool := true) : PyM Str :=
  let portrait := ifS o.portrait py!" portrait"
  if o.paperSize.is k!"User" then
    match o.width, o.height with
    | some w, some h =>
      .ok py!"{indents indent}(paper \"{dq o.paperSize}\" {w.pyStr} {h.pyStr}{portrait}){endl newline}"
    | _, _ => .error .exception
  else .ok py!"{indents indent}(paper \"{dq o.paperSize}\"{portrait}){endl newline}"

/-- common.py 717–739 -/
structure TitleBlock where
  title : Option Val := none
  date : Option Val := none
  revision : Option Val := none
  company : Option Val := none
  comments : Dict Val := []
derive_canon TitleBlock

/-- Loop body, common.py 763–767 -/
def TitleBlock.step (o : TitleBlock) (item : Val) : PyM TitleBlock := do
  let k ← item.idx 0
  if k.is k!"title" then return { o with title := some (← item.idx 1) }
  else if k.is k!"date" then return { o with date := some (← item.idx 1) }
  else if k.is k!"rev" then return { o with revision := some (← item.idx 1) }
  else if k.is k!"company" then return { o with company := some (← item.idx 1) }
  else if k.is k!"comment" then
    let n ← item.idx 1
    let c ← item.idx 2
    return { o with comments := ← o.comments.update n c }
  else return o

/-- common.py 741–768 -/
def TitleBlock.fromSexpr (exp : Val) : PyM TitleBlock := do
  forM TitleBlock.step {} (← checkHead k!"title_block" exp)

/-- common.py 770–799 -/
def TitleBlock.toSexpr (o : TitleBlock) (indent : Nat := 2) (newline : Bool := true) : Str :=
  py!"{indents indent}(title_block\n" ++
  (optS o.title fun t => py!"{indents indent}  (title \"{dq t}\")\n") ++
  (optS o.date fun t => py!"{indents indent}  (date \"{dq t}\")\n") ++
  (optS o.revision fun t => py!"{indents indent}  (rev \"{dq t}\")\n") ++
  (optS o.company fun t => py!"{indents indent}  (company \"{dq t}\")\n") ++
  (forS o.comments fun c => py!"{indents indent}  (comment {c.1.pyStr} \"{dq c.2}\")\n") ++
  py!"{indents indent}){endl newline}"

/-- common.py 801–831 -/
structure Property where
  key : Val := st k!""
  value : Val := st k!""
  id : Option Val := none
  position : Position := { angle := some (.int 0) }
  effects : Option Effects := none
  showName : Bool := false
derive_canon Property

/-- Loop body, common.py 857–860 -/
def Property.step (o : Property) (item : Val) : PyM Property := do
  let k ← item.idx 0
  if k.is k!"id" then return { o with id := some (← item.idx 1) }
  else if k.is k!"at" then return { o with position := ← Position.fromSexpr item }
  else if k.is k!"effects" then return { o with effects := some (← Effects.fromSexpr item) }
  else if k.is k!"show_name" then return { o with showName := true }
  else return o

/-- common.py 833–861 -/
def Property.fromSexpr (exp : Val) : PyM Property := do
  let l ← checkHead k!"property" exp
  let key ← getI l 1
  let value ← getI l 2
  forM Property.step { key := key, value := value } (l.drop 3)

/-- common.py 863–886 -/
def Property.toSexpr (o : Property) (indent : Nat := 4) (newline : Bool := true) : Str :=
  let posA := optS o.position.angle fun a => py!" {a.pyStr}"
  let id := optS o.id fun i => py!" (id {i.pyStr})"
  let sn := ifS o.showName py!" (show_name)"
  py!"{indents indent}(property \"{dq o.key}\" \"{dq o.value}\"{id} (at {o.position.X.pyStr} {o.position.Y.pyStr}{posA}){sn}" ++
  (match o.effects with
   | some e => py!"\n{e.toSexpr (indent + 2)}{indents indent}){endl newline}"
   | none => py!"){endl newline}")

/-- common.py 888–896 -/
structure RenderCachePolygon where
  pts : List Position := []
derive_canon RenderCachePolygon

/-- Loop body, common.py 920–922 -/
def RenderCachePolygon.step (o : RenderCachePolygon) (item : Val) : PyM RenderCachePolygon := do
  let k ← item.idx 0
  if k.is k!"pts" then return { o with pts := o.pts ++ (← mapM' Position.fromSexpr (← item.slice 1)) }
  else return o

/-- common.py 898–923 -/
def RenderCachePolygon.fromSexpr (exp : Val) : PyM RenderCachePolygon := do
  forM RenderCachePolygon.step {} (← checkHead k!"polygon" exp)

/-- common.py 925–951 -/
def RenderCachePolygon.toSexpr (o : RenderCachePolygon) (indent : Nat := 6) (newline : Bool := true) : Str :=
  let pts := forS o.pts.zipIdx fun p =>
    py!"{ifS (p.2 % 4 == 0) ['\n']}{indents indent}    (xy {p.1.X.pyStr} {p.1.Y.pyStr})"
  py!"{indents indent}(polygon\n{indents indent}  (pts{pts}\n{indents indent}  )\n{indents indent}){endl newline}"

/-- common.py 953–970 -/
structure RenderCache where
  text : Val := st k!""
  id : Val := .int 0
  polygons : List RenderCachePolygon := []
derive_canon RenderCache

/-- Loop body, common.py 996 -/
def RenderCache.step (o : RenderCache) (item : Val) : PyM RenderCache := do
  let k ← item.idx 0
  if k.is k!"polygon" then return { o with polygons := o.polygons ++ [← RenderCachePolygon.fromSexpr item] }
  else return o

/-- common.py 972–997. The loop runs over the text and the id as well: an empty text raises `IndexError`, a numeric id
`TypeError`. -/
def RenderCache.fromSexpr (exp : Val) : PyM RenderCache :=
  match exp with
  | .list (h :: text :: id :: r) =>
    if h.is k!"render_cache" then forM RenderCache.step { text := text, id := id } (h :: text :: id :: r)
    else .error .exception
  | _ => .error .exception

/-- common.py 999–1016 -/
def RenderCache.toSexpr (o : RenderCache) (indent : Nat := 4) (newline : Bool := true) : Str :=
  py!"{indents indent}(render_cache \"{dq o.text}\" {o.id.pyStr}\n" ++
  (forS o.polygons fun p => p.toSexpr (indent + 2)) ++
  py!"{indents indent}){endl newline}"

/-- common.py 1018–1036 -/
structure Fill where
  type : Val := st k!"none"
  color : Option ColorRGBA := none
derive_canon Fill

/-- Loop body, common.py 1060–1061 -/
def Fill.step (o : Fill) (item : Val) : PyM Fill := do
  let k ← item.idx 0
  if k.is k!"type" then return { o with type := ← item.idx 1 }
  else if k.is k!"color" then return { o with color := some (← ColorRGBA.fromSexpr item) }
  else return o

/-- common.py 1038–1062 -/
def Fill.fromSexpr (exp : Val) : PyM Fill := do
  forM Fill.step {} (← checkHead k!"fill" exp)

/-- common.py 1064–1079 -/
def Fill.toSexpr (o : Fill) (indent : Nat := 4) (newline : Bool := true) : Str :=
  let color := optS o.color fun c => py!" {c.toSexpr}"
  py!"{indents indent}(fill (type {o.type.pyStr}){color}){endl newline}"

/-- common.py 1081–1104 -/
structure Image where
  position : Position := {}
  scale : Option Val := none
  data : List Val := []
  uuid : Option Val := none
  layer : Option Val := none
derive_canon Image

/-- Loop body, common.py 1128–1134 -/
def Image.step (o : Image) (item : Val) : PyM Image := do
  let k ← item.idx 0
  if k.is k!"at" then return { o with position := ← Position.fromSexpr item }
  else if k.is k!"scale" then return { o with scale := some (← item.idx 1) }
  else if k.is k!"uuid" then return { o with uuid := some (← item.idx 1) }
  else if k.is k!"layer" then return { o with layer := some (← item.idx 1) }
  else if k.is k!"data" then return { o with data := o.data ++ (← item.slice 1) }
  else return o

/-- common.py 1106–1135 -/
def Image.fromSexpr (exp : Val) : PyM Image := do
  forM Image.step {} (← checkHead k!"image" exp)

/-- common.py 1137–1161. The angle of the position is not written. -/
def Image.toSexpr (o : Image) (indent : Nat := 2) (newline : Bool := true) : Str :=
  let scale := optS o.scale fun s => py!" (scale {s.pyStr})"
  let layer := optS o.layer fun l => py!" (layer \"{dq l}\")"
  py!"{indents indent}(image (at {o.position.X.pyStr} {o.position.Y.pyStr}){layer}{scale}\n" ++
  (optS o.uuid fun u => py!"{indents indent}  (uuid {u.pyStr})\n") ++
  py!"{indents indent}  (data\n" ++
  (forS o.data fun d => py!"{indents indent}    {d.pyStr}\n") ++
  py!"{indents indent}  )\n{indents indent}){endl newline}"

end Kiutils
