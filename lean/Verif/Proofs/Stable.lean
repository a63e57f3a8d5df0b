import Verif.Stable
/-!
# Loaded objects are well-formed again

Generated field by field from the conditions in `Verif/Format/*.lean`: turning integral floats into ints twice is the same as doing
it once, and keeps the conditions.
-/
namespace Kiutils

theorem Stable.optWords {P : Val → Prop} (hP : ∀ v, P v → ∃ s, v = .str s) {x : Option Val} (h : ∀ v, x = some v → P v) :
    ∀ v, canon x = some v → P v := by
  intro v hv
  cases x with
  | none => cases hv
  | some a => cases hv; exact Stable.words hP (h a rfl)

theorem Stable.strEq' {v : Val} {s : Str} (h : canon v = .str s) : v = .str s := by
  by_contra hn
  exact Stable.strNe hn h

theorem Stable.some_inv {α : Type} [Canon α] {x : Option α} {v : α} (h : canon x = some v) : ∃ a, x = some a ∧ v = canon a := by
  cases x with
  | none => cases h
  | some a => cases h; exact ⟨a, rfl, rfl⟩

theorem Stable.none_inv {α : Type} [Canon α] {x : Option α} (h : canon x = .none) : x = .none := by
  cases x with
  | none => rfl
  | some a => cases h

theorem Stable.mem_inv {α : Type} [Canon α] {x : List α} {v : α} (h : v ∈ canon x) : ∃ a ∈ x, v = canon a := by
  obtain ⟨a, ha, rfl⟩ := List.mem_map.1 (show v ∈ x.map canon from h)
  exact ⟨a, ha, rfl⟩

theorem IdOk.stable [TextRule] {a b c d : Option Val} (h : IdOk a b c d) : IdOk (canon a) (canon b) (canon c) (canon d) := by
  cases h with
  | nick n e h1 h2 h3 h4 h5 h6 => exact .nick n e h1 h2 h3 h4 h5 h6
  | unit e u s h1 h2 h3 => exact .unit e u s h1 h2 h3
  | top e h1 h2 h3 h4 => exact .top e h1 h2 h3 h4

theorem SchIdOk.stable [TextRule] {a b : Option Val} (h : SchIdOk a b) : SchIdOk (canon a) (canon b) := by
  cases h with
  | nick n e h1 h2 h3 h4 h5 h6 => exact .nick n e h1 h2 h3 h4 h5 h6
  | plain e h1 h2 => exact .plain e h1 h2

derive_idem Position
theorem Position.WF.stable [TextRule] {o : Position} (h : o.WF) : (canon o).WF where
  X := Stable.keep h.X
  Y := Stable.keep h.Y
  angle := Stable.opt h.angle
  unlocked := h.unlocked
instance [TextRule] : Stable Position.WF := ⟨Position.WF.stable⟩

theorem Position.WFXY.stable [TextRule] {o : Position} (h : o.WFXY) : (canon o).WFXY where
  X := Stable.keep h.X
  Y := Stable.keep h.Y
  angle := Stable.none h.angle
  unlocked := h.unlocked
instance [TextRule] : Stable Position.WFXY := ⟨Position.WFXY.stable⟩

theorem Position.WFU.stable [TextRule] {o : Position} (h : o.WFU) : (canon o).WFU where
  X := Stable.keep h.X
  Y := Stable.keep h.Y
  angle := Stable.opt h.angle
instance [TextRule] : Stable Position.WFU := ⟨Position.WFU.stable⟩

derive_idem Coordinate
theorem Coordinate.WF.stable [TextRule] {o : Coordinate} (h : o.WF) : (canon o).WF where
  X := Stable.keep h.X
  Y := Stable.keep h.Y
  Z := Stable.keep h.Z
instance [TextRule] : Stable Coordinate.WF := ⟨Coordinate.WF.stable⟩

derive_idem ColorRGBA
theorem ColorRGBA.WF.stable [TextRule] {o : ColorRGBA} (h : o.WF) : (canon o).WF where
  R := Stable.keep h.R
  G := Stable.keep h.G
  B := Stable.keep h.B
  A := Stable.keep h.A
  precision := Stable.none h.precision
instance [TextRule] : Stable ColorRGBA.WF := ⟨ColorRGBA.WF.stable⟩

theorem ColorRGBA.WFPrec.stable [TextRule] {o : ColorRGBA} (h : o.WFPrec) : (canon o).WFPrec where
  R := Stable.keep h.R
  G := Stable.keep h.G
  B := Stable.keep h.B
  A := by
    rcases h.A with ⟨h1, h2⟩ | ⟨p, h1, h2⟩
    · exact .inl ⟨congrArg canon h1, Stable.keep h2⟩
    · exact .inr ⟨p, congrArg canon h1, Stable.keep h2⟩
instance [TextRule] : Stable ColorRGBA.WFPrec := ⟨ColorRGBA.WFPrec.stable⟩

derive_idem Stroke
theorem Stroke.WF.stable [TextRule] {o : Stroke} (h : o.WF) : (canon o).WF where
  width := Stable.keep h.width
  type := Stable.opt h.type
  color := Stable.opt h.color
instance [TextRule] : Stable Stroke.WF := ⟨Stroke.WF.stable⟩

derive_idem Font
theorem Font.WF.stable [TextRule] {o : Font} (h : o.WF) : (canon o).WF where
  face := Stable.opt h.face
  height := Stable.keep h.height
  width := Stable.keep h.width
  thickness := Stable.opt h.thickness
  lineSpacing := Stable.opt h.lineSpacing
  color := Stable.opt h.color
instance [TextRule] : Stable Font.WF := ⟨Font.WF.stable⟩

derive_idem Justify
theorem Justify.WF.stable [TextRule] {o : Justify} (h : o.WF) : (canon o).WF where
  horizontally := fun v hv => Stable.optWords (by rintro v (rfl | rfl | rfl) <;> exact ⟨_, rfl⟩) h.horizontally v hv
  vertically := fun v hv => Stable.optWords (by rintro v (rfl | rfl) <;> exact ⟨_, rfl⟩) h.vertically v hv
instance [TextRule] : Stable Justify.WF := ⟨Justify.WF.stable⟩

derive_idem Effects
theorem Effects.WF.stable [TextRule] {o : Effects} (h : o.WF) : (canon o).WF where
  font := Stable.keep h.font
  justify := Stable.keep h.justify
  href := Stable.opt h.href
instance [TextRule] : Stable Effects.WF := ⟨Effects.WF.stable⟩

derive_idem Net
theorem Net.WF.stable [TextRule] {o : Net} (h : o.WF) : (canon o).WF where
  number := Stable.keep h.number
  name := Stable.keep h.name
instance [TextRule] : Stable Net.WF := ⟨Net.WF.stable⟩

derive_idem Group
theorem Group.WF.stable [TextRule] {o : Group} (h : o.WF) : (canon o).WF where
  name := Stable.keep h.name
  name_ne := Stable.strNe h.name_ne
  id := Stable.keep h.id
  members := Stable.list h.members
instance [TextRule] : Stable Group.WF := ⟨Group.WF.stable⟩

derive_idem PageSettings
theorem PageSettings.WF.stable [TextRule] {o : PageSettings} (h : o.WF) : (canon o).WF where
  paperSize := Stable.keep h.paperSize
  paperSize_ne := Stable.strNe h.paperSize_ne
  user := fun e => by
    obtain ⟨⟨w, hw, hw'⟩, x, hx, hx'⟩ := h.user (Stable.strEq' e)
    exact ⟨⟨canon w, congrArg canon hw, Stable.keep hw'⟩, canon x, congrArg canon hx, Stable.keep hx'⟩
  other := fun e => by
    obtain ⟨hw, hx⟩ := h.other fun e' => e (Stable.strEq e')
    exact ⟨Stable.none hw, Stable.none hx⟩
instance [TextRule] : Stable PageSettings.WF := ⟨PageSettings.WF.stable⟩

derive_idem TitleBlock
theorem TitleBlock.WF.stable [TextRule] {o : TitleBlock} (h : o.WF) : (canon o).WF where
  title := Stable.opt h.title
  date := Stable.opt h.date
  revision := Stable.opt h.revision
  company := Stable.opt h.company
  numbers := Stable.fst h.numbers
  comments := Stable.snd h.comments
  distinct := Stable.keys h.distinct
instance [TextRule] : Stable TitleBlock.WF := ⟨TitleBlock.WF.stable⟩

derive_idem Property
theorem Property.WF.stable [TextRule] {o : Property} (h : o.WF) : (canon o).WF where
  key := Stable.keep h.key
  value := Stable.keep h.value
  id := Stable.opt h.id
  position := Stable.keep h.position
  effects := Stable.opt h.effects
instance [TextRule] : Stable Property.WF := ⟨Property.WF.stable⟩

derive_idem RenderCachePolygon
theorem RenderCachePolygon.WF.stable [TextRule] {o : RenderCachePolygon} (h : o.WF) : (canon o).WF where
  pts := Stable.list h.pts
instance [TextRule] : Stable RenderCachePolygon.WF := ⟨RenderCachePolygon.WF.stable⟩

derive_idem RenderCache
theorem RenderCache.WF.stable [TextRule] {o : RenderCache} (h : o.WF) : (canon o).WF where
  text := Stable.keep h.text
  text_ne := Stable.strNe h.text_ne
  id := Stable.keep h.id
  polygons := Stable.list h.polygons
instance [TextRule] : Stable RenderCache.WF := ⟨RenderCache.WF.stable⟩

derive_idem Fill
theorem Fill.WF.stable [TextRule] {o : Fill} (h : o.WF) : (canon o).WF where
  type := Stable.keep h.type
  color := Stable.opt h.color
instance [TextRule] : Stable Fill.WF := ⟨Fill.WF.stable⟩

derive_idem Image
theorem Image.WF.stable [TextRule] {o : Image} (h : o.WF) : (canon o).WF where
  position := Stable.keep h.position
  scale := Stable.opt h.scale
  data := Stable.list h.data
  uuid := Stable.opt h.uuid
  layer := Stable.opt h.layer
instance [TextRule] : Stable Image.WF := ⟨Image.WF.stable⟩

derive_idem Library
theorem Library.WF.stable [TextRule] {o : Library} (h : o.WF) : (canon o).WF where
  name := Stable.keep h.name
  type := Stable.keep h.type
  uri := Stable.keep h.uri
  options := Stable.keep h.options
  description := Stable.keep h.description
instance [TextRule] : Stable Library.WF := ⟨Library.WF.stable⟩

derive_idem LibTable
theorem LibTable.WF.stable [TextRule] {o : LibTable} (h : o.WF) : (canon o).WF where
  type := h.type.imp Stable.strEq Stable.strEq
  libs := Stable.list h.libs
instance [TextRule] : Stable LibTable.WF := ⟨LibTable.WF.stable⟩

derive_idem Constraint
theorem Constraint.WF.stable [TextRule] {o : Constraint} (h : o.WF) : (canon o).WF where
  type := Stable.keep h.type
  min := Stable.opt h.min
  opt := Stable.opt h.opt
  max := Stable.opt h.max
  elements := Stable.list h.elements
instance [TextRule] : Stable Constraint.WF := ⟨Constraint.WF.stable⟩

derive_idem Rule
theorem Rule.WF.stable [TextRule] {o : Rule} (h : o.WF) : (canon o).WF where
  name := Stable.keep h.name
  layer := Stable.opt h.layer
  constraints := Stable.list h.constraints
  condition := Stable.keep h.condition
  severity := Stable.opt h.severity
instance [TextRule] : Stable Rule.WF := ⟨Rule.WF.stable⟩

derive_idem DesignRules
theorem DesignRules.WF.stable [TextRule] {o : DesignRules} (h : o.WF) : (canon o).WF where
  version := Stable.keep h.version
  rules := Stable.list h.rules
instance [TextRule] : Stable DesignRules.WF := ⟨DesignRules.WF.stable⟩

derive_idem WksFontSize
theorem WksFontSize.WF.stable [TextRule] {o : WksFontSize} (h : o.WF) : (canon o).WF where
  width := Stable.keep h.width
  height := Stable.keep h.height
instance [TextRule] : Stable WksFontSize.WF := ⟨WksFontSize.WF.stable⟩

derive_idem WksFont
theorem WksFont.WF.stable [TextRule] {o : WksFont} (h : o.WF) : (canon o).WF where
  linewidth := Stable.opt h.linewidth
  size := Stable.opt h.size
instance [TextRule] : Stable WksFont.WF := ⟨WksFont.WF.stable⟩

derive_idem WksPosition
theorem WksPosition.WF.stable [TextRule] {o : WksPosition} (h : o.WF) : (canon o).WF where
  X := Stable.keep h.X
  Y := Stable.keep h.Y
  corner := Stable.opt h.corner
instance [TextRule] : Stable WksPosition.WF := ⟨WksPosition.WF.stable⟩

derive_idem WksShape
theorem WksShape.WF.stable [TextRule] {o : WksShape} (h : o.WF) : (canon o).WF where
  name := Stable.keep h.name
  start := Stable.keep h.start
  «end» := Stable.keep h.«end»
  option := Stable.opt h.option
  lineWidth := Stable.opt h.lineWidth
  «repeat» := Stable.opt h.«repeat»
  incrx := Stable.opt h.incrx
  incry := Stable.opt h.incry
  comment := Stable.opt h.comment
instance [TextRule] : Stable WksShape.WF := ⟨WksShape.WF.stable⟩

derive_idem Bitmap
theorem Bitmap.WF.stable [TextRule] {o : Bitmap} (h : o.WF) : (canon o).WF where
  name := Stable.keep h.name
  position := Stable.keep h.position
  option := Stable.opt h.option
  scale := Stable.keep h.scale
  «repeat» := Stable.opt h.«repeat»
  incrx := Stable.opt h.incrx
  incry := Stable.opt h.incry
  comment := Stable.opt h.comment
  pngdata := Stable.list h.pngdata
instance [TextRule] : Stable Bitmap.WF := ⟨Bitmap.WF.stable⟩

derive_idem TbText
theorem TbText.WF.stable [TextRule] {o : TbText} (h : o.WF) : (canon o).WF where
  text := Stable.keep h.text
  name := Stable.keep h.name
  position := Stable.keep h.position
  option := Stable.opt h.option
  rotate := Stable.opt h.rotate
  font := Stable.keep h.font
  justify := Stable.opt h.justify
  justify_ne := fun v hv => by
    obtain ⟨a, ha, rfl⟩ := Stable.some_inv hv
    have := h.justify_ne a ha
    unfold Justify.isEmpty at this ⊢
    revert this
    obtain ⟨x, y, m⟩ := a
    cases x <;> cases y <;> cases m <;> exact id
  maxlen := Stable.opt h.maxlen
  maxheight := Stable.opt h.maxheight
  «repeat» := Stable.opt h.«repeat»
  incrx := Stable.opt h.incrx
  incry := Stable.opt h.incry
  incrlabel := Stable.opt h.incrlabel
  comment := Stable.opt h.comment
instance [TextRule] : Stable TbText.WF := ⟨TbText.WF.stable⟩

derive_idem TextSize
theorem TextSize.WF.stable [TextRule] {o : TextSize} (h : o.WF) : (canon o).WF where
  width := Stable.keep h.width
  height := Stable.keep h.height
instance [TextRule] : Stable TextSize.WF := ⟨TextSize.WF.stable⟩

derive_idem Setup
theorem Setup.WF.stable [TextRule] {o : Setup} (h : o.WF) : (canon o).WF where
  textSize := Stable.keep h.textSize
  lineWidth := Stable.keep h.lineWidth
  textLineWidth := Stable.keep h.textLineWidth
  leftMargin := Stable.keep h.leftMargin
  rightMargin := Stable.keep h.rightMargin
  topMargin := Stable.keep h.topMargin
  bottomMargin := Stable.keep h.bottomMargin
instance [TextRule] : Stable Setup.WF := ⟨Setup.WF.stable⟩

instance : CanonIdem WksItem := ⟨fun
  | .line x => congrArg WksItem.line (idem x)
  | .rect x => congrArg WksItem.rect (idem x)
  | .polygon => rfl
  | .bitmap x => congrArg WksItem.bitmap (idem x)
  | .tbtext x => congrArg WksItem.tbtext (idem x)⟩

theorem WksItem.WF.stable [TextRule] : ∀ {o : WksItem}, o.WF → (canon o).WF
  | .line _, h => Stable.keep (P := WksShape.WF) h
  | .rect _, h => Stable.keep (P := WksShape.WF) h
  | .polygon, h => h.elim
  | .bitmap _, h => Stable.keep (P := Bitmap.WF) h
  | .tbtext _, h => Stable.keep (P := TbText.WF) h
instance [TextRule] : Stable WksItem.WF := ⟨WksItem.WF.stable⟩

derive_idem WorkSheet
theorem WorkSheet.WF.stable [TextRule] {o : WorkSheet} (h : o.WF) : (canon o).WF where
  version := Stable.keep h.version
  generator := Stable.keep h.generator
  setup := Stable.keep h.setup
  drawingObjects := Stable.list h.drawingObjects
instance [TextRule] : Stable WorkSheet.WF := ⟨WorkSheet.WF.stable⟩

derive_idem SyArc
theorem SyArc.WF.stable [TextRule] {o : SyArc} (h : o.WF) : (canon o).WF where
  start := Stable.keep h.start
  mid := Stable.keep h.mid
  «end» := Stable.keep h.«end»
  stroke := Stable.keep h.stroke
  fill := Stable.keep h.fill
instance [TextRule] : Stable SyArc.WF := ⟨SyArc.WF.stable⟩

derive_idem SyCircle
theorem SyCircle.WF.stable [TextRule] {o : SyCircle} (h : o.WF) : (canon o).WF where
  center := Stable.keep h.center
  radius := Stable.keep h.radius
  stroke := Stable.keep h.stroke
  fill := Stable.keep h.fill
instance [TextRule] : Stable SyCircle.WF := ⟨SyCircle.WF.stable⟩

derive_idem SyCurve
derive_idem SyPolyLine
theorem SyPolyLine.WF.stable [TextRule] {o : SyPolyLine} (h : o.WF) : (canon o).WF where
  points := Stable.list h.points
  stroke := Stable.keep h.stroke
  fill := Stable.keep h.fill
instance [TextRule] : Stable SyPolyLine.WF := ⟨SyPolyLine.WF.stable⟩

derive_idem SyRect
theorem SyRect.WF.stable [TextRule] {o : SyRect} (h : o.WF) : (canon o).WF where
  start := Stable.keep h.start
  «end» := Stable.keep h.«end»
  stroke := Stable.keep h.stroke
  fill := Stable.keep h.fill
instance [TextRule] : Stable SyRect.WF := ⟨SyRect.WF.stable⟩

derive_idem SyText
theorem SyText.WF.stable [TextRule] {o : SyText} (h : o.WF) : (canon o).WF where
  text := Stable.keep h.text
  position := Stable.keep h.position
  effects := Stable.keep h.effects
instance [TextRule] : Stable SyText.WF := ⟨SyText.WF.stable⟩

derive_idem SyTextBox
theorem SyTextBox.WF.stable [TextRule] {o : SyTextBox} (h : o.WF) : (canon o).WF where
  text := Stable.keep h.text
  position := Stable.keep h.position
  size := Stable.keep h.size
  stroke := Stable.keep h.stroke
  fill := Stable.keep h.fill
  effects := Stable.keep h.effects
  uuid := Stable.opt h.uuid
instance [TextRule] : Stable SyTextBox.WF := ⟨SyTextBox.WF.stable⟩

instance : CanonIdem SyItem := ⟨fun
  | .arc x => congrArg SyItem.arc (idem x)
  | .circle x => congrArg SyItem.circle (idem x)
  | .curve x => congrArg SyItem.curve (idem x)
  | .polyline x => congrArg SyItem.polyline (idem x)
  | .rect x => congrArg SyItem.rect (idem x)
  | .text x => congrArg SyItem.text (idem x)
  | .textBox x => congrArg SyItem.textBox (idem x)⟩

theorem SyItem.WF.stable [TextRule] : ∀ {o : SyItem}, o.WF → (canon o).WF
  | .arc _, h => Stable.keep (P := SyArc.WF) h
  | .circle _, h => Stable.keep (P := SyCircle.WF) h
  | .curve _, h => h.elim
  | .polyline _, h => Stable.keep (P := SyPolyLine.WF) h
  | .rect _, h => Stable.keep (P := SyRect.WF) h
  | .text _, h => Stable.keep (P := SyText.WF) h
  | .textBox _, h => Stable.keep (P := SyTextBox.WF) h
instance [TextRule] : Stable SyItem.WF := ⟨SyItem.WF.stable⟩

derive_idem SymbolAlternativePin
theorem SymbolAlternativePin.WF.stable [TextRule] {o : SymbolAlternativePin} (h : o.WF) : (canon o).WF where
  pinName := Stable.keep h.pinName
  electricalType := Stable.keep h.electricalType
  graphicalStyle := Stable.keep h.graphicalStyle
instance [TextRule] : Stable SymbolAlternativePin.WF := ⟨SymbolAlternativePin.WF.stable⟩

derive_idem SymbolPin
theorem SymbolPin.WF.stable [TextRule] {o : SymbolPin} (h : o.WF) : (canon o).WF where
  electricalType := Stable.keep h.electricalType
  graphicalStyle := Stable.keep h.graphicalStyle
  position := Stable.keep h.position
  length := Stable.keep h.length
  name := Stable.keep h.name
  nameEffects := Stable.opt h.nameEffects
  number := Stable.keep h.number
  numberEffects := Stable.opt h.numberEffects
  alternatePins := Stable.list h.alternatePins
instance [TextRule] : Stable SymbolPin.WF := ⟨SymbolPin.WF.stable⟩

mutual
theorem Symbol.canonS_idem : ∀ s : Symbol, s.canonS.canonS = s.canonS
  | ⟨_, _, _, _, _, _, _, _, _, _, _, _, _, _, _, us⟩ => by
    simp only [Symbol.canonS, CanonIdem.idem, Symbol.canonL_idem us]
theorem Symbol.canonL_idem : ∀ l : List Symbol, Symbol.canonL (Symbol.canonL l) = Symbol.canonL l
  | [] => rfl
  | s :: l => by simp only [Symbol.canonL, Symbol.canonS_idem s, Symbol.canonL_idem l]
end

instance : CanonIdem Symbol := ⟨Symbol.canonS_idem⟩

theorem Symbol.WFFlat.stable [TextRule] {o : Symbol} (h : o.WFFlat) : (canon o).WFFlat := by
  cases o
  exact {
    id := h.id.stable
    extends_ := Stable.opt h.extends_
    pinNames := fun e => ⟨(h.pinNames e).1, Stable.none (h.pinNames e).2⟩
    pinNamesOffset := Stable.opt h.pinNamesOffset
    properties := Stable.list h.properties
    graphicItems := Stable.list h.graphicItems
    pins := Stable.list h.pins }
instance [TextRule] : Stable Symbol.WFFlat := ⟨Symbol.WFFlat.stable⟩

theorem Symbol.mem_canonL {v : Symbol} : ∀ {l : List Symbol}, v ∈ Symbol.canonL l → ∃ u ∈ l, v = u.canonS
  | s :: l, h => by
    rcases List.mem_cons.1 h with rfl | h
    · exact ⟨s, .head _, rfl⟩
    · obtain ⟨u, hu, e⟩ := Symbol.mem_canonL h
      exact ⟨u, .tail _ hu, e⟩

theorem Symbol.WF.stable [TextRule] {o : Symbol} (h : o.WF) : (canon o).WF := by
  induction h with
  | mk o h _ ih =>
    refine ⟨_, h.stable, fun v hv => ?_⟩
    obtain ⟨u, hu, rfl⟩ := Symbol.mem_canonL (l := o.units) (by cases o; exact hv)
    exact ih u hu
instance [TextRule] : Stable Symbol.WF := ⟨Symbol.WF.stable⟩


derive_idem SymbolLib
theorem SymbolLib.WF.stable [TextRule] {o : SymbolLib} (h : o.WF) : (canon o).WF where
  version := Stable.keep h.version
  generator := by
    obtain ⟨g, hg, hg'⟩ := h.generator
    exact ⟨canon g, congrArg canon hg, Stable.keep hg'⟩
  symbols := Stable.list h.symbols
instance [TextRule] : Stable SymbolLib.WF := ⟨SymbolLib.WF.stable⟩

instance : CanonIdem JunctionColor := ⟨fun
  | .rgba x => congrArg JunctionColor.rgba (idem x)
  | .raw x => congrArg JunctionColor.raw (idem x)⟩

theorem JunctionColor.WF.stable [TextRule] : ∀ {o : JunctionColor}, o.WF → (canon o).WF
  | .rgba _, h => Stable.keep (P := ColorRGBA.WF) h
  | .raw _, h => h.elim
instance [TextRule] : Stable JunctionColor.WF := ⟨JunctionColor.WF.stable⟩

derive_idem Junction
theorem Junction.WF.stable [TextRule] {o : Junction} (h : o.WF) : (canon o).WF where
  position := Stable.keep h.position
  diameter := Stable.keep h.diameter
  color := Stable.keep h.color
  uuid := Stable.opt h.uuid
instance [TextRule] : Stable Junction.WF := ⟨Junction.WF.stable⟩

derive_idem NoConnect
theorem NoConnect.WF.stable [TextRule] {o : NoConnect} (h : o.WF) : (canon o).WF where
  position := Stable.keep h.position
  uuid := Stable.opt h.uuid
instance [TextRule] : Stable NoConnect.WF := ⟨NoConnect.WF.stable⟩

derive_idem BusEntry
theorem BusEntry.WF.stable [TextRule] {o : BusEntry} (h : o.WF) : (canon o).WF where
  position := Stable.keep h.position
  size := Stable.keep h.size
  stroke := Stable.keep h.stroke
  uuid := Stable.opt h.uuid
instance [TextRule] : Stable BusEntry.WF := ⟨BusEntry.WF.stable⟩

derive_idem BusAlias
theorem BusAlias.WF.stable [TextRule] {o : BusAlias} (h : o.WF) : (canon o).WF where
  name := Stable.keep h.name
  members := Stable.list h.members
instance [TextRule] : Stable BusAlias.WF := ⟨BusAlias.WF.stable⟩

derive_idem Connection
theorem Connection.WF.stable [TextRule] {o : Connection} (h : o.WF) : (canon o).WF where
  type := h.type.imp Stable.strEq Stable.strEq
  points := Stable.list h.points
  stroke := Stable.keep h.stroke
  uuid := Stable.opt h.uuid
instance [TextRule] : Stable Connection.WF := ⟨Connection.WF.stable⟩

derive_idem PolyLine
theorem PolyLine.WF.stable [TextRule] {o : PolyLine} (h : o.WF) : (canon o).WF where
  points := Stable.list h.points
  stroke := Stable.keep h.stroke
  uuid := Stable.opt h.uuid
instance [TextRule] : Stable PolyLine.WF := ⟨PolyLine.WF.stable⟩

derive_idem Text
theorem Text.WF.stable [TextRule] {o : Text} (h : o.WF) : (canon o).WF where
  text := Stable.keep h.text
  position := Stable.keep h.position
  effects := Stable.keep h.effects
  uuid := Stable.opt h.uuid
instance [TextRule] : Stable Text.WF := ⟨Text.WF.stable⟩

derive_idem TextBox
theorem TextBox.WF.stable [TextRule] {o : TextBox} (h : o.WF) : (canon o).WF where
  text := Stable.keep h.text
  position := Stable.keep h.position
  size := Stable.keep h.size
  stroke := Stable.keep h.stroke
  fill := Stable.keep h.fill
  effects := Stable.keep h.effects
  uuid := Stable.opt h.uuid
instance [TextRule] : Stable TextBox.WF := ⟨TextBox.WF.stable⟩

derive_idem LocalLabel
theorem LocalLabel.WF.stable [TextRule] {o : LocalLabel} (h : o.WF) : (canon o).WF where
  text := Stable.keep h.text
  position := Stable.keep h.position
  effects := Stable.keep h.effects
  uuid := Stable.opt h.uuid
instance [TextRule] : Stable LocalLabel.WF := ⟨LocalLabel.WF.stable⟩

derive_idem GlobalLabel
theorem GlobalLabel.WF.stable [TextRule] {o : GlobalLabel} (h : o.WF) : (canon o).WF where
  text := Stable.keep h.text
  shape := Stable.keep h.shape
  position := Stable.keep h.position
  effects := Stable.keep h.effects
  uuid := Stable.opt h.uuid
  properties := Stable.list h.properties
instance [TextRule] : Stable GlobalLabel.WF := ⟨GlobalLabel.WF.stable⟩

derive_idem HierarchicalLabel
theorem HierarchicalLabel.WF.stable [TextRule] {o : HierarchicalLabel} (h : o.WF) : (canon o).WF where
  text := Stable.keep h.text
  shape := Stable.keep h.shape
  position := Stable.keep h.position
  effects := Stable.keep h.effects
  uuid := Stable.opt h.uuid
instance [TextRule] : Stable HierarchicalLabel.WF := ⟨HierarchicalLabel.WF.stable⟩

derive_idem SymbolProjectPath
theorem SymbolProjectPath.WF.stable [TextRule] {o : SymbolProjectPath} (h : o.WF) : (canon o).WF where
  sheetInstancePath := Stable.keep h.sheetInstancePath
  reference := Stable.keep h.reference
  unit := Stable.keep h.unit
instance [TextRule] : Stable SymbolProjectPath.WF := ⟨SymbolProjectPath.WF.stable⟩

derive_idem SymbolProjectInstance
theorem SymbolProjectInstance.WF.stable [TextRule] {o : SymbolProjectInstance} (h : o.WF) : (canon o).WF where
  name := Stable.keep h.name
  paths := Stable.list h.paths
instance [TextRule] : Stable SymbolProjectInstance.WF := ⟨SymbolProjectInstance.WF.stable⟩

derive_idem SchematicSymbol
theorem SchematicSymbol.WF.stable [TextRule] {o : SchematicSymbol} (h : o.WF) : (canon o).WF where
  libName := Stable.opt h.libName
  id := h.id.stable
  position := Stable.keep h.position
  mirror := Stable.opt h.mirror
  unit := Stable.opt h.unit
  uuid := by
    obtain ⟨g, hg, hg'⟩ := h.uuid
    exact ⟨canon g, congrArg canon hg, hg'.imp Stable.strEq Stable.keep⟩
  properties := Stable.list h.properties
  pinNumbers := Stable.fst h.pinNumbers
  pinIds := Stable.snd h.pinIds
  distinct := Stable.keys h.distinct
  instances := Stable.list h.instances
instance [TextRule] : Stable SchematicSymbol.WF := ⟨SchematicSymbol.WF.stable⟩

derive_idem HierarchicalPin
theorem HierarchicalPin.WF.stable [TextRule] {o : HierarchicalPin} (h : o.WF) : (canon o).WF where
  name := Stable.keep h.name
  connectionType := Stable.keep h.connectionType
  position := Stable.keep h.position
  effects := Stable.keep h.effects
  uuid := Stable.opt h.uuid
instance [TextRule] : Stable HierarchicalPin.WF := ⟨HierarchicalPin.WF.stable⟩

derive_idem HierarchicalSheetProjectPath
theorem HierarchicalSheetProjectPath.WF.stable [TextRule] {o : HierarchicalSheetProjectPath} (h : o.WF) : (canon o).WF where
  sheetInstancePath := Stable.keep h.sheetInstancePath
  page := Stable.keep h.page
instance [TextRule] : Stable HierarchicalSheetProjectPath.WF := ⟨HierarchicalSheetProjectPath.WF.stable⟩

derive_idem HierarchicalSheetProjectInstance
theorem HierarchicalSheetProjectInstance.WF.stable [TextRule] {o : HierarchicalSheetProjectInstance} (h : o.WF) : (canon o).WF where
  name := Stable.keep h.name
  paths := Stable.list h.paths
instance [TextRule] : Stable HierarchicalSheetProjectInstance.WF := ⟨HierarchicalSheetProjectInstance.WF.stable⟩

derive_idem HierarchicalSheet
theorem HierarchicalSheet.WF.stable [TextRule] {o : HierarchicalSheet} (h : o.WF) : (canon o).WF where
  position := Stable.keep h.position
  width := Stable.keep h.width
  height := Stable.keep h.height
  stroke := Stable.keep h.stroke
  fill := Stable.keep h.fill
  uuid := Stable.opt h.uuid
  sheetName := Stable.keep h.sheetName
  sheetName_key := h.sheetName_key.imp Stable.strEq Stable.strEq
  fileName := Stable.keep h.fileName
  fileName_key := h.fileName_key.imp Stable.strEq Stable.strEq
  properties := Stable.list h.properties
  properties_key := fun v hv => by
    obtain ⟨a, ha, rfl⟩ := Stable.mem_inv hv
    obtain ⟨h1, h2, h3, h4⟩ := h.properties_key a ha
    exact ⟨Stable.strNe h1, Stable.strNe h2, Stable.strNe h3, Stable.strNe h4⟩
  pins := Stable.list h.pins
  instances := Stable.list h.instances
instance [TextRule] : Stable HierarchicalSheet.WF := ⟨HierarchicalSheet.WF.stable⟩

derive_idem HierarchicalSheetInstance
theorem HierarchicalSheetInstance.WF.stable [TextRule] {o : HierarchicalSheetInstance} (h : o.WF) : (canon o).WF where
  instancePath := Stable.keep h.instancePath
  page := Stable.keep h.page
instance [TextRule] : Stable HierarchicalSheetInstance.WF := ⟨HierarchicalSheetInstance.WF.stable⟩

derive_idem SymbolInstance
theorem SymbolInstance.WF.stable [TextRule] {o : SymbolInstance} (h : o.WF) : (canon o).WF where
  path := Stable.keep h.path
  reference := Stable.keep h.reference
  unit := Stable.keep h.unit
  value := Stable.keep h.value
  footprint := Stable.keep h.footprint
instance [TextRule] : Stable SymbolInstance.WF := ⟨SymbolInstance.WF.stable⟩

derive_idem Rectangle
theorem Rectangle.WF.stable [TextRule] {o : Rectangle} (h : o.WF) : (canon o).WF where
  start := Stable.keep h.start
  «end» := Stable.keep h.«end»
  stroke := Stable.keep h.stroke
  fill := Stable.keep h.fill
  uuid := Stable.opt h.uuid
instance [TextRule] : Stable Rectangle.WF := ⟨Rectangle.WF.stable⟩

derive_idem Arc
theorem Arc.WF.stable [TextRule] {o : Arc} (h : o.WF) : (canon o).WF where
  start := Stable.keep h.start
  mid := Stable.keep h.mid
  «end» := Stable.keep h.«end»
  stroke := Stable.keep h.stroke
  fill := Stable.keep h.fill
  uuid := Stable.opt h.uuid
instance [TextRule] : Stable Arc.WF := ⟨Arc.WF.stable⟩

derive_idem Circle
theorem Circle.WF.stable [TextRule] {o : Circle} (h : o.WF) : (canon o).WF where
  center := Stable.keep h.center
  radius := Stable.keep h.radius
  stroke := Stable.keep h.stroke
  fill := Stable.keep h.fill
  uuid := Stable.opt h.uuid
instance [TextRule] : Stable Circle.WF := ⟨Circle.WF.stable⟩

derive_idem NetclassFlag
theorem NetclassFlag.WF.stable [TextRule] {o : NetclassFlag} (h : o.WF) : (canon o).WF where
  text := Stable.keep h.text
  length := Stable.keep h.length
  shape := Stable.keep h.shape
  position := Stable.keep h.position
  effects := by
    obtain ⟨g, hg, hg'⟩ := h.effects
    exact ⟨canon g, congrArg canon hg, Stable.keep hg'⟩
  uuid := Stable.opt h.uuid
  properties := Stable.list h.properties
instance [TextRule] : Stable NetclassFlag.WF := ⟨NetclassFlag.WF.stable⟩

instance : CanonIdem SchGraphic := ⟨fun
  | .connection x => congrArg SchGraphic.connection (idem x)
  | .polyline x => congrArg SchGraphic.polyline (idem x)⟩

theorem SchGraphic.WF.stable [TextRule] : ∀ {o : SchGraphic}, o.WF → (canon o).WF
  | .connection _, h => Stable.keep (P := Connection.WF) h
  | .polyline _, h => Stable.keep (P := PolyLine.WF) h
instance [TextRule] : Stable SchGraphic.WF := ⟨SchGraphic.WF.stable⟩

instance : CanonIdem SchShape := ⟨fun
  | .arc x => congrArg SchShape.arc (idem x)
  | .circle x => congrArg SchShape.circle (idem x)
  | .rectangle x => congrArg SchShape.rectangle (idem x)⟩

theorem SchShape.WF.stable [TextRule] : ∀ {o : SchShape}, o.WF → (canon o).WF
  | .arc _, h => Stable.keep (P := Arc.WF) h
  | .circle _, h => Stable.keep (P := Circle.WF) h
  | .rectangle _, h => Stable.keep (P := Rectangle.WF) h
instance [TextRule] : Stable SchShape.WF := ⟨SchShape.WF.stable⟩

derive_idem Schematic
theorem Schematic.WF.stable [TextRule] {o : Schematic} (h : o.WF) : (canon o).WF where
  version := Stable.keep h.version
  generator := Stable.keep h.generator
  uuid := Stable.opt h.uuid
  paper := Stable.keep h.paper
  titleBlock := Stable.opt h.titleBlock
  libSymbols := Stable.list h.libSymbols
  junctions := Stable.list h.junctions
  noConnects := Stable.list h.noConnects
  busEntries := Stable.list h.busEntries
  busAliases := Stable.list h.busAliases
  graphicalItems := Stable.list h.graphicalItems
  shapes := Stable.list h.shapes
  images := Stable.list h.images
  textBoxes := Stable.list h.textBoxes
  texts := Stable.list h.texts
  labels := Stable.list h.labels
  globalLabels := Stable.list h.globalLabels
  hierarchicalLabels := Stable.list h.hierarchicalLabels
  netclassFlags := Stable.list h.netclassFlags
  schematicSymbols := Stable.list h.schematicSymbols
  sheets := Stable.list h.sheets
  sheetInstances := Stable.list h.sheetInstances
  symbolInstances := Stable.list h.symbolInstances
instance [TextRule] : Stable Schematic.WF := ⟨Schematic.WF.stable⟩

derive_idem GrText
theorem GrText.WF.stable [TextRule] {o : GrText} (h : o.WF) : (canon o).WF where
  text := Stable.keep h.text
  position := Stable.keep h.position
  layer := Stable.opt h.layer
  tstamp := Stable.opt h.tstamp
  effects := Stable.keep h.effects
  renderCache := Stable.opt h.renderCache
  knockout := fun e => h.knockout (Stable.none_inv e)
  locked := h.locked
instance [TextRule] : Stable GrText.WF := ⟨GrText.WF.stable⟩

derive_idem GrTextBox
theorem GrTextBox.WF.stable [TextRule] {o : GrTextBox} (h : o.WF) : (canon o).WF where
  text := Stable.keep h.text
  pts := Stable.list h.pts
  start := Stable.opt h.start
  «end» := Stable.opt h.«end»
  angle := Stable.opt h.angle
  layer := Stable.keep h.layer
  tstamp := Stable.opt h.tstamp
  effects := Stable.opt h.effects
  stroke := Stable.opt h.stroke
  renderCache := Stable.opt h.renderCache
  four := by
    rcases h.four with h1 | ⟨a, b, c, d, h1⟩
    · exact .inl (congrArg canon h1)
    · exact .inr ⟨_, _, _, _, congrArg canon h1⟩
  oblique := fun a ha hc => by
    obtain ⟨b, hb, rfl⟩ := Stable.some_inv ha
    rw [isCardinal_canon] at hc
    exact Stable.listNe (h.oblique b hb hc)
  corners := fun ha => by
    obtain ⟨h1, h2⟩ := h.corners fun a he => by
      have := ha (canon a) (congrArg canon he)
      rwa [isCardinal_canon] at this
    exact ⟨Stable.someNe h1, Stable.someNe h2⟩
instance [TextRule] : Stable GrTextBox.WF := ⟨GrTextBox.WF.stable⟩

derive_idem GrLine
theorem GrLine.WF.stable [TextRule] {o : GrLine} (h : o.WF) : (canon o).WF where
  start := Stable.keep h.start
  «end» := Stable.keep h.«end»
  layer := Stable.opt h.layer
  width := Stable.req h.width
  tstamp := Stable.opt h.tstamp
  angle := Stable.none h.angle
instance [TextRule] : Stable GrLine.WF := ⟨GrLine.WF.stable⟩

derive_idem GrRect
theorem GrRect.WF.stable [TextRule] {o : GrRect} (h : o.WF) : (canon o).WF where
  start := Stable.keep h.start
  «end» := Stable.keep h.«end»
  layer := Stable.opt h.layer
  width := Stable.req h.width
  fill := Stable.opt h.fill
  tstamp := Stable.opt h.tstamp
instance [TextRule] : Stable GrRect.WF := ⟨GrRect.WF.stable⟩

derive_idem GrCircle
theorem GrCircle.WF.stable [TextRule] {o : GrCircle} (h : o.WF) : (canon o).WF where
  center := Stable.keep h.center
  «end» := Stable.keep h.«end»
  layer := Stable.opt h.layer
  width := Stable.req h.width
  fill := Stable.opt h.fill
  tstamp := Stable.opt h.tstamp
instance [TextRule] : Stable GrCircle.WF := ⟨GrCircle.WF.stable⟩

derive_idem GrArc
theorem GrArc.WF.stable [TextRule] {o : GrArc} (h : o.WF) : (canon o).WF where
  start := Stable.keep h.start
  mid := Stable.keep h.mid
  «end» := Stable.keep h.«end»
  layer := Stable.opt h.layer
  width := Stable.req h.width
  tstamp := Stable.opt h.tstamp
instance [TextRule] : Stable GrArc.WF := ⟨GrArc.WF.stable⟩

derive_idem GrPoly
theorem GrPoly.WF.stable [TextRule] {o : GrPoly} (h : o.WF) : (canon o).WF where
  coordinates := Stable.list h.coordinates
  layer := Stable.opt h.layer
  width := Stable.req h.width
  fill := Stable.opt h.fill
  tstamp := Stable.opt h.tstamp
  nonempty := Stable.isEmpty h.nonempty
instance [TextRule] : Stable GrPoly.WF := ⟨GrPoly.WF.stable⟩

derive_idem GrCurve
theorem GrCurve.WF.stable [TextRule] {o : GrCurve} (h : o.WF) : (canon o).WF where
  coordinates := Stable.list h.coordinates
  layer := Stable.opt h.layer
  width := Stable.req h.width
  tstamp := Stable.opt h.tstamp
  nonempty := Stable.isEmpty h.nonempty
instance [TextRule] : Stable GrCurve.WF := ⟨GrCurve.WF.stable⟩

instance : CanonIdem GrItem := ⟨fun
  | .text x => congrArg GrItem.text (idem x)
  | .textBox x => congrArg GrItem.textBox (idem x)
  | .line x => congrArg GrItem.line (idem x)
  | .rect x => congrArg GrItem.rect (idem x)
  | .circle x => congrArg GrItem.circle (idem x)
  | .arc x => congrArg GrItem.arc (idem x)
  | .poly x => congrArg GrItem.poly (idem x)
  | .curve x => congrArg GrItem.curve (idem x)
  | .image x => congrArg GrItem.image (idem x)⟩

theorem GrItem.WF.stable [TextRule] : ∀ {o : GrItem}, o.WF → (canon o).WF
  | .text _, h => Stable.keep (P := GrText.WF) h
  | .textBox _, h => Stable.keep (P := GrTextBox.WF) h
  | .line _, h => Stable.keep (P := GrLine.WF) h
  | .rect _, h => Stable.keep (P := GrRect.WF) h
  | .circle _, h => Stable.keep (P := GrCircle.WF) h
  | .arc _, h => Stable.keep (P := GrArc.WF) h
  | .poly _, h => Stable.keep (P := GrPoly.WF) h
  | .curve _, h => Stable.keep (P := GrCurve.WF) h
  | .image _, h => Stable.keep (P := Image.WF) h
instance [TextRule] : Stable GrItem.WF := ⟨GrItem.WF.stable⟩

instance [TextRule] : Stable GrItem.NotImage := ⟨fun {o} h => by cases o <;> exact h⟩

theorem WidthOk.stable [TextRule] {a : Option Val} {b : Option Stroke} (h : WidthOk a b) : WidthOk (canon a) (canon b) := by
  rcases h with ⟨w, h1, h2, h3⟩ | ⟨h1, s, h2, h3⟩
  · exact .inl ⟨canon w, congrArg canon h1, Stable.keep h2, congrArg canon h3⟩
  · exact .inr ⟨congrArg canon h1, canon s, congrArg canon h2, Stable.keep h3⟩

derive_idem FpText
theorem FpText.WF.stable [TextRule] {o : FpText} (h : o.WF) : (canon o).WF where
  type := Stable.keep h.type
  text := Stable.keep h.text
  position := Stable.keep h.position
  layer := Stable.keep h.layer
  effects := Stable.keep h.effects
  tstamp := Stable.opt h.tstamp
  renderCache := Stable.opt h.renderCache
instance [TextRule] : Stable FpText.WF := ⟨FpText.WF.stable⟩

derive_idem FpLine
theorem FpLine.WF.stable [TextRule] {o : FpLine} (h : o.WF) : (canon o).WF where
  start := Stable.keep h.start
  «end» := Stable.keep h.«end»
  layer := Stable.keep h.layer
  width := WidthOk.stable h.width
  tstamp := Stable.opt h.tstamp
  locked := h.locked
instance [TextRule] : Stable FpLine.WF := ⟨FpLine.WF.stable⟩

derive_idem FpRect
theorem FpRect.WF.stable [TextRule] {o : FpRect} (h : o.WF) : (canon o).WF where
  start := Stable.keep h.start
  «end» := Stable.keep h.«end»
  layer := Stable.keep h.layer
  width := WidthOk.stable h.width
  fill := Stable.opt h.fill
  tstamp := Stable.opt h.tstamp
instance [TextRule] : Stable FpRect.WF := ⟨FpRect.WF.stable⟩

derive_idem FpTextBox
theorem FpTextBox.WF.stable [TextRule] {o : FpTextBox} (h : o.WF) : (canon o).WF where
  text := Stable.keep h.text
  pts := Stable.list h.pts
  start := Stable.opt h.start
  «end» := Stable.opt h.«end»
  angle := Stable.opt h.angle
  layer := Stable.keep h.layer
  tstamp := Stable.opt h.tstamp
  effects := Stable.opt h.effects
  stroke := Stable.opt h.stroke
  renderCache := Stable.opt h.renderCache
  four := by
    rcases h.four with h1 | ⟨a, b, c, d, h1⟩
    · exact .inl (congrArg canon h1)
    · exact .inr ⟨_, _, _, _, congrArg canon h1⟩
  oblique := fun a ha hc => by
    obtain ⟨b, hb, rfl⟩ := Stable.some_inv ha
    rw [isCardinal_canon] at hc
    exact Stable.listNe (h.oblique b hb hc)
  corners := fun ha => by
    obtain ⟨h1, h2⟩ := h.corners fun a he => by
      have := ha (canon a) (congrArg canon he)
      rwa [isCardinal_canon] at this
    exact ⟨Stable.someNe h1, Stable.someNe h2⟩
instance [TextRule] : Stable FpTextBox.WF := ⟨FpTextBox.WF.stable⟩

derive_idem FpCircle
theorem FpCircle.WF.stable [TextRule] {o : FpCircle} (h : o.WF) : (canon o).WF where
  center := Stable.keep h.center
  «end» := Stable.keep h.«end»
  layer := Stable.keep h.layer
  width := WidthOk.stable h.width
  fill := Stable.opt h.fill
  tstamp := Stable.opt h.tstamp
instance [TextRule] : Stable FpCircle.WF := ⟨FpCircle.WF.stable⟩

derive_idem FpArc
theorem FpArc.WF.stable [TextRule] {o : FpArc} (h : o.WF) : (canon o).WF where
  start := Stable.keep h.start
  mid := Stable.keep h.mid
  «end» := Stable.keep h.«end»
  layer := Stable.keep h.layer
  width := WidthOk.stable h.width
  tstamp := Stable.opt h.tstamp
instance [TextRule] : Stable FpArc.WF := ⟨FpArc.WF.stable⟩

derive_idem FpPoly
theorem FpPoly.WF.stable [TextRule] {o : FpPoly} (h : o.WF) : (canon o).WF where
  coordinates := Stable.list h.coordinates
  layer := Stable.keep h.layer
  width := WidthOk.stable h.width
  fill := Stable.opt h.fill
  tstamp := Stable.opt h.tstamp
  nonempty := Stable.isEmpty h.nonempty
instance [TextRule] : Stable FpPoly.WF := ⟨FpPoly.WF.stable⟩

derive_idem FpCurve
theorem FpCurve.WF.stable [TextRule] {o : FpCurve} (h : o.WF) : (canon o).WF where
  coordinates := Stable.list h.coordinates
  layer := Stable.keep h.layer
  width := WidthOk.stable h.width
  tstamp := Stable.opt h.tstamp
  nonempty := Stable.isEmpty h.nonempty
instance [TextRule] : Stable FpCurve.WF := ⟨FpCurve.WF.stable⟩

instance : CanonIdem FpItem := ⟨fun
  | .text x => congrArg FpItem.text (idem x)
  | .textBox x => congrArg FpItem.textBox (idem x)
  | .line x => congrArg FpItem.line (idem x)
  | .rect x => congrArg FpItem.rect (idem x)
  | .circle x => congrArg FpItem.circle (idem x)
  | .arc x => congrArg FpItem.arc (idem x)
  | .poly x => congrArg FpItem.poly (idem x)
  | .curve x => congrArg FpItem.curve (idem x)
  | .image x => congrArg FpItem.image (idem x)⟩

theorem FpItem.WF.stable [TextRule] : ∀ {o : FpItem}, o.WF → (canon o).WF
  | .text _, h => Stable.keep (P := FpText.WF) h
  | .textBox _, h => Stable.keep (P := FpTextBox.WF) h
  | .line _, h => Stable.keep (P := FpLine.WF) h
  | .rect _, h => Stable.keep (P := FpRect.WF) h
  | .circle _, h => Stable.keep (P := FpCircle.WF) h
  | .arc _, h => Stable.keep (P := FpArc.WF) h
  | .poly _, h => Stable.keep (P := FpPoly.WF) h
  | .curve _, h => Stable.keep (P := FpCurve.WF) h
  | .image _, h => Stable.keep (P := Image.WF) h
instance [TextRule] : Stable FpItem.WF := ⟨FpItem.WF.stable⟩

derive_idem KeepoutSettings
theorem KeepoutSettings.WF.stable [TextRule] {o : KeepoutSettings} (h : o.WF) : (canon o).WF where
  tracks := Stable.keep h.tracks
  vias := Stable.keep h.vias
  pads := Stable.keep h.pads
  copperpour := Stable.keep h.copperpour
  footprints := Stable.keep h.footprints
instance [TextRule] : Stable KeepoutSettings.WF := ⟨KeepoutSettings.WF.stable⟩

derive_idem FillSettings
theorem FillSettings.WF.stable [TextRule] {o : FillSettings} (h : o.WF) : (canon o).WF where
  mode := Stable.opt h.mode
  thermalGap := Stable.req h.thermalGap
  thermalBridgeWidth := Stable.req h.thermalBridgeWidth
  smoothingStyle := Stable.opt h.smoothingStyle
  smoothingRadius := Stable.opt h.smoothingRadius
  islandRemovalMode := Stable.opt h.islandRemovalMode
  islandAreaMin := Stable.opt h.islandAreaMin
  hatchThickness := Stable.opt h.hatchThickness
  hatchGap := Stable.opt h.hatchGap
  hatchOrientation := Stable.opt h.hatchOrientation
  hatchSmoothingLevel := Stable.opt h.hatchSmoothingLevel
  hatchSmoothingValue := Stable.opt h.hatchSmoothingValue
  hatchBorderAlgorithm := Stable.opt h.hatchBorderAlgorithm
  hatchMinHoleArea := Stable.opt h.hatchMinHoleArea
instance [TextRule] : Stable FillSettings.WF := ⟨FillSettings.WF.stable⟩

derive_idem ZonePolygon
theorem ZonePolygon.WF.stable [TextRule] {o : ZonePolygon} (h : o.WF) : (canon o).WF where
  coordinates := Stable.list h.coordinates
  nonempty := Stable.isEmpty h.nonempty
instance [TextRule] : Stable ZonePolygon.WF := ⟨ZonePolygon.WF.stable⟩

derive_idem FilledPolygon
theorem FilledPolygon.WF.stable [TextRule] {o : FilledPolygon} (h : o.WF) : (canon o).WF where
  layer := Stable.keep h.layer
  coordinates := Stable.list h.coordinates
  nonempty := Stable.isEmpty h.nonempty
instance [TextRule] : Stable FilledPolygon.WF := ⟨FilledPolygon.WF.stable⟩

derive_idem FillSegments
theorem FillSegments.WF.stable [TextRule] {o : FillSegments} (h : o.WF) : (canon o).WF where
  layer := Stable.keep h.layer
  coordinates := Stable.list h.coordinates
  nonempty := Stable.isEmpty h.nonempty
instance [TextRule] : Stable FillSegments.WF := ⟨FillSegments.WF.stable⟩

derive_idem Hatch
derive_idem Zone
theorem Zone.WF.stable [TextRule] {o : Zone} (h : o.WF) : (canon o).WF where
  net := Stable.keep h.net
  netName := Stable.keep h.netName
  layers := Stable.list h.layers
  tstamp := Stable.opt h.tstamp
  name := Stable.opt h.name
  style := Stable.keep h.style
  pitch := Stable.keep h.pitch
  priority := Stable.opt h.priority
  connectPads := Stable.opt h.connectPads
  clearance := Stable.keep h.clearance
  minThickness := Stable.keep h.minThickness
  filledAreasThickness := Stable.opt h.filledAreasThickness
  keepoutSettings := Stable.opt h.keepoutSettings
  fillSettings := Stable.opt h.fillSettings
  polygons := Stable.list h.polygons
  filledPolygons := Stable.list h.filledPolygons
  fillSegments := Stable.opt h.fillSegments
  nonempty := Stable.listNe h.nonempty
instance [TextRule] : Stable Zone.WF := ⟨Zone.WF.stable⟩

derive_idem Attributes
theorem Attributes.WF.stable [TextRule] {o : Attributes} (h : o.WF) : (canon o).WF where
  type := fun v hv => Stable.optWords (by rintro v (rfl | rfl) <;> exact ⟨_, rfl⟩) h.type v hv
instance [TextRule] : Stable Attributes.WF := ⟨Attributes.WF.stable⟩

derive_idem Model
theorem Model.WF.stable [TextRule] {o : Model} (h : o.WF) : (canon o).WF where
  path := Stable.keep h.path
  opacity := Stable.opt h.opacity
  pos := Stable.keep h.pos
  scale := Stable.keep h.scale
  rotate := Stable.keep h.rotate
instance [TextRule] : Stable Model.WF := ⟨Model.WF.stable⟩

derive_idem DrillDefinition
theorem DrillDefinition.WF.stable [TextRule] {o : DrillDefinition} (h : o.WF) : (canon o).WF where
  diameter := Stable.keep h.diameter
  oval := fun e => by
    obtain ⟨w, hw, hw'⟩ := h.oval e
    exact ⟨canon w, congrArg canon hw, Stable.keep hw'⟩
  round := fun e => ⟨Stable.none (h.round e).1, Stable.none (h.round e).2⟩
  offset := Stable.opt h.offset
instance [TextRule] : Stable DrillDefinition.WF := ⟨DrillDefinition.WF.stable⟩

derive_idem PadOptions
theorem PadOptions.WF.stable [TextRule] {o : PadOptions} (h : o.WF) : (canon o).WF where
  clearance := Stable.keep h.clearance
  anchor := Stable.keep h.anchor
instance [TextRule] : Stable PadOptions.WF := ⟨PadOptions.WF.stable⟩

derive_idem Pad
theorem Pad.WF.stable [TextRule] {o : Pad} (h : o.WF) : (canon o).WF where
  number := Stable.keep h.number
  type := Stable.keep h.type
  shape := Stable.keep h.shape
  position := Stable.keep h.position
  size := Stable.keep h.size
  drill := Stable.opt h.drill
  property := Stable.opt h.property
  layers := Stable.list h.layers
  roundrectRatio := Stable.opt h.roundrectRatio
  chamferRatio := Stable.opt h.chamferRatio
  chamfer := Stable.list h.chamfer
  dieLength := Stable.opt h.dieLength
  net := Stable.opt h.net
  pinFunction := Stable.opt h.pinFunction
  pinType := Stable.opt h.pinType
  solderMaskMargin := Stable.opt h.solderMaskMargin
  solderPasteMargin := Stable.opt h.solderPasteMargin
  solderPasteMarginRatio := Stable.opt h.solderPasteMarginRatio
  clearance := Stable.opt h.clearance
  zoneConnect := Stable.opt h.zoneConnect
  thermalWidth := Stable.opt h.thermalWidth
  thermalGap := Stable.opt h.thermalGap
  customPadOptions := Stable.opt h.customPadOptions
  customPadPrimitives := fun v hv => by
    obtain ⟨a, ha, rfl⟩ := Stable.mem_inv hv
    exact ⟨Stable.keep (h.customPadPrimitives a ha).1, Stable.keep (h.customPadPrimitives a ha).2⟩
  tstamp := Stable.opt h.tstamp
  shape_ne := Stable.strNe h.shape_ne
instance [TextRule] : Stable Pad.WF := ⟨Pad.WF.stable⟩

derive_idem Footprint
theorem Footprint.WF.stable [TextRule] {o : Footprint} (h : o.WF) : (canon o).WF where
  id := h.id.stable
  version := Stable.opt h.version
  generator := Stable.opt h.generator
  layer := Stable.keep h.layer
  tedit := Stable.keep h.tedit
  tstamp := Stable.opt h.tstamp
  position := Stable.opt h.position
  description := Stable.opt h.description
  tags := Stable.opt h.tags
  propertyNames := Stable.fst h.propertyNames
  properties := Stable.snd h.properties
  distinct := Stable.keys h.distinct
  path := Stable.opt h.path
  autoplaceCost90 := Stable.opt h.autoplaceCost90
  autoplaceCost180 := Stable.opt h.autoplaceCost180
  solderMaskMargin := Stable.opt h.solderMaskMargin
  solderPasteMargin := Stable.opt h.solderPasteMargin
  solderPasteRatio := Stable.opt h.solderPasteRatio
  clearance := Stable.opt h.clearance
  zoneConnect := Stable.opt h.zoneConnect
  thermalWidth := Stable.opt h.thermalWidth
  thermalGap := Stable.opt h.thermalGap
  attributes := Stable.keep h.attributes
  privateLayers := Stable.list h.privateLayers
  netTiePadGroups := Stable.list h.netTiePadGroups
  graphicItems := Stable.list h.graphicItems
  pads := Stable.list h.pads
  zones := Stable.list h.zones
  models := Stable.list h.models
  groups := Stable.list h.groups
instance [TextRule] : Stable Footprint.WF := ⟨Footprint.WF.stable⟩

derive_idem GeneralSettings
theorem GeneralSettings.WF.stable [TextRule] {o : GeneralSettings} (h : o.WF) : (canon o).WF where
  thickness := Stable.keep h.thickness
instance [TextRule] : Stable GeneralSettings.WF := ⟨GeneralSettings.WF.stable⟩

derive_idem LayerToken
theorem LayerToken.WF.stable [TextRule] {o : LayerToken} (h : o.WF) : (canon o).WF where
  ordinal := Stable.keep h.ordinal
  name := Stable.keep h.name
  type := Stable.keep h.type
  userName := Stable.opt h.userName
instance [TextRule] : Stable LayerToken.WF := ⟨LayerToken.WF.stable⟩

derive_idem StackupSubLayer
theorem StackupSubLayer.WF.stable [TextRule] {o : StackupSubLayer} (h : o.WF) : (canon o).WF where
  thickness := Stable.keep h.thickness
  material := Stable.opt h.material
  epsilonR := Stable.opt h.epsilonR
  lossTangent := Stable.opt h.lossTangent
instance [TextRule] : Stable StackupSubLayer.WF := ⟨StackupSubLayer.WF.stable⟩

derive_idem StackupLayer
theorem StackupLayer.WF.stable [TextRule] {o : StackupLayer} (h : o.WF) : (canon o).WF where
  name := Stable.keep h.name
  type := Stable.keep h.type
  color := Stable.opt h.color
  thickness := Stable.opt h.thickness
  material := Stable.opt h.material
  epsilonR := Stable.opt h.epsilonR
  lossTangent := Stable.opt h.lossTangent
  subLayers := Stable.list h.subLayers
instance [TextRule] : Stable StackupLayer.WF := ⟨StackupLayer.WF.stable⟩

derive_idem Stackup
theorem Stackup.WF.stable [TextRule] {o : Stackup} (h : o.WF) : (canon o).WF where
  layers := Stable.list h.layers
  copperFinish := Stable.opt h.copperFinish
  dielectricContraints := Stable.opt h.dielectricContraints
  edgeConnector := Stable.opt h.edgeConnector
instance [TextRule] : Stable Stackup.WF := ⟨Stackup.WF.stable⟩

derive_idem PlotSettings
theorem PlotSettings.WF.stable [TextRule] {o : PlotSettings} (h : o.WF) : (canon o).WF where
  layerSelection := Stable.keep h.layerSelection
  plotOnAllLayersSelection := Stable.opt h.plotOnAllLayersSelection
  dashedLineDashRatio := Stable.opt h.dashedLineDashRatio
  dashedLineGapRatio := Stable.opt h.dashedLineGapRatio
  svgPrecision := Stable.keep h.svgPrecision
  mode := Stable.keep h.mode
  hpglPenNumber := Stable.keep h.hpglPenNumber
  hpglPenSpeed := Stable.keep h.hpglPenSpeed
  hpglPenDiameter := Stable.keep h.hpglPenDiameter
  outputFormat := Stable.keep h.outputFormat
  drillShape := Stable.keep h.drillShape
  scaleSelection := Stable.keep h.scaleSelection
  outputDirectory := Stable.keep h.outputDirectory
instance [TextRule] : Stable PlotSettings.WF := ⟨PlotSettings.WF.stable⟩

derive_idem SetupData
theorem SetupData.WF.stable [TextRule] {o : SetupData} (h : o.WF) : (canon o).WF where
  stackup := Stable.opt h.stackup
  packToMaskClearance := Stable.keep h.packToMaskClearance
  solderMaskMinWidth := Stable.opt h.solderMaskMinWidth
  padToPasteClearance := Stable.opt h.padToPasteClearance
  padToPasteClearanceRatio := Stable.opt h.padToPasteClearanceRatio
  auxAxisOrigin := Stable.opt h.auxAxisOrigin
  gridOrigin := Stable.opt h.gridOrigin
  plotSettings := Stable.opt h.plotSettings
instance [TextRule] : Stable SetupData.WF := ⟨SetupData.WF.stable⟩

derive_idem Segment
theorem Segment.WF.stable [TextRule] {o : Segment} (h : o.WF) : (canon o).WF where
  start := Stable.keep h.start
  «end» := Stable.keep h.«end»
  width := Stable.keep h.width
  layer := Stable.keep h.layer
  net := Stable.keep h.net
  tstamp := Stable.keep h.tstamp
instance [TextRule] : Stable Segment.WF := ⟨Segment.WF.stable⟩

derive_idem Via
theorem Via.WF.stable [TextRule] {o : Via} (h : o.WF) : (canon o).WF where
  type := fun v hv => Stable.optWords (by rintro v (rfl | rfl) <;> exact ⟨_, rfl⟩) h.type v hv
  position := Stable.keep h.position
  size := Stable.keep h.size
  drill := Stable.keep h.drill
  layers := Stable.list h.layers
  net := Stable.keep h.net
  tstamp := Stable.opt h.tstamp
instance [TextRule] : Stable Via.WF := ⟨Via.WF.stable⟩

derive_idem TraceArc
theorem TraceArc.WF.stable [TextRule] {o : TraceArc} (h : o.WF) : (canon o).WF where
  start := Stable.keep h.start
  mid := Stable.keep h.mid
  «end» := Stable.keep h.«end»
  width := Stable.keep h.width
  layer := Stable.keep h.layer
  net := Stable.keep h.net
  tstamp := Stable.opt h.tstamp
instance [TextRule] : Stable TraceArc.WF := ⟨TraceArc.WF.stable⟩

derive_idem Target
theorem Target.WF.stable [TextRule] {o : Target} (h : o.WF) : (canon o).WF where
  type := Stable.keep h.type
  position := Stable.keep h.position
  size := Stable.keep h.size
  width := Stable.keep h.width
  layer := Stable.keep h.layer
  tstamp := Stable.req h.tstamp
instance [TextRule] : Stable Target.WF := ⟨Target.WF.stable⟩

derive_idem DimensionFormat
theorem DimensionFormat.WF.stable [TextRule] {o : DimensionFormat} (h : o.WF) : (canon o).WF where
  «prefix» := Stable.opt h.«prefix»
  suffix := Stable.opt h.suffix
  units := Stable.keep h.units
  unitsFormat := Stable.keep h.unitsFormat
  precision := Stable.keep h.precision
  overrideValue := Stable.opt h.overrideValue
instance [TextRule] : Stable DimensionFormat.WF := ⟨DimensionFormat.WF.stable⟩

derive_idem DimensionStyle
theorem DimensionStyle.WF.stable [TextRule] {o : DimensionStyle} (h : o.WF) : (canon o).WF where
  thickness := Stable.keep h.thickness
  arrowLength := Stable.keep h.arrowLength
  textPositionMode := Stable.keep h.textPositionMode
  extensionHeight := Stable.opt h.extensionHeight
  textFrame := Stable.opt h.textFrame
  extensionOffset := Stable.opt h.extensionOffset
instance [TextRule] : Stable DimensionStyle.WF := ⟨DimensionStyle.WF.stable⟩

derive_idem Dimension
theorem Dimension.WF.stable [TextRule] {o : Dimension} (h : o.WF) : (canon o).WF where
  type := Stable.keep h.type
  layer := Stable.keep h.layer
  tstamp := Stable.req h.tstamp
  pts := Stable.list h.pts
  height := Stable.opt h.height
  orientation := Stable.opt h.orientation
  leaderLength := Stable.opt h.leaderLength
  grText := Stable.opt h.grText
  format := Stable.opt h.format
  style := Stable.keep h.style
  unlocked := h.unlocked
  nonempty := Stable.listNe h.nonempty
instance [TextRule] : Stable Dimension.WF := ⟨Dimension.WF.stable⟩

instance : CanonIdem TraceItem := ⟨fun
  | .segment x => congrArg TraceItem.segment (idem x)
  | .arc x => congrArg TraceItem.arc (idem x)
  | .via x => congrArg TraceItem.via (idem x)⟩

theorem TraceItem.WF.stable [TextRule] : ∀ {o : TraceItem}, o.WF → (canon o).WF
  | .segment _, h => Stable.keep (P := Segment.WF) h
  | .arc _, h => Stable.keep (P := TraceArc.WF) h
  | .via _, h => Stable.keep (P := Via.WF) h
instance [TextRule] : Stable TraceItem.WF := ⟨TraceItem.WF.stable⟩

derive_idem Board
theorem Board.WF.stable [TextRule] {o : Board} (h : o.WF) : (canon o).WF where
  version := Stable.keep h.version
  generator := Stable.keep h.generator
  general := Stable.keep h.general
  paper := Stable.keep h.paper
  titleBlock := Stable.opt h.titleBlock
  layers := Stable.list h.layers
  setup := Stable.keep h.setup
  propertyNames := Stable.fst h.propertyNames
  properties := Stable.snd h.properties
  distinct := Stable.keys h.distinct
  nets := Stable.list h.nets
  footprints := Stable.list h.footprints
  graphicItems := Stable.list h.graphicItems
  dimensions := Stable.list h.dimensions
  targets := Stable.list h.targets
  traceItems := Stable.list h.traceItems
  zones := Stable.list h.zones
  groups := Stable.list h.groups
instance [TextRule] : Stable Board.WF := ⟨Board.WF.stable⟩

end Kiutils
