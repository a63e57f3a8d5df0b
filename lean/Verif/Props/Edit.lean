import Verif.Props.FixedPoint
/-!
# Editing one field and saving changes nothing else (C38)

One theorem per class, with one part for each field that is saved. (`Junction.diameter`, `PlotSettings.useAuxOrigin` and the paths
of files are not; see C22, C40.)
-/
namespace Kiutils

/-- Saving and loading `o` gives some `o'`; saving and loading `o` with one field set to `v` gives `o'` with that field set to a
value equal to `kept`, and nothing else changed. -/
def OnlyChanges {α β : Type} [PyEq β] (save : α → PyM Str) (load : Val → PyM α) (o : α) (set : β → α → α) (v kept : β) : Prop :=
  ∃ o', (save o >>= parseSexp >>= load) = .ok o' ∧
    ∃ v', PyEq.eq kept v' ∧ (save (set v o) >>= parseSexp >>= load) = .ok (set v' o')

theorem C38_Coordinate [TextRule] (o : Coordinate) (h : o.WF) (i : Nat) (nl : Bool) :
    (∀ v : Val, ({ o with X := v } : Coordinate).WF →
      OnlyChanges (fun o => .ok (o.toSexpr i nl)) Coordinate.fromSexpr o (fun v o => { o with X := v }) v v) ∧
    (∀ v : Val, ({ o with Y := v } : Coordinate).WF →
      OnlyChanges (fun o => .ok (o.toSexpr i nl)) Coordinate.fromSexpr o (fun v o => { o with Y := v }) v v) ∧
    (∀ v : Val, ({ o with Z := v } : Coordinate).WF →
      OnlyChanges (fun o => .ok (o.toSexpr i nl)) Coordinate.fromSexpr o (fun v o => { o with Z := v }) v v) := by
  have hs : ∀ o : Coordinate, o.WF → (.ok (o.toSexpr i nl) >>= parseSexp >>= Coordinate.fromSexpr) = .ok (canon o) := fun o h =>
    (Lexes.one fun _ _ hs => Coordinate.lx h hs).loads Coordinate.from_toVal
  exact ⟨fun v hv => ⟨_, hs o h, canon v, canonEq _, (hs _ hv).trans rfl⟩,
    fun v hv => ⟨_, hs o h, canon v, canonEq _, (hs _ hv).trans rfl⟩,
    fun v hv => ⟨_, hs o h, canon v, canonEq _, (hs _ hv).trans rfl⟩⟩
example := C38_Coordinate sampleCoordinate sampleCoordinate_wf

theorem C38_ColorRGBA [TextRule] (o : ColorRGBA) (h : o.WF) (i : Nat) (nl : Bool) :
    (∀ v : Val, ({ o with R := v } : ColorRGBA).WF →
      OnlyChanges (fun o => .ok (o.toSexpr i nl)) ColorRGBA.fromSexpr o (fun v o => { o with R := v }) v v) ∧
    (∀ v : Val, ({ o with G := v } : ColorRGBA).WF →
      OnlyChanges (fun o => .ok (o.toSexpr i nl)) ColorRGBA.fromSexpr o (fun v o => { o with G := v }) v v) ∧
    (∀ v : Val, ({ o with B := v } : ColorRGBA).WF →
      OnlyChanges (fun o => .ok (o.toSexpr i nl)) ColorRGBA.fromSexpr o (fun v o => { o with B := v }) v v) ∧
    (∀ v : Val, ({ o with A := v } : ColorRGBA).WF →
      OnlyChanges (fun o => .ok (o.toSexpr i nl)) ColorRGBA.fromSexpr o (fun v o => { o with A := v }) v v) ∧
    (∀ v : Option Nat, ({ o with precision := v } : ColorRGBA).WF →
      OnlyChanges (fun o => .ok (o.toSexpr i nl)) ColorRGBA.fromSexpr o (fun v o => { o with precision := v }) v v) := by
  have hs : ∀ o : ColorRGBA, o.WF → (.ok (o.toSexpr i nl) >>= parseSexp >>= ColorRGBA.fromSexpr) = .ok (canon o) := fun o h =>
    (Lexes.one fun _ _ hs => ColorRGBA.lx h hs).loads (ColorRGBA.from_toVal h)
  exact ⟨fun v hv => ⟨_, hs o h, canon v, canonEq _, (hs _ hv).trans rfl⟩,
    fun v hv => ⟨_, hs o h, canon v, canonEq _, (hs _ hv).trans rfl⟩,
    fun v hv => ⟨_, hs o h, canon v, canonEq _, (hs _ hv).trans rfl⟩,
    fun v hv => ⟨_, hs o h, canon v, canonEq _, (hs _ hv).trans rfl⟩,
    fun v hv => ⟨_, hs o h, canon v, canonEq _, (hs _ hv).trans rfl⟩⟩
example := C38_ColorRGBA sampleColorRGBA sampleColorRGBA_wf

theorem C38_Stroke [TextRule] (o : Stroke) (h : o.WF) (i : Nat) (nl : Bool) :
    (∀ v : Val, ({ o with width := v } : Stroke).WF →
      OnlyChanges (fun o => .ok (o.toSexpr i nl)) Stroke.fromSexpr o (fun v o => { o with width := v }) v v) ∧
    (∀ v : Option Val, ({ o with type := v } : Stroke).WF →
      OnlyChanges (fun o => .ok (o.toSexpr i nl)) Stroke.fromSexpr o (fun v o => { o with type := v }) v v) ∧
    (∀ v : Option ColorRGBA, ({ o with color := v } : Stroke).WF →
      OnlyChanges (fun o => .ok (o.toSexpr i nl)) Stroke.fromSexpr o (fun v o => { o with color := v }) v v) := by
  have hs : ∀ o : Stroke, o.WF → (.ok (o.toSexpr i nl) >>= parseSexp >>= Stroke.fromSexpr) = .ok (canon o) := fun o h =>
    (Lexes.one fun _ _ hs => Stroke.lx h hs).loads (Stroke.from_toVal h)
  exact ⟨fun v hv => ⟨_, hs o h, canon v, canonEq _, (hs _ hv).trans rfl⟩,
    fun v hv => ⟨_, hs o h, canon v, canonEq _, (hs _ hv).trans rfl⟩,
    fun v hv => ⟨_, hs o h, canon v, canonEq _, (hs _ hv).trans rfl⟩⟩
example := C38_Stroke sampleStroke sampleStroke_wf

theorem C38_Font [TextRule] (o : Font) (h : o.WF) (i : Nat) (nl : Bool) :
    (∀ v : Option Val, ({ o with face := v } : Font).WF →
      OnlyChanges (fun o => .ok (o.toSexpr i nl)) Font.fromSexpr o (fun v o => { o with face := v }) v v) ∧
    (∀ v : Val, ({ o with height := v } : Font).WF →
      OnlyChanges (fun o => .ok (o.toSexpr i nl)) Font.fromSexpr o (fun v o => { o with height := v }) v v) ∧
    (∀ v : Val, ({ o with width := v } : Font).WF →
      OnlyChanges (fun o => .ok (o.toSexpr i nl)) Font.fromSexpr o (fun v o => { o with width := v }) v v) ∧
    (∀ v : Option Val, ({ o with thickness := v } : Font).WF →
      OnlyChanges (fun o => .ok (o.toSexpr i nl)) Font.fromSexpr o (fun v o => { o with thickness := v }) v v) ∧
    (∀ v : Bool, ({ o with bold := v } : Font).WF →
      OnlyChanges (fun o => .ok (o.toSexpr i nl)) Font.fromSexpr o (fun v o => { o with bold := v }) v v) ∧
    (∀ v : Bool, ({ o with italic := v } : Font).WF →
      OnlyChanges (fun o => .ok (o.toSexpr i nl)) Font.fromSexpr o (fun v o => { o with italic := v }) v v) ∧
    (∀ v : Option Val, ({ o with lineSpacing := v } : Font).WF →
      OnlyChanges (fun o => .ok (o.toSexpr i nl)) Font.fromSexpr o (fun v o => { o with lineSpacing := v }) v v) ∧
    (∀ v : Option ColorRGBA, ({ o with color := v } : Font).WF →
      OnlyChanges (fun o => .ok (o.toSexpr i nl)) Font.fromSexpr o (fun v o => { o with color := v }) v v) := by
  have hs : ∀ o : Font, o.WF → (.ok (o.toSexpr i nl) >>= parseSexp >>= Font.fromSexpr) = .ok (canon o) := fun o h =>
    (Lexes.one fun _ _ hs => Font.lx h hs).loads (Font.from_toVal h)
  exact ⟨fun v hv => ⟨_, hs o h, canon v, canonEq _, (hs _ hv).trans rfl⟩,
    fun v hv => ⟨_, hs o h, canon v, canonEq _, (hs _ hv).trans rfl⟩,
    fun v hv => ⟨_, hs o h, canon v, canonEq _, (hs _ hv).trans rfl⟩,
    fun v hv => ⟨_, hs o h, canon v, canonEq _, (hs _ hv).trans rfl⟩,
    fun v hv => ⟨_, hs o h, canon v, canonEq _, (hs _ hv).trans rfl⟩,
    fun v hv => ⟨_, hs o h, canon v, canonEq _, (hs _ hv).trans rfl⟩,
    fun v hv => ⟨_, hs o h, canon v, canonEq _, (hs _ hv).trans rfl⟩,
    fun v hv => ⟨_, hs o h, canon v, canonEq _, (hs _ hv).trans rfl⟩⟩
example := C38_Font sampleFont sampleFont_wf

theorem C38_Justify [TextRule] (o : Justify) (h : o.WF) (he : o.isEmpty = false) (i : Nat) (nl : Bool) :
    (∀ v : Option Val, ({ o with horizontally := v } : Justify).WF → ({ o with horizontally := v } : Justify).isEmpty = false →
      OnlyChanges (fun o => .ok (o.toSexpr i nl)) Justify.fromSexpr o (fun v o => { o with horizontally := v }) v v) ∧
    (∀ v : Option Val, ({ o with vertically := v } : Justify).WF → ({ o with vertically := v } : Justify).isEmpty = false →
      OnlyChanges (fun o => .ok (o.toSexpr i nl)) Justify.fromSexpr o (fun v o => { o with vertically := v }) v v) ∧
    (∀ v : Bool, ({ o with mirror := v } : Justify).WF → ({ o with mirror := v } : Justify).isEmpty = false →
      OnlyChanges (fun o => .ok (o.toSexpr i nl)) Justify.fromSexpr o (fun v o => { o with mirror := v }) v v) := by
  have hs : ∀ o : Justify, o.WF → o.isEmpty = false → (.ok (o.toSexpr i nl) >>= parseSexp >>= Justify.fromSexpr) = .ok (canon o) := fun o h he =>
    (Lexes.one fun _ _ hs => Justify.lx h he hs).loads (Justify.from_toVal h)
  exact ⟨fun v hv he' => ⟨_, hs o h he, canon v, canonEq _, (hs _ hv he').trans rfl⟩,
    fun v hv he' => ⟨_, hs o h he, canon v, canonEq _, (hs _ hv he').trans rfl⟩,
    fun v hv he' => ⟨_, hs o h he, canon v, canonEq _, (hs _ hv he').trans rfl⟩⟩
example := C38_Justify sampleJustify sampleJustify_wf rfl

theorem C38_Effects [TextRule] (o : Effects) (h : o.WF) (i : Nat) (nl : Bool) :
    (∀ v : Font, ({ o with font := v } : Effects).WF →
      OnlyChanges (fun o => .ok (o.toSexpr i nl)) Effects.fromSexpr o (fun v o => { o with font := v }) v v) ∧
    (∀ v : Justify, ({ o with justify := v } : Effects).WF →
      OnlyChanges (fun o => .ok (o.toSexpr i nl)) Effects.fromSexpr o (fun v o => { o with justify := v }) v v) ∧
    (∀ v : Bool, ({ o with hide := v } : Effects).WF →
      OnlyChanges (fun o => .ok (o.toSexpr i nl)) Effects.fromSexpr o (fun v o => { o with hide := v }) v v) ∧
    (∀ v : Option Val, ({ o with href := v } : Effects).WF →
      OnlyChanges (fun o => .ok (o.toSexpr i nl)) Effects.fromSexpr o (fun v o => { o with href := v }) v v) := by
  have hs : ∀ o : Effects, o.WF → (.ok (o.toSexpr i nl) >>= parseSexp >>= Effects.fromSexpr) = .ok (canon o) := fun o h =>
    (Lexes.one fun _ _ hs => Effects.lx h hs).loads (Effects.from_toVal h)
  exact ⟨fun v hv => ⟨_, hs o h, canon v, canonEq _, (hs _ hv).trans rfl⟩,
    fun v hv => ⟨_, hs o h, canon v, canonEq _, (hs _ hv).trans rfl⟩,
    fun v hv => ⟨_, hs o h, canon v, canonEq _, (hs _ hv).trans rfl⟩,
    fun v hv => ⟨_, hs o h, canon v, canonEq _, (hs _ hv).trans rfl⟩⟩
example := C38_Effects sampleEffects sampleEffects_wf

theorem C38_Net [TextRule] (o : Net) (h : o.WF) (i : Nat) (nl : Bool) :
    (∀ v : Val, ({ o with number := v } : Net).WF →
      OnlyChanges (fun o => .ok (o.toSexpr i nl)) Net.fromSexpr o (fun v o => { o with number := v }) v v) ∧
    (∀ v : Val, ({ o with name := v } : Net).WF →
      OnlyChanges (fun o => .ok (o.toSexpr i nl)) Net.fromSexpr o (fun v o => { o with name := v }) v v) := by
  have hs : ∀ o : Net, o.WF → (.ok (o.toSexpr i nl) >>= parseSexp >>= Net.fromSexpr) = .ok (canon o) := fun o h =>
    (Lexes.one fun _ _ hs => Net.lx h hs).loads Net.from_toVal
  exact ⟨fun v hv => ⟨_, hs o h, canon v, canonEq _, (hs _ hv).trans rfl⟩,
    fun v hv => ⟨_, hs o h, canon v, canonEq _, (hs _ hv).trans rfl⟩⟩
example := C38_Net sampleNet sampleNet_wf

theorem C38_Group [TextRule] (o : Group) (h : o.WF) (i : Nat) (nl : Bool) :
    (∀ v : Val, ({ o with name := v } : Group).WF →
      OnlyChanges (fun o => .ok (o.toSexpr i nl)) Group.fromSexpr o (fun v o => { o with name := v }) v v) ∧
    (∀ v : Bool, ({ o with locked := v } : Group).WF →
      OnlyChanges (fun o => .ok (o.toSexpr i nl)) Group.fromSexpr o (fun v o => { o with locked := v }) v v) ∧
    (∀ v : Val, ({ o with id := v } : Group).WF →
      OnlyChanges (fun o => .ok (o.toSexpr i nl)) Group.fromSexpr o (fun v o => { o with id := v }) v v) ∧
    (∀ v : List Val, ({ o with members := v } : Group).WF →
      OnlyChanges (fun o => .ok (o.toSexpr i nl)) Group.fromSexpr o (fun v o => { o with members := v }) v v) := by
  have hs : ∀ o : Group, o.WF → (.ok (o.toSexpr i nl) >>= parseSexp >>= Group.fromSexpr) = .ok (canon o) := fun o h =>
    (Lexes.one fun _ _ hs => Group.lx h hs).loads (Group.from_toVal h)
  exact ⟨fun v hv => ⟨_, hs o h, canon v, canonEq _, (hs _ hv).trans rfl⟩,
    fun v hv => ⟨_, hs o h, canon v, canonEq _, (hs _ hv).trans rfl⟩,
    fun v hv => ⟨_, hs o h, canon v, canonEq _, (hs _ hv).trans rfl⟩,
    fun v hv => ⟨_, hs o h, canon v, canonEq _, (hs _ hv).trans rfl⟩⟩
example := C38_Group sampleGroup sampleGroup_wf

theorem C38_PageSettings [TextRule] (o : PageSettings) (h : o.WF) (i : Nat) (nl : Bool) :
    (∀ v : Val, ({ o with paperSize := v } : PageSettings).WF →
      OnlyChanges (fun o => o.toSexpr i nl) PageSettings.fromSexpr o (fun v o => { o with paperSize := v }) v v) ∧
    (∀ v : Option Val, ({ o with width := v } : PageSettings).WF →
      OnlyChanges (fun o => o.toSexpr i nl) PageSettings.fromSexpr o (fun v o => { o with width := v }) v v) ∧
    (∀ v : Option Val, ({ o with height := v } : PageSettings).WF →
      OnlyChanges (fun o => o.toSexpr i nl) PageSettings.fromSexpr o (fun v o => { o with height := v }) v v) ∧
    (∀ v : Bool, ({ o with portrait := v } : PageSettings).WF →
      OnlyChanges (fun o => o.toSexpr i nl) PageSettings.fromSexpr o (fun v o => { o with portrait := v }) v v) := by
  have hs : ∀ o : PageSettings, o.WF → (o.toSexpr i nl >>= parseSexp >>= PageSettings.fromSexpr) = .ok (canon o) := fun o h =>
    (PageSettings.lx h i nl).loads (PageSettings.from_toVal h)
  exact ⟨fun v hv => ⟨_, hs o h, canon v, canonEq _, (hs _ hv).trans rfl⟩,
    fun v hv => ⟨_, hs o h, canon v, canonEq _, (hs _ hv).trans rfl⟩,
    fun v hv => ⟨_, hs o h, canon v, canonEq _, (hs _ hv).trans rfl⟩,
    fun v hv => ⟨_, hs o h, canon v, canonEq _, (hs _ hv).trans rfl⟩⟩
example := C38_PageSettings samplePageSettings samplePageSettings_wf

theorem C38_TitleBlock [TextRule] (o : TitleBlock) (h : o.WF) (i : Nat) (nl : Bool) :
    (∀ v : Option Val, ({ o with title := v } : TitleBlock).WF →
      OnlyChanges (fun o => .ok (o.toSexpr i nl)) TitleBlock.fromSexpr o (fun v o => { o with title := v }) v v) ∧
    (∀ v : Option Val, ({ o with date := v } : TitleBlock).WF →
      OnlyChanges (fun o => .ok (o.toSexpr i nl)) TitleBlock.fromSexpr o (fun v o => { o with date := v }) v v) ∧
    (∀ v : Option Val, ({ o with revision := v } : TitleBlock).WF →
      OnlyChanges (fun o => .ok (o.toSexpr i nl)) TitleBlock.fromSexpr o (fun v o => { o with revision := v }) v v) ∧
    (∀ v : Option Val, ({ o with company := v } : TitleBlock).WF →
      OnlyChanges (fun o => .ok (o.toSexpr i nl)) TitleBlock.fromSexpr o (fun v o => { o with company := v }) v v) ∧
    (∀ v : Dict Val, ({ o with comments := v } : TitleBlock).WF →
      OnlyChanges (fun o => .ok (o.toSexpr i nl)) TitleBlock.fromSexpr o (fun v o => { o with comments := v }) v v) := by
  have hs : ∀ o : TitleBlock, o.WF → (.ok (o.toSexpr i nl) >>= parseSexp >>= TitleBlock.fromSexpr) = .ok (canon o) := fun o h =>
    (Lexes.one fun _ _ hs => TitleBlock.lx h hs).loads (TitleBlock.from_toVal h)
  exact ⟨fun v hv => ⟨_, hs o h, canon v, canonEq _, (hs _ hv).trans rfl⟩,
    fun v hv => ⟨_, hs o h, canon v, canonEq _, (hs _ hv).trans rfl⟩,
    fun v hv => ⟨_, hs o h, canon v, canonEq _, (hs _ hv).trans rfl⟩,
    fun v hv => ⟨_, hs o h, canon v, canonEq _, (hs _ hv).trans rfl⟩,
    fun v hv => ⟨_, hs o h, canon v, canonEq _, (hs _ hv).trans rfl⟩⟩
example := C38_TitleBlock sampleTitleBlock sampleTitleBlock_wf

theorem C38_Property [TextRule] (o : Property) (h : o.WF) (i : Nat) (nl : Bool) :
    (∀ v : Val, ({ o with key := v } : Property).WF →
      OnlyChanges (fun o => .ok (o.toSexpr i nl)) Property.fromSexpr o (fun v o => { o with key := v }) v v) ∧
    (∀ v : Val, ({ o with value := v } : Property).WF →
      OnlyChanges (fun o => .ok (o.toSexpr i nl)) Property.fromSexpr o (fun v o => { o with value := v }) v v) ∧
    (∀ v : Option Val, ({ o with id := v } : Property).WF →
      OnlyChanges (fun o => .ok (o.toSexpr i nl)) Property.fromSexpr o (fun v o => { o with id := v }) v v) ∧
    (∀ v : Position, ({ o with position := v } : Property).WF →
      OnlyChanges (fun o => .ok (o.toSexpr i nl)) Property.fromSexpr o (fun v o => { o with position := v }) v v) ∧
    (∀ v : Option Effects, ({ o with effects := v } : Property).WF →
      OnlyChanges (fun o => .ok (o.toSexpr i nl)) Property.fromSexpr o (fun v o => { o with effects := v }) v v) ∧
    (∀ v : Bool, ({ o with showName := v } : Property).WF →
      OnlyChanges (fun o => .ok (o.toSexpr i nl)) Property.fromSexpr o (fun v o => { o with showName := v }) v v) := by
  have hs : ∀ o : Property, o.WF → (.ok (o.toSexpr i nl) >>= parseSexp >>= Property.fromSexpr) = .ok (canon o) := fun o h =>
    (Lexes.one fun _ _ hs => Property.lx h hs).loads (Property.from_toVal h)
  exact ⟨fun v hv => ⟨_, hs o h, canon v, canonEq _, (hs _ hv).trans rfl⟩,
    fun v hv => ⟨_, hs o h, canon v, canonEq _, (hs _ hv).trans rfl⟩,
    fun v hv => ⟨_, hs o h, canon v, canonEq _, (hs _ hv).trans rfl⟩,
    fun v hv => ⟨_, hs o h, canon v, canonEq _, (hs _ hv).trans rfl⟩,
    fun v hv => ⟨_, hs o h, canon v, canonEq _, (hs _ hv).trans rfl⟩,
    fun v hv => ⟨_, hs o h, canon v, canonEq _, (hs _ hv).trans rfl⟩⟩
example := C38_Property sampleProperty sampleProperty_wf

theorem C38_RenderCachePolygon [TextRule] (o : RenderCachePolygon) (h : o.WF) (i : Nat) (nl : Bool) :
    (∀ v : List Position, ({ o with pts := v } : RenderCachePolygon).WF →
      OnlyChanges (fun o => .ok (o.toSexpr i nl)) RenderCachePolygon.fromSexpr o (fun v o => { o with pts := v }) v v) := by
  have hs : ∀ o : RenderCachePolygon, o.WF → (.ok (o.toSexpr i nl) >>= parseSexp >>= RenderCachePolygon.fromSexpr) = .ok (canon o) := fun o h =>
    (Lexes.one fun _ _ hs => RenderCachePolygon.lx h hs).loads (RenderCachePolygon.from_toVal h)
  exact fun v hv => ⟨_, hs o h, canon v, canonEq _, (hs _ hv).trans rfl⟩
example := C38_RenderCachePolygon sampleRenderCachePolygon sampleRenderCachePolygon_wf

theorem C38_RenderCache [TextRule] (o : RenderCache) (h : o.WF) (i : Nat) (nl : Bool) :
    (∀ v : Val, ({ o with text := v } : RenderCache).WF →
      OnlyChanges (fun o => .ok (o.toSexpr i nl)) RenderCache.fromSexpr o (fun v o => { o with text := v }) v v) ∧
    (∀ v : Val, ({ o with id := v } : RenderCache).WF →
      OnlyChanges (fun o => .ok (o.toSexpr i nl)) RenderCache.fromSexpr o (fun v o => { o with id := v }) v v) ∧
    (∀ v : List RenderCachePolygon, ({ o with polygons := v } : RenderCache).WF →
      OnlyChanges (fun o => .ok (o.toSexpr i nl)) RenderCache.fromSexpr o (fun v o => { o with polygons := v }) v v) := by
  have hs : ∀ o : RenderCache, o.WF → (.ok (o.toSexpr i nl) >>= parseSexp >>= RenderCache.fromSexpr) = .ok (canon o) := fun o h =>
    (Lexes.one fun _ _ hs => RenderCache.lx h hs).loads (RenderCache.from_toVal h)
  exact ⟨fun v hv => ⟨_, hs o h, canon v, canonEq _, (hs _ hv).trans rfl⟩,
    fun v hv => ⟨_, hs o h, canon v, canonEq _, (hs _ hv).trans rfl⟩,
    fun v hv => ⟨_, hs o h, canon v, canonEq _, (hs _ hv).trans rfl⟩⟩
example := C38_RenderCache sampleRenderCache sampleRenderCache_wf

theorem C38_Fill [TextRule] (o : Fill) (h : o.WF) (i : Nat) (nl : Bool) :
    (∀ v : Val, ({ o with type := v } : Fill).WF →
      OnlyChanges (fun o => .ok (o.toSexpr i nl)) Fill.fromSexpr o (fun v o => { o with type := v }) v v) ∧
    (∀ v : Option ColorRGBA, ({ o with color := v } : Fill).WF →
      OnlyChanges (fun o => .ok (o.toSexpr i nl)) Fill.fromSexpr o (fun v o => { o with color := v }) v v) := by
  have hs : ∀ o : Fill, o.WF → (.ok (o.toSexpr i nl) >>= parseSexp >>= Fill.fromSexpr) = .ok (canon o) := fun o h =>
    (Lexes.one fun _ _ hs => Fill.lx h hs).loads (Fill.from_toVal h)
  exact ⟨fun v hv => ⟨_, hs o h, canon v, canonEq _, (hs _ hv).trans rfl⟩,
    fun v hv => ⟨_, hs o h, canon v, canonEq _, (hs _ hv).trans rfl⟩⟩
example := C38_Fill sampleFill sampleFill_wf

theorem C38_Image [TextRule] (o : Image) (h : o.WF) (i : Nat) (nl : Bool) :
    (∀ v : Position, ({ o with position := v } : Image).WF →
      OnlyChanges (fun o => .ok (o.toSexpr i nl)) Image.fromSexpr o (fun v o => { o with position := v }) v v) ∧
    (∀ v : Option Val, ({ o with scale := v } : Image).WF →
      OnlyChanges (fun o => .ok (o.toSexpr i nl)) Image.fromSexpr o (fun v o => { o with scale := v }) v v) ∧
    (∀ v : List Val, ({ o with data := v } : Image).WF →
      OnlyChanges (fun o => .ok (o.toSexpr i nl)) Image.fromSexpr o (fun v o => { o with data := v }) v v) ∧
    (∀ v : Option Val, ({ o with uuid := v } : Image).WF →
      OnlyChanges (fun o => .ok (o.toSexpr i nl)) Image.fromSexpr o (fun v o => { o with uuid := v }) v v) ∧
    (∀ v : Option Val, ({ o with layer := v } : Image).WF →
      OnlyChanges (fun o => .ok (o.toSexpr i nl)) Image.fromSexpr o (fun v o => { o with layer := v }) v v) := by
  have hs : ∀ o : Image, o.WF → (.ok (o.toSexpr i nl) >>= parseSexp >>= Image.fromSexpr) = .ok (canon o) := fun o h =>
    (Lexes.one fun _ _ hs => Image.lx h hs).loads (Image.from_toVal h)
  exact ⟨fun v hv => ⟨_, hs o h, canon v, canonEq _, (hs _ hv).trans rfl⟩,
    fun v hv => ⟨_, hs o h, canon v, canonEq _, (hs _ hv).trans rfl⟩,
    fun v hv => ⟨_, hs o h, canon v, canonEq _, (hs _ hv).trans rfl⟩,
    fun v hv => ⟨_, hs o h, canon v, canonEq _, (hs _ hv).trans rfl⟩,
    fun v hv => ⟨_, hs o h, canon v, canonEq _, (hs _ hv).trans rfl⟩⟩
example := C38_Image sampleImage sampleImage_wf

theorem C38_Library [TextRule] (o : Library) (h : o.WF) (i : Nat) (nl : Bool) :
    (∀ v : Val, ({ o with name := v } : Library).WF →
      OnlyChanges (fun o => .ok (o.toSexpr i nl)) Library.fromSexpr o (fun v o => { o with name := v }) v v) ∧
    (∀ v : Val, ({ o with type := v } : Library).WF →
      OnlyChanges (fun o => .ok (o.toSexpr i nl)) Library.fromSexpr o (fun v o => { o with type := v }) v v) ∧
    (∀ v : Val, ({ o with uri := v } : Library).WF →
      OnlyChanges (fun o => .ok (o.toSexpr i nl)) Library.fromSexpr o (fun v o => { o with uri := v }) v v) ∧
    (∀ v : Val, ({ o with options := v } : Library).WF →
      OnlyChanges (fun o => .ok (o.toSexpr i nl)) Library.fromSexpr o (fun v o => { o with options := v }) v v) ∧
    (∀ v : Val, ({ o with description := v } : Library).WF →
      OnlyChanges (fun o => .ok (o.toSexpr i nl)) Library.fromSexpr o (fun v o => { o with description := v }) v v) ∧
    (∀ v : Bool, ({ o with active := v } : Library).WF →
      OnlyChanges (fun o => .ok (o.toSexpr i nl)) Library.fromSexpr o (fun v o => { o with active := v }) v v) := by
  have hs : ∀ o : Library, o.WF → (.ok (o.toSexpr i nl) >>= parseSexp >>= Library.fromSexpr) = .ok (canon o) := fun o h =>
    (Lexes.one fun _ _ hs => Library.lx h hs).loads (Library.from_toVal h)
  exact ⟨fun v hv => ⟨_, hs o h, canon v, canonEq _, (hs _ hv).trans rfl⟩,
    fun v hv => ⟨_, hs o h, canon v, canonEq _, (hs _ hv).trans rfl⟩,
    fun v hv => ⟨_, hs o h, canon v, canonEq _, (hs _ hv).trans rfl⟩,
    fun v hv => ⟨_, hs o h, canon v, canonEq _, (hs _ hv).trans rfl⟩,
    fun v hv => ⟨_, hs o h, canon v, canonEq _, (hs _ hv).trans rfl⟩,
    fun v hv => ⟨_, hs o h, canon v, canonEq _, (hs _ hv).trans rfl⟩⟩
example := C38_Library sampleLibrary sampleLibrary_wf

theorem C38_LibTable [TextRule] (o : LibTable) (h : o.WF) (i : Nat) (nl : Bool) :
    (∀ v : Val, ({ o with type := v } : LibTable).WF →
      OnlyChanges (fun o => .ok (o.toSexpr i nl)) LibTable.fromSexpr o (fun v o => { o with type := v }) v v) ∧
    (∀ v : List Library, ({ o with libs := v } : LibTable).WF →
      OnlyChanges (fun o => .ok (o.toSexpr i nl)) LibTable.fromSexpr o (fun v o => { o with libs := v }) v v) := by
  have hs : ∀ o : LibTable, o.WF → (.ok (o.toSexpr i nl) >>= parseSexp >>= LibTable.fromSexpr) = .ok (canon { o with filePath := none }) := fun o h =>
    (Lexes.one fun _ _ hs => LibTable.lx h hs).loads (LibTable.from_toVal h)
  exact ⟨fun v hv => ⟨_, hs o h, canon v, canonEq _, (hs _ hv).trans rfl⟩,
    fun v hv => ⟨_, hs o h, canon v, canonEq _, (hs _ hv).trans rfl⟩⟩
example := C38_LibTable sampleLibTable sampleLibTable_wf

theorem C38_Constraint [TextRule] (o : Constraint) (h : o.WF) (i : Nat) (nl : Bool) :
    (∀ v : Val, ({ o with type := v } : Constraint).WF →
      OnlyChanges (fun o => o.toSexpr i nl) Constraint.fromSexpr o (fun v o => { o with type := v }) v v) ∧
    (∀ v : Option Val, ({ o with min := v } : Constraint).WF →
      OnlyChanges (fun o => o.toSexpr i nl) Constraint.fromSexpr o (fun v o => { o with min := v }) v v) ∧
    (∀ v : Option Val, ({ o with opt := v } : Constraint).WF →
      OnlyChanges (fun o => o.toSexpr i nl) Constraint.fromSexpr o (fun v o => { o with opt := v }) v v) ∧
    (∀ v : Option Val, ({ o with max := v } : Constraint).WF →
      OnlyChanges (fun o => o.toSexpr i nl) Constraint.fromSexpr o (fun v o => { o with max := v }) v v) ∧
    (∀ v : List Val, ({ o with elements := v } : Constraint).WF →
      OnlyChanges (fun o => o.toSexpr i nl) Constraint.fromSexpr o (fun v o => { o with elements := v }) v v) := by
  have hs : ∀ o : Constraint, o.WF → (o.toSexpr i nl >>= parseSexp >>= Constraint.fromSexpr) = .ok (canon o) := fun o h =>
    (Constraint.lx h i nl).loads (Constraint.from_toVal h)
  exact ⟨fun v hv => ⟨_, hs o h, canon v, canonEq _, (hs _ hv).trans rfl⟩,
    fun v hv => ⟨_, hs o h, canon v, canonEq _, (hs _ hv).trans rfl⟩,
    fun v hv => ⟨_, hs o h, canon v, canonEq _, (hs _ hv).trans rfl⟩,
    fun v hv => ⟨_, hs o h, canon v, canonEq _, (hs _ hv).trans rfl⟩,
    fun v hv => ⟨_, hs o h, canon v, canonEq _, (hs _ hv).trans rfl⟩⟩
example := C38_Constraint sampleConstraint sampleConstraint_wf

theorem C38_Rule [TextRule] (o : Rule) (h : o.WF) (i : Nat) :
    (∀ v : Val, ({ o with name := v } : Rule).WF →
      OnlyChanges (fun o => o.toSexpr i) Rule.fromSexpr o (fun v o => { o with name := v }) v v) ∧
    (∀ v : List Constraint, ({ o with constraints := v } : Rule).WF →
      OnlyChanges (fun o => o.toSexpr i) Rule.fromSexpr o (fun v o => { o with constraints := v }) v v) ∧
    (∀ v : Val, ({ o with condition := v } : Rule).WF →
      OnlyChanges (fun o => o.toSexpr i) Rule.fromSexpr o (fun v o => { o with condition := v }) v v) ∧
    (∀ v : Option Val, ({ o with layer := v } : Rule).WF →
      OnlyChanges (fun o => o.toSexpr i) Rule.fromSexpr o (fun v o => { o with layer := v }) v v) ∧
    (∀ v : Option Val, ({ o with severity := v } : Rule).WF →
      OnlyChanges (fun o => o.toSexpr i) Rule.fromSexpr o (fun v o => { o with severity := v }) v v) := by
  have hs : ∀ o : Rule, o.WF → (o.toSexpr i >>= parseSexp >>= Rule.fromSexpr) = .ok (canon o) := fun o h =>
    (Rule.lx h i).loads (Rule.from_toVal h)
  exact ⟨fun v hv => ⟨_, hs o h, canon v, canonEq _, (hs _ hv).trans rfl⟩,
    fun v hv => ⟨_, hs o h, canon v, canonEq _, (hs _ hv).trans rfl⟩,
    fun v hv => ⟨_, hs o h, canon v, canonEq _, (hs _ hv).trans rfl⟩,
    fun v hv => ⟨_, hs o h, canon v, canonEq _, (hs _ hv).trans rfl⟩,
    fun v hv => ⟨_, hs o h, canon v, canonEq _, (hs _ hv).trans rfl⟩⟩
example := C38_Rule sampleRule sampleRule_wf

theorem C38_WksFontSize [TextRule] (o : WksFontSize) (h : o.WF) (i : Nat) (nl : Bool) :
    (∀ v : Val, ({ o with width := v } : WksFontSize).WF →
      OnlyChanges (fun o => .ok (o.toSexpr i nl)) WksFontSize.fromSexpr o (fun v o => { o with width := v }) v v) ∧
    (∀ v : Val, ({ o with height := v } : WksFontSize).WF →
      OnlyChanges (fun o => .ok (o.toSexpr i nl)) WksFontSize.fromSexpr o (fun v o => { o with height := v }) v v) := by
  have hs : ∀ o : WksFontSize, o.WF → (.ok (o.toSexpr i nl) >>= parseSexp >>= WksFontSize.fromSexpr) = .ok (canon o) := fun o h =>
    (Lexes.one fun _ _ hs => WksFontSize.lx h hs).loads WksFontSize.from_toVal
  exact ⟨fun v hv => ⟨_, hs o h, canon v, canonEq _, (hs _ hv).trans rfl⟩,
    fun v hv => ⟨_, hs o h, canon v, canonEq _, (hs _ hv).trans rfl⟩⟩
example := C38_WksFontSize sampleWksFontSize sampleWksFontSize_wf

theorem C38_Bitmap [TextRule] (o : Bitmap) (h : o.WF) (i : Nat) (nl : Bool) :
    (∀ v : Val, ({ o with name := v } : Bitmap).WF →
      OnlyChanges (fun o => .ok (o.toSexpr i nl)) Bitmap.fromSexpr o (fun v o => { o with name := v }) v v) ∧
    (∀ v : WksPosition, ({ o with position := v } : Bitmap).WF →
      OnlyChanges (fun o => .ok (o.toSexpr i nl)) Bitmap.fromSexpr o (fun v o => { o with position := v }) v v) ∧
    (∀ v : Option Val, ({ o with option := v } : Bitmap).WF →
      OnlyChanges (fun o => .ok (o.toSexpr i nl)) Bitmap.fromSexpr o (fun v o => { o with option := v }) v v) ∧
    (∀ v : Val, ({ o with scale := v } : Bitmap).WF →
      OnlyChanges (fun o => .ok (o.toSexpr i nl)) Bitmap.fromSexpr o (fun v o => { o with scale := v }) v v) ∧
    (∀ v : Option Val, ({ o with «repeat» := v } : Bitmap).WF →
      OnlyChanges (fun o => .ok (o.toSexpr i nl)) Bitmap.fromSexpr o (fun v o => { o with «repeat» := v }) v v) ∧
    (∀ v : Option Val, ({ o with incrx := v } : Bitmap).WF →
      OnlyChanges (fun o => .ok (o.toSexpr i nl)) Bitmap.fromSexpr o (fun v o => { o with incrx := v }) v v) ∧
    (∀ v : Option Val, ({ o with incry := v } : Bitmap).WF →
      OnlyChanges (fun o => .ok (o.toSexpr i nl)) Bitmap.fromSexpr o (fun v o => { o with incry := v }) v v) ∧
    (∀ v : Option Val, ({ o with comment := v } : Bitmap).WF →
      OnlyChanges (fun o => .ok (o.toSexpr i nl)) Bitmap.fromSexpr o (fun v o => { o with comment := v }) v v) ∧
    (∀ v : List Val, ({ o with pngdata := v } : Bitmap).WF →
      OnlyChanges (fun o => .ok (o.toSexpr i nl)) Bitmap.fromSexpr o (fun v o => { o with pngdata := v }) v v) := by
  have hs : ∀ o : Bitmap, o.WF → (.ok (o.toSexpr i nl) >>= parseSexp >>= Bitmap.fromSexpr) = .ok (canon o) := fun o h =>
    (Lexes.one fun _ _ hs => Bitmap.lx h hs).loads (Bitmap.from_toVal h)
  exact ⟨fun v hv => ⟨_, hs o h, canon v, canonEq _, (hs _ hv).trans rfl⟩,
    fun v hv => ⟨_, hs o h, canon v, canonEq _, (hs _ hv).trans rfl⟩,
    fun v hv => ⟨_, hs o h, canon v, canonEq _, (hs _ hv).trans rfl⟩,
    fun v hv => ⟨_, hs o h, canon v, canonEq _, (hs _ hv).trans rfl⟩,
    fun v hv => ⟨_, hs o h, canon v, canonEq _, (hs _ hv).trans rfl⟩,
    fun v hv => ⟨_, hs o h, canon v, canonEq _, (hs _ hv).trans rfl⟩,
    fun v hv => ⟨_, hs o h, canon v, canonEq _, (hs _ hv).trans rfl⟩,
    fun v hv => ⟨_, hs o h, canon v, canonEq _, (hs _ hv).trans rfl⟩,
    fun v hv => ⟨_, hs o h, canon v, canonEq _, (hs _ hv).trans rfl⟩⟩
example := C38_Bitmap sampleBitmap sampleBitmap_wf

theorem C38_TbText [TextRule] (o : TbText) (h : o.WF) (i : Nat) (nl : Bool) :
    (∀ v : Val, ({ o with text := v } : TbText).WF →
      OnlyChanges (fun o => .ok (o.toSexpr i nl)) TbText.fromSexpr o (fun v o => { o with text := v }) v v) ∧
    (∀ v : Val, ({ o with name := v } : TbText).WF →
      OnlyChanges (fun o => .ok (o.toSexpr i nl)) TbText.fromSexpr o (fun v o => { o with name := v }) v v) ∧
    (∀ v : WksPosition, ({ o with position := v } : TbText).WF →
      OnlyChanges (fun o => .ok (o.toSexpr i nl)) TbText.fromSexpr o (fun v o => { o with position := v }) v v) ∧
    (∀ v : Option Val, ({ o with option := v } : TbText).WF →
      OnlyChanges (fun o => .ok (o.toSexpr i nl)) TbText.fromSexpr o (fun v o => { o with option := v }) v v) ∧
    (∀ v : Option Val, ({ o with rotate := v } : TbText).WF →
      OnlyChanges (fun o => .ok (o.toSexpr i nl)) TbText.fromSexpr o (fun v o => { o with rotate := v }) v v) ∧
    (∀ v : WksFont, ({ o with font := v } : TbText).WF →
      OnlyChanges (fun o => .ok (o.toSexpr i nl)) TbText.fromSexpr o (fun v o => { o with font := v }) v v) ∧
    (∀ v : Option Justify, ({ o with justify := v } : TbText).WF →
      OnlyChanges (fun o => .ok (o.toSexpr i nl)) TbText.fromSexpr o (fun v o => { o with justify := v }) v v) ∧
    (∀ v : Option Val, ({ o with maxlen := v } : TbText).WF →
      OnlyChanges (fun o => .ok (o.toSexpr i nl)) TbText.fromSexpr o (fun v o => { o with maxlen := v }) v v) ∧
    (∀ v : Option Val, ({ o with maxheight := v } : TbText).WF →
      OnlyChanges (fun o => .ok (o.toSexpr i nl)) TbText.fromSexpr o (fun v o => { o with maxheight := v }) v v) ∧
    (∀ v : Option Val, ({ o with «repeat» := v } : TbText).WF →
      OnlyChanges (fun o => .ok (o.toSexpr i nl)) TbText.fromSexpr o (fun v o => { o with «repeat» := v }) v v) ∧
    (∀ v : Option Val, ({ o with incrx := v } : TbText).WF →
      OnlyChanges (fun o => .ok (o.toSexpr i nl)) TbText.fromSexpr o (fun v o => { o with incrx := v }) v v) ∧
    (∀ v : Option Val, ({ o with incry := v } : TbText).WF →
      OnlyChanges (fun o => .ok (o.toSexpr i nl)) TbText.fromSexpr o (fun v o => { o with incry := v }) v v) ∧
    (∀ v : Option Val, ({ o with incrlabel := v } : TbText).WF →
      OnlyChanges (fun o => .ok (o.toSexpr i nl)) TbText.fromSexpr o (fun v o => { o with incrlabel := v }) v v) ∧
    (∀ v : Option Val, ({ o with comment := v } : TbText).WF →
      OnlyChanges (fun o => .ok (o.toSexpr i nl)) TbText.fromSexpr o (fun v o => { o with comment := v }) v v) := by
  have hs : ∀ o : TbText, o.WF → (.ok (o.toSexpr i nl) >>= parseSexp >>= TbText.fromSexpr) = .ok (canon o) := fun o h =>
    (Lexes.one fun _ _ hs => TbText.lx h hs).loads (TbText.from_toVal h)
  exact ⟨fun v hv => ⟨_, hs o h, canon v, canonEq _, (hs _ hv).trans rfl⟩,
    fun v hv => ⟨_, hs o h, canon v, canonEq _, (hs _ hv).trans rfl⟩,
    fun v hv => ⟨_, hs o h, canon v, canonEq _, (hs _ hv).trans rfl⟩,
    fun v hv => ⟨_, hs o h, canon v, canonEq _, (hs _ hv).trans rfl⟩,
    fun v hv => ⟨_, hs o h, canon v, canonEq _, (hs _ hv).trans rfl⟩,
    fun v hv => ⟨_, hs o h, canon v, canonEq _, (hs _ hv).trans rfl⟩,
    fun v hv => ⟨_, hs o h, canon v, canonEq _, (hs _ hv).trans rfl⟩,
    fun v hv => ⟨_, hs o h, canon v, canonEq _, (hs _ hv).trans rfl⟩,
    fun v hv => ⟨_, hs o h, canon v, canonEq _, (hs _ hv).trans rfl⟩,
    fun v hv => ⟨_, hs o h, canon v, canonEq _, (hs _ hv).trans rfl⟩,
    fun v hv => ⟨_, hs o h, canon v, canonEq _, (hs _ hv).trans rfl⟩,
    fun v hv => ⟨_, hs o h, canon v, canonEq _, (hs _ hv).trans rfl⟩,
    fun v hv => ⟨_, hs o h, canon v, canonEq _, (hs _ hv).trans rfl⟩,
    fun v hv => ⟨_, hs o h, canon v, canonEq _, (hs _ hv).trans rfl⟩⟩
example := C38_TbText sampleTbText sampleTbText_wf

theorem C38_TextSize [TextRule] (o : TextSize) (h : o.WF) (i : Nat) (nl : Bool) :
    (∀ v : Val, ({ o with width := v } : TextSize).WF →
      OnlyChanges (fun o => .ok (o.toSexpr i nl)) TextSize.fromSexpr o (fun v o => { o with width := v }) v v) ∧
    (∀ v : Val, ({ o with height := v } : TextSize).WF →
      OnlyChanges (fun o => .ok (o.toSexpr i nl)) TextSize.fromSexpr o (fun v o => { o with height := v }) v v) := by
  have hs : ∀ o : TextSize, o.WF → (.ok (o.toSexpr i nl) >>= parseSexp >>= TextSize.fromSexpr) = .ok (canon o) := fun o h =>
    (Lexes.one fun _ _ hs => TextSize.lx h hs).loads TextSize.from_toVal
  exact ⟨fun v hv => ⟨_, hs o h, canon v, canonEq _, (hs _ hv).trans rfl⟩,
    fun v hv => ⟨_, hs o h, canon v, canonEq _, (hs _ hv).trans rfl⟩⟩
example := C38_TextSize sampleTextSize sampleTextSize_wf

theorem C38_Setup [TextRule] (o : Setup) (h : o.WF) (i : Nat) (nl : Bool) :
    (∀ v : TextSize, ({ o with textSize := v } : Setup).WF →
      OnlyChanges (fun o => .ok (o.toSexpr i nl)) Setup.fromSexpr o (fun v o => { o with textSize := v }) v v) ∧
    (∀ v : Val, ({ o with lineWidth := v } : Setup).WF →
      OnlyChanges (fun o => .ok (o.toSexpr i nl)) Setup.fromSexpr o (fun v o => { o with lineWidth := v }) v v) ∧
    (∀ v : Val, ({ o with textLineWidth := v } : Setup).WF →
      OnlyChanges (fun o => .ok (o.toSexpr i nl)) Setup.fromSexpr o (fun v o => { o with textLineWidth := v }) v v) ∧
    (∀ v : Val, ({ o with leftMargin := v } : Setup).WF →
      OnlyChanges (fun o => .ok (o.toSexpr i nl)) Setup.fromSexpr o (fun v o => { o with leftMargin := v }) v v) ∧
    (∀ v : Val, ({ o with rightMargin := v } : Setup).WF →
      OnlyChanges (fun o => .ok (o.toSexpr i nl)) Setup.fromSexpr o (fun v o => { o with rightMargin := v }) v v) ∧
    (∀ v : Val, ({ o with topMargin := v } : Setup).WF →
      OnlyChanges (fun o => .ok (o.toSexpr i nl)) Setup.fromSexpr o (fun v o => { o with topMargin := v }) v v) ∧
    (∀ v : Val, ({ o with bottomMargin := v } : Setup).WF →
      OnlyChanges (fun o => .ok (o.toSexpr i nl)) Setup.fromSexpr o (fun v o => { o with bottomMargin := v }) v v) := by
  have hs : ∀ o : Setup, o.WF → (.ok (o.toSexpr i nl) >>= parseSexp >>= Setup.fromSexpr) = .ok (canon o) := fun o h =>
    (Lexes.one fun _ _ hs => Setup.lx h hs).loads Setup.from_toVal
  exact ⟨fun v hv => ⟨_, hs o h, canon v, canonEq _, (hs _ hv).trans rfl⟩,
    fun v hv => ⟨_, hs o h, canon v, canonEq _, (hs _ hv).trans rfl⟩,
    fun v hv => ⟨_, hs o h, canon v, canonEq _, (hs _ hv).trans rfl⟩,
    fun v hv => ⟨_, hs o h, canon v, canonEq _, (hs _ hv).trans rfl⟩,
    fun v hv => ⟨_, hs o h, canon v, canonEq _, (hs _ hv).trans rfl⟩,
    fun v hv => ⟨_, hs o h, canon v, canonEq _, (hs _ hv).trans rfl⟩,
    fun v hv => ⟨_, hs o h, canon v, canonEq _, (hs _ hv).trans rfl⟩⟩
example := C38_Setup sampleSetup sampleSetup_wf

theorem C38_WorkSheet [TextRule] (o : WorkSheet) (h : o.WF) (i : Nat) (nl : Bool) :
    (∀ v : Val, ({ o with version := v } : WorkSheet).WF →
      OnlyChanges (fun o => o.toSexpr i nl) WorkSheet.fromSexpr o (fun v o => { o with version := v }) v v) ∧
    (∀ v : Val, ({ o with generator := v } : WorkSheet).WF →
      OnlyChanges (fun o => o.toSexpr i nl) WorkSheet.fromSexpr o (fun v o => { o with generator := v }) v v) ∧
    (∀ v : Setup, ({ o with setup := v } : WorkSheet).WF →
      OnlyChanges (fun o => o.toSexpr i nl) WorkSheet.fromSexpr o (fun v o => { o with setup := v }) v v) ∧
    (∀ v : List WksItem, ({ o with drawingObjects := v } : WorkSheet).WF →
      OnlyChanges (fun o => o.toSexpr i nl) WorkSheet.fromSexpr o (fun v o => { o with drawingObjects := v }) v v) := by
  have hs : ∀ o : WorkSheet, o.WF → (o.toSexpr i nl >>= parseSexp >>= WorkSheet.fromSexpr) = .ok (canon { o with filePath := none }) := fun o h =>
    (WorkSheet.lx h i nl).loads (WorkSheet.from_toVal h)
  exact ⟨fun v hv => ⟨_, hs o h, canon v, canonEq _, (hs _ hv).trans rfl⟩,
    fun v hv => ⟨_, hs o h, canon v, canonEq _, (hs _ hv).trans rfl⟩,
    fun v hv => ⟨_, hs o h, canon v, canonEq _, (hs _ hv).trans rfl⟩,
    fun v hv => ⟨_, hs o h, canon v, canonEq _, (hs _ hv).trans rfl⟩⟩
example := C38_WorkSheet sampleWorkSheet sampleWorkSheet_wf

theorem C38_SyArc [TextRule] (o : SyArc) (h : o.WF) (i : Nat) (nl : Bool) :
    (∀ v : Bool, ({ o with priv := v } : SyArc).WF →
      OnlyChanges (fun o => .ok (o.toSexpr i nl)) SyArc.fromSexpr o (fun v o => { o with priv := v }) v v) ∧
    (∀ v : Position, ({ o with start := v } : SyArc).WF →
      OnlyChanges (fun o => .ok (o.toSexpr i nl)) SyArc.fromSexpr o (fun v o => { o with start := v }) v v) ∧
    (∀ v : Position, ({ o with mid := v } : SyArc).WF →
      OnlyChanges (fun o => .ok (o.toSexpr i nl)) SyArc.fromSexpr o (fun v o => { o with mid := v }) v v) ∧
    (∀ v : Position, ({ o with «end» := v } : SyArc).WF →
      OnlyChanges (fun o => .ok (o.toSexpr i nl)) SyArc.fromSexpr o (fun v o => { o with «end» := v }) v v) ∧
    (∀ v : Stroke, ({ o with stroke := v } : SyArc).WF →
      OnlyChanges (fun o => .ok (o.toSexpr i nl)) SyArc.fromSexpr o (fun v o => { o with stroke := v }) v v) ∧
    (∀ v : Fill, ({ o with fill := v } : SyArc).WF →
      OnlyChanges (fun o => .ok (o.toSexpr i nl)) SyArc.fromSexpr o (fun v o => { o with fill := v }) v v) := by
  have hs : ∀ o : SyArc, o.WF → (.ok (o.toSexpr i nl) >>= parseSexp >>= SyArc.fromSexpr) = .ok (canon o) := fun o h =>
    (Lexes.one fun _ _ hs => SyArc.lx h hs).loads (SyArc.from_toVal h)
  exact ⟨fun v hv => ⟨_, hs o h, canon v, canonEq _, (hs _ hv).trans rfl⟩,
    fun v hv => ⟨_, hs o h, canon v, canonEq _, (hs _ hv).trans rfl⟩,
    fun v hv => ⟨_, hs o h, canon v, canonEq _, (hs _ hv).trans rfl⟩,
    fun v hv => ⟨_, hs o h, canon v, canonEq _, (hs _ hv).trans rfl⟩,
    fun v hv => ⟨_, hs o h, canon v, canonEq _, (hs _ hv).trans rfl⟩,
    fun v hv => ⟨_, hs o h, canon v, canonEq _, (hs _ hv).trans rfl⟩⟩
example := C38_SyArc sampleSyArc sampleSyArc_wf

theorem C38_SyCircle [TextRule] (o : SyCircle) (h : o.WF) (i : Nat) (nl : Bool) :
    (∀ v : Bool, ({ o with priv := v } : SyCircle).WF →
      OnlyChanges (fun o => .ok (o.toSexpr i nl)) SyCircle.fromSexpr o (fun v o => { o with priv := v }) v v) ∧
    (∀ v : Position, ({ o with center := v } : SyCircle).WF →
      OnlyChanges (fun o => .ok (o.toSexpr i nl)) SyCircle.fromSexpr o (fun v o => { o with center := v }) v v) ∧
    (∀ v : Val, ({ o with radius := v } : SyCircle).WF →
      OnlyChanges (fun o => .ok (o.toSexpr i nl)) SyCircle.fromSexpr o (fun v o => { o with radius := v }) v v) ∧
    (∀ v : Stroke, ({ o with stroke := v } : SyCircle).WF →
      OnlyChanges (fun o => .ok (o.toSexpr i nl)) SyCircle.fromSexpr o (fun v o => { o with stroke := v }) v v) ∧
    (∀ v : Fill, ({ o with fill := v } : SyCircle).WF →
      OnlyChanges (fun o => .ok (o.toSexpr i nl)) SyCircle.fromSexpr o (fun v o => { o with fill := v }) v v) := by
  have hs : ∀ o : SyCircle, o.WF → (.ok (o.toSexpr i nl) >>= parseSexp >>= SyCircle.fromSexpr) = .ok (canon o) := fun o h =>
    (Lexes.one fun _ _ hs => SyCircle.lx h hs).loads (SyCircle.from_toVal h)
  exact ⟨fun v hv => ⟨_, hs o h, canon v, canonEq _, (hs _ hv).trans rfl⟩,
    fun v hv => ⟨_, hs o h, canon v, canonEq _, (hs _ hv).trans rfl⟩,
    fun v hv => ⟨_, hs o h, canon v, canonEq _, (hs _ hv).trans rfl⟩,
    fun v hv => ⟨_, hs o h, canon v, canonEq _, (hs _ hv).trans rfl⟩,
    fun v hv => ⟨_, hs o h, canon v, canonEq _, (hs _ hv).trans rfl⟩⟩
example := C38_SyCircle sampleSyCircle sampleSyCircle_wf

theorem C38_SyPolyLine [TextRule] (o : SyPolyLine) (h : o.WF) (i : Nat) (nl : Bool) :
    (∀ v : List Position, ({ o with points := v } : SyPolyLine).WF →
      OnlyChanges (fun o => .ok (o.toSexpr i nl)) SyPolyLine.fromSexpr o (fun v o => { o with points := v }) v v) ∧
    (∀ v : Stroke, ({ o with stroke := v } : SyPolyLine).WF →
      OnlyChanges (fun o => .ok (o.toSexpr i nl)) SyPolyLine.fromSexpr o (fun v o => { o with stroke := v }) v v) ∧
    (∀ v : Fill, ({ o with fill := v } : SyPolyLine).WF →
      OnlyChanges (fun o => .ok (o.toSexpr i nl)) SyPolyLine.fromSexpr o (fun v o => { o with fill := v }) v v) := by
  have hs : ∀ o : SyPolyLine, o.WF → (.ok (o.toSexpr i nl) >>= parseSexp >>= SyPolyLine.fromSexpr) = .ok (canon o) := fun o h =>
    (Lexes.one fun _ _ hs => SyPolyLine.lx h hs).loads (SyPolyLine.from_toVal h)
  exact ⟨fun v hv => ⟨_, hs o h, canon v, canonEq _, (hs _ hv).trans rfl⟩,
    fun v hv => ⟨_, hs o h, canon v, canonEq _, (hs _ hv).trans rfl⟩,
    fun v hv => ⟨_, hs o h, canon v, canonEq _, (hs _ hv).trans rfl⟩⟩
example := C38_SyPolyLine sampleSyPolyLine sampleSyPolyLine_wf

theorem C38_SyRect [TextRule] (o : SyRect) (h : o.WF) (i : Nat) (nl : Bool) :
    (∀ v : Bool, ({ o with priv := v } : SyRect).WF →
      OnlyChanges (fun o => .ok (o.toSexpr i nl)) SyRect.fromSexpr o (fun v o => { o with priv := v }) v v) ∧
    (∀ v : Position, ({ o with start := v } : SyRect).WF →
      OnlyChanges (fun o => .ok (o.toSexpr i nl)) SyRect.fromSexpr o (fun v o => { o with start := v }) v v) ∧
    (∀ v : Position, ({ o with «end» := v } : SyRect).WF →
      OnlyChanges (fun o => .ok (o.toSexpr i nl)) SyRect.fromSexpr o (fun v o => { o with «end» := v }) v v) ∧
    (∀ v : Stroke, ({ o with stroke := v } : SyRect).WF →
      OnlyChanges (fun o => .ok (o.toSexpr i nl)) SyRect.fromSexpr o (fun v o => { o with stroke := v }) v v) ∧
    (∀ v : Fill, ({ o with fill := v } : SyRect).WF →
      OnlyChanges (fun o => .ok (o.toSexpr i nl)) SyRect.fromSexpr o (fun v o => { o with fill := v }) v v) := by
  have hs : ∀ o : SyRect, o.WF → (.ok (o.toSexpr i nl) >>= parseSexp >>= SyRect.fromSexpr) = .ok (canon o) := fun o h =>
    (Lexes.one fun _ _ hs => SyRect.lx h hs).loads (SyRect.from_toVal h)
  exact ⟨fun v hv => ⟨_, hs o h, canon v, canonEq _, (hs _ hv).trans rfl⟩,
    fun v hv => ⟨_, hs o h, canon v, canonEq _, (hs _ hv).trans rfl⟩,
    fun v hv => ⟨_, hs o h, canon v, canonEq _, (hs _ hv).trans rfl⟩,
    fun v hv => ⟨_, hs o h, canon v, canonEq _, (hs _ hv).trans rfl⟩,
    fun v hv => ⟨_, hs o h, canon v, canonEq _, (hs _ hv).trans rfl⟩⟩
example := C38_SyRect sampleSyRect sampleSyRect_wf

theorem C38_SyText [TextRule] (o : SyText) (h : o.WF) (i : Nat) (nl : Bool) :
    (∀ v : Val, ({ o with text := v } : SyText).WF →
      OnlyChanges (fun o => .ok (o.toSexpr i nl)) SyText.fromSexpr o (fun v o => { o with text := v }) v v) ∧
    (∀ v : Position, ({ o with position := v } : SyText).WF →
      OnlyChanges (fun o => .ok (o.toSexpr i nl)) SyText.fromSexpr o (fun v o => { o with position := v }) v v) ∧
    (∀ v : Effects, ({ o with effects := v } : SyText).WF →
      OnlyChanges (fun o => .ok (o.toSexpr i nl)) SyText.fromSexpr o (fun v o => { o with effects := v }) v v) := by
  have hs : ∀ o : SyText, o.WF → (.ok (o.toSexpr i nl) >>= parseSexp >>= SyText.fromSexpr) = .ok (canon o) := fun o h =>
    (Lexes.one fun _ _ hs => SyText.lx h hs).loads (SyText.from_toVal h)
  exact ⟨fun v hv => ⟨_, hs o h, canon v, canonEq _, (hs _ hv).trans rfl⟩,
    fun v hv => ⟨_, hs o h, canon v, canonEq _, (hs _ hv).trans rfl⟩,
    fun v hv => ⟨_, hs o h, canon v, canonEq _, (hs _ hv).trans rfl⟩⟩
example := C38_SyText sampleSyText sampleSyText_wf

theorem C38_SyTextBox [TextRule] (o : SyTextBox) (h : o.WF) (i : Nat) (nl : Bool) :
    (∀ v : Val, ({ o with text := v } : SyTextBox).WF →
      OnlyChanges (fun o => .ok (o.toSexpr i nl)) SyTextBox.fromSexpr o (fun v o => { o with text := v }) v v) ∧
    (∀ v : Bool, ({ o with priv := v } : SyTextBox).WF →
      OnlyChanges (fun o => .ok (o.toSexpr i nl)) SyTextBox.fromSexpr o (fun v o => { o with priv := v }) v v) ∧
    (∀ v : Position, ({ o with position := v } : SyTextBox).WF →
      OnlyChanges (fun o => .ok (o.toSexpr i nl)) SyTextBox.fromSexpr o (fun v o => { o with position := v }) v v) ∧
    (∀ v : Position, ({ o with size := v } : SyTextBox).WF →
      OnlyChanges (fun o => .ok (o.toSexpr i nl)) SyTextBox.fromSexpr o (fun v o => { o with size := v }) v v) ∧
    (∀ v : Stroke, ({ o with stroke := v } : SyTextBox).WF →
      OnlyChanges (fun o => .ok (o.toSexpr i nl)) SyTextBox.fromSexpr o (fun v o => { o with stroke := v }) v v) ∧
    (∀ v : Fill, ({ o with fill := v } : SyTextBox).WF →
      OnlyChanges (fun o => .ok (o.toSexpr i nl)) SyTextBox.fromSexpr o (fun v o => { o with fill := v }) v v) ∧
    (∀ v : Effects, ({ o with effects := v } : SyTextBox).WF →
      OnlyChanges (fun o => .ok (o.toSexpr i nl)) SyTextBox.fromSexpr o (fun v o => { o with effects := v }) v v) ∧
    (∀ v : Option Val, ({ o with uuid := v } : SyTextBox).WF →
      OnlyChanges (fun o => .ok (o.toSexpr i nl)) SyTextBox.fromSexpr o (fun v o => { o with uuid := v }) v v) := by
  have hs : ∀ o : SyTextBox, o.WF → (.ok (o.toSexpr i nl) >>= parseSexp >>= SyTextBox.fromSexpr) = .ok (canon o) := fun o h =>
    (Lexes.one fun _ _ hs => SyTextBox.lx h hs).loads (SyTextBox.from_toVal h)
  exact ⟨fun v hv => ⟨_, hs o h, canon v, canonEq _, (hs _ hv).trans rfl⟩,
    fun v hv => ⟨_, hs o h, canon v, canonEq _, (hs _ hv).trans rfl⟩,
    fun v hv => ⟨_, hs o h, canon v, canonEq _, (hs _ hv).trans rfl⟩,
    fun v hv => ⟨_, hs o h, canon v, canonEq _, (hs _ hv).trans rfl⟩,
    fun v hv => ⟨_, hs o h, canon v, canonEq _, (hs _ hv).trans rfl⟩,
    fun v hv => ⟨_, hs o h, canon v, canonEq _, (hs _ hv).trans rfl⟩,
    fun v hv => ⟨_, hs o h, canon v, canonEq _, (hs _ hv).trans rfl⟩,
    fun v hv => ⟨_, hs o h, canon v, canonEq _, (hs _ hv).trans rfl⟩⟩
example := C38_SyTextBox sampleSyTextBox sampleSyTextBox_wf

theorem C38_SymbolAlternativePin [TextRule] (o : SymbolAlternativePin) (h : o.WF) (i : Nat) (nl : Bool) :
    (∀ v : Val, ({ o with pinName := v } : SymbolAlternativePin).WF →
      OnlyChanges (fun o => .ok (o.toSexpr i nl)) SymbolAlternativePin.fromSexpr o (fun v o => { o with pinName := v }) v v) ∧
    (∀ v : Val, ({ o with electricalType := v } : SymbolAlternativePin).WF →
      OnlyChanges (fun o => .ok (o.toSexpr i nl)) SymbolAlternativePin.fromSexpr o (fun v o => { o with electricalType := v }) v v) ∧
    (∀ v : Val, ({ o with graphicalStyle := v } : SymbolAlternativePin).WF →
      OnlyChanges (fun o => .ok (o.toSexpr i nl)) SymbolAlternativePin.fromSexpr o (fun v o => { o with graphicalStyle := v }) v v) := by
  have hs : ∀ o : SymbolAlternativePin, o.WF → (.ok (o.toSexpr i nl) >>= parseSexp >>= SymbolAlternativePin.fromSexpr) = .ok (canon o) := fun o h =>
    (Lexes.one fun _ _ hs => SymbolAlternativePin.lx h hs).loads SymbolAlternativePin.from_toVal
  exact ⟨fun v hv => ⟨_, hs o h, canon v, canonEq _, (hs _ hv).trans rfl⟩,
    fun v hv => ⟨_, hs o h, canon v, canonEq _, (hs _ hv).trans rfl⟩,
    fun v hv => ⟨_, hs o h, canon v, canonEq _, (hs _ hv).trans rfl⟩⟩
example := C38_SymbolAlternativePin sampleSymbolAlternativePin sampleSymbolAlternativePin_wf

theorem C38_SymbolPin [TextRule] (o : SymbolPin) (h : o.WF) (i : Nat) (nl : Bool) :
    (∀ v : Val, ({ o with electricalType := v } : SymbolPin).WF →
      OnlyChanges (fun o => .ok (o.toSexpr i nl)) SymbolPin.fromSexpr o (fun v o => { o with electricalType := v }) v v) ∧
    (∀ v : Val, ({ o with graphicalStyle := v } : SymbolPin).WF →
      OnlyChanges (fun o => .ok (o.toSexpr i nl)) SymbolPin.fromSexpr o (fun v o => { o with graphicalStyle := v }) v v) ∧
    (∀ v : Position, ({ o with position := v } : SymbolPin).WF →
      OnlyChanges (fun o => .ok (o.toSexpr i nl)) SymbolPin.fromSexpr o (fun v o => { o with position := v }) v v) ∧
    (∀ v : Val, ({ o with length := v } : SymbolPin).WF →
      OnlyChanges (fun o => .ok (o.toSexpr i nl)) SymbolPin.fromSexpr o (fun v o => { o with length := v }) v v) ∧
    (∀ v : Val, ({ o with name := v } : SymbolPin).WF →
      OnlyChanges (fun o => .ok (o.toSexpr i nl)) SymbolPin.fromSexpr o (fun v o => { o with name := v }) v v) ∧
    (∀ v : Option Effects, ({ o with nameEffects := v } : SymbolPin).WF →
      OnlyChanges (fun o => .ok (o.toSexpr i nl)) SymbolPin.fromSexpr o (fun v o => { o with nameEffects := v }) v v) ∧
    (∀ v : Val, ({ o with number := v } : SymbolPin).WF →
      OnlyChanges (fun o => .ok (o.toSexpr i nl)) SymbolPin.fromSexpr o (fun v o => { o with number := v }) v v) ∧
    (∀ v : Option Effects, ({ o with numberEffects := v } : SymbolPin).WF →
      OnlyChanges (fun o => .ok (o.toSexpr i nl)) SymbolPin.fromSexpr o (fun v o => { o with numberEffects := v }) v v) ∧
    (∀ v : Bool, ({ o with hide := v } : SymbolPin).WF →
      OnlyChanges (fun o => .ok (o.toSexpr i nl)) SymbolPin.fromSexpr o (fun v o => { o with hide := v }) v v) ∧
    (∀ v : List SymbolAlternativePin, ({ o with alternatePins := v } : SymbolPin).WF →
      OnlyChanges (fun o => .ok (o.toSexpr i nl)) SymbolPin.fromSexpr o (fun v o => { o with alternatePins := v }) v v) := by
  have hs : ∀ o : SymbolPin, o.WF → (.ok (o.toSexpr i nl) >>= parseSexp >>= SymbolPin.fromSexpr) = .ok (canon o) := fun o h =>
    (Lexes.one fun _ _ hs => SymbolPin.lx h hs).loads (SymbolPin.from_toVal h)
  exact ⟨fun v hv => ⟨_, hs o h, canon v, canonEq _, (hs _ hv).trans rfl⟩,
    fun v hv => ⟨_, hs o h, canon v, canonEq _, (hs _ hv).trans rfl⟩,
    fun v hv => ⟨_, hs o h, canon v, canonEq _, (hs _ hv).trans rfl⟩,
    fun v hv => ⟨_, hs o h, canon v, canonEq _, (hs _ hv).trans rfl⟩,
    fun v hv => ⟨_, hs o h, canon v, canonEq _, (hs _ hv).trans rfl⟩,
    fun v hv => ⟨_, hs o h, canon v, canonEq _, (hs _ hv).trans rfl⟩,
    fun v hv => ⟨_, hs o h, canon v, canonEq _, (hs _ hv).trans rfl⟩,
    fun v hv => ⟨_, hs o h, canon v, canonEq _, (hs _ hv).trans rfl⟩,
    fun v hv => ⟨_, hs o h, canon v, canonEq _, (hs _ hv).trans rfl⟩,
    fun v hv => ⟨_, hs o h, canon v, canonEq _, (hs _ hv).trans rfl⟩⟩
example := C38_SymbolPin sampleSymbolPin sampleSymbolPin_wf

theorem C38_Symbol [TextRule] (o : Symbol) (h : o.WF) (i : Nat) (nl : Bool) :
    (∀ v : Option Val, ({ o with libraryNickname := v } : Symbol).WF →
      OnlyChanges (fun o => .ok (o.toSexpr i nl)) Symbol.fromSexpr o (fun v o => { o with libraryNickname := v }) v v) ∧
    (∀ v : Option Val, ({ o with entryName := v } : Symbol).WF →
      OnlyChanges (fun o => .ok (o.toSexpr i nl)) Symbol.fromSexpr o (fun v o => { o with entryName := v }) v v) ∧
    (∀ v : Option Val, ({ o with unitId := v } : Symbol).WF →
      OnlyChanges (fun o => .ok (o.toSexpr i nl)) Symbol.fromSexpr o (fun v o => { o with unitId := v }) v v) ∧
    (∀ v : Option Val, ({ o with styleId := v } : Symbol).WF →
      OnlyChanges (fun o => .ok (o.toSexpr i nl)) Symbol.fromSexpr o (fun v o => { o with styleId := v }) v v) ∧
    (∀ v : Option Val, ({ o with extends_ := v } : Symbol).WF →
      OnlyChanges (fun o => .ok (o.toSexpr i nl)) Symbol.fromSexpr o (fun v o => { o with extends_ := v }) v v) ∧
    (∀ v : Bool, ({ o with hidePinNumbers := v } : Symbol).WF →
      OnlyChanges (fun o => .ok (o.toSexpr i nl)) Symbol.fromSexpr o (fun v o => { o with hidePinNumbers := v }) v v) ∧
    (∀ v : Bool, ({ o with pinNames := v } : Symbol).WF →
      OnlyChanges (fun o => .ok (o.toSexpr i nl)) Symbol.fromSexpr o (fun v o => { o with pinNames := v }) v v) ∧
    (∀ v : Bool, ({ o with pinNamesHide := v } : Symbol).WF →
      OnlyChanges (fun o => .ok (o.toSexpr i nl)) Symbol.fromSexpr o (fun v o => { o with pinNamesHide := v }) v v) ∧
    (∀ v : Option Val, ({ o with pinNamesOffset := v } : Symbol).WF →
      OnlyChanges (fun o => .ok (o.toSexpr i nl)) Symbol.fromSexpr o (fun v o => { o with pinNamesOffset := v }) v v) ∧
    (∀ v : Option Bool, ({ o with inBom := v } : Symbol).WF →
      OnlyChanges (fun o => .ok (o.toSexpr i nl)) Symbol.fromSexpr o (fun v o => { o with inBom := v }) v v) ∧
    (∀ v : Option Bool, ({ o with onBoard := v } : Symbol).WF →
      OnlyChanges (fun o => .ok (o.toSexpr i nl)) Symbol.fromSexpr o (fun v o => { o with onBoard := v }) v v) ∧
    (∀ v : Bool, ({ o with isPower := v } : Symbol).WF →
      OnlyChanges (fun o => .ok (o.toSexpr i nl)) Symbol.fromSexpr o (fun v o => { o with isPower := v }) v v) ∧
    (∀ v : List Property, ({ o with properties := v } : Symbol).WF →
      OnlyChanges (fun o => .ok (o.toSexpr i nl)) Symbol.fromSexpr o (fun v o => { o with properties := v }) v v) ∧
    (∀ v : List SyItem, ({ o with graphicItems := v } : Symbol).WF →
      OnlyChanges (fun o => .ok (o.toSexpr i nl)) Symbol.fromSexpr o (fun v o => { o with graphicItems := v }) v v) ∧
    (∀ v : List SymbolPin, ({ o with pins := v } : Symbol).WF →
      OnlyChanges (fun o => .ok (o.toSexpr i nl)) Symbol.fromSexpr o (fun v o => { o with pins := v }) v v) ∧
    (∀ v : List Symbol, ({ o with units := v } : Symbol).WF →
      OnlyChanges (fun o => .ok (o.toSexpr i nl)) Symbol.fromSexpr o (fun v o => { o with units := v }) v v) := by
  have hs : ∀ o : Symbol, o.WF → (.ok (o.toSexpr i nl) >>= parseSexp >>= Symbol.fromSexpr) = .ok (canon o) := fun o h =>
    (Lexes.one fun _ _ hs => Symbol.lx h hs).loads (Symbol.from_toVal h)
  exact ⟨fun v hv => ⟨_, hs o h, canon v, canonEq _, (hs _ hv).trans (by cases o; rfl)⟩,
    fun v hv => ⟨_, hs o h, canon v, canonEq _, (hs _ hv).trans (by cases o; rfl)⟩,
    fun v hv => ⟨_, hs o h, canon v, canonEq _, (hs _ hv).trans (by cases o; rfl)⟩,
    fun v hv => ⟨_, hs o h, canon v, canonEq _, (hs _ hv).trans (by cases o; rfl)⟩,
    fun v hv => ⟨_, hs o h, canon v, canonEq _, (hs _ hv).trans (by cases o; rfl)⟩,
    fun v hv => ⟨_, hs o h, canon v, canonEq _, (hs _ hv).trans (by cases o; rfl)⟩,
    fun v hv => ⟨_, hs o h, canon v, canonEq _, (hs _ hv).trans (by cases o; rfl)⟩,
    fun v hv => ⟨_, hs o h, canon v, canonEq _, (hs _ hv).trans (by cases o; rfl)⟩,
    fun v hv => ⟨_, hs o h, canon v, canonEq _, (hs _ hv).trans (by cases o; rfl)⟩,
    fun v hv => ⟨_, hs o h, canon v, canonEq _, (hs _ hv).trans (by cases o; rfl)⟩,
    fun v hv => ⟨_, hs o h, canon v, canonEq _, (hs _ hv).trans (by cases o; rfl)⟩,
    fun v hv => ⟨_, hs o h, canon v, canonEq _, (hs _ hv).trans (by cases o; rfl)⟩,
    fun v hv => ⟨_, hs o h, canon v, canonEq _, (hs _ hv).trans (by cases o; rfl)⟩,
    fun v hv => ⟨_, hs o h, canon v, canonEq _, (hs _ hv).trans (by cases o; rfl)⟩,
    fun v hv => ⟨_, hs o h, canon v, canonEq _, (hs _ hv).trans (by cases o; rfl)⟩,
    fun v hv => ⟨_, hs o h, canon v, canonEq _, (hs _ hv).trans (by obtain ⟨⟩ := o; exact congrArg (fun u => Except.ok (Symbol.mk _ _ _ _ _ _ _ _ _ _ _ _ _ _ _ u)) (Symbol.canonL_eq v))⟩⟩
example := C38_Symbol sampleSymbol sampleSymbol_wf

theorem C38_SymbolLib [TextRule] (o : SymbolLib) (h : o.WF) (i : Nat) (nl : Bool) :
    (∀ v : Val, ({ o with version := v } : SymbolLib).WF →
      OnlyChanges (fun o => .ok (o.toSexpr i nl)) SymbolLib.fromSexpr o (fun v o => { o with version := v }) v v) ∧
    (∀ v : Option Val, ({ o with generator := v } : SymbolLib).WF →
      OnlyChanges (fun o => .ok (o.toSexpr i nl)) SymbolLib.fromSexpr o (fun v o => { o with generator := v }) v v) ∧
    (∀ v : List Symbol, ({ o with symbols := v } : SymbolLib).WF →
      OnlyChanges (fun o => .ok (o.toSexpr i nl)) SymbolLib.fromSexpr o (fun v o => { o with symbols := v }) v v) := by
  have hs : ∀ o : SymbolLib, o.WF → (.ok (o.toSexpr i nl) >>= parseSexp >>= SymbolLib.fromSexpr) = .ok (canon { o with filePath := none }) := fun o h =>
    (Lexes.one fun _ _ hs => SymbolLib.lx h hs).loads (SymbolLib.from_toVal h)
  exact ⟨fun v hv => ⟨_, hs o h, canon v, canonEq _, (hs _ hv).trans rfl⟩,
    fun v hv => ⟨_, hs o h, canon v, canonEq _, (hs _ hv).trans rfl⟩,
    fun v hv => ⟨_, hs o h, canon v, canonEq _, (hs _ hv).trans rfl⟩⟩
example := C38_SymbolLib sampleSymbolLib sampleSymbolLib_wf

theorem C38_Junction_partial [TextRule] (o : Junction) (h : o.WF) (i : Nat) (nl : Bool) :
    (∀ v : Position, ({ o with position := v } : Junction).WF →
      OnlyChanges (fun o => o.toSexpr i nl) Junction.fromSexpr o (fun v o => { o with position := v }) v v) ∧
    (∀ v : JunctionColor, ({ o with color := v } : Junction).WF →
      OnlyChanges (fun o => o.toSexpr i nl) Junction.fromSexpr o (fun v o => { o with color := v }) v v) ∧
    (∀ v : Option Val, ({ o with uuid := v } : Junction).WF →
      OnlyChanges (fun o => o.toSexpr i nl) Junction.fromSexpr o (fun v o => { o with uuid := v }) v v) := by
  have hs : ∀ o : Junction, o.WF → (o.toSexpr i nl >>= parseSexp >>= Junction.fromSexpr) = .ok (canon o.asRead) := fun o h =>
    (Junction.lexes h i nl).loads (Junction.from_toVal h)
  exact ⟨fun v hv => ⟨_, hs o h, canon v, canonEq _, (hs _ hv).trans rfl⟩,
    fun v hv => ⟨_, hs o h, canon v, canonEq _, (hs _ hv).trans rfl⟩,
    fun v hv => ⟨_, hs o h, canon v, canonEq _, (hs _ hv).trans rfl⟩⟩
example := C38_Junction_partial sampleJunction sampleJunction_wf

theorem C38_NoConnect [TextRule] (o : NoConnect) (h : o.WF) (i : Nat) (nl : Bool) :
    (∀ v : Position, ({ o with position := v } : NoConnect).WF →
      OnlyChanges (fun o => .ok (o.toSexpr i nl)) NoConnect.fromSexpr o (fun v o => { o with position := v }) v v) ∧
    (∀ v : Option Val, ({ o with uuid := v } : NoConnect).WF →
      OnlyChanges (fun o => .ok (o.toSexpr i nl)) NoConnect.fromSexpr o (fun v o => { o with uuid := v }) v v) := by
  have hs : ∀ o : NoConnect, o.WF → (.ok (o.toSexpr i nl) >>= parseSexp >>= NoConnect.fromSexpr) = .ok (canon o) := fun o h =>
    (Lexes.one fun _ _ hs => NoConnect.lx h hs).loads (NoConnect.from_toVal h)
  exact ⟨fun v hv => ⟨_, hs o h, canon v, canonEq _, (hs _ hv).trans rfl⟩,
    fun v hv => ⟨_, hs o h, canon v, canonEq _, (hs _ hv).trans rfl⟩⟩
example := C38_NoConnect sampleNoConnect sampleNoConnect_wf

theorem C38_BusEntry [TextRule] (o : BusEntry) (h : o.WF) (i : Nat) (nl : Bool) :
    (∀ v : Position, ({ o with position := v } : BusEntry).WF →
      OnlyChanges (fun o => .ok (o.toSexpr i nl)) BusEntry.fromSexpr o (fun v o => { o with position := v }) v v) ∧
    (∀ v : Option Val, ({ o with uuid := v } : BusEntry).WF →
      OnlyChanges (fun o => .ok (o.toSexpr i nl)) BusEntry.fromSexpr o (fun v o => { o with uuid := v }) v v) ∧
    (∀ v : Position, ({ o with size := v } : BusEntry).WF →
      OnlyChanges (fun o => .ok (o.toSexpr i nl)) BusEntry.fromSexpr o (fun v o => { o with size := v }) v v) ∧
    (∀ v : Stroke, ({ o with stroke := v } : BusEntry).WF →
      OnlyChanges (fun o => .ok (o.toSexpr i nl)) BusEntry.fromSexpr o (fun v o => { o with stroke := v }) v v) := by
  have hs : ∀ o : BusEntry, o.WF → (.ok (o.toSexpr i nl) >>= parseSexp >>= BusEntry.fromSexpr) = .ok (canon o) := fun o h =>
    (Lexes.one fun _ _ hs => BusEntry.lx h hs).loads (BusEntry.from_toVal h)
  exact ⟨fun v hv => ⟨_, hs o h, canon v, canonEq _, (hs _ hv).trans rfl⟩,
    fun v hv => ⟨_, hs o h, canon v, canonEq _, (hs _ hv).trans rfl⟩,
    fun v hv => ⟨_, hs o h, canon v, canonEq _, (hs _ hv).trans rfl⟩,
    fun v hv => ⟨_, hs o h, canon v, canonEq _, (hs _ hv).trans rfl⟩⟩
example := C38_BusEntry sampleBusEntry sampleBusEntry_wf

theorem C38_BusAlias [TextRule] (o : BusAlias) (h : o.WF) (i : Nat) (nl : Bool) :
    (∀ v : Val, ({ o with name := v } : BusAlias).WF →
      OnlyChanges (fun o => .ok (o.toSexpr i nl)) BusAlias.fromSexpr o (fun v o => { o with name := v }) v v) ∧
    (∀ v : List Val, ({ o with members := v } : BusAlias).WF →
      OnlyChanges (fun o => .ok (o.toSexpr i nl)) BusAlias.fromSexpr o (fun v o => { o with members := v }) v v) := by
  have hs : ∀ o : BusAlias, o.WF → (.ok (o.toSexpr i nl) >>= parseSexp >>= BusAlias.fromSexpr) = .ok (canon o) := fun o h =>
    (Lexes.one fun _ _ hs => BusAlias.lx h hs).loads BusAlias.from_toVal
  exact ⟨fun v hv => ⟨_, hs o h, canon v, canonEq _, (hs _ hv).trans rfl⟩,
    fun v hv => ⟨_, hs o h, canon v, canonEq _, (hs _ hv).trans rfl⟩⟩
example := C38_BusAlias sampleBusAlias sampleBusAlias_wf

theorem C38_Connection [TextRule] (o : Connection) (h : o.WF) (i : Nat) (nl : Bool) :
    (∀ v : Val, ({ o with type := v } : Connection).WF →
      OnlyChanges (fun o => .ok (o.toSexpr i nl)) Connection.fromSexpr o (fun v o => { o with type := v }) v v) ∧
    (∀ v : List Position, ({ o with points := v } : Connection).WF →
      OnlyChanges (fun o => .ok (o.toSexpr i nl)) Connection.fromSexpr o (fun v o => { o with points := v }) v v) ∧
    (∀ v : Stroke, ({ o with stroke := v } : Connection).WF →
      OnlyChanges (fun o => .ok (o.toSexpr i nl)) Connection.fromSexpr o (fun v o => { o with stroke := v }) v v) ∧
    (∀ v : Option Val, ({ o with uuid := v } : Connection).WF →
      OnlyChanges (fun o => .ok (o.toSexpr i nl)) Connection.fromSexpr o (fun v o => { o with uuid := v }) v v) := by
  have hs : ∀ o : Connection, o.WF → (.ok (o.toSexpr i nl) >>= parseSexp >>= Connection.fromSexpr) = .ok (canon o) := fun o h =>
    (Lexes.one fun _ _ hs => Connection.lx h hs).loads (Connection.from_toVal h)
  exact ⟨fun v hv => ⟨_, hs o h, canon v, canonEq _, (hs _ hv).trans rfl⟩,
    fun v hv => ⟨_, hs o h, canon v, canonEq _, (hs _ hv).trans rfl⟩,
    fun v hv => ⟨_, hs o h, canon v, canonEq _, (hs _ hv).trans rfl⟩,
    fun v hv => ⟨_, hs o h, canon v, canonEq _, (hs _ hv).trans rfl⟩⟩
example := C38_Connection sampleConnection sampleConnection_wf

theorem C38_PolyLine [TextRule] (o : PolyLine) (h : o.WF) (i : Nat) (nl : Bool) :
    (∀ v : List Position, ({ o with points := v } : PolyLine).WF →
      OnlyChanges (fun o => .ok (o.toSexpr i nl)) PolyLine.fromSexpr o (fun v o => { o with points := v }) v v) ∧
    (∀ v : Stroke, ({ o with stroke := v } : PolyLine).WF →
      OnlyChanges (fun o => .ok (o.toSexpr i nl)) PolyLine.fromSexpr o (fun v o => { o with stroke := v }) v v) ∧
    (∀ v : Option Val, ({ o with uuid := v } : PolyLine).WF →
      OnlyChanges (fun o => .ok (o.toSexpr i nl)) PolyLine.fromSexpr o (fun v o => { o with uuid := v }) v v) := by
  have hs : ∀ o : PolyLine, o.WF → (.ok (o.toSexpr i nl) >>= parseSexp >>= PolyLine.fromSexpr) = .ok (canon o) := fun o h =>
    (Lexes.one fun _ _ hs => PolyLine.lx h hs).loads (PolyLine.from_toVal h)
  exact ⟨fun v hv => ⟨_, hs o h, canon v, canonEq _, (hs _ hv).trans rfl⟩,
    fun v hv => ⟨_, hs o h, canon v, canonEq _, (hs _ hv).trans rfl⟩,
    fun v hv => ⟨_, hs o h, canon v, canonEq _, (hs _ hv).trans rfl⟩⟩
example := C38_PolyLine samplePolyLine samplePolyLine_wf

theorem C38_Text [TextRule] (o : Text) (h : o.WF) (i : Nat) (nl : Bool) :
    (∀ v : Val, ({ o with text := v } : Text).WF →
      OnlyChanges (fun o => o.toSexpr i nl) Text.fromSexpr o (fun v o => { o with text := v }) v v) ∧
    (∀ v : Position, ({ o with position := v } : Text).WF →
      OnlyChanges (fun o => o.toSexpr i nl) Text.fromSexpr o (fun v o => { o with position := v }) v v) ∧
    (∀ v : Effects, ({ o with effects := v } : Text).WF →
      OnlyChanges (fun o => o.toSexpr i nl) Text.fromSexpr o (fun v o => { o with effects := v }) v v) ∧
    (∀ v : Option Val, ({ o with uuid := v } : Text).WF →
      OnlyChanges (fun o => o.toSexpr i nl) Text.fromSexpr o (fun v o => { o with uuid := v }) v v) := by
  have hs : ∀ o : Text, o.WF → (o.toSexpr i nl >>= parseSexp >>= Text.fromSexpr) = .ok (canon o) := fun o h =>
    (Text.lexes h i nl).loads (Text.from_toVal h)
  exact ⟨fun v hv => ⟨_, hs o h, canon v, canonEq _, (hs _ hv).trans rfl⟩,
    fun v hv => ⟨_, hs o h, canon v, canonEq _, (hs _ hv).trans rfl⟩,
    fun v hv => ⟨_, hs o h, canon v, canonEq _, (hs _ hv).trans rfl⟩,
    fun v hv => ⟨_, hs o h, canon v, canonEq _, (hs _ hv).trans rfl⟩⟩
example := C38_Text sampleText sampleText_wf

theorem C38_TextBox [TextRule] (o : TextBox) (h : o.WF) (i : Nat) (nl : Bool) :
    (∀ v : Val, ({ o with text := v } : TextBox).WF →
      OnlyChanges (fun o => .ok (o.toSexpr i nl)) TextBox.fromSexpr o (fun v o => { o with text := v }) v v) ∧
    (∀ v : Position, ({ o with position := v } : TextBox).WF →
      OnlyChanges (fun o => .ok (o.toSexpr i nl)) TextBox.fromSexpr o (fun v o => { o with position := v }) v v) ∧
    (∀ v : Position, ({ o with size := v } : TextBox).WF →
      OnlyChanges (fun o => .ok (o.toSexpr i nl)) TextBox.fromSexpr o (fun v o => { o with size := v }) v v) ∧
    (∀ v : Stroke, ({ o with stroke := v } : TextBox).WF →
      OnlyChanges (fun o => .ok (o.toSexpr i nl)) TextBox.fromSexpr o (fun v o => { o with stroke := v }) v v) ∧
    (∀ v : Fill, ({ o with fill := v } : TextBox).WF →
      OnlyChanges (fun o => .ok (o.toSexpr i nl)) TextBox.fromSexpr o (fun v o => { o with fill := v }) v v) ∧
    (∀ v : Effects, ({ o with effects := v } : TextBox).WF →
      OnlyChanges (fun o => .ok (o.toSexpr i nl)) TextBox.fromSexpr o (fun v o => { o with effects := v }) v v) ∧
    (∀ v : Option Val, ({ o with uuid := v } : TextBox).WF →
      OnlyChanges (fun o => .ok (o.toSexpr i nl)) TextBox.fromSexpr o (fun v o => { o with uuid := v }) v v) := by
  have hs : ∀ o : TextBox, o.WF → (.ok (o.toSexpr i nl) >>= parseSexp >>= TextBox.fromSexpr) = .ok (canon o) := fun o h =>
    (Lexes.one fun _ _ hs => TextBox.lx h hs).loads (TextBox.from_toVal h)
  exact ⟨fun v hv => ⟨_, hs o h, canon v, canonEq _, (hs _ hv).trans rfl⟩,
    fun v hv => ⟨_, hs o h, canon v, canonEq _, (hs _ hv).trans rfl⟩,
    fun v hv => ⟨_, hs o h, canon v, canonEq _, (hs _ hv).trans rfl⟩,
    fun v hv => ⟨_, hs o h, canon v, canonEq _, (hs _ hv).trans rfl⟩,
    fun v hv => ⟨_, hs o h, canon v, canonEq _, (hs _ hv).trans rfl⟩,
    fun v hv => ⟨_, hs o h, canon v, canonEq _, (hs _ hv).trans rfl⟩,
    fun v hv => ⟨_, hs o h, canon v, canonEq _, (hs _ hv).trans rfl⟩⟩
example := C38_TextBox sampleTextBox sampleTextBox_wf

theorem C38_LocalLabel [TextRule] (o : LocalLabel) (h : o.WF) (i : Nat) (nl : Bool) :
    (∀ v : Val, ({ o with text := v } : LocalLabel).WF →
      OnlyChanges (fun o => .ok (o.toSexpr i nl)) LocalLabel.fromSexpr o (fun v o => { o with text := v }) v v) ∧
    (∀ v : Position, ({ o with position := v } : LocalLabel).WF →
      OnlyChanges (fun o => .ok (o.toSexpr i nl)) LocalLabel.fromSexpr o (fun v o => { o with position := v }) v v) ∧
    (∀ v : Effects, ({ o with effects := v } : LocalLabel).WF →
      OnlyChanges (fun o => .ok (o.toSexpr i nl)) LocalLabel.fromSexpr o (fun v o => { o with effects := v }) v v) ∧
    (∀ v : Option Val, ({ o with uuid := v } : LocalLabel).WF →
      OnlyChanges (fun o => .ok (o.toSexpr i nl)) LocalLabel.fromSexpr o (fun v o => { o with uuid := v }) v v) ∧
    (∀ v : Bool, ({ o with fieldsAutoplaced := v } : LocalLabel).WF →
      OnlyChanges (fun o => .ok (o.toSexpr i nl)) LocalLabel.fromSexpr o (fun v o => { o with fieldsAutoplaced := v }) v v) := by
  have hs : ∀ o : LocalLabel, o.WF → (.ok (o.toSexpr i nl) >>= parseSexp >>= LocalLabel.fromSexpr) = .ok (canon o) := fun o h =>
    (Lexes.one fun _ _ hs => LocalLabel.lx h hs).loads (LocalLabel.from_toVal h)
  exact ⟨fun v hv => ⟨_, hs o h, canon v, canonEq _, (hs _ hv).trans rfl⟩,
    fun v hv => ⟨_, hs o h, canon v, canonEq _, (hs _ hv).trans rfl⟩,
    fun v hv => ⟨_, hs o h, canon v, canonEq _, (hs _ hv).trans rfl⟩,
    fun v hv => ⟨_, hs o h, canon v, canonEq _, (hs _ hv).trans rfl⟩,
    fun v hv => ⟨_, hs o h, canon v, canonEq _, (hs _ hv).trans rfl⟩⟩
example := C38_LocalLabel sampleLocalLabel sampleLocalLabel_wf

theorem C38_GlobalLabel [TextRule] (o : GlobalLabel) (h : o.WF) (i : Nat) (nl : Bool) :
    (∀ v : Val, ({ o with text := v } : GlobalLabel).WF →
      OnlyChanges (fun o => .ok (o.toSexpr i nl)) GlobalLabel.fromSexpr o (fun v o => { o with text := v }) v v) ∧
    (∀ v : Val, ({ o with shape := v } : GlobalLabel).WF →
      OnlyChanges (fun o => .ok (o.toSexpr i nl)) GlobalLabel.fromSexpr o (fun v o => { o with shape := v }) v v) ∧
    (∀ v : Bool, ({ o with fieldsAutoplaced := v } : GlobalLabel).WF →
      OnlyChanges (fun o => .ok (o.toSexpr i nl)) GlobalLabel.fromSexpr o (fun v o => { o with fieldsAutoplaced := v }) v v) ∧
    (∀ v : Position, ({ o with position := v } : GlobalLabel).WF →
      OnlyChanges (fun o => .ok (o.toSexpr i nl)) GlobalLabel.fromSexpr o (fun v o => { o with position := v }) v v) ∧
    (∀ v : Effects, ({ o with effects := v } : GlobalLabel).WF →
      OnlyChanges (fun o => .ok (o.toSexpr i nl)) GlobalLabel.fromSexpr o (fun v o => { o with effects := v }) v v) ∧
    (∀ v : Option Val, ({ o with uuid := v } : GlobalLabel).WF →
      OnlyChanges (fun o => .ok (o.toSexpr i nl)) GlobalLabel.fromSexpr o (fun v o => { o with uuid := v }) v v) ∧
    (∀ v : List Property, ({ o with properties := v } : GlobalLabel).WF →
      OnlyChanges (fun o => .ok (o.toSexpr i nl)) GlobalLabel.fromSexpr o (fun v o => { o with properties := v }) v v) := by
  have hs : ∀ o : GlobalLabel, o.WF → (.ok (o.toSexpr i nl) >>= parseSexp >>= GlobalLabel.fromSexpr) = .ok (canon o) := fun o h =>
    (Lexes.one fun _ _ hs => GlobalLabel.lx h hs).loads (GlobalLabel.from_toVal h)
  exact ⟨fun v hv => ⟨_, hs o h, canon v, canonEq _, (hs _ hv).trans rfl⟩,
    fun v hv => ⟨_, hs o h, canon v, canonEq _, (hs _ hv).trans rfl⟩,
    fun v hv => ⟨_, hs o h, canon v, canonEq _, (hs _ hv).trans rfl⟩,
    fun v hv => ⟨_, hs o h, canon v, canonEq _, (hs _ hv).trans rfl⟩,
    fun v hv => ⟨_, hs o h, canon v, canonEq _, (hs _ hv).trans rfl⟩,
    fun v hv => ⟨_, hs o h, canon v, canonEq _, (hs _ hv).trans rfl⟩,
    fun v hv => ⟨_, hs o h, canon v, canonEq _, (hs _ hv).trans rfl⟩⟩
example := C38_GlobalLabel sampleGlobalLabel sampleGlobalLabel_wf

theorem C38_HierarchicalLabel [TextRule] (o : HierarchicalLabel) (h : o.WF) (i : Nat) (nl : Bool) :
    (∀ v : Val, ({ o with text := v } : HierarchicalLabel).WF →
      OnlyChanges (fun o => .ok (o.toSexpr i nl)) HierarchicalLabel.fromSexpr o (fun v o => { o with text := v }) v v) ∧
    (∀ v : Val, ({ o with shape := v } : HierarchicalLabel).WF →
      OnlyChanges (fun o => .ok (o.toSexpr i nl)) HierarchicalLabel.fromSexpr o (fun v o => { o with shape := v }) v v) ∧
    (∀ v : Position, ({ o with position := v } : HierarchicalLabel).WF →
      OnlyChanges (fun o => .ok (o.toSexpr i nl)) HierarchicalLabel.fromSexpr o (fun v o => { o with position := v }) v v) ∧
    (∀ v : Effects, ({ o with effects := v } : HierarchicalLabel).WF →
      OnlyChanges (fun o => .ok (o.toSexpr i nl)) HierarchicalLabel.fromSexpr o (fun v o => { o with effects := v }) v v) ∧
    (∀ v : Option Val, ({ o with uuid := v } : HierarchicalLabel).WF →
      OnlyChanges (fun o => .ok (o.toSexpr i nl)) HierarchicalLabel.fromSexpr o (fun v o => { o with uuid := v }) v v) ∧
    (∀ v : Bool, ({ o with fieldsAutoplaced := v } : HierarchicalLabel).WF →
      OnlyChanges (fun o => .ok (o.toSexpr i nl)) HierarchicalLabel.fromSexpr o (fun v o => { o with fieldsAutoplaced := v }) v v) := by
  have hs : ∀ o : HierarchicalLabel, o.WF → (.ok (o.toSexpr i nl) >>= parseSexp >>= HierarchicalLabel.fromSexpr) = .ok (canon o) := fun o h =>
    (Lexes.one fun _ _ hs => HierarchicalLabel.lx h hs).loads (HierarchicalLabel.from_toVal h)
  exact ⟨fun v hv => ⟨_, hs o h, canon v, canonEq _, (hs _ hv).trans rfl⟩,
    fun v hv => ⟨_, hs o h, canon v, canonEq _, (hs _ hv).trans rfl⟩,
    fun v hv => ⟨_, hs o h, canon v, canonEq _, (hs _ hv).trans rfl⟩,
    fun v hv => ⟨_, hs o h, canon v, canonEq _, (hs _ hv).trans rfl⟩,
    fun v hv => ⟨_, hs o h, canon v, canonEq _, (hs _ hv).trans rfl⟩,
    fun v hv => ⟨_, hs o h, canon v, canonEq _, (hs _ hv).trans rfl⟩⟩
example := C38_HierarchicalLabel sampleHierarchicalLabel sampleHierarchicalLabel_wf

theorem C38_SymbolProjectPath [TextRule] (o : SymbolProjectPath) (h : o.WF) (i : Nat) (nl : Bool) :
    (∀ v : Val, ({ o with sheetInstancePath := v } : SymbolProjectPath).WF →
      OnlyChanges (fun o => .ok (o.toSexpr i nl)) SymbolProjectPath.fromSexpr o (fun v o => { o with sheetInstancePath := v }) v v) ∧
    (∀ v : Val, ({ o with reference := v } : SymbolProjectPath).WF →
      OnlyChanges (fun o => .ok (o.toSexpr i nl)) SymbolProjectPath.fromSexpr o (fun v o => { o with reference := v }) v v) ∧
    (∀ v : Val, ({ o with unit := v } : SymbolProjectPath).WF →
      OnlyChanges (fun o => .ok (o.toSexpr i nl)) SymbolProjectPath.fromSexpr o (fun v o => { o with unit := v }) v v) := by
  have hs : ∀ o : SymbolProjectPath, o.WF → (.ok (o.toSexpr i nl) >>= parseSexp >>= SymbolProjectPath.fromSexpr) = .ok (canon o) := fun o h =>
    (Lexes.one fun _ _ hs => SymbolProjectPath.lx h hs).loads (SymbolProjectPath.from_toVal h)
  exact ⟨fun v hv => ⟨_, hs o h, canon v, canonEq _, (hs _ hv).trans rfl⟩,
    fun v hv => ⟨_, hs o h, canon v, canonEq _, (hs _ hv).trans rfl⟩,
    fun v hv => ⟨_, hs o h, canon v, canonEq _, (hs _ hv).trans rfl⟩⟩
example := C38_SymbolProjectPath sampleSymbolProjectPath sampleSymbolProjectPath_wf

theorem C38_SymbolProjectInstance [TextRule] (o : SymbolProjectInstance) (h : o.WF) (i : Nat) (nl : Bool) :
    (∀ v : Val, ({ o with name := v } : SymbolProjectInstance).WF →
      OnlyChanges (fun o => .ok (o.toSexpr i nl)) SymbolProjectInstance.fromSexpr o (fun v o => { o with name := v }) v v) ∧
    (∀ v : List SymbolProjectPath, ({ o with paths := v } : SymbolProjectInstance).WF →
      OnlyChanges (fun o => .ok (o.toSexpr i nl)) SymbolProjectInstance.fromSexpr o (fun v o => { o with paths := v }) v v) := by
  have hs : ∀ o : SymbolProjectInstance, o.WF → (.ok (o.toSexpr i nl) >>= parseSexp >>= SymbolProjectInstance.fromSexpr) = .ok (canon o) := fun o h =>
    (Lexes.one fun _ _ hs => SymbolProjectInstance.lx h hs).loads (SymbolProjectInstance.from_toVal h)
  exact ⟨fun v hv => ⟨_, hs o h, canon v, canonEq _, (hs _ hv).trans rfl⟩,
    fun v hv => ⟨_, hs o h, canon v, canonEq _, (hs _ hv).trans rfl⟩⟩
example := C38_SymbolProjectInstance sampleSymbolProjectInstance sampleSymbolProjectInstance_wf

theorem C38_SchematicSymbol [TextRule] (o : SchematicSymbol) (h : o.WF) (i : Nat) (nl : Bool) :
    (∀ v : Option Val, ({ o with libraryNickname := v } : SchematicSymbol).WF →
      OnlyChanges (fun o => .ok (o.toSexpr i nl)) SchematicSymbol.fromSexpr o (fun v o => { o with libraryNickname := v }) v v) ∧
    (∀ v : Option Val, ({ o with entryName := v } : SchematicSymbol).WF →
      OnlyChanges (fun o => .ok (o.toSexpr i nl)) SchematicSymbol.fromSexpr o (fun v o => { o with entryName := v }) v v) ∧
    (∀ v : Option Val, ({ o with libName := v } : SchematicSymbol).WF →
      OnlyChanges (fun o => .ok (o.toSexpr i nl)) SchematicSymbol.fromSexpr o (fun v o => { o with libName := v }) v v) ∧
    (∀ v : Position, ({ o with position := v } : SchematicSymbol).WF →
      OnlyChanges (fun o => .ok (o.toSexpr i nl)) SchematicSymbol.fromSexpr o (fun v o => { o with position := v }) v v) ∧
    (∀ v : Option Val, ({ o with unit := v } : SchematicSymbol).WF →
      OnlyChanges (fun o => .ok (o.toSexpr i nl)) SchematicSymbol.fromSexpr o (fun v o => { o with unit := v }) v v) ∧
    (∀ v : Bool, ({ o with inBom := v } : SchematicSymbol).WF →
      OnlyChanges (fun o => .ok (o.toSexpr i nl)) SchematicSymbol.fromSexpr o (fun v o => { o with inBom := v }) v v) ∧
    (∀ v : Bool, ({ o with onBoard := v } : SchematicSymbol).WF →
      OnlyChanges (fun o => .ok (o.toSexpr i nl)) SchematicSymbol.fromSexpr o (fun v o => { o with onBoard := v }) v v) ∧
    (∀ v : Option Bool, ({ o with dnp := v } : SchematicSymbol).WF →
      OnlyChanges (fun o => .ok (o.toSexpr i nl)) SchematicSymbol.fromSexpr o (fun v o => { o with dnp := v }) v v) ∧
    (∀ v : Bool, ({ o with fieldsAutoplaced := v } : SchematicSymbol).WF →
      OnlyChanges (fun o => .ok (o.toSexpr i nl)) SchematicSymbol.fromSexpr o (fun v o => { o with fieldsAutoplaced := v }) v v) ∧
    (∀ v : Option Val, ({ o with uuid := v } : SchematicSymbol).WF →
      OnlyChanges (fun o => .ok (o.toSexpr i nl)) SchematicSymbol.fromSexpr o (fun v o => { o with uuid := v }) v v) ∧
    (∀ v : List Property, ({ o with properties := v } : SchematicSymbol).WF →
      OnlyChanges (fun o => .ok (o.toSexpr i nl)) SchematicSymbol.fromSexpr o (fun v o => { o with properties := v }) v v) ∧
    (∀ v : Dict Val, ({ o with pins := v } : SchematicSymbol).WF →
      OnlyChanges (fun o => .ok (o.toSexpr i nl)) SchematicSymbol.fromSexpr o (fun v o => { o with pins := v }) v v) ∧
    (∀ v : Option Val, ({ o with mirror := v } : SchematicSymbol).WF →
      OnlyChanges (fun o => .ok (o.toSexpr i nl)) SchematicSymbol.fromSexpr o (fun v o => { o with mirror := v }) v v) ∧
    (∀ v : List SymbolProjectInstance, ({ o with instances := v } : SchematicSymbol).WF →
      OnlyChanges (fun o => .ok (o.toSexpr i nl)) SchematicSymbol.fromSexpr o (fun v o => { o with instances := v }) v v) := by
  have hs : ∀ o : SchematicSymbol, o.WF → (.ok (o.toSexpr i nl) >>= parseSexp >>= SchematicSymbol.fromSexpr) = .ok (canon o) := fun o h =>
    (Lexes.one fun _ _ hs => SchematicSymbol.lx h hs).loads (SchematicSymbol.from_toVal h)
  exact ⟨fun v hv => ⟨_, hs o h, canon v, canonEq _, (hs _ hv).trans rfl⟩,
    fun v hv => ⟨_, hs o h, canon v, canonEq _, (hs _ hv).trans rfl⟩,
    fun v hv => ⟨_, hs o h, canon v, canonEq _, (hs _ hv).trans rfl⟩,
    fun v hv => ⟨_, hs o h, canon v, canonEq _, (hs _ hv).trans rfl⟩,
    fun v hv => ⟨_, hs o h, canon v, canonEq _, (hs _ hv).trans rfl⟩,
    fun v hv => ⟨_, hs o h, canon v, canonEq _, (hs _ hv).trans rfl⟩,
    fun v hv => ⟨_, hs o h, canon v, canonEq _, (hs _ hv).trans rfl⟩,
    fun v hv => ⟨_, hs o h, canon v, canonEq _, (hs _ hv).trans rfl⟩,
    fun v hv => ⟨_, hs o h, canon v, canonEq _, (hs _ hv).trans rfl⟩,
    fun v hv => ⟨_, hs o h, canon v, canonEq _, (hs _ hv).trans rfl⟩,
    fun v hv => ⟨_, hs o h, canon v, canonEq _, (hs _ hv).trans rfl⟩,
    fun v hv => ⟨_, hs o h, canon v, canonEq _, (hs _ hv).trans rfl⟩,
    fun v hv => ⟨_, hs o h, canon v, canonEq _, (hs _ hv).trans rfl⟩,
    fun v hv => ⟨_, hs o h, canon v, canonEq _, (hs _ hv).trans rfl⟩⟩
example := C38_SchematicSymbol sampleSchematicSymbol sampleSchematicSymbol_wf

theorem C38_HierarchicalPin [TextRule] (o : HierarchicalPin) (h : o.WF) (i : Nat) (nl : Bool) :
    (∀ v : Val, ({ o with name := v } : HierarchicalPin).WF →
      OnlyChanges (fun o => .ok (o.toSexpr i nl)) HierarchicalPin.fromSexpr o (fun v o => { o with name := v }) v v) ∧
    (∀ v : Val, ({ o with connectionType := v } : HierarchicalPin).WF →
      OnlyChanges (fun o => .ok (o.toSexpr i nl)) HierarchicalPin.fromSexpr o (fun v o => { o with connectionType := v }) v v) ∧
    (∀ v : Position, ({ o with position := v } : HierarchicalPin).WF →
      OnlyChanges (fun o => .ok (o.toSexpr i nl)) HierarchicalPin.fromSexpr o (fun v o => { o with position := v }) v v) ∧
    (∀ v : Effects, ({ o with effects := v } : HierarchicalPin).WF →
      OnlyChanges (fun o => .ok (o.toSexpr i nl)) HierarchicalPin.fromSexpr o (fun v o => { o with effects := v }) v v) ∧
    (∀ v : Option Val, ({ o with uuid := v } : HierarchicalPin).WF →
      OnlyChanges (fun o => .ok (o.toSexpr i nl)) HierarchicalPin.fromSexpr o (fun v o => { o with uuid := v }) v v) := by
  have hs : ∀ o : HierarchicalPin, o.WF → (.ok (o.toSexpr i nl) >>= parseSexp >>= HierarchicalPin.fromSexpr) = .ok (canon o) := fun o h =>
    (Lexes.one fun _ _ hs => HierarchicalPin.lx h hs).loads (HierarchicalPin.from_toVal h)
  exact ⟨fun v hv => ⟨_, hs o h, canon v, canonEq _, (hs _ hv).trans rfl⟩,
    fun v hv => ⟨_, hs o h, canon v, canonEq _, (hs _ hv).trans rfl⟩,
    fun v hv => ⟨_, hs o h, canon v, canonEq _, (hs _ hv).trans rfl⟩,
    fun v hv => ⟨_, hs o h, canon v, canonEq _, (hs _ hv).trans rfl⟩,
    fun v hv => ⟨_, hs o h, canon v, canonEq _, (hs _ hv).trans rfl⟩⟩
example := C38_HierarchicalPin sampleHierarchicalPin sampleHierarchicalPin_wf

theorem C38_HierarchicalSheetProjectPath [TextRule] (o : HierarchicalSheetProjectPath) (h : o.WF) (i : Nat) (nl : Bool) :
    (∀ v : Val, ({ o with sheetInstancePath := v } : HierarchicalSheetProjectPath).WF →
      OnlyChanges (fun o => .ok (o.toSexpr i nl)) HierarchicalSheetProjectPath.fromSexpr o (fun v o => { o with sheetInstancePath := v }) v v) ∧
    (∀ v : Val, ({ o with page := v } : HierarchicalSheetProjectPath).WF →
      OnlyChanges (fun o => .ok (o.toSexpr i nl)) HierarchicalSheetProjectPath.fromSexpr o (fun v o => { o with page := v }) v v) := by
  have hs : ∀ o : HierarchicalSheetProjectPath, o.WF → (.ok (o.toSexpr i nl) >>= parseSexp >>= HierarchicalSheetProjectPath.fromSexpr) = .ok (canon o) := fun o h =>
    (Lexes.one fun _ _ hs => HierarchicalSheetProjectPath.lx h hs).loads (HierarchicalSheetProjectPath.from_toVal h)
  exact ⟨fun v hv => ⟨_, hs o h, canon v, canonEq _, (hs _ hv).trans rfl⟩,
    fun v hv => ⟨_, hs o h, canon v, canonEq _, (hs _ hv).trans rfl⟩⟩
example := C38_HierarchicalSheetProjectPath sampleHierarchicalSheetProjectPath sampleHierarchicalSheetProjectPath_wf

theorem C38_HierarchicalSheetProjectInstance [TextRule] (o : HierarchicalSheetProjectInstance) (h : o.WF) (i : Nat) (nl : Bool) :
    (∀ v : Val, ({ o with name := v } : HierarchicalSheetProjectInstance).WF →
      OnlyChanges (fun o => .ok (o.toSexpr i nl)) HierarchicalSheetProjectInstance.fromSexpr o (fun v o => { o with name := v }) v v) ∧
    (∀ v : List HierarchicalSheetProjectPath, ({ o with paths := v } : HierarchicalSheetProjectInstance).WF →
      OnlyChanges (fun o => .ok (o.toSexpr i nl)) HierarchicalSheetProjectInstance.fromSexpr o (fun v o => { o with paths := v }) v v) := by
  have hs : ∀ o : HierarchicalSheetProjectInstance, o.WF → (.ok (o.toSexpr i nl) >>= parseSexp >>= HierarchicalSheetProjectInstance.fromSexpr) = .ok (canon o) := fun o h =>
    (Lexes.one fun _ _ hs => HierarchicalSheetProjectInstance.lx h hs).loads (HierarchicalSheetProjectInstance.from_toVal h)
  exact ⟨fun v hv => ⟨_, hs o h, canon v, canonEq _, (hs _ hv).trans rfl⟩,
    fun v hv => ⟨_, hs o h, canon v, canonEq _, (hs _ hv).trans rfl⟩⟩
example := C38_HierarchicalSheetProjectInstance sampleHierarchicalSheetProjectInstance sampleHierarchicalSheetProjectInstance_wf

theorem C38_HierarchicalSheet_partial [TextRule] (o : HierarchicalSheet) (h : o.WF) (i : Nat) (nl : Bool) :
    (∀ v : Position, ({ o with position := v } : HierarchicalSheet).WF →
      OnlyChanges (fun o => o.toSexpr i nl) HierarchicalSheet.fromSexpr o (fun v o => { o with position := v }) v v) ∧
    (∀ v : Val, ({ o with width := v } : HierarchicalSheet).WF →
      OnlyChanges (fun o => o.toSexpr i nl) HierarchicalSheet.fromSexpr o (fun v o => { o with width := v }) v v) ∧
    (∀ v : Val, ({ o with height := v } : HierarchicalSheet).WF →
      OnlyChanges (fun o => o.toSexpr i nl) HierarchicalSheet.fromSexpr o (fun v o => { o with height := v }) v v) ∧
    (∀ v : Bool, ({ o with fieldsAutoplaced := v } : HierarchicalSheet).WF →
      OnlyChanges (fun o => o.toSexpr i nl) HierarchicalSheet.fromSexpr o (fun v o => { o with fieldsAutoplaced := v }) v v) ∧
    (∀ v : Stroke, ({ o with stroke := v } : HierarchicalSheet).WF →
      OnlyChanges (fun o => o.toSexpr i nl) HierarchicalSheet.fromSexpr o (fun v o => { o with stroke := v }) v v) ∧
    (∀ v : ColorRGBA, ({ o with fill := v } : HierarchicalSheet).WF →
      OnlyChanges (fun o => o.toSexpr i nl) HierarchicalSheet.fromSexpr o (fun v o => { o with fill := v }) v { v with precision := some 4 }) ∧
    (∀ v : Option Val, ({ o with uuid := v } : HierarchicalSheet).WF →
      OnlyChanges (fun o => o.toSexpr i nl) HierarchicalSheet.fromSexpr o (fun v o => { o with uuid := v }) v v) ∧
    (∀ v : Property, ({ o with sheetName := v } : HierarchicalSheet).WF →
      OnlyChanges (fun o => o.toSexpr i nl) HierarchicalSheet.fromSexpr o (fun v o => { o with sheetName := v }) v v) ∧
    (∀ v : Property, ({ o with fileName := v } : HierarchicalSheet).WF →
      OnlyChanges (fun o => o.toSexpr i nl) HierarchicalSheet.fromSexpr o (fun v o => { o with fileName := v }) v v) ∧
    (∀ v : List Property, ({ o with properties := v } : HierarchicalSheet).WF →
      OnlyChanges (fun o => o.toSexpr i nl) HierarchicalSheet.fromSexpr o (fun v o => { o with properties := v }) v v) ∧
    (∀ v : List HierarchicalPin, ({ o with pins := v } : HierarchicalSheet).WF →
      OnlyChanges (fun o => o.toSexpr i nl) HierarchicalSheet.fromSexpr o (fun v o => { o with pins := v }) v v) ∧
    (∀ v : List HierarchicalSheetProjectInstance, ({ o with instances := v } : HierarchicalSheet).WF →
      OnlyChanges (fun o => o.toSexpr i nl) HierarchicalSheet.fromSexpr o (fun v o => { o with instances := v }) v v) := by
  have hs : ∀ o : HierarchicalSheet, o.WF → (o.toSexpr i nl >>= parseSexp >>= HierarchicalSheet.fromSexpr) = .ok (canon o.asRead) := fun o h =>
    (HierarchicalSheet.lexes h _ _).loads (HierarchicalSheet.from_toVal h)
  exact ⟨fun v hv => ⟨_, hs o h, canon v, canonEq _, (hs _ hv).trans rfl⟩,
    fun v hv => ⟨_, hs o h, canon v, canonEq _, (hs _ hv).trans rfl⟩,
    fun v hv => ⟨_, hs o h, canon v, canonEq _, (hs _ hv).trans rfl⟩,
    fun v hv => ⟨_, hs o h, canon v, canonEq _, (hs _ hv).trans rfl⟩,
    fun v hv => ⟨_, hs o h, canon v, canonEq _, (hs _ hv).trans rfl⟩,
    fun v hv => ⟨_, hs o h, canon ({ v with precision := some 4 } : ColorRGBA), canonEq (({ v with precision := some 4 } : ColorRGBA)), hs _ hv⟩,
    fun v hv => ⟨_, hs o h, canon v, canonEq _, (hs _ hv).trans rfl⟩,
    fun v hv => ⟨_, hs o h, canon v, canonEq _, (hs _ hv).trans rfl⟩,
    fun v hv => ⟨_, hs o h, canon v, canonEq _, (hs _ hv).trans rfl⟩,
    fun v hv => ⟨_, hs o h, canon v, canonEq _, (hs _ hv).trans rfl⟩,
    fun v hv => ⟨_, hs o h, canon v, canonEq _, (hs _ hv).trans rfl⟩,
    fun v hv => ⟨_, hs o h, canon v, canonEq _, (hs _ hv).trans rfl⟩⟩
example := C38_HierarchicalSheet_partial sampleHierarchicalSheet sampleHierarchicalSheet_wf

theorem C38_HierarchicalSheetInstance [TextRule] (o : HierarchicalSheetInstance) (h : o.WF) (i : Nat) (nl : Bool) :
    (∀ v : Val, ({ o with instancePath := v } : HierarchicalSheetInstance).WF →
      OnlyChanges (fun o => .ok (o.toSexpr i nl)) HierarchicalSheetInstance.fromSexpr o (fun v o => { o with instancePath := v }) v v) ∧
    (∀ v : Val, ({ o with page := v } : HierarchicalSheetInstance).WF →
      OnlyChanges (fun o => .ok (o.toSexpr i nl)) HierarchicalSheetInstance.fromSexpr o (fun v o => { o with page := v }) v v) := by
  have hs : ∀ o : HierarchicalSheetInstance, o.WF → (.ok (o.toSexpr i nl) >>= parseSexp >>= HierarchicalSheetInstance.fromSexpr) = .ok (canon o) := fun o h =>
    (Lexes.one fun _ _ hs => HierarchicalSheetInstance.lx h hs).loads (HierarchicalSheetInstance.from_toVal h)
  exact ⟨fun v hv => ⟨_, hs o h, canon v, canonEq _, (hs _ hv).trans rfl⟩,
    fun v hv => ⟨_, hs o h, canon v, canonEq _, (hs _ hv).trans rfl⟩⟩
example := C38_HierarchicalSheetInstance sampleHierarchicalSheetInstance sampleHierarchicalSheetInstance_wf

theorem C38_SymbolInstance [TextRule] (o : SymbolInstance) (h : o.WF) (i : Nat) (nl : Bool) :
    (∀ v : Val, ({ o with path := v } : SymbolInstance).WF →
      OnlyChanges (fun o => .ok (o.toSexpr i nl)) SymbolInstance.fromSexpr o (fun v o => { o with path := v }) v v) ∧
    (∀ v : Val, ({ o with reference := v } : SymbolInstance).WF →
      OnlyChanges (fun o => .ok (o.toSexpr i nl)) SymbolInstance.fromSexpr o (fun v o => { o with reference := v }) v v) ∧
    (∀ v : Val, ({ o with unit := v } : SymbolInstance).WF →
      OnlyChanges (fun o => .ok (o.toSexpr i nl)) SymbolInstance.fromSexpr o (fun v o => { o with unit := v }) v v) ∧
    (∀ v : Val, ({ o with value := v } : SymbolInstance).WF →
      OnlyChanges (fun o => .ok (o.toSexpr i nl)) SymbolInstance.fromSexpr o (fun v o => { o with value := v }) v v) ∧
    (∀ v : Val, ({ o with footprint := v } : SymbolInstance).WF →
      OnlyChanges (fun o => .ok (o.toSexpr i nl)) SymbolInstance.fromSexpr o (fun v o => { o with footprint := v }) v v) := by
  have hs : ∀ o : SymbolInstance, o.WF → (.ok (o.toSexpr i nl) >>= parseSexp >>= SymbolInstance.fromSexpr) = .ok (canon o) := fun o h =>
    (Lexes.one fun _ _ hs => SymbolInstance.lx h hs).loads (SymbolInstance.from_toVal h)
  exact ⟨fun v hv => ⟨_, hs o h, canon v, canonEq _, (hs _ hv).trans rfl⟩,
    fun v hv => ⟨_, hs o h, canon v, canonEq _, (hs _ hv).trans rfl⟩,
    fun v hv => ⟨_, hs o h, canon v, canonEq _, (hs _ hv).trans rfl⟩,
    fun v hv => ⟨_, hs o h, canon v, canonEq _, (hs _ hv).trans rfl⟩,
    fun v hv => ⟨_, hs o h, canon v, canonEq _, (hs _ hv).trans rfl⟩⟩
example := C38_SymbolInstance sampleSymbolInstance sampleSymbolInstance_wf

theorem C38_Rectangle [TextRule] (o : Rectangle) (h : o.WF) (i : Nat) (nl : Bool) :
    (∀ v : Position, ({ o with start := v } : Rectangle).WF →
      OnlyChanges (fun o => .ok (o.toSexpr i nl)) Rectangle.fromSexpr o (fun v o => { o with start := v }) v v) ∧
    (∀ v : Position, ({ o with «end» := v } : Rectangle).WF →
      OnlyChanges (fun o => .ok (o.toSexpr i nl)) Rectangle.fromSexpr o (fun v o => { o with «end» := v }) v v) ∧
    (∀ v : Stroke, ({ o with stroke := v } : Rectangle).WF →
      OnlyChanges (fun o => .ok (o.toSexpr i nl)) Rectangle.fromSexpr o (fun v o => { o with stroke := v }) v v) ∧
    (∀ v : Fill, ({ o with fill := v } : Rectangle).WF →
      OnlyChanges (fun o => .ok (o.toSexpr i nl)) Rectangle.fromSexpr o (fun v o => { o with fill := v }) v v) ∧
    (∀ v : Option Val, ({ o with uuid := v } : Rectangle).WF →
      OnlyChanges (fun o => .ok (o.toSexpr i nl)) Rectangle.fromSexpr o (fun v o => { o with uuid := v }) v v) := by
  have hs : ∀ o : Rectangle, o.WF → (.ok (o.toSexpr i nl) >>= parseSexp >>= Rectangle.fromSexpr) = .ok (canon o) := fun o h =>
    (Lexes.one fun _ _ hs => Rectangle.lx h hs).loads (Rectangle.from_toVal h)
  exact ⟨fun v hv => ⟨_, hs o h, canon v, canonEq _, (hs _ hv).trans rfl⟩,
    fun v hv => ⟨_, hs o h, canon v, canonEq _, (hs _ hv).trans rfl⟩,
    fun v hv => ⟨_, hs o h, canon v, canonEq _, (hs _ hv).trans rfl⟩,
    fun v hv => ⟨_, hs o h, canon v, canonEq _, (hs _ hv).trans rfl⟩,
    fun v hv => ⟨_, hs o h, canon v, canonEq _, (hs _ hv).trans rfl⟩⟩
example := C38_Rectangle sampleRectangle sampleRectangle_wf

theorem C38_Arc [TextRule] (o : Arc) (h : o.WF) (i : Nat) (nl : Bool) :
    (∀ v : Position, ({ o with start := v } : Arc).WF →
      OnlyChanges (fun o => .ok (o.toSexpr i nl)) Arc.fromSexpr o (fun v o => { o with start := v }) v v) ∧
    (∀ v : Position, ({ o with mid := v } : Arc).WF →
      OnlyChanges (fun o => .ok (o.toSexpr i nl)) Arc.fromSexpr o (fun v o => { o with mid := v }) v v) ∧
    (∀ v : Position, ({ o with «end» := v } : Arc).WF →
      OnlyChanges (fun o => .ok (o.toSexpr i nl)) Arc.fromSexpr o (fun v o => { o with «end» := v }) v v) ∧
    (∀ v : Stroke, ({ o with stroke := v } : Arc).WF →
      OnlyChanges (fun o => .ok (o.toSexpr i nl)) Arc.fromSexpr o (fun v o => { o with stroke := v }) v v) ∧
    (∀ v : Fill, ({ o with fill := v } : Arc).WF →
      OnlyChanges (fun o => .ok (o.toSexpr i nl)) Arc.fromSexpr o (fun v o => { o with fill := v }) v v) ∧
    (∀ v : Option Val, ({ o with uuid := v } : Arc).WF →
      OnlyChanges (fun o => .ok (o.toSexpr i nl)) Arc.fromSexpr o (fun v o => { o with uuid := v }) v v) := by
  have hs : ∀ o : Arc, o.WF → (.ok (o.toSexpr i nl) >>= parseSexp >>= Arc.fromSexpr) = .ok (canon o) := fun o h =>
    (Lexes.one fun _ _ hs => Arc.lx h hs).loads (Arc.from_toVal h)
  exact ⟨fun v hv => ⟨_, hs o h, canon v, canonEq _, (hs _ hv).trans rfl⟩,
    fun v hv => ⟨_, hs o h, canon v, canonEq _, (hs _ hv).trans rfl⟩,
    fun v hv => ⟨_, hs o h, canon v, canonEq _, (hs _ hv).trans rfl⟩,
    fun v hv => ⟨_, hs o h, canon v, canonEq _, (hs _ hv).trans rfl⟩,
    fun v hv => ⟨_, hs o h, canon v, canonEq _, (hs _ hv).trans rfl⟩,
    fun v hv => ⟨_, hs o h, canon v, canonEq _, (hs _ hv).trans rfl⟩⟩
example := C38_Arc sampleArc sampleArc_wf

theorem C38_Circle [TextRule] (o : Circle) (h : o.WF) (i : Nat) (nl : Bool) :
    (∀ v : Position, ({ o with center := v } : Circle).WF →
      OnlyChanges (fun o => .ok (o.toSexpr i nl)) Circle.fromSexpr o (fun v o => { o with center := v }) v v) ∧
    (∀ v : Val, ({ o with radius := v } : Circle).WF →
      OnlyChanges (fun o => .ok (o.toSexpr i nl)) Circle.fromSexpr o (fun v o => { o with radius := v }) v v) ∧
    (∀ v : Stroke, ({ o with stroke := v } : Circle).WF →
      OnlyChanges (fun o => .ok (o.toSexpr i nl)) Circle.fromSexpr o (fun v o => { o with stroke := v }) v v) ∧
    (∀ v : Fill, ({ o with fill := v } : Circle).WF →
      OnlyChanges (fun o => .ok (o.toSexpr i nl)) Circle.fromSexpr o (fun v o => { o with fill := v }) v v) ∧
    (∀ v : Option Val, ({ o with uuid := v } : Circle).WF →
      OnlyChanges (fun o => .ok (o.toSexpr i nl)) Circle.fromSexpr o (fun v o => { o with uuid := v }) v v) := by
  have hs : ∀ o : Circle, o.WF → (.ok (o.toSexpr i nl) >>= parseSexp >>= Circle.fromSexpr) = .ok (canon o) := fun o h =>
    (Lexes.one fun _ _ hs => Circle.lx h hs).loads (Circle.from_toVal h)
  exact ⟨fun v hv => ⟨_, hs o h, canon v, canonEq _, (hs _ hv).trans rfl⟩,
    fun v hv => ⟨_, hs o h, canon v, canonEq _, (hs _ hv).trans rfl⟩,
    fun v hv => ⟨_, hs o h, canon v, canonEq _, (hs _ hv).trans rfl⟩,
    fun v hv => ⟨_, hs o h, canon v, canonEq _, (hs _ hv).trans rfl⟩,
    fun v hv => ⟨_, hs o h, canon v, canonEq _, (hs _ hv).trans rfl⟩⟩
example := C38_Circle sampleCircle sampleCircle_wf

theorem C38_NetclassFlag [TextRule] (o : NetclassFlag) (h : o.WF) (i : Nat) (nl : Bool) :
    (∀ v : Val, ({ o with text := v } : NetclassFlag).WF →
      OnlyChanges (fun o => o.toSexpr i nl) NetclassFlag.fromSexpr o (fun v o => { o with text := v }) v v) ∧
    (∀ v : Val, ({ o with length := v } : NetclassFlag).WF →
      OnlyChanges (fun o => o.toSexpr i nl) NetclassFlag.fromSexpr o (fun v o => { o with length := v }) v v) ∧
    (∀ v : Val, ({ o with shape := v } : NetclassFlag).WF →
      OnlyChanges (fun o => o.toSexpr i nl) NetclassFlag.fromSexpr o (fun v o => { o with shape := v }) v v) ∧
    (∀ v : Position, ({ o with position := v } : NetclassFlag).WF →
      OnlyChanges (fun o => o.toSexpr i nl) NetclassFlag.fromSexpr o (fun v o => { o with position := v }) v v) ∧
    (∀ v : Option Effects, ({ o with effects := v } : NetclassFlag).WF →
      OnlyChanges (fun o => o.toSexpr i nl) NetclassFlag.fromSexpr o (fun v o => { o with effects := v }) v v) ∧
    (∀ v : List Property, ({ o with properties := v } : NetclassFlag).WF →
      OnlyChanges (fun o => o.toSexpr i nl) NetclassFlag.fromSexpr o (fun v o => { o with properties := v }) v v) ∧
    (∀ v : Option Val, ({ o with uuid := v } : NetclassFlag).WF →
      OnlyChanges (fun o => o.toSexpr i nl) NetclassFlag.fromSexpr o (fun v o => { o with uuid := v }) v v) ∧
    (∀ v : Bool, ({ o with fieldsAutoplaced := v } : NetclassFlag).WF →
      OnlyChanges (fun o => o.toSexpr i nl) NetclassFlag.fromSexpr o (fun v o => { o with fieldsAutoplaced := v }) v v) := by
  have hs : ∀ o : NetclassFlag, o.WF → (o.toSexpr i nl >>= parseSexp >>= NetclassFlag.fromSexpr) = .ok (canon o) := fun o h =>
    (NetclassFlag.lexes h i nl).loads (NetclassFlag.from_toVal h)
  exact ⟨fun v hv => ⟨_, hs o h, canon v, canonEq _, (hs _ hv).trans rfl⟩,
    fun v hv => ⟨_, hs o h, canon v, canonEq _, (hs _ hv).trans rfl⟩,
    fun v hv => ⟨_, hs o h, canon v, canonEq _, (hs _ hv).trans rfl⟩,
    fun v hv => ⟨_, hs o h, canon v, canonEq _, (hs _ hv).trans rfl⟩,
    fun v hv => ⟨_, hs o h, canon v, canonEq _, (hs _ hv).trans rfl⟩,
    fun v hv => ⟨_, hs o h, canon v, canonEq _, (hs _ hv).trans rfl⟩,
    fun v hv => ⟨_, hs o h, canon v, canonEq _, (hs _ hv).trans rfl⟩,
    fun v hv => ⟨_, hs o h, canon v, canonEq _, (hs _ hv).trans rfl⟩⟩
example := C38_NetclassFlag sampleNetclassFlag sampleNetclassFlag_wf

theorem C38_Schematic_partial [TextRule] (o : Schematic) (h : o.WF) (i : Nat) (nl : Bool) :
    (∀ v : Val, ({ o with version := v } : Schematic).WF →
      OnlyChanges (fun o => o.toSexpr i nl) Schematic.fromSexpr o (fun v o => { o with version := v }) v v) ∧
    (∀ v : Val, ({ o with generator := v } : Schematic).WF →
      OnlyChanges (fun o => o.toSexpr i nl) Schematic.fromSexpr o (fun v o => { o with generator := v }) v v) ∧
    (∀ v : Option Val, ({ o with uuid := v } : Schematic).WF →
      OnlyChanges (fun o => o.toSexpr i nl) Schematic.fromSexpr o (fun v o => { o with uuid := v }) v v) ∧
    (∀ v : PageSettings, ({ o with paper := v } : Schematic).WF →
      OnlyChanges (fun o => o.toSexpr i nl) Schematic.fromSexpr o (fun v o => { o with paper := v }) v v) ∧
    (∀ v : Option TitleBlock, ({ o with titleBlock := v } : Schematic).WF →
      OnlyChanges (fun o => o.toSexpr i nl) Schematic.fromSexpr o (fun v o => { o with titleBlock := v }) v v) ∧
    (∀ v : List Symbol, ({ o with libSymbols := v } : Schematic).WF →
      OnlyChanges (fun o => o.toSexpr i nl) Schematic.fromSexpr o (fun v o => { o with libSymbols := v }) v v) ∧
    (∀ v : List SchematicSymbol, ({ o with schematicSymbols := v } : Schematic).WF →
      OnlyChanges (fun o => o.toSexpr i nl) Schematic.fromSexpr o (fun v o => { o with schematicSymbols := v }) v v) ∧
    (∀ v : List Junction, ({ o with junctions := v } : Schematic).WF →
      OnlyChanges (fun o => o.toSexpr i nl) Schematic.fromSexpr o (fun v o => { o with junctions := v }) v (v.map fun j => { j with diameter := .int 0 })) ∧
    (∀ v : List NoConnect, ({ o with noConnects := v } : Schematic).WF →
      OnlyChanges (fun o => o.toSexpr i nl) Schematic.fromSexpr o (fun v o => { o with noConnects := v }) v v) ∧
    (∀ v : List BusEntry, ({ o with busEntries := v } : Schematic).WF →
      OnlyChanges (fun o => o.toSexpr i nl) Schematic.fromSexpr o (fun v o => { o with busEntries := v }) v v) ∧
    (∀ v : List BusAlias, ({ o with busAliases := v } : Schematic).WF →
      OnlyChanges (fun o => o.toSexpr i nl) Schematic.fromSexpr o (fun v o => { o with busAliases := v }) v v) ∧
    (∀ v : List SchGraphic, ({ o with graphicalItems := v } : Schematic).WF →
      OnlyChanges (fun o => o.toSexpr i nl) Schematic.fromSexpr o (fun v o => { o with graphicalItems := v }) v v) ∧
    (∀ v : List SchShape, ({ o with shapes := v } : Schematic).WF →
      OnlyChanges (fun o => o.toSexpr i nl) Schematic.fromSexpr o (fun v o => { o with shapes := v }) v v) ∧
    (∀ v : List Image, ({ o with images := v } : Schematic).WF →
      OnlyChanges (fun o => o.toSexpr i nl) Schematic.fromSexpr o (fun v o => { o with images := v }) v v) ∧
    (∀ v : List Text, ({ o with texts := v } : Schematic).WF →
      OnlyChanges (fun o => o.toSexpr i nl) Schematic.fromSexpr o (fun v o => { o with texts := v }) v v) ∧
    (∀ v : List TextBox, ({ o with textBoxes := v } : Schematic).WF →
      OnlyChanges (fun o => o.toSexpr i nl) Schematic.fromSexpr o (fun v o => { o with textBoxes := v }) v v) ∧
    (∀ v : List LocalLabel, ({ o with labels := v } : Schematic).WF →
      OnlyChanges (fun o => o.toSexpr i nl) Schematic.fromSexpr o (fun v o => { o with labels := v }) v v) ∧
    (∀ v : List GlobalLabel, ({ o with globalLabels := v } : Schematic).WF →
      OnlyChanges (fun o => o.toSexpr i nl) Schematic.fromSexpr o (fun v o => { o with globalLabels := v }) v v) ∧
    (∀ v : List HierarchicalLabel, ({ o with hierarchicalLabels := v } : Schematic).WF →
      OnlyChanges (fun o => o.toSexpr i nl) Schematic.fromSexpr o (fun v o => { o with hierarchicalLabels := v }) v v) ∧
    (∀ v : List NetclassFlag, ({ o with netclassFlags := v } : Schematic).WF →
      OnlyChanges (fun o => o.toSexpr i nl) Schematic.fromSexpr o (fun v o => { o with netclassFlags := v }) v v) ∧
    (∀ v : List HierarchicalSheet, ({ o with sheets := v } : Schematic).WF →
      OnlyChanges (fun o => o.toSexpr i nl) Schematic.fromSexpr o (fun v o => { o with sheets := v }) v (v.map fun s => { s with fill := { s.fill with precision := some 4 } })) ∧
    (∀ v : List HierarchicalSheetInstance, ({ o with sheetInstances := v } : Schematic).WF →
      OnlyChanges (fun o => o.toSexpr i nl) Schematic.fromSexpr o (fun v o => { o with sheetInstances := v }) v v) ∧
    (∀ v : List SymbolInstance, ({ o with symbolInstances := v } : Schematic).WF →
      OnlyChanges (fun o => o.toSexpr i nl) Schematic.fromSexpr o (fun v o => { o with symbolInstances := v }) v v) := by
  have hs : ∀ o : Schematic, o.WF → (o.toSexpr i nl >>= parseSexp >>= Schematic.fromSexpr) = .ok (canon o.asRead) := fun o h =>
    (Schematic.lexes h i nl).loads (Schematic.from_toVal h)
  exact ⟨fun v hv => ⟨_, hs o h, canon v, canonEq _, (hs _ hv).trans rfl⟩,
    fun v hv => ⟨_, hs o h, canon v, canonEq _, (hs _ hv).trans rfl⟩,
    fun v hv => ⟨_, hs o h, canon v, canonEq _, (hs _ hv).trans rfl⟩,
    fun v hv => ⟨_, hs o h, canon v, canonEq _, (hs _ hv).trans rfl⟩,
    fun v hv => ⟨_, hs o h, canon v, canonEq _, (hs _ hv).trans rfl⟩,
    fun v hv => ⟨_, hs o h, canon v, canonEq _, (hs _ hv).trans rfl⟩,
    fun v hv => ⟨_, hs o h, canon v, canonEq _, (hs _ hv).trans rfl⟩,
    fun v hv => ⟨_, hs o h, canon (v.map Junction.asRead), canonEq ((v.map Junction.asRead)), hs _ hv⟩,
    fun v hv => ⟨_, hs o h, canon v, canonEq _, (hs _ hv).trans rfl⟩,
    fun v hv => ⟨_, hs o h, canon v, canonEq _, (hs _ hv).trans rfl⟩,
    fun v hv => ⟨_, hs o h, canon v, canonEq _, (hs _ hv).trans rfl⟩,
    fun v hv => ⟨_, hs o h, canon v, canonEq _, (hs _ hv).trans rfl⟩,
    fun v hv => ⟨_, hs o h, canon v, canonEq _, (hs _ hv).trans rfl⟩,
    fun v hv => ⟨_, hs o h, canon v, canonEq _, (hs _ hv).trans rfl⟩,
    fun v hv => ⟨_, hs o h, canon v, canonEq _, (hs _ hv).trans rfl⟩,
    fun v hv => ⟨_, hs o h, canon v, canonEq _, (hs _ hv).trans rfl⟩,
    fun v hv => ⟨_, hs o h, canon v, canonEq _, (hs _ hv).trans rfl⟩,
    fun v hv => ⟨_, hs o h, canon v, canonEq _, (hs _ hv).trans rfl⟩,
    fun v hv => ⟨_, hs o h, canon v, canonEq _, (hs _ hv).trans rfl⟩,
    fun v hv => ⟨_, hs o h, canon v, canonEq _, (hs _ hv).trans rfl⟩,
    fun v hv => ⟨_, hs o h, canon (v.map HierarchicalSheet.asRead), canonEq ((v.map HierarchicalSheet.asRead)), hs _ hv⟩,
    fun v hv => ⟨_, hs o h, canon v, canonEq _, (hs _ hv).trans rfl⟩,
    fun v hv => ⟨_, hs o h, canon v, canonEq _, (hs _ hv).trans rfl⟩⟩
example := C38_Schematic_partial sampleSchematic sampleSchematic_wf

theorem C38_GrText [TextRule] (o : GrText) (h : o.WF) (i : Nat) (nl : Bool) :
    (∀ v : Val, ({ o with text := v } : GrText).WF →
      OnlyChanges (fun o => .ok (o.toSexpr i nl)) GrText.fromSexpr o (fun v o => { o with text := v }) v v) ∧
    (∀ v : Bool, ({ o with knockout := v } : GrText).WF →
      OnlyChanges (fun o => .ok (o.toSexpr i nl)) GrText.fromSexpr o (fun v o => { o with knockout := v }) v v) ∧
    (∀ v : Position, ({ o with position := v } : GrText).WF →
      OnlyChanges (fun o => .ok (o.toSexpr i nl)) GrText.fromSexpr o (fun v o => { o with position := v }) v v) ∧
    (∀ v : Option Val, ({ o with layer := v } : GrText).WF →
      OnlyChanges (fun o => .ok (o.toSexpr i nl)) GrText.fromSexpr o (fun v o => { o with layer := v }) v v) ∧
    (∀ v : Effects, ({ o with effects := v } : GrText).WF →
      OnlyChanges (fun o => .ok (o.toSexpr i nl)) GrText.fromSexpr o (fun v o => { o with effects := v }) v v) ∧
    (∀ v : Option Val, ({ o with tstamp := v } : GrText).WF →
      OnlyChanges (fun o => .ok (o.toSexpr i nl)) GrText.fromSexpr o (fun v o => { o with tstamp := v }) v v) ∧
    (∀ v : Bool, ({ o with locked := v } : GrText).WF →
      OnlyChanges (fun o => .ok (o.toSexpr i nl)) GrText.fromSexpr o (fun v o => { o with locked := v }) v v) ∧
    (∀ v : Option RenderCache, ({ o with renderCache := v } : GrText).WF →
      OnlyChanges (fun o => .ok (o.toSexpr i nl)) GrText.fromSexpr o (fun v o => { o with renderCache := v }) v v) := by
  have hs : ∀ o : GrText, o.WF → (.ok (o.toSexpr i nl) >>= parseSexp >>= GrText.fromSexpr) = .ok (canon o) := fun o h =>
    (Lexes.one fun _ _ hs => GrText.lx h hs).loads (GrText.from_toVal h)
  exact ⟨fun v hv => ⟨_, hs o h, canon v, canonEq _, (hs _ hv).trans rfl⟩,
    fun v hv => ⟨_, hs o h, canon v, canonEq _, (hs _ hv).trans rfl⟩,
    fun v hv => ⟨_, hs o h, canon v, canonEq _, (hs _ hv).trans rfl⟩,
    fun v hv => ⟨_, hs o h, canon v, canonEq _, (hs _ hv).trans rfl⟩,
    fun v hv => ⟨_, hs o h, canon v, canonEq _, (hs _ hv).trans rfl⟩,
    fun v hv => ⟨_, hs o h, canon v, canonEq _, (hs _ hv).trans rfl⟩,
    fun v hv => ⟨_, hs o h, canon v, canonEq _, (hs _ hv).trans rfl⟩,
    fun v hv => ⟨_, hs o h, canon v, canonEq _, (hs _ hv).trans rfl⟩⟩
example := C38_GrText sampleGrText sampleGrText_wf

theorem C38_GrTextBox [TextRule] (o : GrTextBox) (h : o.WF) (i : Nat) (nl : Bool) :
    (∀ v : Bool, ({ o with locked := v } : GrTextBox).WF →
      OnlyChanges (fun o => o.toSexpr i nl) GrTextBox.fromSexpr o (fun v o => { o with locked := v }) v v) ∧
    (∀ v : Val, ({ o with text := v } : GrTextBox).WF →
      OnlyChanges (fun o => o.toSexpr i nl) GrTextBox.fromSexpr o (fun v o => { o with text := v }) v v) ∧
    (∀ v : Option Position, ({ o with start := v } : GrTextBox).WF →
      OnlyChanges (fun o => o.toSexpr i nl) GrTextBox.fromSexpr o (fun v o => { o with start := v }) v v) ∧
    (∀ v : Option Position, ({ o with «end» := v } : GrTextBox).WF →
      OnlyChanges (fun o => o.toSexpr i nl) GrTextBox.fromSexpr o (fun v o => { o with «end» := v }) v v) ∧
    (∀ v : List Position, ({ o with pts := v } : GrTextBox).WF →
      OnlyChanges (fun o => o.toSexpr i nl) GrTextBox.fromSexpr o (fun v o => { o with pts := v }) v v) ∧
    (∀ v : Option Val, ({ o with angle := v } : GrTextBox).WF →
      OnlyChanges (fun o => o.toSexpr i nl) GrTextBox.fromSexpr o (fun v o => { o with angle := v }) v v) ∧
    (∀ v : Val, ({ o with layer := v } : GrTextBox).WF →
      OnlyChanges (fun o => o.toSexpr i nl) GrTextBox.fromSexpr o (fun v o => { o with layer := v }) v v) ∧
    (∀ v : Option Val, ({ o with tstamp := v } : GrTextBox).WF →
      OnlyChanges (fun o => o.toSexpr i nl) GrTextBox.fromSexpr o (fun v o => { o with tstamp := v }) v v) ∧
    (∀ v : Option Effects, ({ o with effects := v } : GrTextBox).WF →
      OnlyChanges (fun o => o.toSexpr i nl) GrTextBox.fromSexpr o (fun v o => { o with effects := v }) v v) ∧
    (∀ v : Option Stroke, ({ o with stroke := v } : GrTextBox).WF →
      OnlyChanges (fun o => o.toSexpr i nl) GrTextBox.fromSexpr o (fun v o => { o with stroke := v }) v v) ∧
    (∀ v : Option RenderCache, ({ o with renderCache := v } : GrTextBox).WF →
      OnlyChanges (fun o => o.toSexpr i nl) GrTextBox.fromSexpr o (fun v o => { o with renderCache := v }) v v) := by
  have hs : ∀ o : GrTextBox, o.WF → (o.toSexpr i nl >>= parseSexp >>= GrTextBox.fromSexpr) = .ok (canon o) := fun o h =>
    (GrTextBox.lexes h i nl).loads (GrTextBox.from_toVal h)
  exact ⟨fun v hv => ⟨_, hs o h, canon v, canonEq _, (hs _ hv).trans rfl⟩,
    fun v hv => ⟨_, hs o h, canon v, canonEq _, (hs _ hv).trans rfl⟩,
    fun v hv => ⟨_, hs o h, canon v, canonEq _, (hs _ hv).trans rfl⟩,
    fun v hv => ⟨_, hs o h, canon v, canonEq _, (hs _ hv).trans rfl⟩,
    fun v hv => ⟨_, hs o h, canon v, canonEq _, (hs _ hv).trans rfl⟩,
    fun v hv => ⟨_, hs o h, canon v, canonEq _, (hs _ hv).trans rfl⟩,
    fun v hv => ⟨_, hs o h, canon v, canonEq _, (hs _ hv).trans rfl⟩,
    fun v hv => ⟨_, hs o h, canon v, canonEq _, (hs _ hv).trans rfl⟩,
    fun v hv => ⟨_, hs o h, canon v, canonEq _, (hs _ hv).trans rfl⟩,
    fun v hv => ⟨_, hs o h, canon v, canonEq _, (hs _ hv).trans rfl⟩,
    fun v hv => ⟨_, hs o h, canon v, canonEq _, (hs _ hv).trans rfl⟩⟩
example := C38_GrTextBox sampleGrTextBox sampleGrTextBox_wf

theorem C38_GrLine [TextRule] (o : GrLine) (h : o.WF) (i : Nat) (nl : Bool) :
    (∀ v : Position, ({ o with start := v } : GrLine).WF →
      OnlyChanges (fun o => .ok (o.toSexpr i nl)) GrLine.fromSexpr o (fun v o => { o with start := v }) v v) ∧
    (∀ v : Position, ({ o with «end» := v } : GrLine).WF →
      OnlyChanges (fun o => .ok (o.toSexpr i nl)) GrLine.fromSexpr o (fun v o => { o with «end» := v }) v v) ∧
    (∀ v : Option Val, ({ o with angle := v } : GrLine).WF →
      OnlyChanges (fun o => .ok (o.toSexpr i nl)) GrLine.fromSexpr o (fun v o => { o with angle := v }) v v) ∧
    (∀ v : Option Val, ({ o with layer := v } : GrLine).WF →
      OnlyChanges (fun o => .ok (o.toSexpr i nl)) GrLine.fromSexpr o (fun v o => { o with layer := v }) v v) ∧
    (∀ v : Option Val, ({ o with width := v } : GrLine).WF →
      OnlyChanges (fun o => .ok (o.toSexpr i nl)) GrLine.fromSexpr o (fun v o => { o with width := v }) v v) ∧
    (∀ v : Option Val, ({ o with tstamp := v } : GrLine).WF →
      OnlyChanges (fun o => .ok (o.toSexpr i nl)) GrLine.fromSexpr o (fun v o => { o with tstamp := v }) v v) ∧
    (∀ v : Bool, ({ o with locked := v } : GrLine).WF →
      OnlyChanges (fun o => .ok (o.toSexpr i nl)) GrLine.fromSexpr o (fun v o => { o with locked := v }) v v) := by
  have hs : ∀ o : GrLine, o.WF → (.ok (o.toSexpr i nl) >>= parseSexp >>= GrLine.fromSexpr) = .ok (canon o) := fun o h =>
    (Lexes.one fun _ _ hs => GrLine.lx h hs).loads (GrLine.from_toVal h)
  exact ⟨fun v hv => ⟨_, hs o h, canon v, canonEq _, (hs _ hv).trans rfl⟩,
    fun v hv => ⟨_, hs o h, canon v, canonEq _, (hs _ hv).trans rfl⟩,
    fun v hv => ⟨_, hs o h, canon v, canonEq _, (hs _ hv).trans rfl⟩,
    fun v hv => ⟨_, hs o h, canon v, canonEq _, (hs _ hv).trans rfl⟩,
    fun v hv => ⟨_, hs o h, canon v, canonEq _, (hs _ hv).trans rfl⟩,
    fun v hv => ⟨_, hs o h, canon v, canonEq _, (hs _ hv).trans rfl⟩,
    fun v hv => ⟨_, hs o h, canon v, canonEq _, (hs _ hv).trans rfl⟩⟩
example := C38_GrLine sampleGrLine sampleGrLine_wf

theorem C38_GrRect [TextRule] (o : GrRect) (h : o.WF) (i : Nat) (nl : Bool) :
    (∀ v : Position, ({ o with start := v } : GrRect).WF →
      OnlyChanges (fun o => .ok (o.toSexpr i nl)) GrRect.fromSexpr o (fun v o => { o with start := v }) v v) ∧
    (∀ v : Position, ({ o with «end» := v } : GrRect).WF →
      OnlyChanges (fun o => .ok (o.toSexpr i nl)) GrRect.fromSexpr o (fun v o => { o with «end» := v }) v v) ∧
    (∀ v : Option Val, ({ o with layer := v } : GrRect).WF →
      OnlyChanges (fun o => .ok (o.toSexpr i nl)) GrRect.fromSexpr o (fun v o => { o with layer := v }) v v) ∧
    (∀ v : Option Val, ({ o with width := v } : GrRect).WF →
      OnlyChanges (fun o => .ok (o.toSexpr i nl)) GrRect.fromSexpr o (fun v o => { o with width := v }) v v) ∧
    (∀ v : Option Val, ({ o with fill := v } : GrRect).WF →
      OnlyChanges (fun o => .ok (o.toSexpr i nl)) GrRect.fromSexpr o (fun v o => { o with fill := v }) v v) ∧
    (∀ v : Option Val, ({ o with tstamp := v } : GrRect).WF →
      OnlyChanges (fun o => .ok (o.toSexpr i nl)) GrRect.fromSexpr o (fun v o => { o with tstamp := v }) v v) ∧
    (∀ v : Bool, ({ o with locked := v } : GrRect).WF →
      OnlyChanges (fun o => .ok (o.toSexpr i nl)) GrRect.fromSexpr o (fun v o => { o with locked := v }) v v) := by
  have hs : ∀ o : GrRect, o.WF → (.ok (o.toSexpr i nl) >>= parseSexp >>= GrRect.fromSexpr) = .ok (canon o) := fun o h =>
    (Lexes.one fun _ _ hs => GrRect.lx h hs).loads (GrRect.from_toVal h)
  exact ⟨fun v hv => ⟨_, hs o h, canon v, canonEq _, (hs _ hv).trans rfl⟩,
    fun v hv => ⟨_, hs o h, canon v, canonEq _, (hs _ hv).trans rfl⟩,
    fun v hv => ⟨_, hs o h, canon v, canonEq _, (hs _ hv).trans rfl⟩,
    fun v hv => ⟨_, hs o h, canon v, canonEq _, (hs _ hv).trans rfl⟩,
    fun v hv => ⟨_, hs o h, canon v, canonEq _, (hs _ hv).trans rfl⟩,
    fun v hv => ⟨_, hs o h, canon v, canonEq _, (hs _ hv).trans rfl⟩,
    fun v hv => ⟨_, hs o h, canon v, canonEq _, (hs _ hv).trans rfl⟩⟩
example := C38_GrRect sampleGrRect sampleGrRect_wf

theorem C38_GrCircle [TextRule] (o : GrCircle) (h : o.WF) (i : Nat) (nl : Bool) :
    (∀ v : Position, ({ o with center := v } : GrCircle).WF →
      OnlyChanges (fun o => .ok (o.toSexpr i nl)) GrCircle.fromSexpr o (fun v o => { o with center := v }) v v) ∧
    (∀ v : Position, ({ o with «end» := v } : GrCircle).WF →
      OnlyChanges (fun o => .ok (o.toSexpr i nl)) GrCircle.fromSexpr o (fun v o => { o with «end» := v }) v v) ∧
    (∀ v : Option Val, ({ o with layer := v } : GrCircle).WF →
      OnlyChanges (fun o => .ok (o.toSexpr i nl)) GrCircle.fromSexpr o (fun v o => { o with layer := v }) v v) ∧
    (∀ v : Option Val, ({ o with width := v } : GrCircle).WF →
      OnlyChanges (fun o => .ok (o.toSexpr i nl)) GrCircle.fromSexpr o (fun v o => { o with width := v }) v v) ∧
    (∀ v : Option Val, ({ o with fill := v } : GrCircle).WF →
      OnlyChanges (fun o => .ok (o.toSexpr i nl)) GrCircle.fromSexpr o (fun v o => { o with fill := v }) v v) ∧
    (∀ v : Option Val, ({ o with tstamp := v } : GrCircle).WF →
      OnlyChanges (fun o => .ok (o.toSexpr i nl)) GrCircle.fromSexpr o (fun v o => { o with tstamp := v }) v v) ∧
    (∀ v : Bool, ({ o with locked := v } : GrCircle).WF →
      OnlyChanges (fun o => .ok (o.toSexpr i nl)) GrCircle.fromSexpr o (fun v o => { o with locked := v }) v v) := by
  have hs : ∀ o : GrCircle, o.WF → (.ok (o.toSexpr i nl) >>= parseSexp >>= GrCircle.fromSexpr) = .ok (canon o) := fun o h =>
    (Lexes.one fun _ _ hs => GrCircle.lx h hs).loads (GrCircle.from_toVal h)
  exact ⟨fun v hv => ⟨_, hs o h, canon v, canonEq _, (hs _ hv).trans rfl⟩,
    fun v hv => ⟨_, hs o h, canon v, canonEq _, (hs _ hv).trans rfl⟩,
    fun v hv => ⟨_, hs o h, canon v, canonEq _, (hs _ hv).trans rfl⟩,
    fun v hv => ⟨_, hs o h, canon v, canonEq _, (hs _ hv).trans rfl⟩,
    fun v hv => ⟨_, hs o h, canon v, canonEq _, (hs _ hv).trans rfl⟩,
    fun v hv => ⟨_, hs o h, canon v, canonEq _, (hs _ hv).trans rfl⟩,
    fun v hv => ⟨_, hs o h, canon v, canonEq _, (hs _ hv).trans rfl⟩⟩
example := C38_GrCircle sampleGrCircle sampleGrCircle_wf

theorem C38_GrArc [TextRule] (o : GrArc) (h : o.WF) (i : Nat) (nl : Bool) :
    (∀ v : Position, ({ o with start := v } : GrArc).WF →
      OnlyChanges (fun o => .ok (o.toSexpr i nl)) GrArc.fromSexpr o (fun v o => { o with start := v }) v v) ∧
    (∀ v : Position, ({ o with mid := v } : GrArc).WF →
      OnlyChanges (fun o => .ok (o.toSexpr i nl)) GrArc.fromSexpr o (fun v o => { o with mid := v }) v v) ∧
    (∀ v : Position, ({ o with «end» := v } : GrArc).WF →
      OnlyChanges (fun o => .ok (o.toSexpr i nl)) GrArc.fromSexpr o (fun v o => { o with «end» := v }) v v) ∧
    (∀ v : Option Val, ({ o with layer := v } : GrArc).WF →
      OnlyChanges (fun o => .ok (o.toSexpr i nl)) GrArc.fromSexpr o (fun v o => { o with layer := v }) v v) ∧
    (∀ v : Option Val, ({ o with width := v } : GrArc).WF →
      OnlyChanges (fun o => .ok (o.toSexpr i nl)) GrArc.fromSexpr o (fun v o => { o with width := v }) v v) ∧
    (∀ v : Option Val, ({ o with tstamp := v } : GrArc).WF →
      OnlyChanges (fun o => .ok (o.toSexpr i nl)) GrArc.fromSexpr o (fun v o => { o with tstamp := v }) v v) ∧
    (∀ v : Bool, ({ o with locked := v } : GrArc).WF →
      OnlyChanges (fun o => .ok (o.toSexpr i nl)) GrArc.fromSexpr o (fun v o => { o with locked := v }) v v) := by
  have hs : ∀ o : GrArc, o.WF → (.ok (o.toSexpr i nl) >>= parseSexp >>= GrArc.fromSexpr) = .ok (canon o) := fun o h =>
    (Lexes.one fun _ _ hs => GrArc.lx h hs).loads (GrArc.from_toVal h)
  exact ⟨fun v hv => ⟨_, hs o h, canon v, canonEq _, (hs _ hv).trans rfl⟩,
    fun v hv => ⟨_, hs o h, canon v, canonEq _, (hs _ hv).trans rfl⟩,
    fun v hv => ⟨_, hs o h, canon v, canonEq _, (hs _ hv).trans rfl⟩,
    fun v hv => ⟨_, hs o h, canon v, canonEq _, (hs _ hv).trans rfl⟩,
    fun v hv => ⟨_, hs o h, canon v, canonEq _, (hs _ hv).trans rfl⟩,
    fun v hv => ⟨_, hs o h, canon v, canonEq _, (hs _ hv).trans rfl⟩,
    fun v hv => ⟨_, hs o h, canon v, canonEq _, (hs _ hv).trans rfl⟩⟩
example := C38_GrArc sampleGrArc sampleGrArc_wf

theorem C38_GrPoly [TextRule] (o : GrPoly) (h : o.WF) (i : Nat) (nl pn : Bool) :
    (∀ v : Option Val, ({ o with layer := v } : GrPoly).WF →
      OnlyChanges (fun o => .ok (o.toSexpr i nl pn)) GrPoly.fromSexpr o (fun v o => { o with layer := v }) v v) ∧
    (∀ v : List Position, ({ o with coordinates := v } : GrPoly).WF →
      OnlyChanges (fun o => .ok (o.toSexpr i nl pn)) GrPoly.fromSexpr o (fun v o => { o with coordinates := v }) v v) ∧
    (∀ v : Option Val, ({ o with width := v } : GrPoly).WF →
      OnlyChanges (fun o => .ok (o.toSexpr i nl pn)) GrPoly.fromSexpr o (fun v o => { o with width := v }) v v) ∧
    (∀ v : Option Val, ({ o with fill := v } : GrPoly).WF →
      OnlyChanges (fun o => .ok (o.toSexpr i nl pn)) GrPoly.fromSexpr o (fun v o => { o with fill := v }) v v) ∧
    (∀ v : Option Val, ({ o with tstamp := v } : GrPoly).WF →
      OnlyChanges (fun o => .ok (o.toSexpr i nl pn)) GrPoly.fromSexpr o (fun v o => { o with tstamp := v }) v v) ∧
    (∀ v : Bool, ({ o with locked := v } : GrPoly).WF →
      OnlyChanges (fun o => .ok (o.toSexpr i nl pn)) GrPoly.fromSexpr o (fun v o => { o with locked := v }) v v) := by
  have hs : ∀ o : GrPoly, o.WF → (.ok (o.toSexpr i nl pn) >>= parseSexp >>= GrPoly.fromSexpr) = .ok (canon o) := fun o h =>
    (Lexes.one fun _ _ hs => GrPoly.lx h hs).loads (GrPoly.from_toVal h)
  exact ⟨fun v hv => ⟨_, hs o h, canon v, canonEq _, (hs _ hv).trans rfl⟩,
    fun v hv => ⟨_, hs o h, canon v, canonEq _, (hs _ hv).trans rfl⟩,
    fun v hv => ⟨_, hs o h, canon v, canonEq _, (hs _ hv).trans rfl⟩,
    fun v hv => ⟨_, hs o h, canon v, canonEq _, (hs _ hv).trans rfl⟩,
    fun v hv => ⟨_, hs o h, canon v, canonEq _, (hs _ hv).trans rfl⟩,
    fun v hv => ⟨_, hs o h, canon v, canonEq _, (hs _ hv).trans rfl⟩⟩
example := C38_GrPoly sampleGrPoly sampleGrPoly_wf

theorem C38_GrCurve [TextRule] (o : GrCurve) (h : o.WF) (i : Nat) (nl : Bool) :
    (∀ v : List Position, ({ o with coordinates := v } : GrCurve).WF →
      OnlyChanges (fun o => .ok (o.toSexpr i nl)) GrCurve.fromSexpr o (fun v o => { o with coordinates := v }) v v) ∧
    (∀ v : Option Val, ({ o with layer := v } : GrCurve).WF →
      OnlyChanges (fun o => .ok (o.toSexpr i nl)) GrCurve.fromSexpr o (fun v o => { o with layer := v }) v v) ∧
    (∀ v : Option Val, ({ o with width := v } : GrCurve).WF →
      OnlyChanges (fun o => .ok (o.toSexpr i nl)) GrCurve.fromSexpr o (fun v o => { o with width := v }) v v) ∧
    (∀ v : Option Val, ({ o with tstamp := v } : GrCurve).WF →
      OnlyChanges (fun o => .ok (o.toSexpr i nl)) GrCurve.fromSexpr o (fun v o => { o with tstamp := v }) v v) ∧
    (∀ v : Bool, ({ o with locked := v } : GrCurve).WF →
      OnlyChanges (fun o => .ok (o.toSexpr i nl)) GrCurve.fromSexpr o (fun v o => { o with locked := v }) v v) := by
  have hs : ∀ o : GrCurve, o.WF → (.ok (o.toSexpr i nl) >>= parseSexp >>= GrCurve.fromSexpr) = .ok (canon o) := fun o h =>
    (Lexes.one fun _ _ hs => GrCurve.lx h hs).loads (GrCurve.from_toVal h)
  exact ⟨fun v hv => ⟨_, hs o h, canon v, canonEq _, (hs _ hv).trans rfl⟩,
    fun v hv => ⟨_, hs o h, canon v, canonEq _, (hs _ hv).trans rfl⟩,
    fun v hv => ⟨_, hs o h, canon v, canonEq _, (hs _ hv).trans rfl⟩,
    fun v hv => ⟨_, hs o h, canon v, canonEq _, (hs _ hv).trans rfl⟩,
    fun v hv => ⟨_, hs o h, canon v, canonEq _, (hs _ hv).trans rfl⟩⟩
example := C38_GrCurve sampleGrCurve sampleGrCurve_wf

theorem C38_FpText [TextRule] (o : FpText) (h : o.WF) (i : Nat) (nl : Bool) :
    (∀ v : Val, ({ o with type := v } : FpText).WF →
      OnlyChanges (fun o => .ok (o.toSexpr i nl)) FpText.fromSexpr o (fun v o => { o with type := v }) v v) ∧
    (∀ v : Val, ({ o with text := v } : FpText).WF →
      OnlyChanges (fun o => .ok (o.toSexpr i nl)) FpText.fromSexpr o (fun v o => { o with text := v }) v v) ∧
    (∀ v : Position, ({ o with position := v } : FpText).WF →
      OnlyChanges (fun o => .ok (o.toSexpr i nl)) FpText.fromSexpr o (fun v o => { o with position := v }) v v) ∧
    (∀ v : Val, ({ o with layer := v } : FpText).WF →
      OnlyChanges (fun o => .ok (o.toSexpr i nl)) FpText.fromSexpr o (fun v o => { o with layer := v }) v v) ∧
    (∀ v : Bool, ({ o with knockout := v } : FpText).WF →
      OnlyChanges (fun o => .ok (o.toSexpr i nl)) FpText.fromSexpr o (fun v o => { o with knockout := v }) v v) ∧
    (∀ v : Bool, ({ o with hide := v } : FpText).WF →
      OnlyChanges (fun o => .ok (o.toSexpr i nl)) FpText.fromSexpr o (fun v o => { o with hide := v }) v v) ∧
    (∀ v : Effects, ({ o with effects := v } : FpText).WF →
      OnlyChanges (fun o => .ok (o.toSexpr i nl)) FpText.fromSexpr o (fun v o => { o with effects := v }) v v) ∧
    (∀ v : Option Val, ({ o with tstamp := v } : FpText).WF →
      OnlyChanges (fun o => .ok (o.toSexpr i nl)) FpText.fromSexpr o (fun v o => { o with tstamp := v }) v v) ∧
    (∀ v : Option RenderCache, ({ o with renderCache := v } : FpText).WF →
      OnlyChanges (fun o => .ok (o.toSexpr i nl)) FpText.fromSexpr o (fun v o => { o with renderCache := v }) v v) := by
  have hs : ∀ o : FpText, o.WF → (.ok (o.toSexpr i nl) >>= parseSexp >>= FpText.fromSexpr) = .ok (canon o) := fun o h =>
    (Lexes.one fun _ _ hs => FpText.lx h hs).loads (FpText.from_toVal h)
  exact ⟨fun v hv => ⟨_, hs o h, canon v, canonEq _, (hs _ hv).trans rfl⟩,
    fun v hv => ⟨_, hs o h, canon v, canonEq _, (hs _ hv).trans rfl⟩,
    fun v hv => ⟨_, hs o h, canon v, canonEq _, (hs _ hv).trans rfl⟩,
    fun v hv => ⟨_, hs o h, canon v, canonEq _, (hs _ hv).trans rfl⟩,
    fun v hv => ⟨_, hs o h, canon v, canonEq _, (hs _ hv).trans rfl⟩,
    fun v hv => ⟨_, hs o h, canon v, canonEq _, (hs _ hv).trans rfl⟩,
    fun v hv => ⟨_, hs o h, canon v, canonEq _, (hs _ hv).trans rfl⟩,
    fun v hv => ⟨_, hs o h, canon v, canonEq _, (hs _ hv).trans rfl⟩,
    fun v hv => ⟨_, hs o h, canon v, canonEq _, (hs _ hv).trans rfl⟩⟩
example := C38_FpText sampleFpText sampleFpText_wf

theorem C38_FpLine [TextRule] (o : FpLine) (h : o.WF) (i : Nat) (nl : Bool) :
    (∀ v : Position, ({ o with start := v } : FpLine).WF →
      OnlyChanges (fun o => .ok (o.toSexpr i nl)) FpLine.fromSexpr o (fun v o => { o with start := v }) v v) ∧
    (∀ v : Position, ({ o with «end» := v } : FpLine).WF →
      OnlyChanges (fun o => .ok (o.toSexpr i nl)) FpLine.fromSexpr o (fun v o => { o with «end» := v }) v v) ∧
    (∀ v : Val, ({ o with layer := v } : FpLine).WF →
      OnlyChanges (fun o => .ok (o.toSexpr i nl)) FpLine.fromSexpr o (fun v o => { o with layer := v }) v v) ∧
    (∀ v : Option Val, ({ o with width := v } : FpLine).WF →
      OnlyChanges (fun o => .ok (o.toSexpr i nl)) FpLine.fromSexpr o (fun v o => { o with width := v }) v v) ∧
    (∀ v : Option Stroke, ({ o with stroke := v } : FpLine).WF →
      OnlyChanges (fun o => .ok (o.toSexpr i nl)) FpLine.fromSexpr o (fun v o => { o with stroke := v }) v v) ∧
    (∀ v : Bool, ({ o with locked := v } : FpLine).WF →
      OnlyChanges (fun o => .ok (o.toSexpr i nl)) FpLine.fromSexpr o (fun v o => { o with locked := v }) v v) ∧
    (∀ v : Option Val, ({ o with tstamp := v } : FpLine).WF →
      OnlyChanges (fun o => .ok (o.toSexpr i nl)) FpLine.fromSexpr o (fun v o => { o with tstamp := v }) v v) := by
  have hs : ∀ o : FpLine, o.WF → (.ok (o.toSexpr i nl) >>= parseSexp >>= FpLine.fromSexpr) = .ok (canon o) := fun o h =>
    (Lexes.one fun _ _ hs => FpLine.lx h hs).loads (FpLine.from_toVal h)
  exact ⟨fun v hv => ⟨_, hs o h, canon v, canonEq _, (hs _ hv).trans rfl⟩,
    fun v hv => ⟨_, hs o h, canon v, canonEq _, (hs _ hv).trans rfl⟩,
    fun v hv => ⟨_, hs o h, canon v, canonEq _, (hs _ hv).trans rfl⟩,
    fun v hv => ⟨_, hs o h, canon v, canonEq _, (hs _ hv).trans rfl⟩,
    fun v hv => ⟨_, hs o h, canon v, canonEq _, (hs _ hv).trans rfl⟩,
    fun v hv => ⟨_, hs o h, canon v, canonEq _, (hs _ hv).trans rfl⟩,
    fun v hv => ⟨_, hs o h, canon v, canonEq _, (hs _ hv).trans rfl⟩⟩
example := C38_FpLine sampleFpLine sampleFpLine_wf

theorem C38_FpRect [TextRule] (o : FpRect) (h : o.WF) (i : Nat) (nl : Bool) :
    (∀ v : Position, ({ o with start := v } : FpRect).WF →
      OnlyChanges (fun o => .ok (o.toSexpr i nl)) FpRect.fromSexpr o (fun v o => { o with start := v }) v v) ∧
    (∀ v : Position, ({ o with «end» := v } : FpRect).WF →
      OnlyChanges (fun o => .ok (o.toSexpr i nl)) FpRect.fromSexpr o (fun v o => { o with «end» := v }) v v) ∧
    (∀ v : Val, ({ o with layer := v } : FpRect).WF →
      OnlyChanges (fun o => .ok (o.toSexpr i nl)) FpRect.fromSexpr o (fun v o => { o with layer := v }) v v) ∧
    (∀ v : Option Val, ({ o with width := v } : FpRect).WF →
      OnlyChanges (fun o => .ok (o.toSexpr i nl)) FpRect.fromSexpr o (fun v o => { o with width := v }) v v) ∧
    (∀ v : Option Stroke, ({ o with stroke := v } : FpRect).WF →
      OnlyChanges (fun o => .ok (o.toSexpr i nl)) FpRect.fromSexpr o (fun v o => { o with stroke := v }) v v) ∧
    (∀ v : Option Val, ({ o with fill := v } : FpRect).WF →
      OnlyChanges (fun o => .ok (o.toSexpr i nl)) FpRect.fromSexpr o (fun v o => { o with fill := v }) v v) ∧
    (∀ v : Bool, ({ o with locked := v } : FpRect).WF →
      OnlyChanges (fun o => .ok (o.toSexpr i nl)) FpRect.fromSexpr o (fun v o => { o with locked := v }) v v) ∧
    (∀ v : Option Val, ({ o with tstamp := v } : FpRect).WF →
      OnlyChanges (fun o => .ok (o.toSexpr i nl)) FpRect.fromSexpr o (fun v o => { o with tstamp := v }) v v) := by
  have hs : ∀ o : FpRect, o.WF → (.ok (o.toSexpr i nl) >>= parseSexp >>= FpRect.fromSexpr) = .ok (canon o) := fun o h =>
    (Lexes.one fun _ _ hs => FpRect.lx h hs).loads (FpRect.from_toVal h)
  exact ⟨fun v hv => ⟨_, hs o h, canon v, canonEq _, (hs _ hv).trans rfl⟩,
    fun v hv => ⟨_, hs o h, canon v, canonEq _, (hs _ hv).trans rfl⟩,
    fun v hv => ⟨_, hs o h, canon v, canonEq _, (hs _ hv).trans rfl⟩,
    fun v hv => ⟨_, hs o h, canon v, canonEq _, (hs _ hv).trans rfl⟩,
    fun v hv => ⟨_, hs o h, canon v, canonEq _, (hs _ hv).trans rfl⟩,
    fun v hv => ⟨_, hs o h, canon v, canonEq _, (hs _ hv).trans rfl⟩,
    fun v hv => ⟨_, hs o h, canon v, canonEq _, (hs _ hv).trans rfl⟩,
    fun v hv => ⟨_, hs o h, canon v, canonEq _, (hs _ hv).trans rfl⟩⟩
example := C38_FpRect sampleFpRect sampleFpRect_wf

theorem C38_FpTextBox [TextRule] (o : FpTextBox) (h : o.WF) (i : Nat) (nl : Bool) :
    (∀ v : Bool, ({ o with locked := v } : FpTextBox).WF →
      OnlyChanges (fun o => o.toSexpr i nl) FpTextBox.fromSexpr o (fun v o => { o with locked := v }) v v) ∧
    (∀ v : Val, ({ o with text := v } : FpTextBox).WF →
      OnlyChanges (fun o => o.toSexpr i nl) FpTextBox.fromSexpr o (fun v o => { o with text := v }) v v) ∧
    (∀ v : Option Position, ({ o with start := v } : FpTextBox).WF →
      OnlyChanges (fun o => o.toSexpr i nl) FpTextBox.fromSexpr o (fun v o => { o with start := v }) v v) ∧
    (∀ v : Option Position, ({ o with «end» := v } : FpTextBox).WF →
      OnlyChanges (fun o => o.toSexpr i nl) FpTextBox.fromSexpr o (fun v o => { o with «end» := v }) v v) ∧
    (∀ v : List Position, ({ o with pts := v } : FpTextBox).WF →
      OnlyChanges (fun o => o.toSexpr i nl) FpTextBox.fromSexpr o (fun v o => { o with pts := v }) v v) ∧
    (∀ v : Option Val, ({ o with angle := v } : FpTextBox).WF →
      OnlyChanges (fun o => o.toSexpr i nl) FpTextBox.fromSexpr o (fun v o => { o with angle := v }) v v) ∧
    (∀ v : Val, ({ o with layer := v } : FpTextBox).WF →
      OnlyChanges (fun o => o.toSexpr i nl) FpTextBox.fromSexpr o (fun v o => { o with layer := v }) v v) ∧
    (∀ v : Option Val, ({ o with tstamp := v } : FpTextBox).WF →
      OnlyChanges (fun o => o.toSexpr i nl) FpTextBox.fromSexpr o (fun v o => { o with tstamp := v }) v v) ∧
    (∀ v : Option Effects, ({ o with effects := v } : FpTextBox).WF →
      OnlyChanges (fun o => o.toSexpr i nl) FpTextBox.fromSexpr o (fun v o => { o with effects := v }) v v) ∧
    (∀ v : Option Stroke, ({ o with stroke := v } : FpTextBox).WF →
      OnlyChanges (fun o => o.toSexpr i nl) FpTextBox.fromSexpr o (fun v o => { o with stroke := v }) v v) ∧
    (∀ v : Option RenderCache, ({ o with renderCache := v } : FpTextBox).WF →
      OnlyChanges (fun o => o.toSexpr i nl) FpTextBox.fromSexpr o (fun v o => { o with renderCache := v }) v v) := by
  have hs : ∀ o : FpTextBox, o.WF → (o.toSexpr i nl >>= parseSexp >>= FpTextBox.fromSexpr) = .ok (canon o) := fun o h =>
    (FpTextBox.lexes h i nl).loads (FpTextBox.from_toVal h)
  exact ⟨fun v hv => ⟨_, hs o h, canon v, canonEq _, (hs _ hv).trans rfl⟩,
    fun v hv => ⟨_, hs o h, canon v, canonEq _, (hs _ hv).trans rfl⟩,
    fun v hv => ⟨_, hs o h, canon v, canonEq _, (hs _ hv).trans rfl⟩,
    fun v hv => ⟨_, hs o h, canon v, canonEq _, (hs _ hv).trans rfl⟩,
    fun v hv => ⟨_, hs o h, canon v, canonEq _, (hs _ hv).trans rfl⟩,
    fun v hv => ⟨_, hs o h, canon v, canonEq _, (hs _ hv).trans rfl⟩,
    fun v hv => ⟨_, hs o h, canon v, canonEq _, (hs _ hv).trans rfl⟩,
    fun v hv => ⟨_, hs o h, canon v, canonEq _, (hs _ hv).trans rfl⟩,
    fun v hv => ⟨_, hs o h, canon v, canonEq _, (hs _ hv).trans rfl⟩,
    fun v hv => ⟨_, hs o h, canon v, canonEq _, (hs _ hv).trans rfl⟩,
    fun v hv => ⟨_, hs o h, canon v, canonEq _, (hs _ hv).trans rfl⟩⟩
example := C38_FpTextBox sampleFpTextBox sampleFpTextBox_wf

theorem C38_FpCircle [TextRule] (o : FpCircle) (h : o.WF) (i : Nat) (nl : Bool) :
    (∀ v : Position, ({ o with center := v } : FpCircle).WF →
      OnlyChanges (fun o => .ok (o.toSexpr i nl)) FpCircle.fromSexpr o (fun v o => { o with center := v }) v v) ∧
    (∀ v : Position, ({ o with «end» := v } : FpCircle).WF →
      OnlyChanges (fun o => .ok (o.toSexpr i nl)) FpCircle.fromSexpr o (fun v o => { o with «end» := v }) v v) ∧
    (∀ v : Val, ({ o with layer := v } : FpCircle).WF →
      OnlyChanges (fun o => .ok (o.toSexpr i nl)) FpCircle.fromSexpr o (fun v o => { o with layer := v }) v v) ∧
    (∀ v : Option Val, ({ o with width := v } : FpCircle).WF →
      OnlyChanges (fun o => .ok (o.toSexpr i nl)) FpCircle.fromSexpr o (fun v o => { o with width := v }) v v) ∧
    (∀ v : Option Stroke, ({ o with stroke := v } : FpCircle).WF →
      OnlyChanges (fun o => .ok (o.toSexpr i nl)) FpCircle.fromSexpr o (fun v o => { o with stroke := v }) v v) ∧
    (∀ v : Option Val, ({ o with fill := v } : FpCircle).WF →
      OnlyChanges (fun o => .ok (o.toSexpr i nl)) FpCircle.fromSexpr o (fun v o => { o with fill := v }) v v) ∧
    (∀ v : Bool, ({ o with locked := v } : FpCircle).WF →
      OnlyChanges (fun o => .ok (o.toSexpr i nl)) FpCircle.fromSexpr o (fun v o => { o with locked := v }) v v) ∧
    (∀ v : Option Val, ({ o with tstamp := v } : FpCircle).WF →
      OnlyChanges (fun o => .ok (o.toSexpr i nl)) FpCircle.fromSexpr o (fun v o => { o with tstamp := v }) v v) := by
  have hs : ∀ o : FpCircle, o.WF → (.ok (o.toSexpr i nl) >>= parseSexp >>= FpCircle.fromSexpr) = .ok (canon o) := fun o h =>
    (Lexes.one fun _ _ hs => FpCircle.lx h hs).loads (FpCircle.from_toVal h)
  exact ⟨fun v hv => ⟨_, hs o h, canon v, canonEq _, (hs _ hv).trans rfl⟩,
    fun v hv => ⟨_, hs o h, canon v, canonEq _, (hs _ hv).trans rfl⟩,
    fun v hv => ⟨_, hs o h, canon v, canonEq _, (hs _ hv).trans rfl⟩,
    fun v hv => ⟨_, hs o h, canon v, canonEq _, (hs _ hv).trans rfl⟩,
    fun v hv => ⟨_, hs o h, canon v, canonEq _, (hs _ hv).trans rfl⟩,
    fun v hv => ⟨_, hs o h, canon v, canonEq _, (hs _ hv).trans rfl⟩,
    fun v hv => ⟨_, hs o h, canon v, canonEq _, (hs _ hv).trans rfl⟩,
    fun v hv => ⟨_, hs o h, canon v, canonEq _, (hs _ hv).trans rfl⟩⟩
example := C38_FpCircle sampleFpCircle sampleFpCircle_wf

theorem C38_FpArc [TextRule] (o : FpArc) (h : o.WF) (i : Nat) (nl : Bool) :
    (∀ v : Position, ({ o with start := v } : FpArc).WF →
      OnlyChanges (fun o => .ok (o.toSexpr i nl)) FpArc.fromSexpr o (fun v o => { o with start := v }) v v) ∧
    (∀ v : Position, ({ o with mid := v } : FpArc).WF →
      OnlyChanges (fun o => .ok (o.toSexpr i nl)) FpArc.fromSexpr o (fun v o => { o with mid := v }) v v) ∧
    (∀ v : Position, ({ o with «end» := v } : FpArc).WF →
      OnlyChanges (fun o => .ok (o.toSexpr i nl)) FpArc.fromSexpr o (fun v o => { o with «end» := v }) v v) ∧
    (∀ v : Val, ({ o with layer := v } : FpArc).WF →
      OnlyChanges (fun o => .ok (o.toSexpr i nl)) FpArc.fromSexpr o (fun v o => { o with layer := v }) v v) ∧
    (∀ v : Option Val, ({ o with width := v } : FpArc).WF →
      OnlyChanges (fun o => .ok (o.toSexpr i nl)) FpArc.fromSexpr o (fun v o => { o with width := v }) v v) ∧
    (∀ v : Option Stroke, ({ o with stroke := v } : FpArc).WF →
      OnlyChanges (fun o => .ok (o.toSexpr i nl)) FpArc.fromSexpr o (fun v o => { o with stroke := v }) v v) ∧
    (∀ v : Bool, ({ o with locked := v } : FpArc).WF →
      OnlyChanges (fun o => .ok (o.toSexpr i nl)) FpArc.fromSexpr o (fun v o => { o with locked := v }) v v) ∧
    (∀ v : Option Val, ({ o with tstamp := v } : FpArc).WF →
      OnlyChanges (fun o => .ok (o.toSexpr i nl)) FpArc.fromSexpr o (fun v o => { o with tstamp := v }) v v) := by
  have hs : ∀ o : FpArc, o.WF → (.ok (o.toSexpr i nl) >>= parseSexp >>= FpArc.fromSexpr) = .ok (canon o) := fun o h =>
    (Lexes.one fun _ _ hs => FpArc.lx h hs).loads (FpArc.from_toVal h)
  exact ⟨fun v hv => ⟨_, hs o h, canon v, canonEq _, (hs _ hv).trans rfl⟩,
    fun v hv => ⟨_, hs o h, canon v, canonEq _, (hs _ hv).trans rfl⟩,
    fun v hv => ⟨_, hs o h, canon v, canonEq _, (hs _ hv).trans rfl⟩,
    fun v hv => ⟨_, hs o h, canon v, canonEq _, (hs _ hv).trans rfl⟩,
    fun v hv => ⟨_, hs o h, canon v, canonEq _, (hs _ hv).trans rfl⟩,
    fun v hv => ⟨_, hs o h, canon v, canonEq _, (hs _ hv).trans rfl⟩,
    fun v hv => ⟨_, hs o h, canon v, canonEq _, (hs _ hv).trans rfl⟩,
    fun v hv => ⟨_, hs o h, canon v, canonEq _, (hs _ hv).trans rfl⟩⟩
example := C38_FpArc sampleFpArc sampleFpArc_wf

theorem C38_FpPoly [TextRule] (o : FpPoly) (h : o.WF) (i : Nat) (nl : Bool) :
    (∀ v : Val, ({ o with layer := v } : FpPoly).WF →
      OnlyChanges (fun o => .ok (o.toSexpr i nl)) FpPoly.fromSexpr o (fun v o => { o with layer := v }) v v) ∧
    (∀ v : List Position, ({ o with coordinates := v } : FpPoly).WF →
      OnlyChanges (fun o => .ok (o.toSexpr i nl)) FpPoly.fromSexpr o (fun v o => { o with coordinates := v }) v v) ∧
    (∀ v : Option Val, ({ o with width := v } : FpPoly).WF →
      OnlyChanges (fun o => .ok (o.toSexpr i nl)) FpPoly.fromSexpr o (fun v o => { o with width := v }) v v) ∧
    (∀ v : Option Stroke, ({ o with stroke := v } : FpPoly).WF →
      OnlyChanges (fun o => .ok (o.toSexpr i nl)) FpPoly.fromSexpr o (fun v o => { o with stroke := v }) v v) ∧
    (∀ v : Option Val, ({ o with fill := v } : FpPoly).WF →
      OnlyChanges (fun o => .ok (o.toSexpr i nl)) FpPoly.fromSexpr o (fun v o => { o with fill := v }) v v) ∧
    (∀ v : Bool, ({ o with locked := v } : FpPoly).WF →
      OnlyChanges (fun o => .ok (o.toSexpr i nl)) FpPoly.fromSexpr o (fun v o => { o with locked := v }) v v) ∧
    (∀ v : Option Val, ({ o with tstamp := v } : FpPoly).WF →
      OnlyChanges (fun o => .ok (o.toSexpr i nl)) FpPoly.fromSexpr o (fun v o => { o with tstamp := v }) v v) := by
  have hs : ∀ o : FpPoly, o.WF → (.ok (o.toSexpr i nl) >>= parseSexp >>= FpPoly.fromSexpr) = .ok (canon o) := fun o h =>
    (Lexes.one fun _ _ hs => FpPoly.lx h hs).loads (FpPoly.from_toVal h)
  exact ⟨fun v hv => ⟨_, hs o h, canon v, canonEq _, (hs _ hv).trans rfl⟩,
    fun v hv => ⟨_, hs o h, canon v, canonEq _, (hs _ hv).trans rfl⟩,
    fun v hv => ⟨_, hs o h, canon v, canonEq _, (hs _ hv).trans rfl⟩,
    fun v hv => ⟨_, hs o h, canon v, canonEq _, (hs _ hv).trans rfl⟩,
    fun v hv => ⟨_, hs o h, canon v, canonEq _, (hs _ hv).trans rfl⟩,
    fun v hv => ⟨_, hs o h, canon v, canonEq _, (hs _ hv).trans rfl⟩,
    fun v hv => ⟨_, hs o h, canon v, canonEq _, (hs _ hv).trans rfl⟩⟩
example := C38_FpPoly sampleFpPoly sampleFpPoly_wf

theorem C38_FpCurve [TextRule] (o : FpCurve) (h : o.WF) (i : Nat) (nl : Bool) :
    (∀ v : List Position, ({ o with coordinates := v } : FpCurve).WF →
      OnlyChanges (fun o => .ok (o.toSexpr i nl)) FpCurve.fromSexpr o (fun v o => { o with coordinates := v }) v v) ∧
    (∀ v : Val, ({ o with layer := v } : FpCurve).WF →
      OnlyChanges (fun o => .ok (o.toSexpr i nl)) FpCurve.fromSexpr o (fun v o => { o with layer := v }) v v) ∧
    (∀ v : Option Val, ({ o with width := v } : FpCurve).WF →
      OnlyChanges (fun o => .ok (o.toSexpr i nl)) FpCurve.fromSexpr o (fun v o => { o with width := v }) v v) ∧
    (∀ v : Option Stroke, ({ o with stroke := v } : FpCurve).WF →
      OnlyChanges (fun o => .ok (o.toSexpr i nl)) FpCurve.fromSexpr o (fun v o => { o with stroke := v }) v v) ∧
    (∀ v : Bool, ({ o with locked := v } : FpCurve).WF →
      OnlyChanges (fun o => .ok (o.toSexpr i nl)) FpCurve.fromSexpr o (fun v o => { o with locked := v }) v v) ∧
    (∀ v : Option Val, ({ o with tstamp := v } : FpCurve).WF →
      OnlyChanges (fun o => .ok (o.toSexpr i nl)) FpCurve.fromSexpr o (fun v o => { o with tstamp := v }) v v) := by
  have hs : ∀ o : FpCurve, o.WF → (.ok (o.toSexpr i nl) >>= parseSexp >>= FpCurve.fromSexpr) = .ok (canon o) := fun o h =>
    (Lexes.one fun _ _ hs => FpCurve.lx h hs).loads (FpCurve.from_toVal h)
  exact ⟨fun v hv => ⟨_, hs o h, canon v, canonEq _, (hs _ hv).trans rfl⟩,
    fun v hv => ⟨_, hs o h, canon v, canonEq _, (hs _ hv).trans rfl⟩,
    fun v hv => ⟨_, hs o h, canon v, canonEq _, (hs _ hv).trans rfl⟩,
    fun v hv => ⟨_, hs o h, canon v, canonEq _, (hs _ hv).trans rfl⟩,
    fun v hv => ⟨_, hs o h, canon v, canonEq _, (hs _ hv).trans rfl⟩,
    fun v hv => ⟨_, hs o h, canon v, canonEq _, (hs _ hv).trans rfl⟩⟩
example := C38_FpCurve sampleFpCurve sampleFpCurve_wf

theorem C38_KeepoutSettings [TextRule] (o : KeepoutSettings) (h : o.WF) (i : Nat) (nl : Bool) :
    (∀ v : Val, ({ o with tracks := v } : KeepoutSettings).WF →
      OnlyChanges (fun o => .ok (o.toSexpr i nl)) KeepoutSettings.fromSexpr o (fun v o => { o with tracks := v }) v v) ∧
    (∀ v : Val, ({ o with vias := v } : KeepoutSettings).WF →
      OnlyChanges (fun o => .ok (o.toSexpr i nl)) KeepoutSettings.fromSexpr o (fun v o => { o with vias := v }) v v) ∧
    (∀ v : Val, ({ o with pads := v } : KeepoutSettings).WF →
      OnlyChanges (fun o => .ok (o.toSexpr i nl)) KeepoutSettings.fromSexpr o (fun v o => { o with pads := v }) v v) ∧
    (∀ v : Val, ({ o with copperpour := v } : KeepoutSettings).WF →
      OnlyChanges (fun o => .ok (o.toSexpr i nl)) KeepoutSettings.fromSexpr o (fun v o => { o with copperpour := v }) v v) ∧
    (∀ v : Val, ({ o with footprints := v } : KeepoutSettings).WF →
      OnlyChanges (fun o => .ok (o.toSexpr i nl)) KeepoutSettings.fromSexpr o (fun v o => { o with footprints := v }) v v) := by
  have hs : ∀ o : KeepoutSettings, o.WF → (.ok (o.toSexpr i nl) >>= parseSexp >>= KeepoutSettings.fromSexpr) = .ok (canon o) := fun o h =>
    (Lexes.one fun _ _ hs => KeepoutSettings.lx h hs).loads (KeepoutSettings.from_toVal h)
  exact ⟨fun v hv => ⟨_, hs o h, canon v, canonEq _, (hs _ hv).trans rfl⟩,
    fun v hv => ⟨_, hs o h, canon v, canonEq _, (hs _ hv).trans rfl⟩,
    fun v hv => ⟨_, hs o h, canon v, canonEq _, (hs _ hv).trans rfl⟩,
    fun v hv => ⟨_, hs o h, canon v, canonEq _, (hs _ hv).trans rfl⟩,
    fun v hv => ⟨_, hs o h, canon v, canonEq _, (hs _ hv).trans rfl⟩⟩
example := C38_KeepoutSettings sampleKeepoutSettings sampleKeepoutSettings_wf

theorem C38_FillSettings [TextRule] (o : FillSettings) (h : o.WF) (i : Nat) (nl : Bool) :
    (∀ v : Bool, ({ o with yes := v } : FillSettings).WF →
      OnlyChanges (fun o => .ok (o.toSexpr i nl)) FillSettings.fromSexpr o (fun v o => { o with yes := v }) v v) ∧
    (∀ v : Option Val, ({ o with mode := v } : FillSettings).WF →
      OnlyChanges (fun o => .ok (o.toSexpr i nl)) FillSettings.fromSexpr o (fun v o => { o with mode := v }) v v) ∧
    (∀ v : Option Val, ({ o with thermalGap := v } : FillSettings).WF →
      OnlyChanges (fun o => .ok (o.toSexpr i nl)) FillSettings.fromSexpr o (fun v o => { o with thermalGap := v }) v v) ∧
    (∀ v : Option Val, ({ o with thermalBridgeWidth := v } : FillSettings).WF →
      OnlyChanges (fun o => .ok (o.toSexpr i nl)) FillSettings.fromSexpr o (fun v o => { o with thermalBridgeWidth := v }) v v) ∧
    (∀ v : Option Val, ({ o with smoothingStyle := v } : FillSettings).WF →
      OnlyChanges (fun o => .ok (o.toSexpr i nl)) FillSettings.fromSexpr o (fun v o => { o with smoothingStyle := v }) v v) ∧
    (∀ v : Option Val, ({ o with smoothingRadius := v } : FillSettings).WF →
      OnlyChanges (fun o => .ok (o.toSexpr i nl)) FillSettings.fromSexpr o (fun v o => { o with smoothingRadius := v }) v v) ∧
    (∀ v : Option Val, ({ o with islandRemovalMode := v } : FillSettings).WF →
      OnlyChanges (fun o => .ok (o.toSexpr i nl)) FillSettings.fromSexpr o (fun v o => { o with islandRemovalMode := v }) v v) ∧
    (∀ v : Option Val, ({ o with islandAreaMin := v } : FillSettings).WF →
      OnlyChanges (fun o => .ok (o.toSexpr i nl)) FillSettings.fromSexpr o (fun v o => { o with islandAreaMin := v }) v v) ∧
    (∀ v : Option Val, ({ o with hatchThickness := v } : FillSettings).WF →
      OnlyChanges (fun o => .ok (o.toSexpr i nl)) FillSettings.fromSexpr o (fun v o => { o with hatchThickness := v }) v v) ∧
    (∀ v : Option Val, ({ o with hatchGap := v } : FillSettings).WF →
      OnlyChanges (fun o => .ok (o.toSexpr i nl)) FillSettings.fromSexpr o (fun v o => { o with hatchGap := v }) v v) ∧
    (∀ v : Option Val, ({ o with hatchOrientation := v } : FillSettings).WF →
      OnlyChanges (fun o => .ok (o.toSexpr i nl)) FillSettings.fromSexpr o (fun v o => { o with hatchOrientation := v }) v v) ∧
    (∀ v : Option Val, ({ o with hatchSmoothingLevel := v } : FillSettings).WF →
      OnlyChanges (fun o => .ok (o.toSexpr i nl)) FillSettings.fromSexpr o (fun v o => { o with hatchSmoothingLevel := v }) v v) ∧
    (∀ v : Option Val, ({ o with hatchSmoothingValue := v } : FillSettings).WF →
      OnlyChanges (fun o => .ok (o.toSexpr i nl)) FillSettings.fromSexpr o (fun v o => { o with hatchSmoothingValue := v }) v v) ∧
    (∀ v : Option Val, ({ o with hatchBorderAlgorithm := v } : FillSettings).WF →
      OnlyChanges (fun o => .ok (o.toSexpr i nl)) FillSettings.fromSexpr o (fun v o => { o with hatchBorderAlgorithm := v }) v v) ∧
    (∀ v : Option Val, ({ o with hatchMinHoleArea := v } : FillSettings).WF →
      OnlyChanges (fun o => .ok (o.toSexpr i nl)) FillSettings.fromSexpr o (fun v o => { o with hatchMinHoleArea := v }) v v) := by
  have hs : ∀ o : FillSettings, o.WF → (.ok (o.toSexpr i nl) >>= parseSexp >>= FillSettings.fromSexpr) = .ok (canon o) := fun o h =>
    (Lexes.one fun _ _ hs => FillSettings.lx h hs).loads (FillSettings.from_toVal h)
  exact ⟨fun v hv => ⟨_, hs o h, canon v, canonEq _, (hs _ hv).trans rfl⟩,
    fun v hv => ⟨_, hs o h, canon v, canonEq _, (hs _ hv).trans rfl⟩,
    fun v hv => ⟨_, hs o h, canon v, canonEq _, (hs _ hv).trans rfl⟩,
    fun v hv => ⟨_, hs o h, canon v, canonEq _, (hs _ hv).trans rfl⟩,
    fun v hv => ⟨_, hs o h, canon v, canonEq _, (hs _ hv).trans rfl⟩,
    fun v hv => ⟨_, hs o h, canon v, canonEq _, (hs _ hv).trans rfl⟩,
    fun v hv => ⟨_, hs o h, canon v, canonEq _, (hs _ hv).trans rfl⟩,
    fun v hv => ⟨_, hs o h, canon v, canonEq _, (hs _ hv).trans rfl⟩,
    fun v hv => ⟨_, hs o h, canon v, canonEq _, (hs _ hv).trans rfl⟩,
    fun v hv => ⟨_, hs o h, canon v, canonEq _, (hs _ hv).trans rfl⟩,
    fun v hv => ⟨_, hs o h, canon v, canonEq _, (hs _ hv).trans rfl⟩,
    fun v hv => ⟨_, hs o h, canon v, canonEq _, (hs _ hv).trans rfl⟩,
    fun v hv => ⟨_, hs o h, canon v, canonEq _, (hs _ hv).trans rfl⟩,
    fun v hv => ⟨_, hs o h, canon v, canonEq _, (hs _ hv).trans rfl⟩,
    fun v hv => ⟨_, hs o h, canon v, canonEq _, (hs _ hv).trans rfl⟩⟩
example := C38_FillSettings sampleFillSettings sampleFillSettings_wf

theorem C38_ZonePolygon [TextRule] (o : ZonePolygon) (h : o.WF) (i : Nat) (nl : Bool) :
    (∀ v : List Position, ({ o with coordinates := v } : ZonePolygon).WF →
      OnlyChanges (fun o => .ok (o.toSexpr i nl)) ZonePolygon.fromSexpr o (fun v o => { o with coordinates := v }) v v) := by
  have hs : ∀ o : ZonePolygon, o.WF → (.ok (o.toSexpr i nl) >>= parseSexp >>= ZonePolygon.fromSexpr) = .ok (canon o) := fun o h =>
    (Lexes.one fun _ _ hs => ZonePolygon.lx h hs).loads (ZonePolygon.from_toVal h)
  exact fun v hv => ⟨_, hs o h, canon v, canonEq _, (hs _ hv).trans rfl⟩
example := C38_ZonePolygon sampleZonePolygon sampleZonePolygon_wf

theorem C38_FilledPolygon [TextRule] (o : FilledPolygon) (h : o.WF) (i : Nat) (nl : Bool) :
    (∀ v : Val, ({ o with layer := v } : FilledPolygon).WF →
      OnlyChanges (fun o => .ok (o.toSexpr i nl)) FilledPolygon.fromSexpr o (fun v o => { o with layer := v }) v v) ∧
    (∀ v : Bool, ({ o with island := v } : FilledPolygon).WF →
      OnlyChanges (fun o => .ok (o.toSexpr i nl)) FilledPolygon.fromSexpr o (fun v o => { o with island := v }) v v) ∧
    (∀ v : List Position, ({ o with coordinates := v } : FilledPolygon).WF →
      OnlyChanges (fun o => .ok (o.toSexpr i nl)) FilledPolygon.fromSexpr o (fun v o => { o with coordinates := v }) v v) := by
  have hs : ∀ o : FilledPolygon, o.WF → (.ok (o.toSexpr i nl) >>= parseSexp >>= FilledPolygon.fromSexpr) = .ok (canon o) := fun o h =>
    (Lexes.one fun _ _ hs => FilledPolygon.lx h hs).loads (FilledPolygon.from_toVal h)
  exact ⟨fun v hv => ⟨_, hs o h, canon v, canonEq _, (hs _ hv).trans rfl⟩,
    fun v hv => ⟨_, hs o h, canon v, canonEq _, (hs _ hv).trans rfl⟩,
    fun v hv => ⟨_, hs o h, canon v, canonEq _, (hs _ hv).trans rfl⟩⟩
example := C38_FilledPolygon sampleFilledPolygon sampleFilledPolygon_wf

theorem C38_FillSegments [TextRule] (o : FillSegments) (h : o.WF) (i : Nat) (nl : Bool) :
    (∀ v : Val, ({ o with layer := v } : FillSegments).WF →
      OnlyChanges (fun o => .ok (o.toSexpr i nl)) FillSegments.fromSexpr o (fun v o => { o with layer := v }) v v) ∧
    (∀ v : List Position, ({ o with coordinates := v } : FillSegments).WF →
      OnlyChanges (fun o => .ok (o.toSexpr i nl)) FillSegments.fromSexpr o (fun v o => { o with coordinates := v }) v v) := by
  have hs : ∀ o : FillSegments, o.WF → (.ok (o.toSexpr i nl) >>= parseSexp >>= FillSegments.fromSexpr) = .ok (canon o) := fun o h =>
    (Lexes.one fun _ _ hs => FillSegments.lx h hs).loads (FillSegments.from_toVal h)
  exact ⟨fun v hv => ⟨_, hs o h, canon v, canonEq _, (hs _ hv).trans rfl⟩,
    fun v hv => ⟨_, hs o h, canon v, canonEq _, (hs _ hv).trans rfl⟩⟩
example := C38_FillSegments sampleFillSegments sampleFillSegments_wf

theorem C38_Zone [TextRule] (o : Zone) (h : o.WF) (i : Nat) (nl : Bool) :
    (∀ v : Bool, ({ o with locked := v } : Zone).WF →
      OnlyChanges (fun o => o.toSexpr i nl) Zone.fromSexpr o (fun v o => { o with locked := v }) v v) ∧
    (∀ v : Val, ({ o with net := v } : Zone).WF →
      OnlyChanges (fun o => o.toSexpr i nl) Zone.fromSexpr o (fun v o => { o with net := v }) v v) ∧
    (∀ v : Val, ({ o with netName := v } : Zone).WF →
      OnlyChanges (fun o => o.toSexpr i nl) Zone.fromSexpr o (fun v o => { o with netName := v }) v v) ∧
    (∀ v : List Val, ({ o with layers := v } : Zone).WF →
      OnlyChanges (fun o => o.toSexpr i nl) Zone.fromSexpr o (fun v o => { o with layers := v }) v v) ∧
    (∀ v : Option Val, ({ o with tstamp := v } : Zone).WF →
      OnlyChanges (fun o => o.toSexpr i nl) Zone.fromSexpr o (fun v o => { o with tstamp := v }) v v) ∧
    (∀ v : Option Val, ({ o with name := v } : Zone).WF →
      OnlyChanges (fun o => o.toSexpr i nl) Zone.fromSexpr o (fun v o => { o with name := v }) v v) ∧
    (∀ v : Hatch, ({ o with hatch := v } : Zone).WF →
      OnlyChanges (fun o => o.toSexpr i nl) Zone.fromSexpr o (fun v o => { o with hatch := v }) v v) ∧
    (∀ v : Option Val, ({ o with priority := v } : Zone).WF →
      OnlyChanges (fun o => o.toSexpr i nl) Zone.fromSexpr o (fun v o => { o with priority := v }) v v) ∧
    (∀ v : Option Val, ({ o with connectPads := v } : Zone).WF →
      OnlyChanges (fun o => o.toSexpr i nl) Zone.fromSexpr o (fun v o => { o with connectPads := v }) v v) ∧
    (∀ v : Val, ({ o with clearance := v } : Zone).WF →
      OnlyChanges (fun o => o.toSexpr i nl) Zone.fromSexpr o (fun v o => { o with clearance := v }) v v) ∧
    (∀ v : Val, ({ o with minThickness := v } : Zone).WF →
      OnlyChanges (fun o => o.toSexpr i nl) Zone.fromSexpr o (fun v o => { o with minThickness := v }) v v) ∧
    (∀ v : Option Val, ({ o with filledAreasThickness := v } : Zone).WF →
      OnlyChanges (fun o => o.toSexpr i nl) Zone.fromSexpr o (fun v o => { o with filledAreasThickness := v }) v v) ∧
    (∀ v : Option KeepoutSettings, ({ o with keepoutSettings := v } : Zone).WF →
      OnlyChanges (fun o => o.toSexpr i nl) Zone.fromSexpr o (fun v o => { o with keepoutSettings := v }) v v) ∧
    (∀ v : Option FillSettings, ({ o with fillSettings := v } : Zone).WF →
      OnlyChanges (fun o => o.toSexpr i nl) Zone.fromSexpr o (fun v o => { o with fillSettings := v }) v v) ∧
    (∀ v : List ZonePolygon, ({ o with polygons := v } : Zone).WF →
      OnlyChanges (fun o => o.toSexpr i nl) Zone.fromSexpr o (fun v o => { o with polygons := v }) v v) ∧
    (∀ v : List FilledPolygon, ({ o with filledPolygons := v } : Zone).WF →
      OnlyChanges (fun o => o.toSexpr i nl) Zone.fromSexpr o (fun v o => { o with filledPolygons := v }) v v) ∧
    (∀ v : Option FillSegments, ({ o with fillSegments := v } : Zone).WF →
      OnlyChanges (fun o => o.toSexpr i nl) Zone.fromSexpr o (fun v o => { o with fillSegments := v }) v v) := by
  have hs : ∀ o : Zone, o.WF → (o.toSexpr i nl >>= parseSexp >>= Zone.fromSexpr) = .ok (canon o) := fun o h =>
    (Zone.lexes h i nl).loads (Zone.from_toVal h)
  exact ⟨fun v hv => ⟨_, hs o h, canon v, canonEq _, (hs _ hv).trans rfl⟩,
    fun v hv => ⟨_, hs o h, canon v, canonEq _, (hs _ hv).trans rfl⟩,
    fun v hv => ⟨_, hs o h, canon v, canonEq _, (hs _ hv).trans rfl⟩,
    fun v hv => ⟨_, hs o h, canon v, canonEq _, (hs _ hv).trans rfl⟩,
    fun v hv => ⟨_, hs o h, canon v, canonEq _, (hs _ hv).trans rfl⟩,
    fun v hv => ⟨_, hs o h, canon v, canonEq _, (hs _ hv).trans rfl⟩,
    fun v hv => ⟨_, hs o h, canon v, canonEq _, (hs _ hv).trans rfl⟩,
    fun v hv => ⟨_, hs o h, canon v, canonEq _, (hs _ hv).trans rfl⟩,
    fun v hv => ⟨_, hs o h, canon v, canonEq _, (hs _ hv).trans rfl⟩,
    fun v hv => ⟨_, hs o h, canon v, canonEq _, (hs _ hv).trans rfl⟩,
    fun v hv => ⟨_, hs o h, canon v, canonEq _, (hs _ hv).trans rfl⟩,
    fun v hv => ⟨_, hs o h, canon v, canonEq _, (hs _ hv).trans rfl⟩,
    fun v hv => ⟨_, hs o h, canon v, canonEq _, (hs _ hv).trans rfl⟩,
    fun v hv => ⟨_, hs o h, canon v, canonEq _, (hs _ hv).trans rfl⟩,
    fun v hv => ⟨_, hs o h, canon v, canonEq _, (hs _ hv).trans rfl⟩,
    fun v hv => ⟨_, hs o h, canon v, canonEq _, (hs _ hv).trans rfl⟩,
    fun v hv => ⟨_, hs o h, canon v, canonEq _, (hs _ hv).trans rfl⟩⟩
example := C38_Zone sampleZone sampleZone_wf

theorem C38_Attributes [TextRule] (o : Attributes) (h : o.WF) (he : o.isDefault = false) (i : Nat) (nl : Bool) :
    (∀ v : Option Val, ({ o with type := v } : Attributes).WF → ({ o with type := v } : Attributes).isDefault = false →
      OnlyChanges (fun o => .ok (o.toSexpr i nl)) Attributes.fromSexpr o (fun v o => { o with type := v }) v v) ∧
    (∀ v : Bool, ({ o with boardOnly := v } : Attributes).WF → ({ o with boardOnly := v } : Attributes).isDefault = false →
      OnlyChanges (fun o => .ok (o.toSexpr i nl)) Attributes.fromSexpr o (fun v o => { o with boardOnly := v }) v v) ∧
    (∀ v : Bool, ({ o with excludeFromPosFiles := v } : Attributes).WF → ({ o with excludeFromPosFiles := v } : Attributes).isDefault = false →
      OnlyChanges (fun o => .ok (o.toSexpr i nl)) Attributes.fromSexpr o (fun v o => { o with excludeFromPosFiles := v }) v v) ∧
    (∀ v : Bool, ({ o with excludeFromBom := v } : Attributes).WF → ({ o with excludeFromBom := v } : Attributes).isDefault = false →
      OnlyChanges (fun o => .ok (o.toSexpr i nl)) Attributes.fromSexpr o (fun v o => { o with excludeFromBom := v }) v v) ∧
    (∀ v : Bool, ({ o with allowMissingCourtyard := v } : Attributes).WF → ({ o with allowMissingCourtyard := v } : Attributes).isDefault = false →
      OnlyChanges (fun o => .ok (o.toSexpr i nl)) Attributes.fromSexpr o (fun v o => { o with allowMissingCourtyard := v }) v v) := by
  have hs : ∀ o : Attributes, o.WF → o.isDefault = false → (.ok (o.toSexpr i nl) >>= parseSexp >>= Attributes.fromSexpr) = .ok (canon o) := fun o h he =>
    (Attributes.lexes h he i nl).loads (Attributes.from_toVal h)
  exact ⟨fun v hv he' => ⟨_, hs o h he, canon v, canonEq _, (hs _ hv he').trans rfl⟩,
    fun v hv he' => ⟨_, hs o h he, canon v, canonEq _, (hs _ hv he').trans rfl⟩,
    fun v hv he' => ⟨_, hs o h he, canon v, canonEq _, (hs _ hv he').trans rfl⟩,
    fun v hv he' => ⟨_, hs o h he, canon v, canonEq _, (hs _ hv he').trans rfl⟩,
    fun v hv he' => ⟨_, hs o h he, canon v, canonEq _, (hs _ hv he').trans rfl⟩⟩
example := C38_Attributes sampleAttributes sampleAttributes_wf rfl

theorem C38_Model [TextRule] (o : Model) (h : o.WF) (i : Nat) (nl : Bool) :
    (∀ v : Val, ({ o with path := v } : Model).WF →
      OnlyChanges (fun o => .ok (o.toSexpr i nl)) Model.fromSexpr o (fun v o => { o with path := v }) v v) ∧
    (∀ v : Coordinate, ({ o with pos := v } : Model).WF →
      OnlyChanges (fun o => .ok (o.toSexpr i nl)) Model.fromSexpr o (fun v o => { o with pos := v }) v v) ∧
    (∀ v : Coordinate, ({ o with scale := v } : Model).WF →
      OnlyChanges (fun o => .ok (o.toSexpr i nl)) Model.fromSexpr o (fun v o => { o with scale := v }) v v) ∧
    (∀ v : Coordinate, ({ o with rotate := v } : Model).WF →
      OnlyChanges (fun o => .ok (o.toSexpr i nl)) Model.fromSexpr o (fun v o => { o with rotate := v }) v v) ∧
    (∀ v : Bool, ({ o with hide := v } : Model).WF →
      OnlyChanges (fun o => .ok (o.toSexpr i nl)) Model.fromSexpr o (fun v o => { o with hide := v }) v v) ∧
    (∀ v : Option Val, ({ o with opacity := v } : Model).WF →
      OnlyChanges (fun o => .ok (o.toSexpr i nl)) Model.fromSexpr o (fun v o => { o with opacity := v }) v v) := by
  have hs : ∀ o : Model, o.WF → (.ok (o.toSexpr i nl) >>= parseSexp >>= Model.fromSexpr) = .ok (canon o) := fun o h =>
    (Lexes.one fun _ _ hs => Model.lx h hs).loads (Model.from_toVal h)
  exact ⟨fun v hv => ⟨_, hs o h, canon v, canonEq _, (hs _ hv).trans rfl⟩,
    fun v hv => ⟨_, hs o h, canon v, canonEq _, (hs _ hv).trans rfl⟩,
    fun v hv => ⟨_, hs o h, canon v, canonEq _, (hs _ hv).trans rfl⟩,
    fun v hv => ⟨_, hs o h, canon v, canonEq _, (hs _ hv).trans rfl⟩,
    fun v hv => ⟨_, hs o h, canon v, canonEq _, (hs _ hv).trans rfl⟩,
    fun v hv => ⟨_, hs o h, canon v, canonEq _, (hs _ hv).trans rfl⟩⟩
example := C38_Model sampleModel sampleModel_wf

theorem C38_DrillDefinition [TextRule] (o : DrillDefinition) (h : o.WF) (i : Nat) (nl : Bool) :
    (∀ v : Bool, ({ o with oval := v } : DrillDefinition).WF →
      OnlyChanges (fun o => .ok (o.toSexpr i nl)) DrillDefinition.fromSexpr o (fun v o => { o with oval := v }) v v) ∧
    (∀ v : Val, ({ o with diameter := v } : DrillDefinition).WF →
      OnlyChanges (fun o => .ok (o.toSexpr i nl)) DrillDefinition.fromSexpr o (fun v o => { o with diameter := v }) v v) ∧
    (∀ v : Option Val, ({ o with width := v } : DrillDefinition).WF →
      OnlyChanges (fun o => .ok (o.toSexpr i nl)) DrillDefinition.fromSexpr o (fun v o => { o with width := v }) v v) ∧
    (∀ v : Option Position, ({ o with offset := v } : DrillDefinition).WF →
      OnlyChanges (fun o => .ok (o.toSexpr i nl)) DrillDefinition.fromSexpr o (fun v o => { o with offset := v }) v v) := by
  have hs : ∀ o : DrillDefinition, o.WF → (.ok (o.toSexpr i nl) >>= parseSexp >>= DrillDefinition.fromSexpr) = .ok (canon o) := fun o h =>
    (Lexes.one fun _ _ hs => DrillDefinition.lx h hs).loads (DrillDefinition.from_toVal h)
  exact ⟨fun v hv => ⟨_, hs o h, canon v, canonEq _, (hs _ hv).trans rfl⟩,
    fun v hv => ⟨_, hs o h, canon v, canonEq _, (hs _ hv).trans rfl⟩,
    fun v hv => ⟨_, hs o h, canon v, canonEq _, (hs _ hv).trans rfl⟩,
    fun v hv => ⟨_, hs o h, canon v, canonEq _, (hs _ hv).trans rfl⟩⟩
example := C38_DrillDefinition sampleDrillDefinition sampleDrillDefinition_wf

theorem C38_PadOptions [TextRule] (o : PadOptions) (h : o.WF) (i : Nat) (nl : Bool) :
    (∀ v : Val, ({ o with clearance := v } : PadOptions).WF →
      OnlyChanges (fun o => .ok (o.toSexpr i nl)) PadOptions.fromSexpr o (fun v o => { o with clearance := v }) v v) ∧
    (∀ v : Val, ({ o with anchor := v } : PadOptions).WF →
      OnlyChanges (fun o => .ok (o.toSexpr i nl)) PadOptions.fromSexpr o (fun v o => { o with anchor := v }) v v) := by
  have hs : ∀ o : PadOptions, o.WF → (.ok (o.toSexpr i nl) >>= parseSexp >>= PadOptions.fromSexpr) = .ok (canon o) := fun o h =>
    (Lexes.one fun _ _ hs => PadOptions.lx h hs).loads (PadOptions.from_toVal h)
  exact ⟨fun v hv => ⟨_, hs o h, canon v, canonEq _, (hs _ hv).trans rfl⟩,
    fun v hv => ⟨_, hs o h, canon v, canonEq _, (hs _ hv).trans rfl⟩⟩
example := C38_PadOptions samplePadOptions samplePadOptions_wf

theorem C38_Pad [TextRule] (o : Pad) (h : o.WF) (i : Nat) (nl : Bool) :
    (∀ v : Val, ({ o with number := v } : Pad).WF →
      OnlyChanges (fun o => o.toSexpr i nl) Pad.fromSexpr o (fun v o => { o with number := v }) v v) ∧
    (∀ v : Val, ({ o with type := v } : Pad).WF →
      OnlyChanges (fun o => o.toSexpr i nl) Pad.fromSexpr o (fun v o => { o with type := v }) v v) ∧
    (∀ v : Val, ({ o with shape := v } : Pad).WF →
      OnlyChanges (fun o => o.toSexpr i nl) Pad.fromSexpr o (fun v o => { o with shape := v }) v v) ∧
    (∀ v : Position, ({ o with position := v } : Pad).WF →
      OnlyChanges (fun o => o.toSexpr i nl) Pad.fromSexpr o (fun v o => { o with position := v }) v v) ∧
    (∀ v : Bool, ({ o with locked := v } : Pad).WF →
      OnlyChanges (fun o => o.toSexpr i nl) Pad.fromSexpr o (fun v o => { o with locked := v }) v v) ∧
    (∀ v : Position, ({ o with size := v } : Pad).WF →
      OnlyChanges (fun o => o.toSexpr i nl) Pad.fromSexpr o (fun v o => { o with size := v }) v v) ∧
    (∀ v : Option DrillDefinition, ({ o with drill := v } : Pad).WF →
      OnlyChanges (fun o => o.toSexpr i nl) Pad.fromSexpr o (fun v o => { o with drill := v }) v v) ∧
    (∀ v : List Val, ({ o with layers := v } : Pad).WF →
      OnlyChanges (fun o => o.toSexpr i nl) Pad.fromSexpr o (fun v o => { o with layers := v }) v v) ∧
    (∀ v : Option Val, ({ o with property := v } : Pad).WF →
      OnlyChanges (fun o => o.toSexpr i nl) Pad.fromSexpr o (fun v o => { o with property := v }) v v) ∧
    (∀ v : Bool, ({ o with removeUnusedLayers := v } : Pad).WF →
      OnlyChanges (fun o => o.toSexpr i nl) Pad.fromSexpr o (fun v o => { o with removeUnusedLayers := v }) v v) ∧
    (∀ v : Bool, ({ o with keepEndLayers := v } : Pad).WF →
      OnlyChanges (fun o => o.toSexpr i nl) Pad.fromSexpr o (fun v o => { o with keepEndLayers := v }) v v) ∧
    (∀ v : Option Val, ({ o with roundrectRatio := v } : Pad).WF →
      OnlyChanges (fun o => o.toSexpr i nl) Pad.fromSexpr o (fun v o => { o with roundrectRatio := v }) v v) ∧
    (∀ v : Option Val, ({ o with chamferRatio := v } : Pad).WF →
      OnlyChanges (fun o => o.toSexpr i nl) Pad.fromSexpr o (fun v o => { o with chamferRatio := v }) v v) ∧
    (∀ v : List Val, ({ o with chamfer := v } : Pad).WF →
      OnlyChanges (fun o => o.toSexpr i nl) Pad.fromSexpr o (fun v o => { o with chamfer := v }) v v) ∧
    (∀ v : Option Net, ({ o with net := v } : Pad).WF →
      OnlyChanges (fun o => o.toSexpr i nl) Pad.fromSexpr o (fun v o => { o with net := v }) v v) ∧
    (∀ v : Option Val, ({ o with tstamp := v } : Pad).WF →
      OnlyChanges (fun o => o.toSexpr i nl) Pad.fromSexpr o (fun v o => { o with tstamp := v }) v v) ∧
    (∀ v : Option Val, ({ o with pinFunction := v } : Pad).WF →
      OnlyChanges (fun o => o.toSexpr i nl) Pad.fromSexpr o (fun v o => { o with pinFunction := v }) v v) ∧
    (∀ v : Option Val, ({ o with pinType := v } : Pad).WF →
      OnlyChanges (fun o => o.toSexpr i nl) Pad.fromSexpr o (fun v o => { o with pinType := v }) v v) ∧
    (∀ v : Option Val, ({ o with dieLength := v } : Pad).WF →
      OnlyChanges (fun o => o.toSexpr i nl) Pad.fromSexpr o (fun v o => { o with dieLength := v }) v v) ∧
    (∀ v : Option Val, ({ o with solderMaskMargin := v } : Pad).WF →
      OnlyChanges (fun o => o.toSexpr i nl) Pad.fromSexpr o (fun v o => { o with solderMaskMargin := v }) v v) ∧
    (∀ v : Option Val, ({ o with solderPasteMargin := v } : Pad).WF →
      OnlyChanges (fun o => o.toSexpr i nl) Pad.fromSexpr o (fun v o => { o with solderPasteMargin := v }) v v) ∧
    (∀ v : Option Val, ({ o with solderPasteMarginRatio := v } : Pad).WF →
      OnlyChanges (fun o => o.toSexpr i nl) Pad.fromSexpr o (fun v o => { o with solderPasteMarginRatio := v }) v v) ∧
    (∀ v : Option Val, ({ o with clearance := v } : Pad).WF →
      OnlyChanges (fun o => o.toSexpr i nl) Pad.fromSexpr o (fun v o => { o with clearance := v }) v v) ∧
    (∀ v : Option Val, ({ o with zoneConnect := v } : Pad).WF →
      OnlyChanges (fun o => o.toSexpr i nl) Pad.fromSexpr o (fun v o => { o with zoneConnect := v }) v v) ∧
    (∀ v : Option Val, ({ o with thermalWidth := v } : Pad).WF →
      OnlyChanges (fun o => o.toSexpr i nl) Pad.fromSexpr o (fun v o => { o with thermalWidth := v }) v v) ∧
    (∀ v : Option Val, ({ o with thermalGap := v } : Pad).WF →
      OnlyChanges (fun o => o.toSexpr i nl) Pad.fromSexpr o (fun v o => { o with thermalGap := v }) v v) ∧
    (∀ v : Option PadOptions, ({ o with customPadOptions := v } : Pad).WF →
      OnlyChanges (fun o => o.toSexpr i nl) Pad.fromSexpr o (fun v o => { o with customPadOptions := v }) v v) ∧
    (∀ v : List GrItem, ({ o with customPadPrimitives := v } : Pad).WF →
      OnlyChanges (fun o => o.toSexpr i nl) Pad.fromSexpr o (fun v o => { o with customPadPrimitives := v }) v v) := by
  have hs : ∀ o : Pad, o.WF → (o.toSexpr i nl >>= parseSexp >>= Pad.fromSexpr) = .ok (canon o) := fun o h =>
    (Pad.lexes h i nl).loads (Pad.from_toVal h)
  exact ⟨fun v hv => ⟨_, hs o h, canon v, canonEq _, (hs _ hv).trans rfl⟩,
    fun v hv => ⟨_, hs o h, canon v, canonEq _, (hs _ hv).trans rfl⟩,
    fun v hv => ⟨_, hs o h, canon v, canonEq _, (hs _ hv).trans rfl⟩,
    fun v hv => ⟨_, hs o h, canon v, canonEq _, (hs _ hv).trans rfl⟩,
    fun v hv => ⟨_, hs o h, canon v, canonEq _, (hs _ hv).trans rfl⟩,
    fun v hv => ⟨_, hs o h, canon v, canonEq _, (hs _ hv).trans rfl⟩,
    fun v hv => ⟨_, hs o h, canon v, canonEq _, (hs _ hv).trans rfl⟩,
    fun v hv => ⟨_, hs o h, canon v, canonEq _, (hs _ hv).trans rfl⟩,
    fun v hv => ⟨_, hs o h, canon v, canonEq _, (hs _ hv).trans rfl⟩,
    fun v hv => ⟨_, hs o h, canon v, canonEq _, (hs _ hv).trans rfl⟩,
    fun v hv => ⟨_, hs o h, canon v, canonEq _, (hs _ hv).trans rfl⟩,
    fun v hv => ⟨_, hs o h, canon v, canonEq _, (hs _ hv).trans rfl⟩,
    fun v hv => ⟨_, hs o h, canon v, canonEq _, (hs _ hv).trans rfl⟩,
    fun v hv => ⟨_, hs o h, canon v, canonEq _, (hs _ hv).trans rfl⟩,
    fun v hv => ⟨_, hs o h, canon v, canonEq _, (hs _ hv).trans rfl⟩,
    fun v hv => ⟨_, hs o h, canon v, canonEq _, (hs _ hv).trans rfl⟩,
    fun v hv => ⟨_, hs o h, canon v, canonEq _, (hs _ hv).trans rfl⟩,
    fun v hv => ⟨_, hs o h, canon v, canonEq _, (hs _ hv).trans rfl⟩,
    fun v hv => ⟨_, hs o h, canon v, canonEq _, (hs _ hv).trans rfl⟩,
    fun v hv => ⟨_, hs o h, canon v, canonEq _, (hs _ hv).trans rfl⟩,
    fun v hv => ⟨_, hs o h, canon v, canonEq _, (hs _ hv).trans rfl⟩,
    fun v hv => ⟨_, hs o h, canon v, canonEq _, (hs _ hv).trans rfl⟩,
    fun v hv => ⟨_, hs o h, canon v, canonEq _, (hs _ hv).trans rfl⟩,
    fun v hv => ⟨_, hs o h, canon v, canonEq _, (hs _ hv).trans rfl⟩,
    fun v hv => ⟨_, hs o h, canon v, canonEq _, (hs _ hv).trans rfl⟩,
    fun v hv => ⟨_, hs o h, canon v, canonEq _, (hs _ hv).trans rfl⟩,
    fun v hv => ⟨_, hs o h, canon v, canonEq _, (hs _ hv).trans rfl⟩,
    fun v hv => ⟨_, hs o h, canon v, canonEq _, (hs _ hv).trans rfl⟩⟩
example := C38_Pad samplePad samplePad_wf

theorem C38_Footprint [TextRule] (o : Footprint) (h : o.WF) (tedit : Val) (i : Nat) (nl lf : Bool) :
    (∀ v : Option Val, ({ o with libraryNickname := v } : Footprint).WF →
      OnlyChanges (fun o => o.toSexpr i nl lf) (Footprint.fromSexpr tedit) o (fun v o => { o with libraryNickname := v }) v v) ∧
    (∀ v : Option Val, ({ o with entryName := v } : Footprint).WF →
      OnlyChanges (fun o => o.toSexpr i nl lf) (Footprint.fromSexpr tedit) o (fun v o => { o with entryName := v }) v v) ∧
    (∀ v : Option Val, ({ o with version := v } : Footprint).WF →
      OnlyChanges (fun o => o.toSexpr i nl lf) (Footprint.fromSexpr tedit) o (fun v o => { o with version := v }) v v) ∧
    (∀ v : Option Val, ({ o with generator := v } : Footprint).WF →
      OnlyChanges (fun o => o.toSexpr i nl lf) (Footprint.fromSexpr tedit) o (fun v o => { o with generator := v }) v v) ∧
    (∀ v : Bool, ({ o with locked := v } : Footprint).WF →
      OnlyChanges (fun o => o.toSexpr i nl lf) (Footprint.fromSexpr tedit) o (fun v o => { o with locked := v }) v v) ∧
    (∀ v : Bool, ({ o with placed := v } : Footprint).WF →
      OnlyChanges (fun o => o.toSexpr i nl lf) (Footprint.fromSexpr tedit) o (fun v o => { o with placed := v }) v v) ∧
    (∀ v : Val, ({ o with layer := v } : Footprint).WF →
      OnlyChanges (fun o => o.toSexpr i nl lf) (Footprint.fromSexpr tedit) o (fun v o => { o with layer := v }) v v) ∧
    (∀ v : Val, ({ o with tedit := v } : Footprint).WF →
      OnlyChanges (fun o => o.toSexpr i nl lf) (Footprint.fromSexpr tedit) o (fun v o => { o with tedit := v }) v v) ∧
    (∀ v : Option Val, ({ o with tstamp := v } : Footprint).WF →
      OnlyChanges (fun o => o.toSexpr i nl lf) (Footprint.fromSexpr tedit) o (fun v o => { o with tstamp := v }) v v) ∧
    (∀ v : Option Position, ({ o with position := v } : Footprint).WF →
      OnlyChanges (fun o => o.toSexpr i nl lf) (Footprint.fromSexpr tedit) o (fun v o => { o with position := v }) v v) ∧
    (∀ v : Option Val, ({ o with description := v } : Footprint).WF →
      OnlyChanges (fun o => o.toSexpr i nl lf) (Footprint.fromSexpr tedit) o (fun v o => { o with description := v }) v v) ∧
    (∀ v : Option Val, ({ o with tags := v } : Footprint).WF →
      OnlyChanges (fun o => o.toSexpr i nl lf) (Footprint.fromSexpr tedit) o (fun v o => { o with tags := v }) v v) ∧
    (∀ v : Dict Val, ({ o with properties := v } : Footprint).WF →
      OnlyChanges (fun o => o.toSexpr i nl lf) (Footprint.fromSexpr tedit) o (fun v o => { o with properties := v }) v v) ∧
    (∀ v : Option Val, ({ o with path := v } : Footprint).WF →
      OnlyChanges (fun o => o.toSexpr i nl lf) (Footprint.fromSexpr tedit) o (fun v o => { o with path := v }) v v) ∧
    (∀ v : Option Val, ({ o with autoplaceCost90 := v } : Footprint).WF →
      OnlyChanges (fun o => o.toSexpr i nl lf) (Footprint.fromSexpr tedit) o (fun v o => { o with autoplaceCost90 := v }) v v) ∧
    (∀ v : Option Val, ({ o with autoplaceCost180 := v } : Footprint).WF →
      OnlyChanges (fun o => o.toSexpr i nl lf) (Footprint.fromSexpr tedit) o (fun v o => { o with autoplaceCost180 := v }) v v) ∧
    (∀ v : Option Val, ({ o with solderMaskMargin := v } : Footprint).WF →
      OnlyChanges (fun o => o.toSexpr i nl lf) (Footprint.fromSexpr tedit) o (fun v o => { o with solderMaskMargin := v }) v v) ∧
    (∀ v : Option Val, ({ o with solderPasteMargin := v } : Footprint).WF →
      OnlyChanges (fun o => o.toSexpr i nl lf) (Footprint.fromSexpr tedit) o (fun v o => { o with solderPasteMargin := v }) v v) ∧
    (∀ v : Option Val, ({ o with solderPasteRatio := v } : Footprint).WF →
      OnlyChanges (fun o => o.toSexpr i nl lf) (Footprint.fromSexpr tedit) o (fun v o => { o with solderPasteRatio := v }) v v) ∧
    (∀ v : Option Val, ({ o with clearance := v } : Footprint).WF →
      OnlyChanges (fun o => o.toSexpr i nl lf) (Footprint.fromSexpr tedit) o (fun v o => { o with clearance := v }) v v) ∧
    (∀ v : Option Val, ({ o with zoneConnect := v } : Footprint).WF →
      OnlyChanges (fun o => o.toSexpr i nl lf) (Footprint.fromSexpr tedit) o (fun v o => { o with zoneConnect := v }) v v) ∧
    (∀ v : Option Val, ({ o with thermalWidth := v } : Footprint).WF →
      OnlyChanges (fun o => o.toSexpr i nl lf) (Footprint.fromSexpr tedit) o (fun v o => { o with thermalWidth := v }) v v) ∧
    (∀ v : Option Val, ({ o with thermalGap := v } : Footprint).WF →
      OnlyChanges (fun o => o.toSexpr i nl lf) (Footprint.fromSexpr tedit) o (fun v o => { o with thermalGap := v }) v v) ∧
    (∀ v : Attributes, ({ o with attributes := v } : Footprint).WF →
      OnlyChanges (fun o => o.toSexpr i nl lf) (Footprint.fromSexpr tedit) o (fun v o => { o with attributes := v }) v v) ∧
    (∀ v : List Val, ({ o with privateLayers := v } : Footprint).WF →
      OnlyChanges (fun o => o.toSexpr i nl lf) (Footprint.fromSexpr tedit) o (fun v o => { o with privateLayers := v }) v v) ∧
    (∀ v : List Val, ({ o with netTiePadGroups := v } : Footprint).WF →
      OnlyChanges (fun o => o.toSexpr i nl lf) (Footprint.fromSexpr tedit) o (fun v o => { o with netTiePadGroups := v }) v v) ∧
    (∀ v : List FpItem, ({ o with graphicItems := v } : Footprint).WF →
      OnlyChanges (fun o => o.toSexpr i nl lf) (Footprint.fromSexpr tedit) o (fun v o => { o with graphicItems := v }) v v) ∧
    (∀ v : List Pad, ({ o with pads := v } : Footprint).WF →
      OnlyChanges (fun o => o.toSexpr i nl lf) (Footprint.fromSexpr tedit) o (fun v o => { o with pads := v }) v v) ∧
    (∀ v : List Zone, ({ o with zones := v } : Footprint).WF →
      OnlyChanges (fun o => o.toSexpr i nl lf) (Footprint.fromSexpr tedit) o (fun v o => { o with zones := v }) v v) ∧
    (∀ v : List Group, ({ o with groups := v } : Footprint).WF →
      OnlyChanges (fun o => o.toSexpr i nl lf) (Footprint.fromSexpr tedit) o (fun v o => { o with groups := v }) v v) ∧
    (∀ v : List Model, ({ o with models := v } : Footprint).WF →
      OnlyChanges (fun o => o.toSexpr i nl lf) (Footprint.fromSexpr tedit) o (fun v o => { o with models := v }) v v) := by
  have hs : ∀ o : Footprint, o.WF → (o.toSexpr i nl lf >>= parseSexp >>= (Footprint.fromSexpr tedit)) = .ok (canon { o with filePath := none }) := fun o h =>
    (Footprint.lexes h i nl lf).loads (Footprint.from_toVal h tedit)
  exact ⟨fun v hv => ⟨_, hs o h, canon v, canonEq _, (hs _ hv).trans rfl⟩,
    fun v hv => ⟨_, hs o h, canon v, canonEq _, (hs _ hv).trans rfl⟩,
    fun v hv => ⟨_, hs o h, canon v, canonEq _, (hs _ hv).trans rfl⟩,
    fun v hv => ⟨_, hs o h, canon v, canonEq _, (hs _ hv).trans rfl⟩,
    fun v hv => ⟨_, hs o h, canon v, canonEq _, (hs _ hv).trans rfl⟩,
    fun v hv => ⟨_, hs o h, canon v, canonEq _, (hs _ hv).trans rfl⟩,
    fun v hv => ⟨_, hs o h, canon v, canonEq _, (hs _ hv).trans rfl⟩,
    fun v hv => ⟨_, hs o h, canon v, canonEq _, (hs _ hv).trans rfl⟩,
    fun v hv => ⟨_, hs o h, canon v, canonEq _, (hs _ hv).trans rfl⟩,
    fun v hv => ⟨_, hs o h, canon v, canonEq _, (hs _ hv).trans rfl⟩,
    fun v hv => ⟨_, hs o h, canon v, canonEq _, (hs _ hv).trans rfl⟩,
    fun v hv => ⟨_, hs o h, canon v, canonEq _, (hs _ hv).trans rfl⟩,
    fun v hv => ⟨_, hs o h, canon v, canonEq _, (hs _ hv).trans rfl⟩,
    fun v hv => ⟨_, hs o h, canon v, canonEq _, (hs _ hv).trans rfl⟩,
    fun v hv => ⟨_, hs o h, canon v, canonEq _, (hs _ hv).trans rfl⟩,
    fun v hv => ⟨_, hs o h, canon v, canonEq _, (hs _ hv).trans rfl⟩,
    fun v hv => ⟨_, hs o h, canon v, canonEq _, (hs _ hv).trans rfl⟩,
    fun v hv => ⟨_, hs o h, canon v, canonEq _, (hs _ hv).trans rfl⟩,
    fun v hv => ⟨_, hs o h, canon v, canonEq _, (hs _ hv).trans rfl⟩,
    fun v hv => ⟨_, hs o h, canon v, canonEq _, (hs _ hv).trans rfl⟩,
    fun v hv => ⟨_, hs o h, canon v, canonEq _, (hs _ hv).trans rfl⟩,
    fun v hv => ⟨_, hs o h, canon v, canonEq _, (hs _ hv).trans rfl⟩,
    fun v hv => ⟨_, hs o h, canon v, canonEq _, (hs _ hv).trans rfl⟩,
    fun v hv => ⟨_, hs o h, canon v, canonEq _, (hs _ hv).trans rfl⟩,
    fun v hv => ⟨_, hs o h, canon v, canonEq _, (hs _ hv).trans rfl⟩,
    fun v hv => ⟨_, hs o h, canon v, canonEq _, (hs _ hv).trans rfl⟩,
    fun v hv => ⟨_, hs o h, canon v, canonEq _, (hs _ hv).trans rfl⟩,
    fun v hv => ⟨_, hs o h, canon v, canonEq _, (hs _ hv).trans rfl⟩,
    fun v hv => ⟨_, hs o h, canon v, canonEq _, (hs _ hv).trans rfl⟩,
    fun v hv => ⟨_, hs o h, canon v, canonEq _, (hs _ hv).trans rfl⟩,
    fun v hv => ⟨_, hs o h, canon v, canonEq _, (hs _ hv).trans rfl⟩⟩
example := C38_Footprint sampleFootprint sampleFootprint_wf (.str k!"5f12ab34")

theorem C38_GeneralSettings [TextRule] (o : GeneralSettings) (h : o.WF) (i : Nat) (nl : Bool) :
    (∀ v : Val, ({ o with thickness := v } : GeneralSettings).WF →
      OnlyChanges (fun o => .ok (o.toSexpr i nl)) GeneralSettings.fromSexpr o (fun v o => { o with thickness := v }) v v) := by
  have hs : ∀ o : GeneralSettings, o.WF → (.ok (o.toSexpr i nl) >>= parseSexp >>= GeneralSettings.fromSexpr) = .ok (canon o) := fun o h =>
    (Lexes.one fun _ _ hs => GeneralSettings.lx h hs).loads (GeneralSettings.from_toVal h)
  exact fun v hv => ⟨_, hs o h, canon v, canonEq _, (hs _ hv).trans rfl⟩
example := C38_GeneralSettings sampleGeneralSettings sampleGeneralSettings_wf

theorem C38_LayerToken [TextRule] (o : LayerToken) (h : o.WF) (i : Nat) (nl : Bool) :
    (∀ v : Val, ({ o with ordinal := v } : LayerToken).WF →
      OnlyChanges (fun o => .ok (o.toSexpr i nl)) LayerToken.fromSexpr o (fun v o => { o with ordinal := v }) v v) ∧
    (∀ v : Val, ({ o with name := v } : LayerToken).WF →
      OnlyChanges (fun o => .ok (o.toSexpr i nl)) LayerToken.fromSexpr o (fun v o => { o with name := v }) v v) ∧
    (∀ v : Val, ({ o with type := v } : LayerToken).WF →
      OnlyChanges (fun o => .ok (o.toSexpr i nl)) LayerToken.fromSexpr o (fun v o => { o with type := v }) v v) ∧
    (∀ v : Option Val, ({ o with userName := v } : LayerToken).WF →
      OnlyChanges (fun o => .ok (o.toSexpr i nl)) LayerToken.fromSexpr o (fun v o => { o with userName := v }) v v) := by
  have hs : ∀ o : LayerToken, o.WF → (.ok (o.toSexpr i nl) >>= parseSexp >>= LayerToken.fromSexpr) = .ok (canon o) := fun o h =>
    (Lexes.one fun _ _ hs => LayerToken.lx h hs).loads LayerToken.from_toVal
  exact ⟨fun v hv => ⟨_, hs o h, canon v, canonEq _, (hs _ hv).trans rfl⟩,
    fun v hv => ⟨_, hs o h, canon v, canonEq _, (hs _ hv).trans rfl⟩,
    fun v hv => ⟨_, hs o h, canon v, canonEq _, (hs _ hv).trans rfl⟩,
    fun v hv => ⟨_, hs o h, canon v, canonEq _, (hs _ hv).trans rfl⟩⟩
example := C38_LayerToken sampleLayerToken sampleLayerToken_wf

theorem C38_StackupLayer [TextRule] (o : StackupLayer) (h : o.WF) (i : Nat) (nl : Bool) :
    (∀ v : Val, ({ o with name := v } : StackupLayer).WF →
      OnlyChanges (fun o => .ok (o.toSexpr i nl)) StackupLayer.fromSexpr o (fun v o => { o with name := v }) v v) ∧
    (∀ v : Val, ({ o with type := v } : StackupLayer).WF →
      OnlyChanges (fun o => .ok (o.toSexpr i nl)) StackupLayer.fromSexpr o (fun v o => { o with type := v }) v v) ∧
    (∀ v : Option Val, ({ o with color := v } : StackupLayer).WF →
      OnlyChanges (fun o => .ok (o.toSexpr i nl)) StackupLayer.fromSexpr o (fun v o => { o with color := v }) v v) ∧
    (∀ v : Option Val, ({ o with thickness := v } : StackupLayer).WF →
      OnlyChanges (fun o => .ok (o.toSexpr i nl)) StackupLayer.fromSexpr o (fun v o => { o with thickness := v }) v v) ∧
    (∀ v : Option Val, ({ o with material := v } : StackupLayer).WF →
      OnlyChanges (fun o => .ok (o.toSexpr i nl)) StackupLayer.fromSexpr o (fun v o => { o with material := v }) v v) ∧
    (∀ v : Option Val, ({ o with epsilonR := v } : StackupLayer).WF →
      OnlyChanges (fun o => .ok (o.toSexpr i nl)) StackupLayer.fromSexpr o (fun v o => { o with epsilonR := v }) v v) ∧
    (∀ v : Option Val, ({ o with lossTangent := v } : StackupLayer).WF →
      OnlyChanges (fun o => .ok (o.toSexpr i nl)) StackupLayer.fromSexpr o (fun v o => { o with lossTangent := v }) v v) ∧
    (∀ v : List StackupSubLayer, ({ o with subLayers := v } : StackupLayer).WF →
      OnlyChanges (fun o => .ok (o.toSexpr i nl)) StackupLayer.fromSexpr o (fun v o => { o with subLayers := v }) v v) := by
  have hs : ∀ o : StackupLayer, o.WF → (.ok (o.toSexpr i nl) >>= parseSexp >>= StackupLayer.fromSexpr) = .ok (canon o) := fun o h =>
    (Lexes.one fun _ _ hs => StackupLayer.lx h hs).loads StackupLayer.from_toVal
  exact ⟨fun v hv => ⟨_, hs o h, canon v, canonEq _, (hs _ hv).trans rfl⟩,
    fun v hv => ⟨_, hs o h, canon v, canonEq _, (hs _ hv).trans rfl⟩,
    fun v hv => ⟨_, hs o h, canon v, canonEq _, (hs _ hv).trans rfl⟩,
    fun v hv => ⟨_, hs o h, canon v, canonEq _, (hs _ hv).trans rfl⟩,
    fun v hv => ⟨_, hs o h, canon v, canonEq _, (hs _ hv).trans rfl⟩,
    fun v hv => ⟨_, hs o h, canon v, canonEq _, (hs _ hv).trans rfl⟩,
    fun v hv => ⟨_, hs o h, canon v, canonEq _, (hs _ hv).trans rfl⟩,
    fun v hv => ⟨_, hs o h, canon v, canonEq _, (hs _ hv).trans rfl⟩⟩
example := C38_StackupLayer sampleStackupLayer sampleStackupLayer_wf

theorem C38_Stackup [TextRule] (o : Stackup) (h : o.WF) (i : Nat) (nl : Bool) :
    (∀ v : List StackupLayer, ({ o with layers := v } : Stackup).WF →
      OnlyChanges (fun o => .ok (o.toSexpr i nl)) Stackup.fromSexpr o (fun v o => { o with layers := v }) v v) ∧
    (∀ v : Option Val, ({ o with copperFinish := v } : Stackup).WF →
      OnlyChanges (fun o => .ok (o.toSexpr i nl)) Stackup.fromSexpr o (fun v o => { o with copperFinish := v }) v v) ∧
    (∀ v : Option Val, ({ o with dielectricContraints := v } : Stackup).WF →
      OnlyChanges (fun o => .ok (o.toSexpr i nl)) Stackup.fromSexpr o (fun v o => { o with dielectricContraints := v }) v v) ∧
    (∀ v : Option Val, ({ o with edgeConnector := v } : Stackup).WF →
      OnlyChanges (fun o => .ok (o.toSexpr i nl)) Stackup.fromSexpr o (fun v o => { o with edgeConnector := v }) v v) ∧
    (∀ v : Bool, ({ o with castellatedPads := v } : Stackup).WF →
      OnlyChanges (fun o => .ok (o.toSexpr i nl)) Stackup.fromSexpr o (fun v o => { o with castellatedPads := v }) v v) ∧
    (∀ v : Bool, ({ o with edgePlating := v } : Stackup).WF →
      OnlyChanges (fun o => .ok (o.toSexpr i nl)) Stackup.fromSexpr o (fun v o => { o with edgePlating := v }) v v) := by
  have hs : ∀ o : Stackup, o.WF → (.ok (o.toSexpr i nl) >>= parseSexp >>= Stackup.fromSexpr) = .ok (canon o) := fun o h =>
    (Lexes.one fun _ _ hs => Stackup.lx h hs).loads (Stackup.from_toVal h)
  exact ⟨fun v hv => ⟨_, hs o h, canon v, canonEq _, (hs _ hv).trans rfl⟩,
    fun v hv => ⟨_, hs o h, canon v, canonEq _, (hs _ hv).trans rfl⟩,
    fun v hv => ⟨_, hs o h, canon v, canonEq _, (hs _ hv).trans rfl⟩,
    fun v hv => ⟨_, hs o h, canon v, canonEq _, (hs _ hv).trans rfl⟩,
    fun v hv => ⟨_, hs o h, canon v, canonEq _, (hs _ hv).trans rfl⟩,
    fun v hv => ⟨_, hs o h, canon v, canonEq _, (hs _ hv).trans rfl⟩⟩
example := C38_Stackup sampleStackup sampleStackup_wf

theorem C38_PlotSettings_partial [TextRule] (o : PlotSettings) (h : o.WF) (i : Nat) (nl : Bool) :
    (∀ v : Val, ({ o with layerSelection := v } : PlotSettings).WF →
      OnlyChanges (fun o => o.toSexpr i nl) PlotSettings.fromSexpr o (fun v o => { o with layerSelection := v }) v v) ∧
    (∀ v : Option Val, ({ o with plotOnAllLayersSelection := v } : PlotSettings).WF →
      OnlyChanges (fun o => o.toSexpr i nl) PlotSettings.fromSexpr o (fun v o => { o with plotOnAllLayersSelection := v }) v v) ∧
    (∀ v : Bool, ({ o with disableApertMacros := v } : PlotSettings).WF →
      OnlyChanges (fun o => o.toSexpr i nl) PlotSettings.fromSexpr o (fun v o => { o with disableApertMacros := v }) v v) ∧
    (∀ v : Bool, ({ o with useGerberExtensions := v } : PlotSettings).WF →
      OnlyChanges (fun o => o.toSexpr i nl) PlotSettings.fromSexpr o (fun v o => { o with useGerberExtensions := v }) v v) ∧
    (∀ v : Bool, ({ o with useGerberAttributes := v } : PlotSettings).WF →
      OnlyChanges (fun o => o.toSexpr i nl) PlotSettings.fromSexpr o (fun v o => { o with useGerberAttributes := v }) v v) ∧
    (∀ v : Bool, ({ o with useGerberAdvancedAttributes := v } : PlotSettings).WF →
      OnlyChanges (fun o => o.toSexpr i nl) PlotSettings.fromSexpr o (fun v o => { o with useGerberAdvancedAttributes := v }) v v) ∧
    (∀ v : Bool, ({ o with createGerberJobFile := v } : PlotSettings).WF →
      OnlyChanges (fun o => o.toSexpr i nl) PlotSettings.fromSexpr o (fun v o => { o with createGerberJobFile := v }) v v) ∧
    (∀ v : Option Val, ({ o with dashedLineDashRatio := v } : PlotSettings).WF →
      OnlyChanges (fun o => o.toSexpr i nl) PlotSettings.fromSexpr o (fun v o => { o with dashedLineDashRatio := v }) v v) ∧
    (∀ v : Option Val, ({ o with dashedLineGapRatio := v } : PlotSettings).WF →
      OnlyChanges (fun o => o.toSexpr i nl) PlotSettings.fromSexpr o (fun v o => { o with dashedLineGapRatio := v }) v v) ∧
    (∀ v : Option Bool, ({ o with svgUseInch := v } : PlotSettings).WF →
      OnlyChanges (fun o => o.toSexpr i nl) PlotSettings.fromSexpr o (fun v o => { o with svgUseInch := v }) v v) ∧
    (∀ v : Val, ({ o with svgPrecision := v } : PlotSettings).WF →
      OnlyChanges (fun o => o.toSexpr i nl) PlotSettings.fromSexpr o (fun v o => { o with svgPrecision := v }) v v) ∧
    (∀ v : Option Bool, ({ o with excludeEdgeLayer := v } : PlotSettings).WF →
      OnlyChanges (fun o => o.toSexpr i nl) PlotSettings.fromSexpr o (fun v o => { o with excludeEdgeLayer := v }) v v) ∧
    (∀ v : Bool, ({ o with plotFameRef := v } : PlotSettings).WF →
      OnlyChanges (fun o => o.toSexpr i nl) PlotSettings.fromSexpr o (fun v o => { o with plotFameRef := v }) v v) ∧
    (∀ v : Bool, ({ o with viasOnMask := v } : PlotSettings).WF →
      OnlyChanges (fun o => o.toSexpr i nl) PlotSettings.fromSexpr o (fun v o => { o with viasOnMask := v }) v v) ∧
    (∀ v : Val, ({ o with mode := v } : PlotSettings).WF →
      OnlyChanges (fun o => o.toSexpr i nl) PlotSettings.fromSexpr o (fun v o => { o with mode := v }) v v) ∧
    (∀ v : Val, ({ o with hpglPenNumber := v } : PlotSettings).WF →
      OnlyChanges (fun o => o.toSexpr i nl) PlotSettings.fromSexpr o (fun v o => { o with hpglPenNumber := v }) v v) ∧
    (∀ v : Val, ({ o with hpglPenSpeed := v } : PlotSettings).WF →
      OnlyChanges (fun o => o.toSexpr i nl) PlotSettings.fromSexpr o (fun v o => { o with hpglPenSpeed := v }) v v) ∧
    (∀ v : Val, ({ o with hpglPenDiameter := v } : PlotSettings).WF →
      OnlyChanges (fun o => o.toSexpr i nl) PlotSettings.fromSexpr o (fun v o => { o with hpglPenDiameter := v }) v v) ∧
    (∀ v : Bool, ({ o with dxfPolygonMode := v } : PlotSettings).WF →
      OnlyChanges (fun o => o.toSexpr i nl) PlotSettings.fromSexpr o (fun v o => { o with dxfPolygonMode := v }) v v) ∧
    (∀ v : Bool, ({ o with dxfImperialUnits := v } : PlotSettings).WF →
      OnlyChanges (fun o => o.toSexpr i nl) PlotSettings.fromSexpr o (fun v o => { o with dxfImperialUnits := v }) v v) ∧
    (∀ v : Bool, ({ o with dxfUsePcbnewFont := v } : PlotSettings).WF →
      OnlyChanges (fun o => o.toSexpr i nl) PlotSettings.fromSexpr o (fun v o => { o with dxfUsePcbnewFont := v }) v v) ∧
    (∀ v : Bool, ({ o with psNegative := v } : PlotSettings).WF →
      OnlyChanges (fun o => o.toSexpr i nl) PlotSettings.fromSexpr o (fun v o => { o with psNegative := v }) v v) ∧
    (∀ v : Bool, ({ o with psA4Output := v } : PlotSettings).WF →
      OnlyChanges (fun o => o.toSexpr i nl) PlotSettings.fromSexpr o (fun v o => { o with psA4Output := v }) v v) ∧
    (∀ v : Bool, ({ o with plotReference := v } : PlotSettings).WF →
      OnlyChanges (fun o => o.toSexpr i nl) PlotSettings.fromSexpr o (fun v o => { o with plotReference := v }) v v) ∧
    (∀ v : Bool, ({ o with plotValue := v } : PlotSettings).WF →
      OnlyChanges (fun o => o.toSexpr i nl) PlotSettings.fromSexpr o (fun v o => { o with plotValue := v }) v v) ∧
    (∀ v : Bool, ({ o with plotInvisibleText := v } : PlotSettings).WF →
      OnlyChanges (fun o => o.toSexpr i nl) PlotSettings.fromSexpr o (fun v o => { o with plotInvisibleText := v }) v v) ∧
    (∀ v : Bool, ({ o with sketchPadsOnFab := v } : PlotSettings).WF →
      OnlyChanges (fun o => o.toSexpr i nl) PlotSettings.fromSexpr o (fun v o => { o with sketchPadsOnFab := v }) v v) ∧
    (∀ v : Bool, ({ o with subtractMaskFromSilk := v } : PlotSettings).WF →
      OnlyChanges (fun o => o.toSexpr i nl) PlotSettings.fromSexpr o (fun v o => { o with subtractMaskFromSilk := v }) v v) ∧
    (∀ v : Val, ({ o with outputFormat := v } : PlotSettings).WF →
      OnlyChanges (fun o => o.toSexpr i nl) PlotSettings.fromSexpr o (fun v o => { o with outputFormat := v }) v v) ∧
    (∀ v : Bool, ({ o with mirror := v } : PlotSettings).WF →
      OnlyChanges (fun o => o.toSexpr i nl) PlotSettings.fromSexpr o (fun v o => { o with mirror := v }) v v) ∧
    (∀ v : Val, ({ o with drillShape := v } : PlotSettings).WF →
      OnlyChanges (fun o => o.toSexpr i nl) PlotSettings.fromSexpr o (fun v o => { o with drillShape := v }) v v) ∧
    (∀ v : Val, ({ o with scaleSelection := v } : PlotSettings).WF →
      OnlyChanges (fun o => o.toSexpr i nl) PlotSettings.fromSexpr o (fun v o => { o with scaleSelection := v }) v v) ∧
    (∀ v : Val, ({ o with outputDirectory := v } : PlotSettings).WF →
      OnlyChanges (fun o => o.toSexpr i nl) PlotSettings.fromSexpr o (fun v o => { o with outputDirectory := v }) v v) := by
  have hs : ∀ o : PlotSettings, o.WF → (o.toSexpr i nl >>= parseSexp >>= PlotSettings.fromSexpr) = .ok (canon o.asRead) := fun o h =>
    (PlotSettings.lexes h _ _).loads (PlotSettings.from_toVal h)
  exact ⟨fun v hv => ⟨_, hs o h, canon v, canonEq _, (hs _ hv).trans rfl⟩,
    fun v hv => ⟨_, hs o h, canon v, canonEq _, (hs _ hv).trans rfl⟩,
    fun v hv => ⟨_, hs o h, canon v, canonEq _, (hs _ hv).trans rfl⟩,
    fun v hv => ⟨_, hs o h, canon v, canonEq _, (hs _ hv).trans rfl⟩,
    fun v hv => ⟨_, hs o h, canon v, canonEq _, (hs _ hv).trans rfl⟩,
    fun v hv => ⟨_, hs o h, canon v, canonEq _, (hs _ hv).trans rfl⟩,
    fun v hv => ⟨_, hs o h, canon v, canonEq _, (hs _ hv).trans rfl⟩,
    fun v hv => ⟨_, hs o h, canon v, canonEq _, (hs _ hv).trans rfl⟩,
    fun v hv => ⟨_, hs o h, canon v, canonEq _, (hs _ hv).trans rfl⟩,
    fun v hv => ⟨_, hs o h, canon v, canonEq _, (hs _ hv).trans rfl⟩,
    fun v hv => ⟨_, hs o h, canon v, canonEq _, (hs _ hv).trans rfl⟩,
    fun v hv => ⟨_, hs o h, canon v, canonEq _, (hs _ hv).trans rfl⟩,
    fun v hv => ⟨_, hs o h, canon v, canonEq _, (hs _ hv).trans rfl⟩,
    fun v hv => ⟨_, hs o h, canon v, canonEq _, (hs _ hv).trans rfl⟩,
    fun v hv => ⟨_, hs o h, canon v, canonEq _, (hs _ hv).trans rfl⟩,
    fun v hv => ⟨_, hs o h, canon v, canonEq _, (hs _ hv).trans rfl⟩,
    fun v hv => ⟨_, hs o h, canon v, canonEq _, (hs _ hv).trans rfl⟩,
    fun v hv => ⟨_, hs o h, canon v, canonEq _, (hs _ hv).trans rfl⟩,
    fun v hv => ⟨_, hs o h, canon v, canonEq _, (hs _ hv).trans rfl⟩,
    fun v hv => ⟨_, hs o h, canon v, canonEq _, (hs _ hv).trans rfl⟩,
    fun v hv => ⟨_, hs o h, canon v, canonEq _, (hs _ hv).trans rfl⟩,
    fun v hv => ⟨_, hs o h, canon v, canonEq _, (hs _ hv).trans rfl⟩,
    fun v hv => ⟨_, hs o h, canon v, canonEq _, (hs _ hv).trans rfl⟩,
    fun v hv => ⟨_, hs o h, canon v, canonEq _, (hs _ hv).trans rfl⟩,
    fun v hv => ⟨_, hs o h, canon v, canonEq _, (hs _ hv).trans rfl⟩,
    fun v hv => ⟨_, hs o h, canon v, canonEq _, (hs _ hv).trans rfl⟩,
    fun v hv => ⟨_, hs o h, canon v, canonEq _, (hs _ hv).trans rfl⟩,
    fun v hv => ⟨_, hs o h, canon v, canonEq _, (hs _ hv).trans rfl⟩,
    fun v hv => ⟨_, hs o h, canon v, canonEq _, (hs _ hv).trans rfl⟩,
    fun v hv => ⟨_, hs o h, canon v, canonEq _, (hs _ hv).trans rfl⟩,
    fun v hv => ⟨_, hs o h, canon v, canonEq _, (hs _ hv).trans rfl⟩,
    fun v hv => ⟨_, hs o h, canon v, canonEq _, (hs _ hv).trans rfl⟩,
    fun v hv => ⟨_, hs o h, canon v, canonEq _, (hs _ hv).trans rfl⟩⟩
example := C38_PlotSettings_partial samplePlotSettings samplePlotSettings_wf

theorem C38_SetupData_partial [TextRule] (o : SetupData) (h : o.WF) (i : Nat) (nl : Bool) :
    (∀ v : Option Stackup, ({ o with stackup := v } : SetupData).WF →
      OnlyChanges (fun o => o.toSexpr i nl) SetupData.fromSexpr o (fun v o => { o with stackup := v }) v v) ∧
    (∀ v : Val, ({ o with packToMaskClearance := v } : SetupData).WF →
      OnlyChanges (fun o => o.toSexpr i nl) SetupData.fromSexpr o (fun v o => { o with packToMaskClearance := v }) v v) ∧
    (∀ v : Option Val, ({ o with solderMaskMinWidth := v } : SetupData).WF →
      OnlyChanges (fun o => o.toSexpr i nl) SetupData.fromSexpr o (fun v o => { o with solderMaskMinWidth := v }) v v) ∧
    (∀ v : Option Val, ({ o with padToPasteClearance := v } : SetupData).WF →
      OnlyChanges (fun o => o.toSexpr i nl) SetupData.fromSexpr o (fun v o => { o with padToPasteClearance := v }) v v) ∧
    (∀ v : Option Val, ({ o with padToPasteClearanceRatio := v } : SetupData).WF →
      OnlyChanges (fun o => o.toSexpr i nl) SetupData.fromSexpr o (fun v o => { o with padToPasteClearanceRatio := v }) v v) ∧
    (∀ v : Option Position, ({ o with auxAxisOrigin := v } : SetupData).WF →
      OnlyChanges (fun o => o.toSexpr i nl) SetupData.fromSexpr o (fun v o => { o with auxAxisOrigin := v }) v v) ∧
    (∀ v : Option Position, ({ o with gridOrigin := v } : SetupData).WF →
      OnlyChanges (fun o => o.toSexpr i nl) SetupData.fromSexpr o (fun v o => { o with gridOrigin := v }) v v) ∧
    (∀ v : Option PlotSettings, ({ o with plotSettings := v } : SetupData).WF →
      OnlyChanges (fun o => o.toSexpr i nl) SetupData.fromSexpr o (fun v o => { o with plotSettings := v }) v (v.map fun p => { p with useAuxOrigin := false })) := by
  have hs : ∀ o : SetupData, o.WF → (o.toSexpr i nl >>= parseSexp >>= SetupData.fromSexpr) = .ok (canon o.asRead) := fun o h =>
    (SetupData.lexes h _ _).loads (SetupData.from_toVal h)
  exact ⟨fun v hv => ⟨_, hs o h, canon v, canonEq _, (hs _ hv).trans rfl⟩,
    fun v hv => ⟨_, hs o h, canon v, canonEq _, (hs _ hv).trans rfl⟩,
    fun v hv => ⟨_, hs o h, canon v, canonEq _, (hs _ hv).trans rfl⟩,
    fun v hv => ⟨_, hs o h, canon v, canonEq _, (hs _ hv).trans rfl⟩,
    fun v hv => ⟨_, hs o h, canon v, canonEq _, (hs _ hv).trans rfl⟩,
    fun v hv => ⟨_, hs o h, canon v, canonEq _, (hs _ hv).trans rfl⟩,
    fun v hv => ⟨_, hs o h, canon v, canonEq _, (hs _ hv).trans rfl⟩,
    fun v hv => ⟨_, hs o h, canon (v.map PlotSettings.asRead), canonEq ((v.map PlotSettings.asRead)), hs _ hv⟩⟩
example := C38_SetupData_partial sampleSetupData sampleSetupData_wf

theorem C38_Segment [TextRule] (o : Segment) (h : o.WF) (i : Nat) (nl : Bool) :
    (∀ v : Position, ({ o with start := v } : Segment).WF →
      OnlyChanges (fun o => .ok (o.toSexpr i nl)) Segment.fromSexpr o (fun v o => { o with start := v }) v v) ∧
    (∀ v : Position, ({ o with «end» := v } : Segment).WF →
      OnlyChanges (fun o => .ok (o.toSexpr i nl)) Segment.fromSexpr o (fun v o => { o with «end» := v }) v v) ∧
    (∀ v : Val, ({ o with width := v } : Segment).WF →
      OnlyChanges (fun o => .ok (o.toSexpr i nl)) Segment.fromSexpr o (fun v o => { o with width := v }) v v) ∧
    (∀ v : Val, ({ o with layer := v } : Segment).WF →
      OnlyChanges (fun o => .ok (o.toSexpr i nl)) Segment.fromSexpr o (fun v o => { o with layer := v }) v v) ∧
    (∀ v : Bool, ({ o with locked := v } : Segment).WF →
      OnlyChanges (fun o => .ok (o.toSexpr i nl)) Segment.fromSexpr o (fun v o => { o with locked := v }) v v) ∧
    (∀ v : Val, ({ o with net := v } : Segment).WF →
      OnlyChanges (fun o => .ok (o.toSexpr i nl)) Segment.fromSexpr o (fun v o => { o with net := v }) v v) ∧
    (∀ v : Val, ({ o with tstamp := v } : Segment).WF →
      OnlyChanges (fun o => .ok (o.toSexpr i nl)) Segment.fromSexpr o (fun v o => { o with tstamp := v }) v v) := by
  have hs : ∀ o : Segment, o.WF → (.ok (o.toSexpr i nl) >>= parseSexp >>= Segment.fromSexpr) = .ok (canon o) := fun o h =>
    (Lexes.one fun _ _ hs => Segment.lx h hs).loads (Segment.from_toVal h)
  exact ⟨fun v hv => ⟨_, hs o h, canon v, canonEq _, (hs _ hv).trans rfl⟩,
    fun v hv => ⟨_, hs o h, canon v, canonEq _, (hs _ hv).trans rfl⟩,
    fun v hv => ⟨_, hs o h, canon v, canonEq _, (hs _ hv).trans rfl⟩,
    fun v hv => ⟨_, hs o h, canon v, canonEq _, (hs _ hv).trans rfl⟩,
    fun v hv => ⟨_, hs o h, canon v, canonEq _, (hs _ hv).trans rfl⟩,
    fun v hv => ⟨_, hs o h, canon v, canonEq _, (hs _ hv).trans rfl⟩,
    fun v hv => ⟨_, hs o h, canon v, canonEq _, (hs _ hv).trans rfl⟩⟩
example := C38_Segment sampleSegment sampleSegment_wf

theorem C38_Via [TextRule] (o : Via) (h : o.WF) (i : Nat) (nl : Bool) :
    (∀ v : Option Val, ({ o with type := v } : Via).WF →
      OnlyChanges (fun o => .ok (o.toSexpr i nl)) Via.fromSexpr o (fun v o => { o with type := v }) v v) ∧
    (∀ v : Bool, ({ o with locked := v } : Via).WF →
      OnlyChanges (fun o => .ok (o.toSexpr i nl)) Via.fromSexpr o (fun v o => { o with locked := v }) v v) ∧
    (∀ v : Position, ({ o with position := v } : Via).WF →
      OnlyChanges (fun o => .ok (o.toSexpr i nl)) Via.fromSexpr o (fun v o => { o with position := v }) v v) ∧
    (∀ v : Val, ({ o with size := v } : Via).WF →
      OnlyChanges (fun o => .ok (o.toSexpr i nl)) Via.fromSexpr o (fun v o => { o with size := v }) v v) ∧
    (∀ v : Val, ({ o with drill := v } : Via).WF →
      OnlyChanges (fun o => .ok (o.toSexpr i nl)) Via.fromSexpr o (fun v o => { o with drill := v }) v v) ∧
    (∀ v : List Val, ({ o with layers := v } : Via).WF →
      OnlyChanges (fun o => .ok (o.toSexpr i nl)) Via.fromSexpr o (fun v o => { o with layers := v }) v v) ∧
    (∀ v : Bool, ({ o with removeUnusedLayers := v } : Via).WF →
      OnlyChanges (fun o => .ok (o.toSexpr i nl)) Via.fromSexpr o (fun v o => { o with removeUnusedLayers := v }) v v) ∧
    (∀ v : Bool, ({ o with keepEndLayers := v } : Via).WF →
      OnlyChanges (fun o => .ok (o.toSexpr i nl)) Via.fromSexpr o (fun v o => { o with keepEndLayers := v }) v v) ∧
    (∀ v : Bool, ({ o with free := v } : Via).WF →
      OnlyChanges (fun o => .ok (o.toSexpr i nl)) Via.fromSexpr o (fun v o => { o with free := v }) v v) ∧
    (∀ v : Val, ({ o with net := v } : Via).WF →
      OnlyChanges (fun o => .ok (o.toSexpr i nl)) Via.fromSexpr o (fun v o => { o with net := v }) v v) ∧
    (∀ v : Option Val, ({ o with tstamp := v } : Via).WF →
      OnlyChanges (fun o => .ok (o.toSexpr i nl)) Via.fromSexpr o (fun v o => { o with tstamp := v }) v v) := by
  have hs : ∀ o : Via, o.WF → (.ok (o.toSexpr i nl) >>= parseSexp >>= Via.fromSexpr) = .ok (canon o) := fun o h =>
    (Lexes.one fun _ _ hs => Via.lx h hs).loads (Via.from_toVal h)
  exact ⟨fun v hv => ⟨_, hs o h, canon v, canonEq _, (hs _ hv).trans rfl⟩,
    fun v hv => ⟨_, hs o h, canon v, canonEq _, (hs _ hv).trans rfl⟩,
    fun v hv => ⟨_, hs o h, canon v, canonEq _, (hs _ hv).trans rfl⟩,
    fun v hv => ⟨_, hs o h, canon v, canonEq _, (hs _ hv).trans rfl⟩,
    fun v hv => ⟨_, hs o h, canon v, canonEq _, (hs _ hv).trans rfl⟩,
    fun v hv => ⟨_, hs o h, canon v, canonEq _, (hs _ hv).trans rfl⟩,
    fun v hv => ⟨_, hs o h, canon v, canonEq _, (hs _ hv).trans rfl⟩,
    fun v hv => ⟨_, hs o h, canon v, canonEq _, (hs _ hv).trans rfl⟩,
    fun v hv => ⟨_, hs o h, canon v, canonEq _, (hs _ hv).trans rfl⟩,
    fun v hv => ⟨_, hs o h, canon v, canonEq _, (hs _ hv).trans rfl⟩,
    fun v hv => ⟨_, hs o h, canon v, canonEq _, (hs _ hv).trans rfl⟩⟩
example := C38_Via sampleVia sampleVia_wf

theorem C38_TraceArc [TextRule] (o : TraceArc) (h : o.WF) (i : Nat) (nl : Bool) :
    (∀ v : Position, ({ o with start := v } : TraceArc).WF →
      OnlyChanges (fun o => .ok (o.toSexpr i nl)) TraceArc.fromSexpr o (fun v o => { o with start := v }) v v) ∧
    (∀ v : Position, ({ o with mid := v } : TraceArc).WF →
      OnlyChanges (fun o => .ok (o.toSexpr i nl)) TraceArc.fromSexpr o (fun v o => { o with mid := v }) v v) ∧
    (∀ v : Position, ({ o with «end» := v } : TraceArc).WF →
      OnlyChanges (fun o => .ok (o.toSexpr i nl)) TraceArc.fromSexpr o (fun v o => { o with «end» := v }) v v) ∧
    (∀ v : Val, ({ o with width := v } : TraceArc).WF →
      OnlyChanges (fun o => .ok (o.toSexpr i nl)) TraceArc.fromSexpr o (fun v o => { o with width := v }) v v) ∧
    (∀ v : Val, ({ o with layer := v } : TraceArc).WF →
      OnlyChanges (fun o => .ok (o.toSexpr i nl)) TraceArc.fromSexpr o (fun v o => { o with layer := v }) v v) ∧
    (∀ v : Bool, ({ o with locked := v } : TraceArc).WF →
      OnlyChanges (fun o => .ok (o.toSexpr i nl)) TraceArc.fromSexpr o (fun v o => { o with locked := v }) v v) ∧
    (∀ v : Val, ({ o with net := v } : TraceArc).WF →
      OnlyChanges (fun o => .ok (o.toSexpr i nl)) TraceArc.fromSexpr o (fun v o => { o with net := v }) v v) ∧
    (∀ v : Option Val, ({ o with tstamp := v } : TraceArc).WF →
      OnlyChanges (fun o => .ok (o.toSexpr i nl)) TraceArc.fromSexpr o (fun v o => { o with tstamp := v }) v v) := by
  have hs : ∀ o : TraceArc, o.WF → (.ok (o.toSexpr i nl) >>= parseSexp >>= TraceArc.fromSexpr) = .ok (canon o) := fun o h =>
    (Lexes.one fun _ _ hs => TraceArc.lx h hs).loads (TraceArc.from_toVal h)
  exact ⟨fun v hv => ⟨_, hs o h, canon v, canonEq _, (hs _ hv).trans rfl⟩,
    fun v hv => ⟨_, hs o h, canon v, canonEq _, (hs _ hv).trans rfl⟩,
    fun v hv => ⟨_, hs o h, canon v, canonEq _, (hs _ hv).trans rfl⟩,
    fun v hv => ⟨_, hs o h, canon v, canonEq _, (hs _ hv).trans rfl⟩,
    fun v hv => ⟨_, hs o h, canon v, canonEq _, (hs _ hv).trans rfl⟩,
    fun v hv => ⟨_, hs o h, canon v, canonEq _, (hs _ hv).trans rfl⟩,
    fun v hv => ⟨_, hs o h, canon v, canonEq _, (hs _ hv).trans rfl⟩,
    fun v hv => ⟨_, hs o h, canon v, canonEq _, (hs _ hv).trans rfl⟩⟩
example := C38_TraceArc sampleTraceArc sampleTraceArc_wf

theorem C38_Target [TextRule] (o : Target) (h : o.WF) (i : Nat) (nl : Bool) :
    (∀ v : Val, ({ o with type := v } : Target).WF →
      OnlyChanges (fun o => .ok (o.toSexpr i nl)) Target.fromSexpr o (fun v o => { o with type := v }) v v) ∧
    (∀ v : Position, ({ o with position := v } : Target).WF →
      OnlyChanges (fun o => .ok (o.toSexpr i nl)) Target.fromSexpr o (fun v o => { o with position := v }) v v) ∧
    (∀ v : Val, ({ o with size := v } : Target).WF →
      OnlyChanges (fun o => .ok (o.toSexpr i nl)) Target.fromSexpr o (fun v o => { o with size := v }) v v) ∧
    (∀ v : Val, ({ o with width := v } : Target).WF →
      OnlyChanges (fun o => .ok (o.toSexpr i nl)) Target.fromSexpr o (fun v o => { o with width := v }) v v) ∧
    (∀ v : Val, ({ o with layer := v } : Target).WF →
      OnlyChanges (fun o => .ok (o.toSexpr i nl)) Target.fromSexpr o (fun v o => { o with layer := v }) v v) ∧
    (∀ v : Option Val, ({ o with tstamp := v } : Target).WF →
      OnlyChanges (fun o => .ok (o.toSexpr i nl)) Target.fromSexpr o (fun v o => { o with tstamp := v }) v v) := by
  have hs : ∀ o : Target, o.WF → (.ok (o.toSexpr i nl) >>= parseSexp >>= Target.fromSexpr) = .ok (canon o) := fun o h =>
    (Lexes.one fun _ _ hs => Target.lx h hs).loads (Target.from_toVal h)
  exact ⟨fun v hv => ⟨_, hs o h, canon v, canonEq _, (hs _ hv).trans rfl⟩,
    fun v hv => ⟨_, hs o h, canon v, canonEq _, (hs _ hv).trans rfl⟩,
    fun v hv => ⟨_, hs o h, canon v, canonEq _, (hs _ hv).trans rfl⟩,
    fun v hv => ⟨_, hs o h, canon v, canonEq _, (hs _ hv).trans rfl⟩,
    fun v hv => ⟨_, hs o h, canon v, canonEq _, (hs _ hv).trans rfl⟩,
    fun v hv => ⟨_, hs o h, canon v, canonEq _, (hs _ hv).trans rfl⟩⟩
example := C38_Target sampleTarget sampleTarget_wf

theorem C38_DimensionFormat [TextRule] (o : DimensionFormat) (h : o.WF) (i : Nat) (nl : Bool) :
    (∀ v : Option Val, ({ o with «prefix» := v } : DimensionFormat).WF →
      OnlyChanges (fun o => .ok (o.toSexpr i nl)) DimensionFormat.fromSexpr o (fun v o => { o with «prefix» := v }) v v) ∧
    (∀ v : Option Val, ({ o with suffix := v } : DimensionFormat).WF →
      OnlyChanges (fun o => .ok (o.toSexpr i nl)) DimensionFormat.fromSexpr o (fun v o => { o with suffix := v }) v v) ∧
    (∀ v : Val, ({ o with units := v } : DimensionFormat).WF →
      OnlyChanges (fun o => .ok (o.toSexpr i nl)) DimensionFormat.fromSexpr o (fun v o => { o with units := v }) v v) ∧
    (∀ v : Val, ({ o with unitsFormat := v } : DimensionFormat).WF →
      OnlyChanges (fun o => .ok (o.toSexpr i nl)) DimensionFormat.fromSexpr o (fun v o => { o with unitsFormat := v }) v v) ∧
    (∀ v : Val, ({ o with precision := v } : DimensionFormat).WF →
      OnlyChanges (fun o => .ok (o.toSexpr i nl)) DimensionFormat.fromSexpr o (fun v o => { o with precision := v }) v v) ∧
    (∀ v : Option Val, ({ o with overrideValue := v } : DimensionFormat).WF →
      OnlyChanges (fun o => .ok (o.toSexpr i nl)) DimensionFormat.fromSexpr o (fun v o => { o with overrideValue := v }) v v) ∧
    (∀ v : Bool, ({ o with suppressZeroes := v } : DimensionFormat).WF →
      OnlyChanges (fun o => .ok (o.toSexpr i nl)) DimensionFormat.fromSexpr o (fun v o => { o with suppressZeroes := v }) v v) := by
  have hs : ∀ o : DimensionFormat, o.WF → (.ok (o.toSexpr i nl) >>= parseSexp >>= DimensionFormat.fromSexpr) = .ok (canon o) := fun o h =>
    (Lexes.one fun _ _ hs => DimensionFormat.lx h hs).loads (DimensionFormat.from_toVal h)
  exact ⟨fun v hv => ⟨_, hs o h, canon v, canonEq _, (hs _ hv).trans rfl⟩,
    fun v hv => ⟨_, hs o h, canon v, canonEq _, (hs _ hv).trans rfl⟩,
    fun v hv => ⟨_, hs o h, canon v, canonEq _, (hs _ hv).trans rfl⟩,
    fun v hv => ⟨_, hs o h, canon v, canonEq _, (hs _ hv).trans rfl⟩,
    fun v hv => ⟨_, hs o h, canon v, canonEq _, (hs _ hv).trans rfl⟩,
    fun v hv => ⟨_, hs o h, canon v, canonEq _, (hs _ hv).trans rfl⟩,
    fun v hv => ⟨_, hs o h, canon v, canonEq _, (hs _ hv).trans rfl⟩⟩
example := C38_DimensionFormat sampleDimensionFormat sampleDimensionFormat_wf

theorem C38_DimensionStyle [TextRule] (o : DimensionStyle) (h : o.WF) (i : Nat) (nl : Bool) :
    (∀ v : Val, ({ o with thickness := v } : DimensionStyle).WF →
      OnlyChanges (fun o => .ok (o.toSexpr i nl)) DimensionStyle.fromSexpr o (fun v o => { o with thickness := v }) v v) ∧
    (∀ v : Val, ({ o with arrowLength := v } : DimensionStyle).WF →
      OnlyChanges (fun o => .ok (o.toSexpr i nl)) DimensionStyle.fromSexpr o (fun v o => { o with arrowLength := v }) v v) ∧
    (∀ v : Val, ({ o with textPositionMode := v } : DimensionStyle).WF →
      OnlyChanges (fun o => .ok (o.toSexpr i nl)) DimensionStyle.fromSexpr o (fun v o => { o with textPositionMode := v }) v v) ∧
    (∀ v : Option Val, ({ o with extensionHeight := v } : DimensionStyle).WF →
      OnlyChanges (fun o => .ok (o.toSexpr i nl)) DimensionStyle.fromSexpr o (fun v o => { o with extensionHeight := v }) v v) ∧
    (∀ v : Option Val, ({ o with textFrame := v } : DimensionStyle).WF →
      OnlyChanges (fun o => .ok (o.toSexpr i nl)) DimensionStyle.fromSexpr o (fun v o => { o with textFrame := v }) v v) ∧
    (∀ v : Option Val, ({ o with extensionOffset := v } : DimensionStyle).WF →
      OnlyChanges (fun o => .ok (o.toSexpr i nl)) DimensionStyle.fromSexpr o (fun v o => { o with extensionOffset := v }) v v) ∧
    (∀ v : Bool, ({ o with keepTextAligned := v } : DimensionStyle).WF →
      OnlyChanges (fun o => .ok (o.toSexpr i nl)) DimensionStyle.fromSexpr o (fun v o => { o with keepTextAligned := v }) v v) := by
  have hs : ∀ o : DimensionStyle, o.WF → (.ok (o.toSexpr i nl) >>= parseSexp >>= DimensionStyle.fromSexpr) = .ok (canon o) := fun o h =>
    (Lexes.one fun _ _ hs => DimensionStyle.lx h hs).loads (DimensionStyle.from_toVal h)
  exact ⟨fun v hv => ⟨_, hs o h, canon v, canonEq _, (hs _ hv).trans rfl⟩,
    fun v hv => ⟨_, hs o h, canon v, canonEq _, (hs _ hv).trans rfl⟩,
    fun v hv => ⟨_, hs o h, canon v, canonEq _, (hs _ hv).trans rfl⟩,
    fun v hv => ⟨_, hs o h, canon v, canonEq _, (hs _ hv).trans rfl⟩,
    fun v hv => ⟨_, hs o h, canon v, canonEq _, (hs _ hv).trans rfl⟩,
    fun v hv => ⟨_, hs o h, canon v, canonEq _, (hs _ hv).trans rfl⟩,
    fun v hv => ⟨_, hs o h, canon v, canonEq _, (hs _ hv).trans rfl⟩⟩
example := C38_DimensionStyle sampleDimensionStyle sampleDimensionStyle_wf

theorem C38_Dimension [TextRule] (o : Dimension) (h : o.WF) (i : Nat) (nl : Bool) :
    (∀ v : Bool, ({ o with locked := v } : Dimension).WF →
      OnlyChanges (fun o => o.toSexpr i nl) Dimension.fromSexpr o (fun v o => { o with locked := v }) v v) ∧
    (∀ v : Val, ({ o with type := v } : Dimension).WF →
      OnlyChanges (fun o => o.toSexpr i nl) Dimension.fromSexpr o (fun v o => { o with type := v }) v v) ∧
    (∀ v : Val, ({ o with layer := v } : Dimension).WF →
      OnlyChanges (fun o => o.toSexpr i nl) Dimension.fromSexpr o (fun v o => { o with layer := v }) v v) ∧
    (∀ v : Option Val, ({ o with tstamp := v } : Dimension).WF →
      OnlyChanges (fun o => o.toSexpr i nl) Dimension.fromSexpr o (fun v o => { o with tstamp := v }) v v) ∧
    (∀ v : List Position, ({ o with pts := v } : Dimension).WF →
      OnlyChanges (fun o => o.toSexpr i nl) Dimension.fromSexpr o (fun v o => { o with pts := v }) v v) ∧
    (∀ v : Option Val, ({ o with height := v } : Dimension).WF →
      OnlyChanges (fun o => o.toSexpr i nl) Dimension.fromSexpr o (fun v o => { o with height := v }) v v) ∧
    (∀ v : Option Val, ({ o with orientation := v } : Dimension).WF →
      OnlyChanges (fun o => o.toSexpr i nl) Dimension.fromSexpr o (fun v o => { o with orientation := v }) v v) ∧
    (∀ v : Option Val, ({ o with leaderLength := v } : Dimension).WF →
      OnlyChanges (fun o => o.toSexpr i nl) Dimension.fromSexpr o (fun v o => { o with leaderLength := v }) v v) ∧
    (∀ v : Option GrText, ({ o with grText := v } : Dimension).WF →
      OnlyChanges (fun o => o.toSexpr i nl) Dimension.fromSexpr o (fun v o => { o with grText := v }) v v) ∧
    (∀ v : Option DimensionFormat, ({ o with format := v } : Dimension).WF →
      OnlyChanges (fun o => o.toSexpr i nl) Dimension.fromSexpr o (fun v o => { o with format := v }) v v) ∧
    (∀ v : DimensionStyle, ({ o with style := v } : Dimension).WF →
      OnlyChanges (fun o => o.toSexpr i nl) Dimension.fromSexpr o (fun v o => { o with style := v }) v v) := by
  have hs : ∀ o : Dimension, o.WF → (o.toSexpr i nl >>= parseSexp >>= Dimension.fromSexpr) = .ok (canon o) := fun o h =>
    (Dimension.lexes h i nl).loads (Dimension.from_toVal h)
  exact ⟨fun v hv => ⟨_, hs o h, canon v, canonEq _, (hs _ hv).trans rfl⟩,
    fun v hv => ⟨_, hs o h, canon v, canonEq _, (hs _ hv).trans rfl⟩,
    fun v hv => ⟨_, hs o h, canon v, canonEq _, (hs _ hv).trans rfl⟩,
    fun v hv => ⟨_, hs o h, canon v, canonEq _, (hs _ hv).trans rfl⟩,
    fun v hv => ⟨_, hs o h, canon v, canonEq _, (hs _ hv).trans rfl⟩,
    fun v hv => ⟨_, hs o h, canon v, canonEq _, (hs _ hv).trans rfl⟩,
    fun v hv => ⟨_, hs o h, canon v, canonEq _, (hs _ hv).trans rfl⟩,
    fun v hv => ⟨_, hs o h, canon v, canonEq _, (hs _ hv).trans rfl⟩,
    fun v hv => ⟨_, hs o h, canon v, canonEq _, (hs _ hv).trans rfl⟩,
    fun v hv => ⟨_, hs o h, canon v, canonEq _, (hs _ hv).trans rfl⟩,
    fun v hv => ⟨_, hs o h, canon v, canonEq _, (hs _ hv).trans rfl⟩⟩
example := C38_Dimension sampleDimension sampleDimension_wf

theorem C38_Board_partial [TextRule] (o : Board) (h : o.WF) (tedit : Val) (i : Nat) (nl : Bool) :
    (∀ v : Val, ({ o with version := v } : Board).WF →
      OnlyChanges (fun o => o.toSexpr i nl) (Board.fromSexpr tedit) o (fun v o => { o with version := v }) v v) ∧
    (∀ v : Val, ({ o with generator := v } : Board).WF →
      OnlyChanges (fun o => o.toSexpr i nl) (Board.fromSexpr tedit) o (fun v o => { o with generator := v }) v v) ∧
    (∀ v : GeneralSettings, ({ o with general := v } : Board).WF →
      OnlyChanges (fun o => o.toSexpr i nl) (Board.fromSexpr tedit) o (fun v o => { o with general := v }) v v) ∧
    (∀ v : PageSettings, ({ o with paper := v } : Board).WF →
      OnlyChanges (fun o => o.toSexpr i nl) (Board.fromSexpr tedit) o (fun v o => { o with paper := v }) v v) ∧
    (∀ v : Option TitleBlock, ({ o with titleBlock := v } : Board).WF →
      OnlyChanges (fun o => o.toSexpr i nl) (Board.fromSexpr tedit) o (fun v o => { o with titleBlock := v }) v v) ∧
    (∀ v : List LayerToken, ({ o with layers := v } : Board).WF →
      OnlyChanges (fun o => o.toSexpr i nl) (Board.fromSexpr tedit) o (fun v o => { o with layers := v }) v v) ∧
    (∀ v : SetupData, ({ o with setup := v } : Board).WF →
      OnlyChanges (fun o => o.toSexpr i nl) (Board.fromSexpr tedit) o (fun v o => { o with setup := v }) v { v with plotSettings := v.plotSettings.map fun p => { p with useAuxOrigin := false } }) ∧
    (∀ v : Dict Val, ({ o with properties := v } : Board).WF →
      OnlyChanges (fun o => o.toSexpr i nl) (Board.fromSexpr tedit) o (fun v o => { o with properties := v }) v v) ∧
    (∀ v : List Net, ({ o with nets := v } : Board).WF →
      OnlyChanges (fun o => o.toSexpr i nl) (Board.fromSexpr tedit) o (fun v o => { o with nets := v }) v v) ∧
    (∀ v : List Footprint, ({ o with footprints := v } : Board).WF →
      OnlyChanges (fun o => o.toSexpr i nl) (Board.fromSexpr tedit) o (fun v o => { o with footprints := v }) v (v.map fun f => { f with filePath := none })) ∧
    (∀ v : List GrItem, ({ o with graphicItems := v } : Board).WF →
      OnlyChanges (fun o => o.toSexpr i nl) (Board.fromSexpr tedit) o (fun v o => { o with graphicItems := v }) v v) ∧
    (∀ v : List TraceItem, ({ o with traceItems := v } : Board).WF →
      OnlyChanges (fun o => o.toSexpr i nl) (Board.fromSexpr tedit) o (fun v o => { o with traceItems := v }) v v) ∧
    (∀ v : List Zone, ({ o with zones := v } : Board).WF →
      OnlyChanges (fun o => o.toSexpr i nl) (Board.fromSexpr tedit) o (fun v o => { o with zones := v }) v v) ∧
    (∀ v : List Dimension, ({ o with dimensions := v } : Board).WF →
      OnlyChanges (fun o => o.toSexpr i nl) (Board.fromSexpr tedit) o (fun v o => { o with dimensions := v }) v v) ∧
    (∀ v : List Target, ({ o with targets := v } : Board).WF →
      OnlyChanges (fun o => o.toSexpr i nl) (Board.fromSexpr tedit) o (fun v o => { o with targets := v }) v v) ∧
    (∀ v : List Group, ({ o with groups := v } : Board).WF →
      OnlyChanges (fun o => o.toSexpr i nl) (Board.fromSexpr tedit) o (fun v o => { o with groups := v }) v v) := by
  have hs : ∀ o : Board, o.WF → (o.toSexpr i nl >>= parseSexp >>= (Board.fromSexpr tedit)) = .ok (canon o.asRead) := fun o h =>
    (Board.lexes h i nl).loads (Board.from_toVal h tedit)
  exact ⟨fun v hv => ⟨_, hs o h, canon v, canonEq _, (hs _ hv).trans rfl⟩,
    fun v hv => ⟨_, hs o h, canon v, canonEq _, (hs _ hv).trans rfl⟩,
    fun v hv => ⟨_, hs o h, canon v, canonEq _, (hs _ hv).trans rfl⟩,
    fun v hv => ⟨_, hs o h, canon v, canonEq _, (hs _ hv).trans rfl⟩,
    fun v hv => ⟨_, hs o h, canon v, canonEq _, (hs _ hv).trans rfl⟩,
    fun v hv => ⟨_, hs o h, canon v, canonEq _, (hs _ hv).trans rfl⟩,
    fun v hv => ⟨_, hs o h, canon v.asRead, canonEq (v.asRead), hs _ hv⟩,
    fun v hv => ⟨_, hs o h, canon v, canonEq _, (hs _ hv).trans rfl⟩,
    fun v hv => ⟨_, hs o h, canon v, canonEq _, (hs _ hv).trans rfl⟩,
    fun v hv => ⟨_, hs o h, canon (v.map fun f : Footprint => { f with filePath := none }), canonEq ((v.map fun f : Footprint => { f with filePath := none })), hs _ hv⟩,
    fun v hv => ⟨_, hs o h, canon v, canonEq _, (hs _ hv).trans rfl⟩,
    fun v hv => ⟨_, hs o h, canon v, canonEq _, (hs _ hv).trans rfl⟩,
    fun v hv => ⟨_, hs o h, canon v, canonEq _, (hs _ hv).trans rfl⟩,
    fun v hv => ⟨_, hs o h, canon v, canonEq _, (hs _ hv).trans rfl⟩,
    fun v hv => ⟨_, hs o h, canon v, canonEq _, (hs _ hv).trans rfl⟩,
    fun v hv => ⟨_, hs o h, canon v, canonEq _, (hs _ hv).trans rfl⟩⟩
example := C38_Board_partial sampleBoard sampleBoard_wf (.str k!"5f12ab34")

theorem C38_DesignRules [TextRule] (o : DesignRules) (h : o.WF) (i : Nat) (nl : Bool) :
    ∃ o', (o.toSexpr i nl >>= DesignRules.parseText) = .ok o' ∧
      (∀ v, ({ o with version := v } : DesignRules).WF → ∃ v', PyEq.eq v v' ∧
        (({ o with version := v } : DesignRules).toSexpr i nl >>= DesignRules.parseText) = .ok { o' with version := v' }) ∧
      (∀ v, ({ o with rules := v } : DesignRules).WF → ∃ v', PyEq.eq v v' ∧
        (({ o with rules := v } : DesignRules).toSexpr i nl >>= DesignRules.parseText) = .ok { o' with rules := v' }) :=
  ⟨_, DesignRules.parse h i nl, fun _ hv => ⟨_, canonEq _, DesignRules.parse hv i nl⟩, fun _ hv => ⟨_, canonEq _, DesignRules.parse hv i nl⟩⟩
example := C38_DesignRules sampleDesignRules sampleDesignRules_wf

/-- An edit that meets the conditions: other nets in a board. -/
example := (C38_Board_partial sampleBoard sampleBoard_wf (.str k!"5f12ab34") 0 true)
example : ({ sampleNet with name := .str k!"GND \"x\"" } : Net).WF := { sampleNet_wf with name := by textOk }

end Kiutils
