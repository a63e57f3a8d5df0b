import Verif.Proofs.ShiftExact
/-!
# Which objects move as a whole (C72)

For `k > 0` the text moves to the right by `k` blanks exactly if the object is as `Movable` says (`Verif/Indent.lean`). So the
`_partial` theorems of C72 cannot be extended, and each object outside of them is an example of what `_violated` says. If the
object cannot be written at all, the same exception is raised for any indentation.
-/
namespace Kiutils

theorem ok_of {m : PyM Str} (h : m.isOk = true) : ∃ s, m = .ok s := by
  cases m with
  | error e => cases h
  | ok s => exact ⟨s, rfl⟩

theorem C72_RenderCachePolygon_exactly (o : RenderCachePolygon) (i k : Nat) (nl : Bool) (hk : 0 < k) (ho : Only OneLine o) :
    Shifted k (o.toSexpr i nl) (o.toSexpr (i + k) nl) ↔ o.Movable :=
  ⟨RenderCachePolygon.not_moved o i k nl ho hk, C72_RenderCachePolygon_partial o i k nl ho⟩
example (i k : Nat) (hk : 0 < k) := C72_RenderCachePolygon_exactly sampleRenderCachePolygon i k true hk (oneLine_of (by decide +kernel))
theorem C72_RenderCache_exactly (o : RenderCache) (i k : Nat) (nl : Bool) (hk : 0 < k) (ho : Only OneLine o) :
    Shifted k (o.toSexpr i nl) (o.toSexpr (i + k) nl) ↔ o.Movable :=
  ⟨RenderCache.not_moved o i k nl ho hk, C72_RenderCache_partial o i k nl ho⟩
example (i k : Nat) (hk : 0 < k) := C72_RenderCache_exactly sampleRenderCache i k true hk (oneLine_of (by decide +kernel))
theorem C72_LibTable_exactly (o : LibTable) (i k : Nat) (nl : Bool) (hk : 0 < k) (ho : Only OneLine o) :
    Shifted k (o.toSexpr i nl) (o.toSexpr (i + k) nl) ↔ o.Movable :=
  ⟨LibTable.not_moved o i k nl hk, C72_LibTable_partial o i k nl ho⟩
example (i k : Nat) (hk : 0 < k) := C72_LibTable_exactly sampleLibTable i k true hk (oneLine_of (by decide +kernel))
theorem C72_Bitmap_exactly (o : Bitmap) (i k : Nat) (nl : Bool) (hk : 0 < k) (ho : Only OneLine o) :
    Shifted k (o.toSexpr i nl) (o.toSexpr (i + k) nl) ↔ o.Movable :=
  ⟨Bitmap.not_moved o i k nl hk, C72_Bitmap_partial o i k nl ho⟩
example (i k : Nat) (hk : 0 < k) := C72_Bitmap_exactly sampleBitmap i k true hk (oneLine_of (by decide +kernel))
theorem C72_TbText_exactly (o : TbText) (i k : Nat) (nl : Bool) (hk : 0 < k) (ho : Only OneLine o) :
    Shifted k (o.toSexpr i nl) (o.toSexpr (i + k) nl) ↔ o.Movable :=
  ⟨TbText.not_moved o i k nl hk, C72_TbText_partial o i k nl ho⟩
example (i k : Nat) (hk : 0 < k) := C72_TbText_exactly sampleTbText i k true hk (oneLine_of (by decide +kernel))
theorem C72_SymbolLib_exactly (o : SymbolLib) (i k : Nat) (nl : Bool) (hk : 0 < k) (ho : Only OneLine o) :
    Shifted k (o.toSexpr i nl) (o.toSexpr (i + k) nl) ↔ o.Movable :=
  ⟨SymbolLib.not_moved o i k nl hk, C72_SymbolLib_partial o i k nl ho⟩
example (i k : Nat) (hk : 0 < k) := C72_SymbolLib_exactly sampleSymbolLib i k true hk (oneLine_of (by decide +kernel))
theorem C72_GrText_exactly (o : GrText) (i k : Nat) (nl : Bool) (hk : 0 < k) (ho : Only OneLine o) :
    Shifted k (o.toSexpr i nl) (o.toSexpr (i + k) nl) ↔ o.Movable :=
  ⟨GrText.not_moved o i k nl ho hk, C72_GrText_partial o i k nl ho⟩
example (i k : Nat) (hk : 0 < k) := C72_GrText_exactly sampleGrText i k true hk (oneLine_of (by decide +kernel))
theorem C72_FpText_exactly (o : FpText) (i k : Nat) (nl : Bool) (hk : 0 < k) (ho : Only OneLine o) :
    Shifted k (o.toSexpr i nl) (o.toSexpr (i + k) nl) ↔ o.Movable :=
  ⟨FpText.not_moved o i k nl ho hk, C72_FpText_partial o i k nl ho⟩
example (i k : Nat) (hk : 0 < k) := C72_FpText_exactly sampleFpText i k true hk (oneLine_of (by decide +kernel))
theorem C72_WksShape_exactly (head : Str) (hh : head = k!"line" ∨ head = k!"rect") (o : WksShape) (i k : Nat) (nl : Bool) (hk : 0 < k) (ho : Only OneLine o) :
    Shifted k (o.toSexpr head i nl) (o.toSexpr head (i + k) nl) ↔ o.Movable :=
  ⟨WksShape.not_moved head o i k nl hk, C72_WksShape_partial head hh o i k nl ho⟩
example (i k : Nat) (hk : 0 < k) := C72_WksShape_exactly k!"line" (.inl rfl) sampleWksShape i k true hk (oneLine_of (by decide +kernel))
theorem C72_Rule_exactly (o : Rule) (i k : Nat) (hk : 0 < k) (ho : Only OneLine o) (hs : ∃ s, o.toSexpr i = .ok s) :
    ShiftedM k (o.toSexpr i) (o.toSexpr (i + k)) ↔ o.Movable :=
  ⟨fun h => Rule.not_moved o i k hk h hs, C72_Rule_partial o i k ho⟩
example := C72_Rule_exactly sampleRule 2 4 (by decide) (oneLine_of (by decide +kernel)) (ok_of (by decide +kernel))
theorem C72_DesignRules_exactly (o : DesignRules) (i k : Nat) (nl : Bool) (hk : 0 < k) (ho : Only OneLine o) (hs : ∃ s, o.toSexpr i nl = .ok s) :
    ShiftedM k (o.toSexpr i nl) (o.toSexpr (i + k) nl) ↔ o.Movable :=
  ⟨fun h => DesignRules.not_moved o i k nl hk h hs, C72_DesignRules_partial o i k nl ho⟩
example := C72_DesignRules_exactly sampleDesignRules 2 4 true (by decide) (oneLine_of (by decide +kernel)) (ok_of (by decide +kernel))
theorem C72_WorkSheet_exactly (o : WorkSheet) (i k : Nat) (nl : Bool) (hk : 0 < k) (ho : Only OneLine o) (hs : ∃ s, o.toSexpr i nl = .ok s) :
    ShiftedM k (o.toSexpr i nl) (o.toSexpr (i + k) nl) ↔ o.Movable :=
  ⟨fun h => WorkSheet.not_moved o i k nl hk h hs, C72_WorkSheet_partial o i k nl ho⟩
example := C72_WorkSheet_exactly sampleWorkSheet 2 4 true (by decide) (oneLine_of (by decide +kernel)) (ok_of (by decide +kernel))
theorem C72_Junction_exactly (o : Junction) (i k : Nat) (nl : Bool) (hk : 0 < k) (ho : Only OneLine o) (hs : ∃ s, o.toSexpr i nl = .ok s) :
    ShiftedM k (o.toSexpr i nl) (o.toSexpr (i + k) nl) ↔ o.Movable :=
  ⟨fun h => Junction.not_moved o i k nl ho hk h hs, C72_Junction_partial o i k nl ho⟩
example := C72_Junction_exactly sampleJunction 2 4 true (by decide) (oneLine_of (by decide +kernel)) (ok_of (by decide +kernel))
theorem C72_GrTextBox_exactly (o : GrTextBox) (i k : Nat) (nl : Bool) (hk : 0 < k) (ho : Only OneLine o) (hs : ∃ s, o.toSexpr i nl = .ok s) :
    ShiftedM k (o.toSexpr i nl) (o.toSexpr (i + k) nl) ↔ o.Movable :=
  ⟨fun h => GrTextBox.not_moved o i k nl ho hk h hs, C72_GrTextBox_partial o i k nl ho⟩
example := C72_GrTextBox_exactly sampleGrTextBox 2 4 true (by decide) (oneLine_of (by decide +kernel)) (ok_of (by decide +kernel))
theorem C72_FpTextBox_exactly (o : FpTextBox) (i k : Nat) (nl : Bool) (hk : 0 < k) (ho : Only OneLine o) (hs : ∃ s, o.toSexpr i nl = .ok s) :
    ShiftedM k (o.toSexpr i nl) (o.toSexpr (i + k) nl) ↔ o.Movable :=
  ⟨fun h => FpTextBox.not_moved o i k nl ho hk h hs, C72_FpTextBox_partial o i k nl ho⟩
example := C72_FpTextBox_exactly sampleFpTextBox 2 4 true (by decide) (oneLine_of (by decide +kernel)) (ok_of (by decide +kernel))
theorem C72_Dimension_exactly (o : Dimension) (i k : Nat) (nl : Bool) (hk : 0 < k) (ho : Only OneLine o) (hs : ∃ s, o.toSexpr i nl = .ok s) :
    ShiftedM k (o.toSexpr i nl) (o.toSexpr (i + k) nl) ↔ o.Movable :=
  ⟨fun h => Dimension.not_moved o i k nl ho hk h hs, C72_Dimension_partial o i k nl ho⟩
example := C72_Dimension_exactly sampleDimension 2 4 true (by decide) (oneLine_of (by decide +kernel)) (ok_of (by decide +kernel))
theorem C72_Zone_exactly (o : Zone) (i k : Nat) (nl : Bool) (hk : 0 < k) (ho : Only OneLine o) (hs : ∃ s, o.toSexpr i nl = .ok s) :
    ShiftedM k (o.toSexpr i nl) (o.toSexpr (i + k) nl) ↔ o.Movable :=
  ⟨fun h => Zone.not_moved o i k nl ho hk h hs, C72_Zone_partial o i k nl ho⟩
example := C72_Zone_exactly sampleZone 2 4 true (by decide) (oneLine_of (by decide +kernel)) (ok_of (by decide +kernel))
theorem C72_Schematic_exactly (o : Schematic) (i k : Nat) (nl : Bool) (hk : 0 < k) (ho : Only OneLine o) (hs : ∃ s, o.toSexpr i nl = .ok s) :
    ShiftedM k (o.toSexpr i nl) (o.toSexpr (i + k) nl) ↔ o.Movable :=
  ⟨fun h => Schematic.not_moved o i k nl ho hk h hs, C72_Schematic_partial o i k nl ho⟩
set_option maxRecDepth 100000 in
example := C72_Schematic_exactly ({ sampleSchematic with libSymbols := [], schematicSymbols := [] } : Schematic) 2 4 true (by decide) (oneLine_of (by decide +kernel)) (ok_of (by decide +kernel))
theorem C72_Pad_exactly (o : Pad) (i k : Nat) (nl : Bool) (hk : 0 < k) (ho : Only OneLine o) (hs : ∃ s, o.toSexpr i nl = .ok s) :
    ShiftedM k (o.toSexpr i nl) (o.toSexpr (i + k) nl) ↔ o.Movable :=
  ⟨fun h => Pad.not_moved o i k nl ho hk h hs, C72_Pad_partial o i k nl ho⟩
set_option maxRecDepth 100000 in
example := C72_Pad_exactly ({ samplePad with customPadPrimitives := [.text { sampleGrText with renderCache := some twoPointsCache }] } : Pad) 2 4 true (by decide) (oneLine_of (by decide +kernel)) (ok_of (by decide +kernel))
theorem C72_Board_exactly (o : Board) (i k : Nat) (nl : Bool) (hk : 0 < k) (ho : Only OneLine o) (hs : ∃ s, o.toSexpr i nl = .ok s) :
    ShiftedM k (o.toSexpr i nl) (o.toSexpr (i + k) nl) ↔ o.Movable :=
  ⟨fun h => Board.not_moved o i k nl ho hk h hs, C72_Board_partial o i k nl ho⟩
set_option maxRecDepth 100000 in
example := C72_Board_exactly ({ properties := [(.str k!"a", .str k!"b")], graphicItems := [.line sampleGrLine] } : Board) 2 4 true (by decide) (oneLine_of (by decide +kernel)) (ok_of (by decide +kernel))
theorem C72_Footprint_exactly (o : Footprint) (i k : Nat) (nl layerInFirstLine : Bool) (hk : 0 < k) (ho : Only OneLine o)
    (hs : ∃ s, o.toSexpr i nl layerInFirstLine = .ok s) :
    ShiftedM k (o.toSexpr i nl layerInFirstLine) (o.toSexpr (i + k) nl layerInFirstLine) ↔ o.Movable :=
  ⟨fun h => Footprint.not_moved o i k nl layerInFirstLine ho hk h hs, C72_Footprint_partial o i k nl layerInFirstLine ho⟩
set_option maxRecDepth 100000 in
example := C72_Footprint_exactly ({ tedit := .str k!"1", pads := [samplePad], zones := [{ layers := [.str k!"F.Cu"], fillSegments := some sampleFillSegments }] } : Footprint)
  2 4 true false (by decide) (oneLine_of (by decide +kernel)) (ok_of (by decide +kernel))

end Kiutils
