import Verif.Proofs.Board
import Verif.Proofs.Schematic
import Verif.Proofs.Wks
import Verif.Proofs.Dru
import Verif.Proofs.Libraries
/-!
# A well-formed object of every class

Concrete objects with every optional part present, used to show that the hypotheses of the round-trip theorems can be met.
-/
namespace Kiutils

theorem ok_int {n : Int} (h : n.natAbs ≤ 2 ^ 53) : NumOk (.int n) := exactInt_of_le h

/-- The float 2.54. -/
def f254 : F64 := F64.ofDecimal false k!"2" k!"54"
theorem ok_f254 : NumOk (.flt f254) :=
  ⟨false, k!"2", k!"54", by decide, by decide, by decide, by decide, by rfl, rfl⟩


macro "textOk" : tactic => `(tactic| (show List.getLast? _ ≠ _; decide))
macro "tokOk" : tactic => `(tactic| (show _ ∧ _ ∧ _ ∧ _; exact ⟨by decide, by decide, TextRule.word_noQuote (by decide), by decide⟩))
macro "lineOk" : tactic => `(tactic| (show _ ∧ _ ∧ _; exact ⟨by decide, by decide, TextRule.word_noQuote (by decide)⟩))
macro "optOk" : tactic => `(tactic| (intro v hv; cases hv))
macro "listOk" : tactic => `(tactic| repeat' (first
  | exact List.forall_mem_nil _
  | refine List.forall_mem_cons.mpr ⟨?_, ?_⟩))
macro "pairOk" : tactic => `(tactic| (refine List.Pairwise.cons ?_ (List.Pairwise.cons ?_ .nil) <;> listOk; rfl))
macro "numWf" : tactic => `(tactic| (refine ⟨by decide, by decide, ?_, ?_, by decide⟩ <;> (intro f hf; cases hf; decide)))

def samplePosition : Position :=
  { X := .int 3, Y := .flt f254, angle := some (.int (-12)), unlocked := false }
theorem samplePosition_wf : samplePosition.WF :=
  { X := (ok_int (by decide)),
    Y := (ok_f254),
    angle := (by optOk; exact ok_int (by decide)),
    unlocked := (rfl) }

def sampleCoordinate : Coordinate :=
  { X := .int 3, Y := .flt f254, Z := .int (-12) }
theorem sampleCoordinate_wf : sampleCoordinate.WF :=
  { X := (ok_int (by decide)),
    Y := (ok_f254),
    Z := (ok_int (by decide)) }

def sampleColorRGBA : ColorRGBA :=
  { R := .int 3, G := .flt f254, B := .int (-12), A := .int 3, precision := none }
theorem sampleColorRGBA_wf : sampleColorRGBA.WF :=
  { R := (ok_int (by decide)),
    G := (ok_f254),
    B := (ok_int (by decide)),
    A := (ok_int (by decide)),
    precision := (rfl) }

def sampleStroke : Stroke :=
  { width := .flt f254, type := some (.str k!"word"), color := some (sampleColorRGBA) }
theorem sampleStroke_wf : sampleStroke.WF :=
  { width := (ok_f254),
    type := (by optOk; exact by tokOk),
    color := (by optOk; exact sampleColorRGBA_wf) }

def sampleFont : Font :=
  { face := some (.str k!"a \"b\" (c)"), height := .int (-12), width := .int 3, thickness := some (.flt f254), bold := true, italic := true, lineSpacing := some (.int (-12)), color := some (sampleColorRGBA) }
theorem sampleFont_wf : sampleFont.WF :=
  { face := (by optOk; exact by textOk),
    height := (ok_int (by decide)),
    width := (ok_int (by decide)),
    thickness := (by optOk; exact ok_f254),
    lineSpacing := (by optOk; exact ok_int (by decide)),
    color := (by optOk; exact sampleColorRGBA_wf) }

def sampleJustify : Justify :=
  { horizontally := some (.str k!"left"), vertically := some (.str k!"top"), mirror := true }
theorem sampleJustify_wf : sampleJustify.WF :=
  { horizontally := (by optOk; exact .inl rfl),
    vertically := (by optOk; exact .inl rfl) }

def sampleEffects : Effects :=
  { font := sampleFont, justify := sampleJustify, hide := true, href := some (.str k!"a \"b\" (c)") }
theorem sampleEffects_wf : sampleEffects.WF :=
  { font := (sampleFont_wf),
    justify := (sampleJustify_wf),
    href := (by optOk; exact by textOk) }

def sampleNet : Net :=
  { number := .int 3, name := .str k!"a \"b\" (c)" }
theorem sampleNet_wf : sampleNet.WF :=
  { number := (ok_int (by decide)),
    name := (by textOk) }

def sampleGroup : Group :=
  { name := .str k!"a \"b\" (c)", locked := true, id := .str k!"word", members := [.str k!"iVBORw0K", .str k!"iVBORw0K"] }
theorem sampleGroup_wf : sampleGroup.WF :=
  { name := (by textOk),
    name_ne := (by intro h; cases h),
    id := (by tokOk),
    members := (by listOk <;> exact by lineOk) }

def samplePageSettings : PageSettings :=
  { paperSize := .str k!"User", width := some (.int 300), height := some (.flt f254), portrait := true }
theorem samplePageSettings_wf : samplePageSettings.WF :=
  { paperSize := (by textOk),
    paperSize_ne := (by intro h; cases h),
    user := (fun _ => ⟨⟨_, rfl, ok_int (by decide)⟩, ⟨_, rfl, ok_f254⟩⟩),
    other := (fun h => absurd rfl h) }

def sampleTitleBlock : TitleBlock :=
  { title := some (.str k!"a \"b\" (c)"), date := some (.str k!"a \"b\" (c)"), revision := some (.str k!"a \"b\" (c)"), company := some (.str k!"a \"b\" (c)"), comments := [(.int 1, .str k!"x"), (.int 2, .str k!"y")] }
theorem sampleTitleBlock_wf : sampleTitleBlock.WF :=
  { title := (by optOk; exact by textOk),
    date := (by optOk; exact by textOk),
    revision := (by optOk; exact by textOk),
    company := (by optOk; exact by textOk),
    numbers := (by listOk <;> exact ok_int (by decide)),
    comments := (by listOk <;> textOk),
    distinct := (by pairOk) }

def sampleProperty : Property :=
  { key := .str k!"a \"b\" (c)", value := .str k!"a \"b\" (c)", id := some (.flt f254), position := samplePosition, effects := some (sampleEffects), showName := true }
theorem sampleProperty_wf : sampleProperty.WF :=
  { key := (by textOk),
    value := (by textOk),
    id := (by optOk; exact ok_f254),
    position := (samplePosition_wf),
    effects := (by optOk; exact sampleEffects_wf) }

def samplePositionXY : Position :=
  { X := .int (-12), Y := .int 3, angle := none, unlocked := false }
theorem samplePositionXY_wf : samplePositionXY.WFXY :=
  { X := (ok_int (by decide)),
    Y := (ok_int (by decide)),
    angle := (rfl),
    unlocked := (rfl) }

def sampleRenderCachePolygon : RenderCachePolygon :=
  { pts := [samplePositionXY] }
theorem sampleRenderCachePolygon_wf : sampleRenderCachePolygon.WF :=
  { pts := (by listOk; (· exact samplePositionXY_wf)) }

def sampleRenderCache : RenderCache :=
  { text := .str k!"a \"b\" (c)", id := .str k!"iVBORw0K", polygons := [sampleRenderCachePolygon] }
theorem sampleRenderCache_wf : sampleRenderCache.WF :=
  { text := (by textOk),
    text_ne := (by intro h; cases h),
    id := (by lineOk),
    polygons := (by listOk; (· exact sampleRenderCachePolygon_wf)) }

def sampleFill : Fill :=
  { type := .str k!"word", color := some (sampleColorRGBA) }
theorem sampleFill_wf : sampleFill.WF :=
  { type := (by tokOk),
    color := (by optOk; exact sampleColorRGBA_wf) }

def sampleImage : Image :=
  { position := samplePositionXY, scale := some (.flt f254), data := [.str k!"iVBORw0K", .str k!"iVBORw0K"], uuid := some (.str k!"word"), layer := some (.str k!"a \"b\" (c)") }
theorem sampleImage_wf : sampleImage.WF :=
  { position := (samplePositionXY_wf),
    scale := (by optOk; exact ok_f254),
    data := (by listOk <;> exact by lineOk),
    uuid := (by optOk; exact by tokOk),
    layer := (by optOk; exact by textOk) }

def sampleLibrary : Library :=
  { name := .str k!"a \"b\" (c)", type := .str k!"a \"b\" (c)", uri := .str k!"a \"b\" (c)", options := .str k!"a \"b\" (c)", description := .str k!"a \"b\" (c)", active := true }
theorem sampleLibrary_wf : sampleLibrary.WF :=
  { name := (by textOk),
    type := (by textOk),
    uri := (by textOk),
    options := (by textOk),
    description := (by textOk) }

def sampleLibTable : LibTable :=
  { type := .str k!"fp_lib_table", libs := [sampleLibrary], filePath := some k!"/a/fp-lib-table" }
theorem sampleLibTable_wf : sampleLibTable.WF :=
  { type := (.inr rfl),
    libs := (by listOk; (· exact sampleLibrary_wf)) }

def sampleConstraint : Constraint :=
  { type := .str k!"word", min := some (.str k!"a \"b\" (c)"), opt := some (.str k!"a \"b\" (c)"), max := some (.str k!"a \"b\" (c)"), elements := [.str k!"word", .str k!"word"] }
theorem sampleConstraint_wf : sampleConstraint.WF :=
  { type := (by tokOk),
    min := (by optOk; exact by textOk),
    opt := (by optOk; exact by textOk),
    max := (by optOk; exact by textOk),
    elements := (by listOk <;> exact by tokOk) }

def sampleRule : Rule :=
  { name := .str k!"a \"b\" (c)", constraints := [sampleConstraint], condition := .str k!"a \"b\" (c)", layer := some (.str k!"a \"b\" (c)"), severity := some (.str k!"error") }
theorem sampleRule_wf : sampleRule.WF :=
  { name := (by textOk),
    layer := (by optOk; exact by textOk),
    constraints := (by listOk; (· exact sampleConstraint_wf)),
    condition := (by textOk),
    severity := (by optOk; exact ⟨by tokOk, by decide⟩) }

def sampleDesignRules : DesignRules :=
  { version := .int (-12), rules := [sampleRule], filePath := some k!"/a/b.kicad_dru" }
theorem sampleDesignRules_wf : sampleDesignRules.WF :=
  { version := (ok_int (by decide)),
    rules := (by listOk; (· exact sampleRule_wf)) }

def sampleWksFontSize : WksFontSize :=
  { width := .int 3, height := .flt f254 }
theorem sampleWksFontSize_wf : sampleWksFontSize.WF :=
  { width := (ok_int (by decide)),
    height := (ok_f254) }

def sampleWksFont : WksFont :=
  { linewidth := some (.int (-12)), size := some (sampleWksFontSize), bold := true, italic := true }
theorem sampleWksFont_wf : sampleWksFont.WF :=
  { linewidth := (by optOk; exact ok_int (by decide)),
    size := (by optOk; exact sampleWksFontSize_wf) }

def sampleWksPosition : WksPosition :=
  { X := .int 3, Y := .flt f254, corner := some (.str k!"word") }
theorem sampleWksPosition_wf : sampleWksPosition.WF :=
  { X := (ok_int (by decide)),
    Y := (ok_f254),
    corner := (by optOk; exact by tokOk) }

def sampleWksShape : WksShape :=
  { name := .str k!"a \"b\" (c)", start := sampleWksPosition, «end» := sampleWksPosition, option := some (.str k!"word"), lineWidth := some (.int (-12)), «repeat» := some (.int 3), incrx := some (.flt f254), incry := some (.int (-12)), comment := some (.str k!"a \"b\" (c)") }
theorem sampleWksShape_wf : sampleWksShape.WF :=
  { name := (by textOk),
    start := (sampleWksPosition_wf),
    «end» := (sampleWksPosition_wf),
    option := (by optOk; exact by tokOk),
    lineWidth := (by optOk; exact ok_int (by decide)),
    «repeat» := (by optOk; exact ok_int (by decide)),
    incrx := (by optOk; exact ok_f254),
    incry := (by optOk; exact ok_int (by decide)),
    comment := (by optOk; exact by textOk) }

def sampleBitmap : Bitmap :=
  { name := .str k!"a \"b\" (c)", position := sampleWksPosition, option := some (.str k!"word"), scale := .int 3, «repeat» := some (.flt f254), incrx := some (.int (-12)), incry := some (.int 3), comment := some (.str k!"a \"b\" (c)"), pngdata := [.str k!"F.Cu x", .str k!"F.Cu x"] }
theorem sampleBitmap_wf : sampleBitmap.WF :=
  { name := (by textOk),
    position := (sampleWksPosition_wf),
    option := (by optOk; exact by tokOk),
    scale := (ok_int (by decide)),
    «repeat» := (by optOk; exact ok_f254),
    incrx := (by optOk; exact ok_int (by decide)),
    incry := (by optOk; exact ok_int (by decide)),
    comment := (by optOk; exact by textOk),
    pngdata := (by listOk <;> exact ⟨by textOk, by decide⟩) }

def sampleTbText : TbText :=
  { text := .str k!"a \"b\" (c)", name := .str k!"a \"b\" (c)", position := sampleWksPosition, option := some (.str k!"word"), rotate := some (.flt f254), font := sampleWksFont, justify := some (sampleJustify), maxlen := some (.int (-12)), maxheight := some (.int 3), «repeat» := some (.flt f254), incrx := some (.int (-12)), incry := some (.int 3), incrlabel := some (.flt f254), comment := some (.str k!"a \"b\" (c)") }
theorem sampleTbText_wf : sampleTbText.WF :=
  { text := (by textOk),
    name := (by textOk),
    position := (sampleWksPosition_wf),
    option := (by optOk; exact by tokOk),
    rotate := (by optOk; exact ok_f254),
    font := (sampleWksFont_wf),
    justify := (by optOk; exact sampleJustify_wf),
    justify_ne := (by intro v hv; cases hv; rfl),
    maxlen := (by optOk; exact ok_int (by decide)),
    maxheight := (by optOk; exact ok_int (by decide)),
    «repeat» := (by optOk; exact ok_f254),
    incrx := (by optOk; exact ok_int (by decide)),
    incry := (by optOk; exact ok_int (by decide)),
    incrlabel := (by optOk; exact ok_f254),
    comment := (by optOk; exact by textOk) }

def sampleTextSize : TextSize :=
  { width := .int (-12), height := .int 3 }
theorem sampleTextSize_wf : sampleTextSize.WF :=
  { width := (ok_int (by decide)),
    height := (ok_int (by decide)) }

def sampleSetup : Setup :=
  { textSize := sampleTextSize, lineWidth := .flt f254, textLineWidth := .int (-12), leftMargin := .int 3, rightMargin := .flt f254, topMargin := .int (-12), bottomMargin := .int 3 }
theorem sampleSetup_wf : sampleSetup.WF :=
  { textSize := (sampleTextSize_wf),
    lineWidth := (ok_f254),
    textLineWidth := (ok_int (by decide)),
    leftMargin := (ok_int (by decide)),
    rightMargin := (ok_f254),
    topMargin := (ok_int (by decide)),
    bottomMargin := (ok_int (by decide)) }

def sampleWorkSheet : WorkSheet :=
  { version := .flt f254, generator := .str k!"word", setup := sampleSetup, drawingObjects := [.line sampleWksShape, .rect sampleWksShape, .bitmap sampleBitmap, .tbtext sampleTbText], filePath := some k!"/a/b.kicad_wks" }
theorem sampleWorkSheet_wf : sampleWorkSheet.WF :=
  { version := (ok_f254),
    generator := (by tokOk),
    setup := (sampleSetup_wf),
    drawingObjects := (by listOk; (· exact sampleWksShape_wf); (· exact sampleWksShape_wf); (· exact sampleBitmap_wf); (· exact sampleTbText_wf)) }

def sampleSyArc : SyArc :=
  { priv := true, start := samplePosition, mid := samplePosition, «end» := samplePosition, stroke := sampleStroke, fill := sampleFill }
theorem sampleSyArc_wf : sampleSyArc.WF :=
  { start := (samplePosition_wf),
    mid := (samplePosition_wf),
    «end» := (samplePosition_wf),
    stroke := (sampleStroke_wf),
    fill := (sampleFill_wf) }

def sampleSyCircle : SyCircle :=
  { priv := true, center := samplePositionXY, radius := .int (-12), stroke := sampleStroke, fill := sampleFill }
theorem sampleSyCircle_wf : sampleSyCircle.WF :=
  { center := (samplePositionXY_wf),
    radius := (ok_int (by decide)),
    stroke := (sampleStroke_wf),
    fill := (sampleFill_wf) }

def sampleSyPolyLine : SyPolyLine :=
  { points := [samplePositionXY], stroke := sampleStroke, fill := sampleFill }
theorem sampleSyPolyLine_wf : sampleSyPolyLine.WF :=
  { points := (by listOk; (· exact samplePositionXY_wf)),
    stroke := (sampleStroke_wf),
    fill := (sampleFill_wf) }

def sampleSyRect : SyRect :=
  { priv := true, start := samplePositionXY, «end» := samplePositionXY, stroke := sampleStroke, fill := sampleFill }
theorem sampleSyRect_wf : sampleSyRect.WF :=
  { start := (samplePositionXY_wf),
    «end» := (samplePositionXY_wf),
    stroke := (sampleStroke_wf),
    fill := (sampleFill_wf) }

def sampleSyText : SyText :=
  { text := .str k!"a \"b\" (c)", position := samplePosition, effects := sampleEffects }
theorem sampleSyText_wf : sampleSyText.WF :=
  { text := (by textOk),
    position := (samplePosition_wf),
    effects := (sampleEffects_wf) }

def sampleSyTextBox : SyTextBox :=
  { text := .str k!"a \"b\" (c)", priv := true, position := samplePosition, size := samplePositionXY, stroke := sampleStroke, fill := sampleFill, effects := sampleEffects, uuid := some (.str k!"word") }
theorem sampleSyTextBox_wf : sampleSyTextBox.WF :=
  { text := (by textOk),
    position := (samplePosition_wf),
    size := (samplePositionXY_wf),
    stroke := (sampleStroke_wf),
    fill := (sampleFill_wf),
    effects := (sampleEffects_wf),
    uuid := (by optOk; exact by tokOk) }

def sampleSymbolAlternativePin : SymbolAlternativePin :=
  { pinName := .str k!"a \"b\" (c)", electricalType := .str k!"word", graphicalStyle := .str k!"word" }
theorem sampleSymbolAlternativePin_wf : sampleSymbolAlternativePin.WF :=
  { pinName := (by textOk),
    electricalType := (by tokOk),
    graphicalStyle := (by tokOk) }

def sampleSymbolPin : SymbolPin :=
  { electricalType := .str k!"word", graphicalStyle := .str k!"word", position := samplePosition, length := .int 3, name := .str k!"a \"b\" (c)", nameEffects := some (sampleEffects), number := .str k!"a \"b\" (c)", numberEffects := some (sampleEffects), hide := true, alternatePins := [sampleSymbolAlternativePin] }
theorem sampleSymbolPin_wf : sampleSymbolPin.WF :=
  { electricalType := (by tokOk),
    graphicalStyle := (by tokOk),
    position := (samplePosition_wf),
    length := (ok_int (by decide)),
    name := (by textOk),
    nameEffects := (by optOk; exact sampleEffects_wf),
    number := (by textOk),
    numberEffects := (by optOk; exact sampleEffects_wf),
    alternatePins := (by listOk; (· exact sampleSymbolAlternativePin_wf)) }

def sampleSymbol : Symbol :=
  { libraryNickname := none, entryName := some (.str k!"R"), unitId := none, styleId := none, extends_ := some (.str k!"a \"b\" (c)"), hidePinNumbers := true, pinNames := true, pinNamesHide := true, pinNamesOffset := some (.flt f254), inBom := some true, onBoard := some true, isPower := true, properties := [sampleProperty], graphicItems := [.arc sampleSyArc, .circle sampleSyCircle, .polyline sampleSyPolyLine, .rect sampleSyRect, .text sampleSyText, .textBox sampleSyTextBox], pins := [sampleSymbolPin], units := [{ entryName := some (.str k!"R"), unitId := some (.int 1), styleId := some (.int 1), graphicItems := [.rect sampleSyRect], pins := [sampleSymbolPin] }] }
theorem sampleSymbol_wf : sampleSymbol.WF := .mk _
  { id := (.top k!"R" (by decide) (by decide) (by decide) (by intro p u s h hp; cases p <;> simp at h hp)),
    extends_ := (by optOk; exact by textOk),
    pinNames := (by intro h; cases h),
    pinNamesOffset := (by optOk; exact ok_f254),
    properties := (by listOk; (· exact sampleProperty_wf)),
    graphicItems := (by listOk; (· exact sampleSyArc_wf); (· exact sampleSyCircle_wf); (· exact sampleSyPolyLine_wf); (· exact sampleSyRect_wf); (· exact sampleSyText_wf); (· exact sampleSyTextBox_wf)),
    pins := (by listOk; (· exact sampleSymbolPin_wf)) }
  (by listOk; exact .mk _ {
    id := .unit k!"R" 1 1 (by decide) (by decide) (by decide), extends_ := (by optOk), pinNames := fun _ => ⟨rfl, rfl⟩, pinNamesOffset := (by optOk),
    properties := (by listOk), graphicItems := (by listOk; exact sampleSyRect_wf), pins := (by listOk; exact sampleSymbolPin_wf) } (by listOk))

def sampleSymbolLib : SymbolLib :=
  { version := .str k!"5e1f-00", generator := some (.str k!"kicad_symbol_editor"), symbols := [sampleSymbol], filePath := some k!"/a/b.kicad_sym" }
theorem sampleSymbolLib_wf : sampleSymbolLib.WF :=
  { version := (.inr (by tokOk)),
    generator := (⟨_, rfl, .inr (by tokOk)⟩),
    symbols := (by listOk; (· exact sampleSymbol_wf)) }

def sampleJunction : Junction :=
  { position := samplePositionXY, diameter := .int (-12), color := .rgba sampleColorRGBA, uuid := some (.str k!"word") }
theorem sampleJunction_wf : sampleJunction.WF :=
  { position := (samplePositionXY_wf),
    diameter := (ok_int (by decide)),
    color := (sampleColorRGBA_wf),
    uuid := (by optOk; exact by tokOk) }

def sampleNoConnect : NoConnect :=
  { position := samplePositionXY, uuid := some (.str k!"word") }
theorem sampleNoConnect_wf : sampleNoConnect.WF :=
  { position := (samplePositionXY_wf),
    uuid := (by optOk; exact by tokOk) }

def sampleBusEntry : BusEntry :=
  { position := samplePositionXY, uuid := some (.str k!"word"), size := samplePositionXY, stroke := sampleStroke }
theorem sampleBusEntry_wf : sampleBusEntry.WF :=
  { position := (samplePositionXY_wf),
    size := (samplePositionXY_wf),
    stroke := (sampleStroke_wf),
    uuid := (by optOk; exact by tokOk) }

def sampleBusAlias : BusAlias :=
  { name := .str k!"a \"b\" (c)", members := [.str k!"a \"b\" (c)", .str k!"a \"b\" (c)"] }
theorem sampleBusAlias_wf : sampleBusAlias.WF :=
  { name := (by textOk),
    members := (by listOk <;> exact by textOk) }

def sampleConnection : Connection :=
  { type := .str k!"bus", points := [samplePositionXY], stroke := sampleStroke, uuid := some (.str k!"word") }
theorem sampleConnection_wf : sampleConnection.WF :=
  { type := (.inr rfl),
    points := (by listOk; (· exact samplePositionXY_wf)),
    stroke := (sampleStroke_wf),
    uuid := (by optOk; exact by tokOk) }

def samplePolyLine : PolyLine :=
  { points := [samplePositionXY], stroke := sampleStroke, uuid := some (.str k!"word") }
theorem samplePolyLine_wf : samplePolyLine.WF :=
  { points := (by listOk; (· exact samplePositionXY_wf)),
    stroke := (sampleStroke_wf),
    uuid := (by optOk; exact by tokOk) }

def sampleText : Text :=
  { text := .str k!"a \"b\" (c)", position := samplePosition, effects := sampleEffects, uuid := some (.str k!"word") }
theorem sampleText_wf : sampleText.WF :=
  { text := (by textOk),
    position := (samplePosition_wf),
    effects := (sampleEffects_wf),
    uuid := (by optOk; exact by tokOk) }

def sampleTextBox : TextBox :=
  { text := .str k!"a \"b\" (c)", position := samplePosition, size := samplePositionXY, stroke := sampleStroke, fill := sampleFill, effects := sampleEffects, uuid := some (.str k!"word") }
theorem sampleTextBox_wf : sampleTextBox.WF :=
  { text := (by textOk),
    position := (samplePosition_wf),
    size := (samplePositionXY_wf),
    stroke := (sampleStroke_wf),
    fill := (sampleFill_wf),
    effects := (sampleEffects_wf),
    uuid := (by optOk; exact by tokOk) }

def sampleLocalLabel : LocalLabel :=
  { text := .str k!"a \"b\" (c)", position := samplePosition, effects := sampleEffects, uuid := some (.str k!"word"), fieldsAutoplaced := true }
theorem sampleLocalLabel_wf : sampleLocalLabel.WF :=
  { text := (by textOk),
    position := (samplePosition_wf),
    effects := (sampleEffects_wf),
    uuid := (by optOk; exact by tokOk) }

def sampleGlobalLabel : GlobalLabel :=
  { text := .str k!"a \"b\" (c)", shape := .str k!"word", fieldsAutoplaced := true, position := samplePosition, effects := sampleEffects, uuid := some (.str k!"word"), properties := [sampleProperty] }
theorem sampleGlobalLabel_wf : sampleGlobalLabel.WF :=
  { text := (by textOk),
    shape := (by tokOk),
    position := (samplePosition_wf),
    effects := (sampleEffects_wf),
    uuid := (by optOk; exact by tokOk),
    properties := (by listOk; (· exact sampleProperty_wf)) }

def sampleHierarchicalLabel : HierarchicalLabel :=
  { text := .str k!"a \"b\" (c)", shape := .str k!"word", position := samplePosition, effects := sampleEffects, uuid := some (.str k!"word"), fieldsAutoplaced := true }
theorem sampleHierarchicalLabel_wf : sampleHierarchicalLabel.WF :=
  { text := (by textOk),
    shape := (by tokOk),
    position := (samplePosition_wf),
    effects := (sampleEffects_wf),
    uuid := (by optOk; exact by tokOk) }

def sampleSymbolProjectPath : SymbolProjectPath :=
  { sheetInstancePath := .str k!"a \"b\" (c)", reference := .str k!"a \"b\" (c)", unit := .int 3 }
theorem sampleSymbolProjectPath_wf : sampleSymbolProjectPath.WF :=
  { sheetInstancePath := (by textOk),
    reference := (by textOk),
    unit := (ok_int (by decide)) }

def sampleSymbolProjectInstance : SymbolProjectInstance :=
  { name := .str k!"a \"b\" (c)", paths := [sampleSymbolProjectPath] }
theorem sampleSymbolProjectInstance_wf : sampleSymbolProjectInstance.WF :=
  { name := (by textOk),
    paths := (by listOk; (· exact sampleSymbolProjectPath_wf)) }

def sampleSchematicSymbol : SchematicSymbol :=
  { libraryNickname := some (.str k!"Device"), entryName := some (.str k!"R:1"), libName := some (.str k!"a \"b\" (c)"), position := samplePosition, unit := some (.flt f254), inBom := true, onBoard := true, dnp := some false, fieldsAutoplaced := true, uuid := some (.str k!"0f-1"), properties := [sampleProperty], pins := [(.str k!"1", .str k!"1e-2"), (.str k!"2", .str k!"ab-3")], mirror := some (.str k!"word"), instances := [sampleSymbolProjectInstance] }
theorem sampleSchematicSymbol_wf : sampleSchematicSymbol.WF :=
  { libName := (by optOk; exact by textOk),
    id := (.nick k!"Device" k!"R:1" (by decide) (by decide) (by decide) (by decide) (by decide) (by decide)),
    position := (samplePosition_wf),
    mirror := (by optOk; exact by tokOk),
    unit := (by optOk; exact ok_f254),
    uuid := (⟨_, rfl, .inr (by tokOk)⟩),
    properties := (by listOk; (· exact sampleProperty_wf)),
    pinNumbers := (by listOk <;> textOk),
    pinIds := (by listOk <;> tokOk),
    distinct := (by pairOk),
    instances := (by listOk; (· exact sampleSymbolProjectInstance_wf)) }

def sampleHierarchicalPin : HierarchicalPin :=
  { name := .str k!"a \"b\" (c)", connectionType := .str k!"word", position := samplePosition, effects := sampleEffects, uuid := some (.str k!"word") }
theorem sampleHierarchicalPin_wf : sampleHierarchicalPin.WF :=
  { name := (by textOk),
    connectionType := (by tokOk),
    position := (samplePosition_wf),
    effects := (sampleEffects_wf),
    uuid := (by optOk; exact by tokOk) }

def sampleHierarchicalSheetProjectPath : HierarchicalSheetProjectPath :=
  { sheetInstancePath := .str k!"a \"b\" (c)", page := .str k!"a \"b\" (c)" }
theorem sampleHierarchicalSheetProjectPath_wf : sampleHierarchicalSheetProjectPath.WF :=
  { sheetInstancePath := (by textOk),
    page := (by textOk) }

def sampleHierarchicalSheetProjectInstance : HierarchicalSheetProjectInstance :=
  { name := .str k!"a \"b\" (c)", paths := [sampleHierarchicalSheetProjectPath] }
theorem sampleHierarchicalSheetProjectInstance_wf : sampleHierarchicalSheetProjectInstance.WF :=
  { name := (by textOk),
    paths := (by listOk; (· exact sampleHierarchicalSheetProjectPath_wf)) }

def sampleHierarchicalSheet : HierarchicalSheet :=
  { position := samplePositionXY, width := .int (-12), height := .int 3, fieldsAutoplaced := true, stroke := sampleStroke, fill := sampleColorRGBA, uuid := some (.str k!"word"), sheetName := { sampleProperty with key := .str k!"Sheetname" }, fileName := { sampleProperty with key := .str k!"Sheetfile" }, properties := [sampleProperty], pins := [sampleHierarchicalPin], instances := [sampleHierarchicalSheetProjectInstance] }
theorem sampleHierarchicalSheet_wf : sampleHierarchicalSheet.WF :=
  { position := (samplePositionXY_wf),
    width := (ok_int (by decide)),
    height := (ok_int (by decide)),
    stroke := (sampleStroke_wf),
    fill := (⟨sampleColorRGBA_wf.R, sampleColorRGBA_wf.G, sampleColorRGBA_wf.B, .inl ⟨rfl, sampleColorRGBA_wf.A⟩⟩),
    uuid := (by optOk; exact by tokOk),
    sheetName := ({ sampleProperty_wf with key := by textOk }),
    sheetName_key := (.inr rfl),
    fileName := ({ sampleProperty_wf with key := by textOk }),
    fileName_key := (.inr rfl),
    properties := (by listOk; (· exact sampleProperty_wf)),
    properties_key := (by intro v hv; cases List.mem_singleton.mp hv; exact ⟨(by intro h; cases h), (by intro h; cases h), (by intro h; cases h), (by intro h; cases h)⟩),
    pins := (by listOk; (· exact sampleHierarchicalPin_wf)),
    instances := (by listOk; (· exact sampleHierarchicalSheetProjectInstance_wf)) }

def sampleHierarchicalSheetInstance : HierarchicalSheetInstance :=
  { instancePath := .str k!"a \"b\" (c)", page := .str k!"a \"b\" (c)" }
theorem sampleHierarchicalSheetInstance_wf : sampleHierarchicalSheetInstance.WF :=
  { instancePath := (by textOk),
    page := (by textOk) }

def sampleSymbolInstance : SymbolInstance :=
  { path := .str k!"a \"b\" (c)", reference := .str k!"a \"b\" (c)", unit := .flt f254, value := .str k!"a \"b\" (c)", footprint := .str k!"a \"b\" (c)" }
theorem sampleSymbolInstance_wf : sampleSymbolInstance.WF :=
  { path := (by textOk),
    reference := (by textOk),
    unit := (ok_f254),
    value := (by textOk),
    footprint := (by textOk) }

def sampleRectangle : Rectangle :=
  { start := samplePositionXY, «end» := samplePositionXY, stroke := sampleStroke, fill := sampleFill, uuid := some (.str k!"word") }
theorem sampleRectangle_wf : sampleRectangle.WF :=
  { start := (samplePositionXY_wf),
    «end» := (samplePositionXY_wf),
    stroke := (sampleStroke_wf),
    fill := (sampleFill_wf),
    uuid := (by optOk; exact by tokOk) }

def sampleArc : Arc :=
  { start := samplePositionXY, mid := samplePositionXY, «end» := samplePositionXY, stroke := sampleStroke, fill := sampleFill, uuid := some (.str k!"word") }
theorem sampleArc_wf : sampleArc.WF :=
  { start := (samplePositionXY_wf),
    mid := (samplePositionXY_wf),
    «end» := (samplePositionXY_wf),
    stroke := (sampleStroke_wf),
    fill := (sampleFill_wf),
    uuid := (by optOk; exact by tokOk) }

def sampleCircle : Circle :=
  { center := samplePositionXY, radius := .int (-12), stroke := sampleStroke, fill := sampleFill, uuid := some (.str k!"word") }
theorem sampleCircle_wf : sampleCircle.WF :=
  { center := (samplePositionXY_wf),
    radius := (ok_int (by decide)),
    stroke := (sampleStroke_wf),
    fill := (sampleFill_wf),
    uuid := (by optOk; exact by tokOk) }

def sampleNetclassFlag : NetclassFlag :=
  { text := .str k!"a \"b\" (c)", length := .int 3, shape := .str k!"word", position := samplePosition, effects := some sampleEffects, properties := [sampleProperty], uuid := some (.str k!"word"), fieldsAutoplaced := true }
theorem sampleNetclassFlag_wf : sampleNetclassFlag.WF :=
  { text := (by textOk),
    length := (ok_int (by decide)),
    shape := (by tokOk),
    position := (samplePosition_wf),
    effects := (⟨_, rfl, sampleEffects_wf⟩),
    uuid := (by optOk; exact by tokOk),
    properties := (by listOk; (· exact sampleProperty_wf)) }

def sampleSchematic : Schematic :=
  { version := .int 20211014, generator := .str k!"5e1f-00", uuid := some (.str k!"word"), paper := samplePageSettings, titleBlock := some (sampleTitleBlock), libSymbols := [sampleSymbol], schematicSymbols := [sampleSchematicSymbol], junctions := [sampleJunction], noConnects := [sampleNoConnect], busEntries := [sampleBusEntry], busAliases := [sampleBusAlias], graphicalItems := [.connection sampleConnection, .polyline samplePolyLine], shapes := [.arc sampleArc, .circle sampleCircle, .rectangle sampleRectangle], images := [sampleImage], texts := [sampleText], textBoxes := [sampleTextBox], labels := [sampleLocalLabel], globalLabels := [sampleGlobalLabel], hierarchicalLabels := [sampleHierarchicalLabel], netclassFlags := [sampleNetclassFlag], sheets := [sampleHierarchicalSheet], sheetInstances := [sampleHierarchicalSheetInstance], symbolInstances := [sampleSymbolInstance], filePath := some k!"/a/b.kicad_sch" }
theorem sampleSchematic_wf : sampleSchematic.WF :=
  { version := (.inl (ok_int (by decide))),
    generator := (.inr (by tokOk)),
    uuid := (by optOk; exact by tokOk),
    paper := (samplePageSettings_wf),
    titleBlock := (by optOk; exact sampleTitleBlock_wf),
    libSymbols := (by listOk; (· exact sampleSymbol_wf)),
    junctions := (by listOk; (· exact sampleJunction_wf)),
    noConnects := (by listOk; (· exact sampleNoConnect_wf)),
    busEntries := (by listOk; (· exact sampleBusEntry_wf)),
    busAliases := (by listOk; (· exact sampleBusAlias_wf)),
    graphicalItems := (by listOk; (· exact sampleConnection_wf); (· exact samplePolyLine_wf)),
    shapes := (by listOk; (· exact sampleArc_wf); (· exact sampleCircle_wf); (· exact sampleRectangle_wf)),
    images := (by listOk; (· exact sampleImage_wf)),
    textBoxes := (by listOk; (· exact sampleTextBox_wf)),
    texts := (by listOk; (· exact sampleText_wf)),
    labels := (by listOk; (· exact sampleLocalLabel_wf)),
    globalLabels := (by listOk; (· exact sampleGlobalLabel_wf)),
    hierarchicalLabels := (by listOk; (· exact sampleHierarchicalLabel_wf)),
    netclassFlags := (by listOk; (· exact sampleNetclassFlag_wf)),
    schematicSymbols := (by listOk; (· exact sampleSchematicSymbol_wf)),
    sheets := (by listOk; (· exact sampleHierarchicalSheet_wf)),
    sheetInstances := (by listOk; (· exact sampleHierarchicalSheetInstance_wf)),
    symbolInstances := (by listOk; (· exact sampleSymbolInstance_wf)) }

def sampleGrText : GrText :=
  { text := .str k!"a \"b\" (c)", knockout := true, position := samplePosition, layer := some (.str k!"a \"b\" (c)"), effects := sampleEffects, tstamp := some (.int 20211014), locked := false, renderCache := some (sampleRenderCache) }
theorem sampleGrText_wf : sampleGrText.WF :=
  { text := (by textOk),
    position := (samplePosition_wf),
    layer := (by optOk; exact by textOk),
    tstamp := (by optOk; exact .inl (ok_int (by decide))),
    effects := (sampleEffects_wf),
    renderCache := (by optOk; exact sampleRenderCache_wf),
    knockout := (by intro h; cases h),
    locked := (rfl) }

def sampleGrTextBox : GrTextBox :=
  { locked := true, text := .str k!"a \"b\" (c)", start := some samplePositionXY, «end» := some samplePositionXY, pts := [], angle := none, layer := .str k!"a \"b\" (c)", tstamp := some (.str k!"5e1f-00"), effects := some (sampleEffects), stroke := some (sampleStroke), renderCache := some (sampleRenderCache) }
theorem sampleGrTextBox_wf : sampleGrTextBox.WF :=
  { text := (by textOk),
    pts := (by listOk),
    start := (by optOk; exact samplePositionXY_wf),
    «end» := (by optOk; exact samplePositionXY_wf),
    angle := (by optOk),
    layer := (by textOk),
    tstamp := (by optOk; exact .inr (by tokOk)),
    effects := (by optOk; exact sampleEffects_wf),
    stroke := (by optOk; exact sampleStroke_wf),
    renderCache := (by optOk; exact sampleRenderCache_wf),
    four := (.inl rfl),
    oblique := (by intro a h; cases h),
    corners := (fun _ => ⟨(by intro h; cases h), (by intro h; cases h)⟩) }

def sampleGrLine : GrLine :=
  { start := samplePositionXY, «end» := samplePositionXY, angle := none, layer := some (.str k!"a \"b\" (c)"), width := some (.flt f254), tstamp := some (.int 20211014), locked := true }
theorem sampleGrLine_wf : sampleGrLine.WF :=
  { start := (samplePositionXY_wf),
    «end» := (samplePositionXY_wf),
    layer := (by optOk; exact by textOk),
    width := (⟨_, rfl, ok_f254⟩),
    tstamp := (by optOk; exact .inl (ok_int (by decide))),
    angle := (rfl) }

def sampleGrRect : GrRect :=
  { start := samplePositionXY, «end» := samplePositionXY, layer := some (.str k!"a \"b\" (c)"), width := some (.int (-12)), fill := some (.str k!"word"), tstamp := some (.str k!"5e1f-00"), locked := true }
theorem sampleGrRect_wf : sampleGrRect.WF :=
  { start := (samplePositionXY_wf),
    «end» := (samplePositionXY_wf),
    layer := (by optOk; exact by textOk),
    width := (⟨_, rfl, ok_int (by decide)⟩),
    fill := (by optOk; exact by tokOk),
    tstamp := (by optOk; exact .inr (by tokOk)) }

def sampleGrCircle : GrCircle :=
  { center := samplePositionXY, «end» := samplePositionXY, layer := some (.str k!"a \"b\" (c)"), width := some (.int 3), fill := some (.str k!"word"), tstamp := some (.int 20211014), locked := true }
theorem sampleGrCircle_wf : sampleGrCircle.WF :=
  { center := (samplePositionXY_wf),
    «end» := (samplePositionXY_wf),
    layer := (by optOk; exact by textOk),
    width := (⟨_, rfl, ok_int (by decide)⟩),
    fill := (by optOk; exact by tokOk),
    tstamp := (by optOk; exact .inl (ok_int (by decide))) }

def sampleGrArc : GrArc :=
  { start := samplePositionXY, mid := samplePositionXY, «end» := samplePositionXY, layer := some (.str k!"a \"b\" (c)"), width := some (.flt f254), tstamp := some (.str k!"5e1f-00"), locked := true }
theorem sampleGrArc_wf : sampleGrArc.WF :=
  { start := (samplePositionXY_wf),
    mid := (samplePositionXY_wf),
    «end» := (samplePositionXY_wf),
    layer := (by optOk; exact by textOk),
    width := (⟨_, rfl, ok_f254⟩),
    tstamp := (by optOk; exact .inr (by tokOk)) }

def sampleGrPoly : GrPoly :=
  { layer := some (.str k!"a \"b\" (c)"), coordinates := [samplePositionXY], width := some (.int (-12)), fill := some (.str k!"word"), tstamp := some (.int 20211014), locked := true }
theorem sampleGrPoly_wf : sampleGrPoly.WF :=
  { coordinates := (by listOk; (· exact samplePositionXY_wf)),
    layer := (by optOk; exact by textOk),
    width := (⟨_, rfl, ok_int (by decide)⟩),
    fill := (by optOk; exact by tokOk),
    tstamp := (by optOk; exact .inl (ok_int (by decide))),
    nonempty := (rfl) }

def sampleGrCurve : GrCurve :=
  { coordinates := [samplePositionXY], layer := some (.str k!"a \"b\" (c)"), width := some (.int 3), tstamp := some (.str k!"5e1f-00"), locked := true }
theorem sampleGrCurve_wf : sampleGrCurve.WF :=
  { coordinates := (by listOk; (· exact samplePositionXY_wf)),
    layer := (by optOk; exact by textOk),
    width := (⟨_, rfl, ok_int (by decide)⟩),
    tstamp := (by optOk; exact .inr (by tokOk)),
    nonempty := (rfl) }

def samplePositionU : Position :=
  { X := .flt f254, Y := .int (-12), angle := some (.int 3), unlocked := true }
theorem samplePositionU_wf : samplePositionU.WFU :=
  { X := (ok_f254),
    Y := (ok_int (by decide)),
    angle := (by optOk; exact ok_int (by decide)) }

def sampleFpText : FpText :=
  { type := .str k!"word", text := .str k!"a \"b\" (c)", position := samplePositionU, layer := .str k!"a \"b\" (c)", knockout := true, hide := true, effects := sampleEffects, tstamp := some (.int 20211014), renderCache := some (sampleRenderCache) }
theorem sampleFpText_wf : sampleFpText.WF :=
  { type := (by tokOk),
    text := (by textOk),
    position := (samplePositionU_wf),
    layer := (by textOk),
    effects := (sampleEffects_wf),
    tstamp := (by optOk; exact .inl (ok_int (by decide))),
    renderCache := (by optOk; exact sampleRenderCache_wf) }

def sampleFpLine : FpLine :=
  { start := samplePositionXY, «end» := samplePositionXY, layer := .str k!"a \"b\" (c)", width := some (.flt f254), stroke := none, locked := false, tstamp := some (.str k!"5e1f-00") }
theorem sampleFpLine_wf : sampleFpLine.WF :=
  { start := (samplePositionXY_wf),
    «end» := (samplePositionXY_wf),
    layer := (by textOk),
    width := (.inl ⟨_, rfl, ok_f254, rfl⟩),
    tstamp := (by optOk; exact .inr (by tokOk)),
    locked := (rfl) }

def sampleFpRect : FpRect :=
  { start := samplePositionXY, «end» := samplePositionXY, layer := .str k!"a \"b\" (c)", width := none, stroke := some sampleStroke, fill := some (.str k!"word"), locked := true, tstamp := some (.int 20211014) }
theorem sampleFpRect_wf : sampleFpRect.WF :=
  { start := (samplePositionXY_wf),
    «end» := (samplePositionXY_wf),
    layer := (by textOk),
    width := (.inr ⟨rfl, _, rfl, sampleStroke_wf⟩),
    fill := (by optOk; exact by tokOk),
    tstamp := (by optOk; exact .inl (ok_int (by decide))) }

def sampleFpTextBox : FpTextBox :=
  { locked := true, text := .str k!"a \"b\" (c)", start := some samplePositionXY, «end» := some samplePositionXY, pts := [], angle := none, layer := .str k!"a \"b\" (c)", tstamp := some (.str k!"5e1f-00"), effects := some (sampleEffects), stroke := some (sampleStroke), renderCache := some (sampleRenderCache) }
theorem sampleFpTextBox_wf : sampleFpTextBox.WF :=
  { text := (by textOk),
    pts := (by listOk),
    start := (by optOk; exact samplePositionXY_wf),
    «end» := (by optOk; exact samplePositionXY_wf),
    angle := (by optOk),
    layer := (by textOk),
    tstamp := (by optOk; exact .inr (by tokOk)),
    effects := (by optOk; exact sampleEffects_wf),
    stroke := (by optOk; exact sampleStroke_wf),
    renderCache := (by optOk; exact sampleRenderCache_wf),
    four := (.inl rfl),
    oblique := (by intro a h; cases h),
    corners := (fun _ => ⟨(by intro h; cases h), (by intro h; cases h)⟩) }

def sampleFpCircle : FpCircle :=
  { center := samplePositionXY, «end» := samplePositionXY, layer := .str k!"a \"b\" (c)", width := some (.flt f254), stroke := none, fill := some (.str k!"word"), locked := true, tstamp := some (.int 20211014) }
theorem sampleFpCircle_wf : sampleFpCircle.WF :=
  { center := (samplePositionXY_wf),
    «end» := (samplePositionXY_wf),
    layer := (by textOk),
    width := (.inl ⟨_, rfl, ok_f254, rfl⟩),
    fill := (by optOk; exact by tokOk),
    tstamp := (by optOk; exact .inl (ok_int (by decide))) }

def sampleFpArc : FpArc :=
  { start := samplePositionXY, mid := samplePositionXY, «end» := samplePositionXY, layer := .str k!"a \"b\" (c)", width := none, stroke := some sampleStroke, locked := true, tstamp := some (.str k!"5e1f-00") }
theorem sampleFpArc_wf : sampleFpArc.WF :=
  { start := (samplePositionXY_wf),
    mid := (samplePositionXY_wf),
    «end» := (samplePositionXY_wf),
    layer := (by textOk),
    width := (.inr ⟨rfl, _, rfl, sampleStroke_wf⟩),
    tstamp := (by optOk; exact .inr (by tokOk)) }

def sampleFpPoly : FpPoly :=
  { layer := .str k!"a \"b\" (c)", coordinates := [samplePositionXY], width := some (.flt f254), stroke := none, fill := some (.str k!"word"), locked := true, tstamp := some (.int 20211014) }
theorem sampleFpPoly_wf : sampleFpPoly.WF :=
  { coordinates := (by listOk; (· exact samplePositionXY_wf)),
    layer := (by textOk),
    width := (.inl ⟨_, rfl, ok_f254, rfl⟩),
    fill := (by optOk; exact by tokOk),
    tstamp := (by optOk; exact .inl (ok_int (by decide))),
    nonempty := (rfl) }

def sampleFpCurve : FpCurve :=
  { coordinates := [samplePositionXY], layer := .str k!"a \"b\" (c)", width := none, stroke := some sampleStroke, locked := true, tstamp := some (.str k!"5e1f-00") }
theorem sampleFpCurve_wf : sampleFpCurve.WF :=
  { coordinates := (by listOk; (· exact samplePositionXY_wf)),
    layer := (by textOk),
    width := (.inr ⟨rfl, _, rfl, sampleStroke_wf⟩),
    tstamp := (by optOk; exact .inr (by tokOk)),
    nonempty := (rfl) }

def sampleKeepoutSettings : KeepoutSettings :=
  { tracks := .str k!"word", vias := .str k!"word", pads := .str k!"word", copperpour := .str k!"word", footprints := .str k!"word" }
theorem sampleKeepoutSettings_wf : sampleKeepoutSettings.WF :=
  { tracks := (by tokOk),
    vias := (by tokOk),
    pads := (by tokOk),
    copperpour := (by tokOk),
    footprints := (by tokOk) }

def sampleFillSettings : FillSettings :=
  { yes := true, mode := some (.str k!"word"), thermalGap := some (.flt f254), thermalBridgeWidth := some (.int (-12)), smoothingStyle := some (.str k!"word"), smoothingRadius := some (.int 3), islandRemovalMode := some (.flt f254), islandAreaMin := some (.int (-12)), hatchThickness := some (.int 3), hatchGap := some (.flt f254), hatchOrientation := some (.int (-12)), hatchSmoothingLevel := some (.int 3), hatchSmoothingValue := some (.flt f254), hatchBorderAlgorithm := some (.int 20211014), hatchMinHoleArea := some (.int (-12)) }
theorem sampleFillSettings_wf : sampleFillSettings.WF :=
  { mode := (by optOk; exact by tokOk),
    thermalGap := (⟨_, rfl, ok_f254⟩),
    thermalBridgeWidth := (⟨_, rfl, ok_int (by decide)⟩),
    smoothingStyle := (by optOk; exact by tokOk),
    smoothingRadius := (by optOk; exact ok_int (by decide)),
    islandRemovalMode := (by optOk; exact ok_f254),
    islandAreaMin := (by optOk; exact ok_int (by decide)),
    hatchThickness := (by optOk; exact ok_int (by decide)),
    hatchGap := (by optOk; exact ok_f254),
    hatchOrientation := (by optOk; exact ok_int (by decide)),
    hatchSmoothingLevel := (by optOk; exact ok_int (by decide)),
    hatchSmoothingValue := (by optOk; exact ok_f254),
    hatchBorderAlgorithm := (by optOk; exact .inl (ok_int (by decide))),
    hatchMinHoleArea := (by optOk; exact ok_int (by decide)) }

def sampleZonePolygon : ZonePolygon :=
  { coordinates := [samplePositionXY] }
theorem sampleZonePolygon_wf : sampleZonePolygon.WF :=
  { coordinates := (by listOk; (· exact samplePositionXY_wf)),
    nonempty := (rfl) }

def sampleFilledPolygon : FilledPolygon :=
  { layer := .str k!"a \"b\" (c)", island := true, coordinates := [samplePositionXY] }
theorem sampleFilledPolygon_wf : sampleFilledPolygon.WF :=
  { layer := (by textOk),
    coordinates := (by listOk; (· exact samplePositionXY_wf)),
    nonempty := (rfl) }

def sampleFillSegments : FillSegments :=
  { layer := .str k!"a \"b\" (c)", coordinates := [samplePositionXY] }
theorem sampleFillSegments_wf : sampleFillSegments.WF :=
  { layer := (by textOk),
    coordinates := (by listOk; (· exact samplePositionXY_wf)),
    nonempty := (rfl) }

def sampleZone : Zone :=
  { locked := true, net := .int 3, netName := .str k!"a \"b\" (c)", layers := [.str k!"F.Cu", .str k!"B.Cu"], tstamp := some (.str k!"5e1f-00"), name := some (.str k!"a \"b\" (c)"), hatch := { style := .str k!"edge", pitch := .flt f254 }, priority := some (.flt f254), connectPads := some (.str k!"word"), clearance := .int (-12), minThickness := .int 3, filledAreasThickness := some (.str k!"word"), keepoutSettings := some (sampleKeepoutSettings), fillSettings := some (sampleFillSettings), polygons := [sampleZonePolygon], filledPolygons := [sampleFilledPolygon], fillSegments := some (sampleFillSegments) }
theorem sampleZone_wf : sampleZone.WF :=
  { net := (ok_int (by decide)),
    netName := (by textOk),
    layers := (by listOk <;> textOk),
    tstamp := (by optOk; exact .inr (by tokOk)),
    name := (by optOk; exact by textOk),
    style := (by tokOk),
    pitch := (ok_f254),
    priority := (by optOk; exact ok_f254),
    connectPads := (by optOk; exact by tokOk),
    clearance := (ok_int (by decide)),
    minThickness := (ok_int (by decide)),
    filledAreasThickness := (by optOk; exact by tokOk),
    keepoutSettings := (by optOk; exact sampleKeepoutSettings_wf),
    fillSettings := (by optOk; exact sampleFillSettings_wf),
    polygons := (by listOk; (· exact sampleZonePolygon_wf)),
    filledPolygons := (by listOk; (· exact sampleFilledPolygon_wf)),
    fillSegments := (by optOk; exact sampleFillSegments_wf),
    nonempty := (by intro h; cases h) }

def sampleAttributes : Attributes :=
  { type := some (.str k!"smd"), boardOnly := true, excludeFromPosFiles := true, excludeFromBom := true, allowMissingCourtyard := true }
theorem sampleAttributes_wf : sampleAttributes.WF :=
  { type := (by optOk; exact .inr rfl) }

def sampleModel : Model :=
  { path := .str k!"a \"b\" (c)", pos := sampleCoordinate, scale := sampleCoordinate, rotate := sampleCoordinate, hide := true, opacity := some (.flt f254) }
theorem sampleModel_wf : sampleModel.WF :=
  { path := (by textOk),
    opacity := (by optOk; exact ok_f254),
    pos := (sampleCoordinate_wf),
    scale := (sampleCoordinate_wf),
    rotate := (sampleCoordinate_wf) }

def sampleDrillDefinition : DrillDefinition :=
  { oval := true, diameter := .int (-12), width := some (.int 2), offset := some samplePositionXY }
theorem sampleDrillDefinition_wf : sampleDrillDefinition.WF :=
  { diameter := (ok_int (by decide)),
    oval := (fun _ => ⟨_, rfl, ok_int (by decide)⟩),
    round := (by intro h; cases h),
    offset := (by optOk; exact samplePositionXY_wf) }

def samplePadOptions : PadOptions :=
  { clearance := .str k!"word", anchor := .str k!"word" }
theorem samplePadOptions_wf : samplePadOptions.WF :=
  { clearance := (by tokOk),
    anchor := (by tokOk) }

def samplePad : Pad :=
  { number := .str k!"a \"b\" (c)", type := .str k!"word", shape := .str k!"word", position := samplePosition, locked := true, size := samplePositionXY, drill := some (sampleDrillDefinition), layers := [.str k!"*.Mask", .str k!"F.Cu"], property := some (.str k!"word"), removeUnusedLayers := true, keepEndLayers := true, roundrectRatio := some (.int 3), chamferRatio := some (.flt f254), chamfer := [.str k!"word", .str k!"word"], net := some (sampleNet), tstamp := some (.int 20211014), pinFunction := some (.str k!"a \"b\" (c)"), pinType := some (.str k!"a \"b\" (c)"), dieLength := some (.int (-12)), solderMaskMargin := some (.int 3), solderPasteMargin := some (.flt f254), solderPasteMarginRatio := some (.int (-12)), clearance := some (.int 3), zoneConnect := some (.flt f254), thermalWidth := some (.int (-12)), thermalGap := some (.int 3), customPadOptions := some (samplePadOptions), customPadPrimitives := [.line sampleGrLine] }
theorem samplePad_wf : samplePad.WF :=
  { number := (by textOk),
    type := (by tokOk),
    shape := (by tokOk),
    position := (samplePosition_wf),
    size := (samplePositionXY_wf),
    drill := (by optOk; exact sampleDrillDefinition_wf),
    property := (by optOk; exact by tokOk),
    layers := (by listOk; (· exact .inl ⟨rfl, by tokOk⟩); (· exact .inr ⟨rfl, by textOk⟩)),
    roundrectRatio := (by optOk; exact ok_int (by decide)),
    chamferRatio := (by optOk; exact ok_f254),
    chamfer := (by listOk <;> exact by tokOk),
    dieLength := (by optOk; exact ok_int (by decide)),
    net := (by optOk; exact sampleNet_wf),
    pinFunction := (by optOk; exact by textOk),
    pinType := (by optOk; exact by textOk),
    solderMaskMargin := (by optOk; exact ok_int (by decide)),
    solderPasteMargin := (by optOk; exact ok_f254),
    solderPasteMarginRatio := (by optOk; exact ok_int (by decide)),
    clearance := (by optOk; exact ok_int (by decide)),
    zoneConnect := (by optOk; exact ok_f254),
    thermalWidth := (by optOk; exact ok_int (by decide)),
    thermalGap := (by optOk; exact ok_int (by decide)),
    customPadOptions := (by optOk; exact samplePadOptions_wf),
    customPadPrimitives := (by intro v hv; cases List.mem_singleton.mp hv; exact ⟨sampleGrLine_wf, trivial⟩),
    tstamp := (by optOk; exact .inl (ok_int (by decide))),
    shape_ne := (by intro h; cases h) }

def sampleFootprint : Footprint :=
  { libraryNickname := none, entryName := some (.str k!"R_0603"), version := some (.str k!"5e1f-00"), generator := some (.int 20211014), locked := true, placed := true, layer := .str k!"a \"b\" (c)", tedit := .str k!"5f12ab34", tstamp := some (.str k!"5e1f-00"), position := some (samplePosition), description := some (.str k!"a \"b\" (c)"), tags := some (.str k!"a \"b\" (c)"), properties := [(.str k!"a", .str k!"x"), (.str k!"b", .str k!"y \"z\"")], path := some (.str k!"a \"b\" (c)"), autoplaceCost90 := some (.flt f254), autoplaceCost180 := some (.int (-12)), solderMaskMargin := some (.int 3), solderPasteMargin := some (.flt f254), solderPasteRatio := some (.int (-12)), clearance := some (.int 3), zoneConnect := some (.flt f254), thermalWidth := some (.int (-12)), thermalGap := some (.int 3), attributes := sampleAttributes, privateLayers := [.str k!"a \"b\" (c)", .str k!"a \"b\" (c)"], netTiePadGroups := [.str k!"a \"b\" (c)", .str k!"a \"b\" (c)"], graphicItems := [.text sampleFpText, .textBox sampleFpTextBox, .line sampleFpLine, .rect sampleFpRect, .circle sampleFpCircle, .arc sampleFpArc, .poly sampleFpPoly, .curve sampleFpCurve, .image sampleImage], pads := [samplePad], zones := [sampleZone], groups := [sampleGroup], models := [sampleModel], filePath := some k!"/a/b.kicad_mod" }
theorem sampleFootprint_wf : sampleFootprint.WF :=
  { id := (.plain k!"R_0603" (by decide) (by decide)),
    version := (by optOk; exact .inr (by tokOk)),
    generator := (by optOk; exact .inl (ok_int (by decide))),
    layer := (by textOk),
    tedit := (.inr (by tokOk)),
    tstamp := (by optOk; exact .inr (by tokOk)),
    position := (by optOk; exact samplePosition_wf),
    description := (by optOk; exact by textOk),
    tags := (by optOk; exact by textOk),
    propertyNames := (by listOk <;> textOk),
    properties := (by listOk <;> textOk),
    distinct := (by pairOk),
    path := (by optOk; exact by textOk),
    autoplaceCost90 := (by optOk; exact ok_f254),
    autoplaceCost180 := (by optOk; exact ok_int (by decide)),
    solderMaskMargin := (by optOk; exact ok_int (by decide)),
    solderPasteMargin := (by optOk; exact ok_f254),
    solderPasteRatio := (by optOk; exact ok_int (by decide)),
    clearance := (by optOk; exact ok_int (by decide)),
    zoneConnect := (by optOk; exact ok_f254),
    thermalWidth := (by optOk; exact ok_int (by decide)),
    thermalGap := (by optOk; exact ok_int (by decide)),
    attributes := (sampleAttributes_wf),
    privateLayers := (by listOk <;> exact by textOk),
    netTiePadGroups := (by listOk <;> exact by textOk),
    graphicItems := (by listOk; (· exact sampleFpText_wf); (· exact sampleFpTextBox_wf); (· exact sampleFpLine_wf); (· exact sampleFpRect_wf); (· exact sampleFpCircle_wf); (· exact sampleFpArc_wf); (· exact sampleFpPoly_wf); (· exact sampleFpCurve_wf); (· exact sampleImage_wf)),
    pads := (by listOk; (· exact samplePad_wf)),
    zones := (by listOk; (· exact sampleZone_wf)),
    models := (by listOk; (· exact sampleModel_wf)),
    groups := (by listOk; (· exact sampleGroup_wf)) }

def sampleGeneralSettings : GeneralSettings :=
  { thickness := .flt f254 }
theorem sampleGeneralSettings_wf : sampleGeneralSettings.WF :=
  { thickness := (ok_f254) }

def sampleLayerToken : LayerToken :=
  { ordinal := .int (-12), name := .str k!"a \"b\" (c)", type := .int 20211014, userName := some (.str k!"a \"b\" (c)") }
theorem sampleLayerToken_wf : sampleLayerToken.WF :=
  { ordinal := (ok_int (by decide)),
    name := (by textOk),
    type := (.inl (ok_int (by decide))),
    userName := (by optOk; exact by textOk) }

def sampleStackupSubLayer : StackupSubLayer :=
  { thickness := .int 3, material := some (.str k!"a \"b\" (c)"), epsilonR := some (.flt f254), lossTangent := some (.int (-12)) }
theorem sampleStackupSubLayer_wf : sampleStackupSubLayer.WF :=
  { thickness := (ok_int (by decide)),
    material := (by optOk; exact by textOk),
    epsilonR := (by optOk; exact ok_f254),
    lossTangent := (by optOk; exact ok_int (by decide)) }

def sampleStackupLayer : StackupLayer :=
  { name := .str k!"a \"b\" (c)", type := .str k!"F.Cu x", color := some (.str k!"a \"b\" (c)"), thickness := some (.int 3), material := some (.str k!"a \"b\" (c)"), epsilonR := some (.flt f254), lossTangent := some (.int (-12)), subLayers := [sampleStackupSubLayer] }
theorem sampleStackupLayer_wf : sampleStackupLayer.WF :=
  { name := (by textOk),
    type := (⟨by textOk, by decide⟩),
    color := (by optOk; exact by textOk),
    thickness := (by optOk; exact ok_int (by decide)),
    material := (by optOk; exact by textOk),
    epsilonR := (by optOk; exact ok_f254),
    lossTangent := (by optOk; exact ok_int (by decide)),
    subLayers := (by listOk; (· exact sampleStackupSubLayer_wf)) }

def sampleStackup : Stackup :=
  { layers := [sampleStackupLayer], copperFinish := some (.str k!"a \"b\" (c)"), dielectricContraints := some (.str k!"5e1f-00"), edgeConnector := some (.int 20211014), castellatedPads := true, edgePlating := true }
theorem sampleStackup_wf : sampleStackup.WF :=
  { layers := (by listOk; (· exact sampleStackupLayer_wf)),
    copperFinish := (by optOk; exact by textOk),
    dielectricContraints := (by optOk; exact .inr (by tokOk)),
    edgeConnector := (by optOk; exact .inl (ok_int (by decide))) }

def samplePlotSettings : PlotSettings :=
  { layerSelection := .str k!"5e1f-00", plotOnAllLayersSelection := some (.int 20211014), disableApertMacros := true, useGerberExtensions := true, useGerberAttributes := true, useGerberAdvancedAttributes := true, createGerberJobFile := true, dashedLineDashRatio := some (.int 12), dashedLineGapRatio := some (.int 3), svgUseInch := some true, svgPrecision := .int 3, excludeEdgeLayer := some true, plotFameRef := true, viasOnMask := true, mode := .flt f254, useAuxOrigin := true, hpglPenNumber := .int (-12), hpglPenSpeed := .int 3, hpglPenDiameter := .int 15, dxfPolygonMode := true, dxfImperialUnits := true, dxfUsePcbnewFont := true, psNegative := true, psA4Output := true, plotReference := true, plotValue := true, plotInvisibleText := true, sketchPadsOnFab := true, subtractMaskFromSilk := true, outputFormat := .flt f254, mirror := true, drillShape := .int (-12), scaleSelection := .int 3, outputDirectory := .str k!"a \"b\" (c)" }
theorem samplePlotSettings_wf : samplePlotSettings.WF :=
  { layerSelection := (.inr (by tokOk)),
    plotOnAllLayersSelection := (by optOk; exact .inl (ok_int (by decide))),
    dashedLineDashRatio := (by optOk; exact ⟨⟨none, k!"12", some k!"000000"⟩, by numWf, rfl, rfl⟩),
    dashedLineGapRatio := (by optOk; exact ⟨⟨none, k!"3", some k!"000000"⟩, by numWf, rfl, rfl⟩),
    svgPrecision := (ok_int (by decide)),
    mode := (ok_f254),
    hpglPenNumber := (ok_int (by decide)),
    hpglPenSpeed := (ok_int (by decide)),
    hpglPenDiameter := (⟨⟨none, k!"15", some k!"000000"⟩, by numWf, rfl, rfl⟩),
    outputFormat := (ok_f254),
    drillShape := (ok_int (by decide)),
    scaleSelection := (ok_int (by decide)),
    outputDirectory := (by textOk) }

def sampleSetupData : SetupData :=
  { stackup := some (sampleStackup), packToMaskClearance := .flt f254, solderMaskMinWidth := some (.int (-12)), padToPasteClearance := some (.int 3), padToPasteClearanceRatio := some (.flt f254), auxAxisOrigin := some (samplePositionXY), gridOrigin := some (samplePositionXY), plotSettings := some (samplePlotSettings) }
theorem sampleSetupData_wf : sampleSetupData.WF :=
  { stackup := (by optOk; exact sampleStackup_wf),
    packToMaskClearance := (ok_f254),
    solderMaskMinWidth := (by optOk; exact ok_int (by decide)),
    padToPasteClearance := (by optOk; exact ok_int (by decide)),
    padToPasteClearanceRatio := (by optOk; exact ok_f254),
    auxAxisOrigin := (by optOk; exact samplePositionXY_wf),
    gridOrigin := (by optOk; exact samplePositionXY_wf),
    plotSettings := (by optOk; exact samplePlotSettings_wf) }

def sampleSegment : Segment :=
  { start := samplePositionXY, «end» := samplePositionXY, width := .int (-12), layer := .str k!"a \"b\" (c)", locked := true, net := .int 3, tstamp := .str k!"5e1f-00" }
theorem sampleSegment_wf : sampleSegment.WF :=
  { start := (samplePositionXY_wf),
    «end» := (samplePositionXY_wf),
    width := (ok_int (by decide)),
    layer := (by textOk),
    net := (ok_int (by decide)),
    tstamp := (.inr (by tokOk)) }

def sampleVia : Via :=
  { type := some (.str k!"blind"), locked := true, position := samplePositionXY, size := .flt f254, drill := .int (-12), layers := [.str k!"F.Cu", .str k!"B.Cu"], removeUnusedLayers := true, keepEndLayers := true, free := true, net := .int 3, tstamp := some (.int 20211014) }
theorem sampleVia_wf : sampleVia.WF :=
  { type := (by optOk; exact .inr rfl),
    position := (samplePositionXY_wf),
    size := (ok_f254),
    drill := (ok_int (by decide)),
    layers := (by listOk <;> textOk),
    net := (ok_int (by decide)),
    tstamp := (by optOk; exact .inl (ok_int (by decide))) }

def sampleTraceArc : TraceArc :=
  { start := samplePositionXY, mid := samplePositionXY, «end» := samplePositionXY, width := .flt f254, layer := .str k!"a \"b\" (c)", locked := true, net := .int (-12), tstamp := some (.str k!"5e1f-00") }
theorem sampleTraceArc_wf : sampleTraceArc.WF :=
  { start := (samplePositionXY_wf),
    mid := (samplePositionXY_wf),
    «end» := (samplePositionXY_wf),
    width := (ok_f254),
    layer := (by textOk),
    net := (ok_int (by decide)),
    tstamp := (by optOk; exact .inr (by tokOk)) }

def sampleTarget : Target :=
  { type := .int 20211014, position := samplePositionXY, size := .int 3, width := .flt f254, layer := .str k!"F.Cu x", tstamp := some (.str k!"5e1f-00") }
theorem sampleTarget_wf : sampleTarget.WF :=
  { type := (.inl (ok_int (by decide))),
    position := (samplePositionXY_wf),
    size := (ok_int (by decide)),
    width := (ok_f254),
    layer := (⟨by textOk, by decide⟩),
    tstamp := (⟨_, rfl, .inr (by tokOk)⟩) }

def sampleDimensionFormat : DimensionFormat :=
  { «prefix» := some (.str k!"a \"b\" (c)"), suffix := some (.str k!"a \"b\" (c)"), units := .int (-12), unitsFormat := .int 3, precision := .flt f254, overrideValue := some (.str k!"a \"b\" (c)"), suppressZeroes := true }
theorem sampleDimensionFormat_wf : sampleDimensionFormat.WF :=
  { «prefix» := (by optOk; exact by textOk),
    suffix := (by optOk; exact by textOk),
    units := (ok_int (by decide)),
    unitsFormat := (ok_int (by decide)),
    precision := (ok_f254),
    overrideValue := (by optOk; exact by textOk) }

def sampleDimensionStyle : DimensionStyle :=
  { thickness := .int (-12), arrowLength := .int 3, textPositionMode := .flt f254, extensionHeight := some (.int (-12)), textFrame := some (.int 3), extensionOffset := some (.flt f254), keepTextAligned := true }
theorem sampleDimensionStyle_wf : sampleDimensionStyle.WF :=
  { thickness := (ok_int (by decide)),
    arrowLength := (ok_int (by decide)),
    textPositionMode := (ok_f254),
    extensionHeight := (by optOk; exact ok_int (by decide)),
    textFrame := (by optOk; exact ok_int (by decide)),
    extensionOffset := (by optOk; exact ok_f254) }

def sampleDimension : Dimension :=
  { locked := false, type := .int 20211014, layer := .str k!"F.Cu x", tstamp := some (.str k!"5e1f-00"), pts := [samplePositionXY], height := some (.int (-12)), orientation := some (.int 3), leaderLength := some (.flt f254), grText := some (sampleGrText), format := some (sampleDimensionFormat), style := sampleDimensionStyle }
theorem sampleDimension_wf : sampleDimension.WF :=
  { type := (.inl (ok_int (by decide))),
    layer := (⟨by textOk, by decide⟩),
    tstamp := (⟨_, rfl, .inr (by tokOk)⟩),
    pts := (by listOk; (· exact samplePositionXY_wf)),
    height := (by optOk; exact ok_int (by decide)),
    orientation := (by optOk; exact ok_int (by decide)),
    leaderLength := (by optOk; exact ok_f254),
    grText := (by optOk; exact sampleGrText_wf),
    format := (by optOk; exact sampleDimensionFormat_wf),
    style := (sampleDimensionStyle_wf),
    unlocked := (rfl),
    nonempty := (by intro h; cases h) }

def sampleBoard : Board :=
  { version := .int 20211014, generator := .str k!"5e1f-00", general := sampleGeneralSettings, paper := samplePageSettings, titleBlock := some (sampleTitleBlock), layers := [sampleLayerToken], setup := sampleSetupData, properties := [(.str k!"a", .str k!"x"), (.str k!"b", .str k!"y \"z\"")], nets := [sampleNet], footprints := [sampleFootprint], graphicItems := [.text sampleGrText, .textBox sampleGrTextBox, .line sampleGrLine, .rect sampleGrRect, .circle sampleGrCircle, .arc sampleGrArc, .poly sampleGrPoly, .curve sampleGrCurve, .image sampleImage], traceItems := [.segment sampleSegment, .arc sampleTraceArc, .via sampleVia], zones := [sampleZone], dimensions := [sampleDimension], targets := [sampleTarget], groups := [sampleGroup], filePath := some k!"/a/b.kicad_pcb" }
theorem sampleBoard_wf : sampleBoard.WF :=
  { version := (.inl (ok_int (by decide))),
    generator := (.inr (by tokOk)),
    general := (sampleGeneralSettings_wf),
    paper := (samplePageSettings_wf),
    titleBlock := (by optOk; exact sampleTitleBlock_wf),
    layers := (by listOk; (· exact sampleLayerToken_wf)),
    setup := (sampleSetupData_wf),
    propertyNames := (by listOk <;> textOk),
    properties := (by listOk <;> textOk),
    distinct := (by pairOk),
    nets := (by listOk; (· exact sampleNet_wf)),
    footprints := (by listOk; (· exact sampleFootprint_wf)),
    graphicItems := (by listOk; (· exact sampleGrText_wf); (· exact sampleGrTextBox_wf); (· exact sampleGrLine_wf); (· exact sampleGrRect_wf); (· exact sampleGrCircle_wf); (· exact sampleGrArc_wf); (· exact sampleGrPoly_wf); (· exact sampleGrCurve_wf); (· exact sampleImage_wf)),
    dimensions := (by listOk; (· exact sampleDimension_wf)),
    targets := (by listOk; (· exact sampleTarget_wf)),
    traceItems := (by listOk; (· exact sampleSegment_wf); (· exact sampleTraceArc_wf); (· exact sampleVia_wf)),
    zones := (by listOk; (· exact sampleZone_wf)),
    groups := (by listOk; (· exact sampleGroup_wf)) }

end Kiutils
