{
 "claims": [
  {
   "property": "C01",
   "status": "proved",
   "theorems": [
    "Kiutils.C01_regex",
    "Kiutils.C01_reader_outcomes"
   ],
   "note": "All texts; the outcome is characterised by the token depth function of Props/Text.lean."
  },
  {
   "property": "C02",
   "status": "proved",
   "theorems": [
    "Kiutils.C02_nothing_dropped",
    "Kiutils.C02_only_white_space"
   ],
   "note": "All texts."
  },
  {
   "property": "C03",
   "status": "proved",
   "theorems": [
    "Kiutils.C03_quoted_text"
   ],
   "note": "All strings not ending in a backslash, all continuations."
  },
  {
   "property": "C04",
   "status": "proved",
   "theorems": [
    "Kiutils.C04_backslash_merges",
    "Kiutils.C04_backslash_last",
    "Kiutils.C04_backslash_before_word"
   ],
   "note": "Universal description of what happens to texts ending in a backslash; C03's side condition is needed."
  },
  {
   "property": "C05",
   "status": "proved",
   "theorems": [
    "Kiutils.C05_float_range",
    "Kiutils.C05_float_outside",
    "Kiutils.C05_int",
    "Kiutils.C05_int_general",
    "Kiutils.C05_float",
    "Kiutils.C05_int_bound_sharp",
    "Kiutils.C05_line_break"
   ],
   "note": "All integers (exact bound 2^53, sharp), all doubles: zero and 0.0001 <= |f| < 1e16 survive (correct rounding and the 17 digit bound are proved in FloatRange.lean), all others come back as text; line breaks after numbers shown to matter."
  },
  {
   "property": "C06",
   "status": "proved",
   "theorems": [
    "Kiutils.C06_tree_round_trip",
    "Kiutils.C06_every_tree_has_text"
   ],
   "note": "All trees, all layouts (Prints), and every printable tree has such a text."
  },
  {
   "property": "C07",
   "status": "proved",
   "theorems": [
    "Kiutils.C07_first_expression",
    "Kiutils.C07_needs_closed_quotes"
   ],
   "note": ""
  },
  {
   "property": "C08",
   "status": "proved",
   "theorems": [
    "Kiutils.C08_white_space",
    "Kiutils.C08_not_before_bracket"
   ],
   "note": ""
  },
  {
   "property": "C09",
   "status": "proved",
   "theorems": [
    "Kiutils.C09_Library",
    "Kiutils.C09_LibTable",
    "Kiutils.C09_Constraint",
    "Kiutils.C09_Rule",
    "Kiutils.C09_Coordinate",
    "Kiutils.C09_ColorRGBA",
    "Kiutils.C09_Stroke",
    "Kiutils.C09_Font",
    "Kiutils.C09_Justify",
    "Kiutils.C09_Effects",
    "Kiutils.C09_Net",
    "Kiutils.C09_Group",
    "Kiutils.C09_PageSettings",
    "Kiutils.C09_TitleBlock",
    "Kiutils.C09_Property",
    "Kiutils.C09_RenderCachePolygon",
    "Kiutils.C09_RenderCache",
    "Kiutils.C09_Fill",
    "Kiutils.C09_Image",
    "Kiutils.C09_WksFontSize",
    "Kiutils.C09_WksFont",
    "Kiutils.C09_Bitmap",
    "Kiutils.C09_TbText",
    "Kiutils.C09_TextSize",
    "Kiutils.C09_Setup",
    "Kiutils.C09_WorkSheet",
    "Kiutils.C09_SyArc",
    "Kiutils.C09_SyCircle",
    "Kiutils.C09_SyCurve",
    "Kiutils.C09_SyPolyLine",
    "Kiutils.C09_SyRect",
    "Kiutils.C09_SyText",
    "Kiutils.C09_SyTextBox",
    "Kiutils.C09_SymbolAlternativePin",
    "Kiutils.C09_SymbolPin",
    "Kiutils.C09_SymbolLib",
    "Kiutils.C09_Junction",
    "Kiutils.C09_NoConnect",
    "Kiutils.C09_BusEntry",
    "Kiutils.C09_BusAlias",
    "Kiutils.C09_Connection",
    "Kiutils.C09_PolyLine",
    "Kiutils.C09_Text",
    "Kiutils.C09_TextBox",
    "Kiutils.C09_LocalLabel",
    "Kiutils.C09_GlobalLabel",
    "Kiutils.C09_HierarchicalLabel",
    "Kiutils.C09_SymbolProjectPath",
    "Kiutils.C09_SymbolProjectInstance",
    "Kiutils.C09_SchematicSymbol",
    "Kiutils.C09_HierarchicalPin",
    "Kiutils.C09_HierarchicalSheetProjectPath",
    "Kiutils.C09_HierarchicalSheetProjectInstance",
    "Kiutils.C09_HierarchicalSheet",
    "Kiutils.C09_HierarchicalSheetInstance",
    "Kiutils.C09_SymbolInstance",
    "Kiutils.C09_Rectangle",
    "Kiutils.C09_Arc",
    "Kiutils.C09_Circle",
    "Kiutils.C09_NetclassFlag",
    "Kiutils.C09_Schematic",
    "Kiutils.C09_GrText",
    "Kiutils.C09_GrTextBox",
    "Kiutils.C09_GrLine",
    "Kiutils.C09_GrRect",
    "Kiutils.C09_GrCircle",
    "Kiutils.C09_GrArc",
    "Kiutils.C09_GrPoly",
    "Kiutils.C09_GrCurve",
    "Kiutils.C09_FpText",
    "Kiutils.C09_FpLine",
    "Kiutils.C09_FpRect",
    "Kiutils.C09_FpTextBox",
    "Kiutils.C09_FpCircle",
    "Kiutils.C09_FpArc",
    "Kiutils.C09_FpPoly",
    "Kiutils.C09_FpCurve",
    "Kiutils.C09_KeepoutSettings",
    "Kiutils.C09_FillSettings",
    "Kiutils.C09_ZonePolygon",
    "Kiutils.C09_FilledPolygon",
    "Kiutils.C09_FillSegments",
    "Kiutils.C09_Zone",
    "Kiutils.C09_Attributes",
    "Kiutils.C09_Model",
    "Kiutils.C09_DrillDefinition",
    "Kiutils.C09_PadOptions",
    "Kiutils.C09_Pad",
    "Kiutils.C09_Footprint",
    "Kiutils.C09_GeneralSettings",
    "Kiutils.C09_StackupLayer",
    "Kiutils.C09_Stackup",
    "Kiutils.C09_PlotSettings",
    "Kiutils.C09_SetupData",
    "Kiutils.C09_Segment",
    "Kiutils.C09_Via",
    "Kiutils.C09_TraceArc",
    "Kiutils.C09_Target",
    "Kiutils.C09_DimensionFormat",
    "Kiutils.C09_DimensionStyle",
    "Kiutils.C09_Dimension",
    "Kiutils.C09_Board",
    "Kiutils.C09_Symbol",
    "Kiutils.C09_Line",
    "Kiutils.C09_Rect",
    "Kiutils.C09_DesignRules",
    "Kiutils.C09_Position",
    "Kiutils.C09_Position_error",
    "Kiutils.C09_WksPosition",
    "Kiutils.C09_WksPosition_error",
    "Kiutils.C09_LayerToken",
    "Kiutils.C09_LayerToken_error"
   ],
   "note": "All parsed values, all modelled classes with a from_sexpr; the three classes that accept any head are described separately."
  },
  {
   "property": "C10",
   "status": "proved",
   "theorems": [
    "Kiutils.C10_Board",
    "Kiutils.C10_GeneralSettings",
    "Kiutils.C10_Stackup",
    "Kiutils.C10_PlotSettings",
    "Kiutils.C10_SetupData",
    "Kiutils.C10_Segment",
    "Kiutils.C10_Via",
    "Kiutils.C10_TraceArc",
    "Kiutils.C10_Target",
    "Kiutils.C10_Stroke",
    "Kiutils.C10_Font",
    "Kiutils.C10_Effects",
    "Kiutils.C10_Group",
    "Kiutils.C10_TitleBlock",
    "Kiutils.C10_Property",
    "Kiutils.C10_RenderCachePolygon",
    "Kiutils.C10_RenderCache",
    "Kiutils.C10_Fill",
    "Kiutils.C10_Image",
    "Kiutils.C10_DimensionFormat",
    "Kiutils.C10_DimensionStyle",
    "Kiutils.C10_Dimension",
    "Kiutils.C10_Constraint",
    "Kiutils.C10_Rule",
    "Kiutils.C10_DesignRules",
    "Kiutils.C10_Model",
    "Kiutils.C10_DrillDefinition",
    "Kiutils.C10_PadOptions",
    "Kiutils.C10_Pad",
    "Kiutils.C10_Footprint",
    "Kiutils.C10_FpText",
    "Kiutils.C10_FpLine",
    "Kiutils.C10_FpRect",
    "Kiutils.C10_FpTextBox",
    "Kiutils.C10_FpCircle",
    "Kiutils.C10_FpArc",
    "Kiutils.C10_FpPoly",
    "Kiutils.C10_FpCurve",
    "Kiutils.C10_GrText",
    "Kiutils.C10_GrTextBox",
    "Kiutils.C10_GrLine",
    "Kiutils.C10_GrRect",
    "Kiutils.C10_GrCircle",
    "Kiutils.C10_GrArc",
    "Kiutils.C10_GrPoly",
    "Kiutils.C10_GrCurve",
    "Kiutils.C10_Library",
    "Kiutils.C10_LibTable",
    "Kiutils.C10_Junction",
    "Kiutils.C10_NoConnect",
    "Kiutils.C10_BusEntry",
    "Kiutils.C10_Connection",
    "Kiutils.C10_PolyLine",
    "Kiutils.C10_Text",
    "Kiutils.C10_TextBox",
    "Kiutils.C10_LocalLabel",
    "Kiutils.C10_GlobalLabel",
    "Kiutils.C10_HierarchicalLabel",
    "Kiutils.C10_SymbolProjectPath",
    "Kiutils.C10_SymbolProjectInstance",
    "Kiutils.C10_SchematicSymbol",
    "Kiutils.C10_HierarchicalPin",
    "Kiutils.C10_HierarchicalSheetProjectPath",
    "Kiutils.C10_HierarchicalSheetProjectInstance",
    "Kiutils.C10_HierarchicalSheet",
    "Kiutils.C10_HierarchicalSheetInstance",
    "Kiutils.C10_SymbolInstance",
    "Kiutils.C10_Rectangle",
    "Kiutils.C10_Arc",
    "Kiutils.C10_Circle",
    "Kiutils.C10_NetclassFlag",
    "Kiutils.C10_Schematic",
    "Kiutils.C10_SyArc",
    "Kiutils.C10_SyCircle",
    "Kiutils.C10_SyCurve",
    "Kiutils.C10_SyPolyLine",
    "Kiutils.C10_SyRect",
    "Kiutils.C10_SyText",
    "Kiutils.C10_SyTextBox",
    "Kiutils.C10_SymbolPin",
    "Kiutils.C10_SymbolLib",
    "Kiutils.C10_Symbol",
    "Kiutils.C10_WksFont",
    "Kiutils.C10_WksShape",
    "Kiutils.C10_Bitmap",
    "Kiutils.C10_TbText",
    "Kiutils.C10_Setup",
    "Kiutils.C10_WorkSheet",
    "Kiutils.C10_KeepoutSettings",
    "Kiutils.C10_FillSettings",
    "Kiutils.C10_ZonePolygon",
    "Kiutils.C10_FilledPolygon",
    "Kiutils.C10_FillSegments",
    "Kiutils.C10_Zone"
   ],
   "note": "Every class whose from_sexpr loops over its children; any position, any content of the unknown item. Classes without a loop read fixed positions."
  },
  {
   "property": "C11",
   "status": "proved",
   "theorems": [
    "Kiutils.C11_Board",
    "Kiutils.C11_Stackup",
    "Kiutils.C11_Via",
    "Kiutils.C11_Group",
    "Kiutils.C11_RenderCachePolygon",
    "Kiutils.C11_RenderCache",
    "Kiutils.C11_Image",
    "Kiutils.C11_Dimension",
    "Kiutils.C11_Constraint",
    "Kiutils.C11_Rule",
    "Kiutils.C11_DesignRules",
    "Kiutils.C11_Pad",
    "Kiutils.C11_Footprint",
    "Kiutils.C11_FpTextBox",
    "Kiutils.C11_FpPoly",
    "Kiutils.C11_FpCurve",
    "Kiutils.C11_GrTextBox",
    "Kiutils.C11_GrPoly",
    "Kiutils.C11_GrCurve",
    "Kiutils.C11_LibTable",
    "Kiutils.C11_Connection",
    "Kiutils.C11_PolyLine",
    "Kiutils.C11_GlobalLabel",
    "Kiutils.C11_SymbolProjectInstance",
    "Kiutils.C11_SchematicSymbol",
    "Kiutils.C11_HierarchicalSheetProjectInstance",
    "Kiutils.C11_HierarchicalSheet",
    "Kiutils.C11_NetclassFlag",
    "Kiutils.C11_Schematic",
    "Kiutils.C11_SyCurve",
    "Kiutils.C11_SyPolyLine",
    "Kiutils.C11_SymbolPin",
    "Kiutils.C11_SymbolLib",
    "Kiutils.C11_Symbol",
    "Kiutils.C11_Bitmap",
    "Kiutils.C11_WorkSheet",
    "Kiutils.C11_ZonePolygon",
    "Kiutils.C11_FilledPolygon",
    "Kiutils.C11_FillSegments",
    "Kiutils.C11_Zone"
   ],
   "note": "Every class with list-valued fields: list = items with the tokens of that list, in order, once each (Collected)."
  },
  {
   "property": "C12",
   "status": "proved",
   "theorems": [
    "Kiutils.C12_Coordinate",
    "Kiutils.C12_ColorRGBA",
    "Kiutils.C12_Stroke",
    "Kiutils.C12_Font",
    "Kiutils.C12_Justify",
    "Kiutils.C12_Effects",
    "Kiutils.C12_Net",
    "Kiutils.C12_Group",
    "Kiutils.C12_PageSettings",
    "Kiutils.C12_TitleBlock",
    "Kiutils.C12_Property",
    "Kiutils.C12_RenderCachePolygon",
    "Kiutils.C12_RenderCache",
    "Kiutils.C12_Fill",
    "Kiutils.C12_Image",
    "Kiutils.C12_Library",
    "Kiutils.C12_LibTable",
    "Kiutils.C12_Constraint",
    "Kiutils.C12_Rule",
    "Kiutils.C12_WksFontSize",
    "Kiutils.C12_Bitmap",
    "Kiutils.C12_TbText",
    "Kiutils.C12_TextSize",
    "Kiutils.C12_Setup",
    "Kiutils.C12_WorkSheet",
    "Kiutils.C12_SyArc",
    "Kiutils.C12_SyCircle",
    "Kiutils.C12_SyPolyLine",
    "Kiutils.C12_SyRect",
    "Kiutils.C12_SyText",
    "Kiutils.C12_SyTextBox",
    "Kiutils.C12_SymbolAlternativePin",
    "Kiutils.C12_SymbolPin",
    "Kiutils.C12_Symbol",
    "Kiutils.C12_SymbolLib",
    "Kiutils.C12_Junction",
    "Kiutils.C12_NoConnect",
    "Kiutils.C12_BusEntry",
    "Kiutils.C12_BusAlias",
    "Kiutils.C12_Connection",
    "Kiutils.C12_PolyLine",
    "Kiutils.C12_Text",
    "Kiutils.C12_TextBox",
    "Kiutils.C12_LocalLabel",
    "Kiutils.C12_GlobalLabel",
    "Kiutils.C12_HierarchicalLabel",
    "Kiutils.C12_SymbolProjectPath",
    "Kiutils.C12_SymbolProjectInstance",
    "Kiutils.C12_SchematicSymbol",
    "Kiutils.C12_HierarchicalPin",
    "Kiutils.C12_HierarchicalSheetProjectPath",
    "Kiutils.C12_HierarchicalSheetProjectInstance",
    "Kiutils.C12_HierarchicalSheet",
    "Kiutils.C12_HierarchicalSheetInstance",
    "Kiutils.C12_SymbolInstance",
    "Kiutils.C12_Rectangle",
    "Kiutils.C12_Arc",
    "Kiutils.C12_Circle",
    "Kiutils.C12_NetclassFlag",
    "Kiutils.C12_Schematic",
    "Kiutils.C12_GrText",
    "Kiutils.C12_GrTextBox",
    "Kiutils.C12_GrLine",
    "Kiutils.C12_GrRect",
    "Kiutils.C12_GrCircle",
    "Kiutils.C12_GrArc",
    "Kiutils.C12_GrPoly",
    "Kiutils.C12_GrCurve",
    "Kiutils.C12_FpText",
    "Kiutils.C12_FpLine",
    "Kiutils.C12_FpRect",
    "Kiutils.C12_FpTextBox",
    "Kiutils.C12_FpCircle",
    "Kiutils.C12_FpArc",
    "Kiutils.C12_FpPoly",
    "Kiutils.C12_FpCurve",
    "Kiutils.C12_KeepoutSettings",
    "Kiutils.C12_FillSettings",
    "Kiutils.C12_ZonePolygon",
    "Kiutils.C12_FilledPolygon",
    "Kiutils.C12_FillSegments",
    "Kiutils.C12_Zone",
    "Kiutils.C12_Attributes",
    "Kiutils.C12_Model",
    "Kiutils.C12_DrillDefinition",
    "Kiutils.C12_PadOptions",
    "Kiutils.C12_Pad",
    "Kiutils.C12_Footprint",
    "Kiutils.C12_GeneralSettings",
    "Kiutils.C12_LayerToken",
    "Kiutils.C12_StackupLayer",
    "Kiutils.C12_Stackup",
    "Kiutils.C12_PlotSettings",
    "Kiutils.C12_SetupData",
    "Kiutils.C12_Segment",
    "Kiutils.C12_Via",
    "Kiutils.C12_TraceArc",
    "Kiutils.C12_Target",
    "Kiutils.C12_DimensionFormat",
    "Kiutils.C12_DimensionStyle",
    "Kiutils.C12_Dimension",
    "Kiutils.C12_Board"
   ],
   "note": "Every class with layout arguments, all indents and newline settings."
  },
  {
   "property": "C13",
   "status": "proved",
   "theorems": [
    "Kiutils.C13_Library",
    "Kiutils.C13_LibTable"
   ],
   "note": "All well-formed LibTable objects; well-formedness is a decidable condition on the fields (Format/*.lean), met by the sample object beside the theorem; the exceptions named in the statement are part of the conditions."
  },
  {
   "property": "C14",
   "status": "proved",
   "theorems": [
    "Kiutils.C14_DesignRules",
    "Kiutils.C14_Constraint",
    "Kiutils.C14_Rule"
   ],
   "note": "All well-formed DesignRules objects; well-formedness is a decidable condition on the fields (Format/*.lean), met by the sample object beside the theorem; the exceptions named in the statement are part of the conditions."
  },
  {
   "property": "C15",
   "status": "proved",
   "theorems": [
    "Kiutils.C15_Line",
    "Kiutils.C15_Rect",
    "Kiutils.C15_WksPosition",
    "Kiutils.C15_WksFontSize",
    "Kiutils.C15_Bitmap",
    "Kiutils.C15_TbText",
    "Kiutils.C15_TextSize",
    "Kiutils.C15_Setup",
    "Kiutils.C15_WorkSheet"
   ],
   "note": "All well-formed WorkSheet objects; well-formedness is a decidable condition on the fields (Format/*.lean), met by the sample object beside the theorem; the exceptions named in the statement are part of the conditions."
  },
  {
   "property": "C16",
   "status": "proved",
   "theorems": [
    "Kiutils.C16_Symbol",
    "Kiutils.C16_SymbolLib"
   ],
   "note": "All well-formed SymbolLib objects; well-formedness is a decidable condition on the fields (Format/*.lean), met by the sample object beside the theorem; the exceptions named in the statement are part of the conditions."
  },
  {
   "property": "C17",
   "status": "proved",
   "theorems": [
    "Kiutils.C17_Schematic"
   ],
   "note": "All well-formed Schematic objects; well-formedness is a decidable condition on the fields (Format/*.lean), met by the sample object beside the theorem; the exceptions named in the statement are part of the conditions."
  },
  {
   "property": "C18",
   "status": "proved",
   "theorems": [
    "Kiutils.C18_Footprint"
   ],
   "note": "All well-formed Footprint objects; well-formedness is a decidable condition on the fields (Format/*.lean), met by the sample object beside the theorem; the exceptions named in the statement are part of the conditions."
  },
  {
   "property": "C19",
   "status": "proved",
   "theorems": [
    "Kiutils.C19_Board"
   ],
   "note": "All well-formed Board objects; well-formedness is a decidable condition on the fields (Format/*.lean), met by the sample object beside the theorem; the exceptions named in the statement are part of the conditions."
  },
  {
   "property": "C20",
   "status": "proved",
   "theorems": [
    "Kiutils.C20_Position",
    "Kiutils.C20_Position_unlocked",
    "Kiutils.C20_Coordinate",
    "Kiutils.C20_ColorRGBA",
    "Kiutils.C20_Stroke",
    "Kiutils.C20_Font",
    "Kiutils.C20_Justify",
    "Kiutils.C20_Effects",
    "Kiutils.C20_Net",
    "Kiutils.C20_Group",
    "Kiutils.C20_PageSettings",
    "Kiutils.C20_TitleBlock",
    "Kiutils.C20_Property",
    "Kiutils.C20_RenderCachePolygon",
    "Kiutils.C20_RenderCache",
    "Kiutils.C20_Fill",
    "Kiutils.C20_Image"
   ],
   "note": ""
  },
  {
   "property": "C21",
   "status": "partial",
   "theorems": [
    "Kiutils.C21_Position",
    "Kiutils.C21_DesignRules",
    "Kiutils.C21_Line",
    "Kiutils.C21_Rect",
    "Kiutils.C21_Coordinate",
    "Kiutils.C21_ColorRGBA",
    "Kiutils.C21_Stroke",
    "Kiutils.C21_Font",
    "Kiutils.C21_Justify",
    "Kiutils.C21_Effects",
    "Kiutils.C21_Net",
    "Kiutils.C21_Group",
    "Kiutils.C21_PageSettings",
    "Kiutils.C21_TitleBlock",
    "Kiutils.C21_Property",
    "Kiutils.C21_RenderCachePolygon",
    "Kiutils.C21_RenderCache",
    "Kiutils.C21_Fill",
    "Kiutils.C21_Image",
    "Kiutils.C21_Library",
    "Kiutils.C21_LibTable",
    "Kiutils.C21_Constraint",
    "Kiutils.C21_Rule",
    "Kiutils.C21_WksFontSize",
    "Kiutils.C21_Bitmap",
    "Kiutils.C21_TbText",
    "Kiutils.C21_TextSize",
    "Kiutils.C21_Setup",
    "Kiutils.C21_WorkSheet",
    "Kiutils.C21_SyArc",
    "Kiutils.C21_SyCircle",
    "Kiutils.C21_SyPolyLine",
    "Kiutils.C21_SyRect",
    "Kiutils.C21_SyText",
    "Kiutils.C21_SyTextBox",
    "Kiutils.C21_SymbolAlternativePin",
    "Kiutils.C21_SymbolPin",
    "Kiutils.C21_Symbol",
    "Kiutils.C21_SymbolLib",
    "Kiutils.C21_Junction",
    "Kiutils.C21_NoConnect",
    "Kiutils.C21_BusEntry",
    "Kiutils.C21_BusAlias",
    "Kiutils.C21_Connection",
    "Kiutils.C21_PolyLine",
    "Kiutils.C21_Text",
    "Kiutils.C21_TextBox",
    "Kiutils.C21_LocalLabel",
    "Kiutils.C21_GlobalLabel",
    "Kiutils.C21_HierarchicalLabel",
    "Kiutils.C21_SymbolProjectPath",
    "Kiutils.C21_SymbolProjectInstance",
    "Kiutils.C21_SchematicSymbol",
    "Kiutils.C21_HierarchicalPin",
    "Kiutils.C21_HierarchicalSheetProjectPath",
    "Kiutils.C21_HierarchicalSheetProjectInstance",
    "Kiutils.C21_HierarchicalSheet_partial",
    "Kiutils.C21_HierarchicalSheetInstance",
    "Kiutils.C21_SymbolInstance",
    "Kiutils.C21_Rectangle",
    "Kiutils.C21_Arc",
    "Kiutils.C21_Circle",
    "Kiutils.C21_NetclassFlag",
    "Kiutils.C21_Schematic_partial",
    "Kiutils.C21_GrText",
    "Kiutils.C21_GrTextBox",
    "Kiutils.C21_GrLine",
    "Kiutils.C21_GrRect",
    "Kiutils.C21_GrCircle",
    "Kiutils.C21_GrArc",
    "Kiutils.C21_GrPoly",
    "Kiutils.C21_GrCurve",
    "Kiutils.C21_FpText",
    "Kiutils.C21_FpLine",
    "Kiutils.C21_FpRect",
    "Kiutils.C21_FpTextBox",
    "Kiutils.C21_FpCircle",
    "Kiutils.C21_FpArc",
    "Kiutils.C21_FpPoly",
    "Kiutils.C21_FpCurve",
    "Kiutils.C21_KeepoutSettings",
    "Kiutils.C21_FillSettings",
    "Kiutils.C21_ZonePolygon",
    "Kiutils.C21_FilledPolygon",
    "Kiutils.C21_FillSegments",
    "Kiutils.C21_Zone",
    "Kiutils.C21_Attributes",
    "Kiutils.C21_Model",
    "Kiutils.C21_DrillDefinition",
    "Kiutils.C21_PadOptions",
    "Kiutils.C21_Pad",
    "Kiutils.C21_Footprint",
    "Kiutils.C21_GeneralSettings",
    "Kiutils.C21_LayerToken",
    "Kiutils.C21_StackupLayer",
    "Kiutils.C21_Stackup",
    "Kiutils.C21_PlotSettings",
    "Kiutils.C21_SetupData",
    "Kiutils.C21_Segment",
    "Kiutils.C21_Via",
    "Kiutils.C21_TraceArc",
    "Kiutils.C21_Target",
    "Kiutils.C21_DimensionFormat",
    "Kiutils.C21_DimensionStyle",
    "Kiutils.C21_Dimension",
    "Kiutils.C21_Board",
    "Kiutils.C21_HierarchicalSheet_violated"
   ],
   "note": "Proved for all classes but sheets (and schematics with sheets), where it is false: a fill alpha with more than four decimals changes with the second saving (C21_HierarchicalSheet_violated; exactly when: C78_HierarchicalSheet_once); C21_HierarchicalSheet_partial and C21_Schematic_partial need the alpha value to survive four decimals."
  },
  {
   "property": "C22",
   "status": "partial",
   "theorems": [
    "Kiutils.C22_diameter_never_loaded",
    "Kiutils.C22_violated",
    "Kiutils.C22_colour_first_violated",
    "Kiutils.C22_Junction_partial"
   ],
   "note": "The property is false of the code: the negation is proved (diameter never loaded; saving can fail). The part that holds is C22_Junction_partial."
  },
  {
   "property": "C23",
   "status": "partial",
   "theorems": [
    "Kiutils.C23_violated",
    "Kiutils.C23_partial"
   ],
   "note": "False of the code for every locked text (C23_violated); proved for unlocked texts (C23_partial)."
  },
  {
   "property": "C24",
   "status": "partial",
   "theorems": [
    "Kiutils.C24_SyCurve_violated",
    "Kiutils.C24_GrLine_violated",
    "Kiutils.C24_Coordinate_partial",
    "Kiutils.C24_ColorRGBA_partial",
    "Kiutils.C24_Stroke_partial",
    "Kiutils.C24_Font_partial",
    "Kiutils.C24_Justify_partial",
    "Kiutils.C24_Effects_partial",
    "Kiutils.C24_Net_partial",
    "Kiutils.C24_Group_partial",
    "Kiutils.C24_PageSettings_partial",
    "Kiutils.C24_TitleBlock_partial",
    "Kiutils.C24_Property_partial",
    "Kiutils.C24_RenderCachePolygon_partial",
    "Kiutils.C24_RenderCache_partial",
    "Kiutils.C24_Fill_partial",
    "Kiutils.C24_Image_partial",
    "Kiutils.C24_Library_partial",
    "Kiutils.C24_LibTable_partial",
    "Kiutils.C24_Constraint_partial",
    "Kiutils.C24_Rule_partial",
    "Kiutils.C24_WksFontSize_partial",
    "Kiutils.C24_Bitmap_partial",
    "Kiutils.C24_TbText_partial",
    "Kiutils.C24_TextSize_partial",
    "Kiutils.C24_Setup_partial",
    "Kiutils.C24_WorkSheet_partial",
    "Kiutils.C24_SyArc_partial",
    "Kiutils.C24_SyCircle_partial",
    "Kiutils.C24_SyPolyLine_partial",
    "Kiutils.C24_SyRect_partial",
    "Kiutils.C24_SyText_partial",
    "Kiutils.C24_SyTextBox_partial",
    "Kiutils.C24_SymbolAlternativePin_partial",
    "Kiutils.C24_SymbolPin_partial",
    "Kiutils.C24_Symbol_partial",
    "Kiutils.C24_SymbolLib_partial",
    "Kiutils.C24_Junction_partial",
    "Kiutils.C24_NoConnect_partial",
    "Kiutils.C24_BusEntry_partial",
    "Kiutils.C24_BusAlias_partial",
    "Kiutils.C24_Connection_partial",
    "Kiutils.C24_PolyLine_partial",
    "Kiutils.C24_Text_partial",
    "Kiutils.C24_TextBox_partial",
    "Kiutils.C24_LocalLabel_partial",
    "Kiutils.C24_GlobalLabel_partial",
    "Kiutils.C24_HierarchicalLabel_partial",
    "Kiutils.C24_SymbolProjectPath_partial",
    "Kiutils.C24_SymbolProjectInstance_partial",
    "Kiutils.C24_SchematicSymbol_partial",
    "Kiutils.C24_HierarchicalPin_partial",
    "Kiutils.C24_HierarchicalSheetProjectPath_partial",
    "Kiutils.C24_HierarchicalSheetProjectInstance_partial",
    "Kiutils.C24_HierarchicalSheet_partial",
    "Kiutils.C24_HierarchicalSheetInstance_partial",
    "Kiutils.C24_SymbolInstance_partial",
    "Kiutils.C24_Rectangle_partial",
    "Kiutils.C24_Arc_partial",
    "Kiutils.C24_Circle_partial",
    "Kiutils.C24_NetclassFlag_partial",
    "Kiutils.C24_Schematic_partial",
    "Kiutils.C24_GrText_partial",
    "Kiutils.C24_GrTextBox_partial",
    "Kiutils.C24_GrLine_partial",
    "Kiutils.C24_GrRect_partial",
    "Kiutils.C24_GrCircle_partial",
    "Kiutils.C24_GrArc_partial",
    "Kiutils.C24_GrPoly_partial",
    "Kiutils.C24_GrCurve_partial",
    "Kiutils.C24_FpText_partial",
    "Kiutils.C24_FpLine_partial",
    "Kiutils.C24_FpRect_partial",
    "Kiutils.C24_FpTextBox_partial",
    "Kiutils.C24_FpCircle_partial",
    "Kiutils.C24_FpArc_partial",
    "Kiutils.C24_FpPoly_partial",
    "Kiutils.C24_FpCurve_partial",
    "Kiutils.C24_KeepoutSettings_partial",
    "Kiutils.C24_FillSettings_partial",
    "Kiutils.C24_ZonePolygon_partial",
    "Kiutils.C24_FilledPolygon_partial",
    "Kiutils.C24_FillSegments_partial",
    "Kiutils.C24_Zone_partial",
    "Kiutils.C24_Attributes_partial",
    "Kiutils.C24_Model_partial",
    "Kiutils.C24_DrillDefinition_partial",
    "Kiutils.C24_PadOptions_partial",
    "Kiutils.C24_Pad_partial",
    "Kiutils.C24_Footprint_partial",
    "Kiutils.C24_GeneralSettings_partial",
    "Kiutils.C24_LayerToken_partial",
    "Kiutils.C24_StackupLayer_partial",
    "Kiutils.C24_Stackup_partial",
    "Kiutils.C24_PlotSettings_partial",
    "Kiutils.C24_SetupData_partial",
    "Kiutils.C24_Segment_partial",
    "Kiutils.C24_Via_partial",
    "Kiutils.C24_TraceArc_partial",
    "Kiutils.C24_Target_partial",
    "Kiutils.C24_DimensionFormat_partial",
    "Kiutils.C24_DimensionStyle_partial",
    "Kiutils.C24_Dimension_partial",
    "Kiutils.C24_Board_partial"
   ],
   "note": "False of the code for SyCurve and for GrLine with an angle (universal negative theorems); proved for all other classes and for lines without an angle (the _partial theorems)."
  },
  {
   "property": "C25",
   "status": "proved",
   "theorems": [
    "Kiutils.C25_Footprint",
    "Kiutils.C25_Footprint_parts",
    "Kiutils.C25_SchematicSymbol",
    "Kiutils.C25_SchematicSymbol_parts",
    "Kiutils.C25_Symbol_parts",
    "Kiutils.C25_Symbol",
    "Kiutils.C25_leading_zero",
    "Kiutils.C25_line_break",
    "Kiutils.C25_nick_regex",
    "Kiutils.C25_unit_regex"
   ],
   "note": "All identifier strings; the two exceptions are shown to be real."
  },
  {
   "property": "C26",
   "status": "proved",
   "theorems": [
    "Kiutils.C26_rename",
    "Kiutils.C26_unit_ids"
   ],
   "note": ""
  },
  {
   "property": "C27",
   "status": "partial",
   "theorems": [
    "Kiutils.C27_only_target",
    "Kiutils.C27_no_path",
    "Kiutils.C27_content",
    "Kiutils.C27_success",
    "Kiutils.C27_LibTable_remembers",
    "Kiutils.C27_DesignRules_remembers",
    "Kiutils.C27_WorkSheet_remembers",
    "Kiutils.C27_SymbolLib_remembers",
    "Kiutils.C27_Schematic_remembers",
    "Kiutils.C27_Board_remembers",
    "Kiutils.C27_Footprint_violated"
   ],
   "note": "Proved for all classes except that Footprint forgets its path (C27_Footprint_violated)."
  },
  {
   "property": "C28",
   "status": "partial",
   "theorems": [
    "Kiutils.C28_violated",
    "Kiutils.C28_encoding_violated",
    "Kiutils.C28_partial"
   ],
   "note": "False of the code: for every object whose serialisation raises, the target is empty afterwards (C28_violated); C28_partial: if the target cannot be opened, nothing at all is changed; that other files are intact is C27_only_target."
  },
  {
   "property": "C29",
   "status": "proved",
   "theorems": [
    "Kiutils.C29_crash",
    "Kiutils.C29_not_atomic"
   ],
   "note": "All crash points and chunkings."
  },
  {
   "property": "C30",
   "status": "proved",
   "theorems": [
    "Kiutils.C30_LibTable",
    "Kiutils.C30_DesignRules",
    "Kiutils.C30_WorkSheet",
    "Kiutils.C30_SymbolLib",
    "Kiutils.C30_Schematic",
    "Kiutils.C30_Footprint",
    "Kiutils.C30_Board",
    "Kiutils.C30_carriage_return"
   ],
   "note": ""
  },
  {
   "property": "C31",
   "status": "partial",
   "theorems": [
    "Kiutils.C31_Board_partial",
    "Kiutils.C31_Board_violated",
    "Kiutils.C31_Schematic_partial",
    "Kiutils.C31_Schematic_violated",
    "Kiutils.C31_WorkSheet_partial",
    "Kiutils.C31_WorkSheet_violated",
    "Kiutils.C31_DesignRules",
    "Kiutils.C31_LibTable_partial",
    "Kiutils.C31_LibTable_violated",
    "Kiutils.C31_Symbol",
    "Kiutils.C31_Footprint_type",
    "Kiutils.C31_Footprint_partial",
    "Kiutils.C31_Footprint_violated"
   ],
   "note": "False of the code for Board, Schematic, WorkSheet and Footprint: create_new stores the version as a string, loading gives a number (the _violated theorems); the _partial theorems show that nothing else changes. Library tables with another type than the two known ones cannot be loaded. Proved as stated for Symbol and DesignRules."
  },
  {
   "property": "C32",
   "status": "proved",
   "theorems": [
    "Kiutils.C32_needs_layer",
    "Kiutils.C32_token",
    "Kiutils.C32_reload"
   ],
   "note": ""
  },
  {
   "property": "C33",
   "status": "proved",
   "theorems": [
    "Kiutils.C33_grouping",
    "Kiutils.C33_reload"
   ],
   "note": ""
  },
  {
   "property": "C34",
   "status": "proved",
   "theorems": [
    "Kiutils.C34_raises",
    "Kiutils.C34_reload"
   ],
   "note": ""
  },
  {
   "property": "C35",
   "status": "partial",
   "theorems": [
    "Kiutils.C35_FpLine_violated",
    "Kiutils.C35_Dimension_violated",
    "Kiutils.C35_FpLine_unlocked",
    "Kiutils.C35_Dimension_unlocked",
    "Kiutils.C35_Group_violated",
    "Kiutils.C35_Footprint_partial",
    "Kiutils.C35_GrTextBox_partial",
    "Kiutils.C35_GrLine_partial",
    "Kiutils.C35_GrRect_partial",
    "Kiutils.C35_GrCircle_partial",
    "Kiutils.C35_GrArc_partial",
    "Kiutils.C35_GrPoly_partial",
    "Kiutils.C35_GrCurve_partial",
    "Kiutils.C35_FpRect_partial",
    "Kiutils.C35_FpTextBox_partial",
    "Kiutils.C35_FpCircle_partial",
    "Kiutils.C35_FpArc_partial",
    "Kiutils.C35_FpPoly_partial",
    "Kiutils.C35_FpCurve_partial",
    "Kiutils.C35_Zone_partial",
    "Kiutils.C35_Pad_partial",
    "Kiutils.C35_Segment_partial",
    "Kiutils.C35_Via_partial",
    "Kiutils.C35_TraceArc_partial",
    "Kiutils.C35_Group_partial"
   ],
   "note": "False of the code for Dimension, FpLine, GrText (C23) and a group named 'locked'; proved for all other classes with the flag."
  },
  {
   "property": "C36",
   "status": "proved",
   "theorems": [
    "Kiutils.C36_Board",
    "Kiutils.C36_GeneralSettings",
    "Kiutils.C36_Stackup",
    "Kiutils.C36_PlotSettings",
    "Kiutils.C36_SetupData",
    "Kiutils.C36_Segment",
    "Kiutils.C36_Via",
    "Kiutils.C36_TraceArc",
    "Kiutils.C36_Target",
    "Kiutils.C36_Stroke",
    "Kiutils.C36_Font",
    "Kiutils.C36_Justify",
    "Kiutils.C36_Effects",
    "Kiutils.C36_Group",
    "Kiutils.C36_PageSettings",
    "Kiutils.C36_TitleBlock",
    "Kiutils.C36_Property",
    "Kiutils.C36_RenderCachePolygon",
    "Kiutils.C36_RenderCache",
    "Kiutils.C36_Fill",
    "Kiutils.C36_Image",
    "Kiutils.C36_DimensionFormat",
    "Kiutils.C36_DimensionStyle",
    "Kiutils.C36_Dimension",
    "Kiutils.C36_Constraint",
    "Kiutils.C36_Rule",
    "Kiutils.C36_DesignRules",
    "Kiutils.C36_Attributes",
    "Kiutils.C36_DrillDefinition",
    "Kiutils.C36_PadOptions",
    "Kiutils.C36_Pad",
    "Kiutils.C36_Footprint",
    "Kiutils.C36_FpText",
    "Kiutils.C36_FpLine",
    "Kiutils.C36_FpRect",
    "Kiutils.C36_FpTextBox",
    "Kiutils.C36_FpCircle",
    "Kiutils.C36_FpArc",
    "Kiutils.C36_FpPoly",
    "Kiutils.C36_FpCurve",
    "Kiutils.C36_GrText",
    "Kiutils.C36_GrTextBox",
    "Kiutils.C36_GrLine",
    "Kiutils.C36_GrRect",
    "Kiutils.C36_GrCircle",
    "Kiutils.C36_GrArc",
    "Kiutils.C36_GrPoly",
    "Kiutils.C36_GrCurve",
    "Kiutils.C36_Library",
    "Kiutils.C36_LibTable",
    "Kiutils.C36_Junction",
    "Kiutils.C36_NoConnect",
    "Kiutils.C36_BusEntry",
    "Kiutils.C36_Connection",
    "Kiutils.C36_PolyLine",
    "Kiutils.C36_Text",
    "Kiutils.C36_TextBox",
    "Kiutils.C36_LocalLabel",
    "Kiutils.C36_GlobalLabel",
    "Kiutils.C36_HierarchicalLabel",
    "Kiutils.C36_SymbolProjectPath",
    "Kiutils.C36_SymbolProjectInstance",
    "Kiutils.C36_SchematicSymbol",
    "Kiutils.C36_HierarchicalPin",
    "Kiutils.C36_HierarchicalSheetProjectPath",
    "Kiutils.C36_HierarchicalSheetProjectInstance",
    "Kiutils.C36_HierarchicalSheet",
    "Kiutils.C36_HierarchicalSheetInstance",
    "Kiutils.C36_SymbolInstance",
    "Kiutils.C36_Rectangle",
    "Kiutils.C36_Arc",
    "Kiutils.C36_Circle",
    "Kiutils.C36_NetclassFlag",
    "Kiutils.C36_Schematic",
    "Kiutils.C36_SyArc",
    "Kiutils.C36_SyCircle",
    "Kiutils.C36_SyCurve",
    "Kiutils.C36_SyPolyLine",
    "Kiutils.C36_SyRect",
    "Kiutils.C36_SyText",
    "Kiutils.C36_SyTextBox",
    "Kiutils.C36_SymbolPin",
    "Kiutils.C36_SymbolLib",
    "Kiutils.C36_Symbol",
    "Kiutils.C36_WksFont",
    "Kiutils.C36_WksShape",
    "Kiutils.C36_Bitmap",
    "Kiutils.C36_TbText",
    "Kiutils.C36_Setup",
    "Kiutils.C36_WorkSheet",
    "Kiutils.C36_KeepoutSettings",
    "Kiutils.C36_FillSettings",
    "Kiutils.C36_ZonePolygon",
    "Kiutils.C36_FilledPolygon",
    "Kiutils.C36_FillSegments",
    "Kiutils.C36_Zone"
   ],
   "note": "For every class with a loop over its children: any rearrangement that keeps the relative order of items with the same token (and of tokens feeding the same list)."
  },
  {
   "property": "C37",
   "status": "proved",
   "theorems": [
    "Kiutils.C37_Board",
    "Kiutils.C37_GeneralSettings",
    "Kiutils.C37_Stackup",
    "Kiutils.C37_PlotSettings",
    "Kiutils.C37_SetupData",
    "Kiutils.C37_Segment",
    "Kiutils.C37_Via",
    "Kiutils.C37_TraceArc",
    "Kiutils.C37_Target",
    "Kiutils.C37_Stroke",
    "Kiutils.C37_Font",
    "Kiutils.C37_Justify",
    "Kiutils.C37_Effects",
    "Kiutils.C37_Group",
    "Kiutils.C37_PageSettings",
    "Kiutils.C37_TitleBlock",
    "Kiutils.C37_Property",
    "Kiutils.C37_RenderCache",
    "Kiutils.C37_Fill",
    "Kiutils.C37_Image",
    "Kiutils.C37_DimensionFormat",
    "Kiutils.C37_DimensionStyle",
    "Kiutils.C37_Dimension",
    "Kiutils.C37_Constraint",
    "Kiutils.C37_Rule",
    "Kiutils.C37_DesignRules",
    "Kiutils.C37_Attributes",
    "Kiutils.C37_Model",
    "Kiutils.C37_DrillDefinition",
    "Kiutils.C37_PadOptions",
    "Kiutils.C37_Pad",
    "Kiutils.C37_Footprint",
    "Kiutils.C37_FpText",
    "Kiutils.C37_FpLine",
    "Kiutils.C37_FpRect",
    "Kiutils.C37_FpTextBox",
    "Kiutils.C37_FpCircle",
    "Kiutils.C37_FpArc",
    "Kiutils.C37_FpPoly",
    "Kiutils.C37_FpCurve",
    "Kiutils.C37_GrText",
    "Kiutils.C37_GrTextBox",
    "Kiutils.C37_GrLine",
    "Kiutils.C37_GrRect",
    "Kiutils.C37_GrCircle",
    "Kiutils.C37_GrArc",
    "Kiutils.C37_GrPoly",
    "Kiutils.C37_GrCurve",
    "Kiutils.C37_Library",
    "Kiutils.C37_LibTable",
    "Kiutils.C37_Junction",
    "Kiutils.C37_NoConnect",
    "Kiutils.C37_BusEntry",
    "Kiutils.C37_Connection",
    "Kiutils.C37_PolyLine",
    "Kiutils.C37_Text",
    "Kiutils.C37_TextBox",
    "Kiutils.C37_LocalLabel",
    "Kiutils.C37_GlobalLabel",
    "Kiutils.C37_HierarchicalLabel",
    "Kiutils.C37_SymbolProjectPath",
    "Kiutils.C37_SymbolProjectInstance",
    "Kiutils.C37_SchematicSymbol",
    "Kiutils.C37_HierarchicalPin",
    "Kiutils.C37_HierarchicalSheetProjectPath",
    "Kiutils.C37_HierarchicalSheetProjectInstance",
    "Kiutils.C37_HierarchicalSheet",
    "Kiutils.C37_HierarchicalSheetInstance",
    "Kiutils.C37_SymbolInstance",
    "Kiutils.C37_Rectangle",
    "Kiutils.C37_Arc",
    "Kiutils.C37_Circle",
    "Kiutils.C37_NetclassFlag",
    "Kiutils.C37_Schematic",
    "Kiutils.C37_SyArc",
    "Kiutils.C37_SyCircle",
    "Kiutils.C37_SyCurve",
    "Kiutils.C37_SyPolyLine",
    "Kiutils.C37_SyRect",
    "Kiutils.C37_SyText",
    "Kiutils.C37_SyTextBox",
    "Kiutils.C37_SymbolPin",
    "Kiutils.C37_SymbolLib",
    "Kiutils.C37_Symbol",
    "Kiutils.C37_WksFont",
    "Kiutils.C37_WksShape",
    "Kiutils.C37_Bitmap",
    "Kiutils.C37_TbText",
    "Kiutils.C37_Setup",
    "Kiutils.C37_WorkSheet",
    "Kiutils.C37_KeepoutSettings",
    "Kiutils.C37_FillSettings",
    "Kiutils.C37_FilledPolygon",
    "Kiutils.C37_FillSegments",
    "Kiutils.C37_Zone"
   ],
   "note": "For every class with a loop over its children, every scalar field."
  },
  {
   "property": "C38",
   "status": "partial",
   "theorems": [
    "Kiutils.C38_Coordinate",
    "Kiutils.C38_ColorRGBA",
    "Kiutils.C38_Stroke",
    "Kiutils.C38_Font",
    "Kiutils.C38_Justify",
    "Kiutils.C38_Effects",
    "Kiutils.C38_Net",
    "Kiutils.C38_Group",
    "Kiutils.C38_PageSettings",
    "Kiutils.C38_TitleBlock",
    "Kiutils.C38_Property",
    "Kiutils.C38_RenderCachePolygon",
    "Kiutils.C38_RenderCache",
    "Kiutils.C38_Fill",
    "Kiutils.C38_Image",
    "Kiutils.C38_Library",
    "Kiutils.C38_LibTable",
    "Kiutils.C38_Constraint",
    "Kiutils.C38_Rule",
    "Kiutils.C38_WksFontSize",
    "Kiutils.C38_Bitmap",
    "Kiutils.C38_TbText",
    "Kiutils.C38_TextSize",
    "Kiutils.C38_Setup",
    "Kiutils.C38_WorkSheet",
    "Kiutils.C38_SyArc",
    "Kiutils.C38_SyCircle",
    "Kiutils.C38_SyPolyLine",
    "Kiutils.C38_SyRect",
    "Kiutils.C38_SyText",
    "Kiutils.C38_SyTextBox",
    "Kiutils.C38_SymbolAlternativePin",
    "Kiutils.C38_SymbolPin",
    "Kiutils.C38_Symbol",
    "Kiutils.C38_SymbolLib",
    "Kiutils.C38_Junction_partial",
    "Kiutils.C38_NoConnect",
    "Kiutils.C38_BusEntry",
    "Kiutils.C38_BusAlias",
    "Kiutils.C38_Connection",
    "Kiutils.C38_PolyLine",
    "Kiutils.C38_Text",
    "Kiutils.C38_TextBox",
    "Kiutils.C38_LocalLabel",
    "Kiutils.C38_GlobalLabel",
    "Kiutils.C38_HierarchicalLabel",
    "Kiutils.C38_SymbolProjectPath",
    "Kiutils.C38_SymbolProjectInstance",
    "Kiutils.C38_SchematicSymbol",
    "Kiutils.C38_HierarchicalPin",
    "Kiutils.C38_HierarchicalSheetProjectPath",
    "Kiutils.C38_HierarchicalSheetProjectInstance",
    "Kiutils.C38_HierarchicalSheet_partial",
    "Kiutils.C38_HierarchicalSheetInstance",
    "Kiutils.C38_SymbolInstance",
    "Kiutils.C38_Rectangle",
    "Kiutils.C38_Arc",
    "Kiutils.C38_Circle",
    "Kiutils.C38_NetclassFlag",
    "Kiutils.C38_Schematic_partial",
    "Kiutils.C38_GrText",
    "Kiutils.C38_GrTextBox",
    "Kiutils.C38_GrLine",
    "Kiutils.C38_GrRect",
    "Kiutils.C38_GrCircle",
    "Kiutils.C38_GrArc",
    "Kiutils.C38_GrPoly",
    "Kiutils.C38_GrCurve",
    "Kiutils.C38_FpText",
    "Kiutils.C38_FpLine",
    "Kiutils.C38_FpRect",
    "Kiutils.C38_FpTextBox",
    "Kiutils.C38_FpCircle",
    "Kiutils.C38_FpArc",
    "Kiutils.C38_FpPoly",
    "Kiutils.C38_FpCurve",
    "Kiutils.C38_KeepoutSettings",
    "Kiutils.C38_FillSettings",
    "Kiutils.C38_ZonePolygon",
    "Kiutils.C38_FilledPolygon",
    "Kiutils.C38_FillSegments",
    "Kiutils.C38_Zone",
    "Kiutils.C38_Attributes",
    "Kiutils.C38_Model",
    "Kiutils.C38_DrillDefinition",
    "Kiutils.C38_PadOptions",
    "Kiutils.C38_Pad",
    "Kiutils.C38_Footprint",
    "Kiutils.C38_GeneralSettings",
    "Kiutils.C38_LayerToken",
    "Kiutils.C38_StackupLayer",
    "Kiutils.C38_Stackup",
    "Kiutils.C38_PlotSettings_partial",
    "Kiutils.C38_SetupData_partial",
    "Kiutils.C38_Segment",
    "Kiutils.C38_Via",
    "Kiutils.C38_TraceArc",
    "Kiutils.C38_Target",
    "Kiutils.C38_DimensionFormat",
    "Kiutils.C38_DimensionStyle",
    "Kiutils.C38_Dimension",
    "Kiutils.C38_Board_partial",
    "Kiutils.C38_DesignRules"
   ],
   "note": "All fields of all classes, except Junction.diameter and PlotSettings.useAuxOrigin, which are lost (C22, C40). For fields that contain such objects the theorem (suffix _partial) says what remains of the value."
  },
  {
   "property": "C39",
   "status": "proved",
   "theorems": [
    "Kiutils.C39_load",
    "Kiutils.C39_history"
   ],
   "note": "All finite histories."
  },
  {
   "property": "C40",
   "status": "partial",
   "theorems": [
    "Kiutils.C40_violated",
    "Kiutils.C40_flag_off_partial",
    "Kiutils.C40_PlotSettings_partial"
   ],
   "note": "False of the code for useAuxOrigin = True (C40_violated); proved for all other plot settings."
  },
  {
   "property": "C41",
   "status": "proved",
   "theorems": [
    "Kiutils.C41_SyArc",
    "Kiutils.C41_SyCircle",
    "Kiutils.C41_SyPolyLine",
    "Kiutils.C41_SyRect",
    "Kiutils.C41_SyText",
    "Kiutils.C41_SyTextBox",
    "Kiutils.C41_SymbolAlternativePin",
    "Kiutils.C41_SymbolPin",
    "Kiutils.C41_NoConnect",
    "Kiutils.C41_BusEntry",
    "Kiutils.C41_BusAlias",
    "Kiutils.C41_Connection",
    "Kiutils.C41_PolyLine",
    "Kiutils.C41_Text",
    "Kiutils.C41_TextBox",
    "Kiutils.C41_LocalLabel",
    "Kiutils.C41_GlobalLabel",
    "Kiutils.C41_HierarchicalLabel",
    "Kiutils.C41_SymbolProjectPath",
    "Kiutils.C41_SymbolProjectInstance",
    "Kiutils.C41_SchematicSymbol",
    "Kiutils.C41_HierarchicalPin",
    "Kiutils.C41_HierarchicalSheetProjectPath",
    "Kiutils.C41_HierarchicalSheetProjectInstance",
    "Kiutils.C41_HierarchicalSheet",
    "Kiutils.C41_HierarchicalSheetInstance",
    "Kiutils.C41_SymbolInstance",
    "Kiutils.C41_Rectangle",
    "Kiutils.C41_Arc",
    "Kiutils.C41_Circle",
    "Kiutils.C41_NetclassFlag",
    "Kiutils.C41_GrText",
    "Kiutils.C41_GrTextBox",
    "Kiutils.C41_GrLine",
    "Kiutils.C41_GrRect",
    "Kiutils.C41_GrCircle",
    "Kiutils.C41_GrArc",
    "Kiutils.C41_GrPoly",
    "Kiutils.C41_GrCurve",
    "Kiutils.C41_FpText",
    "Kiutils.C41_FpLine",
    "Kiutils.C41_FpRect",
    "Kiutils.C41_FpTextBox",
    "Kiutils.C41_FpCircle",
    "Kiutils.C41_FpArc",
    "Kiutils.C41_FpPoly",
    "Kiutils.C41_FpCurve",
    "Kiutils.C41_KeepoutSettings",
    "Kiutils.C41_FillSettings",
    "Kiutils.C41_ZonePolygon",
    "Kiutils.C41_FilledPolygon",
    "Kiutils.C41_FillSegments",
    "Kiutils.C41_Zone",
    "Kiutils.C41_Attributes",
    "Kiutils.C41_Model",
    "Kiutils.C41_DrillDefinition",
    "Kiutils.C41_PadOptions",
    "Kiutils.C41_Pad",
    "Kiutils.C41_GeneralSettings",
    "Kiutils.C41_LayerToken",
    "Kiutils.C41_StackupLayer",
    "Kiutils.C41_Stackup",
    "Kiutils.C41_SetupData",
    "Kiutils.C41_Segment",
    "Kiutils.C41_Via",
    "Kiutils.C41_TraceArc",
    "Kiutils.C41_Target",
    "Kiutils.C41_DimensionFormat",
    "Kiutils.C41_DimensionStyle",
    "Kiutils.C41_Dimension"
   ],
   "note": ""
  },
  {
   "property": "C42",
   "status": "partial",
   "theorems": [
    "Kiutils.C42_exactly",
    "Kiutils.C42_round_offset_violated",
    "Kiutils.C42_oval_violated",
    "Kiutils.C42_partial"
   ],
   "note": "C42_exactly: which drills survive. The others are the violations."
  },
  {
   "property": "C43",
   "status": "proved",
   "theorems": [
    "Kiutils.C43_FpLine",
    "Kiutils.C43_FpLine_violated",
    "Kiutils.C43_FpRect",
    "Kiutils.C43_FpRect_violated",
    "Kiutils.C43_FpCircle",
    "Kiutils.C43_FpCircle_violated",
    "Kiutils.C43_FpArc",
    "Kiutils.C43_FpArc_violated",
    "Kiutils.C43_FpPoly",
    "Kiutils.C43_FpPoly_violated",
    "Kiutils.C43_FpCurve",
    "Kiutils.C43_FpCurve_violated"
   ],
   "note": ""
  },
  {
   "property": "C44",
   "status": "partial",
   "theorems": [
    "Kiutils.C44_LibTable_partial",
    "Kiutils.C44_DesignRules_partial",
    "Kiutils.C44_SymbolLib_partial",
    "Kiutils.C44_Schematic_partial",
    "Kiutils.C44_Footprint_partial",
    "Kiutils.C44_Board_partial",
    "Kiutils.C44_WorkSheet_violated",
    "Kiutils.C44_WorkSheet_garbled"
   ],
   "note": "False of the code for WorkSheet (C44_WorkSheet_violated, C44_WorkSheet_garbled); proved for the six other classes, for any two platforms, with the success of saving as part of the conclusion (C44_*_partial). Side condition: the text has no carriage returns (C30_carriage_return says what happens to them)."
  },
  {
   "property": "C45",
   "status": "partial",
   "theorems": [
    "Kiutils.C45_partial",
    "Kiutils.C45_decimal_partial",
    "Kiutils.C45_violated"
   ],
   "note": "False of the code for 0 < |x| < 0.0001 (C45_violated, for every such literal); proved for all other literals (C45_partial, C45_decimal_partial)."
  },
  {
   "property": "C46",
   "status": "proved",
   "theorems": [
    "Kiutils.C46_PageSettings",
    "Kiutils.C46_Dimension",
    "Kiutils.C46_Zone",
    "Kiutils.C46_Constraint",
    "Kiutils.C46_Rule",
    "Kiutils.C46_DesignRules",
    "Kiutils.C46_GrTextBox",
    "Kiutils.C46_FpTextBox",
    "Kiutils.C46_GrItem",
    "Kiutils.C46_FpItem",
    "Kiutils.C46_Pad",
    "Kiutils.C46_Footprint",
    "Kiutils.C46_Junction",
    "Kiutils.C46_Text",
    "Kiutils.C46_NetclassFlag",
    "Kiutils.C46_HierarchicalSheet",
    "Kiutils.C46_Schematic",
    "Kiutils.C46_WksItem",
    "Kiutils.C46_WorkSheet",
    "Kiutils.C46_PlotSettings",
    "Kiutils.C46_SetupData",
    "Kiutils.C46_Board",
    "Kiutils.C46_PageSettings_exception",
    "Kiutils.C46_Dimension_exception",
    "Kiutils.C46_Zone_exception",
    "Kiutils.C46_GrTextBox_exception",
    "Kiutils.C46_FpTextBox_exception",
    "Kiutils.C46_Constraint_exception",
    "Kiutils.C46_DesignRules_exception",
    "Kiutils.C46_Junction_exception",
    "Kiutils.C46_Text_exception",
    "Kiutils.C46_NetclassFlag_exception",
    "Kiutils.C46_WorkSheet_exception"
   ],
   "note": "For every class whose to_sexpr can raise: it returns if and only if the stated condition holds. Attributes range over the types of the model. All other to_sexpr are total functions of the model (one simplification: a colour outside a sheet whose precision was set by hand, see ColorRGBA.toSexpr)."
  },
  {
   "property": "C47",
   "status": "partial",
   "theorems": [
    "Kiutils.C47_PageSettings",
    "Kiutils.C47_DesignRules",
    "Kiutils.C47_WorkSheet",
    "Kiutils.C47_Text",
    "Kiutils.C47_NetclassFlag",
    "Kiutils.C47_Junction",
    "Kiutils.C47_Schematic_partial",
    "Kiutils.C47_HierarchicalSheet_violated",
    "Kiutils.C47_Dimension",
    "Kiutils.C47_Zone",
    "Kiutils.C47_Board_partial",
    "Kiutils.C47_PlotSettings_violated",
    "Kiutils.C47_GrTextBox_violated",
    "Kiutils.C47_Pad_violated",
    "Kiutils.C47_GrTextBox",
    "Kiutils.C47_FpTextBox",
    "Kiutils.C47_Pad",
    "Kiutils.C47_Footprint",
    "Kiutils.C47_PlotSettings",
    "Kiutils.C47_SetupData",
    "Kiutils.C47_Board",
    "Kiutils.C47_HierarchicalSheet",
    "Kiutils.C47_Schematic"
   ],
   "note": "False of the code for several items (C47_*_violated). For every class whose to_sexpr can raise, the expressions that can be loaded but not saved are characterised exactly (C47_Junction, C47_Text, C47_NetclassFlag, C47_Zone, C47_Dimension, C47_GrTextBox, C47_FpTextBox, C47_Pad, C47_Footprint, C47_PlotSettings, C47_SetupData, C47_HierarchicalSheet, C47_Board, C47_Schematic); holds for page settings, design rules, worksheets."
  },
  {
   "property": "C48",
   "status": "proved",
   "theorems": [
    "Kiutils.C48_Coordinate",
    "Kiutils.C48_ColorRGBA",
    "Kiutils.C48_Stroke",
    "Kiutils.C48_Font",
    "Kiutils.C48_Justify",
    "Kiutils.C48_Effects",
    "Kiutils.C48_Net",
    "Kiutils.C48_Group",
    "Kiutils.C48_PageSettings",
    "Kiutils.C48_TitleBlock",
    "Kiutils.C48_Property",
    "Kiutils.C48_RenderCachePolygon",
    "Kiutils.C48_RenderCache",
    "Kiutils.C48_Fill",
    "Kiutils.C48_Image",
    "Kiutils.C48_Library",
    "Kiutils.C48_LibTable",
    "Kiutils.C48_Constraint",
    "Kiutils.C48_Rule",
    "Kiutils.C48_WksFontSize",
    "Kiutils.C48_Bitmap",
    "Kiutils.C48_TbText",
    "Kiutils.C48_TextSize",
    "Kiutils.C48_Setup",
    "Kiutils.C48_WorkSheet",
    "Kiutils.C48_SyArc",
    "Kiutils.C48_SyCircle",
    "Kiutils.C48_SyPolyLine",
    "Kiutils.C48_SyRect",
    "Kiutils.C48_SyText",
    "Kiutils.C48_SyTextBox",
    "Kiutils.C48_SymbolAlternativePin",
    "Kiutils.C48_SymbolPin",
    "Kiutils.C48_Symbol",
    "Kiutils.C48_SymbolLib",
    "Kiutils.C48_Junction",
    "Kiutils.C48_NoConnect",
    "Kiutils.C48_BusEntry",
    "Kiutils.C48_BusAlias",
    "Kiutils.C48_Connection",
    "Kiutils.C48_PolyLine",
    "Kiutils.C48_Text",
    "Kiutils.C48_TextBox",
    "Kiutils.C48_LocalLabel",
    "Kiutils.C48_GlobalLabel",
    "Kiutils.C48_HierarchicalLabel",
    "Kiutils.C48_SymbolProjectPath",
    "Kiutils.C48_SymbolProjectInstance",
    "Kiutils.C48_SchematicSymbol",
    "Kiutils.C48_HierarchicalPin",
    "Kiutils.C48_HierarchicalSheetProjectPath",
    "Kiutils.C48_HierarchicalSheetProjectInstance",
    "Kiutils.C48_HierarchicalSheet",
    "Kiutils.C48_HierarchicalSheetInstance",
    "Kiutils.C48_SymbolInstance",
    "Kiutils.C48_Rectangle",
    "Kiutils.C48_Arc",
    "Kiutils.C48_Circle",
    "Kiutils.C48_NetclassFlag",
    "Kiutils.C48_Schematic",
    "Kiutils.C48_GrText",
    "Kiutils.C48_GrTextBox",
    "Kiutils.C48_GrLine",
    "Kiutils.C48_GrRect",
    "Kiutils.C48_GrCircle",
    "Kiutils.C48_GrArc",
    "Kiutils.C48_GrPoly",
    "Kiutils.C48_GrCurve",
    "Kiutils.C48_FpText",
    "Kiutils.C48_FpLine",
    "Kiutils.C48_FpRect",
    "Kiutils.C48_FpTextBox",
    "Kiutils.C48_FpCircle",
    "Kiutils.C48_FpArc",
    "Kiutils.C48_FpPoly",
    "Kiutils.C48_FpCurve",
    "Kiutils.C48_KeepoutSettings",
    "Kiutils.C48_FillSettings",
    "Kiutils.C48_ZonePolygon",
    "Kiutils.C48_FilledPolygon",
    "Kiutils.C48_FillSegments",
    "Kiutils.C48_Zone",
    "Kiutils.C48_Attributes",
    "Kiutils.C48_Model",
    "Kiutils.C48_DrillDefinition",
    "Kiutils.C48_PadOptions",
    "Kiutils.C48_Pad",
    "Kiutils.C48_Footprint",
    "Kiutils.C48_GeneralSettings",
    "Kiutils.C48_LayerToken",
    "Kiutils.C48_StackupLayer",
    "Kiutils.C48_Stackup",
    "Kiutils.C48_PlotSettings",
    "Kiutils.C48_SetupData",
    "Kiutils.C48_Segment",
    "Kiutils.C48_Via",
    "Kiutils.C48_TraceArc",
    "Kiutils.C48_Target",
    "Kiutils.C48_DimensionFormat",
    "Kiutils.C48_DimensionStyle",
    "Kiutils.C48_Dimension",
    "Kiutils.C48_Board",
    "Kiutils.C48_Line",
    "Kiutils.C48_Rect",
    "Kiutils.C48_DesignRules"
   ],
   "note": "One theorem per class; the format is specified in Format/*.lean."
  },
  {
   "property": "C49",
   "status": "proved",
   "theorems": [
    "Kiutils.C49_Coordinate",
    "Kiutils.C49_ColorRGBA",
    "Kiutils.C49_Stroke",
    "Kiutils.C49_Font",
    "Kiutils.C49_Justify",
    "Kiutils.C49_Effects",
    "Kiutils.C49_Net",
    "Kiutils.C49_Group",
    "Kiutils.C49_PageSettings",
    "Kiutils.C49_TitleBlock",
    "Kiutils.C49_Property",
    "Kiutils.C49_RenderCachePolygon",
    "Kiutils.C49_RenderCache",
    "Kiutils.C49_Fill",
    "Kiutils.C49_Image",
    "Kiutils.C49_Library",
    "Kiutils.C49_LibTable",
    "Kiutils.C49_Constraint",
    "Kiutils.C49_Rule",
    "Kiutils.C49_WksFontSize",
    "Kiutils.C49_Bitmap",
    "Kiutils.C49_TbText",
    "Kiutils.C49_TextSize",
    "Kiutils.C49_Setup",
    "Kiutils.C49_WorkSheet",
    "Kiutils.C49_SyArc",
    "Kiutils.C49_SyCircle",
    "Kiutils.C49_SyPolyLine",
    "Kiutils.C49_SyRect",
    "Kiutils.C49_SyText",
    "Kiutils.C49_SyTextBox",
    "Kiutils.C49_SymbolAlternativePin",
    "Kiutils.C49_SymbolPin",
    "Kiutils.C49_Symbol",
    "Kiutils.C49_SymbolLib",
    "Kiutils.C49_Junction",
    "Kiutils.C49_NoConnect",
    "Kiutils.C49_BusEntry",
    "Kiutils.C49_BusAlias",
    "Kiutils.C49_Connection",
    "Kiutils.C49_PolyLine",
    "Kiutils.C49_Text",
    "Kiutils.C49_TextBox",
    "Kiutils.C49_LocalLabel",
    "Kiutils.C49_GlobalLabel",
    "Kiutils.C49_HierarchicalLabel",
    "Kiutils.C49_SymbolProjectPath",
    "Kiutils.C49_SymbolProjectInstance",
    "Kiutils.C49_SchematicSymbol",
    "Kiutils.C49_HierarchicalPin",
    "Kiutils.C49_HierarchicalSheetProjectPath",
    "Kiutils.C49_HierarchicalSheetProjectInstance",
    "Kiutils.C49_HierarchicalSheet",
    "Kiutils.C49_HierarchicalSheetInstance",
    "Kiutils.C49_SymbolInstance",
    "Kiutils.C49_Rectangle",
    "Kiutils.C49_Arc",
    "Kiutils.C49_Circle",
    "Kiutils.C49_NetclassFlag",
    "Kiutils.C49_Schematic",
    "Kiutils.C49_GrText",
    "Kiutils.C49_GrTextBox",
    "Kiutils.C49_GrLine",
    "Kiutils.C49_GrRect",
    "Kiutils.C49_GrCircle",
    "Kiutils.C49_GrArc",
    "Kiutils.C49_GrPoly",
    "Kiutils.C49_GrCurve",
    "Kiutils.C49_FpText",
    "Kiutils.C49_FpLine",
    "Kiutils.C49_FpRect",
    "Kiutils.C49_FpTextBox",
    "Kiutils.C49_FpCircle",
    "Kiutils.C49_FpArc",
    "Kiutils.C49_FpPoly",
    "Kiutils.C49_FpCurve",
    "Kiutils.C49_KeepoutSettings",
    "Kiutils.C49_FillSettings",
    "Kiutils.C49_ZonePolygon",
    "Kiutils.C49_FilledPolygon",
    "Kiutils.C49_FillSegments",
    "Kiutils.C49_Zone",
    "Kiutils.C49_Attributes",
    "Kiutils.C49_Model",
    "Kiutils.C49_DrillDefinition",
    "Kiutils.C49_PadOptions",
    "Kiutils.C49_Pad",
    "Kiutils.C49_Footprint",
    "Kiutils.C49_GeneralSettings",
    "Kiutils.C49_LayerToken",
    "Kiutils.C49_StackupLayer",
    "Kiutils.C49_Stackup",
    "Kiutils.C49_PlotSettings",
    "Kiutils.C49_SetupData",
    "Kiutils.C49_Segment",
    "Kiutils.C49_Via",
    "Kiutils.C49_TraceArc",
    "Kiutils.C49_Target",
    "Kiutils.C49_DimensionFormat",
    "Kiutils.C49_DimensionStyle",
    "Kiutils.C49_Dimension",
    "Kiutils.C49_Board",
    "Kiutils.C49_DesignRules"
   ],
   "note": "One theorem per class; texts of a tree are specified by Prints in Props/Text.lean."
  },
  {
   "property": "C50",
   "status": "proved",
   "theorems": [
    "Kiutils.C50_rounded",
    "Kiutils.C50_text",
    "Kiutils.C50_digits",
    "Kiutils.C50_survives",
    "Kiutils.C50_PlotSettings",
    "Kiutils.C50_HierarchicalSheet"
   ],
   "note": "Exact characterisation for numbers below 2^52 units of the last decimal; C50_rounded is for all finite floats."
  },
  {
   "property": "C51",
   "status": "proved",
   "theorems": [
    "Kiutils.C51_number",
    "Kiutils.C51_list",
    "Kiutils.C51_Coordinate"
   ],
   "note": "Numbers, lists of numbers, and one whole class (Coordinate) as an instance; that every class writes its numbers with the same formatting is C48."
  },
  {
   "property": "C52",
   "status": "partial",
   "theorems": [
    "Kiutils.C52_default",
    "Kiutils.C52_before_1970",
    "Kiutils.C52_survives_partial",
    "Kiutils.C52_violated"
   ],
   "note": "False of the code for every time whose hexadecimal digits are all decimal digits (C52_violated, for times before 2^40); proved for all other times (C52_survives_partial). C52_default is for all times."
  },
  {
   "property": "C53",
   "status": "proved",
   "theorems": [
    "Kiutils.C53_digits",
    "Kiutils.C53_leading_zero",
    "Kiutils.C53_large_odd",
    "Kiutils.C53_file"
   ],
   "note": ""
  },
  {
   "property": "C54",
   "status": "partial",
   "theorems": [
    "Kiutils.Objects.C54_pure_partial",
    "Kiutils.Objects.C54_second_partial",
    "Kiutils.Objects.C54_first_partial",
    "Kiutils.Objects.C54_violated",
    "Kiutils.Objects.C54_constructors"
   ],
   "note": "False of the code for NetclassFlag (C54_violated, for all heaps); proved for code that constructs any other classes (C54_*_partial). Readers are covered as instances of Runs: by inspection they only construct, read and store references that they hold."
  },
  {
   "property": "C55",
   "status": "proved",
   "theorems": [
    "Kiutils.C55_shortest",
    "Kiutils.C55_inf"
   ],
   "note": ""
  },
  {
   "property": "C56",
   "status": "proved",
   "theorems": [
    "Kiutils.C56_reader",
    "Kiutils.C56_blanks",
    "Kiutils.C56_libId"
   ],
   "note": ""
  },
  {
   "property": "C57",
   "status": "proved",
   "theorems": [
    "Kiutils.C57_LibTable_libs",
    "Kiutils.C57_SymbolLib_symbols",
    "Kiutils.C57_Symbol_properties",
    "Kiutils.C57_Symbol_graphicItems",
    "Kiutils.C57_Symbol_pins",
    "Kiutils.C57_Symbol_units",
    "Kiutils.C57_SymbolPin_alternatePins",
    "Kiutils.C57_SyPolyLine_points",
    "Kiutils.C57_Stackup_layers",
    "Kiutils.C57_Group_members",
    "Kiutils.C57_TitleBlock_comments",
    "Kiutils.C57_RenderCache_polygons",
    "Kiutils.C57_Image_data",
    "Kiutils.C57_FpPoly_coordinates",
    "Kiutils.C57_FpCurve_coordinates",
    "Kiutils.C57_GrPoly_coordinates",
    "Kiutils.C57_GrCurve_coordinates",
    "Kiutils.C57_ZonePolygon_coordinates",
    "Kiutils.C57_FilledPolygon_coordinates",
    "Kiutils.C57_FillSegments_coordinates",
    "Kiutils.C57_Bitmap_pngdata",
    "Kiutils.C57_WorkSheet_drawingObjects",
    "Kiutils.C57_Rule_constraints",
    "Kiutils.C57_DesignRules_rules",
    "Kiutils.C57_GlobalLabel_properties",
    "Kiutils.C57_SymbolProjectInstance_paths",
    "Kiutils.C57_SchematicSymbol_properties",
    "Kiutils.C57_SchematicSymbol_pins",
    "Kiutils.C57_SchematicSymbol_instances",
    "Kiutils.C57_HierarchicalSheetProjectInstance_paths",
    "Kiutils.C57_HierarchicalSheet_properties",
    "Kiutils.C57_HierarchicalSheet_pins",
    "Kiutils.C57_HierarchicalSheet_instances",
    "Kiutils.C57_NetclassFlag_properties",
    "Kiutils.C57_Zone_polygons",
    "Kiutils.C57_Zone_filledPolygons",
    "Kiutils.C57_Schematic_junctions",
    "Kiutils.C57_Schematic_noConnects",
    "Kiutils.C57_Schematic_busEntries",
    "Kiutils.C57_Schematic_busAliases",
    "Kiutils.C57_Schematic_graphicalItems",
    "Kiutils.C57_Schematic_shapes",
    "Kiutils.C57_Schematic_images",
    "Kiutils.C57_Schematic_textBoxes",
    "Kiutils.C57_Schematic_labels",
    "Kiutils.C57_Schematic_globalLabels",
    "Kiutils.C57_Schematic_hierarchicalLabels",
    "Kiutils.C57_Schematic_texts",
    "Kiutils.C57_Schematic_netclassFlags",
    "Kiutils.C57_Schematic_schematicSymbols",
    "Kiutils.C57_Schematic_sheets",
    "Kiutils.C57_Schematic_sheetInstances",
    "Kiutils.C57_Schematic_symbolInstances",
    "Kiutils.C57_Footprint_properties",
    "Kiutils.C57_Footprint_graphicItems",
    "Kiutils.C57_Footprint_pads",
    "Kiutils.C57_Footprint_zones",
    "Kiutils.C57_Footprint_models",
    "Kiutils.C57_Footprint_groups",
    "Kiutils.C57_Board_layers",
    "Kiutils.C57_Board_properties",
    "Kiutils.C57_Board_nets",
    "Kiutils.C57_Board_footprints",
    "Kiutils.C57_Board_graphicItems",
    "Kiutils.C57_Board_dimensions",
    "Kiutils.C57_Board_targets",
    "Kiutils.C57_Board_traceItems",
    "Kiutils.C57_Board_zones",
    "Kiutils.C57_Board_groups",
    "Kiutils.C57_StackupLayer_subLayers",
    "Kiutils.C57_Via_layers",
    "Kiutils.C57_Connection_points",
    "Kiutils.C57_PolyLine_points",
    "Kiutils.C57_Schematic_libSymbols",
    "Kiutils.C57_Pad_layers",
    "Kiutils.C57_Pad_chamfer",
    "Kiutils.C57_Pad_customPadPrimitives",
    "Kiutils.C57_Footprint_privateLayers",
    "Kiutils.C57_Footprint_netTiePadGroups",
    "Kiutils.C57_Dimension_pts",
    "Kiutils.C57_replace",
    "Kiutils.C57_insert"
   ],
   "note": "One theorem per list (80), and what they mean for replacing, inserting and removing one item. TextOnly for lists that are written within a line."
  },
  {
   "property": "C58",
   "status": "proved",
   "theorems": [
    "Kiutils.C58_LibTable",
    "Kiutils.C58_DesignRules",
    "Kiutils.C58_WorkSheet",
    "Kiutils.C58_SymbolLib",
    "Kiutils.C58_Schematic",
    "Kiutils.C58_Footprint",
    "Kiutils.C58_Board",
    "Kiutils.C58_TitleBlock_keys",
    "Kiutils.C58_Board_keys",
    "Kiutils.C58_Footprint_keys",
    "Kiutils.C58_SchematicSymbol_keys"
   ],
   "note": "Faithful: one theorem per file class; KeyOk: one theorem per dictionary."
  },
  {
   "property": "C59",
   "status": "proved",
   "theorems": [
    "Kiutils.C59_Stroke",
    "Kiutils.C59_Stroke_color",
    "Kiutils.C59_Font",
    "Kiutils.C59_Font_color",
    "Kiutils.C59_Justify",
    "Kiutils.C59_Effects",
    "Kiutils.C59_Effects_font",
    "Kiutils.C59_Effects_justify",
    "Kiutils.C59_Group",
    "Kiutils.C59_PageSettings",
    "Kiutils.C59_TitleBlock",
    "Kiutils.C59_Property",
    "Kiutils.C59_Property_at",
    "Kiutils.C59_Property_effects",
    "Kiutils.C59_RenderCachePolygon",
    "Kiutils.C59_RenderCachePolygon_pts",
    "Kiutils.C59_RenderCache",
    "Kiutils.C59_RenderCache_polygon",
    "Kiutils.C59_Fill",
    "Kiutils.C59_Fill_color",
    "Kiutils.C59_Image",
    "Kiutils.C59_Image_at",
    "Kiutils.C59_Library",
    "Kiutils.C59_LibTable",
    "Kiutils.C59_LibTable_lib",
    "Kiutils.C59_Constraint",
    "Kiutils.C59_Rule",
    "Kiutils.C59_Rule_constraint",
    "Kiutils.C59_DesignRules",
    "Kiutils.C59_DesignRules_rule",
    "Kiutils.C59_WksFont",
    "Kiutils.C59_WksFont_size",
    "Kiutils.C59_WksShape",
    "Kiutils.C59_WksShape_start",
    "Kiutils.C59_Bitmap",
    "Kiutils.C59_Bitmap_pos",
    "Kiutils.C59_TbText",
    "Kiutils.C59_TbText_pos",
    "Kiutils.C59_TbText_font",
    "Kiutils.C59_TbText_justify",
    "Kiutils.C59_Setup",
    "Kiutils.C59_Setup_textsize",
    "Kiutils.C59_WorkSheet",
    "Kiutils.C59_WorkSheet_setup",
    "Kiutils.C59_WorkSheet_tbtext",
    "Kiutils.C59_WorkSheet_bitmap",
    "Kiutils.C59_SyArc",
    "Kiutils.C59_SyArc_start",
    "Kiutils.C59_SyArc_mid",
    "Kiutils.C59_SyArc_stroke",
    "Kiutils.C59_SyArc_fill",
    "Kiutils.C59_SyCircle",
    "Kiutils.C59_SyCircle_center",
    "Kiutils.C59_SyCircle_stroke",
    "Kiutils.C59_SyCircle_fill",
    "Kiutils.C59_SyCurve",
    "Kiutils.C59_SyCurve_stroke",
    "Kiutils.C59_SyCurve_fill",
    "Kiutils.C59_SyCurve_pts",
    "Kiutils.C59_SyPolyLine",
    "Kiutils.C59_SyPolyLine_stroke",
    "Kiutils.C59_SyPolyLine_fill",
    "Kiutils.C59_SyPolyLine_pts",
    "Kiutils.C59_SyRect",
    "Kiutils.C59_SyRect_start",
    "Kiutils.C59_SyRect_stroke",
    "Kiutils.C59_SyRect_fill",
    "Kiutils.C59_SyText",
    "Kiutils.C59_SyText_at",
    "Kiutils.C59_SyText_effects",
    "Kiutils.C59_SyTextBox",
    "Kiutils.C59_SyTextBox_at",
    "Kiutils.C59_SyTextBox_size",
    "Kiutils.C59_SyTextBox_effects",
    "Kiutils.C59_SyTextBox_stroke",
    "Kiutils.C59_SyTextBox_fill",
    "Kiutils.C59_SymbolPin",
    "Kiutils.C59_SymbolPin_at",
    "Kiutils.C59_SymbolPin_alternate",
    "Kiutils.C59_SymbolLib",
    "Kiutils.C59_SymbolLib_symbol",
    "Kiutils.C59_Junction",
    "Kiutils.C59_Junction_at",
    "Kiutils.C59_Junction_color",
    "Kiutils.C59_NoConnect",
    "Kiutils.C59_NoConnect_at",
    "Kiutils.C59_BusEntry",
    "Kiutils.C59_BusEntry_at",
    "Kiutils.C59_BusEntry_stroke",
    "Kiutils.C59_BusEntry_size",
    "Kiutils.C59_Connection",
    "Kiutils.C59_Connection_pts",
    "Kiutils.C59_Connection_stroke",
    "Kiutils.C59_PolyLine",
    "Kiutils.C59_PolyLine_pts",
    "Kiutils.C59_PolyLine_stroke",
    "Kiutils.C59_Text",
    "Kiutils.C59_Text_at",
    "Kiutils.C59_Text_effects",
    "Kiutils.C59_TextBox",
    "Kiutils.C59_TextBox_at",
    "Kiutils.C59_TextBox_size",
    "Kiutils.C59_TextBox_effects",
    "Kiutils.C59_TextBox_stroke",
    "Kiutils.C59_TextBox_fill",
    "Kiutils.C59_LocalLabel",
    "Kiutils.C59_LocalLabel_at",
    "Kiutils.C59_LocalLabel_effects",
    "Kiutils.C59_GlobalLabel",
    "Kiutils.C59_GlobalLabel_at",
    "Kiutils.C59_GlobalLabel_effects",
    "Kiutils.C59_GlobalLabel_property",
    "Kiutils.C59_HierarchicalLabel",
    "Kiutils.C59_HierarchicalLabel_at",
    "Kiutils.C59_HierarchicalLabel_effects",
    "Kiutils.C59_SymbolProjectPath",
    "Kiutils.C59_SymbolProjectInstance",
    "Kiutils.C59_SymbolProjectInstance_path",
    "Kiutils.C59_SchematicSymbol",
    "Kiutils.C59_SchematicSymbol_at",
    "Kiutils.C59_SchematicSymbol_property",
    "Kiutils.C59_SchematicSymbol_instances",
    "Kiutils.C59_HierarchicalPin",
    "Kiutils.C59_HierarchicalPin_at",
    "Kiutils.C59_HierarchicalPin_effects",
    "Kiutils.C59_HierarchicalSheetProjectPath",
    "Kiutils.C59_HierarchicalSheetProjectInstance",
    "Kiutils.C59_HierarchicalSheetProjectInstance_path",
    "Kiutils.C59_HierarchicalSheet",
    "Kiutils.C59_HierarchicalSheet_at",
    "Kiutils.C59_HierarchicalSheet_stroke",
    "Kiutils.C59_HierarchicalSheet_pin",
    "Kiutils.C59_HierarchicalSheet_instances",
    "Kiutils.C59_HierarchicalSheetInstance",
    "Kiutils.C59_SymbolInstance",
    "Kiutils.C59_Rectangle",
    "Kiutils.C59_Rectangle_start",
    "Kiutils.C59_Rectangle_stroke",
    "Kiutils.C59_Rectangle_fill",
    "Kiutils.C59_Arc",
    "Kiutils.C59_Arc_start",
    "Kiutils.C59_Arc_mid",
    "Kiutils.C59_Arc_stroke",
    "Kiutils.C59_Arc_fill",
    "Kiutils.C59_Circle",
    "Kiutils.C59_Circle_center",
    "Kiutils.C59_Circle_stroke",
    "Kiutils.C59_Circle_fill",
    "Kiutils.C59_NetclassFlag",
    "Kiutils.C59_NetclassFlag_at",
    "Kiutils.C59_NetclassFlag_effects",
    "Kiutils.C59_NetclassFlag_property",
    "Kiutils.C59_Schematic",
    "Kiutils.C59_Schematic_paper",
    "Kiutils.C59_Schematic_title_block",
    "Kiutils.C59_Schematic_lib_symbols",
    "Kiutils.C59_Schematic_junction",
    "Kiutils.C59_Schematic_no_connect",
    "Kiutils.C59_Schematic_bus_entry",
    "Kiutils.C59_Schematic_bus_alias",
    "Kiutils.C59_Schematic_polyline",
    "Kiutils.C59_Schematic_arc",
    "Kiutils.C59_Schematic_circle",
    "Kiutils.C59_Schematic_rectangle",
    "Kiutils.C59_Schematic_image",
    "Kiutils.C59_Schematic_text",
    "Kiutils.C59_Schematic_text_box",
    "Kiutils.C59_Schematic_label",
    "Kiutils.C59_Schematic_global_label",
    "Kiutils.C59_Schematic_hierarchical_label",
    "Kiutils.C59_Schematic_netclass_flag",
    "Kiutils.C59_Schematic_symbol",
    "Kiutils.C59_Schematic_sheet",
    "Kiutils.C59_Schematic_sheet_instances",
    "Kiutils.C59_Schematic_symbol_instances",
    "Kiutils.C59_GrText",
    "Kiutils.C59_GrText_at",
    "Kiutils.C59_GrText_effects",
    "Kiutils.C59_GrText_render_cache",
    "Kiutils.C59_GrTextBox",
    "Kiutils.C59_GrTextBox_start",
    "Kiutils.C59_GrTextBox_pts",
    "Kiutils.C59_GrTextBox_effects",
    "Kiutils.C59_GrTextBox_stroke",
    "Kiutils.C59_GrTextBox_render_cache",
    "Kiutils.C59_GrLine",
    "Kiutils.C59_GrLine_start",
    "Kiutils.C59_GrRect",
    "Kiutils.C59_GrRect_start",
    "Kiutils.C59_GrCircle",
    "Kiutils.C59_GrCircle_center",
    "Kiutils.C59_GrArc",
    "Kiutils.C59_GrArc_start",
    "Kiutils.C59_GrArc_mid",
    "Kiutils.C59_GrPoly",
    "Kiutils.C59_GrPoly_pts",
    "Kiutils.C59_GrCurve",
    "Kiutils.C59_GrCurve_pts",
    "Kiutils.C59_FpText",
    "Kiutils.C59_FpText_at",
    "Kiutils.C59_FpText_effects",
    "Kiutils.C59_FpText_render_cache",
    "Kiutils.C59_FpLine",
    "Kiutils.C59_FpLine_start",
    "Kiutils.C59_FpLine_stroke",
    "Kiutils.C59_FpRect",
    "Kiutils.C59_FpRect_start",
    "Kiutils.C59_FpRect_stroke",
    "Kiutils.C59_FpTextBox",
    "Kiutils.C59_FpTextBox_start",
    "Kiutils.C59_FpTextBox_pts",
    "Kiutils.C59_FpTextBox_effects",
    "Kiutils.C59_FpTextBox_stroke",
    "Kiutils.C59_FpTextBox_render_cache",
    "Kiutils.C59_FpCircle",
    "Kiutils.C59_FpCircle_center",
    "Kiutils.C59_FpCircle_stroke",
    "Kiutils.C59_FpArc",
    "Kiutils.C59_FpArc_start",
    "Kiutils.C59_FpArc_mid",
    "Kiutils.C59_FpArc_stroke",
    "Kiutils.C59_FpPoly",
    "Kiutils.C59_FpPoly_pts",
    "Kiutils.C59_FpPoly_stroke",
    "Kiutils.C59_FpCurve",
    "Kiutils.C59_FpCurve_pts",
    "Kiutils.C59_FpCurve_stroke",
    "Kiutils.C59_KeepoutSettings",
    "Kiutils.C59_FillSettings",
    "Kiutils.C59_ZonePolygon",
    "Kiutils.C59_ZonePolygon_pts",
    "Kiutils.C59_FilledPolygon",
    "Kiutils.C59_FilledPolygon_pts",
    "Kiutils.C59_FillSegments",
    "Kiutils.C59_FillSegments_pts",
    "Kiutils.C59_Zone",
    "Kiutils.C59_Zone_keepout",
    "Kiutils.C59_Zone_fill",
    "Kiutils.C59_Zone_polygon",
    "Kiutils.C59_Zone_filled_polygon",
    "Kiutils.C59_Zone_fill_segments",
    "Kiutils.C59_Attributes",
    "Kiutils.C59_Model",
    "Kiutils.C59_DrillDefinition",
    "Kiutils.C59_DrillDefinition_offset",
    "Kiutils.C59_PadOptions",
    "Kiutils.C59_Pad",
    "Kiutils.C59_Pad_at",
    "Kiutils.C59_Pad_size",
    "Kiutils.C59_Pad_drill",
    "Kiutils.C59_Pad_net",
    "Kiutils.C59_Pad_options",
    "Kiutils.C59_Footprint",
    "Kiutils.C59_Footprint_at",
    "Kiutils.C59_Footprint_attr",
    "Kiutils.C59_Footprint_model",
    "Kiutils.C59_Footprint_fp_text",
    "Kiutils.C59_Footprint_fp_text_box",
    "Kiutils.C59_Footprint_fp_line",
    "Kiutils.C59_Footprint_fp_rect",
    "Kiutils.C59_Footprint_fp_circle",
    "Kiutils.C59_Footprint_fp_arc",
    "Kiutils.C59_Footprint_fp_poly",
    "Kiutils.C59_Footprint_fp_curve",
    "Kiutils.C59_Footprint_image",
    "Kiutils.C59_Footprint_pad",
    "Kiutils.C59_Footprint_zone",
    "Kiutils.C59_Footprint_group",
    "Kiutils.C59_GeneralSettings",
    "Kiutils.C59_Stackup",
    "Kiutils.C59_Stackup_layer",
    "Kiutils.C59_PlotSettings",
    "Kiutils.C59_SetupData",
    "Kiutils.C59_SetupData_stackup",
    "Kiutils.C59_SetupData_pcbplotparams",
    "Kiutils.C59_SetupData_aux_axis_origin",
    "Kiutils.C59_SetupData_grid_origin",
    "Kiutils.C59_Segment",
    "Kiutils.C59_Segment_start",
    "Kiutils.C59_Via",
    "Kiutils.C59_Via_at",
    "Kiutils.C59_TraceArc",
    "Kiutils.C59_TraceArc_start",
    "Kiutils.C59_TraceArc_mid",
    "Kiutils.C59_Target",
    "Kiutils.C59_Target_at",
    "Kiutils.C59_DimensionFormat",
    "Kiutils.C59_DimensionStyle",
    "Kiutils.C59_Dimension",
    "Kiutils.C59_Dimension_gr_text",
    "Kiutils.C59_Dimension_format",
    "Kiutils.C59_Dimension_style",
    "Kiutils.C59_Dimension_pts",
    "Kiutils.C59_Board",
    "Kiutils.C59_Board_general",
    "Kiutils.C59_Board_paper",
    "Kiutils.C59_Board_title_block",
    "Kiutils.C59_Board_layers",
    "Kiutils.C59_Board_setup",
    "Kiutils.C59_Board_net",
    "Kiutils.C59_Board_footprint",
    "Kiutils.C59_Board_gr_text",
    "Kiutils.C59_Board_gr_text_box",
    "Kiutils.C59_Board_gr_line",
    "Kiutils.C59_Board_gr_rect",
    "Kiutils.C59_Board_gr_circle",
    "Kiutils.C59_Board_gr_arc",
    "Kiutils.C59_Board_gr_poly",
    "Kiutils.C59_Board_gr_curve",
    "Kiutils.C59_Board_image",
    "Kiutils.C59_Board_dimension",
    "Kiutils.C59_Board_target",
    "Kiutils.C59_Board_segment",
    "Kiutils.C59_Board_arc",
    "Kiutils.C59_Board_via",
    "Kiutils.C59_Board_zone",
    "Kiutils.C59_Board_group",
    "Kiutils.C59_Symbol",
    "Kiutils.C59_Symbol_symbol",
    "Kiutils.C59_Symbol_property",
    "Kiutils.C59_Symbol_pin",
    "Kiutils.C59_Symbol_arc",
    "Kiutils.C59_Symbol_circle",
    "Kiutils.C59_Symbol_curve",
    "Kiutils.C59_Symbol_polyline",
    "Kiutils.C59_Symbol_rectangle",
    "Kiutils.C59_Symbol_text",
    "Kiutils.C59_Symbol_text_box"
   ],
   "note": "ItemWise per class, Nested/NestedAll per token that holds a nested object. For classes with positional arguments, these are fixed. Which exception is raised is not claimed."
  },
  {
   "property": "C60",
   "status": "proved",
   "theorems": [
    "Kiutils.C60_Board",
    "Kiutils.C60_Constraint",
    "Kiutils.C60_Rule",
    "Kiutils.C60_DesignRules",
    "Kiutils.C60_Attributes",
    "Kiutils.C60_Model",
    "Kiutils.C60_DrillDefinition",
    "Kiutils.C60_PadOptions",
    "Kiutils.C60_Pad",
    "Kiutils.C60_Footprint",
    "Kiutils.C60_GeneralSettings",
    "Kiutils.C60_LayerToken",
    "Kiutils.C60_StackupSubLayer",
    "Kiutils.C60_StackupLayer",
    "Kiutils.C60_Stackup",
    "Kiutils.C60_PlotSettings",
    "Kiutils.C60_SetupData",
    "Kiutils.C60_Segment",
    "Kiutils.C60_Via",
    "Kiutils.C60_TraceArc",
    "Kiutils.C60_Arc",
    "Kiutils.C60_Target",
    "Kiutils.C60_Position",
    "Kiutils.C60_Coordinate",
    "Kiutils.C60_ColorRGBA",
    "Kiutils.C60_Stroke",
    "Kiutils.C60_Font",
    "Kiutils.C60_Justify",
    "Kiutils.C60_Effects",
    "Kiutils.C60_Net",
    "Kiutils.C60_Group",
    "Kiutils.C60_PageSettings",
    "Kiutils.C60_TitleBlock",
    "Kiutils.C60_Property",
    "Kiutils.C60_RenderCachePolygon",
    "Kiutils.C60_RenderCache",
    "Kiutils.C60_Fill",
    "Kiutils.C60_Image",
    "Kiutils.C60_DimensionFormat",
    "Kiutils.C60_DimensionStyle",
    "Kiutils.C60_Dimension",
    "Kiutils.C60_FpText",
    "Kiutils.C60_FpLine",
    "Kiutils.C60_FpRect",
    "Kiutils.C60_FpTextBox",
    "Kiutils.C60_FpCircle",
    "Kiutils.C60_FpArc",
    "Kiutils.C60_FpPoly",
    "Kiutils.C60_FpCurve",
    "Kiutils.C60_GrText",
    "Kiutils.C60_GrTextBox",
    "Kiutils.C60_GrLine",
    "Kiutils.C60_GrRect",
    "Kiutils.C60_GrCircle",
    "Kiutils.C60_GrArc",
    "Kiutils.C60_GrPoly",
    "Kiutils.C60_GrCurve",
    "Kiutils.C60_Junction",
    "Kiutils.C60_NoConnect",
    "Kiutils.C60_BusEntry",
    "Kiutils.C60_BusAlias",
    "Kiutils.C60_Connection",
    "Kiutils.C60_PolyLine",
    "Kiutils.C60_Text",
    "Kiutils.C60_TextBox",
    "Kiutils.C60_LocalLabel",
    "Kiutils.C60_GlobalLabel",
    "Kiutils.C60_HierarchicalLabel",
    "Kiutils.C60_SymbolProjectPath",
    "Kiutils.C60_SymbolProjectInstance",
    "Kiutils.C60_SchematicSymbol",
    "Kiutils.C60_HierarchicalPin",
    "Kiutils.C60_HierarchicalSheetProjectPath",
    "Kiutils.C60_HierarchicalSheetProjectInstance",
    "Kiutils.C60_HierarchicalSheet",
    "Kiutils.C60_HierarchicalSheetInstance",
    "Kiutils.C60_SymbolInstance",
    "Kiutils.C60_Rectangle",
    "Kiutils.C60_Circle",
    "Kiutils.C60_NetclassFlag",
    "Kiutils.C60_SyArc",
    "Kiutils.C60_SyCircle",
    "Kiutils.C60_SyCurve",
    "Kiutils.C60_SyPolyLine",
    "Kiutils.C60_SyRect",
    "Kiutils.C60_SyText",
    "Kiutils.C60_SyTextBox",
    "Kiutils.C60_KeepoutSettings",
    "Kiutils.C60_FillSettings",
    "Kiutils.C60_ZonePolygon",
    "Kiutils.C60_FilledPolygon",
    "Kiutils.C60_FillSegments",
    "Kiutils.C60_Hatch",
    "Kiutils.C60_Zone",
    "Kiutils.C60_Library",
    "Kiutils.C60_LibTable",
    "Kiutils.C60_Schematic",
    "Kiutils.C60_SymbolAlternativePin",
    "Kiutils.C60_SymbolPin",
    "Kiutils.C60_Symbol",
    "Kiutils.C60_SymbolLib",
    "Kiutils.C60_WksFontSize",
    "Kiutils.C60_WksFont",
    "Kiutils.C60_WksPosition",
    "Kiutils.C60_Line",
    "Kiutils.C60_Rect",
    "Kiutils.C60_Bitmap",
    "Kiutils.C60_TbText",
    "Kiutils.C60_TextSize",
    "Kiutils.C60_Setup",
    "Kiutils.C60_WorkSheet",
    "Kiutils.C60_Font_unknown",
    "Kiutils.C60_Effects_unknown",
    "Kiutils.C60_TitleBlock_unknown",
    "Kiutils.C60_Property_unknown",
    "Kiutils.C60_RenderCachePolygon_unknown",
    "Kiutils.C60_Fill_unknown",
    "Kiutils.C60_Image_unknown",
    "Kiutils.C60_Library_unknown",
    "Kiutils.C60_LibTable_unknown",
    "Kiutils.C60_Constraint_unknown",
    "Kiutils.C60_Rule_unknown",
    "Kiutils.C60_WksFont_unknown",
    "Kiutils.C60_Bitmap_unknown",
    "Kiutils.C60_TbText_unknown",
    "Kiutils.C60_Setup_unknown",
    "Kiutils.C60_WorkSheet_unknown",
    "Kiutils.C60_SyArc_unknown",
    "Kiutils.C60_SyCircle_unknown",
    "Kiutils.C60_SyCurve_unknown",
    "Kiutils.C60_SyPolyLine_unknown",
    "Kiutils.C60_SyRect_unknown",
    "Kiutils.C60_SyText_unknown",
    "Kiutils.C60_SyTextBox_unknown",
    "Kiutils.C60_SymbolPin_unknown",
    "Kiutils.C60_SymbolLib_unknown",
    "Kiutils.C60_Junction_unknown",
    "Kiutils.C60_NoConnect_unknown",
    "Kiutils.C60_BusEntry_unknown",
    "Kiutils.C60_Connection_unknown",
    "Kiutils.C60_PolyLine_unknown",
    "Kiutils.C60_Text_unknown",
    "Kiutils.C60_TextBox_unknown",
    "Kiutils.C60_LocalLabel_unknown",
    "Kiutils.C60_GlobalLabel_unknown",
    "Kiutils.C60_HierarchicalLabel_unknown",
    "Kiutils.C60_SymbolProjectPath_unknown",
    "Kiutils.C60_SymbolProjectInstance_unknown",
    "Kiutils.C60_SchematicSymbol_unknown",
    "Kiutils.C60_HierarchicalPin_unknown",
    "Kiutils.C60_HierarchicalSheetProjectPath_unknown",
    "Kiutils.C60_HierarchicalSheetProjectInstance_unknown",
    "Kiutils.C60_HierarchicalSheet_unknown",
    "Kiutils.C60_HierarchicalSheetInstance_unknown",
    "Kiutils.C60_SymbolInstance_unknown",
    "Kiutils.C60_Rectangle_unknown",
    "Kiutils.C60_Arc_unknown",
    "Kiutils.C60_Circle_unknown",
    "Kiutils.C60_NetclassFlag_unknown",
    "Kiutils.C60_Schematic_unknown",
    "Kiutils.C60_GrText_unknown",
    "Kiutils.C60_GrTextBox_unknown",
    "Kiutils.C60_GrLine_unknown",
    "Kiutils.C60_GrRect_unknown",
    "Kiutils.C60_GrCircle_unknown",
    "Kiutils.C60_GrArc_unknown",
    "Kiutils.C60_GrPoly_unknown",
    "Kiutils.C60_GrCurve_unknown",
    "Kiutils.C60_FpText_unknown",
    "Kiutils.C60_FpLine_unknown",
    "Kiutils.C60_FpRect_unknown",
    "Kiutils.C60_FpTextBox_unknown",
    "Kiutils.C60_FpCircle_unknown",
    "Kiutils.C60_FpArc_unknown",
    "Kiutils.C60_FpPoly_unknown",
    "Kiutils.C60_FpCurve_unknown",
    "Kiutils.C60_KeepoutSettings_unknown",
    "Kiutils.C60_FillSettings_unknown",
    "Kiutils.C60_ZonePolygon_unknown",
    "Kiutils.C60_FilledPolygon_unknown",
    "Kiutils.C60_FillSegments_unknown",
    "Kiutils.C60_Zone_unknown",
    "Kiutils.C60_PadOptions_unknown",
    "Kiutils.C60_Footprint_unknown",
    "Kiutils.C60_GeneralSettings_unknown",
    "Kiutils.C60_Stackup_unknown",
    "Kiutils.C60_PlotSettings_unknown",
    "Kiutils.C60_SetupData_unknown",
    "Kiutils.C60_Segment_unknown",
    "Kiutils.C60_Via_unknown",
    "Kiutils.C60_TraceArc_unknown",
    "Kiutils.C60_Target_unknown",
    "Kiutils.C60_DimensionFormat_unknown",
    "Kiutils.C60_DimensionStyle_unknown",
    "Kiutils.C60_Dimension_unknown",
    "Kiutils.C60_Board_unknown"
   ],
   "note": "One theorem per class for new objects, one for lists of unknown children (85 classes; the loops of ten others also run over positional arguments); the right-hand sides are transcribed from /repo. Defaults that are classes instead of objects (NetclassFlag) as explained in the model."
  },
  {
   "property": "C61",
   "status": "proved",
   "theorems": [
    "Kiutils.C61_Coordinate",
    "Kiutils.C61_ColorRGBA",
    "Kiutils.C61_Stroke",
    "Kiutils.C61_Font",
    "Kiutils.C61_Justify",
    "Kiutils.C61_Effects",
    "Kiutils.C61_Net",
    "Kiutils.C61_Group",
    "Kiutils.C61_PageSettings",
    "Kiutils.C61_TitleBlock",
    "Kiutils.C61_Property",
    "Kiutils.C61_RenderCachePolygon",
    "Kiutils.C61_RenderCache",
    "Kiutils.C61_Fill",
    "Kiutils.C61_Image",
    "Kiutils.C61_Library",
    "Kiutils.C61_LibTable",
    "Kiutils.C61_Constraint",
    "Kiutils.C61_Rule",
    "Kiutils.C61_WksFontSize",
    "Kiutils.C61_Bitmap",
    "Kiutils.C61_TbText",
    "Kiutils.C61_TextSize",
    "Kiutils.C61_Setup",
    "Kiutils.C61_WorkSheet",
    "Kiutils.C61_SyArc",
    "Kiutils.C61_SyCircle",
    "Kiutils.C61_SyPolyLine",
    "Kiutils.C61_SyRect",
    "Kiutils.C61_SyText",
    "Kiutils.C61_SyTextBox",
    "Kiutils.C61_SymbolAlternativePin",
    "Kiutils.C61_SymbolPin",
    "Kiutils.C61_Symbol",
    "Kiutils.C61_SymbolLib",
    "Kiutils.C61_Junction",
    "Kiutils.C61_NoConnect",
    "Kiutils.C61_BusEntry",
    "Kiutils.C61_BusAlias",
    "Kiutils.C61_Connection",
    "Kiutils.C61_PolyLine",
    "Kiutils.C61_Text",
    "Kiutils.C61_TextBox",
    "Kiutils.C61_LocalLabel",
    "Kiutils.C61_GlobalLabel",
    "Kiutils.C61_HierarchicalLabel",
    "Kiutils.C61_SymbolProjectPath",
    "Kiutils.C61_SymbolProjectInstance",
    "Kiutils.C61_SchematicSymbol",
    "Kiutils.C61_HierarchicalPin",
    "Kiutils.C61_HierarchicalSheetProjectPath",
    "Kiutils.C61_HierarchicalSheetProjectInstance",
    "Kiutils.C61_HierarchicalSheet",
    "Kiutils.C61_HierarchicalSheetInstance",
    "Kiutils.C61_SymbolInstance",
    "Kiutils.C61_Rectangle",
    "Kiutils.C61_Arc",
    "Kiutils.C61_Circle",
    "Kiutils.C61_NetclassFlag",
    "Kiutils.C61_Schematic",
    "Kiutils.C61_GrText",
    "Kiutils.C61_GrTextBox",
    "Kiutils.C61_GrLine",
    "Kiutils.C61_GrRect",
    "Kiutils.C61_GrCircle",
    "Kiutils.C61_GrArc",
    "Kiutils.C61_GrPoly",
    "Kiutils.C61_GrCurve",
    "Kiutils.C61_FpText",
    "Kiutils.C61_FpLine",
    "Kiutils.C61_FpRect",
    "Kiutils.C61_FpTextBox",
    "Kiutils.C61_FpCircle",
    "Kiutils.C61_FpArc",
    "Kiutils.C61_FpPoly",
    "Kiutils.C61_FpCurve",
    "Kiutils.C61_KeepoutSettings",
    "Kiutils.C61_FillSettings",
    "Kiutils.C61_ZonePolygon",
    "Kiutils.C61_FilledPolygon",
    "Kiutils.C61_FillSegments",
    "Kiutils.C61_Zone",
    "Kiutils.C61_Attributes",
    "Kiutils.C61_Model",
    "Kiutils.C61_DrillDefinition",
    "Kiutils.C61_PadOptions",
    "Kiutils.C61_Pad",
    "Kiutils.C61_Footprint",
    "Kiutils.C61_GeneralSettings",
    "Kiutils.C61_LayerToken",
    "Kiutils.C61_StackupLayer",
    "Kiutils.C61_Stackup",
    "Kiutils.C61_PlotSettings",
    "Kiutils.C61_SetupData",
    "Kiutils.C61_Segment",
    "Kiutils.C61_Via",
    "Kiutils.C61_TraceArc",
    "Kiutils.C61_Target",
    "Kiutils.C61_DimensionFormat",
    "Kiutils.C61_DimensionStyle",
    "Kiutils.C61_Dimension",
    "Kiutils.C61_Board",
    "Kiutils.C61_Line",
    "Kiutils.C61_Rect",
    "Kiutils.C61_DesignRules"
   ],
   "note": "One theorem per class (Keeps; Rewrites for the five classes in which a value is lost, which says exactly what is changed). Texts of design rules are read in brackets, as the loader does."
  },
  {
   "property": "C62",
   "status": "proved",
   "theorems": [
    "Kiutils.C62_Coordinate",
    "Kiutils.C62_ColorRGBA",
    "Kiutils.C62_ColorRGBA_M",
    "Kiutils.C62_Stroke",
    "Kiutils.C62_Font",
    "Kiutils.C62_Justify",
    "Kiutils.C62_Effects",
    "Kiutils.C62_Net",
    "Kiutils.C62_Group",
    "Kiutils.C62_PageSettings",
    "Kiutils.C62_TitleBlock",
    "Kiutils.C62_Property",
    "Kiutils.C62_RenderCachePolygon",
    "Kiutils.C62_RenderCache",
    "Kiutils.C62_Fill",
    "Kiutils.C62_Image",
    "Kiutils.C62_Library",
    "Kiutils.C62_LibTable",
    "Kiutils.C62_Constraint",
    "Kiutils.C62_Rule",
    "Kiutils.C62_DesignRules",
    "Kiutils.C62_WksFontSize",
    "Kiutils.C62_WksFont",
    "Kiutils.C62_Bitmap",
    "Kiutils.C62_TbText",
    "Kiutils.C62_TextSize",
    "Kiutils.C62_Setup",
    "Kiutils.C62_WksItem",
    "Kiutils.C62_WorkSheet",
    "Kiutils.C62_SyArc",
    "Kiutils.C62_SyCircle",
    "Kiutils.C62_SyCurve",
    "Kiutils.C62_SyPolyLine",
    "Kiutils.C62_SyRect",
    "Kiutils.C62_SyText",
    "Kiutils.C62_SyTextBox",
    "Kiutils.C62_SyItem",
    "Kiutils.C62_SymbolAlternativePin",
    "Kiutils.C62_SymbolPin",
    "Kiutils.C62_Symbol",
    "Kiutils.C62_SymbolLib",
    "Kiutils.C62_Junction",
    "Kiutils.C62_NoConnect",
    "Kiutils.C62_BusEntry",
    "Kiutils.C62_BusAlias",
    "Kiutils.C62_Connection",
    "Kiutils.C62_PolyLine",
    "Kiutils.C62_Text",
    "Kiutils.C62_TextBox",
    "Kiutils.C62_LocalLabel",
    "Kiutils.C62_GlobalLabel",
    "Kiutils.C62_HierarchicalLabel",
    "Kiutils.C62_SymbolProjectPath",
    "Kiutils.C62_SymbolProjectInstance",
    "Kiutils.C62_SchematicSymbol",
    "Kiutils.C62_HierarchicalPin",
    "Kiutils.C62_HierarchicalSheetProjectPath",
    "Kiutils.C62_HierarchicalSheetProjectInstance",
    "Kiutils.C62_HierarchicalSheet",
    "Kiutils.C62_HierarchicalSheetInstance",
    "Kiutils.C62_SymbolInstance",
    "Kiutils.C62_Rectangle",
    "Kiutils.C62_Arc",
    "Kiutils.C62_Circle",
    "Kiutils.C62_NetclassFlag",
    "Kiutils.C62_SchGraphic",
    "Kiutils.C62_SchShape",
    "Kiutils.C62_Schematic",
    "Kiutils.C62_GrText",
    "Kiutils.C62_GrTextBox",
    "Kiutils.C62_GrLine",
    "Kiutils.C62_GrRect",
    "Kiutils.C62_GrCircle",
    "Kiutils.C62_GrArc",
    "Kiutils.C62_GrPoly",
    "Kiutils.C62_GrCurve",
    "Kiutils.C62_GrItem",
    "Kiutils.C62_FpText",
    "Kiutils.C62_FpLine",
    "Kiutils.C62_FpRect",
    "Kiutils.C62_FpTextBox",
    "Kiutils.C62_FpCircle",
    "Kiutils.C62_FpArc",
    "Kiutils.C62_FpPoly",
    "Kiutils.C62_FpCurve",
    "Kiutils.C62_FpItem",
    "Kiutils.C62_KeepoutSettings",
    "Kiutils.C62_FillSettings",
    "Kiutils.C62_ZonePolygon",
    "Kiutils.C62_FilledPolygon",
    "Kiutils.C62_FillSegments",
    "Kiutils.C62_Zone",
    "Kiutils.C62_Attributes",
    "Kiutils.C62_Model",
    "Kiutils.C62_DrillDefinition",
    "Kiutils.C62_PadOptions",
    "Kiutils.C62_Pad",
    "Kiutils.C62_Footprint",
    "Kiutils.C62_GeneralSettings",
    "Kiutils.C62_LayerToken",
    "Kiutils.C62_StackupSubLayer",
    "Kiutils.C62_StackupLayer",
    "Kiutils.C62_Stackup",
    "Kiutils.C62_PlotSettings",
    "Kiutils.C62_SetupData",
    "Kiutils.C62_Segment",
    "Kiutils.C62_Via",
    "Kiutils.C62_TraceArc",
    "Kiutils.C62_Target",
    "Kiutils.C62_DimensionFormat",
    "Kiutils.C62_DimensionStyle",
    "Kiutils.C62_Dimension",
    "Kiutils.C62_TraceItem",
    "Kiutils.C62_Board",
    "Kiutils.C62_WksShape"
   ],
   "note": "One theorem per class, no hypotheses; texts (Texts.lean) are all strings among the attributes, except the path of the file, which is not written."
  },
  {
   "property": "C63",
   "status": "proved",
   "theorems": [
    "Kiutils.C63_Position",
    "Kiutils.C63_Coordinate",
    "Kiutils.C63_ColorRGBA",
    "Kiutils.C63_Stroke",
    "Kiutils.C63_Font",
    "Kiutils.C63_Justify",
    "Kiutils.C63_Effects",
    "Kiutils.C63_Net",
    "Kiutils.C63_Group",
    "Kiutils.C63_PageSettings",
    "Kiutils.C63_TitleBlock",
    "Kiutils.C63_Property",
    "Kiutils.C63_RenderCachePolygon",
    "Kiutils.C63_RenderCache",
    "Kiutils.C63_Fill",
    "Kiutils.C63_Image",
    "Kiutils.C63_Library",
    "Kiutils.C63_LibTable",
    "Kiutils.C63_Constraint",
    "Kiutils.C63_Rule",
    "Kiutils.C63_DesignRules",
    "Kiutils.C63_WksFontSize",
    "Kiutils.C63_WksFont",
    "Kiutils.C63_WksPosition",
    "Kiutils.C63_Bitmap",
    "Kiutils.C63_TbText",
    "Kiutils.C63_TextSize",
    "Kiutils.C63_Setup",
    "Kiutils.C63_WorkSheet",
    "Kiutils.C63_SyArc",
    "Kiutils.C63_SyCircle",
    "Kiutils.C63_SyCurve",
    "Kiutils.C63_SyPolyLine",
    "Kiutils.C63_SyRect",
    "Kiutils.C63_SyText",
    "Kiutils.C63_SyTextBox",
    "Kiutils.C63_SymbolAlternativePin",
    "Kiutils.C63_SymbolPin",
    "Kiutils.C63_SymbolLib",
    "Kiutils.C63_Junction",
    "Kiutils.C63_NoConnect",
    "Kiutils.C63_BusEntry",
    "Kiutils.C63_BusAlias",
    "Kiutils.C63_Connection",
    "Kiutils.C63_PolyLine",
    "Kiutils.C63_Text",
    "Kiutils.C63_TextBox",
    "Kiutils.C63_LocalLabel",
    "Kiutils.C63_GlobalLabel",
    "Kiutils.C63_HierarchicalLabel",
    "Kiutils.C63_SymbolProjectPath",
    "Kiutils.C63_SymbolProjectInstance",
    "Kiutils.C63_SchematicSymbol",
    "Kiutils.C63_HierarchicalPin",
    "Kiutils.C63_HierarchicalSheetProjectPath",
    "Kiutils.C63_HierarchicalSheetProjectInstance",
    "Kiutils.C63_HierarchicalSheet",
    "Kiutils.C63_HierarchicalSheetInstance",
    "Kiutils.C63_SymbolInstance",
    "Kiutils.C63_Rectangle",
    "Kiutils.C63_Arc",
    "Kiutils.C63_Circle",
    "Kiutils.C63_NetclassFlag",
    "Kiutils.C63_Schematic",
    "Kiutils.C63_GrText",
    "Kiutils.C63_GrTextBox",
    "Kiutils.C63_GrLine",
    "Kiutils.C63_GrRect",
    "Kiutils.C63_GrCircle",
    "Kiutils.C63_GrArc",
    "Kiutils.C63_GrPoly",
    "Kiutils.C63_GrCurve",
    "Kiutils.C63_FpText",
    "Kiutils.C63_FpLine",
    "Kiutils.C63_FpRect",
    "Kiutils.C63_FpTextBox",
    "Kiutils.C63_FpCircle",
    "Kiutils.C63_FpArc",
    "Kiutils.C63_FpPoly",
    "Kiutils.C63_FpCurve",
    "Kiutils.C63_KeepoutSettings",
    "Kiutils.C63_FillSettings",
    "Kiutils.C63_ZonePolygon",
    "Kiutils.C63_FilledPolygon",
    "Kiutils.C63_FillSegments",
    "Kiutils.C63_Zone",
    "Kiutils.C63_Attributes",
    "Kiutils.C63_Model",
    "Kiutils.C63_DrillDefinition",
    "Kiutils.C63_PadOptions",
    "Kiutils.C63_Pad",
    "Kiutils.C63_GeneralSettings",
    "Kiutils.C63_LayerToken",
    "Kiutils.C63_StackupLayer",
    "Kiutils.C63_Stackup",
    "Kiutils.C63_PlotSettings",
    "Kiutils.C63_SetupData",
    "Kiutils.C63_Segment",
    "Kiutils.C63_Via",
    "Kiutils.C63_TraceArc",
    "Kiutils.C63_Target",
    "Kiutils.C63_DimensionFormat",
    "Kiutils.C63_DimensionStyle",
    "Kiutils.C63_Dimension",
    "Kiutils.C63_WksShape",
    "Kiutils.C63_Symbol",
    "Kiutils.C63_Footprint",
    "Kiutils.C63_Board",
    "Kiutils.C63_file_LibTable",
    "Kiutils.C63_file_WorkSheet",
    "Kiutils.C63_file_SymbolLib",
    "Kiutils.C63_file_Schematic",
    "Kiutils.C63_file_DesignRules",
    "Kiutils.C63_file_Footprint",
    "Kiutils.C63_file_Board",
    "Kiutils.C63_Footprint_list_name"
   ],
   "note": "One theorem per class (all inputs) and one per file class (C63_file_*). C63_Footprint_list_name shows that the exception for names given as lists is needed."
  },
  {
   "property": "C64",
   "status": "proved",
   "theorems": [
    "Kiutils.C64_LibTable",
    "Kiutils.C64_DesignRules",
    "Kiutils.C64_WorkSheet",
    "Kiutils.C64_SymbolLib",
    "Kiutils.C64_Schematic",
    "Kiutils.C64_Footprint",
    "Kiutils.C64_Board"
   ],
   "note": "One theorem per file class. If to_sexpr raises (possible only for the classes of C27), saving fails for that reason: this is the hypothesis ht. charWise_ascii, charWise_latin1, charWise_utf8 are the instances."
  },
  {
   "property": "C65",
   "status": "proved",
   "theorems": [
    "Kiutils.C65_LibTable",
    "Kiutils.C65_DesignRules",
    "Kiutils.C65_WorkSheet",
    "Kiutils.C65_SymbolLib",
    "Kiutils.C65_Schematic",
    "Kiutils.C65_Footprint",
    "Kiutils.C65_Board"
   ],
   "note": "One theorem per file class; the known losses are part of the statements (Schematic, Board: the tree after saving is given explicitly)."
  },
  {
   "property": "C66",
   "status": "proved",
   "theorems": [
    "Kiutils.C66_LibTable",
    "Kiutils.C66_DesignRules",
    "Kiutils.C66_WorkSheet",
    "Kiutils.C66_SymbolLib",
    "Kiutils.C66_Schematic",
    "Kiutils.C66_Footprint",
    "Kiutils.C66_Board"
   ],
   "note": "One theorem per file class."
  },
  {
   "property": "C67",
   "status": "proved",
   "theorems": [
    "Kiutils.C67_LibTable",
    "Kiutils.C67_DesignRules",
    "Kiutils.C67_WorkSheet",
    "Kiutils.C67_SymbolLib",
    "Kiutils.C67_Schematic",
    "Kiutils.C67_Footprint",
    "Kiutils.C67_Board"
   ],
   "note": "One theorem per file class."
  },
  {
   "property": "C68",
   "status": "proved",
   "theorems": [
    "Kiutils.C68_DesignRules",
    "Kiutils.C68_Line",
    "Kiutils.C68_Rect",
    "Kiutils.C68_Coordinate",
    "Kiutils.C68_ColorRGBA",
    "Kiutils.C68_Stroke",
    "Kiutils.C68_Font",
    "Kiutils.C68_Justify",
    "Kiutils.C68_Effects",
    "Kiutils.C68_Net",
    "Kiutils.C68_Group",
    "Kiutils.C68_PageSettings",
    "Kiutils.C68_TitleBlock",
    "Kiutils.C68_Property",
    "Kiutils.C68_RenderCachePolygon",
    "Kiutils.C68_RenderCache",
    "Kiutils.C68_Fill",
    "Kiutils.C68_Image",
    "Kiutils.C68_Library",
    "Kiutils.C68_LibTable",
    "Kiutils.C68_Constraint",
    "Kiutils.C68_Rule",
    "Kiutils.C68_WksFontSize",
    "Kiutils.C68_Bitmap",
    "Kiutils.C68_TbText",
    "Kiutils.C68_TextSize",
    "Kiutils.C68_Setup",
    "Kiutils.C68_WorkSheet",
    "Kiutils.C68_SyArc",
    "Kiutils.C68_SyCircle",
    "Kiutils.C68_SyPolyLine",
    "Kiutils.C68_SyRect",
    "Kiutils.C68_SyText",
    "Kiutils.C68_SyTextBox",
    "Kiutils.C68_SymbolAlternativePin",
    "Kiutils.C68_SymbolPin",
    "Kiutils.C68_Symbol",
    "Kiutils.C68_SymbolLib",
    "Kiutils.C68_Junction",
    "Kiutils.C68_NoConnect",
    "Kiutils.C68_BusEntry",
    "Kiutils.C68_BusAlias",
    "Kiutils.C68_Connection",
    "Kiutils.C68_PolyLine",
    "Kiutils.C68_Text",
    "Kiutils.C68_TextBox",
    "Kiutils.C68_LocalLabel",
    "Kiutils.C68_GlobalLabel",
    "Kiutils.C68_HierarchicalLabel",
    "Kiutils.C68_SymbolProjectPath",
    "Kiutils.C68_SymbolProjectInstance",
    "Kiutils.C68_SchematicSymbol",
    "Kiutils.C68_HierarchicalPin",
    "Kiutils.C68_HierarchicalSheetProjectPath",
    "Kiutils.C68_HierarchicalSheetProjectInstance",
    "Kiutils.C68_HierarchicalSheet",
    "Kiutils.C68_HierarchicalSheetInstance",
    "Kiutils.C68_SymbolInstance",
    "Kiutils.C68_Rectangle",
    "Kiutils.C68_Arc",
    "Kiutils.C68_Circle",
    "Kiutils.C68_NetclassFlag",
    "Kiutils.C68_Schematic",
    "Kiutils.C68_GrText",
    "Kiutils.C68_GrTextBox",
    "Kiutils.C68_GrLine",
    "Kiutils.C68_GrRect",
    "Kiutils.C68_GrCircle",
    "Kiutils.C68_GrArc",
    "Kiutils.C68_GrPoly",
    "Kiutils.C68_GrCurve",
    "Kiutils.C68_FpText",
    "Kiutils.C68_FpLine",
    "Kiutils.C68_FpRect",
    "Kiutils.C68_FpTextBox",
    "Kiutils.C68_FpCircle",
    "Kiutils.C68_FpArc",
    "Kiutils.C68_FpPoly",
    "Kiutils.C68_FpCurve",
    "Kiutils.C68_KeepoutSettings",
    "Kiutils.C68_FillSettings",
    "Kiutils.C68_ZonePolygon",
    "Kiutils.C68_FilledPolygon",
    "Kiutils.C68_FillSegments",
    "Kiutils.C68_Zone",
    "Kiutils.C68_Attributes",
    "Kiutils.C68_Model",
    "Kiutils.C68_DrillDefinition",
    "Kiutils.C68_PadOptions",
    "Kiutils.C68_Pad",
    "Kiutils.C68_Footprint",
    "Kiutils.C68_GeneralSettings",
    "Kiutils.C68_LayerToken",
    "Kiutils.C68_StackupLayer",
    "Kiutils.C68_Stackup",
    "Kiutils.C68_PlotSettings",
    "Kiutils.C68_SetupData",
    "Kiutils.C68_Segment",
    "Kiutils.C68_Via",
    "Kiutils.C68_TraceArc",
    "Kiutils.C68_Target",
    "Kiutils.C68_DimensionFormat",
    "Kiutils.C68_DimensionStyle",
    "Kiutils.C68_Dimension",
    "Kiutils.C68_Board"
   ],
   "note": "One theorem per class with a text of its own; design rules compare the texts themselves."
  },
  {
   "property": "C69",
   "status": "proved",
   "theorems": [
    "Kiutils.Objects.C69_Board",
    "Kiutils.Objects.C69_Constraint",
    "Kiutils.Objects.C69_Rule",
    "Kiutils.Objects.C69_DesignRules",
    "Kiutils.Objects.C69_Attributes",
    "Kiutils.Objects.C69_Model",
    "Kiutils.Objects.C69_DrillDefinition",
    "Kiutils.Objects.C69_PadOptions",
    "Kiutils.Objects.C69_Pad",
    "Kiutils.Objects.C69_GeneralSettings",
    "Kiutils.Objects.C69_LayerToken",
    "Kiutils.Objects.C69_StackupSubLayer",
    "Kiutils.Objects.C69_StackupLayer",
    "Kiutils.Objects.C69_Stackup",
    "Kiutils.Objects.C69_PlotSettings",
    "Kiutils.Objects.C69_SetupData",
    "Kiutils.Objects.C69_Segment",
    "Kiutils.Objects.C69_Via",
    "Kiutils.Objects.C69_Arc",
    "Kiutils.Objects.C69_Target",
    "Kiutils.Objects.C69_Position",
    "Kiutils.Objects.C69_Coordinate",
    "Kiutils.Objects.C69_ColorRGBA",
    "Kiutils.Objects.C69_Stroke",
    "Kiutils.Objects.C69_Font",
    "Kiutils.Objects.C69_Justify",
    "Kiutils.Objects.C69_Effects",
    "Kiutils.Objects.C69_Net",
    "Kiutils.Objects.C69_Group",
    "Kiutils.Objects.C69_PageSettings",
    "Kiutils.Objects.C69_TitleBlock",
    "Kiutils.Objects.C69_Property",
    "Kiutils.Objects.C69_RenderCachePolygon",
    "Kiutils.Objects.C69_RenderCache",
    "Kiutils.Objects.C69_Fill",
    "Kiutils.Objects.C69_Image",
    "Kiutils.Objects.C69_DimensionFormat",
    "Kiutils.Objects.C69_DimensionStyle",
    "Kiutils.Objects.C69_Dimension",
    "Kiutils.Objects.C69_FpText",
    "Kiutils.Objects.C69_FpLine",
    "Kiutils.Objects.C69_FpRect",
    "Kiutils.Objects.C69_FpTextBox",
    "Kiutils.Objects.C69_FpCircle",
    "Kiutils.Objects.C69_FpArc",
    "Kiutils.Objects.C69_FpPoly",
    "Kiutils.Objects.C69_FpCurve",
    "Kiutils.Objects.C69_GrText",
    "Kiutils.Objects.C69_GrTextBox",
    "Kiutils.Objects.C69_GrLine",
    "Kiutils.Objects.C69_GrRect",
    "Kiutils.Objects.C69_GrCircle",
    "Kiutils.Objects.C69_GrArc",
    "Kiutils.Objects.C69_GrPoly",
    "Kiutils.Objects.C69_GrCurve",
    "Kiutils.Objects.C69_Junction",
    "Kiutils.Objects.C69_NoConnect",
    "Kiutils.Objects.C69_BusEntry",
    "Kiutils.Objects.C69_BusAlias",
    "Kiutils.Objects.C69_Connection",
    "Kiutils.Objects.C69_PolyLine",
    "Kiutils.Objects.C69_Text",
    "Kiutils.Objects.C69_TextBox",
    "Kiutils.Objects.C69_LocalLabel",
    "Kiutils.Objects.C69_GlobalLabel",
    "Kiutils.Objects.C69_HierarchicalLabel",
    "Kiutils.Objects.C69_SymbolProjectPath",
    "Kiutils.Objects.C69_SymbolProjectInstance",
    "Kiutils.Objects.C69_SchematicSymbol",
    "Kiutils.Objects.C69_HierarchicalPin",
    "Kiutils.Objects.C69_HierarchicalSheetProjectPath",
    "Kiutils.Objects.C69_HierarchicalSheetProjectInstance",
    "Kiutils.Objects.C69_HierarchicalSheet",
    "Kiutils.Objects.C69_HierarchicalSheetInstance",
    "Kiutils.Objects.C69_SymbolInstance",
    "Kiutils.Objects.C69_Rectangle",
    "Kiutils.Objects.C69_SchArc",
    "Kiutils.Objects.C69_Circle",
    "Kiutils.Objects.C69_SyArc",
    "Kiutils.Objects.C69_SyCircle",
    "Kiutils.Objects.C69_SyCurve",
    "Kiutils.Objects.C69_SyPolyLine",
    "Kiutils.Objects.C69_SyRect",
    "Kiutils.Objects.C69_SyText",
    "Kiutils.Objects.C69_SyTextBox",
    "Kiutils.Objects.C69_KeepoutSettings",
    "Kiutils.Objects.C69_FillSettings",
    "Kiutils.Objects.C69_ZonePolygon",
    "Kiutils.Objects.C69_FilledPolygon",
    "Kiutils.Objects.C69_FillSegments",
    "Kiutils.Objects.C69_Hatch",
    "Kiutils.Objects.C69_Zone",
    "Kiutils.Objects.C69_Library",
    "Kiutils.Objects.C69_LibTable",
    "Kiutils.Objects.C69_Schematic",
    "Kiutils.Objects.C69_SymbolAlternativePin",
    "Kiutils.Objects.C69_SymbolPin",
    "Kiutils.Objects.C69_Symbol",
    "Kiutils.Objects.C69_SymbolLib",
    "Kiutils.Objects.C69_WksFontSize",
    "Kiutils.Objects.C69_WksFont",
    "Kiutils.Objects.C69_WksPosition",
    "Kiutils.Objects.C69_Line",
    "Kiutils.Objects.C69_Rect",
    "Kiutils.Objects.C69_Bitmap",
    "Kiutils.Objects.C69_TbText",
    "Kiutils.Objects.C69_TextSize",
    "Kiutils.Objects.C69_Setup",
    "Kiutils.Objects.C69_WorkSheet",
    "Kiutils.Objects.C69_Footprint",
    "Kiutils.Objects.C69_Polygon"
   ],
   "note": "One theorem per class. NetclassFlag is the exception of C54. The time stamp of a footprint is an expression evaluated at import (C52)."
  },
  {
   "property": "C70",
   "status": "proved",
   "theorems": [
    "Kiutils.C70_bare",
    "Kiutils.C70_line",
    "Kiutils.C70_quoted",
    "Kiutils.C70_raw"
   ],
   "note": "All values (floats: doubles), all texts that follow; equivalences."
  },
  {
   "property": "C71",
   "status": "proved",
   "theorems": [
    "Kiutils.Objects.C71_Board",
    "Kiutils.Objects.C71_Constraint",
    "Kiutils.Objects.C71_Rule",
    "Kiutils.Objects.C71_DesignRules",
    "Kiutils.Objects.C71_Attributes",
    "Kiutils.Objects.C71_Model",
    "Kiutils.Objects.C71_DrillDefinition",
    "Kiutils.Objects.C71_PadOptions",
    "Kiutils.Objects.C71_Pad",
    "Kiutils.Objects.C71_GeneralSettings",
    "Kiutils.Objects.C71_LayerToken",
    "Kiutils.Objects.C71_StackupSubLayer",
    "Kiutils.Objects.C71_StackupLayer",
    "Kiutils.Objects.C71_Stackup",
    "Kiutils.Objects.C71_PlotSettings",
    "Kiutils.Objects.C71_SetupData",
    "Kiutils.Objects.C71_Segment",
    "Kiutils.Objects.C71_Via",
    "Kiutils.Objects.C71_Arc",
    "Kiutils.Objects.C71_Target",
    "Kiutils.Objects.C71_Position",
    "Kiutils.Objects.C71_Coordinate",
    "Kiutils.Objects.C71_ColorRGBA",
    "Kiutils.Objects.C71_Stroke",
    "Kiutils.Objects.C71_Font",
    "Kiutils.Objects.C71_Justify",
    "Kiutils.Objects.C71_Effects",
    "Kiutils.Objects.C71_Net",
    "Kiutils.Objects.C71_Group",
    "Kiutils.Objects.C71_PageSettings",
    "Kiutils.Objects.C71_TitleBlock",
    "Kiutils.Objects.C71_Property",
    "Kiutils.Objects.C71_RenderCachePolygon",
    "Kiutils.Objects.C71_RenderCache",
    "Kiutils.Objects.C71_Fill",
    "Kiutils.Objects.C71_Image",
    "Kiutils.Objects.C71_DimensionFormat",
    "Kiutils.Objects.C71_DimensionStyle",
    "Kiutils.Objects.C71_Dimension",
    "Kiutils.Objects.C71_FpText",
    "Kiutils.Objects.C71_FpLine",
    "Kiutils.Objects.C71_FpRect",
    "Kiutils.Objects.C71_FpTextBox",
    "Kiutils.Objects.C71_FpCircle",
    "Kiutils.Objects.C71_FpArc",
    "Kiutils.Objects.C71_FpPoly",
    "Kiutils.Objects.C71_FpCurve",
    "Kiutils.Objects.C71_GrText",
    "Kiutils.Objects.C71_GrTextBox",
    "Kiutils.Objects.C71_GrLine",
    "Kiutils.Objects.C71_GrRect",
    "Kiutils.Objects.C71_GrCircle",
    "Kiutils.Objects.C71_GrArc",
    "Kiutils.Objects.C71_GrPoly",
    "Kiutils.Objects.C71_GrCurve",
    "Kiutils.Objects.C71_Junction",
    "Kiutils.Objects.C71_NoConnect",
    "Kiutils.Objects.C71_BusEntry",
    "Kiutils.Objects.C71_BusAlias",
    "Kiutils.Objects.C71_Connection",
    "Kiutils.Objects.C71_PolyLine",
    "Kiutils.Objects.C71_Text",
    "Kiutils.Objects.C71_TextBox",
    "Kiutils.Objects.C71_LocalLabel",
    "Kiutils.Objects.C71_GlobalLabel",
    "Kiutils.Objects.C71_HierarchicalLabel",
    "Kiutils.Objects.C71_SymbolProjectPath",
    "Kiutils.Objects.C71_SymbolProjectInstance",
    "Kiutils.Objects.C71_SchematicSymbol",
    "Kiutils.Objects.C71_HierarchicalPin",
    "Kiutils.Objects.C71_HierarchicalSheetProjectPath",
    "Kiutils.Objects.C71_HierarchicalSheetProjectInstance",
    "Kiutils.Objects.C71_HierarchicalSheet",
    "Kiutils.Objects.C71_HierarchicalSheetInstance",
    "Kiutils.Objects.C71_SymbolInstance",
    "Kiutils.Objects.C71_Rectangle",
    "Kiutils.Objects.C71_SchArc",
    "Kiutils.Objects.C71_Circle",
    "Kiutils.Objects.C71_SyArc",
    "Kiutils.Objects.C71_SyCircle",
    "Kiutils.Objects.C71_SyCurve",
    "Kiutils.Objects.C71_SyPolyLine",
    "Kiutils.Objects.C71_SyRect",
    "Kiutils.Objects.C71_SyText",
    "Kiutils.Objects.C71_SyTextBox",
    "Kiutils.Objects.C71_KeepoutSettings",
    "Kiutils.Objects.C71_FillSettings",
    "Kiutils.Objects.C71_ZonePolygon",
    "Kiutils.Objects.C71_FilledPolygon",
    "Kiutils.Objects.C71_FillSegments",
    "Kiutils.Objects.C71_Hatch",
    "Kiutils.Objects.C71_Zone",
    "Kiutils.Objects.C71_Library",
    "Kiutils.Objects.C71_LibTable",
    "Kiutils.Objects.C71_Schematic",
    "Kiutils.Objects.C71_SymbolAlternativePin",
    "Kiutils.Objects.C71_SymbolPin",
    "Kiutils.Objects.C71_Symbol",
    "Kiutils.Objects.C71_SymbolLib",
    "Kiutils.Objects.C71_WksFontSize",
    "Kiutils.Objects.C71_WksFont",
    "Kiutils.Objects.C71_WksPosition",
    "Kiutils.Objects.C71_Line",
    "Kiutils.Objects.C71_Rect",
    "Kiutils.Objects.C71_Bitmap",
    "Kiutils.Objects.C71_TbText",
    "Kiutils.Objects.C71_TextSize",
    "Kiutils.Objects.C71_Setup",
    "Kiutils.Objects.C71_WorkSheet",
    "Kiutils.Objects.C71_Footprint",
    "Kiutils.Objects.C71_Polygon"
   ],
   "note": "One theorem per class, all argument lists. NetclassFlag is the exception of C54. The time stamp of a footprint is an expression evaluated at import (C52)."
  },
  {
   "property": "C72",
   "status": "partial",
   "theorems": [
    "Kiutils.C72_Coordinate",
    "Kiutils.C72_ColorRGBA",
    "Kiutils.C72_ColorRGBA_M",
    "Kiutils.C72_Stroke",
    "Kiutils.C72_Font",
    "Kiutils.C72_Justify",
    "Kiutils.C72_Effects",
    "Kiutils.C72_Net",
    "Kiutils.C72_Group",
    "Kiutils.C72_PageSettings",
    "Kiutils.C72_TitleBlock",
    "Kiutils.C72_Property",
    "Kiutils.C72_RenderCachePolygon_partial",
    "Kiutils.C72_RenderCachePolygon_violated",
    "Kiutils.C72_RenderCache_partial",
    "Kiutils.C72_RenderCache_violated",
    "Kiutils.C72_Fill",
    "Kiutils.C72_Image",
    "Kiutils.C72_Library",
    "Kiutils.C72_LibTable_partial",
    "Kiutils.C72_LibTable_violated",
    "Kiutils.C72_Constraint",
    "Kiutils.C72_Rule_partial",
    "Kiutils.C72_Rule_violated",
    "Kiutils.C72_DesignRules_partial",
    "Kiutils.C72_DesignRules_violated",
    "Kiutils.C72_WksFontSize",
    "Kiutils.C72_WksFont",
    "Kiutils.C72_Bitmap_partial",
    "Kiutils.C72_Bitmap_violated",
    "Kiutils.C72_TbText_partial",
    "Kiutils.C72_TbText_violated",
    "Kiutils.C72_TextSize",
    "Kiutils.C72_Setup",
    "Kiutils.C72_WorkSheet_partial",
    "Kiutils.C72_WorkSheet_violated",
    "Kiutils.C72_SyArc",
    "Kiutils.C72_SyCircle",
    "Kiutils.C72_SyPolyLine",
    "Kiutils.C72_SyRect",
    "Kiutils.C72_SyText",
    "Kiutils.C72_SyTextBox",
    "Kiutils.C72_SymbolAlternativePin",
    "Kiutils.C72_SymbolPin",
    "Kiutils.C72_Symbol",
    "Kiutils.C72_SymbolLib_partial",
    "Kiutils.C72_SymbolLib_violated",
    "Kiutils.C72_Junction_partial",
    "Kiutils.C72_Junction_violated",
    "Kiutils.C72_NoConnect",
    "Kiutils.C72_BusEntry",
    "Kiutils.C72_BusAlias",
    "Kiutils.C72_Connection",
    "Kiutils.C72_PolyLine",
    "Kiutils.C72_Text",
    "Kiutils.C72_TextBox",
    "Kiutils.C72_LocalLabel",
    "Kiutils.C72_GlobalLabel",
    "Kiutils.C72_HierarchicalLabel",
    "Kiutils.C72_SymbolProjectPath",
    "Kiutils.C72_SymbolProjectInstance",
    "Kiutils.C72_SchematicSymbol",
    "Kiutils.C72_HierarchicalPin",
    "Kiutils.C72_HierarchicalSheetProjectPath",
    "Kiutils.C72_HierarchicalSheetProjectInstance",
    "Kiutils.C72_HierarchicalSheet",
    "Kiutils.C72_HierarchicalSheetInstance",
    "Kiutils.C72_SymbolInstance",
    "Kiutils.C72_Rectangle",
    "Kiutils.C72_Arc",
    "Kiutils.C72_Circle",
    "Kiutils.C72_NetclassFlag",
    "Kiutils.C72_Schematic_partial",
    "Kiutils.C72_Schematic_violated",
    "Kiutils.C72_GrText_partial",
    "Kiutils.C72_GrText_violated",
    "Kiutils.C72_GrTextBox_partial",
    "Kiutils.C72_GrTextBox_violated",
    "Kiutils.C72_GrLine",
    "Kiutils.C72_GrRect",
    "Kiutils.C72_GrCircle",
    "Kiutils.C72_GrArc",
    "Kiutils.C72_GrPoly",
    "Kiutils.C72_GrCurve",
    "Kiutils.C72_FpText_partial",
    "Kiutils.C72_FpText_violated",
    "Kiutils.C72_FpLine",
    "Kiutils.C72_FpRect",
    "Kiutils.C72_FpTextBox_partial",
    "Kiutils.C72_FpTextBox_violated",
    "Kiutils.C72_FpCircle",
    "Kiutils.C72_FpArc",
    "Kiutils.C72_FpPoly",
    "Kiutils.C72_FpCurve",
    "Kiutils.C72_KeepoutSettings",
    "Kiutils.C72_FillSettings",
    "Kiutils.C72_ZonePolygon",
    "Kiutils.C72_FilledPolygon",
    "Kiutils.C72_FillSegments",
    "Kiutils.C72_Zone_partial",
    "Kiutils.C72_Zone_violated",
    "Kiutils.C72_Attributes",
    "Kiutils.C72_Model",
    "Kiutils.C72_DrillDefinition",
    "Kiutils.C72_PadOptions",
    "Kiutils.C72_Pad_partial",
    "Kiutils.C72_Pad_violated",
    "Kiutils.C72_Footprint_partial",
    "Kiutils.C72_Footprint_violated",
    "Kiutils.C72_GeneralSettings",
    "Kiutils.C72_LayerToken",
    "Kiutils.C72_StackupSubLayer",
    "Kiutils.C72_StackupLayer",
    "Kiutils.C72_Stackup",
    "Kiutils.C72_PlotSettings",
    "Kiutils.C72_SetupData",
    "Kiutils.C72_Segment",
    "Kiutils.C72_Via",
    "Kiutils.C72_TraceArc",
    "Kiutils.C72_Target",
    "Kiutils.C72_DimensionFormat",
    "Kiutils.C72_DimensionStyle",
    "Kiutils.C72_Dimension_partial",
    "Kiutils.C72_Dimension_violated",
    "Kiutils.C72_Board_partial",
    "Kiutils.C72_Board_violated",
    "Kiutils.C72_WksShape_partial",
    "Kiutils.C72_WksShape_violated",
    "Kiutils.C72_SyCurve",
    "Kiutils.C72_RenderCachePolygon_exactly",
    "Kiutils.C72_RenderCache_exactly",
    "Kiutils.C72_LibTable_exactly",
    "Kiutils.C72_Bitmap_exactly",
    "Kiutils.C72_TbText_exactly",
    "Kiutils.C72_SymbolLib_exactly",
    "Kiutils.C72_GrText_exactly",
    "Kiutils.C72_FpText_exactly",
    "Kiutils.C72_WksShape_exactly",
    "Kiutils.C72_Rule_exactly",
    "Kiutils.C72_DesignRules_exactly",
    "Kiutils.C72_WorkSheet_exactly",
    "Kiutils.C72_Junction_exactly",
    "Kiutils.C72_GrTextBox_exactly",
    "Kiutils.C72_FpTextBox_exactly",
    "Kiutils.C72_Dimension_exactly",
    "Kiutils.C72_Zone_exactly",
    "Kiutils.C72_Schematic_exactly",
    "Kiutils.C72_Pad_exactly",
    "Kiutils.C72_Board_exactly",
    "Kiutils.C72_Footprint_exactly"
   ],
   "note": "One theorem per class. Not true of 21 classes in general: for these, `_partial` covers the objects without the parts that are indented wrongly, and `_violated` shows an object that is not moved as a whole. `_exactly` proves for all 21 classes that `_partial` covers every object that is moved as a whole: the missing objects really are not moved."
  },
  {
   "property": "C73",
   "status": "partial",
   "theorems": [
    "Kiutils.C73_Coordinate",
    "Kiutils.C73_ColorRGBA",
    "Kiutils.C73_ColorRGBA_M",
    "Kiutils.C73_Stroke",
    "Kiutils.C73_Font",
    "Kiutils.C73_Justify",
    "Kiutils.C73_Effects",
    "Kiutils.C73_Net",
    "Kiutils.C73_Group",
    "Kiutils.C73_PageSettings",
    "Kiutils.C73_TitleBlock",
    "Kiutils.C73_Property",
    "Kiutils.C73_RenderCachePolygon",
    "Kiutils.C73_RenderCache",
    "Kiutils.C73_Fill",
    "Kiutils.C73_Image",
    "Kiutils.C73_Library",
    "Kiutils.C73_LibTable",
    "Kiutils.C73_Constraint",
    "Kiutils.C73_DesignRules",
    "Kiutils.C73_WksFontSize",
    "Kiutils.C73_WksFont_partial",
    "Kiutils.C73_WksFont_violated",
    "Kiutils.C73_Bitmap",
    "Kiutils.C73_TbText",
    "Kiutils.C73_TextSize",
    "Kiutils.C73_Setup",
    "Kiutils.C73_WorkSheet",
    "Kiutils.C73_SyArc",
    "Kiutils.C73_SyCircle",
    "Kiutils.C73_SyPolyLine",
    "Kiutils.C73_SyRect",
    "Kiutils.C73_SyText",
    "Kiutils.C73_SyTextBox",
    "Kiutils.C73_SymbolAlternativePin",
    "Kiutils.C73_SymbolPin",
    "Kiutils.C73_Symbol",
    "Kiutils.C73_SymbolLib",
    "Kiutils.C73_Junction",
    "Kiutils.C73_NoConnect",
    "Kiutils.C73_BusEntry",
    "Kiutils.C73_BusAlias",
    "Kiutils.C73_Connection",
    "Kiutils.C73_PolyLine",
    "Kiutils.C73_Text",
    "Kiutils.C73_TextBox",
    "Kiutils.C73_LocalLabel",
    "Kiutils.C73_GlobalLabel",
    "Kiutils.C73_HierarchicalLabel",
    "Kiutils.C73_SymbolProjectPath",
    "Kiutils.C73_SymbolProjectInstance",
    "Kiutils.C73_SchematicSymbol",
    "Kiutils.C73_HierarchicalPin",
    "Kiutils.C73_HierarchicalSheetProjectPath",
    "Kiutils.C73_HierarchicalSheetProjectInstance",
    "Kiutils.C73_HierarchicalSheet",
    "Kiutils.C73_HierarchicalSheetInstance",
    "Kiutils.C73_SymbolInstance",
    "Kiutils.C73_Rectangle",
    "Kiutils.C73_Arc",
    "Kiutils.C73_Circle",
    "Kiutils.C73_NetclassFlag",
    "Kiutils.C73_Schematic",
    "Kiutils.C73_GrText",
    "Kiutils.C73_GrTextBox",
    "Kiutils.C73_GrLine",
    "Kiutils.C73_GrRect",
    "Kiutils.C73_GrCircle",
    "Kiutils.C73_GrArc",
    "Kiutils.C73_GrPoly",
    "Kiutils.C73_GrCurve",
    "Kiutils.C73_FpText",
    "Kiutils.C73_FpLine",
    "Kiutils.C73_FpRect",
    "Kiutils.C73_FpTextBox",
    "Kiutils.C73_FpCircle",
    "Kiutils.C73_FpArc",
    "Kiutils.C73_FpPoly",
    "Kiutils.C73_FpCurve",
    "Kiutils.C73_KeepoutSettings",
    "Kiutils.C73_FillSettings",
    "Kiutils.C73_ZonePolygon_partial",
    "Kiutils.C73_ZonePolygon_violated",
    "Kiutils.C73_FilledPolygon_partial",
    "Kiutils.C73_FilledPolygon_violated",
    "Kiutils.C73_FillSegments_partial",
    "Kiutils.C73_FillSegments_violated",
    "Kiutils.C73_Zone",
    "Kiutils.C73_Attributes_partial",
    "Kiutils.C73_Attributes_violated",
    "Kiutils.C73_Model",
    "Kiutils.C73_DrillDefinition",
    "Kiutils.C73_PadOptions",
    "Kiutils.C73_Pad",
    "Kiutils.C73_Footprint",
    "Kiutils.C73_GeneralSettings",
    "Kiutils.C73_LayerToken",
    "Kiutils.C73_StackupSubLayer",
    "Kiutils.C73_StackupLayer",
    "Kiutils.C73_Stackup",
    "Kiutils.C73_PlotSettings",
    "Kiutils.C73_SetupData",
    "Kiutils.C73_Segment",
    "Kiutils.C73_Via",
    "Kiutils.C73_TraceArc",
    "Kiutils.C73_Target",
    "Kiutils.C73_DimensionFormat",
    "Kiutils.C73_DimensionStyle",
    "Kiutils.C73_Dimension",
    "Kiutils.C73_Board",
    "Kiutils.C73_SyCurve",
    "Kiutils.C73_WksShape"
   ],
   "note": "One theorem per class. Five classes are exceptions for some objects: `_partial` and `_violated` together cover all of their objects, so that the end of the text is known exactly."
  },
  {
   "property": "C74",
   "status": "proved",
   "theorems": [
    "Kiutils.C74_openAndSave",
    "Kiutils.C74_createAndSave",
    "Kiutils.C74_addFootprint",
    "Kiutils.C74_addVias",
    "Kiutils.C74_addVias_raises",
    "Kiutils.C74_title",
    "Kiutils.C74_title_missing",
    "Kiutils.C74_addSymbol",
    "Kiutils.C74_addSymbol_missing"
   ],
   "note": "One theorem per example program, and one per way it can fail. The calculation of the via coordinates is an arbitrary function."
  },
  {
   "property": "C75",
   "status": "proved",
   "theorems": [
    "Kiutils.C75_Board",
    "Kiutils.C75_Schematic",
    "Kiutils.C75_LibTable",
    "Kiutils.C75_SymbolLib",
    "Kiutils.C75_DesignRules",
    "Kiutils.C75_WorkSheet",
    "Kiutils.C75_Footprint"
   ],
   "note": "One theorem per file class, for all contents of the file. That the content can be lost is a consequence of C28 and C47."
  },
  {
   "property": "C76",
   "status": "proved",
   "theorems": [
    "Kiutils.C76_all",
    "Kiutils.C76_Board",
    "Kiutils.C76_Board_saved",
    "Kiutils.C76_Footprint",
    "Kiutils.C76_Footprint_saved",
    "Kiutils.C76_Schematic",
    "Kiutils.C76_Schematic_saved",
    "Kiutils.C76_SymbolLib",
    "Kiutils.C76_SymbolLib_saved",
    "Kiutils.C76_LibTable",
    "Kiutils.C76_LibTable_saved",
    "Kiutils.C76_WorkSheet",
    "Kiutils.C76_WorkSheet_saved",
    "Kiutils.C76_DesignRules",
    "Kiutils.C76_DesignRules_saved"
   ],
   "note": "All kinds of expressions at once (C76_all), and spelled out for the seven file classes. Children that are words are not covered (some readers look at them), nor the order of the children of a 3D model (they have fixed places) and of the primitives of a pad (they are a list)."
  },
  {
   "property": "C77",
   "status": "proved",
   "theorems": [
    "Kiutils.C77_values",
    "Kiutils.C77_eq",
    "Kiutils.C77_Coordinate",
    "Kiutils.C77_ColorRGBA",
    "Kiutils.C77_Stroke",
    "Kiutils.C77_Font",
    "Kiutils.C77_Justify",
    "Kiutils.C77_Effects",
    "Kiutils.C77_Net",
    "Kiutils.C77_Group",
    "Kiutils.C77_PageSettings",
    "Kiutils.C77_TitleBlock",
    "Kiutils.C77_Property",
    "Kiutils.C77_RenderCachePolygon",
    "Kiutils.C77_RenderCache",
    "Kiutils.C77_Fill",
    "Kiutils.C77_Image",
    "Kiutils.C77_Library",
    "Kiutils.C77_LibTable",
    "Kiutils.C77_Constraint",
    "Kiutils.C77_Rule",
    "Kiutils.C77_WksFontSize",
    "Kiutils.C77_Bitmap",
    "Kiutils.C77_TbText",
    "Kiutils.C77_TextSize",
    "Kiutils.C77_Setup",
    "Kiutils.C77_WorkSheet",
    "Kiutils.C77_SyArc",
    "Kiutils.C77_SyCircle",
    "Kiutils.C77_SyPolyLine",
    "Kiutils.C77_SyRect",
    "Kiutils.C77_SyText",
    "Kiutils.C77_SyTextBox",
    "Kiutils.C77_SymbolAlternativePin",
    "Kiutils.C77_SymbolPin",
    "Kiutils.C77_Symbol",
    "Kiutils.C77_SymbolLib",
    "Kiutils.C77_Junction",
    "Kiutils.C77_NoConnect",
    "Kiutils.C77_BusEntry",
    "Kiutils.C77_BusAlias",
    "Kiutils.C77_Connection",
    "Kiutils.C77_PolyLine",
    "Kiutils.C77_Text",
    "Kiutils.C77_TextBox",
    "Kiutils.C77_LocalLabel",
    "Kiutils.C77_GlobalLabel",
    "Kiutils.C77_HierarchicalLabel",
    "Kiutils.C77_SymbolProjectPath",
    "Kiutils.C77_SymbolProjectInstance",
    "Kiutils.C77_SchematicSymbol",
    "Kiutils.C77_HierarchicalPin",
    "Kiutils.C77_HierarchicalSheetProjectPath",
    "Kiutils.C77_HierarchicalSheetProjectInstance",
    "Kiutils.C77_HierarchicalSheet",
    "Kiutils.C77_HierarchicalSheetInstance",
    "Kiutils.C77_SymbolInstance",
    "Kiutils.C77_Rectangle",
    "Kiutils.C77_Arc",
    "Kiutils.C77_Circle",
    "Kiutils.C77_NetclassFlag",
    "Kiutils.C77_Schematic",
    "Kiutils.C77_GrText",
    "Kiutils.C77_GrTextBox",
    "Kiutils.C77_GrLine",
    "Kiutils.C77_GrRect",
    "Kiutils.C77_GrCircle",
    "Kiutils.C77_GrArc",
    "Kiutils.C77_GrPoly",
    "Kiutils.C77_GrCurve",
    "Kiutils.C77_FpText",
    "Kiutils.C77_FpLine",
    "Kiutils.C77_FpRect",
    "Kiutils.C77_FpTextBox",
    "Kiutils.C77_FpCircle",
    "Kiutils.C77_FpArc",
    "Kiutils.C77_FpPoly",
    "Kiutils.C77_FpCurve",
    "Kiutils.C77_KeepoutSettings",
    "Kiutils.C77_FillSettings",
    "Kiutils.C77_ZonePolygon",
    "Kiutils.C77_FilledPolygon",
    "Kiutils.C77_FillSegments",
    "Kiutils.C77_Zone",
    "Kiutils.C77_Attributes",
    "Kiutils.C77_Model",
    "Kiutils.C77_DrillDefinition",
    "Kiutils.C77_PadOptions",
    "Kiutils.C77_Pad",
    "Kiutils.C77_Footprint",
    "Kiutils.C77_GeneralSettings",
    "Kiutils.C77_LayerToken",
    "Kiutils.C77_StackupLayer",
    "Kiutils.C77_Stackup",
    "Kiutils.C77_PlotSettings",
    "Kiutils.C77_SetupData",
    "Kiutils.C77_Segment",
    "Kiutils.C77_Via",
    "Kiutils.C77_TraceArc",
    "Kiutils.C77_Target",
    "Kiutils.C77_DimensionFormat",
    "Kiutils.C77_DimensionStyle",
    "Kiutils.C77_Dimension",
    "Kiutils.C77_Board",
    "Kiutils.C77_Line",
    "Kiutils.C77_Rect",
    "Kiutils.C77_DesignRules"
   ],
   "note": "All classes with to_sexpr. Alike is Python's == (C77_values, C77_eq); dicts are compared including their order, and the attributes are assumed to hold ints, floats and strings, as documented."
  },
  {
   "property": "C78",
   "status": "proved",
   "theorems": [
    "Kiutils.C78_number",
    "Kiutils.C78_HierarchicalSheet",
    "Kiutils.C78_HierarchicalSheet_once",
    "Kiutils.C78_Schematic",
    "Kiutils.C78_PlotSettings",
    "Kiutils.C78_Board"
   ],
   "note": "Numbers written with a fixed number of decimals: all finite doubles. Sheets and schematics: fixed point after two loads (C21 needs two for opacities with more than four decimals). Plot settings and boards: fixed point after one."
  },
  {
   "property": "C79",
   "status": "proved",
   "theorems": [
    "Kiutils.C79_DrillDefinition",
    "Kiutils.C79_Pad",
    "Kiutils.C79_Footprint",
    "Kiutils.C79_Board",
    "Kiutils.C79_DrillDefinition_saved",
    "Kiutils.C79_Pad_saved",
    "Kiutils.C79_Footprint_saved",
    "Kiutils.C79_Board_saved",
    "Kiutils.C79_DrillDefinition_loaded",
    "Kiutils.C79_Pad_loaded",
    "Kiutils.C79_Footprint_loaded",
    "Kiutils.C79_Board_loaded",
    "Kiutils.C79_DrillDefinition_settles",
    "Kiutils.C79_Pad_settles",
    "Kiutils.C79_Footprint_settles",
    "Kiutils.C79_Board_settles"
   ],
   "note": "Content kept, text saved, object loaded, and fixed point, for holes, pads, footprints and boards."
  },
  {
   "property": "C80",
   "status": "partial",
   "theorems": [
    "Kiutils.C80_module",
    "Kiutils.C80_Footprint_partial",
    "Kiutils.C80_saved",
    "Kiutils.C80_Board_violated",
    "Kiutils.C80_name"
   ],
   "note": "C80_Footprint_partial: footprint files. Missing: boards, where it is false for every module (C80_Board_violated), and names with leading zeros (C80_name says exactly which names of digits are kept)."
  },
  {
   "property": "C81",
   "status": "proved",
   "theorems": [
    "Kiutils.C81_rule",
    "Kiutils.C81_LibTable",
    "Kiutils.C81_DesignRules",
    "Kiutils.C81_WorkSheet",
    "Kiutils.C81_SymbolLib",
    "Kiutils.C81_Schematic",
    "Kiutils.C81_Footprint",
    "Kiutils.C81_Board",
    "Kiutils.C81_LibTable_file",
    "Kiutils.C81_SymbolLib_file",
    "Kiutils.C81_DesignRules_file",
    "Kiutils.C81_WorkSheet_file",
    "Kiutils.C81_Schematic_file",
    "Kiutils.C81_Footprint_file",
    "Kiutils.C81_Board_file",
    "Kiutils.C81_needed",
    "Kiutils.C81_tree",
    "Kiutils.C81_LibTable_loads",
    "Kiutils.C81_DesignRules_loads",
    "Kiutils.C81_WorkSheet_loads",
    "Kiutils.C81_SymbolLib_loads",
    "Kiutils.C81_Schematic_loads",
    "Kiutils.C81_Footprint_loads",
    "Kiutils.C81_Board_loads",
    "Kiutils.C81_LibTable_keeps",
    "Kiutils.C81_DesignRules_keeps",
    "Kiutils.C81_WorkSheet_keeps",
    "Kiutils.C81_SymbolLib_keeps",
    "Kiutils.C81_Schematic_keeps",
    "Kiutils.C81_Footprint_keeps",
    "Kiutils.C81_Board_keeps",
    "Kiutils.C81_LibTable_in_place",
    "Kiutils.C81_DesignRules_in_place",
    "Kiutils.C81_WorkSheet_in_place",
    "Kiutils.C81_SymbolLib_in_place",
    "Kiutils.C81_Schematic_in_place",
    "Kiutils.C81_Footprint_in_place",
    "Kiutils.C81_Board_in_place",
    "Kiutils.C81_LibTable_again",
    "Kiutils.C81_DesignRules_again",
    "Kiutils.C81_WorkSheet_again",
    "Kiutils.C81_SymbolLib_again",
    "Kiutils.C81_Schematic_again",
    "Kiutils.C81_Footprint_again",
    "Kiutils.C81_Board_again",
    "Kiutils.C81_LibTable_stable",
    "Kiutils.C81_DesignRules_stable",
    "Kiutils.C81_WorkSheet_stable",
    "Kiutils.C81_SymbolLib_stable",
    "Kiutils.C81_Footprint_stable",
    "Kiutils.C81_Board_stable"
   ],
   "note": "One theorem per kind of file for the object, for the file that is written, and for a file that is loaded (as which object, saved again, saved in place, loaded again, saved more often); C81_rule reads the rule for texts out; C81_needed shows that it cannot be left out."
  },
  {
   "property": "C82",
   "status": "proved",
   "theorems": [
    "Kiutils.C82_LibTable",
    "Kiutils.C82_WorkSheet",
    "Kiutils.C82_SymbolLib",
    "Kiutils.C82_Schematic",
    "Kiutils.C82_Footprint",
    "Kiutils.C82_Board",
    "Kiutils.C82_DesignRules"
   ],
   "note": "One theorem per kind of file. What `says the same` means is the relation SaysSame of C76, with the limits named there. For schematics the opacity of the fill of sheets has at most four decimals, as in C65."
  },
  {
   "property": "C83",
   "status": "partial",
   "theorems": [
    "Kiutils.C83_LibTable_words",
    "Kiutils.C83_LibTable_violated",
    "Kiutils.C83_LibTable_number_partial",
    "Kiutils.C83_LibTable_front_partial",
    "Kiutils.C83_WorkSheet_words",
    "Kiutils.C83_WorkSheet_violated",
    "Kiutils.C83_WorkSheet_number_partial",
    "Kiutils.C83_WorkSheet_front_partial",
    "Kiutils.C83_SymbolLib_words",
    "Kiutils.C83_SymbolLib_violated",
    "Kiutils.C83_SymbolLib_number_partial",
    "Kiutils.C83_SymbolLib_front_partial",
    "Kiutils.C83_Schematic_words",
    "Kiutils.C83_Schematic_violated",
    "Kiutils.C83_Schematic_number_partial",
    "Kiutils.C83_Schematic_front_partial",
    "Kiutils.C83_Board_words",
    "Kiutils.C83_Board_violated",
    "Kiutils.C83_Board_number_partial",
    "Kiutils.C83_Board_front_partial",
    "Kiutils.C83_DesignRules_words",
    "Kiutils.C83_DesignRules_violated",
    "Kiutils.C83_DesignRules_number_partial",
    "Kiutils.C83_DesignRules_front_partial",
    "Kiutils.C83_Footprint_words",
    "Kiutils.C83_Footprint_violated",
    "Kiutils.C83_Footprint_number_violated",
    "Kiutils.C83_Footprint_front_partial"
   ],
   "note": "Proved: text in front of the expression is noticed (C83_X_front_partial), and so are numbers among the children except in footprints (C83_X_number_partial). False of the code: words among the children never make a difference (C83_X_words), so files with unresolved merge conflicts are loaded as both versions together (C83_X_violated); footprints ignore numbers (C83_Footprint_number_violated). The marks considered are those among the children of the expression of the file, not those inside an item."
  },
  {
   "property": "C84",
   "status": "proved",
   "theorems": [
    "Kiutils.C84_LibTable",
    "Kiutils.C84_SymbolLib",
    "Kiutils.C84_WorkSheet",
    "Kiutils.C84_DesignRules",
    "Kiutils.C84_Footprint",
    "Kiutils.C84_Schematic",
    "Kiutils.C84_Board",
    "Kiutils.C84_every_selection"
   ],
   "note": "One theorem per kind of file, all lists of items at once; C84_every_selection shows that the positions describe every list made of items of the two files. The encoding is that of the platform (no argument given). Schematics: the opacity of the fill of sheets has at most four decimals, as in C65."
  },
  {
   "property": "C85",
   "status": "partial",
   "theorems": [
    "Kiutils.C85_Footprint_partial",
    "Kiutils.C85_Footprint_violated",
    "Kiutils.C85_Footprint_differs",
    "Kiutils.C85_Footprint_in_place",
    "Kiutils.C85_Board_partial",
    "Kiutils.C85_Board_same",
    "Kiutils.C85_Board_violated",
    "Kiutils.C85_Board_in_place"
   ],
   "note": "Proved: footprints with a time stamp and boards all of whose footprints have one are loaded as the same object at any time (C85_Footprint_partial, C85_Board_same); in boards only the time stamps of the footprints without one depend on the time, exactly as stated by Restamped (C85_Board_partial). False of the code for footprints without time stamp: the object has the time of the import (C85_Footprint_violated, C85_Footprint_differs, C85_Board_violated), and opening and saving adds it to the file (C85_Footprint_in_place, C85_Board_in_place; for times with a letter among their hexadecimal digits, for the others see C52)."
  },
  {
   "property": "C86",
   "status": "proved",
   "theorems": [
    "Kiutils.C86_library_to_schematic",
    "Kiutils.C86_schematic_to_library",
    "Kiutils.C86_footprint_to_board",
    "Kiutils.C86_board_to_footprint"
   ],
   "note": "Four programs: C86_library_to_schematic, C86_schematic_to_library, C86_footprint_to_board, C86_board_to_footprint. For schematics, the transparency of the fill of sheets has at most four decimals (C50)."
  },
  {
   "property": "C87",
   "status": "proved",
   "theorems": [
    "Kiutils.C87_TitleBlock",
    "Kiutils.C87_SchematicSymbol",
    "Kiutils.C87_Footprint",
    "Kiutils.C87_Board",
    "Kiutils.C87_Schematic",
    "Kiutils.C87_Footprint_kept",
    "Kiutils.C87_Board_kept",
    "Kiutils.C87_SchematicSymbol_kept"
   ],
   "note": "C87_X for the five classes that have dicts or contain such objects; C87_X_kept for the converse."
  },
  {
   "property": "C88",
   "status": "partial",
   "theorems": [
    "Kiutils.C88_alone",
    "Kiutils.C88_not_shorter",
    "Kiutils.C88_LibTable_partial",
    "Kiutils.C88_WorkSheet_partial",
    "Kiutils.C88_SymbolLib_partial",
    "Kiutils.C88_Schematic_partial",
    "Kiutils.C88_Footprint_partial",
    "Kiutils.C88_Board_partial",
    "Kiutils.C88_DesignRules_violated",
    "Kiutils.C88_portions_violated",
    "Kiutils.C88_LibTable_violated"
   ],
   "note": "Proved for library tables, worksheets, symbol libraries, schematics, footprints and boards whose bytes reach the file at once (C88_X_partial, C88_not_shorter); one process: C88_alone. False of the code for design rules (C88_DesignRules_violated) and, for all kinds, if the bytes reach the file in portions (C88_portions_violated; C88_LibTable_violated with the loading)."
  },
  {
   "property": "C89",
   "status": "partial",
   "theorems": [
    "Kiutils.C89_LibTable_partial",
    "Kiutils.C89_LibTable_interrupted_partial",
    "Kiutils.C89_WorkSheet_partial",
    "Kiutils.C89_WorkSheet_interrupted_partial",
    "Kiutils.C89_SymbolLib_partial",
    "Kiutils.C89_SymbolLib_interrupted_partial",
    "Kiutils.C89_Schematic_partial",
    "Kiutils.C89_Schematic_interrupted_partial",
    "Kiutils.C89_Footprint_partial",
    "Kiutils.C89_Footprint_interrupted_partial",
    "Kiutils.C89_Board_partial",
    "Kiutils.C89_Board_interrupted_partial",
    "Kiutils.C89_DesignRules_violated",
    "Kiutils.C89_LibTable_violated",
    "Kiutils.C89_DesignRules_partial",
    "Kiutils.C89_DesignRules_interrupted_partial"
   ],
   "note": "Proved for all files of six kinds in which no text contains a closing bracket (C89_X_partial) and for to_file that stops after any step (C89_X_interrupted_partial). False of the code for design rules (C89_DesignRules_violated): their last rules can be lost, and C89_DesignRules_partial and C89_DesignRules_interrupted_partial show that nothing else can happen if no text contains a bracket, a quotation mark or a backslash. False also for texts with closing brackets (C89_LibTable_violated)."
  },
  {
   "property": "C90",
   "status": "proved",
   "theorems": [
    "Kiutils.C90_DesignRules",
    "Kiutils.C90_DesignRules_many",
    "Kiutils.C90_LibTable",
    "Kiutils.C90_LibTable_any",
    "Kiutils.C90_WorkSheet",
    "Kiutils.C90_WorkSheet_any",
    "Kiutils.C90_SymbolLib",
    "Kiutils.C90_SymbolLib_any",
    "Kiutils.C90_Schematic",
    "Kiutils.C90_Schematic_any",
    "Kiutils.C90_Footprint",
    "Kiutils.C90_Footprint_any",
    "Kiutils.C90_Board",
    "Kiutils.C90_Board_any"
   ],
   "note": "Proved for all seven kinds of files. The first file must be a saved well-formed object (in an arbitrary file a quote that is not closed swallows the second file), the second any file of the same kind that can be loaded (C90_X), or any text (C90_X_any). Any number of design rules files: C90_DesignRules_many."
  },
  {
   "property": "C91",
   "status": "proved",
   "theorems": [
    "Kiutils.C91_saved",
    "Kiutils.C91_LibTable",
    "Kiutils.C91_DesignRules",
    "Kiutils.C91_WorkSheet",
    "Kiutils.C91_SymbolLib",
    "Kiutils.C91_Schematic",
    "Kiutils.C91_Footprint",
    "Kiutils.C91_Board"
   ],
   "note": "Loading: C91_X for all seven kinds of files, whether they are accepted or not. Saving: C91_saved, for texts without carriage returns (what happens to these is C30_carriage_return)."
  },
  {
   "property": "C92",
   "status": "partial",
   "theorems": [
    "Kiutils.C92_number_partial",
    "Kiutils.C92_violated",
    "Kiutils.C92_bracket_violated",
    "Kiutils.C92_quoted_violated",
    "Kiutils.C92_list",
    "Kiutils.C92_Position_violated"
   ],
   "note": "Proved for numbers in front of a closing bracket or a blank (C92_number_partial). False of the code for every number in front of other white space (C92_violated) or an opening bracket (C92_bracket_violated) and for quoted words in front of an opening bracket (C92_quoted_violated). C92_list says exactly which numbers of a list are read as numbers. Quoted texts in front of white space or a closing bracket: C06."
  },
  {
   "property": "C93",
   "status": "partial",
   "theorems": [
    "Kiutils.C93_words_partial",
    "Kiutils.C93_rule_violated",
    "Kiutils.C93_number_violated",
    "Kiutils.C93_front_violated"
   ],
   "note": "Proved for comments of plain words behind the version (C93_words_partial). False of the code for every rule that is commented out (C93_rule_violated), for every comment with a number in front of a blank (C93_number_violated) and for every comment at the beginning of the file (C93_front_violated)."
  },
  {
   "property": "C94",
   "status": "partial",
   "theorems": [
    "Kiutils.C94_loaded",
    "Kiutils.C94_saved",
    "Kiutils.C94_saved_any",
    "Kiutils.C94_Library",
    "Kiutils.C94_Property",
    "Kiutils.C94_kept_partial"
   ],
   "note": "C94_loaded, C94_saved and C94_saved_any say exactly for which texts it holds (C94_Library and C94_Property: for which objects): those without backslashes and (loading) line breaks; it is false of the code for every other text. C94_kept_partial: loading and saving keeps the characters of the file for all texts that do not end in a backslash."
  }
 ]
}