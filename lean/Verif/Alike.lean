import Verif.Props.ItemWise
/-!
# Expressions that say the same (C76)

A table of the file format: for every kind of expression that has children, how it begins, which tokens its children may have, which of
them hold expressions of which kind, and among which of them the order matters. Two expressions say the same if one can be made of the
other by adding and removing children with unknown tokens and by changing the order of unrelated children, at any depth.
-/
namespace Kiutils

/-- The kinds of expressions, named after the classes they are loaded as. (`Line` and `Rect` of wks.py are `WksLine` and `WksRect`, `Arc`
of brditems.py is `TraceArc`, `Primitives` are the primitives of a pad.) -/
inductive ExpKind where
  | Board
  | GeneralSettings
  | Stackup
  | PlotSettings
  | SetupData
  | Segment
  | Via
  | TraceArc
  | Target
  | Stroke
  | Font
  | Effects
  | Group
  | TitleBlock
  | Property
  | RenderCachePolygon
  | RenderCache
  | Fill
  | Image
  | DimensionFormat
  | DimensionStyle
  | Dimension
  | Constraint
  | Rule
  | DesignRules
  | Model
  | DrillDefinition
  | PadOptions
  | Pad
  | Footprint
  | FpText
  | FpLine
  | FpRect
  | FpTextBox
  | FpCircle
  | FpArc
  | FpPoly
  | FpCurve
  | GrText
  | GrTextBox
  | GrLine
  | GrRect
  | GrCircle
  | GrArc
  | GrPoly
  | GrCurve
  | Library
  | LibTable
  | Junction
  | NoConnect
  | BusEntry
  | Connection
  | PolyLine
  | Text
  | TextBox
  | LocalLabel
  | GlobalLabel
  | HierarchicalLabel
  | SymbolProjectPath
  | SymbolProjectInstance
  | SchematicSymbol
  | HierarchicalPin
  | HierarchicalSheetProjectPath
  | HierarchicalSheetProjectInstance
  | HierarchicalSheet
  | HierarchicalSheetInstance
  | SymbolInstance
  | Rectangle
  | Arc
  | Circle
  | NetclassFlag
  | Schematic
  | SyArc
  | SyCircle
  | SyCurve
  | SyPolyLine
  | SyRect
  | SyText
  | SyTextBox
  | SymbolPin
  | SymbolLib
  | Symbol
  | WksFont
  | Bitmap
  | TbText
  | Setup
  | WorkSheet
  | KeepoutSettings
  | FillSettings
  | ZonePolygon
  | FilledPolygon
  | FillSegments
  | Zone
  | WksLine
  | WksRect
  | Primitives

/-- How an expression of the kind begins, before the children. -/
def ExpKind.Start (s : List Val) : ExpKind → Prop
  | .Board => s = [.str k!"kicad_pcb"]
  | .GeneralSettings => s = [.str k!"general"]
  | .Stackup => s = [.str k!"stackup"]
  | .PlotSettings => s = [.str k!"pcbplotparams"]
  | .SetupData => s = [.str k!"setup"]
  | .Segment => s = [.str k!"segment"]
  | .Via => s = [.str k!"via"]
  | .TraceArc => s = [.str k!"arc"]
  | .Target => ∃ a1, s = [.str k!"target", a1]
  | .Stroke => ∃ a, s = [.str k!"stroke", a]
  | .Font => s = [.str k!"font"]
  | .Effects => s = [.str k!"effects"]
  | .Group => ∃ name, s = [.str k!"group", name]
  | .TitleBlock => s = [.str k!"title_block"]
  | .Property => ∃ key value, s = [.str k!"property", key, value]
  | .RenderCachePolygon => s = [.str k!"polygon"]
  | .RenderCache => ∃ text id, s = [.str k!"render_cache", text, id]
  | .Fill => s = [.str k!"fill"]
  | .Image => s = [.str k!"image"]
  | .DimensionFormat => s = [.str k!"format"]
  | .DimensionStyle => s = [.str k!"style"]
  | .Dimension => s = [.str k!"dimension"]
  | .Constraint => ∃ type, s = [.str k!"constraint", type]
  | .Rule => ∃ name, s = [.str k!"rule", name]
  | .DesignRules => ∃ r0, s = [.list (.str k!"version" :: r0)]
  | .Model => ∃ path x y z, s = [.str k!"model", path, x, y, z]
  | .DrillDefinition => ∃ d w, d ≠ .str k!"oval" ∧ s = [.str k!"drill", d, w]
  | .PadOptions => s = [.str k!"options"]
  | .Pad => ∃ a1 a2 a3, s = [.str k!"pad", a1, a2, a3]
  | .Footprint => ∃ hd id, (hd = k!"module" ∨ hd = k!"footprint") ∧ s = [.str hd, id]
  | .FpText => ∃ a1 a2, s = [.str k!"fp_text", a1, a2]
  | .FpLine => s = [.str k!"fp_line"]
  | .FpRect => s = [.str k!"fp_rect"]
  | .FpTextBox => ∃ a, a ≠ .str k!"locked" ∧ s = [.str k!"fp_text_box", a]
  | .FpCircle => s = [.str k!"fp_circle"]
  | .FpArc => s = [.str k!"fp_arc"]
  | .FpPoly => s = [.str k!"fp_poly"]
  | .FpCurve => s = [.str k!"fp_curve"]
  | .GrText => ∃ a1, s = [.str k!"gr_text", a1]
  | .GrTextBox => ∃ a, a ≠ .str k!"locked" ∧ s = [.str k!"gr_text_box", a]
  | .GrLine => s = [.str k!"gr_line"]
  | .GrRect => s = [.str k!"gr_rect"]
  | .GrCircle => s = [.str k!"gr_circle"]
  | .GrArc => s = [.str k!"gr_arc"]
  | .GrPoly => s = [.str k!"gr_poly"]
  | .GrCurve => s = [.str k!"gr_curve"]
  | .Library => s = [.str k!"lib"]
  | .LibTable => ∃ hd, (hd = k!"fp_lib_table" ∨ hd = k!"sym_lib_table") ∧ s = [.str hd]
  | .Junction => s = [.str k!"junction"]
  | .NoConnect => s = [.str k!"no_connect"]
  | .BusEntry => s = [.str k!"bus_entry"]
  | .Connection => ∃ hd, (hd = k!"wire" ∨ hd = k!"bus") ∧ s = [.str hd]
  | .PolyLine => s = [.str k!"polyline"]
  | .Text => ∃ a1, s = [.str k!"text", a1]
  | .TextBox => ∃ a1, s = [.str k!"text_box", a1]
  | .LocalLabel => ∃ a1, s = [.str k!"label", a1]
  | .GlobalLabel => ∃ a1, s = [.str k!"global_label", a1]
  | .HierarchicalLabel => ∃ a1, s = [.str k!"hierarchical_label", a1]
  | .SymbolProjectPath => ∃ a, s = [.str k!"path", a]
  | .SymbolProjectInstance => ∃ a, s = [.str k!"project", a]
  | .SchematicSymbol => s = [.str k!"symbol"]
  | .HierarchicalPin => ∃ a1 a2, s = [.str k!"pin", a1, a2]
  | .HierarchicalSheetProjectPath => ∃ a, s = [.str k!"path", a]
  | .HierarchicalSheetProjectInstance => ∃ a, s = [.str k!"project", a]
  | .HierarchicalSheet => s = [.str k!"sheet"]
  | .HierarchicalSheetInstance => ∃ a1, s = [.str k!"path", a1]
  | .SymbolInstance => ∃ a1, s = [.str k!"path", a1]
  | .Rectangle => s = [.str k!"rectangle"]
  | .Arc => s = [.str k!"arc"]
  | .Circle => s = [.str k!"circle"]
  | .NetclassFlag => ∃ a1, s = [.str k!"netclass_flag", a1]
  | .Schematic => s = [.str k!"kicad_sch"]
  | .SyArc => s = [.str k!"arc"]
  | .SyCircle => s = [.str k!"circle"]
  | .SyCurve => s = [.str k!"curve"]
  | .SyPolyLine => s = [.str k!"polyline"]
  | .SyRect => s = [.str k!"rectangle"]
  | .SyText => ∃ text, s = [.str k!"text", text]
  | .SyTextBox => ∃ a, a ≠ .str k!"private" ∧ s = [.str k!"text_box", a]
  | .SymbolPin => ∃ a b, s = [.str k!"pin", a, b]
  | .SymbolLib => s = [.str k!"kicad_symbol_lib"]
  | .Symbol => ∃ id, s = [.str k!"symbol", id]
  | .WksFont => s = [.str k!"font"]
  | .Bitmap => s = [.str k!"bitmap"]
  | .TbText => ∃ text, s = [.str k!"tbtext", text]
  | .Setup => s = [.str k!"setup"]
  | .WorkSheet => s = [.str k!"kicad_wks"]
  | .KeepoutSettings => s = [.str k!"keepout"]
  | .FillSettings => s = [.str k!"fill"]
  | .ZonePolygon => s = [.str k!"polygon"]
  | .FilledPolygon => s = [.str k!"filled_polygon"]
  | .FillSegments => s = [.str k!"fill_segments"]
  | .Zone => s = [.str k!"zone"]
  | .WksLine => s = [.str k!"line"]
  | .WksRect => s = [.str k!"rect"]
  | .Primitives => s = [.str k!"primitives"]

/-- The tokens that children of the kind may have. -/
def ExpKind.known : ExpKind → List Str
  | .Board => [k!"version", k!"generator", k!"general", k!"paper", k!"title_block", k!"layers", k!"setup", k!"property", k!"net", k!"footprint", k!"gr_text", k!"gr_text_box", k!"gr_line", k!"gr_rect", k!"gr_circle", k!"gr_arc", k!"gr_poly", k!"gr_curve", k!"image", k!"dimension", k!"target", k!"segment", k!"arc", k!"via", k!"zone", k!"group"]
  | .GeneralSettings => [k!"thickness"]
  | .Stackup => [k!"layer", k!"copper_finish", k!"dielectric_constraints", k!"edge_connector", k!"castellated_pads", k!"edge_plating"]
  | .PlotSettings => [k!"layerselection", k!"plot_on_all_layers_selection", k!"disableapertmacros", k!"usegerberextensions", k!"usegerberattributes", k!"usegerberadvancedattributes", k!"creategerberjobfile", k!"dashed_line_dash_ratio", k!"dashed_line_gap_ratio", k!"svguseinch", k!"svgprecision", k!"excludeedgelayer", k!"plotframeref", k!"viasonmask", k!"mode", k!"useauxorigin", k!"hpglpennumber", k!"hpglpenspeed", k!"hpglpendiameter", k!"dxfpolygonmode", k!"dxfimperialunits", k!"dxfusepcbnewfont", k!"psnegative", k!"psa4output", k!"plotreference", k!"plotvalue", k!"plotinvisibletext", k!"sketchpadsonfab", k!"subtractmaskfromsilk", k!"outputformat", k!"mirror", k!"drillshape", k!"scaleselection", k!"outputdirectory"]
  | .SetupData => [k!"stackup", k!"pcbplotparams", k!"pad_to_mask_clearance", k!"solder_mask_min_width", k!"pad_to_paste_clearance", k!"pad_to_paste_clearance_ratio", k!"aux_axis_origin", k!"grid_origin"]
  | .Segment => [k!"start", k!"end", k!"width", k!"layer", k!"net", k!"tstamp"]
  | .Via => [k!"at", k!"size", k!"drill", k!"layers", k!"remove_unused_layers", k!"keep_end_layers", k!"free", k!"net", k!"tstamp"]
  | .TraceArc => [k!"start", k!"mid", k!"end", k!"width", k!"layer", k!"net", k!"tstamp"]
  | .Target => [k!"at", k!"size", k!"width", k!"layer", k!"tstamp"]
  | .Stroke => [k!"width", k!"type", k!"color"]
  | .Font => [k!"face", k!"size", k!"thickness", k!"line_spacing", k!"color"]
  | .Effects => [k!"font", k!"justify", k!"href"]
  | .Group => [k!"id", k!"members"]
  | .TitleBlock => [k!"title", k!"date", k!"rev", k!"company", k!"comment"]
  | .Property => [k!"id", k!"at", k!"effects", k!"show_name"]
  | .RenderCachePolygon => [k!"pts"]
  | .RenderCache => [k!"polygon"]
  | .Fill => [k!"type", k!"color"]
  | .Image => [k!"at", k!"scale", k!"uuid", k!"layer", k!"data"]
  | .DimensionFormat => [k!"prefix", k!"suffix", k!"units", k!"units_format", k!"precision", k!"override_value"]
  | .DimensionStyle => [k!"thickness", k!"arrow_length", k!"text_position_mode", k!"extension_height", k!"text_frame", k!"extension_offset"]
  | .Dimension => [k!"type", k!"layer", k!"tstamp", k!"height", k!"orientation", k!"leader_length", k!"gr_text", k!"format", k!"style", k!"pts"]
  | .Constraint => [k!"min", k!"opt", k!"max"]
  | .Rule => [k!"constraint", k!"condition", k!"layer", k!"severity"]
  | .DesignRules => [k!"version", k!"rule"]
  | .Model => [k!"opacity", k!"offset", k!"scale", k!"rotate"]
  | .DrillDefinition => [k!"offset"]
  | .PadOptions => [k!"clearance", k!"anchor"]
  | .Pad => [k!"at", k!"size", k!"drill", k!"layers", k!"property", k!"remove_unused_layers", k!"keep_end_layers", k!"roundrect_rratio", k!"chamfer_ratio", k!"chamfer", k!"net", k!"tstamp", k!"pinfunction", k!"pintype", k!"die_length", k!"solder_mask_margin", k!"solder_paste_margin", k!"solder_paste_margin_ratio", k!"clearance", k!"zone_connect", k!"thermal_width", k!"thermal_gap", k!"options", k!"primitives"]
  | .Footprint => [k!"version", k!"generator", k!"layer", k!"tedit", k!"tstamp", k!"descr", k!"tags", k!"path", k!"at", k!"autoplace_cost90", k!"autoplace_cost180", k!"solder_mask_margin", k!"solder_paste_margin", k!"solder_paste_ratio", k!"clearance", k!"zone_connect", k!"thermal_width", k!"thermal_gap", k!"attr", k!"model", k!"fp_text", k!"fp_text_box", k!"fp_line", k!"fp_rect", k!"fp_circle", k!"fp_arc", k!"fp_poly", k!"fp_curve", k!"image", k!"pad", k!"zone", k!"property", k!"group", k!"private_layers", k!"net_tie_pad_groups", k!"dimension"]
  | .FpText => [k!"at", k!"layer", k!"effects", k!"tstamp", k!"render_cache"]
  | .FpLine => [k!"start", k!"end", k!"layer", k!"tstamp", k!"width", k!"stroke"]
  | .FpRect => [k!"start", k!"end", k!"layer", k!"tstamp", k!"fill", k!"width", k!"stroke"]
  | .FpTextBox => [k!"start", k!"end", k!"pts", k!"angle", k!"layer", k!"tstamp", k!"effects", k!"stroke", k!"render_cache"]
  | .FpCircle => [k!"center", k!"end", k!"layer", k!"tstamp", k!"fill", k!"width", k!"stroke"]
  | .FpArc => [k!"start", k!"mid", k!"end", k!"layer", k!"tstamp", k!"width", k!"stroke"]
  | .FpPoly => [k!"pts", k!"layer", k!"tstamp", k!"fill", k!"width", k!"stroke"]
  | .FpCurve => [k!"pts", k!"layer", k!"tstamp", k!"width", k!"stroke"]
  | .GrText => [k!"at", k!"layer", k!"effects", k!"tstamp", k!"render_cache"]
  | .GrTextBox => [k!"start", k!"end", k!"pts", k!"angle", k!"layer", k!"tstamp", k!"effects", k!"stroke", k!"render_cache"]
  | .GrLine => [k!"start", k!"end", k!"layer", k!"tstamp", k!"width"]
  | .GrRect => [k!"start", k!"end", k!"layer", k!"tstamp", k!"fill", k!"width"]
  | .GrCircle => [k!"center", k!"end", k!"layer", k!"tstamp", k!"fill", k!"width"]
  | .GrArc => [k!"start", k!"mid", k!"end", k!"layer", k!"tstamp", k!"width"]
  | .GrPoly => [k!"pts", k!"layer", k!"tstamp", k!"fill", k!"width"]
  | .GrCurve => [k!"pts", k!"layer", k!"tstamp", k!"width"]
  | .Library => [k!"name", k!"type", k!"uri", k!"options", k!"descr", k!"disabled"]
  | .LibTable => [k!"lib"]
  | .Junction => [k!"at", k!"color", k!"diameter", k!"uuid"]
  | .NoConnect => [k!"at", k!"uuid"]
  | .BusEntry => [k!"at", k!"stroke", k!"size", k!"uuid"]
  | .Connection => [k!"pts", k!"stroke", k!"uuid"]
  | .PolyLine => [k!"pts", k!"stroke", k!"uuid"]
  | .Text => [k!"at", k!"effects", k!"uuid"]
  | .TextBox => [k!"at", k!"size", k!"effects", k!"stroke", k!"fill", k!"uuid"]
  | .LocalLabel => [k!"at", k!"effects", k!"uuid", k!"fields_autoplaced"]
  | .GlobalLabel => [k!"fields_autoplaced", k!"at", k!"effects", k!"property", k!"shape", k!"uuid"]
  | .HierarchicalLabel => [k!"at", k!"effects", k!"shape", k!"uuid", k!"fields_autoplaced"]
  | .SymbolProjectPath => [k!"reference", k!"unit"]
  | .SymbolProjectInstance => [k!"path"]
  | .SchematicSymbol => [k!"fields_autoplaced", k!"lib_id", k!"lib_name", k!"uuid", k!"unit", k!"in_bom", k!"on_board", k!"dnp", k!"at", k!"property", k!"pin", k!"mirror", k!"instances"]
  | .HierarchicalPin => [k!"at", k!"effects", k!"uuid"]
  | .HierarchicalSheetProjectPath => [k!"page"]
  | .HierarchicalSheetProjectInstance => [k!"path"]
  | .HierarchicalSheet => [k!"fields_autoplaced", k!"at", k!"stroke", k!"size", k!"fill", k!"uuid", k!"property", k!"pin", k!"instances"]
  | .HierarchicalSheetInstance => [k!"page"]
  | .SymbolInstance => [k!"reference", k!"unit", k!"value", k!"footprint"]
  | .Rectangle => [k!"start", k!"end", k!"stroke", k!"fill", k!"uuid"]
  | .Arc => [k!"start", k!"mid", k!"end", k!"stroke", k!"fill", k!"uuid"]
  | .Circle => [k!"center", k!"radius", k!"stroke", k!"fill", k!"uuid"]
  | .NetclassFlag => [k!"length", k!"shape", k!"at", k!"fields_autoplaced", k!"effects", k!"uuid", k!"property"]
  | .Schematic => [k!"version", k!"generator", k!"uuid", k!"paper", k!"title_block", k!"lib_symbols", k!"junction", k!"no_connect", k!"bus_entry", k!"bus_alias", k!"wire", k!"bus", k!"polyline", k!"arc", k!"circle", k!"rectangle", k!"image", k!"text", k!"text_box", k!"label", k!"global_label", k!"hierarchical_label", k!"netclass_flag", k!"symbol", k!"sheet", k!"sheet_instances", k!"symbol_instances"]
  | .SyArc => [k!"start", k!"mid", k!"end", k!"stroke", k!"fill"]
  | .SyCircle => [k!"center", k!"radius", k!"stroke", k!"fill"]
  | .SyCurve => [k!"stroke", k!"fill", k!"pts"]
  | .SyPolyLine => [k!"stroke", k!"fill", k!"pts"]
  | .SyRect => [k!"start", k!"end", k!"stroke", k!"fill"]
  | .SyText => [k!"at", k!"effects"]
  | .SyTextBox => [k!"at", k!"size", k!"effects", k!"stroke", k!"fill", k!"uuid"]
  | .SymbolPin => [k!"at", k!"length", k!"name", k!"number", k!"alternate"]
  | .SymbolLib => [k!"version", k!"generator", k!"symbol"]
  | .Symbol => [k!"symbol", k!"extends", k!"pin_numbers", k!"pin_names", k!"in_bom", k!"on_board", k!"power", k!"property", k!"pin", k!"arc", k!"circle", k!"curve", k!"polyline", k!"rectangle", k!"text", k!"text_box"]
  | .WksFont => [k!"linewidth", k!"size"]
  | .Bitmap => [k!"name", k!"pos", k!"option", k!"scale", k!"repeat", k!"incrx", k!"incry", k!"comment", k!"pngdata"]
  | .TbText => [k!"name", k!"pos", k!"option", k!"rotate", k!"font", k!"justify", k!"maxlen", k!"maxheight", k!"repeat", k!"incrx", k!"incry", k!"incrlabel", k!"comment"]
  | .Setup => [k!"textsize", k!"linewidth", k!"textlinewidth", k!"left_margin", k!"right_margin", k!"top_margin", k!"bottom_margin"]
  | .WorkSheet => [k!"version", k!"generator", k!"setup", k!"rect", k!"line", k!"polygon", k!"tbtext", k!"bitmap"]
  | .KeepoutSettings => [k!"tracks", k!"vias", k!"pads", k!"copperpour", k!"footprints"]
  | .FillSettings => [k!"mode", k!"thermal_gap", k!"thermal_bridge_width", k!"smoothing", k!"radius", k!"island_removal_mode", k!"island_area_min", k!"hatch_thickness", k!"hatch_gap", k!"hatch_orientation", k!"hatch_smoothing_level", k!"hatch_smoothing_value", k!"hatch_border_algorithm", k!"hatch_min_hole_area"]
  | .ZonePolygon => [k!"pts"]
  | .FilledPolygon => [k!"layer", k!"island", k!"pts"]
  | .FillSegments => [k!"layer", k!"pts"]
  | .Zone => [k!"net", k!"net_name", k!"layers", k!"layer", k!"tstamp", k!"name", k!"hatch", k!"priority", k!"connect_pads", k!"min_thickness", k!"filled_areas_thickness", k!"keepout", k!"fill", k!"polygon", k!"filled_polygon", k!"fill_segments"]
  | .WksLine => [k!"name", k!"start", k!"end", k!"option", k!"linewidth", k!"repeat", k!"incrx", k!"incry", k!"comment"]
  | .WksRect => [k!"name", k!"start", k!"end", k!"option", k!"linewidth", k!"repeat", k!"incrx", k!"incry", k!"comment"]
  | .Primitives => [k!"gr_text", k!"gr_text_box", k!"gr_line", k!"gr_rect", k!"gr_circle", k!"gr_arc", k!"gr_poly", k!"gr_curve", k!"dimension"]

/-- Groups of tokens whose children have a common order that matters. (Children with the same token always have.) -/
def ExpKind.together : ExpKind → List (List Str)
  | .Board => [[k!"gr_text", k!"gr_text_box", k!"gr_line", k!"gr_rect", k!"gr_circle", k!"gr_arc", k!"gr_poly", k!"gr_curve", k!"image"], [k!"segment", k!"arc", k!"via"]]
  | .Footprint => [[k!"fp_text", k!"fp_text_box", k!"fp_line", k!"fp_rect", k!"fp_circle", k!"fp_arc", k!"fp_poly", k!"fp_curve", k!"image"]]
  | .FpLine => [[k!"width", k!"stroke"]]
  | .FpRect => [[k!"width", k!"stroke"]]
  | .FpCircle => [[k!"width", k!"stroke"]]
  | .FpArc => [[k!"width", k!"stroke"]]
  | .FpPoly => [[k!"width", k!"stroke"]]
  | .FpCurve => [[k!"width", k!"stroke"]]
  | .Junction => [[k!"color", k!"diameter"]]
  | .Schematic => [[k!"wire", k!"bus", k!"polyline"], [k!"arc", k!"circle", k!"rectangle"]]
  | .Symbol => [[k!"arc", k!"circle", k!"curve", k!"polyline", k!"rectangle", k!"text", k!"text_box"]]
  | .WorkSheet => [[k!"rect", k!"line", k!"tbtext", k!"bitmap"]]
  | .Zone => [[k!"layers", k!"layer"]]
  | _ => []

/-- Which children are expressions of which kind. -/
inductive ExpKind.Holds : ExpKind → Str → ExpKind → Prop where
  | Effects_font : Holds .Effects k!"font" .Font
  | Property_effects : Holds .Property k!"effects" .Effects
  | RenderCache_polygon : Holds .RenderCache k!"polygon" .RenderCachePolygon
  | LibTable_lib : Holds .LibTable k!"lib" .Library
  | Rule_constraint : Holds .Rule k!"constraint" .Constraint
  | DesignRules_rule : Holds .DesignRules k!"rule" .Rule
  | TbText_font : Holds .TbText k!"font" .WksFont
  | WorkSheet_setup : Holds .WorkSheet k!"setup" .Setup
  | WorkSheet_tbtext : Holds .WorkSheet k!"tbtext" .TbText
  | WorkSheet_bitmap : Holds .WorkSheet k!"bitmap" .Bitmap
  | SyArc_stroke : Holds .SyArc k!"stroke" .Stroke
  | SyArc_fill : Holds .SyArc k!"fill" .Fill
  | SyCircle_stroke : Holds .SyCircle k!"stroke" .Stroke
  | SyCircle_fill : Holds .SyCircle k!"fill" .Fill
  | SyCurve_stroke : Holds .SyCurve k!"stroke" .Stroke
  | SyCurve_fill : Holds .SyCurve k!"fill" .Fill
  | SyPolyLine_stroke : Holds .SyPolyLine k!"stroke" .Stroke
  | SyPolyLine_fill : Holds .SyPolyLine k!"fill" .Fill
  | SyRect_stroke : Holds .SyRect k!"stroke" .Stroke
  | SyRect_fill : Holds .SyRect k!"fill" .Fill
  | SyText_effects : Holds .SyText k!"effects" .Effects
  | SyTextBox_effects : Holds .SyTextBox k!"effects" .Effects
  | SyTextBox_stroke : Holds .SyTextBox k!"stroke" .Stroke
  | SyTextBox_fill : Holds .SyTextBox k!"fill" .Fill
  | SymbolLib_symbol : Holds .SymbolLib k!"symbol" .Symbol
  | BusEntry_stroke : Holds .BusEntry k!"stroke" .Stroke
  | Connection_stroke : Holds .Connection k!"stroke" .Stroke
  | PolyLine_stroke : Holds .PolyLine k!"stroke" .Stroke
  | Text_effects : Holds .Text k!"effects" .Effects
  | TextBox_effects : Holds .TextBox k!"effects" .Effects
  | TextBox_stroke : Holds .TextBox k!"stroke" .Stroke
  | TextBox_fill : Holds .TextBox k!"fill" .Fill
  | LocalLabel_effects : Holds .LocalLabel k!"effects" .Effects
  | GlobalLabel_effects : Holds .GlobalLabel k!"effects" .Effects
  | GlobalLabel_property : Holds .GlobalLabel k!"property" .Property
  | HierarchicalLabel_effects : Holds .HierarchicalLabel k!"effects" .Effects
  | SymbolProjectInstance_path : Holds .SymbolProjectInstance k!"path" .SymbolProjectPath
  | SchematicSymbol_property : Holds .SchematicSymbol k!"property" .Property
  | HierarchicalPin_effects : Holds .HierarchicalPin k!"effects" .Effects
  | HierarchicalSheetProjectInstance_path : Holds .HierarchicalSheetProjectInstance k!"path" .HierarchicalSheetProjectPath
  | HierarchicalSheet_stroke : Holds .HierarchicalSheet k!"stroke" .Stroke
  | HierarchicalSheet_pin : Holds .HierarchicalSheet k!"pin" .HierarchicalPin
  | Rectangle_stroke : Holds .Rectangle k!"stroke" .Stroke
  | Rectangle_fill : Holds .Rectangle k!"fill" .Fill
  | Arc_stroke : Holds .Arc k!"stroke" .Stroke
  | Arc_fill : Holds .Arc k!"fill" .Fill
  | Circle_stroke : Holds .Circle k!"stroke" .Stroke
  | Circle_fill : Holds .Circle k!"fill" .Fill
  | NetclassFlag_effects : Holds .NetclassFlag k!"effects" .Effects
  | NetclassFlag_property : Holds .NetclassFlag k!"property" .Property
  | Schematic_title_block : Holds .Schematic k!"title_block" .TitleBlock
  | Schematic_junction : Holds .Schematic k!"junction" .Junction
  | Schematic_no_connect : Holds .Schematic k!"no_connect" .NoConnect
  | Schematic_bus_entry : Holds .Schematic k!"bus_entry" .BusEntry
  | Schematic_polyline : Holds .Schematic k!"polyline" .PolyLine
  | Schematic_arc : Holds .Schematic k!"arc" .Arc
  | Schematic_circle : Holds .Schematic k!"circle" .Circle
  | Schematic_rectangle : Holds .Schematic k!"rectangle" .Rectangle
  | Schematic_image : Holds .Schematic k!"image" .Image
  | Schematic_text : Holds .Schematic k!"text" .Text
  | Schematic_text_box : Holds .Schematic k!"text_box" .TextBox
  | Schematic_label : Holds .Schematic k!"label" .LocalLabel
  | Schematic_global_label : Holds .Schematic k!"global_label" .GlobalLabel
  | Schematic_hierarchical_label : Holds .Schematic k!"hierarchical_label" .HierarchicalLabel
  | Schematic_netclass_flag : Holds .Schematic k!"netclass_flag" .NetclassFlag
  | Schematic_symbol : Holds .Schematic k!"symbol" .SchematicSymbol
  | Schematic_sheet : Holds .Schematic k!"sheet" .HierarchicalSheet
  | GrText_effects : Holds .GrText k!"effects" .Effects
  | GrText_render_cache : Holds .GrText k!"render_cache" .RenderCache
  | GrTextBox_effects : Holds .GrTextBox k!"effects" .Effects
  | GrTextBox_stroke : Holds .GrTextBox k!"stroke" .Stroke
  | GrTextBox_render_cache : Holds .GrTextBox k!"render_cache" .RenderCache
  | FpText_effects : Holds .FpText k!"effects" .Effects
  | FpText_render_cache : Holds .FpText k!"render_cache" .RenderCache
  | FpLine_stroke : Holds .FpLine k!"stroke" .Stroke
  | FpRect_stroke : Holds .FpRect k!"stroke" .Stroke
  | FpTextBox_effects : Holds .FpTextBox k!"effects" .Effects
  | FpTextBox_stroke : Holds .FpTextBox k!"stroke" .Stroke
  | FpTextBox_render_cache : Holds .FpTextBox k!"render_cache" .RenderCache
  | FpCircle_stroke : Holds .FpCircle k!"stroke" .Stroke
  | FpArc_stroke : Holds .FpArc k!"stroke" .Stroke
  | FpPoly_stroke : Holds .FpPoly k!"stroke" .Stroke
  | FpCurve_stroke : Holds .FpCurve k!"stroke" .Stroke
  | Zone_keepout : Holds .Zone k!"keepout" .KeepoutSettings
  | Zone_fill : Holds .Zone k!"fill" .FillSettings
  | Zone_polygon : Holds .Zone k!"polygon" .ZonePolygon
  | Zone_filled_polygon : Holds .Zone k!"filled_polygon" .FilledPolygon
  | Zone_fill_segments : Holds .Zone k!"fill_segments" .FillSegments
  | Pad_drill : Holds .Pad k!"drill" .DrillDefinition
  | Pad_options : Holds .Pad k!"options" .PadOptions
  | Footprint_model : Holds .Footprint k!"model" .Model
  | Footprint_fp_text : Holds .Footprint k!"fp_text" .FpText
  | Footprint_fp_text_box : Holds .Footprint k!"fp_text_box" .FpTextBox
  | Footprint_fp_line : Holds .Footprint k!"fp_line" .FpLine
  | Footprint_fp_rect : Holds .Footprint k!"fp_rect" .FpRect
  | Footprint_fp_circle : Holds .Footprint k!"fp_circle" .FpCircle
  | Footprint_fp_arc : Holds .Footprint k!"fp_arc" .FpArc
  | Footprint_fp_poly : Holds .Footprint k!"fp_poly" .FpPoly
  | Footprint_fp_curve : Holds .Footprint k!"fp_curve" .FpCurve
  | Footprint_image : Holds .Footprint k!"image" .Image
  | Footprint_pad : Holds .Footprint k!"pad" .Pad
  | Footprint_zone : Holds .Footprint k!"zone" .Zone
  | Footprint_group : Holds .Footprint k!"group" .Group
  | SetupData_stackup : Holds .SetupData k!"stackup" .Stackup
  | SetupData_pcbplotparams : Holds .SetupData k!"pcbplotparams" .PlotSettings
  | Dimension_gr_text : Holds .Dimension k!"gr_text" .GrText
  | Dimension_format : Holds .Dimension k!"format" .DimensionFormat
  | Dimension_style : Holds .Dimension k!"style" .DimensionStyle
  | Symbol_symbol : Holds .Symbol k!"symbol" .Symbol
  | Symbol_property : Holds .Symbol k!"property" .Property
  | Symbol_pin : Holds .Symbol k!"pin" .SymbolPin
  | Symbol_arc : Holds .Symbol k!"arc" .SyArc
  | Symbol_circle : Holds .Symbol k!"circle" .SyCircle
  | Symbol_curve : Holds .Symbol k!"curve" .SyCurve
  | Symbol_polyline : Holds .Symbol k!"polyline" .SyPolyLine
  | Symbol_rectangle : Holds .Symbol k!"rectangle" .SyRect
  | Symbol_text : Holds .Symbol k!"text" .SyText
  | Symbol_text_box : Holds .Symbol k!"text_box" .SyTextBox
  | Board_general : Holds .Board k!"general" .GeneralSettings
  | Board_title_block : Holds .Board k!"title_block" .TitleBlock
  | Board_setup : Holds .Board k!"setup" .SetupData
  | Board_footprint : Holds .Board k!"footprint" .Footprint
  | Board_gr_text : Holds .Board k!"gr_text" .GrText
  | Board_gr_text_box : Holds .Board k!"gr_text_box" .GrTextBox
  | Board_gr_line : Holds .Board k!"gr_line" .GrLine
  | Board_gr_rect : Holds .Board k!"gr_rect" .GrRect
  | Board_gr_circle : Holds .Board k!"gr_circle" .GrCircle
  | Board_gr_arc : Holds .Board k!"gr_arc" .GrArc
  | Board_gr_poly : Holds .Board k!"gr_poly" .GrPoly
  | Board_gr_curve : Holds .Board k!"gr_curve" .GrCurve
  | Board_image : Holds .Board k!"image" .Image
  | Board_dimension : Holds .Board k!"dimension" .Dimension
  | Board_target : Holds .Board k!"target" .Target
  | Board_segment : Holds .Board k!"segment" .Segment
  | Board_arc : Holds .Board k!"arc" .TraceArc
  | Board_via : Holds .Board k!"via" .Via
  | Board_zone : Holds .Board k!"zone" .Zone
  | Board_group : Holds .Board k!"group" .Group
  | Schematic_wire : Holds .Schematic k!"wire" .Connection
  | Schematic_bus : Holds .Schematic k!"bus" .Connection
  | WorkSheet_line : Holds .WorkSheet k!"line" .WksLine
  | WorkSheet_rect : Holds .WorkSheet k!"rect" .WksRect
  | HierarchicalSheet_property : Holds .HierarchicalSheet k!"property" .Property
  | Pad_primitives : Holds .Pad k!"primitives" .Primitives
  | Primitives_gr_text : Holds .Primitives k!"gr_text" .GrText
  | Primitives_gr_text_box : Holds .Primitives k!"gr_text_box" .GrTextBox
  | Primitives_gr_line : Holds .Primitives k!"gr_line" .GrLine
  | Primitives_gr_rect : Holds .Primitives k!"gr_rect" .GrRect
  | Primitives_gr_circle : Holds .Primitives k!"gr_circle" .GrCircle
  | Primitives_gr_arc : Holds .Primitives k!"gr_arc" .GrArc
  | Primitives_gr_poly : Holds .Primitives k!"gr_poly" .GrPoly
  | Primitives_gr_curve : Holds .Primitives k!"gr_curve" .GrCurve

/-- Which children are lists of expressions of which kind. -/
inductive ExpKind.HoldsAll : ExpKind → Str → ExpKind → Prop where
  | SchematicSymbol_instances : HoldsAll .SchematicSymbol k!"instances" .SymbolProjectInstance
  | HierarchicalSheet_instances : HoldsAll .HierarchicalSheet k!"instances" .HierarchicalSheetProjectInstance
  | Schematic_lib_symbols : HoldsAll .Schematic k!"lib_symbols" .Symbol
  | Schematic_sheet_instances : HoldsAll .Schematic k!"sheet_instances" .HierarchicalSheetInstance
  | Schematic_symbol_instances : HoldsAll .Schematic k!"symbol_instances" .SymbolInstance

/-- The two expressions of the kind say the same. -/
inductive SaysSame : ExpKind → Val → Val → Prop where
  | refl {k : ExpKind} (v : Val) : SaysSame k v v
  | symm {k : ExpKind} {v w : Val} : SaysSame k v w → SaysSame k w v
  | trans {k : ExpKind} {u v w : Val} : SaysSame k u v → SaysSame k v w → SaysSame k u w
  /-- one of them has a child with an unknown token (in fact: the child begins with anything but the known tokens) -/
  | unknown {k : ExpKind} {s : List Val} (hs : k.Start s) (xs ys : List Val) {u : Val} {r : List Val} (hu : ∀ w ∈ k.known, u ≠ .str w) :
      SaysSame k (.list (s ++ (xs ++ .list (u :: r) :: ys))) (.list (s ++ (xs ++ ys)))
  /-- the children are in another order (three children of models have fixed places, and the order of primitives matters) -/
  | order {k : ExpKind} {s : List Val} (hs : k.Start s) (hm : k ≠ .Model) (hp : k ≠ .Primitives) {xs ys : List Val} (hr : Reordered k.together xs ys) :
      SaysSame k (.list (s ++ xs)) (.list (s ++ ys))
  /-- one child is an expression and differs in such a way -/
  | child {k k' : ExpKind} {w : Str} (hk : k.Holds w k') {s : List Val} (hs : k.Start s) (xs ys : List Val) {r r' : List Val}
      (h : SaysSame k' (.list (.str w :: r)) (.list (.str w :: r'))) :
      SaysSame k (.list (s ++ (xs ++ .list (.str w :: r) :: ys))) (.list (s ++ (xs ++ .list (.str w :: r') :: ys)))
  /-- one child is a list of expressions, one of which differs in such a way -/
  | grandchild {k k' : ExpKind} {w : Str} (hk : k.HoldsAll w k') {s : List Val} (hs : k.Start s) (xs ys as bs : List Val) {v v' : Val}
      (h : SaysSame k' v v') :
      SaysSame k (.list (s ++ (xs ++ .list (.str w :: (as ++ v :: bs)) :: ys))) (.list (s ++ (xs ++ .list (.str w :: (as ++ v' :: bs)) :: ys)))

/-- Both expressions of the kind are loaded as the same object, or both are rejected. -/
def ExpKind.Same (v w : Val) : ExpKind → Prop
  | .Board => ∀ tedit o, Board.fromSexpr tedit v = .ok o ↔ Board.fromSexpr tedit w = .ok o
  | .GeneralSettings => ∀ o, GeneralSettings.fromSexpr v = .ok o ↔ GeneralSettings.fromSexpr w = .ok o
  | .Stackup => ∀ o, Stackup.fromSexpr v = .ok o ↔ Stackup.fromSexpr w = .ok o
  | .PlotSettings => ∀ o, PlotSettings.fromSexpr v = .ok o ↔ PlotSettings.fromSexpr w = .ok o
  | .SetupData => ∀ o, SetupData.fromSexpr v = .ok o ↔ SetupData.fromSexpr w = .ok o
  | .Segment => ∀ o, Segment.fromSexpr v = .ok o ↔ Segment.fromSexpr w = .ok o
  | .Via => ∀ o, Via.fromSexpr v = .ok o ↔ Via.fromSexpr w = .ok o
  | .TraceArc => ∀ o, TraceArc.fromSexpr v = .ok o ↔ TraceArc.fromSexpr w = .ok o
  | .Target => ∀ o, Target.fromSexpr v = .ok o ↔ Target.fromSexpr w = .ok o
  | .Stroke => ∀ o, Stroke.fromSexpr v = .ok o ↔ Stroke.fromSexpr w = .ok o
  | .Font => ∀ o, Font.fromSexpr v = .ok o ↔ Font.fromSexpr w = .ok o
  | .Effects => ∀ o, Effects.fromSexpr v = .ok o ↔ Effects.fromSexpr w = .ok o
  | .Group => ∀ o, Group.fromSexpr v = .ok o ↔ Group.fromSexpr w = .ok o
  | .TitleBlock => ∀ o, TitleBlock.fromSexpr v = .ok o ↔ TitleBlock.fromSexpr w = .ok o
  | .Property => ∀ o, Property.fromSexpr v = .ok o ↔ Property.fromSexpr w = .ok o
  | .RenderCachePolygon => ∀ o, RenderCachePolygon.fromSexpr v = .ok o ↔ RenderCachePolygon.fromSexpr w = .ok o
  | .RenderCache => ∀ o, RenderCache.fromSexpr v = .ok o ↔ RenderCache.fromSexpr w = .ok o
  | .Fill => ∀ o, Fill.fromSexpr v = .ok o ↔ Fill.fromSexpr w = .ok o
  | .Image => ∀ o, Image.fromSexpr v = .ok o ↔ Image.fromSexpr w = .ok o
  | .DimensionFormat => ∀ o, DimensionFormat.fromSexpr v = .ok o ↔ DimensionFormat.fromSexpr w = .ok o
  | .DimensionStyle => ∀ o, DimensionStyle.fromSexpr v = .ok o ↔ DimensionStyle.fromSexpr w = .ok o
  | .Dimension => ∀ o, Dimension.fromSexpr v = .ok o ↔ Dimension.fromSexpr w = .ok o
  | .Constraint => ∀ o, Constraint.fromSexpr v = .ok o ↔ Constraint.fromSexpr w = .ok o
  | .Rule => ∀ o, Rule.fromSexpr v = .ok o ↔ Rule.fromSexpr w = .ok o
  | .DesignRules => ∀ o, DesignRules.fromSexpr v = .ok o ↔ DesignRules.fromSexpr w = .ok o
  | .Model => ∀ o, Model.fromSexpr v = .ok o ↔ Model.fromSexpr w = .ok o
  | .DrillDefinition => ∀ o, DrillDefinition.fromSexpr v = .ok o ↔ DrillDefinition.fromSexpr w = .ok o
  | .PadOptions => ∀ o, PadOptions.fromSexpr v = .ok o ↔ PadOptions.fromSexpr w = .ok o
  | .Pad => ∀ o, Pad.fromSexpr v = .ok o ↔ Pad.fromSexpr w = .ok o
  | .Footprint => ∀ tedit o, Footprint.fromSexpr tedit v = .ok o ↔ Footprint.fromSexpr tedit w = .ok o
  | .FpText => ∀ o, FpText.fromSexpr v = .ok o ↔ FpText.fromSexpr w = .ok o
  | .FpLine => ∀ o, FpLine.fromSexpr v = .ok o ↔ FpLine.fromSexpr w = .ok o
  | .FpRect => ∀ o, FpRect.fromSexpr v = .ok o ↔ FpRect.fromSexpr w = .ok o
  | .FpTextBox => ∀ o, FpTextBox.fromSexpr v = .ok o ↔ FpTextBox.fromSexpr w = .ok o
  | .FpCircle => ∀ o, FpCircle.fromSexpr v = .ok o ↔ FpCircle.fromSexpr w = .ok o
  | .FpArc => ∀ o, FpArc.fromSexpr v = .ok o ↔ FpArc.fromSexpr w = .ok o
  | .FpPoly => ∀ o, FpPoly.fromSexpr v = .ok o ↔ FpPoly.fromSexpr w = .ok o
  | .FpCurve => ∀ o, FpCurve.fromSexpr v = .ok o ↔ FpCurve.fromSexpr w = .ok o
  | .GrText => ∀ o, GrText.fromSexpr v = .ok o ↔ GrText.fromSexpr w = .ok o
  | .GrTextBox => ∀ o, GrTextBox.fromSexpr v = .ok o ↔ GrTextBox.fromSexpr w = .ok o
  | .GrLine => ∀ o, GrLine.fromSexpr v = .ok o ↔ GrLine.fromSexpr w = .ok o
  | .GrRect => ∀ o, GrRect.fromSexpr v = .ok o ↔ GrRect.fromSexpr w = .ok o
  | .GrCircle => ∀ o, GrCircle.fromSexpr v = .ok o ↔ GrCircle.fromSexpr w = .ok o
  | .GrArc => ∀ o, GrArc.fromSexpr v = .ok o ↔ GrArc.fromSexpr w = .ok o
  | .GrPoly => ∀ o, GrPoly.fromSexpr v = .ok o ↔ GrPoly.fromSexpr w = .ok o
  | .GrCurve => ∀ o, GrCurve.fromSexpr v = .ok o ↔ GrCurve.fromSexpr w = .ok o
  | .Library => ∀ o, Library.fromSexpr v = .ok o ↔ Library.fromSexpr w = .ok o
  | .LibTable => ∀ o, LibTable.fromSexpr v = .ok o ↔ LibTable.fromSexpr w = .ok o
  | .Junction => ∀ o, Junction.fromSexpr v = .ok o ↔ Junction.fromSexpr w = .ok o
  | .NoConnect => ∀ o, NoConnect.fromSexpr v = .ok o ↔ NoConnect.fromSexpr w = .ok o
  | .BusEntry => ∀ o, BusEntry.fromSexpr v = .ok o ↔ BusEntry.fromSexpr w = .ok o
  | .Connection => ∀ o, Connection.fromSexpr v = .ok o ↔ Connection.fromSexpr w = .ok o
  | .PolyLine => ∀ o, PolyLine.fromSexpr v = .ok o ↔ PolyLine.fromSexpr w = .ok o
  | .Text => ∀ o, Text.fromSexpr v = .ok o ↔ Text.fromSexpr w = .ok o
  | .TextBox => ∀ o, TextBox.fromSexpr v = .ok o ↔ TextBox.fromSexpr w = .ok o
  | .LocalLabel => ∀ o, LocalLabel.fromSexpr v = .ok o ↔ LocalLabel.fromSexpr w = .ok o
  | .GlobalLabel => ∀ o, GlobalLabel.fromSexpr v = .ok o ↔ GlobalLabel.fromSexpr w = .ok o
  | .HierarchicalLabel => ∀ o, HierarchicalLabel.fromSexpr v = .ok o ↔ HierarchicalLabel.fromSexpr w = .ok o
  | .SymbolProjectPath => ∀ o, SymbolProjectPath.fromSexpr v = .ok o ↔ SymbolProjectPath.fromSexpr w = .ok o
  | .SymbolProjectInstance => ∀ o, SymbolProjectInstance.fromSexpr v = .ok o ↔ SymbolProjectInstance.fromSexpr w = .ok o
  | .SchematicSymbol => ∀ o, SchematicSymbol.fromSexpr v = .ok o ↔ SchematicSymbol.fromSexpr w = .ok o
  | .HierarchicalPin => ∀ o, HierarchicalPin.fromSexpr v = .ok o ↔ HierarchicalPin.fromSexpr w = .ok o
  | .HierarchicalSheetProjectPath => ∀ o, HierarchicalSheetProjectPath.fromSexpr v = .ok o ↔ HierarchicalSheetProjectPath.fromSexpr w = .ok o
  | .HierarchicalSheetProjectInstance => ∀ o, HierarchicalSheetProjectInstance.fromSexpr v = .ok o ↔ HierarchicalSheetProjectInstance.fromSexpr w = .ok o
  | .HierarchicalSheet => ∀ o, HierarchicalSheet.fromSexpr v = .ok o ↔ HierarchicalSheet.fromSexpr w = .ok o
  | .HierarchicalSheetInstance => ∀ o, HierarchicalSheetInstance.fromSexpr v = .ok o ↔ HierarchicalSheetInstance.fromSexpr w = .ok o
  | .SymbolInstance => ∀ o, SymbolInstance.fromSexpr v = .ok o ↔ SymbolInstance.fromSexpr w = .ok o
  | .Rectangle => ∀ o, Rectangle.fromSexpr v = .ok o ↔ Rectangle.fromSexpr w = .ok o
  | .Arc => ∀ o, Arc.fromSexpr v = .ok o ↔ Arc.fromSexpr w = .ok o
  | .Circle => ∀ o, Circle.fromSexpr v = .ok o ↔ Circle.fromSexpr w = .ok o
  | .NetclassFlag => ∀ o, NetclassFlag.fromSexpr v = .ok o ↔ NetclassFlag.fromSexpr w = .ok o
  | .Schematic => ∀ o, Schematic.fromSexpr v = .ok o ↔ Schematic.fromSexpr w = .ok o
  | .SyArc => ∀ o, SyArc.fromSexpr v = .ok o ↔ SyArc.fromSexpr w = .ok o
  | .SyCircle => ∀ o, SyCircle.fromSexpr v = .ok o ↔ SyCircle.fromSexpr w = .ok o
  | .SyCurve => ∀ o, SyCurve.fromSexpr v = .ok o ↔ SyCurve.fromSexpr w = .ok o
  | .SyPolyLine => ∀ o, SyPolyLine.fromSexpr v = .ok o ↔ SyPolyLine.fromSexpr w = .ok o
  | .SyRect => ∀ o, SyRect.fromSexpr v = .ok o ↔ SyRect.fromSexpr w = .ok o
  | .SyText => ∀ o, SyText.fromSexpr v = .ok o ↔ SyText.fromSexpr w = .ok o
  | .SyTextBox => ∀ o, SyTextBox.fromSexpr v = .ok o ↔ SyTextBox.fromSexpr w = .ok o
  | .SymbolPin => ∀ o, SymbolPin.fromSexpr v = .ok o ↔ SymbolPin.fromSexpr w = .ok o
  | .SymbolLib => ∀ o, SymbolLib.fromSexpr v = .ok o ↔ SymbolLib.fromSexpr w = .ok o
  | .Symbol => ∀ o, Symbol.fromSexpr v = .ok o ↔ Symbol.fromSexpr w = .ok o
  | .WksFont => ∀ o, WksFont.fromSexpr v = .ok o ↔ WksFont.fromSexpr w = .ok o
  | .Bitmap => ∀ o, Bitmap.fromSexpr v = .ok o ↔ Bitmap.fromSexpr w = .ok o
  | .TbText => ∀ o, TbText.fromSexpr v = .ok o ↔ TbText.fromSexpr w = .ok o
  | .Setup => ∀ o, Setup.fromSexpr v = .ok o ↔ Setup.fromSexpr w = .ok o
  | .WorkSheet => ∀ o, WorkSheet.fromSexpr v = .ok o ↔ WorkSheet.fromSexpr w = .ok o
  | .KeepoutSettings => ∀ o, KeepoutSettings.fromSexpr v = .ok o ↔ KeepoutSettings.fromSexpr w = .ok o
  | .FillSettings => ∀ o, FillSettings.fromSexpr v = .ok o ↔ FillSettings.fromSexpr w = .ok o
  | .ZonePolygon => ∀ o, ZonePolygon.fromSexpr v = .ok o ↔ ZonePolygon.fromSexpr w = .ok o
  | .FilledPolygon => ∀ o, FilledPolygon.fromSexpr v = .ok o ↔ FilledPolygon.fromSexpr w = .ok o
  | .FillSegments => ∀ o, FillSegments.fromSexpr v = .ok o ↔ FillSegments.fromSexpr w = .ok o
  | .Zone => ∀ o, Zone.fromSexpr v = .ok o ↔ Zone.fromSexpr w = .ok o
  | .WksLine => ∀ o, WksShape.fromSexpr k!"line" v = .ok o ↔ WksShape.fromSexpr k!"line" w = .ok o
  | .WksRect => ∀ o, WksShape.fromSexpr k!"rect" v = .ok o ↔ WksShape.fromSexpr k!"rect" w = .ok o
  | .Primitives => ∀ acc o, forM padPrimitive acc v.tail = .ok o ↔ forM padPrimitive acc w.tail = .ok o

end Kiutils
