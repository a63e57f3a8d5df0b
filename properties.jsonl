{"id": "C01", "title": "The reader accepts exactly the bracket-balanced, non-empty texts", "statement": "For every text, sexpr.parse_sexp terminates with one of three outcomes: a value, an AssertionError or an IndexError. It returns a value exactly when, reading the token sequence left to right, no ')' appears without an open '(', every '(' is closed at the end, and there is at least one token. It raises AssertionError exactly when the brackets do not balance and IndexError exactly when there is no token at all.", "quantifier": "all texts (finite strings of Unicode scalar values)", "why_tests_cant": "The set of malformed texts is infinite and the lexer's look-aheads and back-tracking make 'which bracket is inside a string' input dependent; a test only samples it.", "anchors": ["src/kiutils/utils/sexpr.py: parse_sexp, term_regex"]}
{"id": "C02", "title": "The reader never silently drops a character other than white space or '^'", "statement": "For every text, writing down the source text of every token that parse_sexp recognises, in order, gives the text with only white-space characters and '^' characters removed outside tokens: nothing else is skipped, duplicated or reordered. If the text contains no '^', only white space is skipped.", "quantifier": "all texts", "why_tests_cant": "The tokeniser uses finditer, which skips silently whatever does not match; that nothing is skipped is a statement about all inputs.", "anchors": ["src/kiutils/utils/sexpr.py: parse_sexp, term_regex"]}
{"id": "C03", "title": "Quoted text survives writing and reading", "statement": "For every string s that does not end in a backslash, the text '\"' + dequote(s) + '\"' followed by white space or ')' and then by anything at all, is read as exactly the string s, and reading continues right after the closing quote. This holds whatever s contains: quotes, backslashes inside, brackets, line breaks, digits, '^'.", "quantifier": "all strings not ending in a backslash, all continuations", "why_tests_cant": "Quotes, backslashes and what follows interact through look-behind and back-tracking; examples cover a handful of combinations.", "anchors": ["src/kiutils/utils/strings.py: dequote", "src/kiutils/utils/sexpr.py: parse_sexp, term_regex"]}
{"id": "C04", "title": "A text ending in a backslash is not safe to write (C03 without its side condition is false)", "statement": "For every string s ending in a backslash, written as a quoted field and followed later by another quoted field whose first character is white space or ')', the reader takes everything up to the opening quote of that second field as one string, so the two fields do not read back as written. If no quote follows at all, or if the next quoted field begins with any other character, s is read back as written (so the fault shows only in combination with the next field).", "quantifier": "all strings ending in a backslash, all following backslash-free quoted fields", "why_tests_cant": "It is a family of failures over all strings and continuations, whether a given file is hit depends on everything after the string.", "anchors": ["src/kiutils/utils/strings.py: dequote", "src/kiutils/utils/sexpr.py: term_regex"]}
{"id": "C05", "title": "Numbers survive writing and reading", "statement": "For every integer n with |n| <= 2^53, the text str(n) followed by a blank or ')' is read as the int n. For every double f that is zero or has 0.0001 <= |f| < 10^16, repr(f) is read as the same float, or as the equal int when the float is integral; every other double (smaller, larger, infinite) comes back as text. Every other integer n is read as float(n) rounded to an int, so large integers are not safe.", "quantifier": "all integers, all doubles", "why_tests_cant": "2^64 doubles and unboundedly many integers; the type changes (1.0 becomes 1) and rounding are value dependent.", "anchors": ["src/kiutils/utils/sexpr.py: parse_sexp"]}
{"id": "C06", "title": "Any tree of atoms and lists survives printing and parsing, in any layout", "statement": "For every tree built from lists, safe numbers, bare words and strings not ending in a backslash, and for every choice of blanks between the tokens (at least a blank or bracket after each number, any white space elsewhere), parse_sexp of the printed text returns exactly that tree.", "quantifier": "all trees of any depth and width, all white-space layouts between tokens", "why_tests_cant": "Unbounded nesting and layouts.", "anchors": ["src/kiutils/utils/sexpr.py: parse_sexp"]}
{"id": "C07", "title": "Only the first expression of a text counts", "statement": "For every text of a tree (in any layout) followed by any text whose brackets balance, parse_sexp returns that tree: everything after the first top-level expression is ignored. If the brackets of the rest do not balance, it raises AssertionError. (The first text must be the text of a tree: an unclosed quote in it may reach into the appended text.)", "quantifier": "all texts that are one bracketed expression, all balanced continuations", "why_tests_cant": "Quantifies over all continuations.", "anchors": ["src/kiutils/utils/sexpr.py: parse_sexp"]}
{"id": "C08", "title": "White space after brackets and white space is irrelevant", "statement": "Inserting any white space directly after a bracket token or directly after white space between tokens never changes what parse_sexp returns, whatever the text before and after. White space inserted before a bracket is not always harmless: a line break between a number and ')' turns the number into a string.", "quantifier": "all texts, all positions next to a bracket outside a quoted string, all white-space strings", "why_tests_cant": "All texts and insertion points.", "anchors": ["src/kiutils/utils/sexpr.py: parse_sexp, term_regex"]}
{"id": "C09", "title": "from_sexpr rejects everything that is not its own token", "statement": "For every class with a from_sexpr constructor: a value that is not a list, or a list whose head is not one of the class's tokens, raises the generic 'wrong type' Exception and returns no object; an empty list raises IndexError, or the generic Exception for the classes that check the length first. Position, WksPosition and LayerToken are the exceptions: they accept any head and only check the length.", "quantifier": "all parsed values, every modelled class", "why_tests_cant": "All possible wrong inputs for some seventy classes.", "anchors": ["src/kiutils/items/*.py: from_sexpr", "src/kiutils/*.py: from_sexpr"]}
{"id": "C10", "title": "Unknown tokens are ignored wherever they appear", "statement": "For the file-level classes and the common items, adding a list whose head is not one of the tokens the class knows, at any position among the children, does not change the object that from_sexpr returns and never makes it fail.", "quantifier": "all child lists, all positions, all unknown lists (of any content)", "why_tests_cant": "Forward compatibility over all future tokens.", "anchors": ["src/kiutils/items/*.py: from_sexpr", "src/kiutils/*.py: from_sexpr"]}
{"id": "C11", "title": "Repeatable items are loaded completely and in file order", "statement": "For every file-level object and every sequence of repeatable children (libraries, rules, symbols, wires, nets, footprints, graphic items, ...), loading yields all of them, exactly once, in the order in which they appear in the file, however they are interleaved with other tokens.", "quantifier": "all sequences of children and all interleavings", "why_tests_cant": "Unbounded sequences and interleavings.", "anchors": ["src/kiutils/libraries.py: LibTable.from_sexpr", "src/kiutils/board.py: Board.from_sexpr", "src/kiutils/schematic.py: Schematic.from_sexpr", "src/kiutils/symbol.py: SymbolLib.from_sexpr"]}
{"id": "C12", "title": "Indentation and newline arguments never change the meaning of the output", "statement": "For every well-formed object and any two choices of the indent and newline arguments of to_sexpr, the two texts parse to the same value.", "quantifier": "all well-formed objects, all indents (natural numbers), both newline settings", "why_tests_cant": "Product of all objects and all layout parameters; layout bugs show only for particular combinations of optional fields (for example a number directly before a line break is read as a string).", "anchors": ["src/kiutils/items/*.py: to_sexpr", "src/kiutils/*.py: to_sexpr"]}
{"id": "C13", "title": "Library tables survive saving and loading", "statement": "For every LibTable whose texts do not end in a backslash, parsing the text of to_sexpr and loading it with from_sexpr gives back the same table: same type, same libraries in the same order, each with the same name, type, uri, options, description and active flag.", "quantifier": "all library tables of any length", "why_tests_cant": "Unbounded tables and arbitrary texts.", "anchors": ["src/kiutils/libraries.py: Library, LibTable"]}
{"id": "C14", "title": "Design rule files survive saving and loading", "statement": "For every well-formed DesignRules object, the file written by to_file (text of to_sexpr, wrapped in brackets by from_file) loads to an equal object: version, rules in order, each with its constraints (type, min, opt, max, elements), condition, layer and severity.", "quantifier": "all well-formed design rule sets", "why_tests_cant": "Unbounded rules, constraints and optional-field combinations.", "anchors": ["src/kiutils/dru.py: Constraint, Rule, DesignRules"]}
{"id": "C15", "title": "Worksheets survive saving and loading", "statement": "For every well-formed WorkSheet, loading the saved text gives an object equal (in Python's ==) to the saved one: setup, and all drawing objects in order with all optional fields.", "quantifier": "all well-formed worksheets", "why_tests_cant": "2^n combinations of optional fields per item and unbounded item lists.", "anchors": ["src/kiutils/wks.py"]}
{"id": "C16", "title": "Symbol libraries survive saving and loading", "statement": "For every well-formed SymbolLib, loading the saved text gives an equal object, for symbols with units nested to any depth, with every combination of flags, properties, graphic items and pins. The Bezier curve item is the exception (see C24).", "quantifier": "all well-formed symbol libraries, any nesting depth", "why_tests_cant": "Unbounded nesting, lists and option combinations.", "anchors": ["src/kiutils/symbol.py: SymbolLib, Symbol, SymbolPin, SymbolAlternativePin", "src/kiutils/items/syitems.py"]}
{"id": "C17", "title": "Schematics survive saving and loading", "statement": "For every well-formed Schematic, loading the saved text gives an equal object: title block, page, library symbols, junctions, wires, labels, symbols, sheets, instances, texts. Exceptions: junction diameters (see C22), and the fill colours of sheets, whose printing precision is always 4 after loading.", "quantifier": "all well-formed schematics", "why_tests_cant": "Unbounded lists of some twenty kinds of items with independent optional fields.", "anchors": ["src/kiutils/schematic.py: Schematic", "src/kiutils/items/schitems.py"]}
{"id": "C18", "title": "Footprints survive saving and loading", "statement": "For every well-formed Footprint, loading the saved text gives an equal object: pads with drills, custom primitives and nets, models, zones, groups, attributes and graphic items.", "quantifier": "all well-formed footprints", "why_tests_cant": "Unbounded lists and option combinations.", "anchors": ["src/kiutils/footprint.py", "src/kiutils/items/fpitems.py", "src/kiutils/items/gritems.py"]}
{"id": "C19", "title": "Boards survive saving and loading", "statement": "For every well-formed Board, loading the saved text gives an equal object: general settings, page, title block, layers, setup, nets, footprints, graphic items, tracks, zones, dimensions, targets, groups. Exception: the useAuxOrigin flag of the plot settings (see C40).", "quantifier": "all well-formed boards", "why_tests_cant": "Unbounded lists and option combinations.", "anchors": ["src/kiutils/board.py: Board", "src/kiutils/items/brditems.py", "src/kiutils/items/zones.py", "src/kiutils/items/dimensions.py", "src/kiutils/items/gritems.py"]}
{"id": "C20", "title": "The shared items survive saving and loading", "statement": "For every well-formed Coordinate, ColorRGBA, Stroke, Font, Justify, Effects, Net, Group, PageSettings, TitleBlock, Property, RenderCache, Fill and Image, parsing to_sexpr and loading gives an equal object; so does a Position written by its owner under any keyword.", "quantifier": "all well-formed instances of the shared item classes", "why_tests_cant": "Combinations of optional fields and arbitrary texts and numbers.", "anchors": ["src/kiutils/items/common.py"]}
{"id": "C21", "title": "Saving is stable after one load", "statement": "For every well-formed object, save-load-save produces a text which, loaded and saved again, does not change: after one load the object is in a normal form whose saved text is a fixed point of load-and-save. (Violated by HierarchicalSheet: loading sets the precision of the fill colour to 4, so an alpha value with more decimals survives the first saving and is rounded by the second.)", "quantifier": "all well-formed objects of the modelled classes", "why_tests_cant": "Fixed-point property over all objects.", "anchors": ["src/kiutils/items/*.py: to_sexpr, from_sexpr", "src/kiutils/*.py: to_sexpr, from_sexpr"]}
{"id": "C22", "title": "Junction diameters survive loading", "statement": "Loading a junction from a file and saving it again keeps its diameter. (Violated: the loaded junction always has the default diameter, and if the colour token does not come after the diameter, saving fails.)", "quantifier": "all junctions and all orders of their tokens", "why_tests_cant": "Depends on token order and values.", "anchors": ["src/kiutils/items/schitems.py: Junction.from_sexpr, Junction.to_sexpr"]}
{"id": "C23", "title": "Locked texts keep their text", "statement": "Saving and loading a graphic text (gr_text) keeps its text and its locked flag. (Violated for every locked text: it is loaded as an unlocked text reading 'locked'.)", "quantifier": "all graphic texts", "why_tests_cant": "Needs the locked flag together with the reader's positional convention; holds for all unlocked texts, fails for all locked ones.", "anchors": ["src/kiutils/items/gritems.py: GrText"]}
{"id": "C24", "title": "Everything that is written can be read: output brackets balance", "statement": "For every well-formed object, the text of to_sexpr is one bracket-balanced expression that parse_sexp accepts. (Violated by symbol Bezier curves, and by graphic lines with an angle.)", "quantifier": "all well-formed objects of all modelled classes", "why_tests_cant": "All objects; the violation hides behind one optional field.", "anchors": ["src/kiutils/items/syitems.py: SyCurve.to_sexpr", "src/kiutils/items/gritems.py: GrLine.to_sexpr", "src/kiutils/items/*.py: to_sexpr"]}
{"id": "C25", "title": "Setting and reading a library id are inverse", "statement": "For Footprint and SchematicSymbol: after libId = s, for every string s without line breaks, reading libId gives s. For Symbol the same holds unless s has no nickname and ends in _<digits>_<digits> with a leading zero. The parts are: nickname = shortest non-empty prefix before a ':' that leaves a non-empty rest.", "quantifier": "all identifier strings", "why_tests_cant": "Lazy regular expressions over arbitrary strings.", "anchors": ["src/kiutils/symbol.py: Symbol.libId", "src/kiutils/footprint.py: Footprint.libId", "src/kiutils/items/schitems.py: SchematicSymbol.libId"]}
{"id": "C26", "title": "Renaming a symbol renames its units consistently", "statement": "After setting a symbol's libId, every direct unit has the symbol's entry name as its entry name, its own unit and style numbers unchanged, and nothing else in the symbol or its units changes.", "quantifier": "all symbols with any number of units, all new identifiers", "why_tests_cant": "All symbols, identifiers and unit lists.", "anchors": ["src/kiutils/symbol.py: Symbol.libId setter"]}
{"id": "C27", "title": "Files are written where the user said, and only there", "statement": "to_file(path) writes exactly the file path and leaves every other file unchanged; to_file() without path writes the file the object was loaded from; without either it raises an exception and changes no file. Objects loaded with from_file remember their path for every file class (violated by Footprint: an object loaded from a file forgets the path).", "quantifier": "all file systems, paths and objects", "why_tests_cant": "Quantifies over all file-system states and both argument forms for nine classes.", "anchors": ["src/kiutils/*.py: from_file, to_file", "src/kiutils/footprint.py: Footprint.from_file"]}
{"id": "C28", "title": "A failing save leaves the existing file intact", "statement": "If to_file raises because the object cannot be serialised, the target file still has its old content. (Violated: the target is truncated before serialisation; it is empty afterwards, for every object whose to_sexpr raises.)", "quantifier": "all file systems, all objects whose serialisation raises", "why_tests_cant": "Needs the failure path together with the state of the file system, for every class.", "anchors": ["src/kiutils/*.py: to_file", "src/kiutils/items/common.py: PageSettings.to_sexpr"]}
{"id": "C29", "title": "At every crash point the saved file is the old content or a prefix of the new one", "statement": "If the process dies at any point during to_file, the target file holds either its complete old content or a prefix of the new text, and every other file is unchanged; the new content is complete exactly when all of it has been flushed. In particular saving is not atomic: from the moment of opening until the end of the flush the old content is gone.", "quantifier": "all crash points, all file systems, all chunkings of the written text", "why_tests_cant": "Crash points cannot be enumerated by tests.", "anchors": ["src/kiutils/*.py: to_file"]}
{"id": "C30", "title": "Save to a file, load from it: the object is back", "statement": "For every well-formed object of a file class whose text has no carriage return, to_file(path) followed by from_file(path) gives an equal object, whatever the file held before and whatever was saved to other paths in between.", "quantifier": "all well-formed objects, all file-system histories that do not touch the path", "why_tests_cant": "Histories of saves and loads.", "anchors": ["src/kiutils/*.py: from_file, to_file"]}
{"id": "C31", "title": "Freshly created objects can be saved and loaded", "statement": "The objects made by create_new of Board, Schematic, Symbol, Footprint, LibTable, DesignRules and WorkSheet, for every argument without a line break in the identifier and without a trailing backslash, can be saved, and loading the text gives an equal object.", "quantifier": "all arguments of create_new", "why_tests_cant": "All argument strings.", "anchors": ["src/kiutils/*.py: create_new"]}
{"id": "C32", "title": "Zones are written on exactly the layers they are on", "statement": "A zone with at least one layer is written with the single-layer token exactly when it has one layer other than the two wild cards '*.Cu' and 'F&B.Cu', and with the multi-layer token otherwise; loading either gives back the same list of layers in order; a zone without layers cannot be written (an exception is raised).", "quantifier": "all zones", "why_tests_cant": "All layer lists.", "anchors": ["src/kiutils/items/zones.py: Zone"]}
{"id": "C33", "title": "Stackup layers keep their sub-layers apart", "statement": "For every stackup layer with any number of sub-layers, each with any subset of thickness, material, epsilon_r and loss tangent set, loading the saved text assigns every value to the sub-layer it was written for.", "quantifier": "all stackup layers, all numbers of sub-layers, all subsets of values", "why_tests_cant": "The reader is a state machine driven by bare separator words; sequences are unbounded.", "anchors": ["src/kiutils/items/brditems.py: StackupLayer, StackupSubLayer"]}
{"id": "C34", "title": "Page settings: sizes are required exactly for user-defined pages", "statement": "PageSettings.to_sexpr raises exactly when the size is 'User' and width or height is missing. Otherwise it succeeds, the portrait flag is kept, and width and height are kept exactly for 'User' pages.", "quantifier": "all page settings", "why_tests_cant": "All combinations of size name, flags and values.", "anchors": ["src/kiutils/items/common.py: PageSettings"]}
{"id": "C35", "title": "Locked flags survive saving and loading", "statement": "For every board, footprint and graphic item class that has a locked flag, saving and loading keeps the flag. (Violated by Dimension and FpLine: the flag is read but never written; and by GrText, see C23; a group named 'locked' becomes locked.)", "quantifier": "all lockable items", "why_tests_cant": "All items and all values of the other fields.", "anchors": ["src/kiutils/items/*.py: locked", "src/kiutils/items/dimensions.py: Dimension", "src/kiutils/items/fpitems.py: FpLine", "src/kiutils/items/common.py: Group"]}
{"id": "C36", "title": "The order of different tokens in a file does not matter", "statement": "For the record-like classes (library, stroke, font, net segment, via, ...), swapping two neighbouring children with different heads does not change the object that from_sexpr returns (or the fact that it fails).", "quantifier": "all children, all permutations of children with distinct heads", "why_tests_cant": "All permutations and contents.", "anchors": ["src/kiutils/libraries.py: Library.from_sexpr", "src/kiutils/items/common.py", "src/kiutils/items/brditems.py"]}
{"id": "C37", "title": "The last of several equal tokens wins", "statement": "If a scalar token appears several times among the children, the loaded value is that of its last occurrence, whatever comes between.", "quantifier": "all child lists", "why_tests_cant": "All repetitions and positions.", "anchors": ["src/kiutils/libraries.py: Library.from_sexpr", "src/kiutils/items/common.py", "src/kiutils/items/brditems.py"]}
{"id": "C38", "title": "Editing one field and saving changes nothing else", "statement": "For every well-formed object, changing one field to another well-formed value, saving and loading, gives the original object with exactly that field changed. (Violated by Junction.diameter and PlotSettings.useAuxOrigin, which do not survive saving and loading.)", "quantifier": "all objects, all fields of the modelled file classes, all values", "why_tests_cant": "Frame property over all fields.", "anchors": ["src/kiutils/*.py: to_sexpr, from_sexpr"]}
{"id": "C39", "title": "Loading never touches the file system, and any history of saves and loads is last-writer-wins", "statement": "For every sequence of saves and loads on any paths: loads change nothing; after the sequence each path holds the text of the last save to it, or its original content if there was none.", "quantifier": "all finite sequences of operations, all file systems", "why_tests_cant": "Unbounded histories.", "anchors": ["src/kiutils/*.py: from_file, to_file"]}
{"id": "C40", "title": "Plot settings survive saving and loading", "statement": "For every well-formed PlotSettings object, saving and loading gives an equal object. (Violated for useAuxOrigin = True, which is always written as false.)", "quantifier": "all plot settings", "why_tests_cant": "2^25 combinations of flags.", "anchors": ["src/kiutils/items/brditems.py: PlotSettings"]}
{"id": "C41", "title": "Every item class survives saving and loading on its own", "statement": "For every item class of the package that has to_sexpr and from_sexpr (symbol pins and graphics, schematic items, board and footprint graphics, pads, zones, tracks, dimensions, stackup, setup, ...) and every well-formed object of that class, parsing the text of to_sexpr and loading it with from_sexpr gives an equal object, whatever the layout arguments.", "quantifier": "all well-formed objects of about 80 item classes, all indents and newline settings", "why_tests_cant": "Each class has up to 40 optional fields in any combination, free texts and numbers; tests fix a handful of files.", "anchors": ["src/kiutils/items/*.py: from_sexpr, to_sexpr"]}
{"id": "C42", "title": "Drill definitions survive saving and loading", "statement": "For every drill definition (round or oval, with or without width and offset) that can be built through the API, saving and loading gives an equal drill definition. (Violated: a round drill with an offset comes back with the raw offset list as its width; an oval drill without a width is saved as text that cannot be loaded. a width set on a round drill is not saved; an oval drill with one size and an offset comes back with the offset as its width. A drill with numbers as sizes survives exactly if it is oval with both sizes, or round without width and without offset.)", "quantifier": "all drill definitions with printable numbers", "why_tests_cant": "The defect depends on the combination of three optional fields; the test files contain only some combinations.", "anchors": ["src/kiutils/footprint.py:240-294"]}
{"id": "C43", "title": "Footprint graphics have either a width or a stroke", "statement": "Every FpLine, FpRect, FpCircle, FpArc, FpPoly and FpCurve that from_sexpr returns has exactly one of width and stroke, whatever the input; conversely an object with both or with neither of them never survives saving and loading (of both, the stroke is lost; with neither, the default width appears).", "quantifier": "all input expressions, all objects, all layouts", "why_tests_cant": "It is an invariant over arbitrary input files with tokens in any order and number.", "anchors": ["src/kiutils/items/fpitems.py:135-870"]}
{"id": "C44", "title": "The encoding given to to_file and from_file is the one used", "statement": "For every file class, an object saved with to_file(path, encoding=e) and loaded with from_file(path, encoding=e) comes back equal for every encoding e that can represent its text, on every platform. (Violated by WorkSheet: to_file has no encoding and always uses that of the platform, so loading with an explicit encoding can garble the texts.)", "quantifier": "all lawful encodings, all platforms, all well-formed objects", "why_tests_cant": "Tests run with one platform encoding and mostly ASCII texts.", "anchors": ["src/kiutils/wks.py:889-941", "src/kiutils/board.py:149-241", "src/kiutils/symbol.py:503-573"]}
{"id": "C45", "title": "Numbers of a file survive loading, saving and loading again", "statement": "Every number literal of a file ([+-]digits or [+-]digits.digits) is read as a number which is written so that the same number is read again. (Violated: a number with 0 < |x| < 0.0001 is written with an exponent, e.g. 0.00005 as 5e-05, and comes back as text.)", "quantifier": "all number literals", "why_tests_cant": "There are infinitely many literals; whether repr switches to an exponent depends on the magnitude and on correct rounding in both directions.", "anchors": ["src/kiutils/utils/sexpr.py: parse_sexp", "src/kiutils/items/common.py: Position.to_sexpr and all f-strings with numbers"]}
{"id": "C46", "title": "Exactly which objects can be saved", "statement": "For every class whose to_sexpr can raise (page settings, dimensions, zones, text boxes, design rules, pads, footprints, junctions, schematic texts, netclass flags, sheets, worksheets, plot settings, board setup, schematics, boards) there is a simple condition on the attributes - for example: a zone has a layer, a text box at 0/90/180/270 degrees has start and end and any other has four points, no layer of a pad is a number, ratios of plot settings are numbers in the range of floats or texts of the grammar that Python documents for float() - such that to_sexpr returns a text if and only if the condition holds; for the single items the exception class is fixed.", "quantifier": "all objects (arbitrary attribute values), all layout arguments", "why_tests_cant": "It is an equivalence over all attribute values, including arbitrarily large ints and arbitrary texts passed to float(); tests show single raising or non-raising objects.", "anchors": ["src/kiutils/board.py:243-323", "src/kiutils/schematic.py:232-351", "src/kiutils/footprint.py:551-661", "src/kiutils/items/gritems.py:228-273", "src/kiutils/items/zones.py:605-657", "src/kiutils/items/brditems.py:600-680"]}
{"id": "C47", "title": "Whatever can be loaded can be saved", "statement": "If from_sexpr returns an object, to_sexpr of that object does not raise. (Holds for page settings, design rules, worksheets, symbol libraries and library tables. Violated for junctions with a diameter that is not followed by a colour, schematic texts that are numbers, netclass flags without effects, zones without layers, dimensions without points, text boxes without corners or points, pads with a number as layer, plot settings with a text as pen diameter or dash ratio, sheets with a text as transparency, and for every footprint, setup, board and schematic that contains such an item. Which expressions can be loaded but not saved is characterised exactly, by a condition on the expression in the file: for each of these classes an object that was loaded can be saved if and only if the expression meets the condition.)", "quantifier": "all input expressions, all layout arguments", "why_tests_cant": "Loading accepts arbitrary trees with items missing, repeated or in any order; tests load well-formed files only.", "anchors": ["src/kiutils/items/schitems.py:47-89", "src/kiutils/items/schitems.py:447-502", "src/kiutils/items/zones.py:553-657", "src/kiutils/items/dimensions.py:262-338", "src/kiutils/dru.py:71-120", "src/kiutils/items/common.py:660-715"]}
{"id": "C48", "title": "What is written is the documented format", "statement": "For every class and every well-formed object, parse_sexp of the text of to_sexpr is exactly the tree that the description of the file format assigns to the object: every attribute under its token, in the right place and order, optional parts present exactly when set, numbers as numbers and texts as texts. (Round trips alone would also hold for a writer and reader that agree on a wrong format.)", "quantifier": "all well-formed objects of all classes, all layout arguments", "why_tests_cant": "Tests compare the text of a few recorded files; optional parts occur in exponentially many combinations with unbounded texts and numbers.", "anchors": ["src/kiutils/items/*.py: to_sexpr", "src/kiutils/board.py:243-323", "src/kiutils/schematic.py:232-351", "src/kiutils/footprint.py", "src/kiutils/symbol.py"]}
{"id": "C49", "title": "Any layout of the documented format is loaded", "statement": "For every class and every well-formed object, every text of the tree of the object - any amount and kind of white space between tokens (directly after a number a blank or a closing bracket, directly after a quoted text white space or a closing bracket, C92), words quoted or bare, numbers in any notation that is read as that number (1.5, 1.50, +1.5) - is loaded by parse_sexp and from_sexpr as an object equal to the original (files written by hand or by other programs, not only by to_sexpr).", "quantifier": "all well-formed objects of all classes, all texts of their trees", "why_tests_cant": "There are infinitely many layouts of each of infinitely many trees.", "anchors": ["src/kiutils/utils/sexpr.py", "src/kiutils/items/*.py: from_sexpr"]}
{"id": "C50", "title": "Numbers with a fixed number of decimals are rounded correctly and survive", "statement": "Where a number is written with a fixed number of decimals (dash and gap ratio and pen diameter of plot settings: six; opacity of a sheet's fill: four), the text is the exact value of the float rounded to that many decimals, ties to even, with exactly that many digits behind the point. Loading gives the same number if and only if the float is the one nearest to a number with that many decimals (below 2^52 units of the last decimal). A text in the place of such a number is written as the number that it denotes by the grammar of float(), any other text raises ValueError.", "quantifier": "all finite floats, all numbers of decimals up to 250, all well-formed plot settings and sheets", "why_tests_cant": "There are 2^64 floats; rounding errors show only at ties and at the edges of binades.", "anchors": ["src/kiutils/items/brditems.py: PlotSettings.to_sexpr", "src/kiutils/items/common.py:184-202", "src/kiutils/items/schitems.py: HierarchicalSheet.from_sexpr"]}
{"id": "C51", "title": "Numbers keep their digits", "statement": "A number in the usual notation (digits 0-9, no plus sign, no superfluous zeros, not -0) with at most fifteen significant digits and, if it has decimals, at least 0.0001 in absolute value, is written by to_sexpr exactly as it was read by parse_sexp, character for character. Loading and saving a file does not change such numbers, so that a comparison of two versions of a file shows only real changes.", "quantifier": "all numbers in usual notation of up to fifteen digits, lists of them of any length", "why_tests_cant": "There are more than 10^15 such numbers, and each goes through binary floating point.", "anchors": ["src/kiutils/utils/sexpr.py:8-43", "src/kiutils/items/*.py: to_sexpr"]}
{"id": "C52", "title": "The default time stamp of a footprint survives saving and loading", "statement": "A footprint that is created without a time stamp gets the time of the import of the module as its hexadecimal digits, in small letters, without prefix and leading zeros. Saving such a footprint and loading the file gives a footprint with the same time stamp.", "quantifier": "all times, all well-formed footprints, all values for indentation and layout", "why_tests_cant": "Whether it holds depends on the second at which the module was imported: it fails exactly in those seconds whose hexadecimal digits contain no letter, about one in forty.", "anchors": ["src/kiutils/footprint.py:729", "src/kiutils/utils/strings.py:25-36", "src/kiutils/utils/sexpr.py:8-43"]}
{"id": "C53", "title": "Which words of digits are kept", "statement": "An entry of a file whose value is a word of digits (time stamp, identifier, version) is written with the same digits after loading if and only if the word has no leading zeros and the number is a double, that is a number below 2^53 times a power of two.", "quantifier": "all words of digits, all keywords", "why_tests_cant": "The exceptions are leading zeros and numbers beyond 2^53 that no double represents; no finite sample shows that there are no others.", "anchors": ["src/kiutils/utils/sexpr.py:8-43", "src/kiutils/footprint.py:729"]}
{"id": "C54", "title": "Objects are independent: editing one never changes another", "statement": "Two objects that were created or loaded separately share no list, dict or nested object: whatever a user does to the one (setting attributes, appending to lists, at any depth) leaves everything that can be read from the other as it was. Loading and creating change no object that existed before. (Violated by NetclassFlag: the default of its position is the class Position itself, so that moving one flag without a position moves all of them.)", "quantifier": "all heaps, all sequences of loads, constructor calls and edits, all attribute paths", "why_tests_cant": "Sharing shows only when two objects exist and one is edited; there are 113 classes and unboundedly many sequences of edits.", "anchors": ["src/kiutils/items/schitems.py:1848-1851", "src/kiutils/*.py: dataclass fields"]}
{"id": "C55", "title": "Floats are written with the fewest digits that denote them", "statement": "The text that to_sexpr writes for a finite float is a decimal literal which Python's float() reads as that float. No decimal literal that float() reads as that float, in whatever notation, has fewer significant digits; and no literal with as few digits has a value nearer to the float.", "quantifier": "all finite floats, all texts that float() accepts", "why_tests_cant": "There are 2^64 doubles and infinitely many literals for each; the exceptional cases are at powers of two, where the neighbours are at different distances.", "anchors": ["src/kiutils/items/common.py:122-135 and every other f-string with a number", "src/kiutils/utils/sexpr.py"]}
{"id": "C56", "title": "No text makes the reader hang", "statement": "Splitting a text into tokens with the regular expression of the reader takes a number of back-tracking steps that is at most quadratic in the length of the text, whatever the text is; setting a library id, with the regular expressions of the setters, too. The quadratic bound of the reader is attained on blanks.", "quantifier": "all texts", "why_tests_cant": "Catastrophic back-tracking shows only on texts made for it; measuring the time of samples says nothing about the others.", "anchors": ["src/kiutils/utils/sexpr.py:9-16", "src/kiutils/symbol.py:267-275", "src/kiutils/footprint.py:698", "src/kiutils/items/schitems.py:996"]}
{"id": "C57", "title": "An edit shows only in the lines of the edited items", "statement": "If items of a list are edited, inserted or removed and the object is saved again, the saved text changes only in the text of these items: there are texts before and behind that stay the same, and what is between them is the concatenation of the texts of the items, each at the indentation of its container. For the lists whose items are written on lines of their own (footprints, tracks, symbols, pins, nets, rules, ...), these are whole lines: a diff of the two files shows the lines of the edited items and no others. The stretch of edited items is not empty before and after the edit (removing the last item of a list may remove a blank line or a bracket more).", "quantifier": "all objects, all lists of all classes, all edited stretches, all indentations", "why_tests_cant": "A diff test checks one edit of one file; the claim is for every list of every class at every position.", "anchors": ["src/kiutils/board.py:243-323", "src/kiutils/schematic.py:232-351", "src/kiutils/footprint.py:1009-1097", "src/kiutils/symbol.py:443-480", "every to_sexpr with a loop over a list"]}
{"id": "C58", "title": "Exactly when from_file succeeds", "statement": "For each of the seven file classes, from_file(path, encoding) never changes the file system. It returns an object if and only if the path names a file which can be read, whose bytes are valid in the encoding (the platform's if none is given), and whose text, with \\r\\n and \\r read as \\n, is accepted by parse_sexp and from_sexpr; the object is then what from_sexpr returns, with the path stored (except for footprints). Otherwise it raises: Exception if the path is not a file, OSError if it cannot be read, ValueError if it cannot be decoded, and for a malformed text what the parser or from_sexpr raises. A property, comment or pin whose key is a list is never accepted, wherever in the file it is.", "quantifier": "all file systems, paths, encodings, platforms, file contents", "why_tests_cant": "Permissions, encodings, line ends and malformed contents combine without limit; a test tries a few files.", "anchors": ["src/kiutils/board.py:149-171", "src/kiutils/dru.py:240-264", "src/kiutils/footprint.py:912-935", "src/kiutils/libraries.py:143-165", "src/kiutils/schematic.py:174-196", "src/kiutils/symbol.py:503-525", "src/kiutils/wks.py:889-911", "src/kiutils/items/common.py:767"]}
{"id": "C59", "title": "A malformed part is never overlooked", "statement": "from_sexpr accepts a list of children if and only if it accepts each child alone (and the list without children): a bad child makes the load fail wherever it stands and whatever else is in the file, and children that are acceptable alone are acceptable together. A child that holds a nested object is acceptable alone if and only if the class of the nested object accepts it; so a file is accepted only if all nested objects are, at every depth.", "quantifier": "all classes with a loop over children, all lists of children, all nested classes", "why_tests_cant": "Tests with malformed files cover a few malformations at a few places; that no other place swallows errors, and that no combination of good parts is rejected, is a statement about all files.", "anchors": ["src/kiutils/board.py:117-145", "src/kiutils/schematic.py:128-170", "src/kiutils/footprint.py:840-910", "src/kiutils/symbol.py:358-408", "every from_sexpr with a loop over its list"]}
{"id": "C60", "title": "What a file does not mention has the documented default", "statement": "A list whose children all have tokens that the class does not know is loaded as the default object of the class body, whatever and how many the children are; only what is read from fixed places of the list differs. A new object has the same attributes. (Together with C37: an attribute whose token is missing has this value whatever else the list contains.)", "quantifier": "all classes, all attributes, all lists of unknown children", "why_tests_cant": "Tests check the defaults of a few classes on files without the tokens; the claim is about all files that lack them, and the defaults of over 700 attributes.", "anchors": ["the class bodies of all dataclasses in src/kiutils"]}
{"id": "C61", "title": "Opening a file and saving it keeps its content", "statement": "If a text in the documented format of a class, in whatever layout, is loaded and saved again, the text that is saved has the same content: parse_sexp reads both as the same tree of lists, words and numbers. The only exceptions: every junction of a schematic loses its diameter, and the plot settings of a board lose useauxorigin; then nothing but these two values changes. (Sheets: the alpha of the fill colour must have at most four decimals, see C21.)", "quantifier": "all classes with a text of their own, all texts of all well-formed trees, all indentations", "why_tests_cant": "Tests compare a few files before and after; that no token, flag or number is lost, moved or altered is a statement about all files, all combinations of tokens and all layouts.", "anchors": ["every from_sexpr and to_sexpr in src/kiutils", "src/kiutils/items/schitems.py:36-80", "src/kiutils/items/brditems.py:400-580"]}
{"id": "C62", "title": "Saved texts contain only printable ASCII, line feeds and the characters of the object's own strings", "statement": "Whatever object is saved, every character of the text that to_sexpr returns is a printable ASCII character, a line feed, or a character that occurs in one of the strings among the attributes of the object (or of an object in it). So a text has tabs, carriage returns, NULs or non-ASCII characters only if the user's strings have them, and whether it can be encoded depends on these strings alone.", "quantifier": "all classes with a to_sexpr method, all objects (well-formed or not), all indentations", "why_tests_cant": "Tests save objects with a few strings; that no number format, no missing value and no rarely written token ever brings in another character is a statement about all attribute values.", "anchors": ["every to_sexpr in src/kiutils", "src/kiutils/utils/strings.py:13-22"]}
{"id": "C63", "title": "Loading invents no text", "statement": "Whatever a file contains, as long as it is accepted: every string among the attributes of the loaded object (or of an object in it) is a contiguous part of a string of the parsed expression, hence stands in the file (up to the backslashes before quotation marks), or it is one of a short list of default texts of the classes. The only exceptions: the edit time of a footprint without one comes from the clock, and a footprint whose name is given as a list instead of a word gets the printed form of this list as its name.", "quantifier": "all classes with from_sexpr, all values of parse_sexp (well-formed or not), all files", "why_tests_cant": "Tests compare the attributes of a few loaded files; that no branch of any loader ever mixes in a text from elsewhere (a wrong default, a mangled or concatenated string) is a statement about all inputs, including malformed ones.", "anchors": ["every from_sexpr and from_file in src/kiutils", "src/kiutils/utils/sexpr.py:8-43"]}
{"id": "C64", "title": "What was loaded in an encoding can be saved in it", "statement": "If a file is loaded in some encoding, the object can be saved in the same encoding: saving never fails because a character cannot be encoded, whatever the file contained. This holds for every encoding that works character by character and has the printable ASCII characters and line ends, such as ASCII, Latin-1 and UTF-8. (WorkSheet.to_file has no encoding argument: there it holds for the encoding of the platform.)", "quantifier": "all seven file classes, all files that load, all platforms, all file systems in which the target can be opened, all encodings of this kind", "why_tests_cant": "It needs that neither loading nor saving ever brings in a character that the file did not have: a statement about all branches of all loaders and writers and all contents.", "anchors": ["from_file and to_file of the seven file classes", "every from_sexpr and to_sexpr in src/kiutils"]}
{"id": "C65", "title": "Opening a file and saving it in place keeps what it says", "statement": "A file whose text is in the documented format of a file class, in any layout and in any encoding that works character by character, is opened with from_file, and the object is saved with to_file() without a path, on any platform with the same encoding. Then both calls succeed, no other file changes, and the file can be read again and says the same as before: parse_sexp gives the same tree. The exceptions: junctions lose their diameter (C22), plot settings of boards lose useauxorigin (C40), for footprints the path has to be given (C27), and work sheets can be saved only in the encoding of the platform (C44).", "quantifier": "all seven file classes, all well-formed objects, all layouts of their text, all encodings of this kind, all platforms (line ends, portions of output), all file systems in which the file can be read and written", "why_tests_cant": "It combines reading, decoding, parsing, loading, writing, line ends and encoding for all contents; tests see single files on one platform.", "anchors": ["from_file and to_file of the seven file classes", "every from_sexpr and to_sexpr in src/kiutils", "src/kiutils/utils/sexpr.py:8-43"]}
{"id": "C66", "title": "Opening and saving a second time changes no byte", "statement": "If a file in the documented format was opened and saved in place, opening it again gives an equal object (the very same attributes), and saving this object again leaves every byte of the file as it is. So a tool that opens and saves a file changes it at most once.", "quantifier": "as C65", "why_tests_cant": "Byte-for-byte stability for all contents, layouts, encodings and platforms.", "anchors": ["from_file and to_file of the seven file classes", "every from_sexpr and to_sexpr in src/kiutils"]}
{"id": "C67", "title": "What can be saved and loaded again depends only on the strings of the object", "statement": "Take any well-formed object of a file class whose strings, anywhere among its attributes, have only characters of the encoding in use and no carriage returns. Then to_file(path) succeeds, and from_file(path) with the same encoding, on any platform, returns an equal object. No condition on the generated text is needed. The exceptions are those of C30: junctions lose their diameter (C22), sheets keep four decimals of the fill's alpha (C21), plot settings lose useAuxOrigin (C40), footprints do not get a filePath (C27).", "quantifier": "all seven file classes, all well-formed objects with such strings, all encodings that work character by character, all platforms, all file systems in which the path can be read and written", "why_tests_cant": "It ranges over all objects, strings and encodings; tests save a few objects in one encoding.", "anchors": ["from_file and to_file of the seven file classes", "every from_sexpr and to_sexpr in src/kiutils"]}
{"id": "C68", "title": "Different objects have different texts", "statement": "If the texts that to_sexpr writes for two well-formed objects of a class are the same, or mean the same to parse_sexp although their layout differs, then the objects are equal (attributes that are not part of the text left out, as in C13-C20 and C41). So no two different objects are saved as the same file, and no edit that leads from one well-formed object to another is lost silently.", "quantifier": "all classes with a to_sexpr, all pairs of well-formed objects, all values of the indent and newline arguments", "why_tests_cant": "It is a statement about all pairs of objects; tests compare single objects with recorded texts.", "anchors": ["every to_sexpr in src/kiutils"]}
{"id": "C69", "title": "New objects have the documented defaults and share nothing", "statement": "Calling any dataclass of the package (but NetclassFlag, see C54, and ProjectInstance, which is abstract) without arguments makes an object that has exactly the documented attributes with the documented defaults, including those of the objects in it; the object, its lists and dicts and the objects in it did not exist before, no two of its attributes lead to the same list, dict or object, and nothing that existed before has changed.", "quantifier": "all dataclasses but NetclassFlag and the abstract ProjectInstance, all states of the program (heaps)", "why_tests_cant": "Tests look at single objects; that a default is not shared with any other object of any state, or between two attributes, is a statement about all states. Mutable defaults are the classic mistake here.", "anchors": ["src/kiutils: every @dataclass, in particular field(default_factory=...)"]}
{"id": "C70", "title": "Exactly which values can be written safely", "statement": "For each way in which values are written, exactly the following are read back by parse_sexp as the same value, whatever quoted text follows in the file. Without quotes, before a blank: ints that are plus or minus m*2^e with m < 2^53, floats that are zero or have 0.0001 <= |x| < 10^16, and words that are not empty, have no brackets, '^' or white space, do not look like a number, and do not begin with a quotation mark (unless another one, not behind a backslash and not at the end, follows in the word). At the end of a line: the same words, and words that look like numbers. Between quotation marks, escaped by dequote: texts that do not end in a backslash. Between quotation marks, not escaped: texts without quotation marks that do not end in a backslash. So the conditions under which objects survive saving and loading (C13-C20, C41) cannot be weakened.", "quantifier": "all ints, all doubles, all strings, all lists; all texts that follow", "why_tests_cant": "Both directions are statements about all values: that every value of the class survives before every text, and that every other value is misread before some text.", "anchors": ["src/kiutils/utils/sexpr.py:9-43", "src/kiutils/utils/strings.py:13-22"]}
{"id": "C71", "title": "Arguments of constructors set exactly the attributes meant", "statement": "Calling any dataclass of the package (but NetclassFlag, see C54, and ProjectInstance, which is abstract) with positional and keyword arguments makes a new object in which the i-th documented attribute holds the i-th positional argument, an attribute named by a keyword holds that argument (the very object passed, not a copy), and every other attribute has its documented default, made anew and shared with nothing; nothing that existed before has changed. A call with too many positional arguments, with a keyword that is not a documented attribute (such as libId, which is a property), or with two values for one attribute raises TypeError and makes nothing.", "quantifier": "all dataclasses but NetclassFlag and ProjectInstance, all states of the program, all lists of positional and keyword arguments", "why_tests_cant": "There are infinitely many argument lists for each of more than a hundred classes; whether an argument is shared, or a default is made anew, shows only in later changes of objects.", "anchors": ["src/kiutils/board.py:32-94", "src/kiutils/footprint.py", "src/kiutils/items/common.py", "src/kiutils/schematic.py:29-115", "src/kiutils/symbol.py", "src/kiutils/wks.py"]}
{"id": "C72", "title": "The indentation argument moves the whole text", "statement": "For every class, to_sexpr(indent=i+k) returns the text of to_sexpr(indent=i) with k more blanks in front of every line (or raises the same exception), if no string of the object contains a line feed; lines without any text may have any number of blanks. This is what the documentation of the argument `indent` promises. It does not hold for library tables with libraries, design rules, work sheet items with comments, symbol libraries, junctions without uuid, instance lists of schematics, fill segments with coordinates in zones, properties of boards, and render caches with more than one point per polygon, nor for anything that contains such an object; for those classes it holds for the remaining objects, and (for k > 0, if the object can be written) for no others.", "quantifier": "all objects of every class, all indentations i and k, both values of newline", "why_tests_cant": "to_sexpr is nearly always called with its default indentation, and a wrong indentation at one of some hundred places shows only for objects having that part", "anchors": ["src/kiutils/items/common.py: to_sexpr", "src/kiutils/libraries.py: LibTable.to_sexpr", "src/kiutils/dru.py: Rule.to_sexpr", "src/kiutils/wks.py: TbText.to_sexpr", "src/kiutils/board.py: Board.to_sexpr"]}
{"id": "C73", "title": "The newline argument adds exactly one line feed at the end", "statement": "For every class with the argument, to_sexpr(indent, newline=True) returns exactly the text of to_sexpr(indent, newline=False) followed by one line feed, or raises the same exception. Exceptions: polygons, filled polygons and fill segments of zones end with a line feed whatever the argument is, if they have points; nothing at all is written for default footprint attributes and for empty fonts of work sheet texts.", "quantifier": "all objects of every class, all indentations", "why_tests_cant": "the argument is left at its default nearly everywhere, and the end of the text depends on which parts the object has", "anchors": ["src/kiutils/items/common.py: to_sexpr", "src/kiutils/items/zones.py: ZonePolygon.to_sexpr", "src/kiutils/footprint.py: Attributes.to_sexpr"]}
{"id": "C74", "title": "The example programs of the documentation do what they are meant to do", "statement": "The example programs in docs/usage are run on any file that holds a well-formed object, in any layout. Loading a board and saving it, or creating a board and saving it, leaves a file holding the same (or the new) board. The program adding a footprint leaves a file holding the board with exactly that footprint added at the end, at the given position and with the new reference text in every text item of type reference, everything else unchanged. The program adding vias ends although it appends to the list it is looping over, and leaves a file holding the board with exactly two vias per segment, in the order of the segments, after all other trace items; if the calculation of the coordinates fails for one segment, the file is not touched. The program changing the title leaves a file holding the schematic with the two changed fields; a schematic without title block makes it fail with AttributeError and leaves the file alone. The program adding a symbol leaves a file holding a new schematic with exactly the first library symbol of the right name and one placed instance; if there is none, it fails and writes nothing. In all cases no other file changes. Two things are lost on the way as always: the plot setting useauxorigin and diameters of junctions.", "quantifier": "all well-formed boards, footprints, schematics and libraries, all layouts of their files, all text encodings that are lawful and work character by character, all functions calculating the coordinates of vias", "why_tests_cant": "the examples are not executed by any test, and a test would run them on a handful of files", "anchors": ["docs/usage/examples.rst: 13-147", "docs/usage/getting-started.rst: 47-59", "src/kiutils/board.py: Board", "src/kiutils/schematic.py: Schematic", "src/kiutils/symbol.py: SymbolLib"]}
{"id": "C75", "title": "What opening a file and saving it does to any file", "statement": "Let any file be opened with from_file and the object be saved with to_file, without a new path and in the same encoding. Exactly one of three things happens. If the file cannot be loaded, there is an exception and no file changes. If it can be loaded and meets a condition on its content, it is replaced by the text of the object and nothing else changes. If it can be loaded and does not meet the condition, there is an exception, the content of the file is lost (it is empty afterwards), and no other file changes. The condition is given explicitly for boards (BoardFine) and schematics (SchematicFine); library tables, symbol libraries, design rules and worksheets are never lost. For footprints there is always an exception, and no file ever changes.", "quantifier": "all contents of the file, including malformed and undecodable ones, all file systems, all encodings that are lawful and work character by character", "why_tests_cant": "tests save files that KiCad has written; data is lost with files from other sources, with some items missing", "anchors": ["src/kiutils/board.py:149-171", "src/kiutils/board.py:223-241", "src/kiutils/schematic.py:174-230", "src/kiutils/footprint.py:912-935", "src/kiutils/footprint.py:989-1007"]}
{"id": "C76", "title": "Expressions that say the same are loaded as the same object, at any depth", "statement": "Take two expressions of the same kind (a board, a footprint, a pad, a text, ...) such that one can be made of the other by adding and removing children with unknown tokens, and by changing the order of children that do not depend on each other, any number of times and at any depth within the expression. Then from_sexpr gives the same object for both, or raises an exception for both. Consequently, when a file is loaded that says the same as the text of an object and has unknown tokens anywhere in addition, and is saved again, the unknown tokens are gone and everything else is as in the text of that object.", "quantifier": "all pairs of expressions of the 96 kinds of expressions with children, all differences of that form at any depth, all objects for the consequence", "why_tests_cant": "a file can have unknown tokens in any of infinitely many places; tests add one token in one place", "anchors": ["src/kiutils/board.py:120-147", "src/kiutils/footprint.py:505-548", "src/kiutils/items/common.py:857-860", "src/kiutils/items/schitems.py:1390-1431", "src/kiutils/symbol.py:359-409"]}
{"id": "C77", "title": "Equal objects are saved as the same content", "statement": "If two well-formed objects of a class compare equal with Python's == (file paths left out; for dicts with their entries in another order, which are equal for Python, see C87), the texts that to_sexpr writes for them mean the same to parse_sexp, whatever the arguments for the layout - although the texts themselves may differ: 1 and 1.0, or 0.0 and -0.0, are equal and written differently. Together with C68: two objects are saved as the same content exactly when they are equal (up to the two attributes that are lost on loading, C22 and C40).", "quantifier": "all pairs of well-formed objects of every class, all indents and newline settings", "why_tests_cant": "a writer may treat equal values differently (it may test for the type, or for the truth of a value), and a test compares few pairs", "anchors": ["src/kiutils/items/common.py:122-131", "src/kiutils/items/brditems.py:819-833", "src/kiutils/utils/sexpr.py:18-43"]}
{"id": "C78", "title": "What is rounded when it is saved is rounded only once", "statement": "The opacity of the fill of a sheet is written with four decimals once the sheet has been loaded, and the dash ratios and the pen diameter of plot settings with six. Any finite number may be rounded by the first such saving; the number that is loaded then is written without loss, so that further saving and loading never changes it again (no drift). For every well-formed sheet or schematic, whatever the opacities are, the object after two loads is a fixed point of saving and loading, and differs from the object after one load exactly in the opacities, which are rounded to four decimals. Plot settings (and boards) with any finite ratios and pen diameter come back with those numbers rounded to six decimals and do not change any more.", "quantifier": "all finite doubles and all numbers of decimals; all well-formed sheets, schematics, plot settings and boards; any number of further savings", "why_tests_cant": "rounding to decimals and reading them as the nearest double are two roundings, and whether they can push a number further at each round depends on the number: there are 2^64 doubles", "anchors": ["src/kiutils/items/common.py:184-202", "src/kiutils/items/schitems.py:1417-1421", "src/kiutils/items/brditems.py:600-654"]}
{"id": "C79", "title": "Pads with any hole keep the content of the file", "statement": "KiCad writes round holes with an offset, as in (drill 1 (offset 0.2 0)). The loader stores that offset twice, once by mistake as the width (C42). The file is not harmed: any text of a pad, footprint or board in the documented format, with oval or round holes and with or without offsets, is loaded and saved again with the same content (boards: except the flag useauxorigin, C24). The loaded object differs from the intended one exactly in the widths of the round holes with an offset, and after the first load nothing changes any more.", "quantifier": "all pads, footprints and boards whose other parts are well-formed, with any holes; all texts of their trees in any layout; all indentations", "why_tests_cant": "tests compare files of a few pads; that the wrong attribute never reaches the file, for any combination of holes in any footprint of a board, is a statement about all of them", "anchors": ["src/kiutils/footprint.py:240-294", "src/kiutils/footprint.py:480-660", "src/kiutils/footprint.py:841-1098", "src/kiutils/board.py:97-323"]}
{"id": "C80", "title": "Footprints in the form of KiCad 5 are kept", "statement": "Files of KiCad 5 call a footprint 'module'. Whatever follows, from_sexpr reads such a footprint like one of today's form, and saving it writes today's form with the same content otherwise. The same should hold for the footprints in a board. (Violated: Board.from_sexpr does not know 'module' and loads a board as if these footprints were not there, without an exception; saving the board then deletes them. Also, a name of digits without quotation marks is kept only if it has no leading zeros and denotes a double: (module 0805 ...) becomes \"805\".)", "quantifier": "all lists of children; all footprints whose parts are well-formed; all boards; all names of digits", "why_tests_cant": "the one test of the repository has one module file with a name that happens to survive; that boards lose every module, whatever it is, is a statement about all boards", "anchors": ["src/kiutils/footprint.py:671-704", "src/kiutils/footprint.py:841-910", "src/kiutils/board.py:97-146"]}
{"id": "C81", "title": "Texts ending in a backslash are kept if no text begins with white space or a closing bracket", "statement": "Quoted texts are written without escaping backslashes, so a text that ends in a backslash, such as the path C:\\lib\\, hides its own closing quotation mark, and the reader decides by what follows whether the text goes on (C04). If no text of an object begins with white space or a closing bracket, and words written without quotation marks contain none, then every design file object (board, footprint, schematic, symbol library, worksheet, library table, design rules) whose texts end in any number of backslashes is read back equal after saving, directly and through a file; and a file in the documented format with such texts, in any layout, is loaded as the object it describes and keeps its content when it is opened and saved in place (up to what C17, C19, C61 and C65 say of schematics and boards). The condition cannot be left out: a property whose name ends in a backslash and whose value begins with white space or a closing bracket is never read back equal.", "quantifier": "all objects that are well-formed apart from the ends of their texts, all indentations, all layouts of such files, all files and encodings that can represent the text", "why_tests_cant": "the reader searches from each such quotation mark through the rest of the file for one that may close the text, so whether one text is read back depends on all texts that come after it; tests have a few texts in a few places", "anchors": ["src/kiutils/utils/sexpr.py:9-16", "src/kiutils/utils/sexpr.py:18-43", "src/kiutils/utils/strings.py:13-22", "src/kiutils/items/common.py:863-886"]}
{"id": "C82", "title": "Saving in place a file with unknown tokens removes them and nothing else", "statement": "Take the text of a board, footprint, schematic, symbol library, worksheet, library table or design rules file in the documented format, add children with unknown tokens anywhere in it and change the order of children that do not depend on each other, at any depth and in any layout. If such a file is opened with from_file and saved in place with to_file, the calls succeed, no other file changes, and the file then has exactly the content of the documented text: the unknown tokens are gone and everything else is kept. Opening it once more gives the same object, and saving that changes no byte. Exceptions: the diameters of junctions in schematics and useauxorigin in boards are lost (C22, C40), and a footprint has to be saved with its path given (C27).", "quantifier": "all well-formed objects (for footprints and boards with any offsets of round holes), all files whose expression says the same, all places, orders and layouts, all encodings that work character by character and can represent the text, all other files", "why_tests_cant": "unknown tokens can be in infinitely many places of infinitely many files; a test has one file with one token, and usually compares objects instead of what is left on disk", "anchors": ["src/kiutils/board.py:120-147", "src/kiutils/board.py:150-172", "src/kiutils/board.py:223-241", "src/kiutils/footprint.py:841-911", "src/kiutils/schematic.py:118-173", "src/kiutils/schematic.py:212-230", "src/kiutils/utils/sexpr.py:18-43"]}
{"id": "C83", "title": "Stray text in a file is noticed, such as an unresolved merge conflict", "statement": "A file that contains text where none belongs should not be loaded as if nothing were wrong. Text in front of the expression (after white space), such as a word or a byte order mark, is noticed: from_file of every kind of design file raises an exception and changes nothing. A number among the children of the expression is noticed by all of them except footprints. (Violated otherwise: words among the children make no difference at all to from_sexpr, so a file in which git has left the marks of an unresolved merge conflict, <<<<<<<, ======= and >>>>>>> with the names of the versions, is loaded without an exception as if it contained the items of both versions. Footprints ignore numbers too; there the only words looked at are locked and placed. Text after the expression is ignored as well, C07.)", "quantifier": "all boards, footprints, schematics, symbol libraries, worksheets, library tables and design rules; all children before, in and after the conflict; all names of versions; all layouts, files and encodings; all words in any places", "why_tests_cant": "a test has one conflict in one file; that no word anywhere among the children is ever noticed, and that any text in front always is, are statements about all files", "anchors": ["src/kiutils/board.py:97-147", "src/kiutils/footprint.py:841-911", "src/kiutils/schematic.py:118-173", "src/kiutils/symbol.py:528-552", "src/kiutils/wks.py:858-915", "src/kiutils/libraries.py:117-141", "src/kiutils/dru.py:211-262", "src/kiutils/utils/sexpr.py:18-43"]}
{"id": "C84", "title": "Items can be chosen from two files and put together", "statement": "A program opens two design files of the same kind with from_file, replaces each list of items of the first object by any selection of the items of both (any order, repetitions allowed: this covers deleting, sorting, copying and merging), and saves the first object with to_file. It ends without an exception, changes no other file, and the first file then has exactly the content it had, with the chosen items in the chosen order, whatever the layouts of the two files were. Exceptions: diameters of junctions and useauxorigin are lost (C22, C40); for footprints the path has to be given again (C27).", "quantifier": "all pairs of files in the documented format (boards, footprints, schematics, symbol libraries, worksheets, library tables, design rules), in any layout; all selections of their items, all kinds of items at once; all encodings of the platform that work character by character and can represent the texts; all other files", "why_tests_cant": "there are infinitely many files and selections, and what a merge loses shows only in the file that is written, not in the objects", "anchors": ["src/kiutils/board.py:97-241", "src/kiutils/footprint.py:841-1097", "src/kiutils/schematic.py:118-230", "src/kiutils/symbol.py:504-590", "src/kiutils/wks.py:858-960", "src/kiutils/libraries.py:117-200", "src/kiutils/dru.py:211-315"]}
{"id": "C85", "title": "What is loaded depends only on the file, not on the time", "statement": "Loading the same footprint or board file twice should give equal objects, whenever the program was started, and opening and saving a file should not write the time into it. This holds for footprints with a time stamp (tedit) and for boards all of whose footprints have one; for every board, everything but the time stamps of its footprints, and whether it can be loaded, is independent of the time. (Violated otherwise: a footprint without tedit, as in all files of newer versions of KiCad, gets the time at which the module was imported. Objects loaded at different times are never equal, and opening and saving such a file adds the time of the import to the footprint, or to each footprint of a board without one.)", "quantifier": "all expressions, all times of import, all well-formed footprints and boards, all layouts, files and encodings; in the last sentence, times whose hexadecimal digits contain a letter (C52)", "why_tests_cant": "a test runs in one process, in which the default time stamp is a constant: it compares two objects with the same time and sees no difference", "anchors": ["src/kiutils/footprint.py:729", "src/kiutils/footprint.py:841-911", "src/kiutils/footprint.py:1034", "src/kiutils/board.py:97-147"]}
{"id": "C86", "title": "Symbols and footprints can be put into files of another kind", "statement": "Opening a schematic and a symbol library, replacing the library symbols of the schematic by any selection of those of both, in any order, and saving it leaves a schematic file with the same content in which the library symbols are exactly the selected ones; likewise symbols of a schematic put into a library, and a footprint from a footprint file put among those of a board. Saving a footprint of a board to a path of its own leaves a footprint file with exactly that footprint. No other file is changed and no exception is raised. (What loading forgets is lost as well: diameters of junctions, C22, and useauxorigin, C40.)", "quantifier": "all well-formed schematics, symbol libraries, footprints and boards, all selections, all layouts of the two files, all files, paths and usual encodings", "why_tests_cant": "a test moves one item between two files; that the form in which an item is written never depends on the kind of file it came from is a statement about all items", "anchors": ["src/kiutils/schematic.py:118-173", "src/kiutils/schematic.py:212-351", "src/kiutils/symbol.py:528-552", "src/kiutils/symbol.py:555-592", "src/kiutils/board.py:97-147", "src/kiutils/footprint.py:841-911", "src/kiutils/footprint.py:989-1097"]}
{"id": "C87", "title": "The order of the entries of a dict is kept in the file and means nothing else", "statement": "Two objects that are equal except that the entries of their dicts (properties of boards and footprints, comments of title blocks, pins of symbols in schematics) were inserted in another order, which makes no difference for ==, are written as texts that parse_sexp reads as the same lists except for the order of neighbouring entries of these dicts, also inside the footprints and symbols of a file. The objects loaded from the two texts again differ only in the order of their dicts, so they are equal. The order is not lost: texts that mean the same belong to objects whose dicts have the same order.", "quantifier": "all well-formed title blocks, footprints, symbols in schematics, boards and schematics, all orders of their dicts, all indents and newline settings", "why_tests_cant": "a test has a dict with few entries in one order; a writer or reader could make something else depend on the order, such as the entry that wins if a key occurs twice", "anchors": ["src/kiutils/board.py:61", "src/kiutils/footprint.py:746", "src/kiutils/items/common.py:737", "src/kiutils/items/schitems.py:1047"]}
{"id": "C88", "title": "Programs that save the same file at the same time leave one of the versions", "statement": "If several programs run to_file on the same path at the same time, in any order of their steps, then loading the file afterwards should raise an exception or give what loading the file would give if only one of them had saved it. This holds for six of the seven kinds of files if each program's bytes reach the file at once: the version is then that of the program which wrote last, and if its bytes are not fewer than those of the others the file is exactly this version. (Violated by design rules: the rest of a longer file behind a shorter one is read as more rules, and the loaded rules are a mixture which nobody saved. Violated by all kinds if the bytes reach the file in portions: the file can hold the first part of one version and the second part of the other, and be loaded without an exception.)", "quantifier": "any number of well-formed objects, all orders of the steps, all old contents, all encodings in which more bytes behind a text do not change the text (UTF-8 and Latin-1 are proved to be such), line ends of all platforms", "why_tests_cant": "the order of the steps of several processes is not under the control of a test, and there are exponentially many", "anchors": ["src/kiutils/libraries.py:179-197", "src/kiutils/dru.py:240-293", "src/kiutils/wks.py:925-941", "src/kiutils/symbol.py:555-573", "src/kiutils/schematic.py:212-230", "src/kiutils/footprint.py:989-1007", "src/kiutils/board.py:223-241"]}
{"id": "C89", "title": "A file that is cut off is rejected or complete", "statement": "If only the beginning of a file is left (the disk was full, the program was stopped while saving, a copy was interrupted), then from_file of what is left should raise an exception or return the same object as from_file of the complete file. This holds for library tables, worksheets, symbol libraries, schematics, footprints and boards, however they were written, if no text in the file contains a closing bracket. (Violated by design rules: if the file is cut off between two rules, the rules behind are lost and nothing is noticed. If no text contains a bracket, a quotation mark or a backslash, that is all that can happen: what is left of a file with design rules is rejected or loaded as the first rules, each of them complete. Violated by texts with closing brackets: if the file is cut off inside the text behind enough of them, they close the lists that are open, and everything behind is lost.)", "quantifier": "all files that can be loaded, all places where they are cut off (also inside a character), all encodings in which the beginning of the bytes is the beginning of the text (UTF-8 and Latin-1 are proved to be such), all line ends; all objects and all numbers of steps of to_file, with and without a full disk", "why_tests_cant": "every place in every file is a place where it can be cut off, and the scanner of the library looks ahead, so that a token can be read differently if its end is missing", "anchors": ["src/kiutils/utils/sexpr.py:9-43", "src/kiutils/libraries.py:143-165", "src/kiutils/wks.py:889-911", "src/kiutils/symbol.py:503-525", "src/kiutils/schematic.py:174-196", "src/kiutils/footprint.py:912-935", "src/kiutils/board.py:149-171", "src/kiutils/dru.py:240-264"]}
{"id": "C90", "title": "Files put one behind the other: design rules are merged, of other kinds the first file counts", "statement": "Let a saved file be followed in one file by the bytes of any second file of the same kind that can be loaded. For design rules, from_file of the joined file returns all rules of the first file and then all rules of the second, in this order, with the version of the second; likewise for any number of files. For library tables, worksheets, symbol libraries, schematics, footprints and boards, from_file of the joined file returns the same object as from_file of the first file alone; no part of the second file changes or replaces a part of the first. For these kinds the second file can be any text: if its brackets balance (or it is empty), it is ignored; if they do not, from_file raises AssertionError.", "quantifier": "all well-formed objects that are saved as first file, all second files that can be loaded (also files the library has not written), all paths, file systems and line ends, all encodings in which bytes one behind the other are decoded as the texts one behind the other (UTF-8 and Latin-1 are proved to be such)", "why_tests_cant": "the scanner looks ahead, so the beginning of the second file could change how the end of the first is read; the claim is about all pairs of files", "anchors": ["src/kiutils/utils/sexpr.py:9-43", "src/kiutils/libraries.py:143-165", "src/kiutils/wks.py:889-911", "src/kiutils/symbol.py:503-525", "src/kiutils/schematic.py:174-196", "src/kiutils/footprint.py:912-935", "src/kiutils/board.py:149-171", "src/kiutils/dru.py:240-264"]}
{"id": "C91", "title": "Converting, moving or copying a file changes nothing of what is loaded", "statement": "If a file is converted to another encoding, to other line ends (LF, CRLF, CR or a mixture), moved to another path or opened on another computer, then from_file in the encoding of the file has the same outcome: the same object, except for the path it remembers, or the same exception. Nothing else has an influence: not the platform, not its own encoding if one is given, not the rest of the file system. Conversely an object without carriage returns is saved as the same text on every platform and in every encoding that can express it, up to line ends.", "quantifier": "all files, also those that are rejected; all pairs of platforms, encodings, paths and file systems; all mixtures of line ends; all objects whose text can be encoded", "why_tests_cant": "it is a claim about all pairs of byte sequences that decode to the same text; line ends can occur inside quoted texts, between tokens and at the end of numbers and words", "anchors": ["src/kiutils/utils/sexpr.py:9-43", "src/kiutils/libraries.py:143-165", "src/kiutils/wks.py:889-911", "src/kiutils/symbol.py:503-525", "src/kiutils/schematic.py:174-196", "src/kiutils/footprint.py:912-935", "src/kiutils/board.py:149-171", "src/kiutils/dru.py:240-264"]}
{"id": "C92", "title": "What follows a number or a quoted text does not change how it is read", "statement": "A number is read as a number, and a quoted text as the text between its quotation marks, whatever white space or bracket follows. This holds for numbers followed by a closing bracket or by white space that begins with a blank. (Violated: every number directly followed by a line break, a tab or another kind of white space, or by an opening bracket, is read as a text with the same characters, so that a position written on two lines has a text as a coordinate. Every quoted word directly followed by an opening bracket is read with its quotation marks as part of the text. No exception is raised.)", "quantifier": "all keywords, all number literals and all lists of them, any white space behind each; all quoted words", "why_tests_cant": "the look-ahead is part of the pattern and concerns every number in every layout; tests use files in the layout of KiCad", "anchors": ["src/kiutils/utils/sexpr.py:9-43", "src/kiutils/items/common.py:27-80"]}
{"id": "C93", "title": "Comments in a file of design rules are ignored", "statement": "A line of a .kicad_dru file that begins with # is a comment (so KiCad's rule editor writes and reads it): loading the file with DesignRules.from_file gives the same rules with and without it. This holds for comments that consist of plain words and stand behind the version. (Violated: every rule that is commented out on one line is loaded as an active rule; every comment with a number that has a blank behind it makes loading raise TypeError; every comment in front of the version makes loading raise an exception.)", "quantifier": "for all design rules, all rules that follow the comment, all comments of any number of words, all rules commented out in any layout, all numbers, all files, encodings and file systems", "why_tests_cant": "Whether a comment is harmless depends on its words, on the brackets and numbers in it and on where it stands; no finite set of comments settles it, and a rule that is active although it was commented out shows only in what is loaded.", "anchors": ["src/kiutils/dru.py:211-238", "src/kiutils/dru.py:240-264", "src/kiutils/utils/sexpr.py:9-43"]}
{"id": "C94", "title": "Texts with backslashes or line breaks are the same in the library as in KiCad", "statement": "KiCad writes quotation marks, backslashes and line breaks in quoted texts as \\\", \\\\, \\n and \\r, and reads them so. A text that is loaded from a file of KiCad is the text that KiCad shows, and a text that is assigned to an attribute and saved is shown by KiCad as it was assigned. This holds for texts without backslashes and line breaks. (Violated for all others: loading a text of KiCad with a backslash or a line break never gives this text, and what is saved for a text with a backslash never means this text in KiCad, for example the path of a library in a library table. What holds for all texts that do not end in a backslash: if the text is loaded and saved, the characters in the file stay the same.)", "quantifier": "for all texts, all kinds of white space behind them, all quoted texts that follow, all meanings of the letters behind a backslash", "why_tests_cant": "Exactly which texts mean the same on both sides, and that no other text does by chance, is a statement about all texts; tests check the library against itself, where both directions fit together.", "anchors": ["src/kiutils/utils/strings.py:13-22", "src/kiutils/utils/sexpr.py:9-43", "src/kiutils/libraries.py:75-100", "src/kiutils/items/common.py: Property.to_sexpr"]}
