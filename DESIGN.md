# Formal model of kiutils in Lean 4 — design

Source under study: `/repo` (mvnmgrx/kiutils), read as text only, never run. Model and proofs: `/verif/lean`.

* `properties.jsonl` – the properties in English.
* `MANIFEST.json` – status and exact theorem names per property.
* `seeded/LOG.jsonl` – wrong programs tried against the theorems (section 7).
* `validation/` – how the model was compared with recorded outputs of the real program (section 6).

## 1. What is modelled

Every function of `src/kiutils` is modelled. The clock is not: the time at the import of `footprint.py`, from which the default of
`Footprint.tedit` is computed, is an argument of `Footprint.defaultTedit` (`Model/Clock`).

| source | Lean |
|---|---|
| characters, `str.isdigit`/`\s` classes, decimal numerals | `Basic` |
| IEEE doubles: `float(text)`, `repr`, `is_integer`, `int`, `%.nf`/`round` formatting | `Float64` |
| `float(v)` of arbitrary texts and ints (`OverflowError`, `ValueError`), `f'{v:.nf}'`; proved equal to the grammar of Python's documentation with values | `FloatText`, `FloatGrammar` |
| values returned by `parse_sexp` (int, float, str, list), `str(v)`, `v == "…"`, `item[0]` | `Value` |
| `utils/sexpr.py` (pattern, token loop, stack machine), `utils/strings.py` (`dequote`) | `Sexpr` |
| exceptions (`PyM = Except PyErr`), loops (`forM`), f-strings | `Py` |
| `items/common.py` | `Model/Common` |
| `libraries.py`, `dru.py`, `wks.py` | `Model/Libraries`, `Model/Dru`, `Model/Wks` |
| `items/syitems.py`, `symbol.py` | `Model/SyItems`, `Model/Symbol` |
| `items/schitems.py`, `schematic.py` | `Model/SchItems`, `Model/Schematic` |
| `items/gritems.py`, `items/fpitems.py`, `items/zones.py`, `footprint.py` | `Model/GrItems`, `Model/FpItems`, `Model/Zones`, `Model/Footprint` |
| `items/brditems.py`, `items/dimensions.py`, `board.py` | `Model/BrdItems`, `Model/Dimensions`, `Model/Board` |
| the regular expressions behind the `libId` properties | `Model/LibId` |
| `from_file`, `to_file`, `filePath`, encodings, line ends, crashes while writing | `Model/Files` |
| several processes that run `to_file` on the same path | `Model/Shared` |
| constructors of all dataclasses but the abstract `ProjectInstance` (default factories), objects as references | `Model/Objects` |
| default time stamp, `remove_prefix`, `hex` | `Model/Clock` |
| example programs of docs/usage/examples.rst and getting-started.rst; the coordinates of the vias (examples.rst 90–96) are an arbitrary function | `Model/Examples` |

Layers on top of the model:

| purpose | Lean |
|---|---|
| lemmas about tokeniser and reader, literals | `SexprLemmas`, `Numbers` |
| theory of doubles: correct rounding, shortest `repr` reads back, 17 digits suffice, range of plain notation (uses Mathlib's ℚ) | `FloatRange` |
| conditions on fields (`NumOk`, `TextOk`, `WordOk`, …) and text combinators; rules for texts | `Fmt`, `TextRule` |
| the file format of each class: `X.toVal` (tree) and `X.WF` (conditions on the fields) | `Format/*` |
| lemmas about loops; post-conditions of loops | `Fold`, `Post` |
| per class: text of `to_sexpr` lexes to `toVal`; `from_sexpr (toVal o) = canon o` | `Proofs/*` |
| vocabulary for the dependence on items (`LastWins`, `Collected`, `Reordered` …), one lemma per class and field | `Tokens`, `Tracks/*` |
| `canon` keeps `WF`; `canon` is idempotent | `Stable`, `Proofs/Stable` |
| regular expressions of `re`: notation, back-tracking semantics, the patterns of the source as text; proof that the scanners of the model are these patterns | `Regex`, `Proofs/Regex`, `Props/Regex` |
| texts of trees in any layout; which characters and strings a text or an object has | `Texts`, `TextsOf`, `SameTreeAttr`, `Proofs/SameTree`, `Proofs/Chars`, `Proofs/Provenance`, `Proofs/Lines` |
| decimal digits of doubles: fixed notation, shortest notation, digits kept | `Proofs/FixedFormat`, `Proofs/Shortest`, `Proofs/Digits`, `Proofs/ReprShortest` |
| exchange of neighbouring children | `Swap` |
| **the property theorems** and their small specifications | `Props/*` |

Modelling conventions

* A Python `str` is `List Char` (Unicode scalar values; lone surrogates are not representable).
* A parsed value is `Val = int | flt | str | list`. Scalar attributes of the dataclasses have type `Val` (`Option Val` where
  Python allows `None`), because `from_sexpr` stores whatever the reader returned.
* Exceptions are values: `PyM α = Except PyErr α`, one constructor per Python exception class the code can raise.
* `for item in exp: if item[0] == …` is a monadic left fold whose step raises `TypeError` on numbers and `IndexError` on empty
  strings/lists exactly as `item[0]` does.
* Every definition cites the Python file and lines and states its simplifications.
* Python ≥ 3.11 (and patched older versions) refuses to convert between `int` and decimal text of more than 4300 digits
  (`ValueError`). This is not modelled: `str(n)` and `int(text)` are total. The reader is not concerned, as it goes through `float`;
  only a unit number in a symbol's `libId` with more than 4300 digits, and attributes that a user sets to such ints, are.
* Attributes hold what readers can put there and what type hints allow: `Val`, `None` where `Optional`, `bool` for flags, objects of the
  hinted classes. A user who stores something else (NaN, `None` or a `bool` in place of a number, an object of another class, a tuple)
  is outside the model.
* Objects are values except in `Model/Objects`, where they are references. That editing one object cannot change another, which the
  values presuppose, is C54 (with its exception, netclass flags). No reader changes its argument and no writer changes its object:
  there are no assignments to `exp`, `item` or `self` in them.

## 2. How round trips are proved

1. `toVal o` – the tree an object denotes, an independent description of the file format.
2. `lex (toSexpr o indent newline ++ rest) = tokens (toVal o) ++ lex rest`, compositional, for every indent, newline and rest.
3. The reader turns `tokens v` into `v` (induction on trees).
4. `fromSexpr (toVal o) = ok (canon o)`, by a fold argument, one lemma per field.
5. Together `parse_sexp (to_sexpr o) >>= from_sexpr = ok (canon o)`. `canon` only replaces an integral float by the equal int;
   `Props/Equal.lean` proves `canon o == o` for an independent definition of Python's `==` on all classes, and the property
   theorems are stated with that `==` (`Reloads`), not with `canon`.

Well-formedness (`WF`) is a condition on fields only: numbers are ints up to 2^53 or doubles that are zero or in
[0.0001, 10^16) (stated as: have a plain decimal notation; `C05_float_range` says which doubles that is), bare words contain no
blank, bracket, quote or `^`, quoted texts do not end in a backslash, and class-specific exceptions where the property is false.
The condition on texts is a parameter (`TextRule`) of `WF` and of the theorems C06, C12–C21, C24, C30, C38, C40, C41, C48, C49, C61, C65–C68, C76–C80; the default is the one
named. C81 uses another: texts may end in a backslash, but none begins with white space or `)`.
`Props/Samples.lean` has, for every class, a sample object with all optional parts present that meets the conditions.

## 3. Properties, model and method

| id | modelled | method, where |
|---|---|---|
| C01, C07 | tokeniser, stack machine | induction over tokens against a depth function with continuation; `Props/Text` |
| C02, C08 | tokeniser | pieces carry their source text; congruence lemmas; `Props/Text` |
| C03, C04 | `dequote`, `sq` alternative with look-behind and back-tracking | induction on the string; C04 describes every text that violates C03's side condition; `Props/Text` |
| C05, C45 | `num` alternative, doubles | arithmetic over ℚ: round-to-nearest is monotone and exact on doubles, 17 digits identify a double, position of the decimal point decides the notation; `FloatRange`, `Props/Numbers`, `Props/Text` |
| C06 | tokeniser, reader, arbitrary layout (`Prints`) | induction on trees; `Props/Text` |
| C09 | every `from_sexpr` | `Rejects`; case analysis on the value; `Props/Errors` |
| C10, C11, C36, C37 | the loops of all `from_sexpr` | each field is tracked through the loop: it depends only on the items with its tokens (`LastWins`, `Collected`, `FoldsTo`); reorderings that keep these sub-sequences cannot be noticed; `Props/Tokens*` |
| C12–C20, C41 | all classes | section 2; `Props/RoundTrip` |
| C21 | all classes | `Settles`: the loaded object is canonical, well-formed, and its text loads to itself; `Props/FixedPoint` |
| C22–C24, C35, C40, C42 | classes with defects | negation proved for all (or all affected) objects, the part that holds as `_partial`; `Props/Defects`, `Props/RoundTrip`, `Props/Zones` |
| C25, C26 | `libId` properties and setters | lazy groups as search functions, induction on the string; `Props/LibId` |
| C27–C30, C39, C44 | file system as state machine, encodings, chunks, crash points | invariants over steps and histories; `Props/Files`, `Props/Encoding` |
| C31 | `create_new` | instances of section 2 for all arguments; violations for version strings; `Props/CreateNew` |
| C32, C33, C34 | zones, stackup layers, page settings | case analysis, fold with accumulator; `Props/Zones` |
| C38 | all classes, all fields | `OnlyChanges`: set one field, save, load; all other fields equal the old, this one the new; `Props/Edit` |
| C46, C47 | every `to_sexpr` that can raise, `float()` | compositional equivalences for the monad; loop invariants and `last item wins` arguments for what was loaded; `Props/Saves`, `Proofs/FloatInt`; `Props/SavesFiles` gives the exact condition on the expression in the file for every class that can fail, up to boards and schematics; texts passed to `float()` by the grammar of `FloatGrammar` |
| C48, C49 | all classes, `Format/*` as specification | steps 2–4 of section 2, stated on their own; `Props/FileFormat` |
| C50 | `f'{x:.6f}'`, `f'{x:.4f}'` | exact arithmetic over ℚ: the digits are the double rounded half-even; decimals below 2^52 units are wider than doubles are dense; `Proofs/FixedFormat`, `Props/FixedFormat` |
| C51 | reading and `repr` of numbers | a double in the normal range is off by at most one part in 2^53, so decimals of up to 15 digits are told apart; texts in normal form are determined by their value; `Proofs/Shortest`, `Proofs/Digits`, `Props/Digits` |
| C52 | default of `Footprint.tedit`, `remove_prefix`, `hex` | digits by induction; a word with a letter is no number; a word of decimal digits is one, and `to_sexpr` writes both alike; `Props/TimeStamp` |
| C53 | `parse_sexp`, `str` of ints | a word of digits is kept iff it is the numeral of a double (`exactInt_iff`); `Props/TimeStamp` |
| C54 | constructors on a heap; readers and users as any code that holds references (`Runs`) | what code can reach is closed under its steps; the class table has only fresh factories but for one class; `Props/Objects` |
| C55 | `repr` of floats, `float()` | values read as the same double form an interval, which reaches at least as far up as down; hence the first of the nearest and the next higher decimal of k digits that is read back is the best, and if neither is, none is; texts by the grammar of `float()`; `Proofs/ReprShortest`, `Props/ReprShortest` |
| C56 | `term_regex` and the expressions of the `libId` setters, matched by an engine that counts its steps (one for each part of the expression that is tried at a position) | the engine finds what the back-tracking semantics finds; its steps are bounded by the work of following all alternatives, a sum over the ends of each repetition; lower bound by induction on blanks; `RegexSteps`, `Proofs/RegexSteps`, `Props/RegexSteps` |
| C57 | all lists of `to_sexpr` but those joined with separators (members of a bus alias, points of a render cache, layers of a zone) | the text of the list is found within the text of the object, between texts that do not depend on it; every item text ends a line, by its last part; one theorem per list; `Proofs/Lines`, `Props/Lines` |
| C58 | `from_file` of the seven classes; the dictionaries filled by loops | the result of reading is computed in each of the cases missing, forbidden, undecodable, decodable; text mode is specified by an inductive relation; a loop that succeeds has succeeded on every item; `Props/Loads` |
| C59 | the loops of all `from_sexpr` | whether a round of the loop succeeds does not depend on the object so far (`Same`), so success of the loop is success of each round; rounds of nested tokens compute to the loader of the nested class; `Props/ItemWise` |
| C60 | the class bodies, the loops of `from_sexpr` | the values are written down from the source of the classes and compared with the model by computation; unknown children leave the object unchanged, by induction; `Props/Defaults` |
| C61 | all classes with a text of their own | the tree of a text is loaded as `canon o` (C49), which is well-formed again (C21) and has the same tree (`Proofs/SameTree`, field by field), so its text has this tree (C48); `Props/Keeps` |
| C62 | all classes with `to_sexpr`, no hypotheses | `texts` (`Texts.lean`) collects the strings of an object field by field; a tactic follows the structure of each writer (`Proofs/Chars`); numbers: digits of `repr` and of the fixed formats; `Props/Chars` |
| C63 | all classes with `from_sexpr`, all inputs; the seven file classes | a tactic follows the structure of each loader (`Proofs/Provenance`) with the invariant "default text or part of a string of the input", induction over the loops; the tokenizer by `parse_stands`; `defaultTexts` lists the defaults; `Props/Provenance` |
| C64 | `from_file` and `to_file` of the seven file classes | C63 and C62 with "all characters are in the encoding" as the invariant; instances for ASCII, Latin-1 and UTF-8; the writers that can raise (C27) are assumed not to raise; `Props/SameEncoding` |
| C65 | `from_file` and `to_file` of the seven file classes, file systems | C61 for the text, C62–C64 for encoding and carriage returns (the text that was read has none, so the saved text has none), C27 for the file system; `Props/InPlace`; `Props/Spell` writes a text of every tree for the examples |
| C66 | the same | the object that was loaded is `canon o`, which loading its own saved text gives again (as C21); equal texts have equal bytes; `Props/InPlace` |
| C67 | the same, and the strings among the attributes (`texts`) | C62 bounds the characters of the text, so encoding succeeds and line ends are kept; then C30; `Props/SaveLoad` |
| C68 | every `to_sexpr` | loading is a function of what `parse_sexp` returns, and undoes saving (C13–C20, C22, C40, C41); `Props/Inject` |
| C69 | the constructors on a heap (`Model/Objects`) and the defaults of the values used everywhere else | by induction over nested factories: the object looks like the expansion of the class table; the expansion is the default of the structure, class by class; `Props/NewObjects` |
| C70 | the whole reader (regular expression and stack machine), `str`, `dequote` | both directions: if a list with the written value and a following text is read as expected for all following texts, then (by counting the characters that the three tokens cover, and with one well-chosen following text) the value is of the stated form; the converse from the lemmas behind C03, C05 and C06 |
| C71 | the generated `__init__` of the dataclasses on a heap (`call`, `bindArgs` in `Model/Objects`) | binding of arguments by induction over the keywords, both when the call fits and when it does not; then by induction over the fields, with the lemma behind C69 for fields without an argument; class by class in `Props/Calls` |
| C72 | the argument `indent` of all writers | a relation between the texts for two indentations that is kept by every construct of the writers, with the state "at the start of a line" or "within a line"; applied class by class by a tactic (`Proofs/Shift`, `Proofs/ShiftAll`); specification in `Verif/Indent`; `Props/Indent`; that no other objects move: lines behind equally many line feeds in both texts are compared (`Proofs/ShiftNot`, `Proofs/ShiftExact`); `Props/IndentExact` |
| C73 | the argument `newline` of all writers | by computation with appended lists, class by class; `Props/Newline` |
| C74 | the example programs of docs/usage (`Model/Examples`) on top of the file system model | loading (C60) gives the canonical object, the edit keeps it well-formed, saving and loading (C65) gives it back; the loop over a growing list as an inductive relation, shown to end and to be deterministic; `Props/Examples` |
| C75 | `from_file` and `to_file` of the seven file classes on any file | C58 says when loading succeeds, the exact conditions of C47 when there is a text, C64 that it can be encoded, C27 and C28 what is left on the disk; `Props/Resave` |
| C76 | all readers | `Verif/Alike` is a table of the format: how an expression of each kind begins, the tokens of its children, which children are expressions of which kind, and where the order matters; `SaysSame` is the relation made of it. `SaysSame.same` (`Proofs/AlikeAll`) is an induction over the relation, with C10 and C36 for one level and one lemma for each nested item (`Proofs/AlikeSteps`); the consequence for saving is by C48; `Props/Alike` |
| C77 | all writers; `==` of dataclasses, ints, floats, strings, lists (`Props/Equal`) | equal objects have the same `canon` (`Proofs/EqCanon`, one derived instance per class), the tree of an object is the tree of its `canon` (`Proofs/SameTree`), and the text denotes the tree (C48). Dicts are compared as lists of pairs, so their order counts (other orders: C87); `Props/EqualTexts` |
| C78 | `f'{x:.4f}'`, `f'{x:.6f}'` (`Float64`, `FloatText`), `ColorRGBA`, `PlotSettings`, sheets, schematics, boards | the decimals of a double are at most half a unit away from it, and the double they are read as is at least as near to them (`ofRat_nearest`), so it has the same decimals; a tie stays a tie with the same even neighbour (`Proofs/FixedTwice`, for any number of decimals). The loaded object is then written like one that is written without loss, to which C21 applies; `C78_HierarchicalSheet_once` says exactly which sheets need only one load; `Props/Twice` |
| C79 | `DrillDefinition`, `Pad`, `Footprint`, `Board` with the holes of `Format/Holes` (conditions `Hole`, `Holed`: as the well-formedness of before, but round holes may have an offset) | the round trips of `Proofs/Footprint` and `Proofs/Board` once more with the loaded object `loaded` (width = offset list for round holes); saving ignores the width of a round hole, so `loaded` is written like the object itself (`Proofs/Holes`, `Props/Holes`) |
| C80 | `Footprint.fromSexpr`, `Footprint.toSexpr`, `Board.fromSexpr`, setter of `libId` | both words take the same branch, C79 does the rest; boards: C10 for every `module`, by induction over the items; names of digits: C53; `Props/Legacy` |
| C81 | conditions on texts (`TextRule`), all `to_sexpr`/`from_sexpr`, `to_file`/`from_file` | the round-trip lemmas are proved for any rule for texts with a few laws; one more rule is shown to meet them: from behind each text the reader finds no quote that could close it; the rest is C06, C13–C19, C21, C30, C49, C61, C65 and C66, which are proved for any rule; necessity: `C04_backslash_merges` and the stack machine; `Props/Backslash`, `Props/BackslashFiles` |
| C82 | all readers, `from_file`, `to_file` | C65 and C66 with the first loading by C76 instead of C49: the tree of the file says the same as that of the object, so it is loaded as the same object; for footprints and boards with the objects of C79; `Props/Unknown` |
| C83 | loops of the seven `from_sexpr` of files, `parse_sexp`, `from_file` | words: one step of the loop leaves the object unchanged (`item[0]` is one character and equals no token), by induction over the places; text in front: the first element of the result of the stack machine never changes (invariant of `run`), so it is not a list and C09 applies; `Props/Conflict` |
| C84 | `from_file`, `to_file`, `from_sexpr` and `to_sexpr` of the seven kinds of files, in a program | choosing items commutes with what loading does to each item, so the object that is saved is what would be loaded from a file with the chosen items; then C30 and C65; `Props/Combine` |
| C85 | `Footprint.from_sexpr`, `Board.from_sexpr` with the default of `tedit` as an argument; `from_file`, `to_file` in a program | replacing the time stamp commutes with each step of the loop unless the step sets it (going through the branches), by induction over the children; boards: two runs in lockstep, the relation of their footprints is the inductive `Restamped`; `Props/Stamp` |
| C86 | `from_file`, `to_file`, `from_sexpr` and `to_sexpr` of schematics, symbol libraries, boards and footprints, in programs with two kinds of files | as C84: the selected items are in the form in which they are loaded from either kind of file; `Props/Move` |
| C87 | writers and readers of the five classes with dicts in them | each writer is a concatenation in which one part is permuted (`OnlyOrder`, an inductive relation between lists of children); the reader gives the `canon` of the object (C48), and being a dict (no two equal keys) does not depend on the order; the converse from C68; `Props/DictOrder` |
| C88 | `to_file` of several processes on one path (`Model/Shared`: each process writes at its own position, opening truncates), `from_file` | the last step is a write of a process that has only opened the file so far, hence at position 0 (induction over the order of steps); what is behind the last version is text behind an expression (C07); UTF-8 is a prefix code; violated by design rules and by writing in portions; `Props/Shared` |
| C89 | `parse_sexp`, `from_file`, `to_file` stopped after any step or by a full disk | the tokens of a prefix are the first tokens of the text, except for the beginning of one token (`lex_prefix`: numbers, quoted texts and words read in a prefix with something behind them are read the same in the whole); a part of the tokens of a list has an open bracket; no token in the rest of a text without `)` closes it; no condition on the objects; violated by design rules and by texts with brackets; for design rules, whose text is put into brackets, the tokens of the prefix with a bracket behind it are compared with those of the whole (`lex_cut`), and what is balanced among the first tokens are whole items (`prefix_balanced`), so that the first rules are loaded; `Proofs/Prefix`, `Proofs/PrefixRules`, `Props/CutOff`, `Props/CutRules` |
| C90 | `parse_sexp`, `from_file`, `to_file`, `DesignRules.from_sexpr` | the text of the joined file is the one text behind the other (`joined_text`, with the translation of line ends); the tokens of a saved text do not depend on what is behind it (`Lexes`), and the parser returns the first expression if the rest is balanced; for design rules a simulation of the loop from a state with more rules (`steps_behind`), the second file's version comes first and replaces that of the first; `JoinSafe` is the only condition on the encoding; `Props/Joined` |
| C91 | `from_file`, `to_file`, text mode of Python | `SameFile`: both byte sequences decode to texts that are the same in text mode (`TextMode`); with C58 both calls get the same text, so the results and the exceptions agree; that the common conversions (`unix2dos`, old Macintosh) give such texts is `sameText_crlf`, `sameText_cr`; no condition on the objects; `Props/Converted` |
| C92 | `parse_sexp`, `Position.from_sexpr` | the tokens of a number in front of any white space (`lex_before`), by induction those of a list of numbers (`C92_list`, exact: which are numbers and which texts); in front of an opening bracket; `Props/Blanks` |
| C93 | `parse_sexp`, `DesignRules.from_sexpr`, `DesignRules.from_file` | the tokens of a line of words by induction (`lex_comment`), a word does nothing in the loop of the reader (`step_word`), so by induction over rules and comments the file is read as if the comments were not there (`C93_words_partial`); expressions and numbers in a comment are read like any others; `Props/Comments` |
| C94 | `parse_sexp`, `dequote` | specification: KiCad's way of writing (`escaped`) and reading (`meant`) quoted texts, which is not part of /repo; exact conditions in both directions (`C94_loaded`, `C94_saved`, `C94_saved_any`; `C94_Library` for a whole entry of a library table, `C94_Property` for the properties of symbols) from `C70_quoted`, `C04_backslash_merges` and the number of characters that quotation marks and backslashes need; codes of several digits such as `\x41` are not part of `meant`; `Props/Escapes` |
| C43 | footprint graphics | post-condition of the loop for every input; `Props/Zones` |

## 4. Findings: properties that are false of the code

| id | what goes wrong | theorem |
|---|---|---|
| C21 | a sheet's fill alpha with more than 4 decimals is kept by the first saving and rounded by the second | `C21_HierarchicalSheet_violated` |
| C22 | a junction's diameter is never loaded; without a colour behind the diameter saving raises | `C22_violated`, `C22_colour_first_violated` |
| C23 | every locked `gr_text` is loaded as an unlocked text reading `locked` | `C23_violated` |
| C24 | symbol Bezier curves and graphic lines with an angle are written with unbalanced brackets | `C24_SyCurve_violated`, `C24_GrLine_violated` |
| C27 | a footprint loaded from a file forgets its path | `C27_Footprint_violated` |
| C28 | the target is truncated before the object is serialised | `C28_violated`, `C28_encoding_violated` |
| C31 | `create_new` stores the version as a string, loading gives a number | `C31_*_violated` |
| C35 | the locked flag of dimensions and footprint lines is read, never written; a group named `locked` becomes locked | `C35_*_violated` |
| C38 | consequence of C22 and C40 | `_partial` theorems |
| C40 | `useauxorigin` is always written as false | `C40_violated` |
| C42 | round drill with offset or width, oval drill without width | `C42_*_violated`, `C42_exactly`; the file content is kept nevertheless (C79) |
| C80 | boards forget footprints of KiCad 5 (`module`) | `C80_Board_violated` |
| C83 | words among the children are ignored: files with unresolved merge conflicts are loaded with both versions | `C83_X_words`, `C83_X_violated`, `C83_Footprint_number_violated` |
| C85 | footprints without time stamp are loaded with the time of the import, which is then saved | `C85_Footprint_violated`, `C85_Footprint_differs`, `C85_Board_violated`, `C85_X_in_place` |
| C88 | design rules saved at the same time, and all files written in portions, can be mixed without anyone noticing | `C88_DesignRules_violated`, `C88_LibTable_violated`, `C88_portions_violated` |
| C89 | design rules that are cut off between two rules, and files that are cut off inside a text with closing brackets, are loaded incompletely without an exception | `C89_DesignRules_violated`, `C89_LibTable_violated` |
| C92 | numbers in front of a line break, tab or opening bracket are read as texts; quoted words in front of an opening bracket keep their quotation marks | `C92_violated`, `C92_bracket_violated`, `C92_Position_violated`, `C92_quoted_violated` |
| C93 | comments in design rules are not known: a rule that is commented out is active, a number or a comment at the beginning makes the file unreadable | `C93_rule_violated`, `C93_number_violated`, `C93_front_violated` |
| C94 | backslashes are neither undone when a text is loaded nor doubled when it is saved; escaped line breaks stay `\n` | `C94_loaded`, `C94_saved_any`, `C94_Library`, `C94_Property` |
| C44 | `WorkSheet.to_file` has no encoding and uses that of the platform | `C44_WorkSheet_*` |
| C47 | some files load, but the object cannot be saved (junction with a diameter, number as text, flag without effects, zone without layers …) | `C47_Junction`, `C47_Text`, `C47_NetclassFlag`, `C47_Zone`, `C47_Dimension`, `C47_Pad`, `C47_Footprint`, `C47_Board`, `C47_HierarchicalSheet`, `C47_Schematic` (exact conditions), `C47_*_violated` |
| C52 | a default time stamp whose hexadecimal digits are all decimal digits is loaded as a number | `C52_violated` |
| C54 | all netclass flags without a position share one position | `Objects.C54_violated` |
| C72 | some parts are written with an indentation of their own, are indented twice, or have the indentation within a line (see the `Movable` of each class in `Verif/Indent`) | `C72_*_violated`; for all such objects `C72_*_exactly` |
| C73 | zone polygons with points end with a line feed in any case; nothing is written for default attributes and empty fonts | `C73_*_violated` |
| C74 | the example that changes the title fails on schematics without a title block; a segment for which no coordinates can be calculated (length zero) aborts the example adding vias before anything is saved | `C74_title_missing`, `C74_addVias_raises` |
| C75 | opening and saving a board or schematic that lacks certain items leaves an empty file | `C75_Board`, `C75_Schematic` (field `emptied`) |
| C45 | numbers with 0 < \|x\| < 0.0001 are written with an exponent and come back as text | `C45_violated` |

Side conditions shown to be necessary: C03 (trailing backslash, C04), C05 (2^53; range of doubles), C07 (unclosed quote),
C08 (line break after a number), C25 (leading zeros in unit ids; line breaks).

## 5. Trusted base

* Lean's kernel and the axioms `propext`, `Classical.choice`, `Quot.sound`; no others (checked by `vcheck`; no `sorry`, no
  `native_decide`, no axioms of our own). Mathlib is used for ordered-field reasoning over ℚ in `FloatRange`, `Stable`,
  `Props/Numbers` and what imports them.
* That the Lean definitions mirror the Python text (citations are given for checking), in particular Python's semantics of f-strings,
  `for`/`if`, dataclass defaults and `str.replace`. The scanners need not be trusted: `C01_regex`, `C25_nick_regex` and
  `C25_unit_regex` prove them equal to the regular expressions of the source, given as text, under the general
  back-tracking semantics of `Regex.lean` (that semantics is trusted instead). For C56 the steps of `RegexSteps.lean` are
  trusted to stand, up to a constant factor, for those of CPython's `re`.
* That CPython's `float(text)` rounds to nearest-even and `repr(float)` gives the shortest digits that read back, nearest to the
  value, in `repr` style (`float_repr_style == 'short'`). These are *definitions* in `Float64`; that reading back `repr x` gives `x`
  is proved, not assumed, and so is that the digits of the model are the shortest and nearest ones (`C55_shortest`). What is
  trusted is that CPython does the same, and where it changes from plain to scientific notation.
* Text mode of files: encoding by a codec, `os.linesep` on writing, universal newlines on reading, output reaches the file in
  portions in order (`Model/Files`). For C88: every process that has opened the file writes at its own position, opening truncates
  for all, and steps of different processes do not overlap (POSIX `O_TRUNC`, `write` without `O_APPEND`; `Model/Shared`).

Not modelled: lone surrogates; Unicode versions other than that of CPython 3.11 for `\d`; recursion limits and
memory errors; `-O` (asserts are enabled); aliasing between Python objects (values are immutable in the model, except in `Model/Objects`, C54); two names of one file; the import-time clock behind
`Footprint.tedit` (a parameter); tracebacks and messages of exceptions (only the class is kept).

## 6. Validation of the model

The Lean model is executable. `validation/Run.lean.txt` loads each recorded input of `/repo/tests/testdata` with the model's
`from_file` and compares the text of `to_sexpr` with the recorded expectation; `validation/Edits.lean.txt` repeats the
edit and `create_new` tests of the repository. All of them match byte for byte (see `validation/README.md`). `validation/float_text.py` compares the model of `float(text)` with
CPython. These are tests of the model's fidelity, not part of any proof.

## 7. Mutation testing

In scratch copies the model was edited the way realistic bugs would (token misspelt, update dropped, condition negated, default
changed, escape lost, list replaced instead of appended, wrong boundary, swapped arguments …) and rebuilt. `seeded/LOG.jsonl` has
one line per attempt. A mutant that still builds is either shown to be equivalent with respect to the English claims or led to a
tightened theorem.

Up to now there are 898 attempts on 472 definitions, some of them repetitions of an edit after a theorem was tightened. 872 broke
a theorem. Two broke only an example, because the build stopped there; they were repeated without the example and then broke theorems. In 12 nothing was learned: in 7 the edited model
was not accepted by Lean, in 5 the build was stopped by something else (these were repeated). 12 survived: nine of them led to
new or tighter theorems, and the same edits were tried again and now break them; the other three attempts (twice a blank line in a
file, and a detail of the model of the operating system) make no claim false.
