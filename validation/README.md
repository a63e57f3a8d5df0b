# Comparison of the model with recorded outputs

The model is executable, so it can be compared with the expectations recorded in the test suite of the repository, without
running any Python code. The scripts are kept as text because they are not part of the proofs.

* `Run.lean.txt` – loads a file with the model's reader and `from_sexpr`, writes it with `to_sexpr`, prints the text.
  Compared with `<file>.expected`, or with the file itself if the test expects no change.
* `Edits.lean.txt` – the tests that edit an object or create a new one, and then compare the saved text.

To run them: copy to a file ending in `.lean`, then `lake env lean --run <file> <arguments>` inside `/verif/lean`.

Result: every load-save file of `tests/testdata` (`libtable`, `designrules`, `worksheets`, `symbol`, `footprint`, `schematic`,
`misc`, `board`) and all 20 edit and `create_new` cases match byte for byte.

* `float_text.py` – prints a Lean file that compares `floatOfText` with Python's own `float()` on 1546 generated texts (signs, blanks,
  underscores, exponents, `inf`, `nan`, malformed ones). Result: no differences. It does not import the repository.

* `Tree.lean.txt` – compares the list that the reader gives for a file with the tree (`toVal`, `Verif/Format/*.lean`) of the object that
  is loaded from it. They are the same for all load-save files of `tests/testdata` but two: `footprint/test_footprintEmptyAttributes`
  (an empty `(attr)` is not written again) and `footprint/legacy/test_moduleNameOnlyNumbers` (`module` becomes `footprint`, C80). So
  the documented format of the theorems is the format of these files.

* `WellFormed.lean.txt` – checks by computation whether the objects loaded from the files of `tests/testdata` meet the conditions `WF`
  of the theorems. Arguments: `kind=path`. With the rule `TextRule.backslash` (as in the script) all 65 files do but two: one text of
  `schematic/test_setSymbolLibNameToken` begins with a blank, and the name of `footprint/legacy/test_moduleNameOnlyNumbers` is a number
  (C80). With the default rule (`TextRule.plain`, the checks of texts changed accordingly) the first of these does, and the files that
  do not are the latter and six with texts ending in a backslash. So the theorems speak about all of these files but one.
