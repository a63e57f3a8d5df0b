import Verif.TextsOf
/-!
# Texts that are moved to the right

Specification of C72: what it means that a text is moved to the right by some blanks, and of which objects the whole text moves.
-/
namespace Kiutils

/-- The lines of a text; there is one more than there are line feeds. -/
def lines : Str → List Str
  | [] => [[]]
  | c :: s => match lines s with
    | [] => []
    | l :: ls => if c = '\n' then [] :: l :: ls else (c :: l) :: ls

/-- There are only blanks in the line. -/
def BlankLine (l : Str) : Prop := ∀ c ∈ l, c = ' '

/-- The second list of lines is the first one, moved to the right by `k` blanks. Of lines without text it matters only that they are
there. -/
inductive MovedLines (k : Nat) : List Str → List Str → Prop where
  | nil : MovedLines k [] []
  | moved {l : Str} {r r' : List Str} : MovedLines k r r' → MovedLines k (l :: r) ((indents k ++ l) :: r')
  | blank {l l' : Str} {r r' : List Str} : BlankLine l → BlankLine l' → MovedLines k r r' → MovedLines k (l :: r) (l' :: r')

/-- The text `s'` is the text `s`, moved to the right by `k` blanks. -/
def Shifted (k : Nat) (s s' : Str) : Prop := MovedLines k (lines s) (lines s')

/-- The same for texts that may fail to be made: either both are made, or the same exception is raised. -/
def ShiftedM (k : Nat) : PyM Str → PyM Str → Prop
  | .ok s, .ok s' => Shifted k s s'
  | .error e, .error e' => e = e'
  | _, _ => False

/-- There is no line feed in the text. -/
def OneLine (s : Str) : Prop := '\n' ∉ s

/-! ## Objects of which the whole text moves

The classes that are not named here move as a whole. -/

/-- From the second point on, the indentation can stand within a line. -/
def RenderCachePolygon.Movable (o : RenderCachePolygon) : Prop := o.pts.length ≤ 1
def RenderCache.Movable (o : RenderCache) : Prop := ∀ p ∈ o.polygons, p.Movable
def GrText.Movable (o : GrText) : Prop := ∀ c, o.renderCache = some c → c.Movable
def GrTextBox.Movable (o : GrTextBox) : Prop := ∀ c, o.renderCache = some c → c.Movable
def GrItem.Movable : GrItem → Prop
  | .text o => o.Movable
  | .textBox o => o.Movable
  | _ => True
def FpText.Movable (o : FpText) : Prop := ∀ c, o.renderCache = some c → c.Movable
def FpTextBox.Movable (o : FpTextBox) : Prop := ∀ c, o.renderCache = some c → c.Movable
def FpItem.Movable : FpItem → Prop
  | .text o => o.Movable
  | .textBox o => o.Movable
  | _ => True
def Dimension.Movable (o : Dimension) : Prop := ∀ t, o.grText = some t → t.Movable
/-- The libraries are written with an indentation of their own. -/
def LibTable.Movable (o : LibTable) : Prop := o.libs = []
/-- The constraints are indented twice. -/
def Rule.Movable (o : Rule) : Prop := o.constraints = []
/-- The rules are indented twice. -/
def DesignRules.Movable (o : DesignRules) : Prop := o.rules = []
/-- Behind a comment, the closing bracket stands on a line of its own without indentation. -/
def WksShape.Movable (o : WksShape) : Prop := o.comment = none
/-- The comment stands on a line of its own without indentation. -/
def Bitmap.Movable (o : Bitmap) : Prop := o.comment = none
/-- Behind a comment, the closing bracket stands on a line of its own without indentation. -/
def TbText.Movable (o : TbText) : Prop := o.comment = none
def WksItem.Movable : WksItem → Prop
  | .line o => o.Movable
  | .rect o => o.Movable
  | .polygon => True
  | .bitmap o => o.Movable
  | .tbtext o => o.Movable
def WorkSheet.Movable (o : WorkSheet) : Prop := ∀ i ∈ o.drawingObjects, i.Movable
/-- The symbols are indented twice. -/
def SymbolLib.Movable (o : SymbolLib) : Prop := o.symbols = []
/-- Without an identifier, the indentation of the closing bracket stands within the line. -/
def Junction.Movable (o : Junction) : Prop := o.uuid ≠ none
/-- The lists of instances are written with an indentation of their own. -/
def Schematic.Movable (o : Schematic) : Prop :=
  (∀ j ∈ o.junctions, j.Movable) ∧ o.sheetInstances = [] ∧ o.symbolInstances = []
/-- The fill segments are written with an indentation of their own. Without coordinates they are an empty line. -/
def Zone.Movable (o : Zone) : Prop := ∀ s, o.fillSegments = some s → s.coordinates = []
def Pad.Movable (o : Pad) : Prop := ∀ p ∈ o.customPadPrimitives, p.Movable
def Footprint.Movable (o : Footprint) : Prop :=
  (∀ i ∈ o.graphicItems, i.Movable) ∧ (∀ p ∈ o.pads, p.Movable) ∧ ∀ z ∈ o.zones, z.Movable
/-- The properties are written with an indentation of their own. -/
def Board.Movable (o : Board) : Prop :=
  (∀ f ∈ o.footprints, f.Movable) ∧ (∀ i ∈ o.graphicItems, i.Movable) ∧ (∀ d ∈ o.dimensions, d.Movable) ∧
    (∀ z ∈ o.zones, z.Movable) ∧ o.properties = []

end Kiutils
