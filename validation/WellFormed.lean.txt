import Verif
open Kiutils Lean Elab Command Meta

/-- The rule for texts: `TextRule.plain` or `TextRule.backslash`. -/
@[reducible, instance 2000] def rule : TextRule := TextRule.backslash

/-- Failures of a condition (none: it holds). -/
class Chk (p : Prop) where
  run : List String

instance (priority := 10) {p : Prop} [Decidable p] : Chk p := ⟨if p then [] else ["fails"]⟩
instance {p q : Prop} [Chk p] [Chk q] : Chk (p ∧ q) := ⟨Chk.run p ++ Chk.run q⟩
instance {p q : Prop} [Chk p] [Chk q] : Chk (p ∨ q) := ⟨if (Chk.run p).isEmpty then [] else if (Chk.run q).isEmpty then [] else Chk.run p ++ Chk.run q⟩
instance {p q : Prop} [Chk p] [Chk q] : Chk (p → q) := ⟨if (Chk.run p).isEmpty then Chk.run q else []⟩
instance {α : Type} {x : Option α} {P : α → Prop} [∀ v, Chk (P v)] : Chk (∀ v, x = some v → P v) :=
  ⟨match x with | none => [] | some v => Chk.run (P v)⟩
instance {α : Type} {x : Option α} {P : α → Prop} [∀ v, Chk (P v)] : Chk (∃ v, x = some v ∧ P v) :=
  ⟨match x with | none => ["missing"] | some v => Chk.run (P v)⟩
instance {α : Type} {x : List α} {P : α → Prop} [∀ v, Chk (P v)] : Chk (∀ v ∈ x, P v) :=
  ⟨x.flatMap fun v => Chk.run (P v)⟩
instance {α : Type} {x : Option α} : Chk (x = none) := ⟨if x.isNone then [] else ["there"]⟩
instance {α : Type} {x : Option α} : Chk (x ≠ none) := ⟨if x.isSome then [] else ["missing"]⟩
instance {v : Val} {s : Str} : Chk (v = .str s) := ⟨match v with | .str t => if s = t then [] else ["is " ++ String.ofList t] | _ => ["not a word"]⟩
instance {v : Val} {s : Str} : Chk (v ≠ .str s) := ⟨match v with | .str t => if s = t then ["is " ++ String.ofList t] else [] | _ => []⟩
instance {p : Prop} [Chk p] : Chk (¬ p) := ⟨if (Chk.run p).isEmpty then ["not"] else []⟩
instance {α : Type} {x : List α} : Chk (x ≠ []) := ⟨if x.isEmpty then ["empty"] else []⟩
instance {α : Type} {x : List α} : Chk (x = []) := ⟨if x.isEmpty then [] else ["not empty"]⟩
partial def sh : Val → String
  | .str s => "\"" ++ String.ofList s ++ "\""
  | .int n => toString n
  | .flt f => String.ofList (Val.flt f).pyStr
  | .list l => "(" ++ " ".intercalate (l.map sh) ++ ")"
def ok (b : Bool) (s : String) (v : Val) : List String := if b then [] else [s ++ " " ++ sh v]
def plain (f : F64) : Bool := let r := f.repr
  r.all (fun c => c.isDigit || c == '-' || c == '.') && (r.filter (· == '.')).length == 1
def num : Val → Bool | .int n => n.natAbs ≤ 2^53 | .flt f => plain f | _ => false
def tok : Val → Bool | .str s => s ≠ [] && s.all isBare && !(s.contains '"') && !looksNumeric s | _ => false
def line : Val → Bool | .str s => s ≠ [] && s.all isBare && !(s.contains '"') | _ => false
def text : Val → Bool | .str s => sqEnd s = false | _ => false
instance {v} : Chk (NumOk v) := ⟨ok (num v) "number" v⟩
instance {v} : Chk (TokOk v) := ⟨ok (tok v) "word" v⟩
instance {v} : Chk (LineOk v) := ⟨ok (line v) "line" v⟩
instance {v} : Chk (TextOk v) := ⟨ok (text v) "text" v⟩
instance {v} : Chk (AtomOk v) := ⟨ok (num v || tok v) "atom" v⟩
instance {v} : Chk (WordOk v) := ⟨ok (tok v && !(v.pyStr.contains '"')) "word" v⟩
instance {v} : Chk (RawOk v) := ⟨ok (text v && !(v.pyStr.contains '"')) "raw" v⟩
instance {v} : Chk (PadLayerOk v) := ⟨ok (match isWildcard v with | .ok true => tok v | .ok false => text v | _ => false) "padlayer" v⟩
instance {p v} : Chk (FixOk p v) := ⟨match v with | .int _ => [] | .flt f => (let s := fmtFixedVal p v
   match floatOfText s with | some (some g) => ok (sh (.flt g) == sh (.flt f)) "fixed" v | _ => ["fixed"]) | _ => ["fixed"]⟩
instance {P : Val → Prop} {x} [∀ v, Chk (P v)] : Chk (ReqOk P x) := ⟨match x with | none => ["missing"] | some v => Chk.run (P v)⟩
instance {w s} [∀ s : Stroke, Chk s.WF] : Chk (WidthOk w s) := ⟨match w, s with | some w, none => Chk.run (NumOk w) | none, some s => Chk.run s.WF | _, _ => ["width/stroke"]⟩
instance {n e} : Chk (SchIdOk n e) := ⟨match n, e with
  | some (.str n), some (.str e) => if n ≠ [] && !((n.drop 1).contains ':') && !(n.contains '\n') && e ≠ [] && !(e.contains '\n') && (sqEnd n = false) then [] else ["id"]
  | none, some (.str e) => if !((e.drop 1).dropLast.contains ':') && (sqEnd e = false) then [] else ["id"]
  | _, _ => ["id"]⟩
instance {n e u s} : Chk (Kiutils.IdOk n e u s) := ⟨match n, e, u, s with
  | some (.str n), some (.str e), none, none => if n ≠ [] && !((n.drop 1).contains ':') && !(n.contains '\n') && e ≠ [] && !(e.contains '\n') && (sqEnd n = false) then [] else ["id"]
  | none, some (.str e), some (.int _), some (.int _) => if e ≠ [] && (sqEnd e = false) && !((e.drop 1).contains ':') && !(e.contains '\n') then [] else ["id"]
  | none, some (.str e), none, none => if !((e.drop 1).dropLast.contains ':') && !(e.contains '\n') && (sqEnd e = false) && (matchUnit e).isNone then [] else ["id top"]
  | _, _, _, _ => ["id"]⟩
instance {α : Type} {l : List α} : Chk (∃ a b c d, l = [a, b, c, d]) := ⟨if l.length == 4 then [] else ["not four"]⟩
instance {l : List (Val × Val)} : Chk (l.Pairwise fun a b => a.1.keyEq b.1 = false) := 
  ⟨if ((List.range l.length).all fun i => (List.range i).all fun j => match l[i]?, l[j]? with | some a, some b => !(b.1.keyEq a.1) | _, _ => true) then [] else ["double key"]⟩

/-- The check of a structure of conditions. -/
elab "derive_chk " n:ident : command => do
  let name ← liftCoreM <| realizeGlobalConstNoOverload n
  let env ← getEnv

  let fields := getStructureFields env name
  let mut parts : Array (TSyntax `term) := #[]
  for f in fields do
    let info ← liftTermElabM do
      let proj := name ++ f
      let ci ← getConstInfo proj
      -- ∀ (o) (self : WF o), T
      if (← inferType (mkConst name)).bindingDomain!.isConstOf ``TextRule then
        let ty ← instantiateForall ci.type #[mkConst ``rule]
        forallBoundedTelescope ty (some 2) fun xs t => do
          pure (← mkLambdaFVars #[xs[0]!] t)
      else
        forallBoundedTelescope ci.type (some 2) fun xs t => do
          pure (← mkLambdaFVars #[xs[0]!] t)
    let aux := name ++ (`chk) ++ f
    liftTermElabM do
      let ty ← inferType info
      addDecl (.defnDecl { name := aux, levelParams := [], type := ty, value := info, hints := .abbrev, safety := .safe })
      setReducibleAttribute aux
    let s := Syntax.mkStrLit (toString name.components.dropLast.getLast! ++ "." ++ f.toString ++ ": ")
    parts := parts.push (← `((Chk.run (@$(mkIdent aux) o)).map ($s ++ ·)))
  let body ← parts.foldrM (fun a b => `($a ++ $b)) (← `([]))
  let id := mkIdent name
  elabCommand (← `(instance {o} : Chk ($id o) := ⟨$body⟩))

derive_chk Position.WF
derive_chk Position.WFXY
derive_chk Coordinate.WF
derive_chk ColorRGBA.WF
derive_chk Stroke.WF
derive_chk Font.WF
derive_chk Justify.WF
derive_chk Effects.WF
derive_chk Net.WF
derive_chk Group.WF
derive_chk PageSettings.WF
derive_chk TitleBlock.WF
derive_chk Property.WF
derive_chk RenderCachePolygon.WF
derive_chk RenderCache.WF
derive_chk Fill.WF
derive_chk Image.WF
derive_chk GrText.WF
derive_chk GrTextBox.WF
derive_chk GrLine.WF
derive_chk GrRect.WF
derive_chk GrCircle.WF
derive_chk GrArc.WF
derive_chk GrPoly.WF
derive_chk GrCurve.WF
instance {o} : Chk (GrItem.WF o) := ⟨match o with | .text o => Chk.run (o.WF) | .textBox o => Chk.run (o.WF) | .line o => Chk.run (o.WF) | .rect o => Chk.run (o.WF) | .circle o => Chk.run (o.WF) | .arc o => Chk.run (o.WF) | .poly o => Chk.run (o.WF) | .curve o => Chk.run (o.WF) | .image o => Chk.run (o.WF)⟩
derive_chk Position.WFU
derive_chk FpText.WF
derive_chk FpLine.WF
derive_chk FpRect.WF
derive_chk FpTextBox.WF
derive_chk FpCircle.WF
derive_chk FpArc.WF
derive_chk FpPoly.WF
derive_chk FpCurve.WF
instance {o} : Chk (FpItem.WF o) := ⟨match o with | .text o => Chk.run (o.WF) | .textBox o => Chk.run (o.WF) | .line o => Chk.run (o.WF) | .rect o => Chk.run (o.WF) | .circle o => Chk.run (o.WF) | .arc o => Chk.run (o.WF) | .poly o => Chk.run (o.WF) | .curve o => Chk.run (o.WF) | .image o => Chk.run (o.WF)⟩
derive_chk KeepoutSettings.WF
derive_chk FillSettings.WF
derive_chk ZonePolygon.WF
derive_chk FilledPolygon.WF
derive_chk FillSegments.WF
derive_chk Zone.WF
instance {o} : Chk (JunctionColor.WF o) := ⟨match o with | .rgba c => Chk.run (c.WF) | .raw _ => Chk.run (False)⟩
derive_chk Junction.WF
derive_chk NoConnect.WF
derive_chk BusEntry.WF
derive_chk BusAlias.WF
derive_chk Connection.WF
derive_chk PolyLine.WF
derive_chk Text.WF
derive_chk TextBox.WF
derive_chk LocalLabel.WF
derive_chk GlobalLabel.WF
derive_chk HierarchicalLabel.WF
derive_chk SymbolProjectPath.WF
derive_chk SymbolProjectInstance.WF
derive_chk SchematicSymbol.WF
derive_chk HierarchicalPin.WF
derive_chk HierarchicalSheetProjectPath.WF
derive_chk HierarchicalSheetProjectInstance.WF
derive_chk ColorRGBA.WFPrec
derive_chk HierarchicalSheet.WF
derive_chk HierarchicalSheetInstance.WF
derive_chk SymbolInstance.WF
derive_chk Rectangle.WF
derive_chk Arc.WF
derive_chk Circle.WF
derive_chk NetclassFlag.WF
derive_chk SyArc.WF
derive_chk SyCircle.WF
derive_chk SyPolyLine.WF
derive_chk SyRect.WF
derive_chk SyText.WF
derive_chk SyTextBox.WF
instance {o} : Chk (SyItem.WF o) := ⟨match o with | .arc o => Chk.run (o.WF) | .circle o => Chk.run (o.WF) | .curve _ => Chk.run (False) | .polyline o => Chk.run (o.WF) | .rect o => Chk.run (o.WF) | .text o => Chk.run (o.WF) | .textBox o => Chk.run (o.WF)⟩
derive_chk SymbolAlternativePin.WF
derive_chk SymbolPin.WF
derive_chk Symbol.WFFlat
partial def symChk (o : Symbol) : List String := Chk.run o.WFFlat ++ o.units.flatMap symChk
instance {o : Symbol} : Chk o.WF := ⟨symChk o⟩
derive_chk SymbolLib.WF
derive_chk Attributes.WF
derive_chk Model.WF
derive_chk DrillDefinition.WF
derive_chk PadOptions.WF
instance {o} : Chk (GrItem.NotImage o) := ⟨match o with | .image _ => Chk.run (False) | _ => Chk.run (True)⟩
derive_chk Pad.WF
derive_chk Footprint.WF
derive_chk GeneralSettings.WF
derive_chk LayerToken.WF
derive_chk StackupSubLayer.WF
derive_chk StackupLayer.WF
derive_chk Stackup.WF
derive_chk PlotSettings.WF
derive_chk Segment.WF
derive_chk Via.WF
derive_chk TraceArc.WF
derive_chk Target.WF
derive_chk SetupData.WF
derive_chk DimensionFormat.WF
derive_chk DimensionStyle.WF
derive_chk Dimension.WF
instance {o} : Chk (TraceItem.WF o) := ⟨match o with | .segment o => Chk.run (o.WF) | .arc o => Chk.run (o.WF) | .via o => Chk.run (o.WF)⟩
derive_chk Board.WF
instance {o} : Chk (SchGraphic.WF o) := ⟨match o with | .connection o => Chk.run (o.WF) | .polyline o => Chk.run (o.WF)⟩
instance {o} : Chk (SchShape.WF o) := ⟨match o with | .arc o => Chk.run (o.WF) | .circle o => Chk.run (o.WF) | .rectangle o => Chk.run (o.WF)⟩
derive_chk Schematic.WF
derive_chk WksFontSize.WF
derive_chk TextSize.WF
derive_chk WksFont.WF
derive_chk WksPosition.WF
derive_chk WksShape.WF
derive_chk Bitmap.WF
derive_chk TbText.WF
derive_chk Setup.WF
instance {o} : Chk (WksItem.WF o) := ⟨match o with | .line o => Chk.run (o.WF) | .rect o => Chk.run (o.WF) | .polygon => Chk.run (False) | .bitmap o => Chk.run (o.WF) | .tbtext o => Chk.run (o.WF)⟩
derive_chk WorkSheet.WF
derive_chk Constraint.WF
derive_chk Rule.WF
derive_chk DesignRules.WF
derive_chk Library.WF
derive_chk LibTable.WF
def load (k : String) (v : Val) : PyM (List String) := do
  match k with
  | "board" => let o ← Board.fromSexpr (.str "0".toList) v; pure (Chk.run o.WF)
  | "footprint" => let o ← Footprint.fromSexpr (.str "0".toList) v; pure (Chk.run o.WF)
  | "schematic" => let o ← Schematic.fromSexpr v; pure (Chk.run o.WF)
  | "symbol" => let o ← SymbolLib.fromSexpr v; pure (Chk.run o.WF)
  | "worksheets" => let o ← WorkSheet.fromSexpr v; pure (Chk.run o.WF)
  | "libtable" => let o ← LibTable.fromSexpr v; pure (Chk.run o.WF)
  | _ => .error .typeError
def main (args : List String) : IO Unit := do
  for a in args do
    let [k, inp] := (a.splitOn "=") | throw (IO.userError "args")
    let t ← IO.FS.readFile inp
    let t := (t.replace "\r\n" "\n").replace "\r" "\n"
    match parseSexp t.toList with
    | .error _ => IO.println s!"PARSE {inp}"
    | .ok v =>
    match load k v with
    | .ok d =>
      IO.println s!"{inp}: {d.length}"
      for x in d.eraseDups.take 12 do IO.println s!"    {x}"
    | .error _ => IO.println s!"ERROR {inp} "
