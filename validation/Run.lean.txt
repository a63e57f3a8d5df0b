import Verif
open Kiutils
def load (k : String) (s : Str) : PyM Str := do
  match k with
  | "board" => (← Board.fromSexpr (.str "0".toList) (← parseSexp s)).toSexpr
  | "footprint" => (← Footprint.fromSexpr (.str "0".toList) (← parseSexp s)).toSexpr
  | "schematic" => (← Schematic.fromSexpr (← parseSexp s)).toSexpr
  | "symbol" => pure (← SymbolLib.fromSexpr (← parseSexp s)).toSexpr
  | "worksheets" => (← WorkSheet.fromSexpr (← parseSexp s)).toSexpr
  | "libtable" => pure (← LibTable.fromSexpr (← parseSexp s)).toSexpr
  | "designrules" => (← DesignRules.parseText s).toSexpr
  | _ => .error .typeError
def main (args : List String) : IO Unit := do
  let [k, inp, exp] := args | throw (IO.userError "args")
  let t ← IO.FS.readFile inp
  let e ← IO.FS.readFile exp
  let t := (t.replace "\r\n" "\n").replace "\r" "\n"
  match load k t.toList with
  | .ok s =>
    if s == e.toList then IO.println s!"OK {inp}"
    else
      IO.println s!"DIFF {inp}"
      IO.FS.writeFile ("/tmp/val/out_" ++ (inp.replace "/" "_")) (String.ofList s)
  | .error _ => IO.println s!"ERROR {inp} "
