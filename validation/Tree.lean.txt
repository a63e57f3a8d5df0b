import Verif
open Kiutils
partial def sh : Val → String
  | .str s => "\"" ++ String.ofList s ++ "\""
  | .int n => toString n
  | .flt f => String.ofList (Val.flt f).pyStr
  | .list l => "(" ++ " ".intercalate (l.map sh) ++ ")"
-- differences: list of "path: a | b"
partial def diff (p : String) : Val → Val → List String
  | .list a, .list b =>
    let h := match a with | .str s :: _ => String.ofList s | _ => "?"
    let rec go (i : Nat) : List Val → List Val → List String
      | [], [] => []
      | x :: xs, y :: ys => 
        let d := diff (p ++ "/" ++ h) x y
        if d.isEmpty then go (i+1) xs ys
        else
          -- heads differ?
          let hd : Val → String := fun v => match v with | .list (.str s :: _) => String.ofList s | v => sh v
          if hd x != hd y then [s!"{p}/{h}[{i}]: file {((sh x).take 70)} | saved {((sh y).take 70)}"] else d ++ go (i+1) xs ys
      | x :: _, [] => [s!"{p}/{h}[{i}]: file {((sh x).take 70)} | saved nothing"]
      | [], y :: _ => [s!"{p}/{h}[{i}]: file nothing | saved {((sh y).take 70)}"]
    go 0 a b
  | a, b => if sh a == sh b then [] else [s!"{p}: file {((sh a).take 60)} | saved {((sh b).take 60)}"]
def load (k : String) (v : Val) : PyM Val := do
  match k with
  | "board" => pure (← Board.fromSexpr (.str "0".toList) v).toVal
  | "footprint" => pure (← Footprint.fromSexpr (.str "0".toList) v).toVal
  | "schematic" => pure (← Schematic.fromSexpr v).toVal
  | "symbol" => pure (← SymbolLib.fromSexpr v).toVal
  | "worksheets" => pure (← WorkSheet.fromSexpr v).toVal
  | "libtable" => pure (← LibTable.fromSexpr v).toVal
  | _ => .error .typeError
def main (args : List String) : IO Unit := do
  for a in args do
    let [k, inp] := (a.splitOn "=") | throw (IO.userError "args")
    let t ← IO.FS.readFile inp
    let t := (t.replace "\r\n" "\n").replace "\r" "\n"
    match parseSexp t.toList with
    | .error _ => IO.println s!"PARSE {inp}"
    | .ok v =>
    match load k v with
    | .ok w =>
      let d := (diff "" v w)
      IO.println s!"{inp}: {d.length}"
      for x in d.take 8 do IO.println s!"    {x}"
    | .error _ => IO.println s!"ERROR {inp} "
