import Verif.Swap
import Verif.Tracks.SymbolUnits
/-!
# What `from_sexpr` makes of the items of a list: SymbolUnits

For each class: `C37` (every field is read from the last item with its token; flags are set when their word or token occurs),
`C11` (lists contain all items with their tokens, once each, in order), `C36` (unrelated items may change places), `C10` (items
with unknown tokens are ignored). The vocabulary is defined in `Verif/Tokens.lean`.
-/
namespace Kiutils

theorem C37_Symbol {s : Symbol} {id : Val} (hs : Symbol.setLibId {} id = .ok s) (xs : List Val) (o : Symbol) (h : Symbol.fromSexpr (.list (.str k!"symbol" :: id :: xs)) = .ok o) :
    o.libraryNickname = s.libraryNickname ∧
    o.entryName = s.entryName ∧
    o.unitId = s.unitId ∧
    o.styleId = s.styleId ∧
    LastWins (tok k!"extends") (fun i => do return some (← i.idx 1)) xs (none : Option Val) o.extends_ ∧
    FoldsTo (tok k!"pin_numbers") (fun acc i => do if (← i.idx 1).is k!"hide" then return true else return acc) xs (false : Bool) o.hidePinNumbers ∧
    o.pinNames = xs.any (tok k!"pin_names") ∧
    FoldsTo (tok k!"pin_names") (fun acc i => do forM (fun _ _ => .ok true) acc ((← i.slice 1).filter (wordIn [k!"hide"]))) xs (false : Bool) o.pinNamesHide ∧
    FoldsTo (tok k!"pin_names") (fun acc i => do forM (fun _ j => do return some (← j.idx 1)) acc ((← i.slice 1).filter (tok k!"offset"))) xs (none : Option Val) o.pinNamesOffset ∧
    LastWins (tok k!"in_bom") (fun i => do return some ((← i.idx 1).is k!"yes")) xs (none : Option Bool) o.inBom ∧
    LastWins (tok k!"on_board") (fun i => do return some ((← i.idx 1).is k!"yes")) xs (none : Option Bool) o.onBoard ∧
    o.isPower = xs.any (tok k!"power") := by
  rw [Symbol.loopEq hs] at h
  exact ⟨((Track.folds (get := (·.libraryNickname)) (fun o x o' hs => (Symbol.trackAll o x o' hs).1) h)).const,
    ((Track.folds (get := (·.entryName)) (fun o x o' hs => (Symbol.trackAll o x o' hs).2.1) h)).const,
    ((Track.folds (get := (·.unitId)) (fun o x o' hs => (Symbol.trackAll o x o' hs).2.2.1) h)).const,
    ((Track.folds (get := (·.styleId)) (fun o x o' hs => (Symbol.trackAll o x o' hs).2.2.2.1) h)).const,
    ((Track.folds (get := (·.extends_)) (fun o x o' hs => (Symbol.trackAll o x o' hs).2.2.2.2.1) h)).last,
    ((Track.folds (get := (·.hidePinNumbers)) (fun o x o' hs => (Symbol.trackAll o x o' hs).2.2.2.2.2.1) h)),
    ((Track.folds (get := (·.pinNames)) (fun o x o' hs => (Symbol.trackAll o x o' hs).2.2.2.2.2.2.1) h)).flag,
    ((Track.folds (get := (·.pinNamesHide)) (fun o x o' hs => (Symbol.trackAll o x o' hs).2.2.2.2.2.2.2.1) h)),
    ((Track.folds (get := (·.pinNamesOffset)) (fun o x o' hs => (Symbol.trackAll o x o' hs).2.2.2.2.2.2.2.2.1) h)),
    ((Track.folds (get := (·.inBom)) (fun o x o' hs => (Symbol.trackAll o x o' hs).2.2.2.2.2.2.2.2.2.1) h)).last,
    ((Track.folds (get := (·.onBoard)) (fun o x o' hs => (Symbol.trackAll o x o' hs).2.2.2.2.2.2.2.2.2.2.1) h)).last,
    ((Track.folds (get := (·.isPower)) (fun o x o' hs => (Symbol.trackAll o x o' hs).2.2.2.2.2.2.2.2.2.2.2.1) h)).flag⟩
example := C37_Symbol (id := .str k!"x") rfl [.list [.str k!"extends", .str k!"a"]] _ rfl

theorem C11_Symbol {s : Symbol} {id : Val} (hs : Symbol.setLibId {} id = .ok s) (xs : List Val) (o : Symbol) (h : Symbol.fromSexpr (.list (.str k!"symbol" :: id :: xs)) = .ok o) :
    Collected (tok k!"property") Property.fromSexpr xs o.properties ∧
    Collected (tokIn [k!"arc", k!"circle", k!"curve", k!"polyline", k!"rectangle", k!"text", k!"text_box"]) (fun i => if tok k!"arc" i then do return .arc (← SyArc.fromSexpr i) else if tok k!"circle" i then do return .circle (← SyCircle.fromSexpr i) else if tok k!"curve" i then do return .curve (← SyCurve.fromSexpr i) else if tok k!"polyline" i then do return .polyline (← SyPolyLine.fromSexpr i) else if tok k!"rectangle" i then do return .rect (← SyRect.fromSexpr i) else if tok k!"text" i then do return .text (← SyText.fromSexpr i) else do return .textBox (← SyTextBox.fromSexpr i)) xs o.graphicItems ∧
    Collected (tok k!"pin") SymbolPin.fromSexpr xs o.pins ∧
    Collected (tok k!"symbol") Symbol.fromSexpr xs o.units := by
  rw [Symbol.loopEq hs] at h
  exact ⟨((Track.folds (get := (·.properties)) (fun o x o' hs => (Symbol.trackAll o x o' hs).2.2.2.2.2.2.2.2.2.2.2.2.1) h)).collected,
    ((Track.folds (get := (·.graphicItems)) (fun o x o' hs => (Symbol.trackAll o x o' hs).2.2.2.2.2.2.2.2.2.2.2.2.2.1) h)).collected,
    ((Track.folds (get := (·.pins)) (fun o x o' hs => (Symbol.trackAll o x o' hs).2.2.2.2.2.2.2.2.2.2.2.2.2.2.1) h)).collected,
    ((Track.folds (get := (·.units)) (fun o x o' hs => (Symbol.trackAll o x o' hs).2.2.2.2.2.2.2.2.2.2.2.2.2.2.2) h)).collected⟩

/-- A repeated token with an unknown one in between. -/
example : (Symbol.fromSexpr (.list [.str k!"symbol", .str k!"x", .list [.str k!"extends", .str k!"a"], .list [.str k!"zzz", .int 1], .list [.str k!"extends", .str k!"b"]])).map (·.extends_) = .ok (some (.str k!"b")) := rfl

theorem C36_Symbol {s : Symbol} {id : Val} (hs : Symbol.setLibId {} id = .ok s) {xs ys : List Val} (hr : Reordered [[k!"arc", k!"circle", k!"curve", k!"polyline", k!"rectangle", k!"text", k!"text_box"]] xs ys) (o : Symbol) :
    Symbol.fromSexpr (.list (.str k!"symbol" :: id :: xs)) = .ok o ↔ Symbol.fromSexpr (.list (.str k!"symbol" :: id :: ys)) = .ok o := by
  rw [Symbol.loopEq hs, Symbol.loopEq hs]
  exact reordered_iff Symbol.indep Symbol.reordered hr o
example := C36_Symbol (id := .str k!"x") rfl (.swap [] [] [.int 1] [.int 2] k!"symbol" k!"extends" (by decide) (by decide))

theorem C10_Symbol {s : Symbol} {id : Val} (hs : Symbol.setLibId {} id = .ok s) (xs ys : List Val) {u : Val} {r : List Val}
    (hu : ∀ k ∈ [k!"symbol", k!"extends", k!"pin_numbers", k!"pin_names", k!"in_bom", k!"on_board", k!"power", k!"property", k!"pin", k!"arc", k!"circle", k!"curve", k!"polyline", k!"rectangle", k!"text", k!"text_box"], u ≠ .str k) :
    Symbol.fromSexpr (.list (.str k!"symbol" :: id :: (xs ++ .list (u :: r) :: ys))) =
    Symbol.fromSexpr (.list (.str k!"symbol" :: id :: (xs ++ ys))) := by
  rw [Symbol.loopEq hs, Symbol.loopEq hs]
  exact forM_insert (Symbol.unknown hu) _ xs ys
example := C10_Symbol (id := .str k!"x") rfl [.list [.str k!"symbol", .int 1]] [] (u := .str k!"zzz") (r := [.int 1]) (by simp)

end Kiutils
