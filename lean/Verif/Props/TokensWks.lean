import Verif.Swap
import Verif.Tracks.Wks
/-!
# What `from_sexpr` makes of the items of a list: Wks

For each class: `C37` (every field is read from the last item with its token; flags are set when their word or token occurs),
`C11` (lists contain all items with their tokens, once each, in order), `C36` (unrelated items may change places), `C10` (items
with unknown tokens are ignored). The vocabulary is defined in `Verif/Tokens.lean`.
-/
namespace Kiutils

theorem C37_WksFont (xs : List Val) (o : WksFont) (h : WksFont.fromSexpr (.list (.str k!"font" :: xs)) = .ok o) :
    LastWins (tok k!"linewidth") (fun i => do return some (← i.idx 1)) xs (none : Option Val) o.linewidth ∧
    LastWins (tok k!"size") (fun i => do return some (← WksFontSize.fromSexpr i)) xs (none : Option WksFontSize) o.size ∧
    o.bold = xs.any (wordIn [k!"bold"]) ∧
    o.italic = xs.any (wordIn [k!"italic"]) := by
  rw [WksFont.loopEq ] at h
  exact ⟨((Track.folds (get := (·.linewidth)) (fun o x o' hs => (WksFont.trackAll o x o' hs).1) h).drop rfl).last,
    ((Track.folds (get := (·.size)) (fun o x o' hs => (WksFont.trackAll o x o' hs).2.1) h).drop rfl).last,
    ((Track.folds (get := (·.bold)) (fun o x o' hs => (WksFont.trackAll o x o' hs).2.2.1) h).drop rfl).flag,
    ((Track.folds (get := (·.italic)) (fun o x o' hs => (WksFont.trackAll o x o' hs).2.2.2) h).drop rfl).flag⟩

/-- A repeated token with an unknown one in between. -/
example : (WksFont.fromSexpr (.list [.str k!"font", .list [.str k!"linewidth", .str k!"a"], .list [.str k!"zzz", .int 1], .list [.str k!"linewidth", .str k!"b"]])).map (·.linewidth) = .ok (some (.str k!"b")) := rfl

theorem C36_WksFont {xs ys : List Val} (hr : Reordered [] xs ys) (o : WksFont) :
    WksFont.fromSexpr (.list (.str k!"font" :: xs)) = .ok o ↔ WksFont.fromSexpr (.list (.str k!"font" :: ys)) = .ok o := by
  rw [WksFont.loopEq , WksFont.loopEq ]
  exact reordered_iff WksFont.indep WksFont.reordered (hr.cons _) o
example := C36_WksFont (.swap [] [] [.int 1] [.int 2] k!"linewidth" k!"size" (by decide) (by decide))

theorem C10_WksFont (xs ys : List Val) {u : Val} {r : List Val}
    (hu : ∀ k ∈ [k!"linewidth", k!"size"], u ≠ .str k) :
    WksFont.fromSexpr (.list (.str k!"font" :: (xs ++ .list (u :: r) :: ys))) =
    WksFont.fromSexpr (.list (.str k!"font" :: (xs ++ ys))) := by
  rw [WksFont.loopEq , WksFont.loopEq ]
  exact forM_insert (WksFont.unknown hu) _ (.str k!"font" :: xs) ys
example := C10_WksFont [.list [.str k!"linewidth", .int 1]] [] (u := .str k!"zzz") (r := [.int 1]) (by simp)

theorem C37_WksShape (hd : Str) (xs : List Val) (o : WksShape) (h : WksShape.fromSexpr hd (.list (.str hd :: xs)) = .ok o) :
    LastWins (tok k!"name") (·.idx 1) xs (st k!"" : Val) o.name ∧
    LastWins (tok k!"start") WksPosition.fromSexpr xs ({} : WksPosition) o.start ∧
    LastWins (tok k!"end") WksPosition.fromSexpr xs ({} : WksPosition) o.«end» ∧
    LastWins (tok k!"option") (fun i => do return some (← i.idx 1)) xs (none : Option Val) o.option ∧
    LastWins (tok k!"linewidth") (fun i => do return some (← i.idx 1)) xs (none : Option Val) o.lineWidth ∧
    LastWins (tok k!"repeat") (fun i => do return some (← i.idx 1)) xs (none : Option Val) o.«repeat» ∧
    LastWins (tok k!"incrx") (fun i => do return some (← i.idx 1)) xs (none : Option Val) o.incrx ∧
    LastWins (tok k!"incry") (fun i => do return some (← i.idx 1)) xs (none : Option Val) o.incry ∧
    LastWins (tok k!"comment") (fun i => do return some (← i.idx 1)) xs (none : Option Val) o.comment := by
  rw [WksShape.loopEq hd] at h
  exact ⟨((Track.folds (get := (·.name)) (fun o x o' hs => (WksShape.trackAll o x o' hs).1) h)).last,
    ((Track.folds (get := (·.start)) (fun o x o' hs => (WksShape.trackAll o x o' hs).2.1) h)).last,
    ((Track.folds (get := (·.«end»)) (fun o x o' hs => (WksShape.trackAll o x o' hs).2.2.1) h)).last,
    ((Track.folds (get := (·.option)) (fun o x o' hs => (WksShape.trackAll o x o' hs).2.2.2.1) h)).last,
    ((Track.folds (get := (·.lineWidth)) (fun o x o' hs => (WksShape.trackAll o x o' hs).2.2.2.2.1) h)).last,
    ((Track.folds (get := (·.«repeat»)) (fun o x o' hs => (WksShape.trackAll o x o' hs).2.2.2.2.2.1) h)).last,
    ((Track.folds (get := (·.incrx)) (fun o x o' hs => (WksShape.trackAll o x o' hs).2.2.2.2.2.2.1) h)).last,
    ((Track.folds (get := (·.incry)) (fun o x o' hs => (WksShape.trackAll o x o' hs).2.2.2.2.2.2.2.1) h)).last,
    ((Track.folds (get := (·.comment)) (fun o x o' hs => (WksShape.trackAll o x o' hs).2.2.2.2.2.2.2.2) h)).last⟩

/-- A repeated token with an unknown one in between. -/
example : (WksShape.fromSexpr k!"line" (.list [.str k!"line", .list [.str k!"name", .str k!"a"], .list [.str k!"zzz", .int 1], .list [.str k!"name", .str k!"b"]])).map (·.name) = .ok (.str k!"b") := rfl

theorem C36_WksShape (hd : Str) {xs ys : List Val} (hr : Reordered [] xs ys) (o : WksShape) :
    WksShape.fromSexpr hd (.list (.str hd :: xs)) = .ok o ↔ WksShape.fromSexpr hd (.list (.str hd :: ys)) = .ok o := by
  rw [WksShape.loopEq hd, WksShape.loopEq hd]
  exact reordered_iff WksShape.indep WksShape.reordered hr o
example := C36_WksShape k!"line" (.swap [] [] [.int 1] [.int 2] k!"name" k!"start" (by decide) (by decide))

theorem C10_WksShape (hd : Str) (xs ys : List Val) {u : Val} {r : List Val}
    (hu : ∀ k ∈ [k!"name", k!"start", k!"end", k!"option", k!"linewidth", k!"repeat", k!"incrx", k!"incry", k!"comment"], u ≠ .str k) :
    WksShape.fromSexpr hd (.list (.str hd :: (xs ++ .list (u :: r) :: ys))) =
    WksShape.fromSexpr hd (.list (.str hd :: (xs ++ ys))) := by
  rw [WksShape.loopEq hd, WksShape.loopEq hd]
  exact forM_insert (WksShape.unknown hu) _ xs ys
example := C10_WksShape k!"line" [.list [.str k!"name", .int 1]] [] (u := .str k!"zzz") (r := [.int 1]) (by simp)

theorem C37_Bitmap (xs : List Val) (o : Bitmap) (h : Bitmap.fromSexpr (.list (.str k!"bitmap" :: xs)) = .ok o) :
    LastWins (tok k!"name") (·.idx 1) xs (st k!"" : Val) o.name ∧
    LastWins (tok k!"pos") WksPosition.fromSexpr xs ({} : WksPosition) o.position ∧
    LastWins (tok k!"option") (fun i => do return some (← i.idx 1)) xs (none : Option Val) o.option ∧
    LastWins (tok k!"scale") (·.idx 1) xs (fl k!"1" k!"0" : Val) o.scale ∧
    LastWins (tok k!"repeat") (fun i => do return some (← i.idx 1)) xs (none : Option Val) o.«repeat» ∧
    LastWins (tok k!"incrx") (fun i => do return some (← i.idx 1)) xs (none : Option Val) o.incrx ∧
    LastWins (tok k!"incry") (fun i => do return some (← i.idx 1)) xs (none : Option Val) o.incry ∧
    LastWins (tok k!"comment") (fun i => do return some (← i.idx 1)) xs (none : Option Val) o.comment := by
  rw [Bitmap.loopEq ] at h
  exact ⟨((Track.folds (get := (·.name)) (fun o x o' hs => (Bitmap.trackAll o x o' hs).1) h)).last,
    ((Track.folds (get := (·.position)) (fun o x o' hs => (Bitmap.trackAll o x o' hs).2.1) h)).last,
    ((Track.folds (get := (·.option)) (fun o x o' hs => (Bitmap.trackAll o x o' hs).2.2.1) h)).last,
    ((Track.folds (get := (·.scale)) (fun o x o' hs => (Bitmap.trackAll o x o' hs).2.2.2.1) h)).last,
    ((Track.folds (get := (·.«repeat»)) (fun o x o' hs => (Bitmap.trackAll o x o' hs).2.2.2.2.1) h)).last,
    ((Track.folds (get := (·.incrx)) (fun o x o' hs => (Bitmap.trackAll o x o' hs).2.2.2.2.2.1) h)).last,
    ((Track.folds (get := (·.incry)) (fun o x o' hs => (Bitmap.trackAll o x o' hs).2.2.2.2.2.2.1) h)).last,
    ((Track.folds (get := (·.comment)) (fun o x o' hs => (Bitmap.trackAll o x o' hs).2.2.2.2.2.2.2.1) h)).last⟩
example := C37_Bitmap [.list [.str k!"name", .str k!"a"]] _ rfl

theorem C11_Bitmap (xs : List Val) (o : Bitmap) (h : Bitmap.fromSexpr (.list (.str k!"bitmap" :: xs)) = .ok o) :
    CollectedAll (tok k!"pngdata") (fun i => do Bitmap.data (← i.slice 1)) xs o.pngdata := by
  rw [Bitmap.loopEq ] at h
  exact ((Track.folds (get := (·.pngdata)) (fun o x o' hs => (Bitmap.trackAll o x o' hs).2.2.2.2.2.2.2.2) h)).collectedAll

/-- A repeated token with an unknown one in between. -/
example : (Bitmap.fromSexpr (.list [.str k!"bitmap", .list [.str k!"name", .str k!"a"], .list [.str k!"zzz", .int 1], .list [.str k!"name", .str k!"b"]])).map (·.name) = .ok (.str k!"b") := rfl

theorem C36_Bitmap {xs ys : List Val} (hr : Reordered [] xs ys) (o : Bitmap) :
    Bitmap.fromSexpr (.list (.str k!"bitmap" :: xs)) = .ok o ↔ Bitmap.fromSexpr (.list (.str k!"bitmap" :: ys)) = .ok o := by
  rw [Bitmap.loopEq , Bitmap.loopEq ]
  exact reordered_iff Bitmap.indep Bitmap.reordered hr o
example := C36_Bitmap (.swap [] [] [.int 1] [.int 2] k!"name" k!"pos" (by decide) (by decide))

theorem C10_Bitmap (xs ys : List Val) {u : Val} {r : List Val}
    (hu : ∀ k ∈ [k!"name", k!"pos", k!"option", k!"scale", k!"repeat", k!"incrx", k!"incry", k!"comment", k!"pngdata"], u ≠ .str k) :
    Bitmap.fromSexpr (.list (.str k!"bitmap" :: (xs ++ .list (u :: r) :: ys))) =
    Bitmap.fromSexpr (.list (.str k!"bitmap" :: (xs ++ ys))) := by
  rw [Bitmap.loopEq , Bitmap.loopEq ]
  exact forM_insert (Bitmap.unknown hu) _ xs ys
example := C10_Bitmap [.list [.str k!"name", .int 1]] [] (u := .str k!"zzz") (r := [.int 1]) (by simp)

theorem C37_TbText (text : Val) (xs : List Val) (o : TbText) (h : TbText.fromSexpr (.list (.str k!"tbtext" :: text :: xs)) = .ok o) :
    o.text = text ∧
    LastWins (tok k!"name") (·.idx 1) xs (st k!"" : Val) o.name ∧
    LastWins (tok k!"pos") WksPosition.fromSexpr xs ({} : WksPosition) o.position ∧
    LastWins (tok k!"option") (fun i => do return some (← i.idx 1)) xs (none : Option Val) o.option ∧
    LastWins (tok k!"rotate") (fun i => do return some (← i.idx 1)) xs (none : Option Val) o.rotate ∧
    LastWins (tok k!"font") WksFont.fromSexpr xs ({} : WksFont) o.font ∧
    LastWins (tok k!"justify") (fun i => do return some (← Justify.fromSexpr i)) xs (none : Option Justify) o.justify ∧
    LastWins (tok k!"maxlen") (fun i => do return some (← i.idx 1)) xs (none : Option Val) o.maxlen ∧
    LastWins (tok k!"maxheight") (fun i => do return some (← i.idx 1)) xs (none : Option Val) o.maxheight ∧
    LastWins (tok k!"repeat") (fun i => do return some (← i.idx 1)) xs (none : Option Val) o.«repeat» ∧
    LastWins (tok k!"incrx") (fun i => do return some (← i.idx 1)) xs (none : Option Val) o.incrx ∧
    LastWins (tok k!"incry") (fun i => do return some (← i.idx 1)) xs (none : Option Val) o.incry ∧
    LastWins (tok k!"incrlabel") (fun i => do return some (← i.idx 1)) xs (none : Option Val) o.incrlabel ∧
    LastWins (tok k!"comment") (fun i => do return some (← i.idx 1)) xs (none : Option Val) o.comment := by
  rw [TbText.loopEq text] at h
  exact ⟨((Track.folds (get := (·.text)) (fun o x o' hs => (TbText.trackAll o x o' hs).1) h)).const,
    ((Track.folds (get := (·.name)) (fun o x o' hs => (TbText.trackAll o x o' hs).2.1) h)).last,
    ((Track.folds (get := (·.position)) (fun o x o' hs => (TbText.trackAll o x o' hs).2.2.1) h)).last,
    ((Track.folds (get := (·.option)) (fun o x o' hs => (TbText.trackAll o x o' hs).2.2.2.1) h)).last,
    ((Track.folds (get := (·.rotate)) (fun o x o' hs => (TbText.trackAll o x o' hs).2.2.2.2.1) h)).last,
    ((Track.folds (get := (·.font)) (fun o x o' hs => (TbText.trackAll o x o' hs).2.2.2.2.2.1) h)).last,
    ((Track.folds (get := (·.justify)) (fun o x o' hs => (TbText.trackAll o x o' hs).2.2.2.2.2.2.1) h)).last,
    ((Track.folds (get := (·.maxlen)) (fun o x o' hs => (TbText.trackAll o x o' hs).2.2.2.2.2.2.2.1) h)).last,
    ((Track.folds (get := (·.maxheight)) (fun o x o' hs => (TbText.trackAll o x o' hs).2.2.2.2.2.2.2.2.1) h)).last,
    ((Track.folds (get := (·.«repeat»)) (fun o x o' hs => (TbText.trackAll o x o' hs).2.2.2.2.2.2.2.2.2.1) h)).last,
    ((Track.folds (get := (·.incrx)) (fun o x o' hs => (TbText.trackAll o x o' hs).2.2.2.2.2.2.2.2.2.2.1) h)).last,
    ((Track.folds (get := (·.incry)) (fun o x o' hs => (TbText.trackAll o x o' hs).2.2.2.2.2.2.2.2.2.2.2.1) h)).last,
    ((Track.folds (get := (·.incrlabel)) (fun o x o' hs => (TbText.trackAll o x o' hs).2.2.2.2.2.2.2.2.2.2.2.2.1) h)).last,
    ((Track.folds (get := (·.comment)) (fun o x o' hs => (TbText.trackAll o x o' hs).2.2.2.2.2.2.2.2.2.2.2.2.2) h)).last⟩

/-- A repeated token with an unknown one in between. -/
example : (TbText.fromSexpr (.list [.str k!"tbtext", .str k!"x", .list [.str k!"name", .str k!"a"], .list [.str k!"zzz", .int 1], .list [.str k!"name", .str k!"b"]])).map (·.name) = .ok (.str k!"b") := rfl

theorem C36_TbText (text : Val) {xs ys : List Val} (hr : Reordered [] xs ys) (o : TbText) :
    TbText.fromSexpr (.list (.str k!"tbtext" :: text :: xs)) = .ok o ↔ TbText.fromSexpr (.list (.str k!"tbtext" :: text :: ys)) = .ok o := by
  rw [TbText.loopEq text, TbText.loopEq text]
  exact reordered_iff TbText.indep TbText.reordered hr o
example := C36_TbText (.str k!"x") (.swap [] [] [.int 1] [.int 2] k!"name" k!"pos" (by decide) (by decide))

theorem C10_TbText (text : Val) (xs ys : List Val) {u : Val} {r : List Val}
    (hu : ∀ k ∈ [k!"name", k!"pos", k!"option", k!"rotate", k!"font", k!"justify", k!"maxlen", k!"maxheight", k!"repeat", k!"incrx", k!"incry", k!"incrlabel", k!"comment"], u ≠ .str k) :
    TbText.fromSexpr (.list (.str k!"tbtext" :: text :: (xs ++ .list (u :: r) :: ys))) =
    TbText.fromSexpr (.list (.str k!"tbtext" :: text :: (xs ++ ys))) := by
  rw [TbText.loopEq text, TbText.loopEq text]
  exact forM_insert (TbText.unknown hu) _ xs ys
example := C10_TbText (.str k!"x") [.list [.str k!"name", .int 1]] [] (u := .str k!"zzz") (r := [.int 1]) (by simp)

theorem C37_Setup (xs : List Val) (o : Setup) (h : Setup.fromSexpr (.list (.str k!"setup" :: xs)) = .ok o) :
    LastWins (tok k!"textsize") TextSize.fromSexpr xs ({} : TextSize) o.textSize ∧
    LastWins (tok k!"linewidth") (·.idx 1) xs (fl k!"0" k!"15" : Val) o.lineWidth ∧
    LastWins (tok k!"textlinewidth") (·.idx 1) xs (fl k!"0" k!"15" : Val) o.textLineWidth ∧
    LastWins (tok k!"left_margin") (·.idx 1) xs (fl k!"10" k!"0" : Val) o.leftMargin ∧
    LastWins (tok k!"right_margin") (·.idx 1) xs (fl k!"10" k!"0" : Val) o.rightMargin ∧
    LastWins (tok k!"top_margin") (·.idx 1) xs (fl k!"10" k!"0" : Val) o.topMargin ∧
    LastWins (tok k!"bottom_margin") (·.idx 1) xs (fl k!"10" k!"0" : Val) o.bottomMargin := by
  rw [Setup.loopEq ] at h
  exact ⟨((Track.folds (get := (·.textSize)) (fun o x o' hs => (Setup.trackAll o x o' hs).1) h)).last,
    ((Track.folds (get := (·.lineWidth)) (fun o x o' hs => (Setup.trackAll o x o' hs).2.1) h)).last,
    ((Track.folds (get := (·.textLineWidth)) (fun o x o' hs => (Setup.trackAll o x o' hs).2.2.1) h)).last,
    ((Track.folds (get := (·.leftMargin)) (fun o x o' hs => (Setup.trackAll o x o' hs).2.2.2.1) h)).last,
    ((Track.folds (get := (·.rightMargin)) (fun o x o' hs => (Setup.trackAll o x o' hs).2.2.2.2.1) h)).last,
    ((Track.folds (get := (·.topMargin)) (fun o x o' hs => (Setup.trackAll o x o' hs).2.2.2.2.2.1) h)).last,
    ((Track.folds (get := (·.bottomMargin)) (fun o x o' hs => (Setup.trackAll o x o' hs).2.2.2.2.2.2) h)).last⟩

/-- A repeated token with an unknown one in between. -/
example : (Setup.fromSexpr (.list [.str k!"setup", .list [.str k!"linewidth", .str k!"a"], .list [.str k!"zzz", .int 1], .list [.str k!"linewidth", .str k!"b"]])).map (·.lineWidth) = .ok (.str k!"b") := rfl

theorem C36_Setup {xs ys : List Val} (hr : Reordered [] xs ys) (o : Setup) :
    Setup.fromSexpr (.list (.str k!"setup" :: xs)) = .ok o ↔ Setup.fromSexpr (.list (.str k!"setup" :: ys)) = .ok o := by
  rw [Setup.loopEq , Setup.loopEq ]
  exact reordered_iff Setup.indep Setup.reordered hr o
example := C36_Setup (.swap [] [] [.int 1] [.int 2] k!"textsize" k!"linewidth" (by decide) (by decide))

theorem C10_Setup (xs ys : List Val) {u : Val} {r : List Val}
    (hu : ∀ k ∈ [k!"textsize", k!"linewidth", k!"textlinewidth", k!"left_margin", k!"right_margin", k!"top_margin", k!"bottom_margin"], u ≠ .str k) :
    Setup.fromSexpr (.list (.str k!"setup" :: (xs ++ .list (u :: r) :: ys))) =
    Setup.fromSexpr (.list (.str k!"setup" :: (xs ++ ys))) := by
  rw [Setup.loopEq , Setup.loopEq ]
  exact forM_insert (Setup.unknown hu) _ xs ys
example := C10_Setup [.list [.str k!"textsize", .int 1]] [] (u := .str k!"zzz") (r := [.int 1]) (by simp)

theorem C37_WorkSheet (xs : List Val) (o : WorkSheet) (h : WorkSheet.fromSexpr (.list (.str k!"kicad_wks" :: xs)) = .ok o) :
    LastWins (tok k!"version") (·.idx 1) xs (st k!"20211014" : Val) o.version ∧
    LastWins (tok k!"generator") (·.idx 1) xs (st k!"kiutils" : Val) o.generator ∧
    LastWins (tok k!"setup") Setup.fromSexpr xs ({} : Setup) o.setup ∧
    o.filePath = (none : Option Str) := by
  rw [WorkSheet.loopEq ] at h
  exact ⟨((Track.folds (get := (·.version)) (fun o x o' hs => (WorkSheet.trackAll o x o' hs).1) h)).last,
    ((Track.folds (get := (·.generator)) (fun o x o' hs => (WorkSheet.trackAll o x o' hs).2.1) h)).last,
    ((Track.folds (get := (·.setup)) (fun o x o' hs => (WorkSheet.trackAll o x o' hs).2.2.1) h)).last,
    ((Track.folds (get := (·.filePath)) (fun o x o' hs => (WorkSheet.trackAll o x o' hs).2.2.2.2) h)).const⟩
example := C37_WorkSheet [.list [.str k!"version", .str k!"a"]] _ rfl

theorem C11_WorkSheet (xs : List Val) (o : WorkSheet) (h : WorkSheet.fromSexpr (.list (.str k!"kicad_wks" :: xs)) = .ok o) :
    Collected (tokIn [k!"rect", k!"line", k!"tbtext", k!"bitmap"]) (fun i => if tok k!"rect" i then do return .rect (← WksShape.fromSexpr k!"rect" i) else if tok k!"line" i then do return .line (← WksShape.fromSexpr k!"line" i) else if tok k!"tbtext" i then do return .tbtext (← TbText.fromSexpr i) else do return .bitmap (← Bitmap.fromSexpr i)) xs o.drawingObjects := by
  rw [WorkSheet.loopEq ] at h
  exact ((Track.folds (get := (·.drawingObjects)) (fun o x o' hs => (WorkSheet.trackAll o x o' hs).2.2.2.1) h)).collected

/-- A repeated token with an unknown one in between. -/
example : (WorkSheet.fromSexpr (.list [.str k!"kicad_wks", .list [.str k!"version", .str k!"a"], .list [.str k!"zzz", .int 1], .list [.str k!"version", .str k!"b"]])).map (·.version) = .ok (.str k!"b") := rfl

theorem C36_WorkSheet {xs ys : List Val} (hr : Reordered [[k!"rect", k!"line", k!"tbtext", k!"bitmap"]] xs ys) (o : WorkSheet) :
    WorkSheet.fromSexpr (.list (.str k!"kicad_wks" :: xs)) = .ok o ↔ WorkSheet.fromSexpr (.list (.str k!"kicad_wks" :: ys)) = .ok o := by
  rw [WorkSheet.loopEq , WorkSheet.loopEq ]
  exact reordered_iff WorkSheet.indep WorkSheet.reordered hr o
example := C36_WorkSheet (.swap [] [] [.int 1] [.int 2] k!"version" k!"generator" (by decide) (by decide))

theorem C10_WorkSheet (xs ys : List Val) {u : Val} {r : List Val}
    (hu : ∀ k ∈ [k!"version", k!"generator", k!"setup", k!"rect", k!"line", k!"polygon", k!"tbtext", k!"bitmap"], u ≠ .str k) :
    WorkSheet.fromSexpr (.list (.str k!"kicad_wks" :: (xs ++ .list (u :: r) :: ys))) =
    WorkSheet.fromSexpr (.list (.str k!"kicad_wks" :: (xs ++ ys))) := by
  rw [WorkSheet.loopEq , WorkSheet.loopEq ]
  exact forM_insert (WorkSheet.unknown hu) _ xs ys
example := C10_WorkSheet [.list [.str k!"version", .int 1]] [] (u := .str k!"zzz") (r := [.int 1]) (by simp)

end Kiutils
