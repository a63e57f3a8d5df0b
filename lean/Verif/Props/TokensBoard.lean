import Verif.Swap
import Verif.Tracks.Board
/-!
# What `from_sexpr` makes of the items of a list: Board

For each class: `C37` (every field is read from the last item with its token; flags are set when their word or token occurs),
`C11` (lists contain all items with their tokens, once each, in order), `C36` (unrelated items may change places), `C10` (items
with unknown tokens are ignored). The vocabulary is defined in `Verif/Tokens.lean`.
-/
namespace Kiutils

theorem C37_Board (tedit : Val) (xs : List Val) (o : Board) (h : Board.fromSexpr tedit (.list (.str k!"kicad_pcb" :: xs)) = .ok o) :
    LastWins (tok k!"version") (·.idx 1) xs (st k!"" : Val) o.version ∧
    LastWins (tok k!"generator") (·.idx 1) xs (st k!"" : Val) o.generator ∧
    LastWins (tok k!"general") GeneralSettings.fromSexpr xs ({} : GeneralSettings) o.general ∧
    LastWins (tok k!"paper") PageSettings.fromSexpr xs ({} : PageSettings) o.paper ∧
    LastWins (tok k!"title_block") (fun i => do return some (← TitleBlock.fromSexpr i)) xs (none : Option TitleBlock) o.titleBlock ∧
    LastWins (tok k!"setup") SetupData.fromSexpr xs ({} : SetupData) o.setup ∧
    FoldsTo (tok k!"property") (fun acc i => do let k ← i.idx 1; let v ← i.idx 2; Dict.update acc k v) xs ([] : Dict Val) o.properties ∧
    o.filePath = (none : Option Str) := by
  rw [Board.loopEq tedit] at h
  exact ⟨((Track.folds (get := (·.version)) (fun o x o' hs => (Board.trackAll tedit o x o' hs).1) h).drop rfl).last,
    ((Track.folds (get := (·.generator)) (fun o x o' hs => (Board.trackAll tedit o x o' hs).2.1) h).drop rfl).last,
    ((Track.folds (get := (·.general)) (fun o x o' hs => (Board.trackAll tedit o x o' hs).2.2.1) h).drop rfl).last,
    ((Track.folds (get := (·.paper)) (fun o x o' hs => (Board.trackAll tedit o x o' hs).2.2.2.1) h).drop rfl).last,
    ((Track.folds (get := (·.titleBlock)) (fun o x o' hs => (Board.trackAll tedit o x o' hs).2.2.2.2.1) h).drop rfl).last,
    ((Track.folds (get := (·.setup)) (fun o x o' hs => (Board.trackAll tedit o x o' hs).2.2.2.2.2.2.1) h).drop rfl).last,
    ((Track.folds (get := (·.properties)) (fun o x o' hs => (Board.trackAll tedit o x o' hs).2.2.2.2.2.2.2.1) h).drop rfl),
    ((Track.folds (get := (·.filePath)) (fun o x o' hs => (Board.trackAll tedit o x o' hs).2.2.2.2.2.2.2.2.2.2.2.2.2.2.2.2) h)).const⟩
example := C37_Board (.int 0) [.list [.str k!"version", .str k!"a"]] _ rfl

theorem C11_Board (tedit : Val) (xs : List Val) (o : Board) (h : Board.fromSexpr tedit (.list (.str k!"kicad_pcb" :: xs)) = .ok o) :
    CollectedAll (tok k!"layers") (fun i => do mapM' LayerToken.fromSexpr (← i.slice 1)) xs o.layers ∧
    Collected (tok k!"net") Net.fromSexpr xs o.nets ∧
    Collected (tok k!"footprint") (fun i => do return ← Footprint.fromSexpr tedit i) xs o.footprints ∧
    Collected (tokIn [k!"gr_text", k!"gr_text_box", k!"gr_line", k!"gr_rect", k!"gr_circle", k!"gr_arc", k!"gr_poly", k!"gr_curve", k!"image"]) (fun i => if tok k!"gr_text" i then do return .text (← GrText.fromSexpr i) else if tok k!"gr_text_box" i then do return .textBox (← GrTextBox.fromSexpr i) else if tok k!"gr_line" i then do return .line (← GrLine.fromSexpr i) else if tok k!"gr_rect" i then do return .rect (← GrRect.fromSexpr i) else if tok k!"gr_circle" i then do return .circle (← GrCircle.fromSexpr i) else if tok k!"gr_arc" i then do return .arc (← GrArc.fromSexpr i) else if tok k!"gr_poly" i then do return .poly (← GrPoly.fromSexpr i) else if tok k!"gr_curve" i then do return .curve (← GrCurve.fromSexpr i) else do return .image (← Image.fromSexpr i)) xs o.graphicItems ∧
    Collected (tokIn [k!"segment", k!"arc", k!"via"]) (fun i => if tok k!"segment" i then do return .segment (← Segment.fromSexpr i) else if tok k!"arc" i then do return .arc (← TraceArc.fromSexpr i) else do return .via (← Via.fromSexpr i)) xs o.traceItems ∧
    Collected (tok k!"zone") Zone.fromSexpr xs o.zones ∧
    Collected (tok k!"dimension") Dimension.fromSexpr xs o.dimensions ∧
    Collected (tok k!"target") Target.fromSexpr xs o.targets ∧
    Collected (tok k!"group") Group.fromSexpr xs o.groups := by
  rw [Board.loopEq tedit] at h
  exact ⟨((Track.folds (get := (·.layers)) (fun o x o' hs => (Board.trackAll tedit o x o' hs).2.2.2.2.2.1) h).drop rfl).collectedAll,
    ((Track.folds (get := (·.nets)) (fun o x o' hs => (Board.trackAll tedit o x o' hs).2.2.2.2.2.2.2.2.1) h).drop rfl).collected,
    ((Track.folds (get := (·.footprints)) (fun o x o' hs => (Board.trackAll tedit o x o' hs).2.2.2.2.2.2.2.2.2.1) h).drop rfl).collected,
    ((Track.folds (get := (·.graphicItems)) (fun o x o' hs => (Board.trackAll tedit o x o' hs).2.2.2.2.2.2.2.2.2.2.1) h).drop rfl).collected,
    ((Track.folds (get := (·.traceItems)) (fun o x o' hs => (Board.trackAll tedit o x o' hs).2.2.2.2.2.2.2.2.2.2.2.1) h).drop rfl).collected,
    ((Track.folds (get := (·.zones)) (fun o x o' hs => (Board.trackAll tedit o x o' hs).2.2.2.2.2.2.2.2.2.2.2.2.1) h).drop rfl).collected,
    ((Track.folds (get := (·.dimensions)) (fun o x o' hs => (Board.trackAll tedit o x o' hs).2.2.2.2.2.2.2.2.2.2.2.2.2.1) h).drop rfl).collected,
    ((Track.folds (get := (·.targets)) (fun o x o' hs => (Board.trackAll tedit o x o' hs).2.2.2.2.2.2.2.2.2.2.2.2.2.2.1) h).drop rfl).collected,
    ((Track.folds (get := (·.groups)) (fun o x o' hs => (Board.trackAll tedit o x o' hs).2.2.2.2.2.2.2.2.2.2.2.2.2.2.2.1) h).drop rfl).collected⟩

/-- A repeated token with an unknown one in between. -/
example : (Board.fromSexpr (.int 0) (.list [.str k!"kicad_pcb", .list [.str k!"version", .str k!"a"], .list [.str k!"zzz", .int 1], .list [.str k!"version", .str k!"b"]])).map (·.version) = .ok (.str k!"b") := rfl

theorem C36_Board (tedit : Val) {xs ys : List Val} (hr : Reordered [[k!"gr_text", k!"gr_text_box", k!"gr_line", k!"gr_rect", k!"gr_circle", k!"gr_arc", k!"gr_poly", k!"gr_curve", k!"image"], [k!"segment", k!"arc", k!"via"]] xs ys) (o : Board) :
    Board.fromSexpr tedit (.list (.str k!"kicad_pcb" :: xs)) = .ok o ↔ Board.fromSexpr tedit (.list (.str k!"kicad_pcb" :: ys)) = .ok o := by
  rw [Board.loopEq tedit, Board.loopEq tedit]
  exact reordered_iff (Board.indep tedit) (Board.reordered tedit) (hr.cons _) o
example := C36_Board (.int 0) (.swap [] [] [.int 1] [.int 2] k!"version" k!"generator" (by decide) (by decide))

theorem C10_Board (tedit : Val) (xs ys : List Val) {u : Val} {r : List Val}
    (hu : ∀ k ∈ [k!"version", k!"generator", k!"general", k!"paper", k!"title_block", k!"layers", k!"setup", k!"property", k!"net", k!"footprint", k!"gr_text", k!"gr_text_box", k!"gr_line", k!"gr_rect", k!"gr_circle", k!"gr_arc", k!"gr_poly", k!"gr_curve", k!"image", k!"dimension", k!"target", k!"segment", k!"arc", k!"via", k!"zone", k!"group"], u ≠ .str k) :
    Board.fromSexpr tedit (.list (.str k!"kicad_pcb" :: (xs ++ .list (u :: r) :: ys))) =
    Board.fromSexpr tedit (.list (.str k!"kicad_pcb" :: (xs ++ ys))) := by
  rw [Board.loopEq tedit, Board.loopEq tedit]
  exact forM_insert (Board.unknown tedit hu) _ (.str k!"kicad_pcb" :: xs) ys
example := C10_Board (.int 0) [.list [.str k!"version", .int 1]] [] (u := .str k!"zzz") (r := [.int 1]) (by simp)

end Kiutils
