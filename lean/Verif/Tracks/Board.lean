import Verif.Tokens
import Verif.Model.Board
/-!
# Loop bodies of `from_sexpr` item by item: Board
-/
namespace Kiutils

theorem Board.trackAll (tedit : Val) (o : Board) (x : Val) : Post (Board.step tedit o x) fun o' =>
    Track (tok k!"version") (fun _ => (·.idx 1)) x o.version o'.version ∧
    Track (tok k!"generator") (fun _ => (·.idx 1)) x o.generator o'.generator ∧
    Track (tok k!"general") (fun _ => GeneralSettings.fromSexpr) x o.general o'.general ∧
    Track (tok k!"paper") (fun _ => PageSettings.fromSexpr) x o.paper o'.paper ∧
    Track (tok k!"title_block") (fun _ => fun i => do return some (← TitleBlock.fromSexpr i)) x o.titleBlock o'.titleBlock ∧
    Track (tok k!"layers") (fun l i => do return l ++ (← (fun i => do mapM' LayerToken.fromSexpr (← i.slice 1)) i)) x o.layers o'.layers ∧
    Track (tok k!"setup") (fun _ => SetupData.fromSexpr) x o.setup o'.setup ∧
    Track (tok k!"property") (fun acc i => do let k ← i.idx 1; let v ← i.idx 2; Dict.update acc k v) x o.properties o'.properties ∧
    Track (tok k!"net") (fun l i => do return l ++ [← Net.fromSexpr i]) x o.nets o'.nets ∧
    Track (tok k!"footprint") (fun l i => do return l ++ [← (fun i => do return ← Footprint.fromSexpr tedit i) i]) x o.footprints o'.footprints ∧
    Track (tokIn [k!"gr_text", k!"gr_text_box", k!"gr_line", k!"gr_rect", k!"gr_circle", k!"gr_arc", k!"gr_poly", k!"gr_curve", k!"image"]) (fun l i => do return l ++ [← (fun i => if tok k!"gr_text" i then do return .text (← GrText.fromSexpr i) else if tok k!"gr_text_box" i then do return .textBox (← GrTextBox.fromSexpr i) else if tok k!"gr_line" i then do return .line (← GrLine.fromSexpr i) else if tok k!"gr_rect" i then do return .rect (← GrRect.fromSexpr i) else if tok k!"gr_circle" i then do return .circle (← GrCircle.fromSexpr i) else if tok k!"gr_arc" i then do return .arc (← GrArc.fromSexpr i) else if tok k!"gr_poly" i then do return .poly (← GrPoly.fromSexpr i) else if tok k!"gr_curve" i then do return .curve (← GrCurve.fromSexpr i) else do return .image (← Image.fromSexpr i)) i]) x o.graphicItems o'.graphicItems ∧
    Track (tokIn [k!"segment", k!"arc", k!"via"]) (fun l i => do return l ++ [← (fun i => if tok k!"segment" i then do return .segment (← Segment.fromSexpr i) else if tok k!"arc" i then do return .arc (← TraceArc.fromSexpr i) else do return .via (← Via.fromSexpr i)) i]) x o.traceItems o'.traceItems ∧
    Track (tok k!"zone") (fun l i => do return l ++ [← Zone.fromSexpr i]) x o.zones o'.zones ∧
    Track (tok k!"dimension") (fun l i => do return l ++ [← Dimension.fromSexpr i]) x o.dimensions o'.dimensions ∧
    Track (tok k!"target") (fun l i => do return l ++ [← Target.fromSexpr i]) x o.targets o'.targets ∧
    Track (tok k!"group") (fun l i => do return l ++ [← Group.fromSexpr i]) x o.groups o'.groups ∧
    Track (fun _ => false) (fun v _ => .ok v) x o.filePath o'.filePath := by
  unfold Board.step
  trackItems

theorem Board.indep (tedit : Val) (o o' : Board) (x : Val) : Same (Board.step tedit o x) (Board.step tedit o' x) := by
  unfold Board.step
  same

theorem Board.unknown (tedit : Val) {h : Val} {r : List Val} (hu : ∀ k ∈ [k!"version", k!"generator", k!"general", k!"paper", k!"title_block", k!"layers", k!"setup", k!"property", k!"net", k!"footprint", k!"gr_text", k!"gr_text_box", k!"gr_line", k!"gr_rect", k!"gr_circle", k!"gr_arc", k!"gr_poly", k!"gr_curve", k!"image", k!"dimension", k!"target", k!"segment", k!"arc", k!"via", k!"zone", k!"group"], h ≠ .str k) (o : Board) :
    Board.step tedit o (.list (h :: r)) = .ok o := by
  unfold Board.step
  unknownHead hu

theorem Board.reordered (tedit : Val) {o a b : Board} {xs ys : List Val} (hr : Reordered [[k!"gr_text", k!"gr_text_box", k!"gr_line", k!"gr_rect", k!"gr_circle", k!"gr_arc", k!"gr_poly", k!"gr_curve", k!"image"], [k!"segment", k!"arc", k!"via"]] xs ys) (ha : forM (Board.step tedit) o xs = .ok a)
    (hb : forM (Board.step tedit) o ys = .ok b) : a = b := by
  have f0 : a.version = b.version := (Track.folds (get := (·.version)) (fun o x o' hs => (Board.trackAll tedit o x o' hs).1) ha).unique
    (Track.folds (get := (·.version)) (fun o x o' hs => (Board.trackAll tedit o x o' hs).1) hb) (hr.tokens _)
  have f1 : a.generator = b.generator := (Track.folds (get := (·.generator)) (fun o x o' hs => (Board.trackAll tedit o x o' hs).2.1) ha).unique
    (Track.folds (get := (·.generator)) (fun o x o' hs => (Board.trackAll tedit o x o' hs).2.1) hb) (hr.tokens _)
  have f2 : a.general = b.general := (Track.folds (get := (·.general)) (fun o x o' hs => (Board.trackAll tedit o x o' hs).2.2.1) ha).unique
    (Track.folds (get := (·.general)) (fun o x o' hs => (Board.trackAll tedit o x o' hs).2.2.1) hb) (hr.tokens _)
  have f3 : a.paper = b.paper := (Track.folds (get := (·.paper)) (fun o x o' hs => (Board.trackAll tedit o x o' hs).2.2.2.1) ha).unique
    (Track.folds (get := (·.paper)) (fun o x o' hs => (Board.trackAll tedit o x o' hs).2.2.2.1) hb) (hr.tokens _)
  have f4 : a.titleBlock = b.titleBlock := (Track.folds (get := (·.titleBlock)) (fun o x o' hs => (Board.trackAll tedit o x o' hs).2.2.2.2.1) ha).unique
    (Track.folds (get := (·.titleBlock)) (fun o x o' hs => (Board.trackAll tedit o x o' hs).2.2.2.2.1) hb) (hr.tokens _)
  have f5 : a.layers = b.layers := (Track.folds (get := (·.layers)) (fun o x o' hs => (Board.trackAll tedit o x o' hs).2.2.2.2.2.1) ha).unique
    (Track.folds (get := (·.layers)) (fun o x o' hs => (Board.trackAll tedit o x o' hs).2.2.2.2.2.1) hb) (hr.tokens _)
  have f6 : a.setup = b.setup := (Track.folds (get := (·.setup)) (fun o x o' hs => (Board.trackAll tedit o x o' hs).2.2.2.2.2.2.1) ha).unique
    (Track.folds (get := (·.setup)) (fun o x o' hs => (Board.trackAll tedit o x o' hs).2.2.2.2.2.2.1) hb) (hr.tokens _)
  have f7 : a.properties = b.properties := (Track.folds (get := (·.properties)) (fun o x o' hs => (Board.trackAll tedit o x o' hs).2.2.2.2.2.2.2.1) ha).unique
    (Track.folds (get := (·.properties)) (fun o x o' hs => (Board.trackAll tedit o x o' hs).2.2.2.2.2.2.2.1) hb) (hr.tokens _)
  have f8 : a.nets = b.nets := (Track.folds (get := (·.nets)) (fun o x o' hs => (Board.trackAll tedit o x o' hs).2.2.2.2.2.2.2.2.1) ha).unique
    (Track.folds (get := (·.nets)) (fun o x o' hs => (Board.trackAll tedit o x o' hs).2.2.2.2.2.2.2.2.1) hb) (hr.tokens _)
  have f9 : a.footprints = b.footprints := (Track.folds (get := (·.footprints)) (fun o x o' hs => (Board.trackAll tedit o x o' hs).2.2.2.2.2.2.2.2.2.1) ha).unique
    (Track.folds (get := (·.footprints)) (fun o x o' hs => (Board.trackAll tedit o x o' hs).2.2.2.2.2.2.2.2.2.1) hb) (hr.tokens _)
  have f10 : a.graphicItems = b.graphicItems := (Track.folds (get := (·.graphicItems)) (fun o x o' hs => (Board.trackAll tedit o x o' hs).2.2.2.2.2.2.2.2.2.2.1) ha).unique
    (Track.folds (get := (·.graphicItems)) (fun o x o' hs => (Board.trackAll tedit o x o' hs).2.2.2.2.2.2.2.2.2.2.1) hb) (hr.groups _ (by simp))
  have f11 : a.traceItems = b.traceItems := (Track.folds (get := (·.traceItems)) (fun o x o' hs => (Board.trackAll tedit o x o' hs).2.2.2.2.2.2.2.2.2.2.2.1) ha).unique
    (Track.folds (get := (·.traceItems)) (fun o x o' hs => (Board.trackAll tedit o x o' hs).2.2.2.2.2.2.2.2.2.2.2.1) hb) (hr.groups _ (by simp))
  have f12 : a.zones = b.zones := (Track.folds (get := (·.zones)) (fun o x o' hs => (Board.trackAll tedit o x o' hs).2.2.2.2.2.2.2.2.2.2.2.2.1) ha).unique
    (Track.folds (get := (·.zones)) (fun o x o' hs => (Board.trackAll tedit o x o' hs).2.2.2.2.2.2.2.2.2.2.2.2.1) hb) (hr.tokens _)
  have f13 : a.dimensions = b.dimensions := (Track.folds (get := (·.dimensions)) (fun o x o' hs => (Board.trackAll tedit o x o' hs).2.2.2.2.2.2.2.2.2.2.2.2.2.1) ha).unique
    (Track.folds (get := (·.dimensions)) (fun o x o' hs => (Board.trackAll tedit o x o' hs).2.2.2.2.2.2.2.2.2.2.2.2.2.1) hb) (hr.tokens _)
  have f14 : a.targets = b.targets := (Track.folds (get := (·.targets)) (fun o x o' hs => (Board.trackAll tedit o x o' hs).2.2.2.2.2.2.2.2.2.2.2.2.2.2.1) ha).unique
    (Track.folds (get := (·.targets)) (fun o x o' hs => (Board.trackAll tedit o x o' hs).2.2.2.2.2.2.2.2.2.2.2.2.2.2.1) hb) (hr.tokens _)
  have f15 : a.groups = b.groups := (Track.folds (get := (·.groups)) (fun o x o' hs => (Board.trackAll tedit o x o' hs).2.2.2.2.2.2.2.2.2.2.2.2.2.2.2.1) ha).unique
    (Track.folds (get := (·.groups)) (fun o x o' hs => (Board.trackAll tedit o x o' hs).2.2.2.2.2.2.2.2.2.2.2.2.2.2.2.1) hb) (hr.tokens _)
  have f16 : a.filePath = b.filePath := (Track.folds (get := (·.filePath)) (fun o x o' hs => (Board.trackAll tedit o x o' hs).2.2.2.2.2.2.2.2.2.2.2.2.2.2.2.2) ha).unique
    (Track.folds (get := (·.filePath)) (fun o x o' hs => (Board.trackAll tedit o x o' hs).2.2.2.2.2.2.2.2.2.2.2.2.2.2.2.2) hb) filter_never
  show Board.mk a.version a.generator a.general a.paper a.titleBlock a.layers a.setup a.properties a.nets a.footprints a.graphicItems a.traceItems a.zones a.dimensions a.targets a.groups a.filePath =
    Board.mk b.version b.generator b.general b.paper b.titleBlock b.layers b.setup b.properties b.nets b.footprints b.graphicItems b.traceItems b.zones b.dimensions b.targets b.groups b.filePath
  rw [f0, f1, f2, f3, f4, f5, f6, f7, f8, f9, f10, f11, f12, f13, f14, f15, f16]

theorem Board.loopEq (tedit : Val) (xs : List Val) :
    Board.fromSexpr tedit (.list (.str k!"kicad_pcb" :: xs)) = forM (Board.step tedit) {} (.str k!"kicad_pcb" :: xs) :=
  rfl

end Kiutils
