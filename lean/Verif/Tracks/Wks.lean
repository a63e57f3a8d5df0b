import Verif.Tokens
import Verif.Model.Wks
/-!
# Loop bodies of `from_sexpr` item by item: Wks
-/
namespace Kiutils

theorem WksFont.trackAll (o : WksFont) (x : Val) : Post (WksFont.step o x) fun o' =>
    Track (tok k!"linewidth") (fun _ => fun i => do return some (← i.idx 1)) x o.linewidth o'.linewidth ∧
    Track (tok k!"size") (fun _ => fun i => do return some (← WksFontSize.fromSexpr i)) x o.size o'.size ∧
    Track (wordIn [k!"bold"]) (fun _ _ => .ok true) x o.bold o'.bold ∧
    Track (wordIn [k!"italic"]) (fun _ _ => .ok true) x o.italic o'.italic := by
  unfold WksFont.step
  cases x <;> trackBoth

theorem WksFont.indep (o o' : WksFont) (x : Val) : Same (WksFont.step o x) (WksFont.step o' x) := by
  unfold WksFont.step
  cases x <;> same

theorem WksFont.unknown {h : Val} {r : List Val} (hu : ∀ k ∈ [k!"linewidth", k!"size"], h ≠ .str k) (o : WksFont) :
    WksFont.step o (.list (h :: r)) = .ok o := by
  unfold WksFont.step
  unknownHead hu

theorem WksFont.reordered {o a b : WksFont} {xs ys : List Val} (hr : Reordered [] xs ys) (ha : forM WksFont.step o xs = .ok a)
    (hb : forM WksFont.step o ys = .ok b) : a = b := by
  have f0 : a.linewidth = b.linewidth := (Track.folds (get := (·.linewidth)) (fun o x o' hs => (WksFont.trackAll o x o' hs).1) ha).unique
    (Track.folds (get := (·.linewidth)) (fun o x o' hs => (WksFont.trackAll o x o' hs).1) hb) (hr.tokens _)
  have f1 : a.size = b.size := (Track.folds (get := (·.size)) (fun o x o' hs => (WksFont.trackAll o x o' hs).2.1) ha).unique
    (Track.folds (get := (·.size)) (fun o x o' hs => (WksFont.trackAll o x o' hs).2.1) hb) (hr.tokens _)
  have f2 : a.bold = b.bold := (Track.folds (get := (·.bold)) (fun o x o' hs => (WksFont.trackAll o x o' hs).2.2.1) ha).unique
    (Track.folds (get := (·.bold)) (fun o x o' hs => (WksFont.trackAll o x o' hs).2.2.1) hb) (hr.word _)
  have f3 : a.italic = b.italic := (Track.folds (get := (·.italic)) (fun o x o' hs => (WksFont.trackAll o x o' hs).2.2.2) ha).unique
    (Track.folds (get := (·.italic)) (fun o x o' hs => (WksFont.trackAll o x o' hs).2.2.2) hb) (hr.word _)
  show WksFont.mk a.linewidth a.size a.bold a.italic =
    WksFont.mk b.linewidth b.size b.bold b.italic
  rw [f0, f1, f2, f3]

theorem WksFont.loopEq (xs : List Val) :
    WksFont.fromSexpr (.list (.str k!"font" :: xs)) = forM WksFont.step {} (.str k!"font" :: xs) :=
  rfl

theorem WksShape.trackAll (o : WksShape) (x : Val) : Post (WksShape.step o x) fun o' =>
    Track (tok k!"name") (fun _ => (·.idx 1)) x o.name o'.name ∧
    Track (tok k!"start") (fun _ => WksPosition.fromSexpr) x o.start o'.start ∧
    Track (tok k!"end") (fun _ => WksPosition.fromSexpr) x o.«end» o'.«end» ∧
    Track (tok k!"option") (fun _ => fun i => do return some (← i.idx 1)) x o.option o'.option ∧
    Track (tok k!"linewidth") (fun _ => fun i => do return some (← i.idx 1)) x o.lineWidth o'.lineWidth ∧
    Track (tok k!"repeat") (fun _ => fun i => do return some (← i.idx 1)) x o.«repeat» o'.«repeat» ∧
    Track (tok k!"incrx") (fun _ => fun i => do return some (← i.idx 1)) x o.incrx o'.incrx ∧
    Track (tok k!"incry") (fun _ => fun i => do return some (← i.idx 1)) x o.incry o'.incry ∧
    Track (tok k!"comment") (fun _ => fun i => do return some (← i.idx 1)) x o.comment o'.comment := by
  unfold WksShape.step
  trackItems

theorem WksShape.indep (o o' : WksShape) (x : Val) : Same (WksShape.step o x) (WksShape.step o' x) := by
  unfold WksShape.step
  same

theorem WksShape.unknown {h : Val} {r : List Val} (hu : ∀ k ∈ [k!"name", k!"start", k!"end", k!"option", k!"linewidth", k!"repeat", k!"incrx", k!"incry", k!"comment"], h ≠ .str k) (o : WksShape) :
    WksShape.step o (.list (h :: r)) = .ok o := by
  unfold WksShape.step
  unknownHead hu

theorem WksShape.reordered {o a b : WksShape} {xs ys : List Val} (hr : Reordered [] xs ys) (ha : forM WksShape.step o xs = .ok a)
    (hb : forM WksShape.step o ys = .ok b) : a = b := by
  have f0 : a.name = b.name := (Track.folds (get := (·.name)) (fun o x o' hs => (WksShape.trackAll o x o' hs).1) ha).unique
    (Track.folds (get := (·.name)) (fun o x o' hs => (WksShape.trackAll o x o' hs).1) hb) (hr.tokens _)
  have f1 : a.start = b.start := (Track.folds (get := (·.start)) (fun o x o' hs => (WksShape.trackAll o x o' hs).2.1) ha).unique
    (Track.folds (get := (·.start)) (fun o x o' hs => (WksShape.trackAll o x o' hs).2.1) hb) (hr.tokens _)
  have f2 : a.«end» = b.«end» := (Track.folds (get := (·.«end»)) (fun o x o' hs => (WksShape.trackAll o x o' hs).2.2.1) ha).unique
    (Track.folds (get := (·.«end»)) (fun o x o' hs => (WksShape.trackAll o x o' hs).2.2.1) hb) (hr.tokens _)
  have f3 : a.option = b.option := (Track.folds (get := (·.option)) (fun o x o' hs => (WksShape.trackAll o x o' hs).2.2.2.1) ha).unique
    (Track.folds (get := (·.option)) (fun o x o' hs => (WksShape.trackAll o x o' hs).2.2.2.1) hb) (hr.tokens _)
  have f4 : a.lineWidth = b.lineWidth := (Track.folds (get := (·.lineWidth)) (fun o x o' hs => (WksShape.trackAll o x o' hs).2.2.2.2.1) ha).unique
    (Track.folds (get := (·.lineWidth)) (fun o x o' hs => (WksShape.trackAll o x o' hs).2.2.2.2.1) hb) (hr.tokens _)
  have f5 : a.«repeat» = b.«repeat» := (Track.folds (get := (·.«repeat»)) (fun o x o' hs => (WksShape.trackAll o x o' hs).2.2.2.2.2.1) ha).unique
    (Track.folds (get := (·.«repeat»)) (fun o x o' hs => (WksShape.trackAll o x o' hs).2.2.2.2.2.1) hb) (hr.tokens _)
  have f6 : a.incrx = b.incrx := (Track.folds (get := (·.incrx)) (fun o x o' hs => (WksShape.trackAll o x o' hs).2.2.2.2.2.2.1) ha).unique
    (Track.folds (get := (·.incrx)) (fun o x o' hs => (WksShape.trackAll o x o' hs).2.2.2.2.2.2.1) hb) (hr.tokens _)
  have f7 : a.incry = b.incry := (Track.folds (get := (·.incry)) (fun o x o' hs => (WksShape.trackAll o x o' hs).2.2.2.2.2.2.2.1) ha).unique
    (Track.folds (get := (·.incry)) (fun o x o' hs => (WksShape.trackAll o x o' hs).2.2.2.2.2.2.2.1) hb) (hr.tokens _)
  have f8 : a.comment = b.comment := (Track.folds (get := (·.comment)) (fun o x o' hs => (WksShape.trackAll o x o' hs).2.2.2.2.2.2.2.2) ha).unique
    (Track.folds (get := (·.comment)) (fun o x o' hs => (WksShape.trackAll o x o' hs).2.2.2.2.2.2.2.2) hb) (hr.tokens _)
  show WksShape.mk a.name a.start a.«end» a.option a.lineWidth a.«repeat» a.incrx a.incry a.comment =
    WksShape.mk b.name b.start b.«end» b.option b.lineWidth b.«repeat» b.incrx b.incry b.comment
  rw [f0, f1, f2, f3, f4, f5, f6, f7, f8]

theorem WksShape.loopEq (hd : Str) (xs : List Val) :
    WksShape.fromSexpr hd (.list (.str hd :: xs)) = forM WksShape.step {} xs :=
  by simp only [WksShape.fromSexpr, checkHead_ok, List.drop_succ_cons, List.drop_zero]

theorem Bitmap.trackAll (o : Bitmap) (x : Val) : Post (Bitmap.step o x) fun o' =>
    Track (tok k!"name") (fun _ => (·.idx 1)) x o.name o'.name ∧
    Track (tok k!"pos") (fun _ => WksPosition.fromSexpr) x o.position o'.position ∧
    Track (tok k!"option") (fun _ => fun i => do return some (← i.idx 1)) x o.option o'.option ∧
    Track (tok k!"scale") (fun _ => (·.idx 1)) x o.scale o'.scale ∧
    Track (tok k!"repeat") (fun _ => fun i => do return some (← i.idx 1)) x o.«repeat» o'.«repeat» ∧
    Track (tok k!"incrx") (fun _ => fun i => do return some (← i.idx 1)) x o.incrx o'.incrx ∧
    Track (tok k!"incry") (fun _ => fun i => do return some (← i.idx 1)) x o.incry o'.incry ∧
    Track (tok k!"comment") (fun _ => fun i => do return some (← i.idx 1)) x o.comment o'.comment ∧
    Track (tok k!"pngdata") (fun l i => do return l ++ (← (fun i => do Bitmap.data (← i.slice 1)) i)) x o.pngdata o'.pngdata := by
  unfold Bitmap.step
  trackItems

theorem Bitmap.indep (o o' : Bitmap) (x : Val) : Same (Bitmap.step o x) (Bitmap.step o' x) := by
  unfold Bitmap.step
  same

theorem Bitmap.unknown {h : Val} {r : List Val} (hu : ∀ k ∈ [k!"name", k!"pos", k!"option", k!"scale", k!"repeat", k!"incrx", k!"incry", k!"comment", k!"pngdata"], h ≠ .str k) (o : Bitmap) :
    Bitmap.step o (.list (h :: r)) = .ok o := by
  unfold Bitmap.step
  unknownHead hu

theorem Bitmap.reordered {o a b : Bitmap} {xs ys : List Val} (hr : Reordered [] xs ys) (ha : forM Bitmap.step o xs = .ok a)
    (hb : forM Bitmap.step o ys = .ok b) : a = b := by
  have f0 : a.name = b.name := (Track.folds (get := (·.name)) (fun o x o' hs => (Bitmap.trackAll o x o' hs).1) ha).unique
    (Track.folds (get := (·.name)) (fun o x o' hs => (Bitmap.trackAll o x o' hs).1) hb) (hr.tokens _)
  have f1 : a.position = b.position := (Track.folds (get := (·.position)) (fun o x o' hs => (Bitmap.trackAll o x o' hs).2.1) ha).unique
    (Track.folds (get := (·.position)) (fun o x o' hs => (Bitmap.trackAll o x o' hs).2.1) hb) (hr.tokens _)
  have f2 : a.option = b.option := (Track.folds (get := (·.option)) (fun o x o' hs => (Bitmap.trackAll o x o' hs).2.2.1) ha).unique
    (Track.folds (get := (·.option)) (fun o x o' hs => (Bitmap.trackAll o x o' hs).2.2.1) hb) (hr.tokens _)
  have f3 : a.scale = b.scale := (Track.folds (get := (·.scale)) (fun o x o' hs => (Bitmap.trackAll o x o' hs).2.2.2.1) ha).unique
    (Track.folds (get := (·.scale)) (fun o x o' hs => (Bitmap.trackAll o x o' hs).2.2.2.1) hb) (hr.tokens _)
  have f4 : a.«repeat» = b.«repeat» := (Track.folds (get := (·.«repeat»)) (fun o x o' hs => (Bitmap.trackAll o x o' hs).2.2.2.2.1) ha).unique
    (Track.folds (get := (·.«repeat»)) (fun o x o' hs => (Bitmap.trackAll o x o' hs).2.2.2.2.1) hb) (hr.tokens _)
  have f5 : a.incrx = b.incrx := (Track.folds (get := (·.incrx)) (fun o x o' hs => (Bitmap.trackAll o x o' hs).2.2.2.2.2.1) ha).unique
    (Track.folds (get := (·.incrx)) (fun o x o' hs => (Bitmap.trackAll o x o' hs).2.2.2.2.2.1) hb) (hr.tokens _)
  have f6 : a.incry = b.incry := (Track.folds (get := (·.incry)) (fun o x o' hs => (Bitmap.trackAll o x o' hs).2.2.2.2.2.2.1) ha).unique
    (Track.folds (get := (·.incry)) (fun o x o' hs => (Bitmap.trackAll o x o' hs).2.2.2.2.2.2.1) hb) (hr.tokens _)
  have f7 : a.comment = b.comment := (Track.folds (get := (·.comment)) (fun o x o' hs => (Bitmap.trackAll o x o' hs).2.2.2.2.2.2.2.1) ha).unique
    (Track.folds (get := (·.comment)) (fun o x o' hs => (Bitmap.trackAll o x o' hs).2.2.2.2.2.2.2.1) hb) (hr.tokens _)
  have f8 : a.pngdata = b.pngdata := (Track.folds (get := (·.pngdata)) (fun o x o' hs => (Bitmap.trackAll o x o' hs).2.2.2.2.2.2.2.2) ha).unique
    (Track.folds (get := (·.pngdata)) (fun o x o' hs => (Bitmap.trackAll o x o' hs).2.2.2.2.2.2.2.2) hb) (hr.tokens _)
  show Bitmap.mk a.name a.position a.option a.scale a.«repeat» a.incrx a.incry a.comment a.pngdata =
    Bitmap.mk b.name b.position b.option b.scale b.«repeat» b.incrx b.incry b.comment b.pngdata
  rw [f0, f1, f2, f3, f4, f5, f6, f7, f8]

theorem Bitmap.loopEq (xs : List Val) :
    Bitmap.fromSexpr (.list (.str k!"bitmap" :: xs)) = forM Bitmap.step {} xs :=
  rfl

theorem TbText.trackAll (o : TbText) (x : Val) : Post (TbText.step o x) fun o' =>
    Track (fun _ => false) (fun v _ => .ok v) x o.text o'.text ∧
    Track (tok k!"name") (fun _ => (·.idx 1)) x o.name o'.name ∧
    Track (tok k!"pos") (fun _ => WksPosition.fromSexpr) x o.position o'.position ∧
    Track (tok k!"option") (fun _ => fun i => do return some (← i.idx 1)) x o.option o'.option ∧
    Track (tok k!"rotate") (fun _ => fun i => do return some (← i.idx 1)) x o.rotate o'.rotate ∧
    Track (tok k!"font") (fun _ => WksFont.fromSexpr) x o.font o'.font ∧
    Track (tok k!"justify") (fun _ => fun i => do return some (← Justify.fromSexpr i)) x o.justify o'.justify ∧
    Track (tok k!"maxlen") (fun _ => fun i => do return some (← i.idx 1)) x o.maxlen o'.maxlen ∧
    Track (tok k!"maxheight") (fun _ => fun i => do return some (← i.idx 1)) x o.maxheight o'.maxheight ∧
    Track (tok k!"repeat") (fun _ => fun i => do return some (← i.idx 1)) x o.«repeat» o'.«repeat» ∧
    Track (tok k!"incrx") (fun _ => fun i => do return some (← i.idx 1)) x o.incrx o'.incrx ∧
    Track (tok k!"incry") (fun _ => fun i => do return some (← i.idx 1)) x o.incry o'.incry ∧
    Track (tok k!"incrlabel") (fun _ => fun i => do return some (← i.idx 1)) x o.incrlabel o'.incrlabel ∧
    Track (tok k!"comment") (fun _ => fun i => do return some (← i.idx 1)) x o.comment o'.comment := by
  unfold TbText.step
  trackItems

theorem TbText.indep (o o' : TbText) (x : Val) : Same (TbText.step o x) (TbText.step o' x) := by
  unfold TbText.step
  same

theorem TbText.unknown {h : Val} {r : List Val} (hu : ∀ k ∈ [k!"name", k!"pos", k!"option", k!"rotate", k!"font", k!"justify", k!"maxlen", k!"maxheight", k!"repeat", k!"incrx", k!"incry", k!"incrlabel", k!"comment"], h ≠ .str k) (o : TbText) :
    TbText.step o (.list (h :: r)) = .ok o := by
  unfold TbText.step
  unknownHead hu

theorem TbText.reordered {o a b : TbText} {xs ys : List Val} (hr : Reordered [] xs ys) (ha : forM TbText.step o xs = .ok a)
    (hb : forM TbText.step o ys = .ok b) : a = b := by
  have f0 : a.text = b.text := (Track.folds (get := (·.text)) (fun o x o' hs => (TbText.trackAll o x o' hs).1) ha).unique
    (Track.folds (get := (·.text)) (fun o x o' hs => (TbText.trackAll o x o' hs).1) hb) filter_never
  have f1 : a.name = b.name := (Track.folds (get := (·.name)) (fun o x o' hs => (TbText.trackAll o x o' hs).2.1) ha).unique
    (Track.folds (get := (·.name)) (fun o x o' hs => (TbText.trackAll o x o' hs).2.1) hb) (hr.tokens _)
  have f2 : a.position = b.position := (Track.folds (get := (·.position)) (fun o x o' hs => (TbText.trackAll o x o' hs).2.2.1) ha).unique
    (Track.folds (get := (·.position)) (fun o x o' hs => (TbText.trackAll o x o' hs).2.2.1) hb) (hr.tokens _)
  have f3 : a.option = b.option := (Track.folds (get := (·.option)) (fun o x o' hs => (TbText.trackAll o x o' hs).2.2.2.1) ha).unique
    (Track.folds (get := (·.option)) (fun o x o' hs => (TbText.trackAll o x o' hs).2.2.2.1) hb) (hr.tokens _)
  have f4 : a.rotate = b.rotate := (Track.folds (get := (·.rotate)) (fun o x o' hs => (TbText.trackAll o x o' hs).2.2.2.2.1) ha).unique
    (Track.folds (get := (·.rotate)) (fun o x o' hs => (TbText.trackAll o x o' hs).2.2.2.2.1) hb) (hr.tokens _)
  have f5 : a.font = b.font := (Track.folds (get := (·.font)) (fun o x o' hs => (TbText.trackAll o x o' hs).2.2.2.2.2.1) ha).unique
    (Track.folds (get := (·.font)) (fun o x o' hs => (TbText.trackAll o x o' hs).2.2.2.2.2.1) hb) (hr.tokens _)
  have f6 : a.justify = b.justify := (Track.folds (get := (·.justify)) (fun o x o' hs => (TbText.trackAll o x o' hs).2.2.2.2.2.2.1) ha).unique
    (Track.folds (get := (·.justify)) (fun o x o' hs => (TbText.trackAll o x o' hs).2.2.2.2.2.2.1) hb) (hr.tokens _)
  have f7 : a.maxlen = b.maxlen := (Track.folds (get := (·.maxlen)) (fun o x o' hs => (TbText.trackAll o x o' hs).2.2.2.2.2.2.2.1) ha).unique
    (Track.folds (get := (·.maxlen)) (fun o x o' hs => (TbText.trackAll o x o' hs).2.2.2.2.2.2.2.1) hb) (hr.tokens _)
  have f8 : a.maxheight = b.maxheight := (Track.folds (get := (·.maxheight)) (fun o x o' hs => (TbText.trackAll o x o' hs).2.2.2.2.2.2.2.2.1) ha).unique
    (Track.folds (get := (·.maxheight)) (fun o x o' hs => (TbText.trackAll o x o' hs).2.2.2.2.2.2.2.2.1) hb) (hr.tokens _)
  have f9 : a.«repeat» = b.«repeat» := (Track.folds (get := (·.«repeat»)) (fun o x o' hs => (TbText.trackAll o x o' hs).2.2.2.2.2.2.2.2.2.1) ha).unique
    (Track.folds (get := (·.«repeat»)) (fun o x o' hs => (TbText.trackAll o x o' hs).2.2.2.2.2.2.2.2.2.1) hb) (hr.tokens _)
  have f10 : a.incrx = b.incrx := (Track.folds (get := (·.incrx)) (fun o x o' hs => (TbText.trackAll o x o' hs).2.2.2.2.2.2.2.2.2.2.1) ha).unique
    (Track.folds (get := (·.incrx)) (fun o x o' hs => (TbText.trackAll o x o' hs).2.2.2.2.2.2.2.2.2.2.1) hb) (hr.tokens _)
  have f11 : a.incry = b.incry := (Track.folds (get := (·.incry)) (fun o x o' hs => (TbText.trackAll o x o' hs).2.2.2.2.2.2.2.2.2.2.2.1) ha).unique
    (Track.folds (get := (·.incry)) (fun o x o' hs => (TbText.trackAll o x o' hs).2.2.2.2.2.2.2.2.2.2.2.1) hb) (hr.tokens _)
  have f12 : a.incrlabel = b.incrlabel := (Track.folds (get := (·.incrlabel)) (fun o x o' hs => (TbText.trackAll o x o' hs).2.2.2.2.2.2.2.2.2.2.2.2.1) ha).unique
    (Track.folds (get := (·.incrlabel)) (fun o x o' hs => (TbText.trackAll o x o' hs).2.2.2.2.2.2.2.2.2.2.2.2.1) hb) (hr.tokens _)
  have f13 : a.comment = b.comment := (Track.folds (get := (·.comment)) (fun o x o' hs => (TbText.trackAll o x o' hs).2.2.2.2.2.2.2.2.2.2.2.2.2) ha).unique
    (Track.folds (get := (·.comment)) (fun o x o' hs => (TbText.trackAll o x o' hs).2.2.2.2.2.2.2.2.2.2.2.2.2) hb) (hr.tokens _)
  show TbText.mk a.text a.name a.position a.option a.rotate a.font a.justify a.maxlen a.maxheight a.«repeat» a.incrx a.incry a.incrlabel a.comment =
    TbText.mk b.text b.name b.position b.option b.rotate b.font b.justify b.maxlen b.maxheight b.«repeat» b.incrx b.incry b.incrlabel b.comment
  rw [f0, f1, f2, f3, f4, f5, f6, f7, f8, f9, f10, f11, f12, f13]

theorem TbText.loopEq (text : Val) (xs : List Val) :
    TbText.fromSexpr (.list (.str k!"tbtext" :: text :: xs)) = forM TbText.step { text := text } xs :=
  rfl

theorem Setup.trackAll (o : Setup) (x : Val) : Post (Setup.step o x) fun o' =>
    Track (tok k!"textsize") (fun _ => TextSize.fromSexpr) x o.textSize o'.textSize ∧
    Track (tok k!"linewidth") (fun _ => (·.idx 1)) x o.lineWidth o'.lineWidth ∧
    Track (tok k!"textlinewidth") (fun _ => (·.idx 1)) x o.textLineWidth o'.textLineWidth ∧
    Track (tok k!"left_margin") (fun _ => (·.idx 1)) x o.leftMargin o'.leftMargin ∧
    Track (tok k!"right_margin") (fun _ => (·.idx 1)) x o.rightMargin o'.rightMargin ∧
    Track (tok k!"top_margin") (fun _ => (·.idx 1)) x o.topMargin o'.topMargin ∧
    Track (tok k!"bottom_margin") (fun _ => (·.idx 1)) x o.bottomMargin o'.bottomMargin := by
  unfold Setup.step
  trackItems

theorem Setup.indep (o o' : Setup) (x : Val) : Same (Setup.step o x) (Setup.step o' x) := by
  unfold Setup.step
  same

theorem Setup.unknown {h : Val} {r : List Val} (hu : ∀ k ∈ [k!"textsize", k!"linewidth", k!"textlinewidth", k!"left_margin", k!"right_margin", k!"top_margin", k!"bottom_margin"], h ≠ .str k) (o : Setup) :
    Setup.step o (.list (h :: r)) = .ok o := by
  unfold Setup.step
  unknownHead hu

theorem Setup.reordered {o a b : Setup} {xs ys : List Val} (hr : Reordered [] xs ys) (ha : forM Setup.step o xs = .ok a)
    (hb : forM Setup.step o ys = .ok b) : a = b := by
  have f0 : a.textSize = b.textSize := (Track.folds (get := (·.textSize)) (fun o x o' hs => (Setup.trackAll o x o' hs).1) ha).unique
    (Track.folds (get := (·.textSize)) (fun o x o' hs => (Setup.trackAll o x o' hs).1) hb) (hr.tokens _)
  have f1 : a.lineWidth = b.lineWidth := (Track.folds (get := (·.lineWidth)) (fun o x o' hs => (Setup.trackAll o x o' hs).2.1) ha).unique
    (Track.folds (get := (·.lineWidth)) (fun o x o' hs => (Setup.trackAll o x o' hs).2.1) hb) (hr.tokens _)
  have f2 : a.textLineWidth = b.textLineWidth := (Track.folds (get := (·.textLineWidth)) (fun o x o' hs => (Setup.trackAll o x o' hs).2.2.1) ha).unique
    (Track.folds (get := (·.textLineWidth)) (fun o x o' hs => (Setup.trackAll o x o' hs).2.2.1) hb) (hr.tokens _)
  have f3 : a.leftMargin = b.leftMargin := (Track.folds (get := (·.leftMargin)) (fun o x o' hs => (Setup.trackAll o x o' hs).2.2.2.1) ha).unique
    (Track.folds (get := (·.leftMargin)) (fun o x o' hs => (Setup.trackAll o x o' hs).2.2.2.1) hb) (hr.tokens _)
  have f4 : a.rightMargin = b.rightMargin := (Track.folds (get := (·.rightMargin)) (fun o x o' hs => (Setup.trackAll o x o' hs).2.2.2.2.1) ha).unique
    (Track.folds (get := (·.rightMargin)) (fun o x o' hs => (Setup.trackAll o x o' hs).2.2.2.2.1) hb) (hr.tokens _)
  have f5 : a.topMargin = b.topMargin := (Track.folds (get := (·.topMargin)) (fun o x o' hs => (Setup.trackAll o x o' hs).2.2.2.2.2.1) ha).unique
    (Track.folds (get := (·.topMargin)) (fun o x o' hs => (Setup.trackAll o x o' hs).2.2.2.2.2.1) hb) (hr.tokens _)
  have f6 : a.bottomMargin = b.bottomMargin := (Track.folds (get := (·.bottomMargin)) (fun o x o' hs => (Setup.trackAll o x o' hs).2.2.2.2.2.2) ha).unique
    (Track.folds (get := (·.bottomMargin)) (fun o x o' hs => (Setup.trackAll o x o' hs).2.2.2.2.2.2) hb) (hr.tokens _)
  show Setup.mk a.textSize a.lineWidth a.textLineWidth a.leftMargin a.rightMargin a.topMargin a.bottomMargin =
    Setup.mk b.textSize b.lineWidth b.textLineWidth b.leftMargin b.rightMargin b.topMargin b.bottomMargin
  rw [f0, f1, f2, f3, f4, f5, f6]

theorem Setup.loopEq (xs : List Val) :
    Setup.fromSexpr (.list (.str k!"setup" :: xs)) = forM Setup.step {} xs :=
  rfl

theorem WorkSheet.trackAll (o : WorkSheet) (x : Val) : Post (WorkSheet.step o x) fun o' =>
    Track (tok k!"version") (fun _ => (·.idx 1)) x o.version o'.version ∧
    Track (tok k!"generator") (fun _ => (·.idx 1)) x o.generator o'.generator ∧
    Track (tok k!"setup") (fun _ => Setup.fromSexpr) x o.setup o'.setup ∧
    Track (tokIn [k!"rect", k!"line", k!"tbtext", k!"bitmap"]) (fun l i => do return l ++ [← (fun i => if tok k!"rect" i then do return .rect (← WksShape.fromSexpr k!"rect" i) else if tok k!"line" i then do return .line (← WksShape.fromSexpr k!"line" i) else if tok k!"tbtext" i then do return .tbtext (← TbText.fromSexpr i) else do return .bitmap (← Bitmap.fromSexpr i)) i]) x o.drawingObjects o'.drawingObjects ∧
    Track (fun _ => false) (fun v _ => .ok v) x o.filePath o'.filePath := by
  unfold WorkSheet.step
  trackItems

theorem WorkSheet.indep (o o' : WorkSheet) (x : Val) : Same (WorkSheet.step o x) (WorkSheet.step o' x) := by
  unfold WorkSheet.step
  same

theorem WorkSheet.unknown {h : Val} {r : List Val} (hu : ∀ k ∈ [k!"version", k!"generator", k!"setup", k!"rect", k!"line", k!"polygon", k!"tbtext", k!"bitmap"], h ≠ .str k) (o : WorkSheet) :
    WorkSheet.step o (.list (h :: r)) = .ok o := by
  unfold WorkSheet.step
  unknownHead hu

theorem WorkSheet.reordered {o a b : WorkSheet} {xs ys : List Val} (hr : Reordered [[k!"rect", k!"line", k!"tbtext", k!"bitmap"]] xs ys) (ha : forM WorkSheet.step o xs = .ok a)
    (hb : forM WorkSheet.step o ys = .ok b) : a = b := by
  have f0 : a.version = b.version := (Track.folds (get := (·.version)) (fun o x o' hs => (WorkSheet.trackAll o x o' hs).1) ha).unique
    (Track.folds (get := (·.version)) (fun o x o' hs => (WorkSheet.trackAll o x o' hs).1) hb) (hr.tokens _)
  have f1 : a.generator = b.generator := (Track.folds (get := (·.generator)) (fun o x o' hs => (WorkSheet.trackAll o x o' hs).2.1) ha).unique
    (Track.folds (get := (·.generator)) (fun o x o' hs => (WorkSheet.trackAll o x o' hs).2.1) hb) (hr.tokens _)
  have f2 : a.setup = b.setup := (Track.folds (get := (·.setup)) (fun o x o' hs => (WorkSheet.trackAll o x o' hs).2.2.1) ha).unique
    (Track.folds (get := (·.setup)) (fun o x o' hs => (WorkSheet.trackAll o x o' hs).2.2.1) hb) (hr.tokens _)
  have f3 : a.drawingObjects = b.drawingObjects := (Track.folds (get := (·.drawingObjects)) (fun o x o' hs => (WorkSheet.trackAll o x o' hs).2.2.2.1) ha).unique
    (Track.folds (get := (·.drawingObjects)) (fun o x o' hs => (WorkSheet.trackAll o x o' hs).2.2.2.1) hb) (hr.groups _ (by simp))
  have f4 : a.filePath = b.filePath := (Track.folds (get := (·.filePath)) (fun o x o' hs => (WorkSheet.trackAll o x o' hs).2.2.2.2) ha).unique
    (Track.folds (get := (·.filePath)) (fun o x o' hs => (WorkSheet.trackAll o x o' hs).2.2.2.2) hb) filter_never
  show WorkSheet.mk a.version a.generator a.setup a.drawingObjects a.filePath =
    WorkSheet.mk b.version b.generator b.setup b.drawingObjects b.filePath
  rw [f0, f1, f2, f3, f4]

theorem WorkSheet.loopEq (xs : List Val) :
    WorkSheet.fromSexpr (.list (.str k!"kicad_wks" :: xs)) = forM WorkSheet.step {} xs :=
  rfl

end Kiutils
