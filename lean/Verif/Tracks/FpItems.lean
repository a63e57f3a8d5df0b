import Verif.Tokens
import Verif.Model.FpItems
/-!
# Loop bodies of `from_sexpr` item by item: FpItems
-/
namespace Kiutils

theorem FpText.trackAll (o : FpText) (x : Val) : Post (FpText.step o x) fun o' =>
    Track (fun _ => false) (fun v _ => .ok v) x o.type o'.type ∧
    Track (fun _ => false) (fun v _ => .ok v) x o.text o'.text ∧
    Track (tok k!"at") (fun _ => Position.fromSexpr) x o.position o'.position ∧
    Track (tok k!"layer") (fun _ => (·.idx 1)) x o.layer o'.layer ∧
    Track (tok k!"layer") (fun acc i => do if (← i.len) > 2 then if (← i.idx 2).is k!"knockout" then return true else return acc else return acc) x o.knockout o'.knockout ∧
    Track (wordIn [k!"hide"]) (fun _ _ => .ok true) x o.hide o'.hide ∧
    Track (tok k!"effects") (fun _ => Effects.fromSexpr) x o.effects o'.effects ∧
    Track (tok k!"tstamp") (fun _ => fun i => do return some (← i.idx 1)) x o.tstamp o'.tstamp ∧
    Track (tok k!"render_cache") (fun _ => fun i => do return some (← RenderCache.fromSexpr i)) x o.renderCache o'.renderCache := by
  unfold FpText.step
  cases x <;> trackBoth

theorem FpText.indep (o o' : FpText) (x : Val) : Same (FpText.step o x) (FpText.step o' x) := by
  unfold FpText.step
  cases x <;> same

theorem FpText.unknown {h : Val} {r : List Val} (hu : ∀ k ∈ [k!"at", k!"layer", k!"effects", k!"tstamp", k!"render_cache"], h ≠ .str k) (o : FpText) :
    FpText.step o (.list (h :: r)) = .ok o := by
  unfold FpText.step
  unknownHead hu

theorem FpText.reordered {o a b : FpText} {xs ys : List Val} (hr : Reordered [] xs ys) (ha : forM FpText.step o xs = .ok a)
    (hb : forM FpText.step o ys = .ok b) : a = b := by
  have f0 : a.type = b.type := (Track.folds (get := (·.type)) (fun o x o' hs => (FpText.trackAll o x o' hs).1) ha).unique
    (Track.folds (get := (·.type)) (fun o x o' hs => (FpText.trackAll o x o' hs).1) hb) filter_never
  have f1 : a.text = b.text := (Track.folds (get := (·.text)) (fun o x o' hs => (FpText.trackAll o x o' hs).2.1) ha).unique
    (Track.folds (get := (·.text)) (fun o x o' hs => (FpText.trackAll o x o' hs).2.1) hb) filter_never
  have f2 : a.position = b.position := (Track.folds (get := (·.position)) (fun o x o' hs => (FpText.trackAll o x o' hs).2.2.1) ha).unique
    (Track.folds (get := (·.position)) (fun o x o' hs => (FpText.trackAll o x o' hs).2.2.1) hb) (hr.tokens _)
  have f3 : a.layer = b.layer := (Track.folds (get := (·.layer)) (fun o x o' hs => (FpText.trackAll o x o' hs).2.2.2.1) ha).unique
    (Track.folds (get := (·.layer)) (fun o x o' hs => (FpText.trackAll o x o' hs).2.2.2.1) hb) (hr.tokens _)
  have f4 : a.knockout = b.knockout := (Track.folds (get := (·.knockout)) (fun o x o' hs => (FpText.trackAll o x o' hs).2.2.2.2.1) ha).unique
    (Track.folds (get := (·.knockout)) (fun o x o' hs => (FpText.trackAll o x o' hs).2.2.2.2.1) hb) (hr.tokens _)
  have f5 : a.hide = b.hide := (Track.folds (get := (·.hide)) (fun o x o' hs => (FpText.trackAll o x o' hs).2.2.2.2.2.1) ha).unique
    (Track.folds (get := (·.hide)) (fun o x o' hs => (FpText.trackAll o x o' hs).2.2.2.2.2.1) hb) (hr.word _)
  have f6 : a.effects = b.effects := (Track.folds (get := (·.effects)) (fun o x o' hs => (FpText.trackAll o x o' hs).2.2.2.2.2.2.1) ha).unique
    (Track.folds (get := (·.effects)) (fun o x o' hs => (FpText.trackAll o x o' hs).2.2.2.2.2.2.1) hb) (hr.tokens _)
  have f7 : a.tstamp = b.tstamp := (Track.folds (get := (·.tstamp)) (fun o x o' hs => (FpText.trackAll o x o' hs).2.2.2.2.2.2.2.1) ha).unique
    (Track.folds (get := (·.tstamp)) (fun o x o' hs => (FpText.trackAll o x o' hs).2.2.2.2.2.2.2.1) hb) (hr.tokens _)
  have f8 : a.renderCache = b.renderCache := (Track.folds (get := (·.renderCache)) (fun o x o' hs => (FpText.trackAll o x o' hs).2.2.2.2.2.2.2.2) ha).unique
    (Track.folds (get := (·.renderCache)) (fun o x o' hs => (FpText.trackAll o x o' hs).2.2.2.2.2.2.2.2) hb) (hr.tokens _)
  show FpText.mk a.type a.text a.position a.layer a.knockout a.hide a.effects a.tstamp a.renderCache =
    FpText.mk b.type b.text b.position b.layer b.knockout b.hide b.effects b.tstamp b.renderCache
  rw [f0, f1, f2, f3, f4, f5, f6, f7, f8]

theorem FpText.loopEq (a1 a2 : Val) (xs : List Val) :
    FpText.fromSexpr (.list (.str k!"fp_text" :: a1 :: a2 :: xs)) = forM FpText.step { type := a1, text := a2 } xs :=
  rfl

theorem FpLine.trackAll (o : FpLine) (x : Val) : Post (FpLine.step o x) fun o' =>
    Track (tok k!"start") (fun _ => Position.fromSexpr) x o.start o'.start ∧
    Track (tok k!"end") (fun _ => Position.fromSexpr) x o.«end» o'.«end» ∧
    Track (tok k!"layer") (fun _ => (·.idx 1)) x o.layer o'.layer ∧
    Track (tokIn [k!"width", k!"stroke"]) (fun _ => fun i => if tok k!"width" i then do return some (← i.idx 1) else do return none) x o.width o'.width ∧
    Track (tokIn [k!"width", k!"stroke"]) (fun _ => fun i => if tok k!"width" i then do return none else do return some (← Stroke.fromSexpr i)) x o.stroke o'.stroke ∧
    Track (wordIn [k!"locked"]) (fun _ _ => .ok true) x o.locked o'.locked ∧
    Track (tok k!"tstamp") (fun _ => fun i => do return some (← i.idx 1)) x o.tstamp o'.tstamp := by
  unfold FpLine.step
  cases x <;> trackBoth

theorem FpLine.indep (o o' : FpLine) (x : Val) : Same (FpLine.step o x) (FpLine.step o' x) := by
  unfold FpLine.step
  cases x <;> same

theorem FpLine.unknown {h : Val} {r : List Val} (hu : ∀ k ∈ [k!"start", k!"end", k!"layer", k!"tstamp", k!"width", k!"stroke"], h ≠ .str k) (o : FpLine) :
    FpLine.step o (.list (h :: r)) = .ok o := by
  unfold FpLine.step
  unknownHead hu

theorem FpLine.reordered {o a b : FpLine} {xs ys : List Val} (hr : Reordered [[k!"width", k!"stroke"]] xs ys) (ha : forM FpLine.step o xs = .ok a)
    (hb : forM FpLine.step o ys = .ok b) : a = b := by
  have f0 : a.start = b.start := (Track.folds (get := (·.start)) (fun o x o' hs => (FpLine.trackAll o x o' hs).1) ha).unique
    (Track.folds (get := (·.start)) (fun o x o' hs => (FpLine.trackAll o x o' hs).1) hb) (hr.tokens _)
  have f1 : a.«end» = b.«end» := (Track.folds (get := (·.«end»)) (fun o x o' hs => (FpLine.trackAll o x o' hs).2.1) ha).unique
    (Track.folds (get := (·.«end»)) (fun o x o' hs => (FpLine.trackAll o x o' hs).2.1) hb) (hr.tokens _)
  have f2 : a.layer = b.layer := (Track.folds (get := (·.layer)) (fun o x o' hs => (FpLine.trackAll o x o' hs).2.2.1) ha).unique
    (Track.folds (get := (·.layer)) (fun o x o' hs => (FpLine.trackAll o x o' hs).2.2.1) hb) (hr.tokens _)
  have f3 : a.width = b.width := (Track.folds (get := (·.width)) (fun o x o' hs => (FpLine.trackAll o x o' hs).2.2.2.1) ha).unique
    (Track.folds (get := (·.width)) (fun o x o' hs => (FpLine.trackAll o x o' hs).2.2.2.1) hb) (hr.groups _ (by simp))
  have f4 : a.stroke = b.stroke := (Track.folds (get := (·.stroke)) (fun o x o' hs => (FpLine.trackAll o x o' hs).2.2.2.2.1) ha).unique
    (Track.folds (get := (·.stroke)) (fun o x o' hs => (FpLine.trackAll o x o' hs).2.2.2.2.1) hb) (hr.groups _ (by simp))
  have f5 : a.locked = b.locked := (Track.folds (get := (·.locked)) (fun o x o' hs => (FpLine.trackAll o x o' hs).2.2.2.2.2.1) ha).unique
    (Track.folds (get := (·.locked)) (fun o x o' hs => (FpLine.trackAll o x o' hs).2.2.2.2.2.1) hb) (hr.word _)
  have f6 : a.tstamp = b.tstamp := (Track.folds (get := (·.tstamp)) (fun o x o' hs => (FpLine.trackAll o x o' hs).2.2.2.2.2.2) ha).unique
    (Track.folds (get := (·.tstamp)) (fun o x o' hs => (FpLine.trackAll o x o' hs).2.2.2.2.2.2) hb) (hr.tokens _)
  show FpLine.mk a.start a.«end» a.layer a.width a.stroke a.locked a.tstamp =
    FpLine.mk b.start b.«end» b.layer b.width b.stroke b.locked b.tstamp
  rw [f0, f1, f2, f3, f4, f5, f6]

theorem FpLine.loopEq (xs : List Val) :
    FpLine.fromSexpr (.list (.str k!"fp_line" :: xs)) = forM FpLine.step {} (.str k!"fp_line" :: xs) :=
  rfl

theorem FpRect.trackAll (o : FpRect) (x : Val) : Post (FpRect.step o x) fun o' =>
    Track (tok k!"start") (fun _ => Position.fromSexpr) x o.start o'.start ∧
    Track (tok k!"end") (fun _ => Position.fromSexpr) x o.«end» o'.«end» ∧
    Track (tok k!"layer") (fun _ => (·.idx 1)) x o.layer o'.layer ∧
    Track (tokIn [k!"width", k!"stroke"]) (fun _ => fun i => if tok k!"width" i then do return some (← i.idx 1) else do return none) x o.width o'.width ∧
    Track (tokIn [k!"width", k!"stroke"]) (fun _ => fun i => if tok k!"width" i then do return none else do return some (← Stroke.fromSexpr i)) x o.stroke o'.stroke ∧
    Track (tok k!"fill") (fun _ => fun i => do return some (← i.idx 1)) x o.fill o'.fill ∧
    Track (wordIn [k!"locked"]) (fun _ _ => .ok true) x o.locked o'.locked ∧
    Track (tok k!"tstamp") (fun _ => fun i => do return some (← i.idx 1)) x o.tstamp o'.tstamp := by
  unfold FpRect.step
  cases x <;> trackBoth

theorem FpRect.indep (o o' : FpRect) (x : Val) : Same (FpRect.step o x) (FpRect.step o' x) := by
  unfold FpRect.step
  cases x <;> same

theorem FpRect.unknown {h : Val} {r : List Val} (hu : ∀ k ∈ [k!"start", k!"end", k!"layer", k!"tstamp", k!"fill", k!"width", k!"stroke"], h ≠ .str k) (o : FpRect) :
    FpRect.step o (.list (h :: r)) = .ok o := by
  unfold FpRect.step
  unknownHead hu

theorem FpRect.reordered {o a b : FpRect} {xs ys : List Val} (hr : Reordered [[k!"width", k!"stroke"]] xs ys) (ha : forM FpRect.step o xs = .ok a)
    (hb : forM FpRect.step o ys = .ok b) : a = b := by
  have f0 : a.start = b.start := (Track.folds (get := (·.start)) (fun o x o' hs => (FpRect.trackAll o x o' hs).1) ha).unique
    (Track.folds (get := (·.start)) (fun o x o' hs => (FpRect.trackAll o x o' hs).1) hb) (hr.tokens _)
  have f1 : a.«end» = b.«end» := (Track.folds (get := (·.«end»)) (fun o x o' hs => (FpRect.trackAll o x o' hs).2.1) ha).unique
    (Track.folds (get := (·.«end»)) (fun o x o' hs => (FpRect.trackAll o x o' hs).2.1) hb) (hr.tokens _)
  have f2 : a.layer = b.layer := (Track.folds (get := (·.layer)) (fun o x o' hs => (FpRect.trackAll o x o' hs).2.2.1) ha).unique
    (Track.folds (get := (·.layer)) (fun o x o' hs => (FpRect.trackAll o x o' hs).2.2.1) hb) (hr.tokens _)
  have f3 : a.width = b.width := (Track.folds (get := (·.width)) (fun o x o' hs => (FpRect.trackAll o x o' hs).2.2.2.1) ha).unique
    (Track.folds (get := (·.width)) (fun o x o' hs => (FpRect.trackAll o x o' hs).2.2.2.1) hb) (hr.groups _ (by simp))
  have f4 : a.stroke = b.stroke := (Track.folds (get := (·.stroke)) (fun o x o' hs => (FpRect.trackAll o x o' hs).2.2.2.2.1) ha).unique
    (Track.folds (get := (·.stroke)) (fun o x o' hs => (FpRect.trackAll o x o' hs).2.2.2.2.1) hb) (hr.groups _ (by simp))
  have f5 : a.fill = b.fill := (Track.folds (get := (·.fill)) (fun o x o' hs => (FpRect.trackAll o x o' hs).2.2.2.2.2.1) ha).unique
    (Track.folds (get := (·.fill)) (fun o x o' hs => (FpRect.trackAll o x o' hs).2.2.2.2.2.1) hb) (hr.tokens _)
  have f6 : a.locked = b.locked := (Track.folds (get := (·.locked)) (fun o x o' hs => (FpRect.trackAll o x o' hs).2.2.2.2.2.2.1) ha).unique
    (Track.folds (get := (·.locked)) (fun o x o' hs => (FpRect.trackAll o x o' hs).2.2.2.2.2.2.1) hb) (hr.word _)
  have f7 : a.tstamp = b.tstamp := (Track.folds (get := (·.tstamp)) (fun o x o' hs => (FpRect.trackAll o x o' hs).2.2.2.2.2.2.2) ha).unique
    (Track.folds (get := (·.tstamp)) (fun o x o' hs => (FpRect.trackAll o x o' hs).2.2.2.2.2.2.2) hb) (hr.tokens _)
  show FpRect.mk a.start a.«end» a.layer a.width a.stroke a.fill a.locked a.tstamp =
    FpRect.mk b.start b.«end» b.layer b.width b.stroke b.fill b.locked b.tstamp
  rw [f0, f1, f2, f3, f4, f5, f6, f7]

theorem FpRect.loopEq (xs : List Val) :
    FpRect.fromSexpr (.list (.str k!"fp_rect" :: xs)) = forM FpRect.step {} (.str k!"fp_rect" :: xs) :=
  rfl

theorem FpTextBox.trackAll (o : FpTextBox) (x : Val) : Post (FpTextBox.step o x) fun o' =>
    Track (fun _ => false) (fun v _ => .ok v) x o.locked o'.locked ∧
    Track (fun _ => false) (fun v _ => .ok v) x o.text o'.text ∧
    Track (tok k!"start") (fun _ => fun i => do return some (← Position.fromSexpr i)) x o.start o'.start ∧
    Track (tok k!"end") (fun _ => fun i => do return some (← Position.fromSexpr i)) x o.«end» o'.«end» ∧
    Track (tok k!"pts") (fun l i => do return l ++ (← (fun i => do mapM' Position.fromSexpr (← i.slice 1)) i)) x o.pts o'.pts ∧
    Track (tok k!"angle") (fun _ => fun i => do return some (← i.idx 1)) x o.angle o'.angle ∧
    Track (tok k!"layer") (fun _ => (·.idx 1)) x o.layer o'.layer ∧
    Track (tok k!"tstamp") (fun _ => fun i => do return some (← i.idx 1)) x o.tstamp o'.tstamp ∧
    Track (tok k!"effects") (fun _ => fun i => do return some (← Effects.fromSexpr i)) x o.effects o'.effects ∧
    Track (tok k!"stroke") (fun _ => fun i => do return some (← Stroke.fromSexpr i)) x o.stroke o'.stroke ∧
    Track (tok k!"render_cache") (fun _ => fun i => do return some (← RenderCache.fromSexpr i)) x o.renderCache o'.renderCache := by
  unfold FpTextBox.step
  trackItems

theorem FpTextBox.indep (o o' : FpTextBox) (x : Val) : Same (FpTextBox.step o x) (FpTextBox.step o' x) := by
  unfold FpTextBox.step
  same

theorem FpTextBox.unknown {h : Val} {r : List Val} (hu : ∀ k ∈ [k!"start", k!"end", k!"pts", k!"angle", k!"layer", k!"tstamp", k!"effects", k!"stroke", k!"render_cache"], h ≠ .str k) (o : FpTextBox) :
    FpTextBox.step o (.list (h :: r)) = .ok o := by
  unfold FpTextBox.step
  unknownHead hu

theorem FpTextBox.reordered {o a b : FpTextBox} {xs ys : List Val} (hr : Reordered [] xs ys) (ha : forM FpTextBox.step o xs = .ok a)
    (hb : forM FpTextBox.step o ys = .ok b) : a = b := by
  have f0 : a.locked = b.locked := (Track.folds (get := (·.locked)) (fun o x o' hs => (FpTextBox.trackAll o x o' hs).1) ha).unique
    (Track.folds (get := (·.locked)) (fun o x o' hs => (FpTextBox.trackAll o x o' hs).1) hb) filter_never
  have f1 : a.text = b.text := (Track.folds (get := (·.text)) (fun o x o' hs => (FpTextBox.trackAll o x o' hs).2.1) ha).unique
    (Track.folds (get := (·.text)) (fun o x o' hs => (FpTextBox.trackAll o x o' hs).2.1) hb) filter_never
  have f2 : a.start = b.start := (Track.folds (get := (·.start)) (fun o x o' hs => (FpTextBox.trackAll o x o' hs).2.2.1) ha).unique
    (Track.folds (get := (·.start)) (fun o x o' hs => (FpTextBox.trackAll o x o' hs).2.2.1) hb) (hr.tokens _)
  have f3 : a.«end» = b.«end» := (Track.folds (get := (·.«end»)) (fun o x o' hs => (FpTextBox.trackAll o x o' hs).2.2.2.1) ha).unique
    (Track.folds (get := (·.«end»)) (fun o x o' hs => (FpTextBox.trackAll o x o' hs).2.2.2.1) hb) (hr.tokens _)
  have f4 : a.pts = b.pts := (Track.folds (get := (·.pts)) (fun o x o' hs => (FpTextBox.trackAll o x o' hs).2.2.2.2.1) ha).unique
    (Track.folds (get := (·.pts)) (fun o x o' hs => (FpTextBox.trackAll o x o' hs).2.2.2.2.1) hb) (hr.tokens _)
  have f5 : a.angle = b.angle := (Track.folds (get := (·.angle)) (fun o x o' hs => (FpTextBox.trackAll o x o' hs).2.2.2.2.2.1) ha).unique
    (Track.folds (get := (·.angle)) (fun o x o' hs => (FpTextBox.trackAll o x o' hs).2.2.2.2.2.1) hb) (hr.tokens _)
  have f6 : a.layer = b.layer := (Track.folds (get := (·.layer)) (fun o x o' hs => (FpTextBox.trackAll o x o' hs).2.2.2.2.2.2.1) ha).unique
    (Track.folds (get := (·.layer)) (fun o x o' hs => (FpTextBox.trackAll o x o' hs).2.2.2.2.2.2.1) hb) (hr.tokens _)
  have f7 : a.tstamp = b.tstamp := (Track.folds (get := (·.tstamp)) (fun o x o' hs => (FpTextBox.trackAll o x o' hs).2.2.2.2.2.2.2.1) ha).unique
    (Track.folds (get := (·.tstamp)) (fun o x o' hs => (FpTextBox.trackAll o x o' hs).2.2.2.2.2.2.2.1) hb) (hr.tokens _)
  have f8 : a.effects = b.effects := (Track.folds (get := (·.effects)) (fun o x o' hs => (FpTextBox.trackAll o x o' hs).2.2.2.2.2.2.2.2.1) ha).unique
    (Track.folds (get := (·.effects)) (fun o x o' hs => (FpTextBox.trackAll o x o' hs).2.2.2.2.2.2.2.2.1) hb) (hr.tokens _)
  have f9 : a.stroke = b.stroke := (Track.folds (get := (·.stroke)) (fun o x o' hs => (FpTextBox.trackAll o x o' hs).2.2.2.2.2.2.2.2.2.1) ha).unique
    (Track.folds (get := (·.stroke)) (fun o x o' hs => (FpTextBox.trackAll o x o' hs).2.2.2.2.2.2.2.2.2.1) hb) (hr.tokens _)
  have f10 : a.renderCache = b.renderCache := (Track.folds (get := (·.renderCache)) (fun o x o' hs => (FpTextBox.trackAll o x o' hs).2.2.2.2.2.2.2.2.2.2) ha).unique
    (Track.folds (get := (·.renderCache)) (fun o x o' hs => (FpTextBox.trackAll o x o' hs).2.2.2.2.2.2.2.2.2.2) hb) (hr.tokens _)
  show FpTextBox.mk a.locked a.text a.start a.«end» a.pts a.angle a.layer a.tstamp a.effects a.stroke a.renderCache =
    FpTextBox.mk b.locked b.text b.start b.«end» b.pts b.angle b.layer b.tstamp b.effects b.stroke b.renderCache
  rw [f0, f1, f2, f3, f4, f5, f6, f7, f8, f9, f10]

theorem FpTextBox.loopEq {a : Val} (ha : a.is k!"locked" = false) (xs : List Val) :
    FpTextBox.fromSexpr (.list (.str k!"fp_text_box" :: a :: xs)) = forM FpTextBox.step { text := a } xs :=
  by simp only [FpTextBox.fromSexpr, ha, Bool.false_eq_true, if_false]; exact if_pos rfl

theorem FpCircle.trackAll (o : FpCircle) (x : Val) : Post (FpCircle.step o x) fun o' =>
    Track (tok k!"center") (fun _ => Position.fromSexpr) x o.center o'.center ∧
    Track (tok k!"end") (fun _ => Position.fromSexpr) x o.«end» o'.«end» ∧
    Track (tok k!"layer") (fun _ => (·.idx 1)) x o.layer o'.layer ∧
    Track (tokIn [k!"width", k!"stroke"]) (fun _ => fun i => if tok k!"width" i then do return some (← i.idx 1) else do return none) x o.width o'.width ∧
    Track (tokIn [k!"width", k!"stroke"]) (fun _ => fun i => if tok k!"width" i then do return none else do return some (← Stroke.fromSexpr i)) x o.stroke o'.stroke ∧
    Track (tok k!"fill") (fun _ => fun i => do return some (← i.idx 1)) x o.fill o'.fill ∧
    Track (wordIn [k!"locked"]) (fun _ _ => .ok true) x o.locked o'.locked ∧
    Track (tok k!"tstamp") (fun _ => fun i => do return some (← i.idx 1)) x o.tstamp o'.tstamp := by
  unfold FpCircle.step
  cases x <;> trackBoth

theorem FpCircle.indep (o o' : FpCircle) (x : Val) : Same (FpCircle.step o x) (FpCircle.step o' x) := by
  unfold FpCircle.step
  cases x <;> same

theorem FpCircle.unknown {h : Val} {r : List Val} (hu : ∀ k ∈ [k!"center", k!"end", k!"layer", k!"tstamp", k!"fill", k!"width", k!"stroke"], h ≠ .str k) (o : FpCircle) :
    FpCircle.step o (.list (h :: r)) = .ok o := by
  unfold FpCircle.step
  unknownHead hu

theorem FpCircle.reordered {o a b : FpCircle} {xs ys : List Val} (hr : Reordered [[k!"width", k!"stroke"]] xs ys) (ha : forM FpCircle.step o xs = .ok a)
    (hb : forM FpCircle.step o ys = .ok b) : a = b := by
  have f0 : a.center = b.center := (Track.folds (get := (·.center)) (fun o x o' hs => (FpCircle.trackAll o x o' hs).1) ha).unique
    (Track.folds (get := (·.center)) (fun o x o' hs => (FpCircle.trackAll o x o' hs).1) hb) (hr.tokens _)
  have f1 : a.«end» = b.«end» := (Track.folds (get := (·.«end»)) (fun o x o' hs => (FpCircle.trackAll o x o' hs).2.1) ha).unique
    (Track.folds (get := (·.«end»)) (fun o x o' hs => (FpCircle.trackAll o x o' hs).2.1) hb) (hr.tokens _)
  have f2 : a.layer = b.layer := (Track.folds (get := (·.layer)) (fun o x o' hs => (FpCircle.trackAll o x o' hs).2.2.1) ha).unique
    (Track.folds (get := (·.layer)) (fun o x o' hs => (FpCircle.trackAll o x o' hs).2.2.1) hb) (hr.tokens _)
  have f3 : a.width = b.width := (Track.folds (get := (·.width)) (fun o x o' hs => (FpCircle.trackAll o x o' hs).2.2.2.1) ha).unique
    (Track.folds (get := (·.width)) (fun o x o' hs => (FpCircle.trackAll o x o' hs).2.2.2.1) hb) (hr.groups _ (by simp))
  have f4 : a.stroke = b.stroke := (Track.folds (get := (·.stroke)) (fun o x o' hs => (FpCircle.trackAll o x o' hs).2.2.2.2.1) ha).unique
    (Track.folds (get := (·.stroke)) (fun o x o' hs => (FpCircle.trackAll o x o' hs).2.2.2.2.1) hb) (hr.groups _ (by simp))
  have f5 : a.fill = b.fill := (Track.folds (get := (·.fill)) (fun o x o' hs => (FpCircle.trackAll o x o' hs).2.2.2.2.2.1) ha).unique
    (Track.folds (get := (·.fill)) (fun o x o' hs => (FpCircle.trackAll o x o' hs).2.2.2.2.2.1) hb) (hr.tokens _)
  have f6 : a.locked = b.locked := (Track.folds (get := (·.locked)) (fun o x o' hs => (FpCircle.trackAll o x o' hs).2.2.2.2.2.2.1) ha).unique
    (Track.folds (get := (·.locked)) (fun o x o' hs => (FpCircle.trackAll o x o' hs).2.2.2.2.2.2.1) hb) (hr.word _)
  have f7 : a.tstamp = b.tstamp := (Track.folds (get := (·.tstamp)) (fun o x o' hs => (FpCircle.trackAll o x o' hs).2.2.2.2.2.2.2) ha).unique
    (Track.folds (get := (·.tstamp)) (fun o x o' hs => (FpCircle.trackAll o x o' hs).2.2.2.2.2.2.2) hb) (hr.tokens _)
  show FpCircle.mk a.center a.«end» a.layer a.width a.stroke a.fill a.locked a.tstamp =
    FpCircle.mk b.center b.«end» b.layer b.width b.stroke b.fill b.locked b.tstamp
  rw [f0, f1, f2, f3, f4, f5, f6, f7]

theorem FpCircle.loopEq (xs : List Val) :
    FpCircle.fromSexpr (.list (.str k!"fp_circle" :: xs)) = forM FpCircle.step {} (.str k!"fp_circle" :: xs) :=
  rfl

theorem FpArc.trackAll (o : FpArc) (x : Val) : Post (FpArc.step o x) fun o' =>
    Track (tok k!"start") (fun _ => Position.fromSexpr) x o.start o'.start ∧
    Track (tok k!"mid") (fun _ => Position.fromSexpr) x o.mid o'.mid ∧
    Track (tok k!"end") (fun _ => Position.fromSexpr) x o.«end» o'.«end» ∧
    Track (tok k!"layer") (fun _ => (·.idx 1)) x o.layer o'.layer ∧
    Track (tokIn [k!"width", k!"stroke"]) (fun _ => fun i => if tok k!"width" i then do return some (← i.idx 1) else do return none) x o.width o'.width ∧
    Track (tokIn [k!"width", k!"stroke"]) (fun _ => fun i => if tok k!"width" i then do return none else do return some (← Stroke.fromSexpr i)) x o.stroke o'.stroke ∧
    Track (wordIn [k!"locked"]) (fun _ _ => .ok true) x o.locked o'.locked ∧
    Track (tok k!"tstamp") (fun _ => fun i => do return some (← i.idx 1)) x o.tstamp o'.tstamp := by
  unfold FpArc.step
  cases x <;> trackBoth

theorem FpArc.indep (o o' : FpArc) (x : Val) : Same (FpArc.step o x) (FpArc.step o' x) := by
  unfold FpArc.step
  cases x <;> same

theorem FpArc.unknown {h : Val} {r : List Val} (hu : ∀ k ∈ [k!"start", k!"mid", k!"end", k!"layer", k!"tstamp", k!"width", k!"stroke"], h ≠ .str k) (o : FpArc) :
    FpArc.step o (.list (h :: r)) = .ok o := by
  unfold FpArc.step
  unknownHead hu

theorem FpArc.reordered {o a b : FpArc} {xs ys : List Val} (hr : Reordered [[k!"width", k!"stroke"]] xs ys) (ha : forM FpArc.step o xs = .ok a)
    (hb : forM FpArc.step o ys = .ok b) : a = b := by
  have f0 : a.start = b.start := (Track.folds (get := (·.start)) (fun o x o' hs => (FpArc.trackAll o x o' hs).1) ha).unique
    (Track.folds (get := (·.start)) (fun o x o' hs => (FpArc.trackAll o x o' hs).1) hb) (hr.tokens _)
  have f1 : a.mid = b.mid := (Track.folds (get := (·.mid)) (fun o x o' hs => (FpArc.trackAll o x o' hs).2.1) ha).unique
    (Track.folds (get := (·.mid)) (fun o x o' hs => (FpArc.trackAll o x o' hs).2.1) hb) (hr.tokens _)
  have f2 : a.«end» = b.«end» := (Track.folds (get := (·.«end»)) (fun o x o' hs => (FpArc.trackAll o x o' hs).2.2.1) ha).unique
    (Track.folds (get := (·.«end»)) (fun o x o' hs => (FpArc.trackAll o x o' hs).2.2.1) hb) (hr.tokens _)
  have f3 : a.layer = b.layer := (Track.folds (get := (·.layer)) (fun o x o' hs => (FpArc.trackAll o x o' hs).2.2.2.1) ha).unique
    (Track.folds (get := (·.layer)) (fun o x o' hs => (FpArc.trackAll o x o' hs).2.2.2.1) hb) (hr.tokens _)
  have f4 : a.width = b.width := (Track.folds (get := (·.width)) (fun o x o' hs => (FpArc.trackAll o x o' hs).2.2.2.2.1) ha).unique
    (Track.folds (get := (·.width)) (fun o x o' hs => (FpArc.trackAll o x o' hs).2.2.2.2.1) hb) (hr.groups _ (by simp))
  have f5 : a.stroke = b.stroke := (Track.folds (get := (·.stroke)) (fun o x o' hs => (FpArc.trackAll o x o' hs).2.2.2.2.2.1) ha).unique
    (Track.folds (get := (·.stroke)) (fun o x o' hs => (FpArc.trackAll o x o' hs).2.2.2.2.2.1) hb) (hr.groups _ (by simp))
  have f6 : a.locked = b.locked := (Track.folds (get := (·.locked)) (fun o x o' hs => (FpArc.trackAll o x o' hs).2.2.2.2.2.2.1) ha).unique
    (Track.folds (get := (·.locked)) (fun o x o' hs => (FpArc.trackAll o x o' hs).2.2.2.2.2.2.1) hb) (hr.word _)
  have f7 : a.tstamp = b.tstamp := (Track.folds (get := (·.tstamp)) (fun o x o' hs => (FpArc.trackAll o x o' hs).2.2.2.2.2.2.2) ha).unique
    (Track.folds (get := (·.tstamp)) (fun o x o' hs => (FpArc.trackAll o x o' hs).2.2.2.2.2.2.2) hb) (hr.tokens _)
  show FpArc.mk a.start a.mid a.«end» a.layer a.width a.stroke a.locked a.tstamp =
    FpArc.mk b.start b.mid b.«end» b.layer b.width b.stroke b.locked b.tstamp
  rw [f0, f1, f2, f3, f4, f5, f6, f7]

theorem FpArc.loopEq (xs : List Val) :
    FpArc.fromSexpr (.list (.str k!"fp_arc" :: xs)) = forM FpArc.step {} (.str k!"fp_arc" :: xs) :=
  rfl

theorem FpPoly.trackAll (o : FpPoly) (x : Val) : Post (FpPoly.step o x) fun o' =>
    Track (tok k!"layer") (fun _ => (·.idx 1)) x o.layer o'.layer ∧
    Track (tok k!"pts") (fun l i => do return l ++ (← (fun i => do mapM' Position.fromSexpr (← i.slice 1)) i)) x o.coordinates o'.coordinates ∧
    Track (tokIn [k!"width", k!"stroke"]) (fun _ => fun i => if tok k!"width" i then do return some (← i.idx 1) else do return none) x o.width o'.width ∧
    Track (tokIn [k!"width", k!"stroke"]) (fun _ => fun i => if tok k!"width" i then do return none else do return some (← Stroke.fromSexpr i)) x o.stroke o'.stroke ∧
    Track (tok k!"fill") (fun _ => fun i => do return some (← i.idx 1)) x o.fill o'.fill ∧
    Track (wordIn [k!"locked"]) (fun _ _ => .ok true) x o.locked o'.locked ∧
    Track (tok k!"tstamp") (fun _ => fun i => do return some (← i.idx 1)) x o.tstamp o'.tstamp := by
  unfold FpPoly.step
  cases x <;> trackBoth

theorem FpPoly.indep (o o' : FpPoly) (x : Val) : Same (FpPoly.step o x) (FpPoly.step o' x) := by
  unfold FpPoly.step
  cases x <;> same

theorem FpPoly.unknown {h : Val} {r : List Val} (hu : ∀ k ∈ [k!"pts", k!"layer", k!"tstamp", k!"fill", k!"width", k!"stroke"], h ≠ .str k) (o : FpPoly) :
    FpPoly.step o (.list (h :: r)) = .ok o := by
  unfold FpPoly.step
  unknownHead hu

theorem FpPoly.reordered {o a b : FpPoly} {xs ys : List Val} (hr : Reordered [[k!"width", k!"stroke"]] xs ys) (ha : forM FpPoly.step o xs = .ok a)
    (hb : forM FpPoly.step o ys = .ok b) : a = b := by
  have f0 : a.layer = b.layer := (Track.folds (get := (·.layer)) (fun o x o' hs => (FpPoly.trackAll o x o' hs).1) ha).unique
    (Track.folds (get := (·.layer)) (fun o x o' hs => (FpPoly.trackAll o x o' hs).1) hb) (hr.tokens _)
  have f1 : a.coordinates = b.coordinates := (Track.folds (get := (·.coordinates)) (fun o x o' hs => (FpPoly.trackAll o x o' hs).2.1) ha).unique
    (Track.folds (get := (·.coordinates)) (fun o x o' hs => (FpPoly.trackAll o x o' hs).2.1) hb) (hr.tokens _)
  have f2 : a.width = b.width := (Track.folds (get := (·.width)) (fun o x o' hs => (FpPoly.trackAll o x o' hs).2.2.1) ha).unique
    (Track.folds (get := (·.width)) (fun o x o' hs => (FpPoly.trackAll o x o' hs).2.2.1) hb) (hr.groups _ (by simp))
  have f3 : a.stroke = b.stroke := (Track.folds (get := (·.stroke)) (fun o x o' hs => (FpPoly.trackAll o x o' hs).2.2.2.1) ha).unique
    (Track.folds (get := (·.stroke)) (fun o x o' hs => (FpPoly.trackAll o x o' hs).2.2.2.1) hb) (hr.groups _ (by simp))
  have f4 : a.fill = b.fill := (Track.folds (get := (·.fill)) (fun o x o' hs => (FpPoly.trackAll o x o' hs).2.2.2.2.1) ha).unique
    (Track.folds (get := (·.fill)) (fun o x o' hs => (FpPoly.trackAll o x o' hs).2.2.2.2.1) hb) (hr.tokens _)
  have f5 : a.locked = b.locked := (Track.folds (get := (·.locked)) (fun o x o' hs => (FpPoly.trackAll o x o' hs).2.2.2.2.2.1) ha).unique
    (Track.folds (get := (·.locked)) (fun o x o' hs => (FpPoly.trackAll o x o' hs).2.2.2.2.2.1) hb) (hr.word _)
  have f6 : a.tstamp = b.tstamp := (Track.folds (get := (·.tstamp)) (fun o x o' hs => (FpPoly.trackAll o x o' hs).2.2.2.2.2.2) ha).unique
    (Track.folds (get := (·.tstamp)) (fun o x o' hs => (FpPoly.trackAll o x o' hs).2.2.2.2.2.2) hb) (hr.tokens _)
  show FpPoly.mk a.layer a.coordinates a.width a.stroke a.fill a.locked a.tstamp =
    FpPoly.mk b.layer b.coordinates b.width b.stroke b.fill b.locked b.tstamp
  rw [f0, f1, f2, f3, f4, f5, f6]

theorem FpPoly.loopEq (xs : List Val) :
    FpPoly.fromSexpr (.list (.str k!"fp_poly" :: xs)) = forM FpPoly.step {} (.str k!"fp_poly" :: xs) :=
  rfl

theorem FpCurve.trackAll (o : FpCurve) (x : Val) : Post (FpCurve.step o x) fun o' =>
    Track (tok k!"pts") (fun l i => do return l ++ (← (fun i => do mapM' Position.fromSexpr (← i.slice 1)) i)) x o.coordinates o'.coordinates ∧
    Track (tok k!"layer") (fun _ => (·.idx 1)) x o.layer o'.layer ∧
    Track (tokIn [k!"width", k!"stroke"]) (fun _ => fun i => if tok k!"width" i then do return some (← i.idx 1) else do return none) x o.width o'.width ∧
    Track (tokIn [k!"width", k!"stroke"]) (fun _ => fun i => if tok k!"width" i then do return none else do return some (← Stroke.fromSexpr i)) x o.stroke o'.stroke ∧
    Track (wordIn [k!"locked"]) (fun _ _ => .ok true) x o.locked o'.locked ∧
    Track (tok k!"tstamp") (fun _ => fun i => do return some (← i.idx 1)) x o.tstamp o'.tstamp := by
  unfold FpCurve.step
  cases x <;> trackBoth

theorem FpCurve.indep (o o' : FpCurve) (x : Val) : Same (FpCurve.step o x) (FpCurve.step o' x) := by
  unfold FpCurve.step
  cases x <;> same

theorem FpCurve.unknown {h : Val} {r : List Val} (hu : ∀ k ∈ [k!"pts", k!"layer", k!"tstamp", k!"width", k!"stroke"], h ≠ .str k) (o : FpCurve) :
    FpCurve.step o (.list (h :: r)) = .ok o := by
  unfold FpCurve.step
  unknownHead hu

theorem FpCurve.reordered {o a b : FpCurve} {xs ys : List Val} (hr : Reordered [[k!"width", k!"stroke"]] xs ys) (ha : forM FpCurve.step o xs = .ok a)
    (hb : forM FpCurve.step o ys = .ok b) : a = b := by
  have f0 : a.coordinates = b.coordinates := (Track.folds (get := (·.coordinates)) (fun o x o' hs => (FpCurve.trackAll o x o' hs).1) ha).unique
    (Track.folds (get := (·.coordinates)) (fun o x o' hs => (FpCurve.trackAll o x o' hs).1) hb) (hr.tokens _)
  have f1 : a.layer = b.layer := (Track.folds (get := (·.layer)) (fun o x o' hs => (FpCurve.trackAll o x o' hs).2.1) ha).unique
    (Track.folds (get := (·.layer)) (fun o x o' hs => (FpCurve.trackAll o x o' hs).2.1) hb) (hr.tokens _)
  have f2 : a.width = b.width := (Track.folds (get := (·.width)) (fun o x o' hs => (FpCurve.trackAll o x o' hs).2.2.1) ha).unique
    (Track.folds (get := (·.width)) (fun o x o' hs => (FpCurve.trackAll o x o' hs).2.2.1) hb) (hr.groups _ (by simp))
  have f3 : a.stroke = b.stroke := (Track.folds (get := (·.stroke)) (fun o x o' hs => (FpCurve.trackAll o x o' hs).2.2.2.1) ha).unique
    (Track.folds (get := (·.stroke)) (fun o x o' hs => (FpCurve.trackAll o x o' hs).2.2.2.1) hb) (hr.groups _ (by simp))
  have f4 : a.locked = b.locked := (Track.folds (get := (·.locked)) (fun o x o' hs => (FpCurve.trackAll o x o' hs).2.2.2.2.1) ha).unique
    (Track.folds (get := (·.locked)) (fun o x o' hs => (FpCurve.trackAll o x o' hs).2.2.2.2.1) hb) (hr.word _)
  have f5 : a.tstamp = b.tstamp := (Track.folds (get := (·.tstamp)) (fun o x o' hs => (FpCurve.trackAll o x o' hs).2.2.2.2.2) ha).unique
    (Track.folds (get := (·.tstamp)) (fun o x o' hs => (FpCurve.trackAll o x o' hs).2.2.2.2.2) hb) (hr.tokens _)
  show FpCurve.mk a.coordinates a.layer a.width a.stroke a.locked a.tstamp =
    FpCurve.mk b.coordinates b.layer b.width b.stroke b.locked b.tstamp
  rw [f0, f1, f2, f3, f4, f5]

theorem FpCurve.loopEq (xs : List Val) :
    FpCurve.fromSexpr (.list (.str k!"fp_curve" :: xs)) = forM FpCurve.step {} (.str k!"fp_curve" :: xs) :=
  rfl

end Kiutils
