import Verif.Tokens
import Verif.Model.GrItems
/-!
# Loop bodies of `from_sexpr` item by item: GrItems
-/
namespace Kiutils

theorem GrText.trackAll (o : GrText) (x : Val) : Post (GrText.step o x) fun o' =>
    Track (fun _ => false) (fun v _ => .ok v) x o.text o'.text ∧
    Track (tok k!"layer") (fun acc i => do if (← i.len) > 2 then if (← i.idx 2).is k!"knockout" then return true else return acc else return acc) x o.knockout o'.knockout ∧
    Track (tok k!"at") (fun _ => Position.fromSexpr) x o.position o'.position ∧
    Track (tok k!"layer") (fun _ => fun i => do return some (← i.idx 1)) x o.layer o'.layer ∧
    Track (tok k!"effects") (fun _ => Effects.fromSexpr) x o.effects o'.effects ∧
    Track (tok k!"tstamp") (fun _ => fun i => do return some (← i.idx 1)) x o.tstamp o'.tstamp ∧
    Track (wordIn [k!"locked"]) (fun _ _ => .ok true) x o.locked o'.locked ∧
    Track (tok k!"render_cache") (fun _ => fun i => do return some (← RenderCache.fromSexpr i)) x o.renderCache o'.renderCache := by
  unfold GrText.step
  cases x <;> trackBoth

theorem GrText.indep (o o' : GrText) (x : Val) : Same (GrText.step o x) (GrText.step o' x) := by
  unfold GrText.step
  cases x <;> same

theorem GrText.unknown {h : Val} {r : List Val} (hu : ∀ k ∈ [k!"at", k!"layer", k!"effects", k!"tstamp", k!"render_cache"], h ≠ .str k) (o : GrText) :
    GrText.step o (.list (h :: r)) = .ok o := by
  unfold GrText.step
  unknownHead hu

theorem GrText.reordered {o a b : GrText} {xs ys : List Val} (hr : Reordered [] xs ys) (ha : forM GrText.step o xs = .ok a)
    (hb : forM GrText.step o ys = .ok b) : a = b := by
  have f0 : a.text = b.text := (Track.folds (get := (·.text)) (fun o x o' hs => (GrText.trackAll o x o' hs).1) ha).unique
    (Track.folds (get := (·.text)) (fun o x o' hs => (GrText.trackAll o x o' hs).1) hb) filter_never
  have f1 : a.knockout = b.knockout := (Track.folds (get := (·.knockout)) (fun o x o' hs => (GrText.trackAll o x o' hs).2.1) ha).unique
    (Track.folds (get := (·.knockout)) (fun o x o' hs => (GrText.trackAll o x o' hs).2.1) hb) (hr.tokens _)
  have f2 : a.position = b.position := (Track.folds (get := (·.position)) (fun o x o' hs => (GrText.trackAll o x o' hs).2.2.1) ha).unique
    (Track.folds (get := (·.position)) (fun o x o' hs => (GrText.trackAll o x o' hs).2.2.1) hb) (hr.tokens _)
  have f3 : a.layer = b.layer := (Track.folds (get := (·.layer)) (fun o x o' hs => (GrText.trackAll o x o' hs).2.2.2.1) ha).unique
    (Track.folds (get := (·.layer)) (fun o x o' hs => (GrText.trackAll o x o' hs).2.2.2.1) hb) (hr.tokens _)
  have f4 : a.effects = b.effects := (Track.folds (get := (·.effects)) (fun o x o' hs => (GrText.trackAll o x o' hs).2.2.2.2.1) ha).unique
    (Track.folds (get := (·.effects)) (fun o x o' hs => (GrText.trackAll o x o' hs).2.2.2.2.1) hb) (hr.tokens _)
  have f5 : a.tstamp = b.tstamp := (Track.folds (get := (·.tstamp)) (fun o x o' hs => (GrText.trackAll o x o' hs).2.2.2.2.2.1) ha).unique
    (Track.folds (get := (·.tstamp)) (fun o x o' hs => (GrText.trackAll o x o' hs).2.2.2.2.2.1) hb) (hr.tokens _)
  have f6 : a.locked = b.locked := (Track.folds (get := (·.locked)) (fun o x o' hs => (GrText.trackAll o x o' hs).2.2.2.2.2.2.1) ha).unique
    (Track.folds (get := (·.locked)) (fun o x o' hs => (GrText.trackAll o x o' hs).2.2.2.2.2.2.1) hb) (hr.word _)
  have f7 : a.renderCache = b.renderCache := (Track.folds (get := (·.renderCache)) (fun o x o' hs => (GrText.trackAll o x o' hs).2.2.2.2.2.2.2) ha).unique
    (Track.folds (get := (·.renderCache)) (fun o x o' hs => (GrText.trackAll o x o' hs).2.2.2.2.2.2.2) hb) (hr.tokens _)
  show GrText.mk a.text a.knockout a.position a.layer a.effects a.tstamp a.locked a.renderCache =
    GrText.mk b.text b.knockout b.position b.layer b.effects b.tstamp b.locked b.renderCache
  rw [f0, f1, f2, f3, f4, f5, f6, f7]

theorem GrText.loopEq (a1 : Val) (xs : List Val) :
    GrText.fromSexpr (.list (.str k!"gr_text" :: a1 :: xs)) = forM GrText.step { text := a1 } xs :=
  rfl

theorem GrTextBox.trackAll (o : GrTextBox) (x : Val) : Post (GrTextBox.step o x) fun o' =>
    Track (fun _ => false) (fun v _ => .ok v) x o.locked o'.locked ∧
    Track (fun _ => false) (fun v _ => .ok v) x o.text o'.text ∧
    Track (tok k!"start") (fun _ => fun i => do return some (← Position.fromSexpr i)) x o.start o'.start ∧
    Track (tok k!"end") (fun _ => fun i => do return some (← Position.fromSexpr i)) x o.«end» o'.«end» ∧
    Track (tok k!"pts") (fun l i => do return l ++ (← (fun i => do mapM' Position.fromSexpr (← i.slice 1)) i)) x o.pts o'.pts ∧
    Track (tok k!"angle") (fun _ => fun i => do return some (← i.idx 1)) x o.angle o'.angle ∧
    Track (tok k!"layer") (fun _ => (·.idx 1)) x o.layer o'.layer ∧
    Track (tok k!"tstamp") (fun _ => fun i => do return some (← i.idx 1)) x o.tstamp o'.tstamp ∧
    Track (tok k!"effects") (fun _ => fun i => do return some (← Effects.fromSexpr i)) x o.effects o'.effects ∧
    Track (tok k!"stroke") (fun _ => fun i => do return some (← Stroke.fromSexpr i)) x o.stroke o'.stroke ∧
    Track (tok k!"render_cache") (fun _ => fun i => do return some (← RenderCache.fromSexpr i)) x o.renderCache o'.renderCache := by
  unfold GrTextBox.step
  trackItems

theorem GrTextBox.indep (o o' : GrTextBox) (x : Val) : Same (GrTextBox.step o x) (GrTextBox.step o' x) := by
  unfold GrTextBox.step
  same

theorem GrTextBox.unknown {h : Val} {r : List Val} (hu : ∀ k ∈ [k!"start", k!"end", k!"pts", k!"angle", k!"layer", k!"tstamp", k!"effects", k!"stroke", k!"render_cache"], h ≠ .str k) (o : GrTextBox) :
    GrTextBox.step o (.list (h :: r)) = .ok o := by
  unfold GrTextBox.step
  unknownHead hu

theorem GrTextBox.reordered {o a b : GrTextBox} {xs ys : List Val} (hr : Reordered [] xs ys) (ha : forM GrTextBox.step o xs = .ok a)
    (hb : forM GrTextBox.step o ys = .ok b) : a = b := by
  have f0 : a.locked = b.locked := (Track.folds (get := (·.locked)) (fun o x o' hs => (GrTextBox.trackAll o x o' hs).1) ha).unique
    (Track.folds (get := (·.locked)) (fun o x o' hs => (GrTextBox.trackAll o x o' hs).1) hb) filter_never
  have f1 : a.text = b.text := (Track.folds (get := (·.text)) (fun o x o' hs => (GrTextBox.trackAll o x o' hs).2.1) ha).unique
    (Track.folds (get := (·.text)) (fun o x o' hs => (GrTextBox.trackAll o x o' hs).2.1) hb) filter_never
  have f2 : a.start = b.start := (Track.folds (get := (·.start)) (fun o x o' hs => (GrTextBox.trackAll o x o' hs).2.2.1) ha).unique
    (Track.folds (get := (·.start)) (fun o x o' hs => (GrTextBox.trackAll o x o' hs).2.2.1) hb) (hr.tokens _)
  have f3 : a.«end» = b.«end» := (Track.folds (get := (·.«end»)) (fun o x o' hs => (GrTextBox.trackAll o x o' hs).2.2.2.1) ha).unique
    (Track.folds (get := (·.«end»)) (fun o x o' hs => (GrTextBox.trackAll o x o' hs).2.2.2.1) hb) (hr.tokens _)
  have f4 : a.pts = b.pts := (Track.folds (get := (·.pts)) (fun o x o' hs => (GrTextBox.trackAll o x o' hs).2.2.2.2.1) ha).unique
    (Track.folds (get := (·.pts)) (fun o x o' hs => (GrTextBox.trackAll o x o' hs).2.2.2.2.1) hb) (hr.tokens _)
  have f5 : a.angle = b.angle := (Track.folds (get := (·.angle)) (fun o x o' hs => (GrTextBox.trackAll o x o' hs).2.2.2.2.2.1) ha).unique
    (Track.folds (get := (·.angle)) (fun o x o' hs => (GrTextBox.trackAll o x o' hs).2.2.2.2.2.1) hb) (hr.tokens _)
  have f6 : a.layer = b.layer := (Track.folds (get := (·.layer)) (fun o x o' hs => (GrTextBox.trackAll o x o' hs).2.2.2.2.2.2.1) ha).unique
    (Track.folds (get := (·.layer)) (fun o x o' hs => (GrTextBox.trackAll o x o' hs).2.2.2.2.2.2.1) hb) (hr.tokens _)
  have f7 : a.tstamp = b.tstamp := (Track.folds (get := (·.tstamp)) (fun o x o' hs => (GrTextBox.trackAll o x o' hs).2.2.2.2.2.2.2.1) ha).unique
    (Track.folds (get := (·.tstamp)) (fun o x o' hs => (GrTextBox.trackAll o x o' hs).2.2.2.2.2.2.2.1) hb) (hr.tokens _)
  have f8 : a.effects = b.effects := (Track.folds (get := (·.effects)) (fun o x o' hs => (GrTextBox.trackAll o x o' hs).2.2.2.2.2.2.2.2.1) ha).unique
    (Track.folds (get := (·.effects)) (fun o x o' hs => (GrTextBox.trackAll o x o' hs).2.2.2.2.2.2.2.2.1) hb) (hr.tokens _)
  have f9 : a.stroke = b.stroke := (Track.folds (get := (·.stroke)) (fun o x o' hs => (GrTextBox.trackAll o x o' hs).2.2.2.2.2.2.2.2.2.1) ha).unique
    (Track.folds (get := (·.stroke)) (fun o x o' hs => (GrTextBox.trackAll o x o' hs).2.2.2.2.2.2.2.2.2.1) hb) (hr.tokens _)
  have f10 : a.renderCache = b.renderCache := (Track.folds (get := (·.renderCache)) (fun o x o' hs => (GrTextBox.trackAll o x o' hs).2.2.2.2.2.2.2.2.2.2) ha).unique
    (Track.folds (get := (·.renderCache)) (fun o x o' hs => (GrTextBox.trackAll o x o' hs).2.2.2.2.2.2.2.2.2.2) hb) (hr.tokens _)
  show GrTextBox.mk a.locked a.text a.start a.«end» a.pts a.angle a.layer a.tstamp a.effects a.stroke a.renderCache =
    GrTextBox.mk b.locked b.text b.start b.«end» b.pts b.angle b.layer b.tstamp b.effects b.stroke b.renderCache
  rw [f0, f1, f2, f3, f4, f5, f6, f7, f8, f9, f10]

theorem GrTextBox.loopEq {a : Val} (ha : a.is k!"locked" = false) (xs : List Val) :
    GrTextBox.fromSexpr (.list (.str k!"gr_text_box" :: a :: xs)) = forM GrTextBox.step { text := a } xs :=
  by simp only [GrTextBox.fromSexpr, ha, Bool.false_eq_true, if_false]; exact if_pos rfl

theorem GrLine.trackAll (o : GrLine) (x : Val) : Post (GrLine.step o x) fun o' =>
    Track (tok k!"start") (fun _ => Position.fromSexpr) x o.start o'.start ∧
    Track (tok k!"end") (fun _ => Position.fromSexpr) x o.«end» o'.«end» ∧
    Track (fun _ => false) (fun v _ => .ok v) x o.angle o'.angle ∧
    Track (tok k!"layer") (fun _ => fun i => do return some (← i.idx 1)) x o.layer o'.layer ∧
    Track (tok k!"width") (fun _ => fun i => do return some (← i.idx 1)) x o.width o'.width ∧
    Track (tok k!"tstamp") (fun _ => fun i => do return some (← i.idx 1)) x o.tstamp o'.tstamp ∧
    Track (wordIn [k!"locked"]) (fun _ _ => .ok true) x o.locked o'.locked := by
  unfold GrLine.step
  cases x <;> trackBoth

theorem GrLine.indep (o o' : GrLine) (x : Val) : Same (GrLine.step o x) (GrLine.step o' x) := by
  unfold GrLine.step
  cases x <;> same

theorem GrLine.unknown {h : Val} {r : List Val} (hu : ∀ k ∈ [k!"start", k!"end", k!"layer", k!"tstamp", k!"width"], h ≠ .str k) (o : GrLine) :
    GrLine.step o (.list (h :: r)) = .ok o := by
  unfold GrLine.step
  unknownHead hu

theorem GrLine.reordered {o a b : GrLine} {xs ys : List Val} (hr : Reordered [] xs ys) (ha : forM GrLine.step o xs = .ok a)
    (hb : forM GrLine.step o ys = .ok b) : a = b := by
  have f0 : a.start = b.start := (Track.folds (get := (·.start)) (fun o x o' hs => (GrLine.trackAll o x o' hs).1) ha).unique
    (Track.folds (get := (·.start)) (fun o x o' hs => (GrLine.trackAll o x o' hs).1) hb) (hr.tokens _)
  have f1 : a.«end» = b.«end» := (Track.folds (get := (·.«end»)) (fun o x o' hs => (GrLine.trackAll o x o' hs).2.1) ha).unique
    (Track.folds (get := (·.«end»)) (fun o x o' hs => (GrLine.trackAll o x o' hs).2.1) hb) (hr.tokens _)
  have f2 : a.angle = b.angle := (Track.folds (get := (·.angle)) (fun o x o' hs => (GrLine.trackAll o x o' hs).2.2.1) ha).unique
    (Track.folds (get := (·.angle)) (fun o x o' hs => (GrLine.trackAll o x o' hs).2.2.1) hb) filter_never
  have f3 : a.layer = b.layer := (Track.folds (get := (·.layer)) (fun o x o' hs => (GrLine.trackAll o x o' hs).2.2.2.1) ha).unique
    (Track.folds (get := (·.layer)) (fun o x o' hs => (GrLine.trackAll o x o' hs).2.2.2.1) hb) (hr.tokens _)
  have f4 : a.width = b.width := (Track.folds (get := (·.width)) (fun o x o' hs => (GrLine.trackAll o x o' hs).2.2.2.2.1) ha).unique
    (Track.folds (get := (·.width)) (fun o x o' hs => (GrLine.trackAll o x o' hs).2.2.2.2.1) hb) (hr.tokens _)
  have f5 : a.tstamp = b.tstamp := (Track.folds (get := (·.tstamp)) (fun o x o' hs => (GrLine.trackAll o x o' hs).2.2.2.2.2.1) ha).unique
    (Track.folds (get := (·.tstamp)) (fun o x o' hs => (GrLine.trackAll o x o' hs).2.2.2.2.2.1) hb) (hr.tokens _)
  have f6 : a.locked = b.locked := (Track.folds (get := (·.locked)) (fun o x o' hs => (GrLine.trackAll o x o' hs).2.2.2.2.2.2) ha).unique
    (Track.folds (get := (·.locked)) (fun o x o' hs => (GrLine.trackAll o x o' hs).2.2.2.2.2.2) hb) (hr.word _)
  show GrLine.mk a.start a.«end» a.angle a.layer a.width a.tstamp a.locked =
    GrLine.mk b.start b.«end» b.angle b.layer b.width b.tstamp b.locked
  rw [f0, f1, f2, f3, f4, f5, f6]

theorem GrLine.loopEq (xs : List Val) :
    GrLine.fromSexpr (.list (.str k!"gr_line" :: xs)) = forM GrLine.step {} (.str k!"gr_line" :: xs) :=
  rfl

theorem GrRect.trackAll (o : GrRect) (x : Val) : Post (GrRect.step o x) fun o' =>
    Track (tok k!"start") (fun _ => Position.fromSexpr) x o.start o'.start ∧
    Track (tok k!"end") (fun _ => Position.fromSexpr) x o.«end» o'.«end» ∧
    Track (tok k!"layer") (fun _ => fun i => do return some (← i.idx 1)) x o.layer o'.layer ∧
    Track (tok k!"width") (fun _ => fun i => do return some (← i.idx 1)) x o.width o'.width ∧
    Track (tok k!"fill") (fun _ => fun i => do return some (← i.idx 1)) x o.fill o'.fill ∧
    Track (tok k!"tstamp") (fun _ => fun i => do return some (← i.idx 1)) x o.tstamp o'.tstamp ∧
    Track (wordIn [k!"locked"]) (fun _ _ => .ok true) x o.locked o'.locked := by
  unfold GrRect.step
  cases x <;> trackBoth

theorem GrRect.indep (o o' : GrRect) (x : Val) : Same (GrRect.step o x) (GrRect.step o' x) := by
  unfold GrRect.step
  cases x <;> same

theorem GrRect.unknown {h : Val} {r : List Val} (hu : ∀ k ∈ [k!"start", k!"end", k!"layer", k!"tstamp", k!"fill", k!"width"], h ≠ .str k) (o : GrRect) :
    GrRect.step o (.list (h :: r)) = .ok o := by
  unfold GrRect.step
  unknownHead hu

theorem GrRect.reordered {o a b : GrRect} {xs ys : List Val} (hr : Reordered [] xs ys) (ha : forM GrRect.step o xs = .ok a)
    (hb : forM GrRect.step o ys = .ok b) : a = b := by
  have f0 : a.start = b.start := (Track.folds (get := (·.start)) (fun o x o' hs => (GrRect.trackAll o x o' hs).1) ha).unique
    (Track.folds (get := (·.start)) (fun o x o' hs => (GrRect.trackAll o x o' hs).1) hb) (hr.tokens _)
  have f1 : a.«end» = b.«end» := (Track.folds (get := (·.«end»)) (fun o x o' hs => (GrRect.trackAll o x o' hs).2.1) ha).unique
    (Track.folds (get := (·.«end»)) (fun o x o' hs => (GrRect.trackAll o x o' hs).2.1) hb) (hr.tokens _)
  have f2 : a.layer = b.layer := (Track.folds (get := (·.layer)) (fun o x o' hs => (GrRect.trackAll o x o' hs).2.2.1) ha).unique
    (Track.folds (get := (·.layer)) (fun o x o' hs => (GrRect.trackAll o x o' hs).2.2.1) hb) (hr.tokens _)
  have f3 : a.width = b.width := (Track.folds (get := (·.width)) (fun o x o' hs => (GrRect.trackAll o x o' hs).2.2.2.1) ha).unique
    (Track.folds (get := (·.width)) (fun o x o' hs => (GrRect.trackAll o x o' hs).2.2.2.1) hb) (hr.tokens _)
  have f4 : a.fill = b.fill := (Track.folds (get := (·.fill)) (fun o x o' hs => (GrRect.trackAll o x o' hs).2.2.2.2.1) ha).unique
    (Track.folds (get := (·.fill)) (fun o x o' hs => (GrRect.trackAll o x o' hs).2.2.2.2.1) hb) (hr.tokens _)
  have f5 : a.tstamp = b.tstamp := (Track.folds (get := (·.tstamp)) (fun o x o' hs => (GrRect.trackAll o x o' hs).2.2.2.2.2.1) ha).unique
    (Track.folds (get := (·.tstamp)) (fun o x o' hs => (GrRect.trackAll o x o' hs).2.2.2.2.2.1) hb) (hr.tokens _)
  have f6 : a.locked = b.locked := (Track.folds (get := (·.locked)) (fun o x o' hs => (GrRect.trackAll o x o' hs).2.2.2.2.2.2) ha).unique
    (Track.folds (get := (·.locked)) (fun o x o' hs => (GrRect.trackAll o x o' hs).2.2.2.2.2.2) hb) (hr.word _)
  show GrRect.mk a.start a.«end» a.layer a.width a.fill a.tstamp a.locked =
    GrRect.mk b.start b.«end» b.layer b.width b.fill b.tstamp b.locked
  rw [f0, f1, f2, f3, f4, f5, f6]

theorem GrRect.loopEq (xs : List Val) :
    GrRect.fromSexpr (.list (.str k!"gr_rect" :: xs)) = forM GrRect.step {} (.str k!"gr_rect" :: xs) :=
  rfl

theorem GrCircle.trackAll (o : GrCircle) (x : Val) : Post (GrCircle.step o x) fun o' =>
    Track (tok k!"center") (fun _ => Position.fromSexpr) x o.center o'.center ∧
    Track (tok k!"end") (fun _ => Position.fromSexpr) x o.«end» o'.«end» ∧
    Track (tok k!"layer") (fun _ => fun i => do return some (← i.idx 1)) x o.layer o'.layer ∧
    Track (tok k!"width") (fun _ => fun i => do return some (← i.idx 1)) x o.width o'.width ∧
    Track (tok k!"fill") (fun _ => fun i => do return some (← i.idx 1)) x o.fill o'.fill ∧
    Track (tok k!"tstamp") (fun _ => fun i => do return some (← i.idx 1)) x o.tstamp o'.tstamp ∧
    Track (wordIn [k!"locked"]) (fun _ _ => .ok true) x o.locked o'.locked := by
  unfold GrCircle.step
  cases x <;> trackBoth

theorem GrCircle.indep (o o' : GrCircle) (x : Val) : Same (GrCircle.step o x) (GrCircle.step o' x) := by
  unfold GrCircle.step
  cases x <;> same

theorem GrCircle.unknown {h : Val} {r : List Val} (hu : ∀ k ∈ [k!"center", k!"end", k!"layer", k!"tstamp", k!"fill", k!"width"], h ≠ .str k) (o : GrCircle) :
    GrCircle.step o (.list (h :: r)) = .ok o := by
  unfold GrCircle.step
  unknownHead hu

theorem GrCircle.reordered {o a b : GrCircle} {xs ys : List Val} (hr : Reordered [] xs ys) (ha : forM GrCircle.step o xs = .ok a)
    (hb : forM GrCircle.step o ys = .ok b) : a = b := by
  have f0 : a.center = b.center := (Track.folds (get := (·.center)) (fun o x o' hs => (GrCircle.trackAll o x o' hs).1) ha).unique
    (Track.folds (get := (·.center)) (fun o x o' hs => (GrCircle.trackAll o x o' hs).1) hb) (hr.tokens _)
  have f1 : a.«end» = b.«end» := (Track.folds (get := (·.«end»)) (fun o x o' hs => (GrCircle.trackAll o x o' hs).2.1) ha).unique
    (Track.folds (get := (·.«end»)) (fun o x o' hs => (GrCircle.trackAll o x o' hs).2.1) hb) (hr.tokens _)
  have f2 : a.layer = b.layer := (Track.folds (get := (·.layer)) (fun o x o' hs => (GrCircle.trackAll o x o' hs).2.2.1) ha).unique
    (Track.folds (get := (·.layer)) (fun o x o' hs => (GrCircle.trackAll o x o' hs).2.2.1) hb) (hr.tokens _)
  have f3 : a.width = b.width := (Track.folds (get := (·.width)) (fun o x o' hs => (GrCircle.trackAll o x o' hs).2.2.2.1) ha).unique
    (Track.folds (get := (·.width)) (fun o x o' hs => (GrCircle.trackAll o x o' hs).2.2.2.1) hb) (hr.tokens _)
  have f4 : a.fill = b.fill := (Track.folds (get := (·.fill)) (fun o x o' hs => (GrCircle.trackAll o x o' hs).2.2.2.2.1) ha).unique
    (Track.folds (get := (·.fill)) (fun o x o' hs => (GrCircle.trackAll o x o' hs).2.2.2.2.1) hb) (hr.tokens _)
  have f5 : a.tstamp = b.tstamp := (Track.folds (get := (·.tstamp)) (fun o x o' hs => (GrCircle.trackAll o x o' hs).2.2.2.2.2.1) ha).unique
    (Track.folds (get := (·.tstamp)) (fun o x o' hs => (GrCircle.trackAll o x o' hs).2.2.2.2.2.1) hb) (hr.tokens _)
  have f6 : a.locked = b.locked := (Track.folds (get := (·.locked)) (fun o x o' hs => (GrCircle.trackAll o x o' hs).2.2.2.2.2.2) ha).unique
    (Track.folds (get := (·.locked)) (fun o x o' hs => (GrCircle.trackAll o x o' hs).2.2.2.2.2.2) hb) (hr.word _)
  show GrCircle.mk a.center a.«end» a.layer a.width a.fill a.tstamp a.locked =
    GrCircle.mk b.center b.«end» b.layer b.width b.fill b.tstamp b.locked
  rw [f0, f1, f2, f3, f4, f5, f6]

theorem GrCircle.loopEq (xs : List Val) :
    GrCircle.fromSexpr (.list (.str k!"gr_circle" :: xs)) = forM GrCircle.step {} (.str k!"gr_circle" :: xs) :=
  rfl

theorem GrArc.trackAll (o : GrArc) (x : Val) : Post (GrArc.step o x) fun o' =>
    Track (tok k!"start") (fun _ => Position.fromSexpr) x o.start o'.start ∧
    Track (tok k!"mid") (fun _ => Position.fromSexpr) x o.mid o'.mid ∧
    Track (tok k!"end") (fun _ => Position.fromSexpr) x o.«end» o'.«end» ∧
    Track (tok k!"layer") (fun _ => fun i => do return some (← i.idx 1)) x o.layer o'.layer ∧
    Track (tok k!"width") (fun _ => fun i => do return some (← i.idx 1)) x o.width o'.width ∧
    Track (tok k!"tstamp") (fun _ => fun i => do return some (← i.idx 1)) x o.tstamp o'.tstamp ∧
    Track (wordIn [k!"locked"]) (fun _ _ => .ok true) x o.locked o'.locked := by
  unfold GrArc.step
  cases x <;> trackBoth

theorem GrArc.indep (o o' : GrArc) (x : Val) : Same (GrArc.step o x) (GrArc.step o' x) := by
  unfold GrArc.step
  cases x <;> same

theorem GrArc.unknown {h : Val} {r : List Val} (hu : ∀ k ∈ [k!"start", k!"mid", k!"end", k!"layer", k!"tstamp", k!"width"], h ≠ .str k) (o : GrArc) :
    GrArc.step o (.list (h :: r)) = .ok o := by
  unfold GrArc.step
  unknownHead hu

theorem GrArc.reordered {o a b : GrArc} {xs ys : List Val} (hr : Reordered [] xs ys) (ha : forM GrArc.step o xs = .ok a)
    (hb : forM GrArc.step o ys = .ok b) : a = b := by
  have f0 : a.start = b.start := (Track.folds (get := (·.start)) (fun o x o' hs => (GrArc.trackAll o x o' hs).1) ha).unique
    (Track.folds (get := (·.start)) (fun o x o' hs => (GrArc.trackAll o x o' hs).1) hb) (hr.tokens _)
  have f1 : a.mid = b.mid := (Track.folds (get := (·.mid)) (fun o x o' hs => (GrArc.trackAll o x o' hs).2.1) ha).unique
    (Track.folds (get := (·.mid)) (fun o x o' hs => (GrArc.trackAll o x o' hs).2.1) hb) (hr.tokens _)
  have f2 : a.«end» = b.«end» := (Track.folds (get := (·.«end»)) (fun o x o' hs => (GrArc.trackAll o x o' hs).2.2.1) ha).unique
    (Track.folds (get := (·.«end»)) (fun o x o' hs => (GrArc.trackAll o x o' hs).2.2.1) hb) (hr.tokens _)
  have f3 : a.layer = b.layer := (Track.folds (get := (·.layer)) (fun o x o' hs => (GrArc.trackAll o x o' hs).2.2.2.1) ha).unique
    (Track.folds (get := (·.layer)) (fun o x o' hs => (GrArc.trackAll o x o' hs).2.2.2.1) hb) (hr.tokens _)
  have f4 : a.width = b.width := (Track.folds (get := (·.width)) (fun o x o' hs => (GrArc.trackAll o x o' hs).2.2.2.2.1) ha).unique
    (Track.folds (get := (·.width)) (fun o x o' hs => (GrArc.trackAll o x o' hs).2.2.2.2.1) hb) (hr.tokens _)
  have f5 : a.tstamp = b.tstamp := (Track.folds (get := (·.tstamp)) (fun o x o' hs => (GrArc.trackAll o x o' hs).2.2.2.2.2.1) ha).unique
    (Track.folds (get := (·.tstamp)) (fun o x o' hs => (GrArc.trackAll o x o' hs).2.2.2.2.2.1) hb) (hr.tokens _)
  have f6 : a.locked = b.locked := (Track.folds (get := (·.locked)) (fun o x o' hs => (GrArc.trackAll o x o' hs).2.2.2.2.2.2) ha).unique
    (Track.folds (get := (·.locked)) (fun o x o' hs => (GrArc.trackAll o x o' hs).2.2.2.2.2.2) hb) (hr.word _)
  show GrArc.mk a.start a.mid a.«end» a.layer a.width a.tstamp a.locked =
    GrArc.mk b.start b.mid b.«end» b.layer b.width b.tstamp b.locked
  rw [f0, f1, f2, f3, f4, f5, f6]

theorem GrArc.loopEq (xs : List Val) :
    GrArc.fromSexpr (.list (.str k!"gr_arc" :: xs)) = forM GrArc.step {} (.str k!"gr_arc" :: xs) :=
  rfl

theorem GrPoly.trackAll (o : GrPoly) (x : Val) : Post (GrPoly.step o x) fun o' =>
    Track (tok k!"layer") (fun _ => fun i => do return some (← i.idx 1)) x o.layer o'.layer ∧
    Track (tok k!"pts") (fun l i => do return l ++ (← (fun i => do mapM' Position.fromSexpr (← i.slice 1)) i)) x o.coordinates o'.coordinates ∧
    Track (tok k!"width") (fun _ => fun i => do return some (← i.idx 1)) x o.width o'.width ∧
    Track (tok k!"fill") (fun _ => fun i => do return some (← i.idx 1)) x o.fill o'.fill ∧
    Track (tok k!"tstamp") (fun _ => fun i => do return some (← i.idx 1)) x o.tstamp o'.tstamp ∧
    Track (wordIn [k!"locked"]) (fun _ _ => .ok true) x o.locked o'.locked := by
  unfold GrPoly.step
  cases x <;> trackBoth

theorem GrPoly.indep (o o' : GrPoly) (x : Val) : Same (GrPoly.step o x) (GrPoly.step o' x) := by
  unfold GrPoly.step
  cases x <;> same

theorem GrPoly.unknown {h : Val} {r : List Val} (hu : ∀ k ∈ [k!"pts", k!"layer", k!"tstamp", k!"fill", k!"width"], h ≠ .str k) (o : GrPoly) :
    GrPoly.step o (.list (h :: r)) = .ok o := by
  unfold GrPoly.step
  unknownHead hu

theorem GrPoly.reordered {o a b : GrPoly} {xs ys : List Val} (hr : Reordered [] xs ys) (ha : forM GrPoly.step o xs = .ok a)
    (hb : forM GrPoly.step o ys = .ok b) : a = b := by
  have f0 : a.layer = b.layer := (Track.folds (get := (·.layer)) (fun o x o' hs => (GrPoly.trackAll o x o' hs).1) ha).unique
    (Track.folds (get := (·.layer)) (fun o x o' hs => (GrPoly.trackAll o x o' hs).1) hb) (hr.tokens _)
  have f1 : a.coordinates = b.coordinates := (Track.folds (get := (·.coordinates)) (fun o x o' hs => (GrPoly.trackAll o x o' hs).2.1) ha).unique
    (Track.folds (get := (·.coordinates)) (fun o x o' hs => (GrPoly.trackAll o x o' hs).2.1) hb) (hr.tokens _)
  have f2 : a.width = b.width := (Track.folds (get := (·.width)) (fun o x o' hs => (GrPoly.trackAll o x o' hs).2.2.1) ha).unique
    (Track.folds (get := (·.width)) (fun o x o' hs => (GrPoly.trackAll o x o' hs).2.2.1) hb) (hr.tokens _)
  have f3 : a.fill = b.fill := (Track.folds (get := (·.fill)) (fun o x o' hs => (GrPoly.trackAll o x o' hs).2.2.2.1) ha).unique
    (Track.folds (get := (·.fill)) (fun o x o' hs => (GrPoly.trackAll o x o' hs).2.2.2.1) hb) (hr.tokens _)
  have f4 : a.tstamp = b.tstamp := (Track.folds (get := (·.tstamp)) (fun o x o' hs => (GrPoly.trackAll o x o' hs).2.2.2.2.1) ha).unique
    (Track.folds (get := (·.tstamp)) (fun o x o' hs => (GrPoly.trackAll o x o' hs).2.2.2.2.1) hb) (hr.tokens _)
  have f5 : a.locked = b.locked := (Track.folds (get := (·.locked)) (fun o x o' hs => (GrPoly.trackAll o x o' hs).2.2.2.2.2) ha).unique
    (Track.folds (get := (·.locked)) (fun o x o' hs => (GrPoly.trackAll o x o' hs).2.2.2.2.2) hb) (hr.word _)
  show GrPoly.mk a.layer a.coordinates a.width a.fill a.tstamp a.locked =
    GrPoly.mk b.layer b.coordinates b.width b.fill b.tstamp b.locked
  rw [f0, f1, f2, f3, f4, f5]

theorem GrPoly.loopEq (xs : List Val) :
    GrPoly.fromSexpr (.list (.str k!"gr_poly" :: xs)) = forM GrPoly.step {} (.str k!"gr_poly" :: xs) :=
  rfl

theorem GrCurve.trackAll (o : GrCurve) (x : Val) : Post (GrCurve.step o x) fun o' =>
    Track (tok k!"pts") (fun l i => do return l ++ (← (fun i => do mapM' Position.fromSexpr (← i.slice 1)) i)) x o.coordinates o'.coordinates ∧
    Track (tok k!"layer") (fun _ => fun i => do return some (← i.idx 1)) x o.layer o'.layer ∧
    Track (tok k!"width") (fun _ => fun i => do return some (← i.idx 1)) x o.width o'.width ∧
    Track (tok k!"tstamp") (fun _ => fun i => do return some (← i.idx 1)) x o.tstamp o'.tstamp ∧
    Track (wordIn [k!"locked"]) (fun _ _ => .ok true) x o.locked o'.locked := by
  unfold GrCurve.step
  cases x <;> trackBoth

theorem GrCurve.indep (o o' : GrCurve) (x : Val) : Same (GrCurve.step o x) (GrCurve.step o' x) := by
  unfold GrCurve.step
  cases x <;> same

theorem GrCurve.unknown {h : Val} {r : List Val} (hu : ∀ k ∈ [k!"pts", k!"layer", k!"tstamp", k!"width"], h ≠ .str k) (o : GrCurve) :
    GrCurve.step o (.list (h :: r)) = .ok o := by
  unfold GrCurve.step
  unknownHead hu

theorem GrCurve.reordered {o a b : GrCurve} {xs ys : List Val} (hr : Reordered [] xs ys) (ha : forM GrCurve.step o xs = .ok a)
    (hb : forM GrCurve.step o ys = .ok b) : a = b := by
  have f0 : a.coordinates = b.coordinates := (Track.folds (get := (·.coordinates)) (fun o x o' hs => (GrCurve.trackAll o x o' hs).1) ha).unique
    (Track.folds (get := (·.coordinates)) (fun o x o' hs => (GrCurve.trackAll o x o' hs).1) hb) (hr.tokens _)
  have f1 : a.layer = b.layer := (Track.folds (get := (·.layer)) (fun o x o' hs => (GrCurve.trackAll o x o' hs).2.1) ha).unique
    (Track.folds (get := (·.layer)) (fun o x o' hs => (GrCurve.trackAll o x o' hs).2.1) hb) (hr.tokens _)
  have f2 : a.width = b.width := (Track.folds (get := (·.width)) (fun o x o' hs => (GrCurve.trackAll o x o' hs).2.2.1) ha).unique
    (Track.folds (get := (·.width)) (fun o x o' hs => (GrCurve.trackAll o x o' hs).2.2.1) hb) (hr.tokens _)
  have f3 : a.tstamp = b.tstamp := (Track.folds (get := (·.tstamp)) (fun o x o' hs => (GrCurve.trackAll o x o' hs).2.2.2.1) ha).unique
    (Track.folds (get := (·.tstamp)) (fun o x o' hs => (GrCurve.trackAll o x o' hs).2.2.2.1) hb) (hr.tokens _)
  have f4 : a.locked = b.locked := (Track.folds (get := (·.locked)) (fun o x o' hs => (GrCurve.trackAll o x o' hs).2.2.2.2) ha).unique
    (Track.folds (get := (·.locked)) (fun o x o' hs => (GrCurve.trackAll o x o' hs).2.2.2.2) hb) (hr.word _)
  show GrCurve.mk a.coordinates a.layer a.width a.tstamp a.locked =
    GrCurve.mk b.coordinates b.layer b.width b.tstamp b.locked
  rw [f0, f1, f2, f3, f4]

theorem GrCurve.loopEq (xs : List Val) :
    GrCurve.fromSexpr (.list (.str k!"gr_curve" :: xs)) = forM GrCurve.step {} (.str k!"gr_curve" :: xs) :=
  rfl

end Kiutils
