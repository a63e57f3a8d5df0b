import Verif.Tokens
import Verif.Model.SyItems
/-!
# Loop bodies of `from_sexpr` item by item: SyItems
-/
namespace Kiutils

theorem SyArc.trackAll (o : SyArc) (x : Val) : Post (SyArc.step o x) fun o' =>
    Track (wordIn [k!"private"]) (fun _ _ => .ok true) x o.priv o'.priv ∧
    Track (tok k!"start") (fun _ => Position.fromSexpr) x o.start o'.start ∧
    Track (tok k!"mid") (fun _ => Position.fromSexpr) x o.mid o'.mid ∧
    Track (tok k!"end") (fun _ => Position.fromSexpr) x o.«end» o'.«end» ∧
    Track (tok k!"stroke") (fun _ => Stroke.fromSexpr) x o.stroke o'.stroke ∧
    Track (tok k!"fill") (fun _ => Fill.fromSexpr) x o.fill o'.fill := by
  unfold SyArc.step
  cases x <;> trackBoth

theorem SyArc.indep (o o' : SyArc) (x : Val) : Same (SyArc.step o x) (SyArc.step o' x) := by
  unfold SyArc.step
  cases x <;> same

theorem SyArc.unknown {h : Val} {r : List Val} (hu : ∀ k ∈ [k!"start", k!"mid", k!"end", k!"stroke", k!"fill"], h ≠ .str k) (o : SyArc) :
    SyArc.step o (.list (h :: r)) = .ok o := by
  unfold SyArc.step
  unknownHead hu

theorem SyArc.reordered {o a b : SyArc} {xs ys : List Val} (hr : Reordered [] xs ys) (ha : forM SyArc.step o xs = .ok a)
    (hb : forM SyArc.step o ys = .ok b) : a = b := by
  have f0 : a.priv = b.priv := (Track.folds (get := (·.priv)) (fun o x o' hs => (SyArc.trackAll o x o' hs).1) ha).unique
    (Track.folds (get := (·.priv)) (fun o x o' hs => (SyArc.trackAll o x o' hs).1) hb) (hr.word _)
  have f1 : a.start = b.start := (Track.folds (get := (·.start)) (fun o x o' hs => (SyArc.trackAll o x o' hs).2.1) ha).unique
    (Track.folds (get := (·.start)) (fun o x o' hs => (SyArc.trackAll o x o' hs).2.1) hb) (hr.tokens _)
  have f2 : a.mid = b.mid := (Track.folds (get := (·.mid)) (fun o x o' hs => (SyArc.trackAll o x o' hs).2.2.1) ha).unique
    (Track.folds (get := (·.mid)) (fun o x o' hs => (SyArc.trackAll o x o' hs).2.2.1) hb) (hr.tokens _)
  have f3 : a.«end» = b.«end» := (Track.folds (get := (·.«end»)) (fun o x o' hs => (SyArc.trackAll o x o' hs).2.2.2.1) ha).unique
    (Track.folds (get := (·.«end»)) (fun o x o' hs => (SyArc.trackAll o x o' hs).2.2.2.1) hb) (hr.tokens _)
  have f4 : a.stroke = b.stroke := (Track.folds (get := (·.stroke)) (fun o x o' hs => (SyArc.trackAll o x o' hs).2.2.2.2.1) ha).unique
    (Track.folds (get := (·.stroke)) (fun o x o' hs => (SyArc.trackAll o x o' hs).2.2.2.2.1) hb) (hr.tokens _)
  have f5 : a.fill = b.fill := (Track.folds (get := (·.fill)) (fun o x o' hs => (SyArc.trackAll o x o' hs).2.2.2.2.2) ha).unique
    (Track.folds (get := (·.fill)) (fun o x o' hs => (SyArc.trackAll o x o' hs).2.2.2.2.2) hb) (hr.tokens _)
  show SyArc.mk a.priv a.start a.mid a.«end» a.stroke a.fill =
    SyArc.mk b.priv b.start b.mid b.«end» b.stroke b.fill
  rw [f0, f1, f2, f3, f4, f5]

theorem SyArc.loopEq (xs : List Val) :
    SyArc.fromSexpr (.list (.str k!"arc" :: xs)) = forM SyArc.step {} (.str k!"arc" :: xs) :=
  rfl

theorem SyCircle.trackAll (o : SyCircle) (x : Val) : Post (SyCircle.step o x) fun o' =>
    Track (wordIn [k!"private"]) (fun _ _ => .ok true) x o.priv o'.priv ∧
    Track (tok k!"center") (fun _ => Position.fromSexpr) x o.center o'.center ∧
    Track (tok k!"radius") (fun _ => (·.idx 1)) x o.radius o'.radius ∧
    Track (tok k!"stroke") (fun _ => Stroke.fromSexpr) x o.stroke o'.stroke ∧
    Track (tok k!"fill") (fun _ => Fill.fromSexpr) x o.fill o'.fill := by
  unfold SyCircle.step
  cases x <;> trackBoth

theorem SyCircle.indep (o o' : SyCircle) (x : Val) : Same (SyCircle.step o x) (SyCircle.step o' x) := by
  unfold SyCircle.step
  cases x <;> same

theorem SyCircle.unknown {h : Val} {r : List Val} (hu : ∀ k ∈ [k!"center", k!"radius", k!"stroke", k!"fill"], h ≠ .str k) (o : SyCircle) :
    SyCircle.step o (.list (h :: r)) = .ok o := by
  unfold SyCircle.step
  unknownHead hu

theorem SyCircle.reordered {o a b : SyCircle} {xs ys : List Val} (hr : Reordered [] xs ys) (ha : forM SyCircle.step o xs = .ok a)
    (hb : forM SyCircle.step o ys = .ok b) : a = b := by
  have f0 : a.priv = b.priv := (Track.folds (get := (·.priv)) (fun o x o' hs => (SyCircle.trackAll o x o' hs).1) ha).unique
    (Track.folds (get := (·.priv)) (fun o x o' hs => (SyCircle.trackAll o x o' hs).1) hb) (hr.word _)
  have f1 : a.center = b.center := (Track.folds (get := (·.center)) (fun o x o' hs => (SyCircle.trackAll o x o' hs).2.1) ha).unique
    (Track.folds (get := (·.center)) (fun o x o' hs => (SyCircle.trackAll o x o' hs).2.1) hb) (hr.tokens _)
  have f2 : a.radius = b.radius := (Track.folds (get := (·.radius)) (fun o x o' hs => (SyCircle.trackAll o x o' hs).2.2.1) ha).unique
    (Track.folds (get := (·.radius)) (fun o x o' hs => (SyCircle.trackAll o x o' hs).2.2.1) hb) (hr.tokens _)
  have f3 : a.stroke = b.stroke := (Track.folds (get := (·.stroke)) (fun o x o' hs => (SyCircle.trackAll o x o' hs).2.2.2.1) ha).unique
    (Track.folds (get := (·.stroke)) (fun o x o' hs => (SyCircle.trackAll o x o' hs).2.2.2.1) hb) (hr.tokens _)
  have f4 : a.fill = b.fill := (Track.folds (get := (·.fill)) (fun o x o' hs => (SyCircle.trackAll o x o' hs).2.2.2.2) ha).unique
    (Track.folds (get := (·.fill)) (fun o x o' hs => (SyCircle.trackAll o x o' hs).2.2.2.2) hb) (hr.tokens _)
  show SyCircle.mk a.priv a.center a.radius a.stroke a.fill =
    SyCircle.mk b.priv b.center b.radius b.stroke b.fill
  rw [f0, f1, f2, f3, f4]

theorem SyCircle.loopEq (xs : List Val) :
    SyCircle.fromSexpr (.list (.str k!"circle" :: xs)) = forM SyCircle.step {} (.str k!"circle" :: xs) :=
  rfl

theorem SyCurve.trackAll (o : SyCurve) (x : Val) : Post (SyCurve.step o x) fun o' =>
    Track (tok k!"pts") (fun l i => do return l ++ (← (fun i => do mapM' Position.fromSexpr (← i.slice 1)) i)) x o.points o'.points ∧
    Track (tok k!"stroke") (fun _ => Stroke.fromSexpr) x o.stroke o'.stroke ∧
    Track (tok k!"fill") (fun _ => Fill.fromSexpr) x o.fill o'.fill := by
  unfold SyCurve.step
  trackItems

theorem SyCurve.indep (o o' : SyCurve) (x : Val) : Same (SyCurve.step o x) (SyCurve.step o' x) := by
  unfold SyCurve.step
  same

theorem SyCurve.unknown {h : Val} {r : List Val} (hu : ∀ k ∈ [k!"stroke", k!"fill", k!"pts"], h ≠ .str k) (o : SyCurve) :
    SyCurve.step o (.list (h :: r)) = .ok o := by
  unfold SyCurve.step
  unknownHead hu

theorem SyCurve.reordered {o a b : SyCurve} {xs ys : List Val} (hr : Reordered [] xs ys) (ha : forM SyCurve.step o xs = .ok a)
    (hb : forM SyCurve.step o ys = .ok b) : a = b := by
  have f0 : a.points = b.points := (Track.folds (get := (·.points)) (fun o x o' hs => (SyCurve.trackAll o x o' hs).1) ha).unique
    (Track.folds (get := (·.points)) (fun o x o' hs => (SyCurve.trackAll o x o' hs).1) hb) (hr.tokens _)
  have f1 : a.stroke = b.stroke := (Track.folds (get := (·.stroke)) (fun o x o' hs => (SyCurve.trackAll o x o' hs).2.1) ha).unique
    (Track.folds (get := (·.stroke)) (fun o x o' hs => (SyCurve.trackAll o x o' hs).2.1) hb) (hr.tokens _)
  have f2 : a.fill = b.fill := (Track.folds (get := (·.fill)) (fun o x o' hs => (SyCurve.trackAll o x o' hs).2.2) ha).unique
    (Track.folds (get := (·.fill)) (fun o x o' hs => (SyCurve.trackAll o x o' hs).2.2) hb) (hr.tokens _)
  show SyCurve.mk a.points a.stroke a.fill =
    SyCurve.mk b.points b.stroke b.fill
  rw [f0, f1, f2]

theorem SyCurve.loopEq (xs : List Val) :
    SyCurve.fromSexpr (.list (.str k!"curve" :: xs)) = forM SyCurve.step {} (.str k!"curve" :: xs) :=
  rfl

theorem SyPolyLine.trackAll (o : SyPolyLine) (x : Val) : Post (SyPolyLine.step o x) fun o' =>
    Track (tok k!"pts") (fun l i => do return l ++ (← (fun i => do mapM' Position.fromSexpr (← i.slice 1)) i)) x o.points o'.points ∧
    Track (tok k!"stroke") (fun _ => Stroke.fromSexpr) x o.stroke o'.stroke ∧
    Track (tok k!"fill") (fun _ => Fill.fromSexpr) x o.fill o'.fill := by
  unfold SyPolyLine.step
  trackItems

theorem SyPolyLine.indep (o o' : SyPolyLine) (x : Val) : Same (SyPolyLine.step o x) (SyPolyLine.step o' x) := by
  unfold SyPolyLine.step
  same

theorem SyPolyLine.unknown {h : Val} {r : List Val} (hu : ∀ k ∈ [k!"stroke", k!"fill", k!"pts"], h ≠ .str k) (o : SyPolyLine) :
    SyPolyLine.step o (.list (h :: r)) = .ok o := by
  unfold SyPolyLine.step
  unknownHead hu

theorem SyPolyLine.reordered {o a b : SyPolyLine} {xs ys : List Val} (hr : Reordered [] xs ys) (ha : forM SyPolyLine.step o xs = .ok a)
    (hb : forM SyPolyLine.step o ys = .ok b) : a = b := by
  have f0 : a.points = b.points := (Track.folds (get := (·.points)) (fun o x o' hs => (SyPolyLine.trackAll o x o' hs).1) ha).unique
    (Track.folds (get := (·.points)) (fun o x o' hs => (SyPolyLine.trackAll o x o' hs).1) hb) (hr.tokens _)
  have f1 : a.stroke = b.stroke := (Track.folds (get := (·.stroke)) (fun o x o' hs => (SyPolyLine.trackAll o x o' hs).2.1) ha).unique
    (Track.folds (get := (·.stroke)) (fun o x o' hs => (SyPolyLine.trackAll o x o' hs).2.1) hb) (hr.tokens _)
  have f2 : a.fill = b.fill := (Track.folds (get := (·.fill)) (fun o x o' hs => (SyPolyLine.trackAll o x o' hs).2.2) ha).unique
    (Track.folds (get := (·.fill)) (fun o x o' hs => (SyPolyLine.trackAll o x o' hs).2.2) hb) (hr.tokens _)
  show SyPolyLine.mk a.points a.stroke a.fill =
    SyPolyLine.mk b.points b.stroke b.fill
  rw [f0, f1, f2]

theorem SyPolyLine.loopEq (xs : List Val) :
    SyPolyLine.fromSexpr (.list (.str k!"polyline" :: xs)) = forM SyPolyLine.step {} (.str k!"polyline" :: xs) :=
  rfl

theorem SyRect.trackAll (o : SyRect) (x : Val) : Post (SyRect.step o x) fun o' =>
    Track (wordIn [k!"private"]) (fun _ _ => .ok true) x o.priv o'.priv ∧
    Track (tok k!"start") (fun _ => Position.fromSexpr) x o.start o'.start ∧
    Track (tok k!"end") (fun _ => Position.fromSexpr) x o.«end» o'.«end» ∧
    Track (tok k!"stroke") (fun _ => Stroke.fromSexpr) x o.stroke o'.stroke ∧
    Track (tok k!"fill") (fun _ => Fill.fromSexpr) x o.fill o'.fill := by
  unfold SyRect.step
  cases x <;> trackBoth

theorem SyRect.indep (o o' : SyRect) (x : Val) : Same (SyRect.step o x) (SyRect.step o' x) := by
  unfold SyRect.step
  cases x <;> same

theorem SyRect.unknown {h : Val} {r : List Val} (hu : ∀ k ∈ [k!"start", k!"end", k!"stroke", k!"fill"], h ≠ .str k) (o : SyRect) :
    SyRect.step o (.list (h :: r)) = .ok o := by
  unfold SyRect.step
  unknownHead hu

theorem SyRect.reordered {o a b : SyRect} {xs ys : List Val} (hr : Reordered [] xs ys) (ha : forM SyRect.step o xs = .ok a)
    (hb : forM SyRect.step o ys = .ok b) : a = b := by
  have f0 : a.priv = b.priv := (Track.folds (get := (·.priv)) (fun o x o' hs => (SyRect.trackAll o x o' hs).1) ha).unique
    (Track.folds (get := (·.priv)) (fun o x o' hs => (SyRect.trackAll o x o' hs).1) hb) (hr.word _)
  have f1 : a.start = b.start := (Track.folds (get := (·.start)) (fun o x o' hs => (SyRect.trackAll o x o' hs).2.1) ha).unique
    (Track.folds (get := (·.start)) (fun o x o' hs => (SyRect.trackAll o x o' hs).2.1) hb) (hr.tokens _)
  have f2 : a.«end» = b.«end» := (Track.folds (get := (·.«end»)) (fun o x o' hs => (SyRect.trackAll o x o' hs).2.2.1) ha).unique
    (Track.folds (get := (·.«end»)) (fun o x o' hs => (SyRect.trackAll o x o' hs).2.2.1) hb) (hr.tokens _)
  have f3 : a.stroke = b.stroke := (Track.folds (get := (·.stroke)) (fun o x o' hs => (SyRect.trackAll o x o' hs).2.2.2.1) ha).unique
    (Track.folds (get := (·.stroke)) (fun o x o' hs => (SyRect.trackAll o x o' hs).2.2.2.1) hb) (hr.tokens _)
  have f4 : a.fill = b.fill := (Track.folds (get := (·.fill)) (fun o x o' hs => (SyRect.trackAll o x o' hs).2.2.2.2) ha).unique
    (Track.folds (get := (·.fill)) (fun o x o' hs => (SyRect.trackAll o x o' hs).2.2.2.2) hb) (hr.tokens _)
  show SyRect.mk a.priv a.start a.«end» a.stroke a.fill =
    SyRect.mk b.priv b.start b.«end» b.stroke b.fill
  rw [f0, f1, f2, f3, f4]

theorem SyRect.loopEq (xs : List Val) :
    SyRect.fromSexpr (.list (.str k!"rectangle" :: xs)) = forM SyRect.step {} (.str k!"rectangle" :: xs) :=
  rfl

theorem SyText.trackAll (o : SyText) (x : Val) : Post (SyText.step o x) fun o' =>
    Track (fun _ => false) (fun v _ => .ok v) x o.text o'.text ∧
    Track (tok k!"at") (fun _ => Position.fromSexpr) x o.position o'.position ∧
    Track (tok k!"effects") (fun _ => Effects.fromSexpr) x o.effects o'.effects := by
  unfold SyText.step
  trackItems

theorem SyText.indep (o o' : SyText) (x : Val) : Same (SyText.step o x) (SyText.step o' x) := by
  unfold SyText.step
  same

theorem SyText.unknown {h : Val} {r : List Val} (hu : ∀ k ∈ [k!"at", k!"effects"], h ≠ .str k) (o : SyText) :
    SyText.step o (.list (h :: r)) = .ok o := by
  unfold SyText.step
  unknownHead hu

theorem SyText.reordered {o a b : SyText} {xs ys : List Val} (hr : Reordered [] xs ys) (ha : forM SyText.step o xs = .ok a)
    (hb : forM SyText.step o ys = .ok b) : a = b := by
  have f0 : a.text = b.text := (Track.folds (get := (·.text)) (fun o x o' hs => (SyText.trackAll o x o' hs).1) ha).unique
    (Track.folds (get := (·.text)) (fun o x o' hs => (SyText.trackAll o x o' hs).1) hb) filter_never
  have f1 : a.position = b.position := (Track.folds (get := (·.position)) (fun o x o' hs => (SyText.trackAll o x o' hs).2.1) ha).unique
    (Track.folds (get := (·.position)) (fun o x o' hs => (SyText.trackAll o x o' hs).2.1) hb) (hr.tokens _)
  have f2 : a.effects = b.effects := (Track.folds (get := (·.effects)) (fun o x o' hs => (SyText.trackAll o x o' hs).2.2) ha).unique
    (Track.folds (get := (·.effects)) (fun o x o' hs => (SyText.trackAll o x o' hs).2.2) hb) (hr.tokens _)
  show SyText.mk a.text a.position a.effects =
    SyText.mk b.text b.position b.effects
  rw [f0, f1, f2]

theorem SyText.loopEq (text : Val) (xs : List Val) :
    SyText.fromSexpr (.list (.str k!"text" :: text :: xs)) = forM SyText.step { text := text } xs :=
  rfl

theorem SyTextBox.trackAll (o : SyTextBox) (x : Val) : Post (SyTextBox.step o x) fun o' =>
    Track (fun _ => false) (fun v _ => .ok v) x o.text o'.text ∧
    Track (fun _ => false) (fun v _ => .ok v) x o.priv o'.priv ∧
    Track (tok k!"at") (fun _ => Position.fromSexpr) x o.position o'.position ∧
    Track (tok k!"size") (fun _ => Position.fromSexpr) x o.size o'.size ∧
    Track (tok k!"stroke") (fun _ => Stroke.fromSexpr) x o.stroke o'.stroke ∧
    Track (tok k!"fill") (fun _ => Fill.fromSexpr) x o.fill o'.fill ∧
    Track (tok k!"effects") (fun _ => Effects.fromSexpr) x o.effects o'.effects ∧
    Track (tok k!"uuid") (fun _ => fun i => do return some (← i.idx 1)) x o.uuid o'.uuid := by
  unfold SyTextBox.step
  trackItems

theorem SyTextBox.indep (o o' : SyTextBox) (x : Val) : Same (SyTextBox.step o x) (SyTextBox.step o' x) := by
  unfold SyTextBox.step
  same

theorem SyTextBox.unknown {h : Val} {r : List Val} (hu : ∀ k ∈ [k!"at", k!"size", k!"effects", k!"stroke", k!"fill", k!"uuid"], h ≠ .str k) (o : SyTextBox) :
    SyTextBox.step o (.list (h :: r)) = .ok o := by
  unfold SyTextBox.step
  unknownHead hu

theorem SyTextBox.reordered {o a b : SyTextBox} {xs ys : List Val} (hr : Reordered [] xs ys) (ha : forM SyTextBox.step o xs = .ok a)
    (hb : forM SyTextBox.step o ys = .ok b) : a = b := by
  have f0 : a.text = b.text := (Track.folds (get := (·.text)) (fun o x o' hs => (SyTextBox.trackAll o x o' hs).1) ha).unique
    (Track.folds (get := (·.text)) (fun o x o' hs => (SyTextBox.trackAll o x o' hs).1) hb) filter_never
  have f1 : a.priv = b.priv := (Track.folds (get := (·.priv)) (fun o x o' hs => (SyTextBox.trackAll o x o' hs).2.1) ha).unique
    (Track.folds (get := (·.priv)) (fun o x o' hs => (SyTextBox.trackAll o x o' hs).2.1) hb) filter_never
  have f2 : a.position = b.position := (Track.folds (get := (·.position)) (fun o x o' hs => (SyTextBox.trackAll o x o' hs).2.2.1) ha).unique
    (Track.folds (get := (·.position)) (fun o x o' hs => (SyTextBox.trackAll o x o' hs).2.2.1) hb) (hr.tokens _)
  have f3 : a.size = b.size := (Track.folds (get := (·.size)) (fun o x o' hs => (SyTextBox.trackAll o x o' hs).2.2.2.1) ha).unique
    (Track.folds (get := (·.size)) (fun o x o' hs => (SyTextBox.trackAll o x o' hs).2.2.2.1) hb) (hr.tokens _)
  have f4 : a.stroke = b.stroke := (Track.folds (get := (·.stroke)) (fun o x o' hs => (SyTextBox.trackAll o x o' hs).2.2.2.2.1) ha).unique
    (Track.folds (get := (·.stroke)) (fun o x o' hs => (SyTextBox.trackAll o x o' hs).2.2.2.2.1) hb) (hr.tokens _)
  have f5 : a.fill = b.fill := (Track.folds (get := (·.fill)) (fun o x o' hs => (SyTextBox.trackAll o x o' hs).2.2.2.2.2.1) ha).unique
    (Track.folds (get := (·.fill)) (fun o x o' hs => (SyTextBox.trackAll o x o' hs).2.2.2.2.2.1) hb) (hr.tokens _)
  have f6 : a.effects = b.effects := (Track.folds (get := (·.effects)) (fun o x o' hs => (SyTextBox.trackAll o x o' hs).2.2.2.2.2.2.1) ha).unique
    (Track.folds (get := (·.effects)) (fun o x o' hs => (SyTextBox.trackAll o x o' hs).2.2.2.2.2.2.1) hb) (hr.tokens _)
  have f7 : a.uuid = b.uuid := (Track.folds (get := (·.uuid)) (fun o x o' hs => (SyTextBox.trackAll o x o' hs).2.2.2.2.2.2.2) ha).unique
    (Track.folds (get := (·.uuid)) (fun o x o' hs => (SyTextBox.trackAll o x o' hs).2.2.2.2.2.2.2) hb) (hr.tokens _)
  show SyTextBox.mk a.text a.priv a.position a.size a.stroke a.fill a.effects a.uuid =
    SyTextBox.mk b.text b.priv b.position b.size b.stroke b.fill b.effects b.uuid
  rw [f0, f1, f2, f3, f4, f5, f6, f7]

theorem SyTextBox.loopEq {a : Val} (ha : a.is k!"private" = false) (xs : List Val) :
    SyTextBox.fromSexpr (.list (.str k!"text_box" :: a :: xs)) = forM SyTextBox.step { text := a } xs :=
  by simp only [SyTextBox.fromSexpr, checkHead_ok, getI1, List.drop_succ_cons, List.drop_zero]; exact (if_neg (by simp [ha]))

end Kiutils
