import Verif.Tokens
import Verif.Model.Common
/-!
# Loop bodies of `from_sexpr` item by item: Common
-/
namespace Kiutils

theorem Stroke.trackAll (o : Stroke) (x : Val) : Post (Stroke.step o x) fun o' =>
    Track (tok k!"width") (fun _ => (·.idx 1)) x o.width o'.width ∧
    Track (tok k!"type") (fun _ => fun i => do return some (← i.idx 1)) x o.type o'.type ∧
    Track (tok k!"color") (fun _ => fun i => do return some (← ColorRGBA.fromSexpr i)) x o.color o'.color := by
  unfold Stroke.step
  cases x <;> trackBoth

theorem Stroke.indep (o o' : Stroke) (x : Val) : Same (Stroke.step o x) (Stroke.step o' x) := by
  unfold Stroke.step
  cases x <;> same

theorem Stroke.unknown {h : Val} {r : List Val} (hu : ∀ k ∈ [k!"width", k!"type", k!"color"], h ≠ .str k) (o : Stroke) :
    Stroke.step o (.list (h :: r)) = .ok o := by
  unfold Stroke.step
  unknownHead hu

theorem Stroke.reordered {o a b : Stroke} {xs ys : List Val} (hr : Reordered [] xs ys) (ha : forM Stroke.step o xs = .ok a)
    (hb : forM Stroke.step o ys = .ok b) : a = b := by
  have f0 : a.width = b.width := (Track.folds (get := (·.width)) (fun o x o' hs => (Stroke.trackAll o x o' hs).1) ha).unique
    (Track.folds (get := (·.width)) (fun o x o' hs => (Stroke.trackAll o x o' hs).1) hb) (hr.tokens _)
  have f1 : a.type = b.type := (Track.folds (get := (·.type)) (fun o x o' hs => (Stroke.trackAll o x o' hs).2.1) ha).unique
    (Track.folds (get := (·.type)) (fun o x o' hs => (Stroke.trackAll o x o' hs).2.1) hb) (hr.tokens _)
  have f2 : a.color = b.color := (Track.folds (get := (·.color)) (fun o x o' hs => (Stroke.trackAll o x o' hs).2.2) ha).unique
    (Track.folds (get := (·.color)) (fun o x o' hs => (Stroke.trackAll o x o' hs).2.2) hb) (hr.tokens _)
  show Stroke.mk a.width a.type a.color =
    Stroke.mk b.width b.type b.color
  rw [f0, f1, f2]

theorem Stroke.loopEq (a : Val) (xs : List Val) :
    Stroke.fromSexpr (.list (.str k!"stroke" :: a :: xs)) = forM Stroke.step {} (.str k!"stroke" :: a :: xs) :=
  rfl

theorem Font.trackAll (o : Font) (x : Val) : Post (Font.step o x) fun o' =>
    Track (tok k!"face") (fun _ => fun i => do return some (← i.idx 1)) x o.face o'.face ∧
    Track (tok k!"size") (fun _ => (·.idx 1)) x o.height o'.height ∧
    Track (tok k!"size") (fun _ => (·.idx 2)) x o.width o'.width ∧
    Track (tok k!"thickness") (fun _ => fun i => do return some (← i.idx 1)) x o.thickness o'.thickness ∧
    Track (wordIn [k!"bold"]) (fun _ _ => .ok true) x o.bold o'.bold ∧
    Track (wordIn [k!"italic"]) (fun _ _ => .ok true) x o.italic o'.italic ∧
    Track (tok k!"line_spacing") (fun _ => fun i => do return some (← i.idx 1)) x o.lineSpacing o'.lineSpacing ∧
    Track (tok k!"color") (fun _ => fun i => do return some (← ColorRGBA.fromSexpr i)) x o.color o'.color := by
  unfold Font.step
  cases x <;> trackBoth

theorem Font.indep (o o' : Font) (x : Val) : Same (Font.step o x) (Font.step o' x) := by
  unfold Font.step
  cases x <;> same

theorem Font.unknown {h : Val} {r : List Val} (hu : ∀ k ∈ [k!"face", k!"size", k!"thickness", k!"line_spacing", k!"color"], h ≠ .str k) (o : Font) :
    Font.step o (.list (h :: r)) = .ok o := by
  unfold Font.step
  unknownHead hu

theorem Font.reordered {o a b : Font} {xs ys : List Val} (hr : Reordered [] xs ys) (ha : forM Font.step o xs = .ok a)
    (hb : forM Font.step o ys = .ok b) : a = b := by
  have f0 : a.face = b.face := (Track.folds (get := (·.face)) (fun o x o' hs => (Font.trackAll o x o' hs).1) ha).unique
    (Track.folds (get := (·.face)) (fun o x o' hs => (Font.trackAll o x o' hs).1) hb) (hr.tokens _)
  have f1 : a.height = b.height := (Track.folds (get := (·.height)) (fun o x o' hs => (Font.trackAll o x o' hs).2.1) ha).unique
    (Track.folds (get := (·.height)) (fun o x o' hs => (Font.trackAll o x o' hs).2.1) hb) (hr.tokens _)
  have f2 : a.width = b.width := (Track.folds (get := (·.width)) (fun o x o' hs => (Font.trackAll o x o' hs).2.2.1) ha).unique
    (Track.folds (get := (·.width)) (fun o x o' hs => (Font.trackAll o x o' hs).2.2.1) hb) (hr.tokens _)
  have f3 : a.thickness = b.thickness := (Track.folds (get := (·.thickness)) (fun o x o' hs => (Font.trackAll o x o' hs).2.2.2.1) ha).unique
    (Track.folds (get := (·.thickness)) (fun o x o' hs => (Font.trackAll o x o' hs).2.2.2.1) hb) (hr.tokens _)
  have f4 : a.bold = b.bold := (Track.folds (get := (·.bold)) (fun o x o' hs => (Font.trackAll o x o' hs).2.2.2.2.1) ha).unique
    (Track.folds (get := (·.bold)) (fun o x o' hs => (Font.trackAll o x o' hs).2.2.2.2.1) hb) (hr.word _)
  have f5 : a.italic = b.italic := (Track.folds (get := (·.italic)) (fun o x o' hs => (Font.trackAll o x o' hs).2.2.2.2.2.1) ha).unique
    (Track.folds (get := (·.italic)) (fun o x o' hs => (Font.trackAll o x o' hs).2.2.2.2.2.1) hb) (hr.word _)
  have f6 : a.lineSpacing = b.lineSpacing := (Track.folds (get := (·.lineSpacing)) (fun o x o' hs => (Font.trackAll o x o' hs).2.2.2.2.2.2.1) ha).unique
    (Track.folds (get := (·.lineSpacing)) (fun o x o' hs => (Font.trackAll o x o' hs).2.2.2.2.2.2.1) hb) (hr.tokens _)
  have f7 : a.color = b.color := (Track.folds (get := (·.color)) (fun o x o' hs => (Font.trackAll o x o' hs).2.2.2.2.2.2.2) ha).unique
    (Track.folds (get := (·.color)) (fun o x o' hs => (Font.trackAll o x o' hs).2.2.2.2.2.2.2) hb) (hr.tokens _)
  show Font.mk a.face a.height a.width a.thickness a.bold a.italic a.lineSpacing a.color =
    Font.mk b.face b.height b.width b.thickness b.bold b.italic b.lineSpacing b.color
  rw [f0, f1, f2, f3, f4, f5, f6, f7]

theorem Font.loopEq (xs : List Val) :
    Font.fromSexpr (.list (.str k!"font" :: xs)) = forM Font.step {} (.str k!"font" :: xs) :=
  rfl

theorem Justify.trackAll (o : Justify) (x : Val) : Post (Justify.step o x) fun o' =>
    Track (wordIn [k!"left", k!"right", k!"center"]) (fun _ => fun i => do return some i) x o.horizontally o'.horizontally ∧
    Track (wordIn [k!"top", k!"bottom"]) (fun _ => fun i => do return some i) x o.vertically o'.vertically ∧
    Track (wordIn [k!"mirror"]) (fun _ _ => .ok true) x o.mirror o'.mirror := by
  unfold Justify.step
  cases x <;> trackBoth

theorem Justify.indep (o o' : Justify) (x : Val) : Same (Justify.step o x) (Justify.step o' x) := by
  unfold Justify.step
  same

theorem Justify.reordered {o a b : Justify} {xs ys : List Val} (hr : Reordered [] xs ys) (ha : forM Justify.step o xs = .ok a)
    (hb : forM Justify.step o ys = .ok b) : a = b := by
  have f0 : a.horizontally = b.horizontally := (Track.folds (get := (·.horizontally)) (fun o x o' hs => (Justify.trackAll o x o' hs).1) ha).unique
    (Track.folds (get := (·.horizontally)) (fun o x o' hs => (Justify.trackAll o x o' hs).1) hb) (hr.word _)
  have f1 : a.vertically = b.vertically := (Track.folds (get := (·.vertically)) (fun o x o' hs => (Justify.trackAll o x o' hs).2.1) ha).unique
    (Track.folds (get := (·.vertically)) (fun o x o' hs => (Justify.trackAll o x o' hs).2.1) hb) (hr.word _)
  have f2 : a.mirror = b.mirror := (Track.folds (get := (·.mirror)) (fun o x o' hs => (Justify.trackAll o x o' hs).2.2) ha).unique
    (Track.folds (get := (·.mirror)) (fun o x o' hs => (Justify.trackAll o x o' hs).2.2) hb) (hr.word _)
  show Justify.mk a.horizontally a.vertically a.mirror =
    Justify.mk b.horizontally b.vertically b.mirror
  rw [f0, f1, f2]

theorem Justify.loopEq (xs : List Val) :
    Justify.fromSexpr (.list (.str k!"justify" :: xs)) = forM Justify.step {} (.str k!"justify" :: xs) :=
  rfl

theorem Effects.trackAll (o : Effects) (x : Val) : Post (Effects.step o x) fun o' =>
    Track (tok k!"font") (fun _ => Font.fromSexpr) x o.font o'.font ∧
    Track (tok k!"justify") (fun _ => Justify.fromSexpr) x o.justify o'.justify ∧
    Track (wordIn [k!"hide"]) (fun _ _ => .ok true) x o.hide o'.hide ∧
    Track (tok k!"href") (fun _ => fun i => do return some (← i.idx 1)) x o.href o'.href := by
  unfold Effects.step
  cases x <;> trackBoth

theorem Effects.indep (o o' : Effects) (x : Val) : Same (Effects.step o x) (Effects.step o' x) := by
  unfold Effects.step
  cases x <;> same

theorem Effects.unknown {h : Val} {r : List Val} (hu : ∀ k ∈ [k!"font", k!"justify", k!"href"], h ≠ .str k) (o : Effects) :
    Effects.step o (.list (h :: r)) = .ok o := by
  unfold Effects.step
  unknownHead hu

theorem Effects.reordered {o a b : Effects} {xs ys : List Val} (hr : Reordered [] xs ys) (ha : forM Effects.step o xs = .ok a)
    (hb : forM Effects.step o ys = .ok b) : a = b := by
  have f0 : a.font = b.font := (Track.folds (get := (·.font)) (fun o x o' hs => (Effects.trackAll o x o' hs).1) ha).unique
    (Track.folds (get := (·.font)) (fun o x o' hs => (Effects.trackAll o x o' hs).1) hb) (hr.tokens _)
  have f1 : a.justify = b.justify := (Track.folds (get := (·.justify)) (fun o x o' hs => (Effects.trackAll o x o' hs).2.1) ha).unique
    (Track.folds (get := (·.justify)) (fun o x o' hs => (Effects.trackAll o x o' hs).2.1) hb) (hr.tokens _)
  have f2 : a.hide = b.hide := (Track.folds (get := (·.hide)) (fun o x o' hs => (Effects.trackAll o x o' hs).2.2.1) ha).unique
    (Track.folds (get := (·.hide)) (fun o x o' hs => (Effects.trackAll o x o' hs).2.2.1) hb) (hr.word _)
  have f3 : a.href = b.href := (Track.folds (get := (·.href)) (fun o x o' hs => (Effects.trackAll o x o' hs).2.2.2) ha).unique
    (Track.folds (get := (·.href)) (fun o x o' hs => (Effects.trackAll o x o' hs).2.2.2) hb) (hr.tokens _)
  show Effects.mk a.font a.justify a.hide a.href =
    Effects.mk b.font b.justify b.hide b.href
  rw [f0, f1, f2, f3]

theorem Effects.loopEq (xs : List Val) :
    Effects.fromSexpr (.list (.str k!"effects" :: xs)) = forM Effects.step {} (.str k!"effects" :: xs) :=
  rfl

theorem Group.trackAll (o : Group) (x : Val) : Post (Group.step o x) fun o' =>
    Track (fun _ => false) (fun v _ => .ok v) x o.name o'.name ∧
    Track (wordIn [k!"locked"]) (fun _ _ => .ok true) x o.locked o'.locked ∧
    Track (tok k!"id") (fun _ => (·.idx 1)) x o.id o'.id ∧
    Track (tok k!"members") (fun l i => do return l ++ (← (·.slice 1) i)) x o.members o'.members := by
  unfold Group.step
  cases x <;> trackBoth

theorem Group.indep (o o' : Group) (x : Val) : Same (Group.step o x) (Group.step o' x) := by
  unfold Group.step
  cases x <;> same

theorem Group.unknown {h : Val} {r : List Val} (hu : ∀ k ∈ [k!"id", k!"members"], h ≠ .str k) (o : Group) :
    Group.step o (.list (h :: r)) = .ok o := by
  unfold Group.step
  unknownHead hu

theorem Group.reordered {o a b : Group} {xs ys : List Val} (hr : Reordered [] xs ys) (ha : forM Group.step o xs = .ok a)
    (hb : forM Group.step o ys = .ok b) : a = b := by
  have f0 : a.name = b.name := (Track.folds (get := (·.name)) (fun o x o' hs => (Group.trackAll o x o' hs).1) ha).unique
    (Track.folds (get := (·.name)) (fun o x o' hs => (Group.trackAll o x o' hs).1) hb) filter_never
  have f1 : a.locked = b.locked := (Track.folds (get := (·.locked)) (fun o x o' hs => (Group.trackAll o x o' hs).2.1) ha).unique
    (Track.folds (get := (·.locked)) (fun o x o' hs => (Group.trackAll o x o' hs).2.1) hb) (hr.word _)
  have f2 : a.id = b.id := (Track.folds (get := (·.id)) (fun o x o' hs => (Group.trackAll o x o' hs).2.2.1) ha).unique
    (Track.folds (get := (·.id)) (fun o x o' hs => (Group.trackAll o x o' hs).2.2.1) hb) (hr.tokens _)
  have f3 : a.members = b.members := (Track.folds (get := (·.members)) (fun o x o' hs => (Group.trackAll o x o' hs).2.2.2) ha).unique
    (Track.folds (get := (·.members)) (fun o x o' hs => (Group.trackAll o x o' hs).2.2.2) hb) (hr.tokens _)
  show Group.mk a.name a.locked a.id a.members =
    Group.mk b.name b.locked b.id b.members
  rw [f0, f1, f2, f3]

theorem Group.loopEq (name : Val) (xs : List Val) :
    Group.fromSexpr (.list (.str k!"group" :: name :: xs)) = forM Group.step { name := name } (.str k!"group" :: name :: xs) :=
  rfl

theorem PageSettings.trackAll (o : PageSettings) (x : Val) : Post (PageSettings.step o x) fun o' =>
    Track (fun _ => false) (fun v _ => .ok v) x o.paperSize o'.paperSize ∧
    Track (fun _ => false) (fun v _ => .ok v) x o.width o'.width ∧
    Track (fun _ => false) (fun v _ => .ok v) x o.height o'.height ∧
    Track (wordIn [k!"portrait"]) (fun _ _ => .ok true) x o.portrait o'.portrait := by
  unfold PageSettings.step
  cases x <;> trackBoth

theorem PageSettings.indep (o o' : PageSettings) (x : Val) : Same (PageSettings.step o x) (PageSettings.step o' x) := by
  unfold PageSettings.step
  same

theorem PageSettings.reordered {o a b : PageSettings} {xs ys : List Val} (hr : Reordered [] xs ys) (ha : forM PageSettings.step o xs = .ok a)
    (hb : forM PageSettings.step o ys = .ok b) : a = b := by
  have f0 : a.paperSize = b.paperSize := (Track.folds (get := (·.paperSize)) (fun o x o' hs => (PageSettings.trackAll o x o' hs).1) ha).unique
    (Track.folds (get := (·.paperSize)) (fun o x o' hs => (PageSettings.trackAll o x o' hs).1) hb) filter_never
  have f1 : a.width = b.width := (Track.folds (get := (·.width)) (fun o x o' hs => (PageSettings.trackAll o x o' hs).2.1) ha).unique
    (Track.folds (get := (·.width)) (fun o x o' hs => (PageSettings.trackAll o x o' hs).2.1) hb) filter_never
  have f2 : a.height = b.height := (Track.folds (get := (·.height)) (fun o x o' hs => (PageSettings.trackAll o x o' hs).2.2.1) ha).unique
    (Track.folds (get := (·.height)) (fun o x o' hs => (PageSettings.trackAll o x o' hs).2.2.1) hb) filter_never
  have f3 : a.portrait = b.portrait := (Track.folds (get := (·.portrait)) (fun o x o' hs => (PageSettings.trackAll o x o' hs).2.2.2) ha).unique
    (Track.folds (get := (·.portrait)) (fun o x o' hs => (PageSettings.trackAll o x o' hs).2.2.2) hb) (hr.word _)
  show PageSettings.mk a.paperSize a.width a.height a.portrait =
    PageSettings.mk b.paperSize b.width b.height b.portrait
  rw [f0, f1, f2, f3]

theorem PageSettings.loopEq {size : Val} (ha : size.is k!"User" = false) (xs : List Val) :
    PageSettings.fromSexpr (.list (.str k!"paper" :: size :: xs)) = forM PageSettings.step { paperSize := size } (.str k!"paper" :: size :: xs) :=
  by simp only [PageSettings.fromSexpr, checkHead_ok, getI1]; exact (if_neg (by simp [ha]))

theorem TitleBlock.trackAll (o : TitleBlock) (x : Val) : Post (TitleBlock.step o x) fun o' =>
    Track (tok k!"title") (fun _ => fun i => do return some (← i.idx 1)) x o.title o'.title ∧
    Track (tok k!"date") (fun _ => fun i => do return some (← i.idx 1)) x o.date o'.date ∧
    Track (tok k!"rev") (fun _ => fun i => do return some (← i.idx 1)) x o.revision o'.revision ∧
    Track (tok k!"company") (fun _ => fun i => do return some (← i.idx 1)) x o.company o'.company ∧
    Track (tok k!"comment") (fun acc i => do let n ← i.idx 1; let c ← i.idx 2; Dict.update acc n c) x o.comments o'.comments := by
  unfold TitleBlock.step
  trackItems

theorem TitleBlock.indep (o o' : TitleBlock) (x : Val) : Same (TitleBlock.step o x) (TitleBlock.step o' x) := by
  unfold TitleBlock.step
  same

theorem TitleBlock.unknown {h : Val} {r : List Val} (hu : ∀ k ∈ [k!"title", k!"date", k!"rev", k!"company", k!"comment"], h ≠ .str k) (o : TitleBlock) :
    TitleBlock.step o (.list (h :: r)) = .ok o := by
  unfold TitleBlock.step
  unknownHead hu

theorem TitleBlock.reordered {o a b : TitleBlock} {xs ys : List Val} (hr : Reordered [] xs ys) (ha : forM TitleBlock.step o xs = .ok a)
    (hb : forM TitleBlock.step o ys = .ok b) : a = b := by
  have f0 : a.title = b.title := (Track.folds (get := (·.title)) (fun o x o' hs => (TitleBlock.trackAll o x o' hs).1) ha).unique
    (Track.folds (get := (·.title)) (fun o x o' hs => (TitleBlock.trackAll o x o' hs).1) hb) (hr.tokens _)
  have f1 : a.date = b.date := (Track.folds (get := (·.date)) (fun o x o' hs => (TitleBlock.trackAll o x o' hs).2.1) ha).unique
    (Track.folds (get := (·.date)) (fun o x o' hs => (TitleBlock.trackAll o x o' hs).2.1) hb) (hr.tokens _)
  have f2 : a.revision = b.revision := (Track.folds (get := (·.revision)) (fun o x o' hs => (TitleBlock.trackAll o x o' hs).2.2.1) ha).unique
    (Track.folds (get := (·.revision)) (fun o x o' hs => (TitleBlock.trackAll o x o' hs).2.2.1) hb) (hr.tokens _)
  have f3 : a.company = b.company := (Track.folds (get := (·.company)) (fun o x o' hs => (TitleBlock.trackAll o x o' hs).2.2.2.1) ha).unique
    (Track.folds (get := (·.company)) (fun o x o' hs => (TitleBlock.trackAll o x o' hs).2.2.2.1) hb) (hr.tokens _)
  have f4 : a.comments = b.comments := (Track.folds (get := (·.comments)) (fun o x o' hs => (TitleBlock.trackAll o x o' hs).2.2.2.2) ha).unique
    (Track.folds (get := (·.comments)) (fun o x o' hs => (TitleBlock.trackAll o x o' hs).2.2.2.2) hb) (hr.tokens _)
  show TitleBlock.mk a.title a.date a.revision a.company a.comments =
    TitleBlock.mk b.title b.date b.revision b.company b.comments
  rw [f0, f1, f2, f3, f4]

theorem TitleBlock.loopEq (xs : List Val) :
    TitleBlock.fromSexpr (.list (.str k!"title_block" :: xs)) = forM TitleBlock.step {} (.str k!"title_block" :: xs) :=
  rfl

theorem Property.trackAll (o : Property) (x : Val) : Post (Property.step o x) fun o' =>
    Track (fun _ => false) (fun v _ => .ok v) x o.key o'.key ∧
    Track (fun _ => false) (fun v _ => .ok v) x o.value o'.value ∧
    Track (tok k!"id") (fun _ => fun i => do return some (← i.idx 1)) x o.id o'.id ∧
    Track (tok k!"at") (fun _ => Position.fromSexpr) x o.position o'.position ∧
    Track (tok k!"effects") (fun _ => fun i => do return some (← Effects.fromSexpr i)) x o.effects o'.effects ∧
    Track (tok k!"show_name") (fun _ _ => .ok true) x o.showName o'.showName := by
  unfold Property.step
  trackItems

theorem Property.indep (o o' : Property) (x : Val) : Same (Property.step o x) (Property.step o' x) := by
  unfold Property.step
  same

theorem Property.unknown {h : Val} {r : List Val} (hu : ∀ k ∈ [k!"id", k!"at", k!"effects", k!"show_name"], h ≠ .str k) (o : Property) :
    Property.step o (.list (h :: r)) = .ok o := by
  unfold Property.step
  unknownHead hu

theorem Property.reordered {o a b : Property} {xs ys : List Val} (hr : Reordered [] xs ys) (ha : forM Property.step o xs = .ok a)
    (hb : forM Property.step o ys = .ok b) : a = b := by
  have f0 : a.key = b.key := (Track.folds (get := (·.key)) (fun o x o' hs => (Property.trackAll o x o' hs).1) ha).unique
    (Track.folds (get := (·.key)) (fun o x o' hs => (Property.trackAll o x o' hs).1) hb) filter_never
  have f1 : a.value = b.value := (Track.folds (get := (·.value)) (fun o x o' hs => (Property.trackAll o x o' hs).2.1) ha).unique
    (Track.folds (get := (·.value)) (fun o x o' hs => (Property.trackAll o x o' hs).2.1) hb) filter_never
  have f2 : a.id = b.id := (Track.folds (get := (·.id)) (fun o x o' hs => (Property.trackAll o x o' hs).2.2.1) ha).unique
    (Track.folds (get := (·.id)) (fun o x o' hs => (Property.trackAll o x o' hs).2.2.1) hb) (hr.tokens _)
  have f3 : a.position = b.position := (Track.folds (get := (·.position)) (fun o x o' hs => (Property.trackAll o x o' hs).2.2.2.1) ha).unique
    (Track.folds (get := (·.position)) (fun o x o' hs => (Property.trackAll o x o' hs).2.2.2.1) hb) (hr.tokens _)
  have f4 : a.effects = b.effects := (Track.folds (get := (·.effects)) (fun o x o' hs => (Property.trackAll o x o' hs).2.2.2.2.1) ha).unique
    (Track.folds (get := (·.effects)) (fun o x o' hs => (Property.trackAll o x o' hs).2.2.2.2.1) hb) (hr.tokens _)
  have f5 : a.showName = b.showName := (Track.folds (get := (·.showName)) (fun o x o' hs => (Property.trackAll o x o' hs).2.2.2.2.2) ha).unique
    (Track.folds (get := (·.showName)) (fun o x o' hs => (Property.trackAll o x o' hs).2.2.2.2.2) hb) (hr.tokens _)
  show Property.mk a.key a.value a.id a.position a.effects a.showName =
    Property.mk b.key b.value b.id b.position b.effects b.showName
  rw [f0, f1, f2, f3, f4, f5]

theorem Property.loopEq (key value : Val) (xs : List Val) :
    Property.fromSexpr (.list (.str k!"property" :: key :: value :: xs)) = forM Property.step { key := key, value := value } xs :=
  rfl

theorem RenderCachePolygon.trackAll (o : RenderCachePolygon) (x : Val) : Post (RenderCachePolygon.step o x) fun o' =>
    Track (tok k!"pts") (fun l i => do return l ++ (← (fun i => do mapM' Position.fromSexpr (← i.slice 1)) i)) x o.pts o'.pts := by
  unfold RenderCachePolygon.step
  trackItems

theorem RenderCachePolygon.indep (o o' : RenderCachePolygon) (x : Val) : Same (RenderCachePolygon.step o x) (RenderCachePolygon.step o' x) := by
  unfold RenderCachePolygon.step
  same

theorem RenderCachePolygon.unknown {h : Val} {r : List Val} (hu : ∀ k ∈ [k!"pts"], h ≠ .str k) (o : RenderCachePolygon) :
    RenderCachePolygon.step o (.list (h :: r)) = .ok o := by
  unfold RenderCachePolygon.step
  unknownHead hu

theorem RenderCachePolygon.reordered {o a b : RenderCachePolygon} {xs ys : List Val} (hr : Reordered [] xs ys) (ha : forM RenderCachePolygon.step o xs = .ok a)
    (hb : forM RenderCachePolygon.step o ys = .ok b) : a = b := by
  have f0 : a.pts = b.pts := (Track.folds (get := (·.pts)) (fun o x o' hs => (RenderCachePolygon.trackAll o x o' hs)) ha).unique
    (Track.folds (get := (·.pts)) (fun o x o' hs => (RenderCachePolygon.trackAll o x o' hs)) hb) (hr.tokens _)
  show RenderCachePolygon.mk a.pts =
    RenderCachePolygon.mk b.pts
  rw [f0]

theorem RenderCachePolygon.loopEq (xs : List Val) :
    RenderCachePolygon.fromSexpr (.list (.str k!"polygon" :: xs)) = forM RenderCachePolygon.step {} (.str k!"polygon" :: xs) :=
  rfl

theorem RenderCache.trackAll (o : RenderCache) (x : Val) : Post (RenderCache.step o x) fun o' =>
    Track (fun _ => false) (fun v _ => .ok v) x o.text o'.text ∧
    Track (fun _ => false) (fun v _ => .ok v) x o.id o'.id ∧
    Track (tok k!"polygon") (fun l i => do return l ++ [← RenderCachePolygon.fromSexpr i]) x o.polygons o'.polygons := by
  unfold RenderCache.step
  trackItems

theorem RenderCache.indep (o o' : RenderCache) (x : Val) : Same (RenderCache.step o x) (RenderCache.step o' x) := by
  unfold RenderCache.step
  same

theorem RenderCache.unknown {h : Val} {r : List Val} (hu : ∀ k ∈ [k!"polygon"], h ≠ .str k) (o : RenderCache) :
    RenderCache.step o (.list (h :: r)) = .ok o := by
  unfold RenderCache.step
  unknownHead hu

theorem RenderCache.reordered {o a b : RenderCache} {xs ys : List Val} (hr : Reordered [] xs ys) (ha : forM RenderCache.step o xs = .ok a)
    (hb : forM RenderCache.step o ys = .ok b) : a = b := by
  have f0 : a.text = b.text := (Track.folds (get := (·.text)) (fun o x o' hs => (RenderCache.trackAll o x o' hs).1) ha).unique
    (Track.folds (get := (·.text)) (fun o x o' hs => (RenderCache.trackAll o x o' hs).1) hb) filter_never
  have f1 : a.id = b.id := (Track.folds (get := (·.id)) (fun o x o' hs => (RenderCache.trackAll o x o' hs).2.1) ha).unique
    (Track.folds (get := (·.id)) (fun o x o' hs => (RenderCache.trackAll o x o' hs).2.1) hb) filter_never
  have f2 : a.polygons = b.polygons := (Track.folds (get := (·.polygons)) (fun o x o' hs => (RenderCache.trackAll o x o' hs).2.2) ha).unique
    (Track.folds (get := (·.polygons)) (fun o x o' hs => (RenderCache.trackAll o x o' hs).2.2) hb) (hr.tokens _)
  show RenderCache.mk a.text a.id a.polygons =
    RenderCache.mk b.text b.id b.polygons
  rw [f0, f1, f2]

theorem RenderCache.loopEq (text id : Val) (xs : List Val) :
    RenderCache.fromSexpr (.list (.str k!"render_cache" :: text :: id :: xs)) = forM RenderCache.step { text := text, id := id } (.str k!"render_cache" :: text :: id :: xs) :=
  rfl

theorem Fill.trackAll (o : Fill) (x : Val) : Post (Fill.step o x) fun o' =>
    Track (tok k!"type") (fun _ => (·.idx 1)) x o.type o'.type ∧
    Track (tok k!"color") (fun _ => fun i => do return some (← ColorRGBA.fromSexpr i)) x o.color o'.color := by
  unfold Fill.step
  trackItems

theorem Fill.indep (o o' : Fill) (x : Val) : Same (Fill.step o x) (Fill.step o' x) := by
  unfold Fill.step
  same

theorem Fill.unknown {h : Val} {r : List Val} (hu : ∀ k ∈ [k!"type", k!"color"], h ≠ .str k) (o : Fill) :
    Fill.step o (.list (h :: r)) = .ok o := by
  unfold Fill.step
  unknownHead hu

theorem Fill.reordered {o a b : Fill} {xs ys : List Val} (hr : Reordered [] xs ys) (ha : forM Fill.step o xs = .ok a)
    (hb : forM Fill.step o ys = .ok b) : a = b := by
  have f0 : a.type = b.type := (Track.folds (get := (·.type)) (fun o x o' hs => (Fill.trackAll o x o' hs).1) ha).unique
    (Track.folds (get := (·.type)) (fun o x o' hs => (Fill.trackAll o x o' hs).1) hb) (hr.tokens _)
  have f1 : a.color = b.color := (Track.folds (get := (·.color)) (fun o x o' hs => (Fill.trackAll o x o' hs).2) ha).unique
    (Track.folds (get := (·.color)) (fun o x o' hs => (Fill.trackAll o x o' hs).2) hb) (hr.tokens _)
  show Fill.mk a.type a.color =
    Fill.mk b.type b.color
  rw [f0, f1]

theorem Fill.loopEq (xs : List Val) :
    Fill.fromSexpr (.list (.str k!"fill" :: xs)) = forM Fill.step {} (.str k!"fill" :: xs) :=
  rfl

theorem Image.trackAll (o : Image) (x : Val) : Post (Image.step o x) fun o' =>
    Track (tok k!"at") (fun _ => Position.fromSexpr) x o.position o'.position ∧
    Track (tok k!"scale") (fun _ => fun i => do return some (← i.idx 1)) x o.scale o'.scale ∧
    Track (tok k!"data") (fun l i => do return l ++ (← (·.slice 1) i)) x o.data o'.data ∧
    Track (tok k!"uuid") (fun _ => fun i => do return some (← i.idx 1)) x o.uuid o'.uuid ∧
    Track (tok k!"layer") (fun _ => fun i => do return some (← i.idx 1)) x o.layer o'.layer := by
  unfold Image.step
  trackItems

theorem Image.indep (o o' : Image) (x : Val) : Same (Image.step o x) (Image.step o' x) := by
  unfold Image.step
  same

theorem Image.unknown {h : Val} {r : List Val} (hu : ∀ k ∈ [k!"at", k!"scale", k!"uuid", k!"layer", k!"data"], h ≠ .str k) (o : Image) :
    Image.step o (.list (h :: r)) = .ok o := by
  unfold Image.step
  unknownHead hu

theorem Image.reordered {o a b : Image} {xs ys : List Val} (hr : Reordered [] xs ys) (ha : forM Image.step o xs = .ok a)
    (hb : forM Image.step o ys = .ok b) : a = b := by
  have f0 : a.position = b.position := (Track.folds (get := (·.position)) (fun o x o' hs => (Image.trackAll o x o' hs).1) ha).unique
    (Track.folds (get := (·.position)) (fun o x o' hs => (Image.trackAll o x o' hs).1) hb) (hr.tokens _)
  have f1 : a.scale = b.scale := (Track.folds (get := (·.scale)) (fun o x o' hs => (Image.trackAll o x o' hs).2.1) ha).unique
    (Track.folds (get := (·.scale)) (fun o x o' hs => (Image.trackAll o x o' hs).2.1) hb) (hr.tokens _)
  have f2 : a.data = b.data := (Track.folds (get := (·.data)) (fun o x o' hs => (Image.trackAll o x o' hs).2.2.1) ha).unique
    (Track.folds (get := (·.data)) (fun o x o' hs => (Image.trackAll o x o' hs).2.2.1) hb) (hr.tokens _)
  have f3 : a.uuid = b.uuid := (Track.folds (get := (·.uuid)) (fun o x o' hs => (Image.trackAll o x o' hs).2.2.2.1) ha).unique
    (Track.folds (get := (·.uuid)) (fun o x o' hs => (Image.trackAll o x o' hs).2.2.2.1) hb) (hr.tokens _)
  have f4 : a.layer = b.layer := (Track.folds (get := (·.layer)) (fun o x o' hs => (Image.trackAll o x o' hs).2.2.2.2) ha).unique
    (Track.folds (get := (·.layer)) (fun o x o' hs => (Image.trackAll o x o' hs).2.2.2.2) hb) (hr.tokens _)
  show Image.mk a.position a.scale a.data a.uuid a.layer =
    Image.mk b.position b.scale b.data b.uuid b.layer
  rw [f0, f1, f2, f3, f4]

theorem Image.loopEq (xs : List Val) :
    Image.fromSexpr (.list (.str k!"image" :: xs)) = forM Image.step {} (.str k!"image" :: xs) :=
  rfl

end Kiutils
