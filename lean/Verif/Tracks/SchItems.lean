import Verif.Tokens
import Verif.Model.SchItems
/-!
# Loop bodies of `from_sexpr` item by item: SchItems
-/
namespace Kiutils

theorem Junction.trackAll (o : Junction) (x : Val) : Post (Junction.step o x) fun o' =>
    Track (tok k!"at") (fun _ => Position.fromSexpr) x o.position o'.position ∧
    Track (fun _ => false) (fun v _ => .ok v) x o.diameter o'.diameter ∧
    Track (tokIn [k!"color", k!"diameter"]) (fun _ => fun i => if tok k!"color" i then do return .rgba (← ColorRGBA.fromSexpr i) else do return .raw (← i.idx 1)) x o.color o'.color ∧
    Track (tok k!"uuid") (fun _ => fun i => do return some (← i.idx 1)) x o.uuid o'.uuid := by
  unfold Junction.step
  trackItems

theorem Junction.indep (o o' : Junction) (x : Val) : Same (Junction.step o x) (Junction.step o' x) := by
  unfold Junction.step
  same

theorem Junction.unknown {h : Val} {r : List Val} (hu : ∀ k ∈ [k!"at", k!"color", k!"diameter", k!"uuid"], h ≠ .str k) (o : Junction) :
    Junction.step o (.list (h :: r)) = .ok o := by
  unfold Junction.step
  unknownHead hu

theorem Junction.reordered {o a b : Junction} {xs ys : List Val} (hr : Reordered [[k!"color", k!"diameter"]] xs ys) (ha : forM Junction.step o xs = .ok a)
    (hb : forM Junction.step o ys = .ok b) : a = b := by
  have f0 : a.position = b.position := (Track.folds (get := (·.position)) (fun o x o' hs => (Junction.trackAll o x o' hs).1) ha).unique
    (Track.folds (get := (·.position)) (fun o x o' hs => (Junction.trackAll o x o' hs).1) hb) (hr.tokens _)
  have f1 : a.diameter = b.diameter := (Track.folds (get := (·.diameter)) (fun o x o' hs => (Junction.trackAll o x o' hs).2.1) ha).unique
    (Track.folds (get := (·.diameter)) (fun o x o' hs => (Junction.trackAll o x o' hs).2.1) hb) filter_never
  have f2 : a.color = b.color := (Track.folds (get := (·.color)) (fun o x o' hs => (Junction.trackAll o x o' hs).2.2.1) ha).unique
    (Track.folds (get := (·.color)) (fun o x o' hs => (Junction.trackAll o x o' hs).2.2.1) hb) (hr.groups _ (by simp))
  have f3 : a.uuid = b.uuid := (Track.folds (get := (·.uuid)) (fun o x o' hs => (Junction.trackAll o x o' hs).2.2.2) ha).unique
    (Track.folds (get := (·.uuid)) (fun o x o' hs => (Junction.trackAll o x o' hs).2.2.2) hb) (hr.tokens _)
  show Junction.mk a.position a.diameter a.color a.uuid =
    Junction.mk b.position b.diameter b.color b.uuid
  rw [f0, f1, f2, f3]

theorem Junction.loopEq (xs : List Val) :
    Junction.fromSexpr (.list (.str k!"junction" :: xs)) = forM Junction.step {} (.str k!"junction" :: xs) :=
  rfl

theorem NoConnect.trackAll (o : NoConnect) (x : Val) : Post (NoConnect.step o x) fun o' =>
    Track (tok k!"at") (fun _ => Position.fromSexpr) x o.position o'.position ∧
    Track (tok k!"uuid") (fun _ => fun i => do return some (← i.idx 1)) x o.uuid o'.uuid := by
  unfold NoConnect.step
  trackItems

theorem NoConnect.indep (o o' : NoConnect) (x : Val) : Same (NoConnect.step o x) (NoConnect.step o' x) := by
  unfold NoConnect.step
  same

theorem NoConnect.unknown {h : Val} {r : List Val} (hu : ∀ k ∈ [k!"at", k!"uuid"], h ≠ .str k) (o : NoConnect) :
    NoConnect.step o (.list (h :: r)) = .ok o := by
  unfold NoConnect.step
  unknownHead hu

theorem NoConnect.reordered {o a b : NoConnect} {xs ys : List Val} (hr : Reordered [] xs ys) (ha : forM NoConnect.step o xs = .ok a)
    (hb : forM NoConnect.step o ys = .ok b) : a = b := by
  have f0 : a.position = b.position := (Track.folds (get := (·.position)) (fun o x o' hs => (NoConnect.trackAll o x o' hs).1) ha).unique
    (Track.folds (get := (·.position)) (fun o x o' hs => (NoConnect.trackAll o x o' hs).1) hb) (hr.tokens _)
  have f1 : a.uuid = b.uuid := (Track.folds (get := (·.uuid)) (fun o x o' hs => (NoConnect.trackAll o x o' hs).2) ha).unique
    (Track.folds (get := (·.uuid)) (fun o x o' hs => (NoConnect.trackAll o x o' hs).2) hb) (hr.tokens _)
  show NoConnect.mk a.position a.uuid =
    NoConnect.mk b.position b.uuid
  rw [f0, f1]

theorem NoConnect.loopEq (xs : List Val) :
    NoConnect.fromSexpr (.list (.str k!"no_connect" :: xs)) = forM NoConnect.step {} (.str k!"no_connect" :: xs) :=
  rfl

theorem BusEntry.trackAll (o : BusEntry) (x : Val) : Post (BusEntry.step o x) fun o' =>
    Track (tok k!"at") (fun _ => Position.fromSexpr) x o.position o'.position ∧
    Track (tok k!"uuid") (fun _ => fun i => do return some (← i.idx 1)) x o.uuid o'.uuid ∧
    Track (tok k!"size") (fun _ => Position.fromSexpr) x o.size o'.size ∧
    Track (tok k!"stroke") (fun _ => Stroke.fromSexpr) x o.stroke o'.stroke := by
  unfold BusEntry.step
  trackItems

theorem BusEntry.indep (o o' : BusEntry) (x : Val) : Same (BusEntry.step o x) (BusEntry.step o' x) := by
  unfold BusEntry.step
  same

theorem BusEntry.unknown {h : Val} {r : List Val} (hu : ∀ k ∈ [k!"at", k!"stroke", k!"size", k!"uuid"], h ≠ .str k) (o : BusEntry) :
    BusEntry.step o (.list (h :: r)) = .ok o := by
  unfold BusEntry.step
  unknownHead hu

theorem BusEntry.reordered {o a b : BusEntry} {xs ys : List Val} (hr : Reordered [] xs ys) (ha : forM BusEntry.step o xs = .ok a)
    (hb : forM BusEntry.step o ys = .ok b) : a = b := by
  have f0 : a.position = b.position := (Track.folds (get := (·.position)) (fun o x o' hs => (BusEntry.trackAll o x o' hs).1) ha).unique
    (Track.folds (get := (·.position)) (fun o x o' hs => (BusEntry.trackAll o x o' hs).1) hb) (hr.tokens _)
  have f1 : a.uuid = b.uuid := (Track.folds (get := (·.uuid)) (fun o x o' hs => (BusEntry.trackAll o x o' hs).2.1) ha).unique
    (Track.folds (get := (·.uuid)) (fun o x o' hs => (BusEntry.trackAll o x o' hs).2.1) hb) (hr.tokens _)
  have f2 : a.size = b.size := (Track.folds (get := (·.size)) (fun o x o' hs => (BusEntry.trackAll o x o' hs).2.2.1) ha).unique
    (Track.folds (get := (·.size)) (fun o x o' hs => (BusEntry.trackAll o x o' hs).2.2.1) hb) (hr.tokens _)
  have f3 : a.stroke = b.stroke := (Track.folds (get := (·.stroke)) (fun o x o' hs => (BusEntry.trackAll o x o' hs).2.2.2) ha).unique
    (Track.folds (get := (·.stroke)) (fun o x o' hs => (BusEntry.trackAll o x o' hs).2.2.2) hb) (hr.tokens _)
  show BusEntry.mk a.position a.uuid a.size a.stroke =
    BusEntry.mk b.position b.uuid b.size b.stroke
  rw [f0, f1, f2, f3]

theorem BusEntry.loopEq (xs : List Val) :
    BusEntry.fromSexpr (.list (.str k!"bus_entry" :: xs)) = forM BusEntry.step {} (.str k!"bus_entry" :: xs) :=
  rfl

theorem Connection.trackAll (o : Connection) (x : Val) : Post (Connection.step o x) fun o' =>
    Track (fun _ => false) (fun v _ => .ok v) x o.type o'.type ∧
    Track (tok k!"pts") (fun l i => do return l ++ (← (fun i => do mapM' Position.fromSexpr (← i.slice 1)) i)) x o.points o'.points ∧
    Track (tok k!"stroke") (fun _ => Stroke.fromSexpr) x o.stroke o'.stroke ∧
    Track (tok k!"uuid") (fun _ => fun i => do return some (← i.idx 1)) x o.uuid o'.uuid := by
  unfold Connection.step
  trackItems

theorem Connection.indep (o o' : Connection) (x : Val) : Same (Connection.step o x) (Connection.step o' x) := by
  unfold Connection.step
  same

theorem Connection.unknown {h : Val} {r : List Val} (hu : ∀ k ∈ [k!"pts", k!"stroke", k!"uuid"], h ≠ .str k) (o : Connection) :
    Connection.step o (.list (h :: r)) = .ok o := by
  unfold Connection.step
  unknownHead hu

theorem Connection.reordered {o a b : Connection} {xs ys : List Val} (hr : Reordered [] xs ys) (ha : forM Connection.step o xs = .ok a)
    (hb : forM Connection.step o ys = .ok b) : a = b := by
  have f0 : a.type = b.type := (Track.folds (get := (·.type)) (fun o x o' hs => (Connection.trackAll o x o' hs).1) ha).unique
    (Track.folds (get := (·.type)) (fun o x o' hs => (Connection.trackAll o x o' hs).1) hb) filter_never
  have f1 : a.points = b.points := (Track.folds (get := (·.points)) (fun o x o' hs => (Connection.trackAll o x o' hs).2.1) ha).unique
    (Track.folds (get := (·.points)) (fun o x o' hs => (Connection.trackAll o x o' hs).2.1) hb) (hr.tokens _)
  have f2 : a.stroke = b.stroke := (Track.folds (get := (·.stroke)) (fun o x o' hs => (Connection.trackAll o x o' hs).2.2.1) ha).unique
    (Track.folds (get := (·.stroke)) (fun o x o' hs => (Connection.trackAll o x o' hs).2.2.1) hb) (hr.tokens _)
  have f3 : a.uuid = b.uuid := (Track.folds (get := (·.uuid)) (fun o x o' hs => (Connection.trackAll o x o' hs).2.2.2) ha).unique
    (Track.folds (get := (·.uuid)) (fun o x o' hs => (Connection.trackAll o x o' hs).2.2.2) hb) (hr.tokens _)
  show Connection.mk a.type a.points a.stroke a.uuid =
    Connection.mk b.type b.points b.stroke b.uuid
  rw [f0, f1, f2, f3]

theorem Connection.loopEq {hd : Str} (hh : hd = k!"wire" ∨ hd = k!"bus") (xs : List Val) :
    Connection.fromSexpr (.list (.str hd :: xs)) = forM Connection.step { type := .str hd } (.str hd :: xs) :=
  by rcases hh with rfl | rfl <;> rfl

theorem PolyLine.trackAll (o : PolyLine) (x : Val) : Post (PolyLine.step o x) fun o' =>
    Track (tok k!"pts") (fun l i => do return l ++ (← (fun i => do mapM' Position.fromSexpr (← i.slice 1)) i)) x o.points o'.points ∧
    Track (tok k!"stroke") (fun _ => Stroke.fromSexpr) x o.stroke o'.stroke ∧
    Track (tok k!"uuid") (fun _ => fun i => do return some (← i.idx 1)) x o.uuid o'.uuid := by
  unfold PolyLine.step
  trackItems

theorem PolyLine.indep (o o' : PolyLine) (x : Val) : Same (PolyLine.step o x) (PolyLine.step o' x) := by
  unfold PolyLine.step
  same

theorem PolyLine.unknown {h : Val} {r : List Val} (hu : ∀ k ∈ [k!"pts", k!"stroke", k!"uuid"], h ≠ .str k) (o : PolyLine) :
    PolyLine.step o (.list (h :: r)) = .ok o := by
  unfold PolyLine.step
  unknownHead hu

theorem PolyLine.reordered {o a b : PolyLine} {xs ys : List Val} (hr : Reordered [] xs ys) (ha : forM PolyLine.step o xs = .ok a)
    (hb : forM PolyLine.step o ys = .ok b) : a = b := by
  have f0 : a.points = b.points := (Track.folds (get := (·.points)) (fun o x o' hs => (PolyLine.trackAll o x o' hs).1) ha).unique
    (Track.folds (get := (·.points)) (fun o x o' hs => (PolyLine.trackAll o x o' hs).1) hb) (hr.tokens _)
  have f1 : a.stroke = b.stroke := (Track.folds (get := (·.stroke)) (fun o x o' hs => (PolyLine.trackAll o x o' hs).2.1) ha).unique
    (Track.folds (get := (·.stroke)) (fun o x o' hs => (PolyLine.trackAll o x o' hs).2.1) hb) (hr.tokens _)
  have f2 : a.uuid = b.uuid := (Track.folds (get := (·.uuid)) (fun o x o' hs => (PolyLine.trackAll o x o' hs).2.2) ha).unique
    (Track.folds (get := (·.uuid)) (fun o x o' hs => (PolyLine.trackAll o x o' hs).2.2) hb) (hr.tokens _)
  show PolyLine.mk a.points a.stroke a.uuid =
    PolyLine.mk b.points b.stroke b.uuid
  rw [f0, f1, f2]

theorem PolyLine.loopEq (xs : List Val) :
    PolyLine.fromSexpr (.list (.str k!"polyline" :: xs)) = forM PolyLine.step {} (.str k!"polyline" :: xs) :=
  rfl

theorem Text.trackAll (o : Text) (x : Val) : Post (Text.step o x) fun o' =>
    Track (fun _ => false) (fun v _ => .ok v) x o.text o'.text ∧
    Track (tok k!"at") (fun _ => Position.fromSexpr) x o.position o'.position ∧
    Track (tok k!"effects") (fun _ => Effects.fromSexpr) x o.effects o'.effects ∧
    Track (tok k!"uuid") (fun _ => fun i => do return some (← i.idx 1)) x o.uuid o'.uuid := by
  unfold Text.step
  trackItems

theorem Text.indep (o o' : Text) (x : Val) : Same (Text.step o x) (Text.step o' x) := by
  unfold Text.step
  same

theorem Text.unknown {h : Val} {r : List Val} (hu : ∀ k ∈ [k!"at", k!"effects", k!"uuid"], h ≠ .str k) (o : Text) :
    Text.step o (.list (h :: r)) = .ok o := by
  unfold Text.step
  unknownHead hu

theorem Text.reordered {o a b : Text} {xs ys : List Val} (hr : Reordered [] xs ys) (ha : forM Text.step o xs = .ok a)
    (hb : forM Text.step o ys = .ok b) : a = b := by
  have f0 : a.text = b.text := (Track.folds (get := (·.text)) (fun o x o' hs => (Text.trackAll o x o' hs).1) ha).unique
    (Track.folds (get := (·.text)) (fun o x o' hs => (Text.trackAll o x o' hs).1) hb) filter_never
  have f1 : a.position = b.position := (Track.folds (get := (·.position)) (fun o x o' hs => (Text.trackAll o x o' hs).2.1) ha).unique
    (Track.folds (get := (·.position)) (fun o x o' hs => (Text.trackAll o x o' hs).2.1) hb) (hr.tokens _)
  have f2 : a.effects = b.effects := (Track.folds (get := (·.effects)) (fun o x o' hs => (Text.trackAll o x o' hs).2.2.1) ha).unique
    (Track.folds (get := (·.effects)) (fun o x o' hs => (Text.trackAll o x o' hs).2.2.1) hb) (hr.tokens _)
  have f3 : a.uuid = b.uuid := (Track.folds (get := (·.uuid)) (fun o x o' hs => (Text.trackAll o x o' hs).2.2.2) ha).unique
    (Track.folds (get := (·.uuid)) (fun o x o' hs => (Text.trackAll o x o' hs).2.2.2) hb) (hr.tokens _)
  show Text.mk a.text a.position a.effects a.uuid =
    Text.mk b.text b.position b.effects b.uuid
  rw [f0, f1, f2, f3]

theorem Text.loopEq (a1 : Val) (xs : List Val) :
    Text.fromSexpr (.list (.str k!"text" :: a1 :: xs)) = forM Text.step { text := a1 } xs :=
  rfl

theorem TextBox.trackAll (o : TextBox) (x : Val) : Post (TextBox.step o x) fun o' =>
    Track (fun _ => false) (fun v _ => .ok v) x o.text o'.text ∧
    Track (tok k!"at") (fun _ => Position.fromSexpr) x o.position o'.position ∧
    Track (tok k!"size") (fun _ => Position.fromSexpr) x o.size o'.size ∧
    Track (tok k!"stroke") (fun _ => Stroke.fromSexpr) x o.stroke o'.stroke ∧
    Track (tok k!"fill") (fun _ => Fill.fromSexpr) x o.fill o'.fill ∧
    Track (tok k!"effects") (fun _ => Effects.fromSexpr) x o.effects o'.effects ∧
    Track (tok k!"uuid") (fun _ => fun i => do return some (← i.idx 1)) x o.uuid o'.uuid := by
  unfold TextBox.step
  trackItems

theorem TextBox.indep (o o' : TextBox) (x : Val) : Same (TextBox.step o x) (TextBox.step o' x) := by
  unfold TextBox.step
  same

theorem TextBox.unknown {h : Val} {r : List Val} (hu : ∀ k ∈ [k!"at", k!"size", k!"effects", k!"stroke", k!"fill", k!"uuid"], h ≠ .str k) (o : TextBox) :
    TextBox.step o (.list (h :: r)) = .ok o := by
  unfold TextBox.step
  unknownHead hu

theorem TextBox.reordered {o a b : TextBox} {xs ys : List Val} (hr : Reordered [] xs ys) (ha : forM TextBox.step o xs = .ok a)
    (hb : forM TextBox.step o ys = .ok b) : a = b := by
  have f0 : a.text = b.text := (Track.folds (get := (·.text)) (fun o x o' hs => (TextBox.trackAll o x o' hs).1) ha).unique
    (Track.folds (get := (·.text)) (fun o x o' hs => (TextBox.trackAll o x o' hs).1) hb) filter_never
  have f1 : a.position = b.position := (Track.folds (get := (·.position)) (fun o x o' hs => (TextBox.trackAll o x o' hs).2.1) ha).unique
    (Track.folds (get := (·.position)) (fun o x o' hs => (TextBox.trackAll o x o' hs).2.1) hb) (hr.tokens _)
  have f2 : a.size = b.size := (Track.folds (get := (·.size)) (fun o x o' hs => (TextBox.trackAll o x o' hs).2.2.1) ha).unique
    (Track.folds (get := (·.size)) (fun o x o' hs => (TextBox.trackAll o x o' hs).2.2.1) hb) (hr.tokens _)
  have f3 : a.stroke = b.stroke := (Track.folds (get := (·.stroke)) (fun o x o' hs => (TextBox.trackAll o x o' hs).2.2.2.1) ha).unique
    (Track.folds (get := (·.stroke)) (fun o x o' hs => (TextBox.trackAll o x o' hs).2.2.2.1) hb) (hr.tokens _)
  have f4 : a.fill = b.fill := (Track.folds (get := (·.fill)) (fun o x o' hs => (TextBox.trackAll o x o' hs).2.2.2.2.1) ha).unique
    (Track.folds (get := (·.fill)) (fun o x o' hs => (TextBox.trackAll o x o' hs).2.2.2.2.1) hb) (hr.tokens _)
  have f5 : a.effects = b.effects := (Track.folds (get := (·.effects)) (fun o x o' hs => (TextBox.trackAll o x o' hs).2.2.2.2.2.1) ha).unique
    (Track.folds (get := (·.effects)) (fun o x o' hs => (TextBox.trackAll o x o' hs).2.2.2.2.2.1) hb) (hr.tokens _)
  have f6 : a.uuid = b.uuid := (Track.folds (get := (·.uuid)) (fun o x o' hs => (TextBox.trackAll o x o' hs).2.2.2.2.2.2) ha).unique
    (Track.folds (get := (·.uuid)) (fun o x o' hs => (TextBox.trackAll o x o' hs).2.2.2.2.2.2) hb) (hr.tokens _)
  show TextBox.mk a.text a.position a.size a.stroke a.fill a.effects a.uuid =
    TextBox.mk b.text b.position b.size b.stroke b.fill b.effects b.uuid
  rw [f0, f1, f2, f3, f4, f5, f6]

theorem TextBox.loopEq (a1 : Val) (xs : List Val) :
    TextBox.fromSexpr (.list (.str k!"text_box" :: a1 :: xs)) = forM TextBox.step { text := a1 } xs :=
  rfl

theorem LocalLabel.trackAll (o : LocalLabel) (x : Val) : Post (LocalLabel.step o x) fun o' =>
    Track (fun _ => false) (fun v _ => .ok v) x o.text o'.text ∧
    Track (tok k!"at") (fun _ => Position.fromSexpr) x o.position o'.position ∧
    Track (tok k!"effects") (fun _ => Effects.fromSexpr) x o.effects o'.effects ∧
    Track (tok k!"uuid") (fun _ => fun i => do return some (← i.idx 1)) x o.uuid o'.uuid ∧
    Track (tok k!"fields_autoplaced") (fun _ _ => .ok true) x o.fieldsAutoplaced o'.fieldsAutoplaced := by
  unfold LocalLabel.step
  trackItems

theorem LocalLabel.indep (o o' : LocalLabel) (x : Val) : Same (LocalLabel.step o x) (LocalLabel.step o' x) := by
  unfold LocalLabel.step
  same

theorem LocalLabel.unknown {h : Val} {r : List Val} (hu : ∀ k ∈ [k!"at", k!"effects", k!"uuid", k!"fields_autoplaced"], h ≠ .str k) (o : LocalLabel) :
    LocalLabel.step o (.list (h :: r)) = .ok o := by
  unfold LocalLabel.step
  unknownHead hu

theorem LocalLabel.reordered {o a b : LocalLabel} {xs ys : List Val} (hr : Reordered [] xs ys) (ha : forM LocalLabel.step o xs = .ok a)
    (hb : forM LocalLabel.step o ys = .ok b) : a = b := by
  have f0 : a.text = b.text := (Track.folds (get := (·.text)) (fun o x o' hs => (LocalLabel.trackAll o x o' hs).1) ha).unique
    (Track.folds (get := (·.text)) (fun o x o' hs => (LocalLabel.trackAll o x o' hs).1) hb) filter_never
  have f1 : a.position = b.position := (Track.folds (get := (·.position)) (fun o x o' hs => (LocalLabel.trackAll o x o' hs).2.1) ha).unique
    (Track.folds (get := (·.position)) (fun o x o' hs => (LocalLabel.trackAll o x o' hs).2.1) hb) (hr.tokens _)
  have f2 : a.effects = b.effects := (Track.folds (get := (·.effects)) (fun o x o' hs => (LocalLabel.trackAll o x o' hs).2.2.1) ha).unique
    (Track.folds (get := (·.effects)) (fun o x o' hs => (LocalLabel.trackAll o x o' hs).2.2.1) hb) (hr.tokens _)
  have f3 : a.uuid = b.uuid := (Track.folds (get := (·.uuid)) (fun o x o' hs => (LocalLabel.trackAll o x o' hs).2.2.2.1) ha).unique
    (Track.folds (get := (·.uuid)) (fun o x o' hs => (LocalLabel.trackAll o x o' hs).2.2.2.1) hb) (hr.tokens _)
  have f4 : a.fieldsAutoplaced = b.fieldsAutoplaced := (Track.folds (get := (·.fieldsAutoplaced)) (fun o x o' hs => (LocalLabel.trackAll o x o' hs).2.2.2.2) ha).unique
    (Track.folds (get := (·.fieldsAutoplaced)) (fun o x o' hs => (LocalLabel.trackAll o x o' hs).2.2.2.2) hb) (hr.tokens _)
  show LocalLabel.mk a.text a.position a.effects a.uuid a.fieldsAutoplaced =
    LocalLabel.mk b.text b.position b.effects b.uuid b.fieldsAutoplaced
  rw [f0, f1, f2, f3, f4]

theorem LocalLabel.loopEq (a1 : Val) (xs : List Val) :
    LocalLabel.fromSexpr (.list (.str k!"label" :: a1 :: xs)) = forM LocalLabel.step { text := a1 } xs :=
  rfl

theorem GlobalLabel.trackAll (o : GlobalLabel) (x : Val) : Post (GlobalLabel.step o x) fun o' =>
    Track (fun _ => false) (fun v _ => .ok v) x o.text o'.text ∧
    Track (tok k!"shape") (fun _ => (·.idx 1)) x o.shape o'.shape ∧
    Track (tok k!"fields_autoplaced") (fun _ _ => .ok true) x o.fieldsAutoplaced o'.fieldsAutoplaced ∧
    Track (tok k!"at") (fun _ => Position.fromSexpr) x o.position o'.position ∧
    Track (tok k!"effects") (fun _ => Effects.fromSexpr) x o.effects o'.effects ∧
    Track (tok k!"uuid") (fun _ => fun i => do return some (← i.idx 1)) x o.uuid o'.uuid ∧
    Track (tok k!"property") (fun l i => do return l ++ [← Property.fromSexpr i]) x o.properties o'.properties := by
  unfold GlobalLabel.step
  trackItems

theorem GlobalLabel.indep (o o' : GlobalLabel) (x : Val) : Same (GlobalLabel.step o x) (GlobalLabel.step o' x) := by
  unfold GlobalLabel.step
  same

theorem GlobalLabel.unknown {h : Val} {r : List Val} (hu : ∀ k ∈ [k!"fields_autoplaced", k!"at", k!"effects", k!"property", k!"shape", k!"uuid"], h ≠ .str k) (o : GlobalLabel) :
    GlobalLabel.step o (.list (h :: r)) = .ok o := by
  unfold GlobalLabel.step
  unknownHead hu

theorem GlobalLabel.reordered {o a b : GlobalLabel} {xs ys : List Val} (hr : Reordered [] xs ys) (ha : forM GlobalLabel.step o xs = .ok a)
    (hb : forM GlobalLabel.step o ys = .ok b) : a = b := by
  have f0 : a.text = b.text := (Track.folds (get := (·.text)) (fun o x o' hs => (GlobalLabel.trackAll o x o' hs).1) ha).unique
    (Track.folds (get := (·.text)) (fun o x o' hs => (GlobalLabel.trackAll o x o' hs).1) hb) filter_never
  have f1 : a.shape = b.shape := (Track.folds (get := (·.shape)) (fun o x o' hs => (GlobalLabel.trackAll o x o' hs).2.1) ha).unique
    (Track.folds (get := (·.shape)) (fun o x o' hs => (GlobalLabel.trackAll o x o' hs).2.1) hb) (hr.tokens _)
  have f2 : a.fieldsAutoplaced = b.fieldsAutoplaced := (Track.folds (get := (·.fieldsAutoplaced)) (fun o x o' hs => (GlobalLabel.trackAll o x o' hs).2.2.1) ha).unique
    (Track.folds (get := (·.fieldsAutoplaced)) (fun o x o' hs => (GlobalLabel.trackAll o x o' hs).2.2.1) hb) (hr.tokens _)
  have f3 : a.position = b.position := (Track.folds (get := (·.position)) (fun o x o' hs => (GlobalLabel.trackAll o x o' hs).2.2.2.1) ha).unique
    (Track.folds (get := (·.position)) (fun o x o' hs => (GlobalLabel.trackAll o x o' hs).2.2.2.1) hb) (hr.tokens _)
  have f4 : a.effects = b.effects := (Track.folds (get := (·.effects)) (fun o x o' hs => (GlobalLabel.trackAll o x o' hs).2.2.2.2.1) ha).unique
    (Track.folds (get := (·.effects)) (fun o x o' hs => (GlobalLabel.trackAll o x o' hs).2.2.2.2.1) hb) (hr.tokens _)
  have f5 : a.uuid = b.uuid := (Track.folds (get := (·.uuid)) (fun o x o' hs => (GlobalLabel.trackAll o x o' hs).2.2.2.2.2.1) ha).unique
    (Track.folds (get := (·.uuid)) (fun o x o' hs => (GlobalLabel.trackAll o x o' hs).2.2.2.2.2.1) hb) (hr.tokens _)
  have f6 : a.properties = b.properties := (Track.folds (get := (·.properties)) (fun o x o' hs => (GlobalLabel.trackAll o x o' hs).2.2.2.2.2.2) ha).unique
    (Track.folds (get := (·.properties)) (fun o x o' hs => (GlobalLabel.trackAll o x o' hs).2.2.2.2.2.2) hb) (hr.tokens _)
  show GlobalLabel.mk a.text a.shape a.fieldsAutoplaced a.position a.effects a.uuid a.properties =
    GlobalLabel.mk b.text b.shape b.fieldsAutoplaced b.position b.effects b.uuid b.properties
  rw [f0, f1, f2, f3, f4, f5, f6]

theorem GlobalLabel.loopEq (a1 : Val) (xs : List Val) :
    GlobalLabel.fromSexpr (.list (.str k!"global_label" :: a1 :: xs)) = forM GlobalLabel.step { text := a1 } xs :=
  rfl

theorem HierarchicalLabel.trackAll (o : HierarchicalLabel) (x : Val) : Post (HierarchicalLabel.step o x) fun o' =>
    Track (fun _ => false) (fun v _ => .ok v) x o.text o'.text ∧
    Track (tok k!"shape") (fun _ => (·.idx 1)) x o.shape o'.shape ∧
    Track (tok k!"at") (fun _ => Position.fromSexpr) x o.position o'.position ∧
    Track (tok k!"effects") (fun _ => Effects.fromSexpr) x o.effects o'.effects ∧
    Track (tok k!"uuid") (fun _ => fun i => do return some (← i.idx 1)) x o.uuid o'.uuid ∧
    Track (tok k!"fields_autoplaced") (fun _ _ => .ok true) x o.fieldsAutoplaced o'.fieldsAutoplaced := by
  unfold HierarchicalLabel.step
  trackItems

theorem HierarchicalLabel.indep (o o' : HierarchicalLabel) (x : Val) : Same (HierarchicalLabel.step o x) (HierarchicalLabel.step o' x) := by
  unfold HierarchicalLabel.step
  same

theorem HierarchicalLabel.unknown {h : Val} {r : List Val} (hu : ∀ k ∈ [k!"at", k!"effects", k!"shape", k!"uuid", k!"fields_autoplaced"], h ≠ .str k) (o : HierarchicalLabel) :
    HierarchicalLabel.step o (.list (h :: r)) = .ok o := by
  unfold HierarchicalLabel.step
  unknownHead hu

theorem HierarchicalLabel.reordered {o a b : HierarchicalLabel} {xs ys : List Val} (hr : Reordered [] xs ys) (ha : forM HierarchicalLabel.step o xs = .ok a)
    (hb : forM HierarchicalLabel.step o ys = .ok b) : a = b := by
  have f0 : a.text = b.text := (Track.folds (get := (·.text)) (fun o x o' hs => (HierarchicalLabel.trackAll o x o' hs).1) ha).unique
    (Track.folds (get := (·.text)) (fun o x o' hs => (HierarchicalLabel.trackAll o x o' hs).1) hb) filter_never
  have f1 : a.shape = b.shape := (Track.folds (get := (·.shape)) (fun o x o' hs => (HierarchicalLabel.trackAll o x o' hs).2.1) ha).unique
    (Track.folds (get := (·.shape)) (fun o x o' hs => (HierarchicalLabel.trackAll o x o' hs).2.1) hb) (hr.tokens _)
  have f2 : a.position = b.position := (Track.folds (get := (·.position)) (fun o x o' hs => (HierarchicalLabel.trackAll o x o' hs).2.2.1) ha).unique
    (Track.folds (get := (·.position)) (fun o x o' hs => (HierarchicalLabel.trackAll o x o' hs).2.2.1) hb) (hr.tokens _)
  have f3 : a.effects = b.effects := (Track.folds (get := (·.effects)) (fun o x o' hs => (HierarchicalLabel.trackAll o x o' hs).2.2.2.1) ha).unique
    (Track.folds (get := (·.effects)) (fun o x o' hs => (HierarchicalLabel.trackAll o x o' hs).2.2.2.1) hb) (hr.tokens _)
  have f4 : a.uuid = b.uuid := (Track.folds (get := (·.uuid)) (fun o x o' hs => (HierarchicalLabel.trackAll o x o' hs).2.2.2.2.1) ha).unique
    (Track.folds (get := (·.uuid)) (fun o x o' hs => (HierarchicalLabel.trackAll o x o' hs).2.2.2.2.1) hb) (hr.tokens _)
  have f5 : a.fieldsAutoplaced = b.fieldsAutoplaced := (Track.folds (get := (·.fieldsAutoplaced)) (fun o x o' hs => (HierarchicalLabel.trackAll o x o' hs).2.2.2.2.2) ha).unique
    (Track.folds (get := (·.fieldsAutoplaced)) (fun o x o' hs => (HierarchicalLabel.trackAll o x o' hs).2.2.2.2.2) hb) (hr.tokens _)
  show HierarchicalLabel.mk a.text a.shape a.position a.effects a.uuid a.fieldsAutoplaced =
    HierarchicalLabel.mk b.text b.shape b.position b.effects b.uuid b.fieldsAutoplaced
  rw [f0, f1, f2, f3, f4, f5]

theorem HierarchicalLabel.loopEq (a1 : Val) (xs : List Val) :
    HierarchicalLabel.fromSexpr (.list (.str k!"hierarchical_label" :: a1 :: xs)) = forM HierarchicalLabel.step { text := a1 } xs :=
  rfl

theorem SymbolProjectPath.trackAll (o : SymbolProjectPath) (x : Val) : Post (SymbolProjectPath.step o x) fun o' =>
    Track (fun _ => false) (fun v _ => .ok v) x o.sheetInstancePath o'.sheetInstancePath ∧
    Track (tok k!"reference") (fun _ => (·.idx 1)) x o.reference o'.reference ∧
    Track (tok k!"unit") (fun _ => (·.idx 1)) x o.unit o'.unit := by
  unfold SymbolProjectPath.step
  trackItems

theorem SymbolProjectPath.indep (o o' : SymbolProjectPath) (x : Val) : Same (SymbolProjectPath.step o x) (SymbolProjectPath.step o' x) := by
  unfold SymbolProjectPath.step
  same

theorem SymbolProjectPath.unknown {h : Val} {r : List Val} (hu : ∀ k ∈ [k!"reference", k!"unit"], h ≠ .str k) (o : SymbolProjectPath) :
    SymbolProjectPath.step o (.list (h :: r)) = .ok o := by
  unfold SymbolProjectPath.step
  unknownHead hu

theorem SymbolProjectPath.reordered {o a b : SymbolProjectPath} {xs ys : List Val} (hr : Reordered [] xs ys) (ha : forM SymbolProjectPath.step o xs = .ok a)
    (hb : forM SymbolProjectPath.step o ys = .ok b) : a = b := by
  have f0 : a.sheetInstancePath = b.sheetInstancePath := (Track.folds (get := (·.sheetInstancePath)) (fun o x o' hs => (SymbolProjectPath.trackAll o x o' hs).1) ha).unique
    (Track.folds (get := (·.sheetInstancePath)) (fun o x o' hs => (SymbolProjectPath.trackAll o x o' hs).1) hb) filter_never
  have f1 : a.reference = b.reference := (Track.folds (get := (·.reference)) (fun o x o' hs => (SymbolProjectPath.trackAll o x o' hs).2.1) ha).unique
    (Track.folds (get := (·.reference)) (fun o x o' hs => (SymbolProjectPath.trackAll o x o' hs).2.1) hb) (hr.tokens _)
  have f2 : a.unit = b.unit := (Track.folds (get := (·.unit)) (fun o x o' hs => (SymbolProjectPath.trackAll o x o' hs).2.2) ha).unique
    (Track.folds (get := (·.unit)) (fun o x o' hs => (SymbolProjectPath.trackAll o x o' hs).2.2) hb) (hr.tokens _)
  show SymbolProjectPath.mk a.sheetInstancePath a.reference a.unit =
    SymbolProjectPath.mk b.sheetInstancePath b.reference b.unit
  rw [f0, f1, f2]

theorem SymbolProjectPath.loopEq (a : Val) (xs : List Val) :
    SymbolProjectPath.fromSexpr (.list (.str k!"path" :: a :: xs)) = forM SymbolProjectPath.step { sheetInstancePath := a } xs :=
  rfl

theorem SymbolProjectInstance.trackAll (o : SymbolProjectInstance) (x : Val) : Post (SymbolProjectInstance.step o x) fun o' =>
    Track (fun _ => false) (fun v _ => .ok v) x o.name o'.name ∧
    Track (tok k!"path") (fun l i => do return l ++ [← SymbolProjectPath.fromSexpr i]) x o.paths o'.paths := by
  unfold SymbolProjectInstance.step
  trackItems

theorem SymbolProjectInstance.indep (o o' : SymbolProjectInstance) (x : Val) : Same (SymbolProjectInstance.step o x) (SymbolProjectInstance.step o' x) := by
  unfold SymbolProjectInstance.step
  same

theorem SymbolProjectInstance.unknown {h : Val} {r : List Val} (hu : ∀ k ∈ [k!"path"], h ≠ .str k) (o : SymbolProjectInstance) :
    SymbolProjectInstance.step o (.list (h :: r)) = .ok o := by
  unfold SymbolProjectInstance.step
  unknownHead hu

theorem SymbolProjectInstance.reordered {o a b : SymbolProjectInstance} {xs ys : List Val} (hr : Reordered [] xs ys) (ha : forM SymbolProjectInstance.step o xs = .ok a)
    (hb : forM SymbolProjectInstance.step o ys = .ok b) : a = b := by
  have f0 : a.name = b.name := (Track.folds (get := (·.name)) (fun o x o' hs => (SymbolProjectInstance.trackAll o x o' hs).1) ha).unique
    (Track.folds (get := (·.name)) (fun o x o' hs => (SymbolProjectInstance.trackAll o x o' hs).1) hb) filter_never
  have f1 : a.paths = b.paths := (Track.folds (get := (·.paths)) (fun o x o' hs => (SymbolProjectInstance.trackAll o x o' hs).2) ha).unique
    (Track.folds (get := (·.paths)) (fun o x o' hs => (SymbolProjectInstance.trackAll o x o' hs).2) hb) (hr.tokens _)
  show SymbolProjectInstance.mk a.name a.paths =
    SymbolProjectInstance.mk b.name b.paths
  rw [f0, f1]

theorem SymbolProjectInstance.loopEq (a : Val) (xs : List Val) :
    SymbolProjectInstance.fromSexpr (.list (.str k!"project" :: a :: xs)) = forM SymbolProjectInstance.step { name := a } xs :=
  rfl

theorem SchematicSymbol.setLibId_eq (o : SchematicSymbol) (id : Val) : o.setLibId id =
    (SchematicSymbol.setLibId {} id >>= fun r => pure { o with libraryNickname := r.libraryNickname, entryName := r.entryName }) := by
  cases id with
  | str s => simp only [SchematicSymbol.setLibId]; cases matchNick s <;> rfl
  | _ => rfl

theorem SchematicSymbol.trackAll (o : SchematicSymbol) (x : Val) : Post (SchematicSymbol.step o x) fun o' =>
    Track (tok k!"lib_id") (fun _ => fun i => do return (← SchematicSymbol.setLibId {} (← i.idx 1)).libraryNickname) x o.libraryNickname o'.libraryNickname ∧
    Track (tok k!"lib_id") (fun _ => fun i => do return (← SchematicSymbol.setLibId {} (← i.idx 1)).entryName) x o.entryName o'.entryName ∧
    Track (tok k!"lib_name") (fun _ => fun i => do return some (← i.idx 1)) x o.libName o'.libName ∧
    Track (tok k!"at") (fun _ => Position.fromSexpr) x o.position o'.position ∧
    Track (tok k!"unit") (fun _ => fun i => do return some (← i.idx 1)) x o.unit o'.unit ∧
    Track (tok k!"in_bom") (fun _ => fun i => do return (← i.idx 1).is k!"yes") x o.inBom o'.inBom ∧
    Track (tok k!"on_board") (fun _ => fun i => do return (← i.idx 1).is k!"yes") x o.onBoard o'.onBoard ∧
    Track (tok k!"dnp") (fun _ => fun i => do return some ((← i.idx 1).is k!"yes")) x o.dnp o'.dnp ∧
    Track (tok k!"fields_autoplaced") (fun _ _ => .ok true) x o.fieldsAutoplaced o'.fieldsAutoplaced ∧
    Track (tok k!"uuid") (fun _ => fun i => do return some (← i.idx 1)) x o.uuid o'.uuid ∧
    Track (tok k!"property") (fun l i => do return l ++ [← Property.fromSexpr i]) x o.properties o'.properties ∧
    Track (tok k!"pin") (fun acc i => do let n ← i.idx 1; let u ← (← i.idx 2).idx 1; Dict.update acc n u) x o.pins o'.pins ∧
    Track (tok k!"mirror") (fun _ => fun i => do return some (← i.idx 1)) x o.mirror o'.mirror ∧
    Track (tok k!"instances") (fun l i => do return l ++ (← (fun i => do mapM' SymbolProjectInstance.fromSexpr (← i.slice 1)) i)) x o.instances o'.instances := by
  unfold SchematicSymbol.step
  simp only [SchematicSymbol.setLibId_eq o]
  trackItems

theorem SchematicSymbol.indep (o o' : SchematicSymbol) (x : Val) : Same (SchematicSymbol.step o x) (SchematicSymbol.step o' x) := by
  unfold SchematicSymbol.step
  simp only [SchematicSymbol.setLibId_eq o, SchematicSymbol.setLibId_eq o']
  same

theorem SchematicSymbol.unknown {h : Val} {r : List Val} (hu : ∀ k ∈ [k!"fields_autoplaced", k!"lib_id", k!"lib_name", k!"uuid", k!"unit", k!"in_bom", k!"on_board", k!"dnp", k!"at", k!"property", k!"pin", k!"mirror", k!"instances"], h ≠ .str k) (o : SchematicSymbol) :
    SchematicSymbol.step o (.list (h :: r)) = .ok o := by
  unfold SchematicSymbol.step
  unknownHead hu

theorem SchematicSymbol.reordered {o a b : SchematicSymbol} {xs ys : List Val} (hr : Reordered [] xs ys) (ha : forM SchematicSymbol.step o xs = .ok a)
    (hb : forM SchematicSymbol.step o ys = .ok b) : a = b := by
  have f0 : a.libraryNickname = b.libraryNickname := (Track.folds (get := (·.libraryNickname)) (fun o x o' hs => (SchematicSymbol.trackAll o x o' hs).1) ha).unique
    (Track.folds (get := (·.libraryNickname)) (fun o x o' hs => (SchematicSymbol.trackAll o x o' hs).1) hb) (hr.tokens _)
  have f1 : a.entryName = b.entryName := (Track.folds (get := (·.entryName)) (fun o x o' hs => (SchematicSymbol.trackAll o x o' hs).2.1) ha).unique
    (Track.folds (get := (·.entryName)) (fun o x o' hs => (SchematicSymbol.trackAll o x o' hs).2.1) hb) (hr.tokens _)
  have f2 : a.libName = b.libName := (Track.folds (get := (·.libName)) (fun o x o' hs => (SchematicSymbol.trackAll o x o' hs).2.2.1) ha).unique
    (Track.folds (get := (·.libName)) (fun o x o' hs => (SchematicSymbol.trackAll o x o' hs).2.2.1) hb) (hr.tokens _)
  have f3 : a.position = b.position := (Track.folds (get := (·.position)) (fun o x o' hs => (SchematicSymbol.trackAll o x o' hs).2.2.2.1) ha).unique
    (Track.folds (get := (·.position)) (fun o x o' hs => (SchematicSymbol.trackAll o x o' hs).2.2.2.1) hb) (hr.tokens _)
  have f4 : a.unit = b.unit := (Track.folds (get := (·.unit)) (fun o x o' hs => (SchematicSymbol.trackAll o x o' hs).2.2.2.2.1) ha).unique
    (Track.folds (get := (·.unit)) (fun o x o' hs => (SchematicSymbol.trackAll o x o' hs).2.2.2.2.1) hb) (hr.tokens _)
  have f5 : a.inBom = b.inBom := (Track.folds (get := (·.inBom)) (fun o x o' hs => (SchematicSymbol.trackAll o x o' hs).2.2.2.2.2.1) ha).unique
    (Track.folds (get := (·.inBom)) (fun o x o' hs => (SchematicSymbol.trackAll o x o' hs).2.2.2.2.2.1) hb) (hr.tokens _)
  have f6 : a.onBoard = b.onBoard := (Track.folds (get := (·.onBoard)) (fun o x o' hs => (SchematicSymbol.trackAll o x o' hs).2.2.2.2.2.2.1) ha).unique
    (Track.folds (get := (·.onBoard)) (fun o x o' hs => (SchematicSymbol.trackAll o x o' hs).2.2.2.2.2.2.1) hb) (hr.tokens _)
  have f7 : a.dnp = b.dnp := (Track.folds (get := (·.dnp)) (fun o x o' hs => (SchematicSymbol.trackAll o x o' hs).2.2.2.2.2.2.2.1) ha).unique
    (Track.folds (get := (·.dnp)) (fun o x o' hs => (SchematicSymbol.trackAll o x o' hs).2.2.2.2.2.2.2.1) hb) (hr.tokens _)
  have f8 : a.fieldsAutoplaced = b.fieldsAutoplaced := (Track.folds (get := (·.fieldsAutoplaced)) (fun o x o' hs => (SchematicSymbol.trackAll o x o' hs).2.2.2.2.2.2.2.2.1) ha).unique
    (Track.folds (get := (·.fieldsAutoplaced)) (fun o x o' hs => (SchematicSymbol.trackAll o x o' hs).2.2.2.2.2.2.2.2.1) hb) (hr.tokens _)
  have f9 : a.uuid = b.uuid := (Track.folds (get := (·.uuid)) (fun o x o' hs => (SchematicSymbol.trackAll o x o' hs).2.2.2.2.2.2.2.2.2.1) ha).unique
    (Track.folds (get := (·.uuid)) (fun o x o' hs => (SchematicSymbol.trackAll o x o' hs).2.2.2.2.2.2.2.2.2.1) hb) (hr.tokens _)
  have f10 : a.properties = b.properties := (Track.folds (get := (·.properties)) (fun o x o' hs => (SchematicSymbol.trackAll o x o' hs).2.2.2.2.2.2.2.2.2.2.1) ha).unique
    (Track.folds (get := (·.properties)) (fun o x o' hs => (SchematicSymbol.trackAll o x o' hs).2.2.2.2.2.2.2.2.2.2.1) hb) (hr.tokens _)
  have f11 : a.pins = b.pins := (Track.folds (get := (·.pins)) (fun o x o' hs => (SchematicSymbol.trackAll o x o' hs).2.2.2.2.2.2.2.2.2.2.2.1) ha).unique
    (Track.folds (get := (·.pins)) (fun o x o' hs => (SchematicSymbol.trackAll o x o' hs).2.2.2.2.2.2.2.2.2.2.2.1) hb) (hr.tokens _)
  have f12 : a.mirror = b.mirror := (Track.folds (get := (·.mirror)) (fun o x o' hs => (SchematicSymbol.trackAll o x o' hs).2.2.2.2.2.2.2.2.2.2.2.2.1) ha).unique
    (Track.folds (get := (·.mirror)) (fun o x o' hs => (SchematicSymbol.trackAll o x o' hs).2.2.2.2.2.2.2.2.2.2.2.2.1) hb) (hr.tokens _)
  have f13 : a.instances = b.instances := (Track.folds (get := (·.instances)) (fun o x o' hs => (SchematicSymbol.trackAll o x o' hs).2.2.2.2.2.2.2.2.2.2.2.2.2) ha).unique
    (Track.folds (get := (·.instances)) (fun o x o' hs => (SchematicSymbol.trackAll o x o' hs).2.2.2.2.2.2.2.2.2.2.2.2.2) hb) (hr.tokens _)
  show SchematicSymbol.mk a.libraryNickname a.entryName a.libName a.position a.unit a.inBom a.onBoard a.dnp a.fieldsAutoplaced a.uuid a.properties a.pins a.mirror a.instances =
    SchematicSymbol.mk b.libraryNickname b.entryName b.libName b.position b.unit b.inBom b.onBoard b.dnp b.fieldsAutoplaced b.uuid b.properties b.pins b.mirror b.instances
  rw [f0, f1, f2, f3, f4, f5, f6, f7, f8, f9, f10, f11, f12, f13]

theorem SchematicSymbol.loopEq (xs : List Val) :
    SchematicSymbol.fromSexpr (.list (.str k!"symbol" :: xs)) = forM SchematicSymbol.step {} xs :=
  rfl

theorem HierarchicalPin.trackAll (o : HierarchicalPin) (x : Val) : Post (HierarchicalPin.step o x) fun o' =>
    Track (fun _ => false) (fun v _ => .ok v) x o.name o'.name ∧
    Track (fun _ => false) (fun v _ => .ok v) x o.connectionType o'.connectionType ∧
    Track (tok k!"at") (fun _ => Position.fromSexpr) x o.position o'.position ∧
    Track (tok k!"effects") (fun _ => Effects.fromSexpr) x o.effects o'.effects ∧
    Track (tok k!"uuid") (fun _ => fun i => do return some (← i.idx 1)) x o.uuid o'.uuid := by
  unfold HierarchicalPin.step
  trackItems

theorem HierarchicalPin.indep (o o' : HierarchicalPin) (x : Val) : Same (HierarchicalPin.step o x) (HierarchicalPin.step o' x) := by
  unfold HierarchicalPin.step
  same

theorem HierarchicalPin.unknown {h : Val} {r : List Val} (hu : ∀ k ∈ [k!"at", k!"effects", k!"uuid"], h ≠ .str k) (o : HierarchicalPin) :
    HierarchicalPin.step o (.list (h :: r)) = .ok o := by
  unfold HierarchicalPin.step
  unknownHead hu

theorem HierarchicalPin.reordered {o a b : HierarchicalPin} {xs ys : List Val} (hr : Reordered [] xs ys) (ha : forM HierarchicalPin.step o xs = .ok a)
    (hb : forM HierarchicalPin.step o ys = .ok b) : a = b := by
  have f0 : a.name = b.name := (Track.folds (get := (·.name)) (fun o x o' hs => (HierarchicalPin.trackAll o x o' hs).1) ha).unique
    (Track.folds (get := (·.name)) (fun o x o' hs => (HierarchicalPin.trackAll o x o' hs).1) hb) filter_never
  have f1 : a.connectionType = b.connectionType := (Track.folds (get := (·.connectionType)) (fun o x o' hs => (HierarchicalPin.trackAll o x o' hs).2.1) ha).unique
    (Track.folds (get := (·.connectionType)) (fun o x o' hs => (HierarchicalPin.trackAll o x o' hs).2.1) hb) filter_never
  have f2 : a.position = b.position := (Track.folds (get := (·.position)) (fun o x o' hs => (HierarchicalPin.trackAll o x o' hs).2.2.1) ha).unique
    (Track.folds (get := (·.position)) (fun o x o' hs => (HierarchicalPin.trackAll o x o' hs).2.2.1) hb) (hr.tokens _)
  have f3 : a.effects = b.effects := (Track.folds (get := (·.effects)) (fun o x o' hs => (HierarchicalPin.trackAll o x o' hs).2.2.2.1) ha).unique
    (Track.folds (get := (·.effects)) (fun o x o' hs => (HierarchicalPin.trackAll o x o' hs).2.2.2.1) hb) (hr.tokens _)
  have f4 : a.uuid = b.uuid := (Track.folds (get := (·.uuid)) (fun o x o' hs => (HierarchicalPin.trackAll o x o' hs).2.2.2.2) ha).unique
    (Track.folds (get := (·.uuid)) (fun o x o' hs => (HierarchicalPin.trackAll o x o' hs).2.2.2.2) hb) (hr.tokens _)
  show HierarchicalPin.mk a.name a.connectionType a.position a.effects a.uuid =
    HierarchicalPin.mk b.name b.connectionType b.position b.effects b.uuid
  rw [f0, f1, f2, f3, f4]

theorem HierarchicalPin.loopEq (a1 a2 : Val) (xs : List Val) :
    HierarchicalPin.fromSexpr (.list (.str k!"pin" :: a1 :: a2 :: xs)) = forM HierarchicalPin.step { name := a1, connectionType := a2 } xs :=
  rfl

theorem HierarchicalSheetProjectPath.trackAll (o : HierarchicalSheetProjectPath) (x : Val) : Post (HierarchicalSheetProjectPath.step o x) fun o' =>
    Track (fun _ => false) (fun v _ => .ok v) x o.sheetInstancePath o'.sheetInstancePath ∧
    Track (tok k!"page") (fun _ => (·.idx 1)) x o.page o'.page := by
  unfold HierarchicalSheetProjectPath.step
  trackItems

theorem HierarchicalSheetProjectPath.indep (o o' : HierarchicalSheetProjectPath) (x : Val) : Same (HierarchicalSheetProjectPath.step o x) (HierarchicalSheetProjectPath.step o' x) := by
  unfold HierarchicalSheetProjectPath.step
  same

theorem HierarchicalSheetProjectPath.unknown {h : Val} {r : List Val} (hu : ∀ k ∈ [k!"page"], h ≠ .str k) (o : HierarchicalSheetProjectPath) :
    HierarchicalSheetProjectPath.step o (.list (h :: r)) = .ok o := by
  unfold HierarchicalSheetProjectPath.step
  unknownHead hu

theorem HierarchicalSheetProjectPath.reordered {o a b : HierarchicalSheetProjectPath} {xs ys : List Val} (hr : Reordered [] xs ys) (ha : forM HierarchicalSheetProjectPath.step o xs = .ok a)
    (hb : forM HierarchicalSheetProjectPath.step o ys = .ok b) : a = b := by
  have f0 : a.sheetInstancePath = b.sheetInstancePath := (Track.folds (get := (·.sheetInstancePath)) (fun o x o' hs => (HierarchicalSheetProjectPath.trackAll o x o' hs).1) ha).unique
    (Track.folds (get := (·.sheetInstancePath)) (fun o x o' hs => (HierarchicalSheetProjectPath.trackAll o x o' hs).1) hb) filter_never
  have f1 : a.page = b.page := (Track.folds (get := (·.page)) (fun o x o' hs => (HierarchicalSheetProjectPath.trackAll o x o' hs).2) ha).unique
    (Track.folds (get := (·.page)) (fun o x o' hs => (HierarchicalSheetProjectPath.trackAll o x o' hs).2) hb) (hr.tokens _)
  show HierarchicalSheetProjectPath.mk a.sheetInstancePath a.page =
    HierarchicalSheetProjectPath.mk b.sheetInstancePath b.page
  rw [f0, f1]

theorem HierarchicalSheetProjectPath.loopEq (a : Val) (xs : List Val) :
    HierarchicalSheetProjectPath.fromSexpr (.list (.str k!"path" :: a :: xs)) = forM HierarchicalSheetProjectPath.step { sheetInstancePath := a } xs :=
  rfl

theorem HierarchicalSheetProjectInstance.trackAll (o : HierarchicalSheetProjectInstance) (x : Val) : Post (HierarchicalSheetProjectInstance.step o x) fun o' =>
    Track (fun _ => false) (fun v _ => .ok v) x o.name o'.name ∧
    Track (tok k!"path") (fun l i => do return l ++ [← HierarchicalSheetProjectPath.fromSexpr i]) x o.paths o'.paths := by
  unfold HierarchicalSheetProjectInstance.step
  trackItems

theorem HierarchicalSheetProjectInstance.indep (o o' : HierarchicalSheetProjectInstance) (x : Val) : Same (HierarchicalSheetProjectInstance.step o x) (HierarchicalSheetProjectInstance.step o' x) := by
  unfold HierarchicalSheetProjectInstance.step
  same

theorem HierarchicalSheetProjectInstance.unknown {h : Val} {r : List Val} (hu : ∀ k ∈ [k!"path"], h ≠ .str k) (o : HierarchicalSheetProjectInstance) :
    HierarchicalSheetProjectInstance.step o (.list (h :: r)) = .ok o := by
  unfold HierarchicalSheetProjectInstance.step
  unknownHead hu

theorem HierarchicalSheetProjectInstance.reordered {o a b : HierarchicalSheetProjectInstance} {xs ys : List Val} (hr : Reordered [] xs ys) (ha : forM HierarchicalSheetProjectInstance.step o xs = .ok a)
    (hb : forM HierarchicalSheetProjectInstance.step o ys = .ok b) : a = b := by
  have f0 : a.name = b.name := (Track.folds (get := (·.name)) (fun o x o' hs => (HierarchicalSheetProjectInstance.trackAll o x o' hs).1) ha).unique
    (Track.folds (get := (·.name)) (fun o x o' hs => (HierarchicalSheetProjectInstance.trackAll o x o' hs).1) hb) filter_never
  have f1 : a.paths = b.paths := (Track.folds (get := (·.paths)) (fun o x o' hs => (HierarchicalSheetProjectInstance.trackAll o x o' hs).2) ha).unique
    (Track.folds (get := (·.paths)) (fun o x o' hs => (HierarchicalSheetProjectInstance.trackAll o x o' hs).2) hb) (hr.tokens _)
  show HierarchicalSheetProjectInstance.mk a.name a.paths =
    HierarchicalSheetProjectInstance.mk b.name b.paths
  rw [f0, f1]

theorem HierarchicalSheetProjectInstance.loopEq (a : Val) (xs : List Val) :
    HierarchicalSheetProjectInstance.fromSexpr (.list (.str k!"project" :: a :: xs)) = forM HierarchicalSheetProjectInstance.step { name := a } xs :=
  rfl

theorem HierarchicalSheet.trackAll (o : HierarchicalSheet) (x : Val) : Post (HierarchicalSheet.step o x) fun o' =>
    Track (tok k!"at") (fun _ => Position.fromSexpr) x o.position o'.position ∧
    Track (tok k!"size") (fun _ => (·.idx 1)) x o.width o'.width ∧
    Track (tok k!"size") (fun _ => (·.idx 2)) x o.height o'.height ∧
    Track (tok k!"fields_autoplaced") (fun _ _ => .ok true) x o.fieldsAutoplaced o'.fieldsAutoplaced ∧
    Track (tok k!"stroke") (fun _ => Stroke.fromSexpr) x o.stroke o'.stroke ∧
    Track (tok k!"fill") (fun _ => fun i => do let c ← ColorRGBA.fromSexpr (← i.idx 1); return { c with precision := some 4 }) x o.fill o'.fill ∧
    Track (tok k!"uuid") (fun _ => fun i => do return some (← i.idx 1)) x o.uuid o'.uuid ∧
    Track (tok k!"property") (fun acc i => do let p ← Property.fromSexpr i; let n ← i.idx 1; if n.is k!"Sheet name" || n.is k!"Sheetname" then return p else return acc) x o.sheetName o'.sheetName ∧
    Track (tok k!"property") (fun acc i => do let p ← Property.fromSexpr i; let n ← i.idx 1; if n.is k!"Sheet name" || n.is k!"Sheetname" then return acc else if n.is k!"Sheet file" || n.is k!"Sheetfile" then return p else return acc) x o.fileName o'.fileName ∧
    Track (tok k!"property") (fun acc i => do let p ← Property.fromSexpr i; let n ← i.idx 1; if n.is k!"Sheet name" || n.is k!"Sheetname" then return acc else if n.is k!"Sheet file" || n.is k!"Sheetfile" then return acc else return acc ++ [p]) x o.properties o'.properties ∧
    Track (tok k!"pin") (fun l i => do return l ++ [← HierarchicalPin.fromSexpr i]) x o.pins o'.pins ∧
    Track (tok k!"instances") (fun l i => do return l ++ (← (fun i => do mapM' HierarchicalSheetProjectInstance.fromSexpr (← i.slice 1)) i)) x o.instances o'.instances := by
  unfold HierarchicalSheet.step
  trackItems

theorem HierarchicalSheet.indep (o o' : HierarchicalSheet) (x : Val) : Same (HierarchicalSheet.step o x) (HierarchicalSheet.step o' x) := by
  unfold HierarchicalSheet.step
  same

theorem HierarchicalSheet.unknown {h : Val} {r : List Val} (hu : ∀ k ∈ [k!"fields_autoplaced", k!"at", k!"stroke", k!"size", k!"fill", k!"uuid", k!"property", k!"pin", k!"instances"], h ≠ .str k) (o : HierarchicalSheet) :
    HierarchicalSheet.step o (.list (h :: r)) = .ok o := by
  unfold HierarchicalSheet.step
  unknownHead hu

theorem HierarchicalSheet.reordered {o a b : HierarchicalSheet} {xs ys : List Val} (hr : Reordered [] xs ys) (ha : forM HierarchicalSheet.step o xs = .ok a)
    (hb : forM HierarchicalSheet.step o ys = .ok b) : a = b := by
  have f0 : a.position = b.position := (Track.folds (get := (·.position)) (fun o x o' hs => (HierarchicalSheet.trackAll o x o' hs).1) ha).unique
    (Track.folds (get := (·.position)) (fun o x o' hs => (HierarchicalSheet.trackAll o x o' hs).1) hb) (hr.tokens _)
  have f1 : a.width = b.width := (Track.folds (get := (·.width)) (fun o x o' hs => (HierarchicalSheet.trackAll o x o' hs).2.1) ha).unique
    (Track.folds (get := (·.width)) (fun o x o' hs => (HierarchicalSheet.trackAll o x o' hs).2.1) hb) (hr.tokens _)
  have f2 : a.height = b.height := (Track.folds (get := (·.height)) (fun o x o' hs => (HierarchicalSheet.trackAll o x o' hs).2.2.1) ha).unique
    (Track.folds (get := (·.height)) (fun o x o' hs => (HierarchicalSheet.trackAll o x o' hs).2.2.1) hb) (hr.tokens _)
  have f3 : a.fieldsAutoplaced = b.fieldsAutoplaced := (Track.folds (get := (·.fieldsAutoplaced)) (fun o x o' hs => (HierarchicalSheet.trackAll o x o' hs).2.2.2.1) ha).unique
    (Track.folds (get := (·.fieldsAutoplaced)) (fun o x o' hs => (HierarchicalSheet.trackAll o x o' hs).2.2.2.1) hb) (hr.tokens _)
  have f4 : a.stroke = b.stroke := (Track.folds (get := (·.stroke)) (fun o x o' hs => (HierarchicalSheet.trackAll o x o' hs).2.2.2.2.1) ha).unique
    (Track.folds (get := (·.stroke)) (fun o x o' hs => (HierarchicalSheet.trackAll o x o' hs).2.2.2.2.1) hb) (hr.tokens _)
  have f5 : a.fill = b.fill := (Track.folds (get := (·.fill)) (fun o x o' hs => (HierarchicalSheet.trackAll o x o' hs).2.2.2.2.2.1) ha).unique
    (Track.folds (get := (·.fill)) (fun o x o' hs => (HierarchicalSheet.trackAll o x o' hs).2.2.2.2.2.1) hb) (hr.tokens _)
  have f6 : a.uuid = b.uuid := (Track.folds (get := (·.uuid)) (fun o x o' hs => (HierarchicalSheet.trackAll o x o' hs).2.2.2.2.2.2.1) ha).unique
    (Track.folds (get := (·.uuid)) (fun o x o' hs => (HierarchicalSheet.trackAll o x o' hs).2.2.2.2.2.2.1) hb) (hr.tokens _)
  have f7 : a.sheetName = b.sheetName := (Track.folds (get := (·.sheetName)) (fun o x o' hs => (HierarchicalSheet.trackAll o x o' hs).2.2.2.2.2.2.2.1) ha).unique
    (Track.folds (get := (·.sheetName)) (fun o x o' hs => (HierarchicalSheet.trackAll o x o' hs).2.2.2.2.2.2.2.1) hb) (hr.tokens _)
  have f8 : a.fileName = b.fileName := (Track.folds (get := (·.fileName)) (fun o x o' hs => (HierarchicalSheet.trackAll o x o' hs).2.2.2.2.2.2.2.2.1) ha).unique
    (Track.folds (get := (·.fileName)) (fun o x o' hs => (HierarchicalSheet.trackAll o x o' hs).2.2.2.2.2.2.2.2.1) hb) (hr.tokens _)
  have f9 : a.properties = b.properties := (Track.folds (get := (·.properties)) (fun o x o' hs => (HierarchicalSheet.trackAll o x o' hs).2.2.2.2.2.2.2.2.2.1) ha).unique
    (Track.folds (get := (·.properties)) (fun o x o' hs => (HierarchicalSheet.trackAll o x o' hs).2.2.2.2.2.2.2.2.2.1) hb) (hr.tokens _)
  have f10 : a.pins = b.pins := (Track.folds (get := (·.pins)) (fun o x o' hs => (HierarchicalSheet.trackAll o x o' hs).2.2.2.2.2.2.2.2.2.2.1) ha).unique
    (Track.folds (get := (·.pins)) (fun o x o' hs => (HierarchicalSheet.trackAll o x o' hs).2.2.2.2.2.2.2.2.2.2.1) hb) (hr.tokens _)
  have f11 : a.instances = b.instances := (Track.folds (get := (·.instances)) (fun o x o' hs => (HierarchicalSheet.trackAll o x o' hs).2.2.2.2.2.2.2.2.2.2.2) ha).unique
    (Track.folds (get := (·.instances)) (fun o x o' hs => (HierarchicalSheet.trackAll o x o' hs).2.2.2.2.2.2.2.2.2.2.2) hb) (hr.tokens _)
  show HierarchicalSheet.mk a.position a.width a.height a.fieldsAutoplaced a.stroke a.fill a.uuid a.sheetName a.fileName a.properties a.pins a.instances =
    HierarchicalSheet.mk b.position b.width b.height b.fieldsAutoplaced b.stroke b.fill b.uuid b.sheetName b.fileName b.properties b.pins b.instances
  rw [f0, f1, f2, f3, f4, f5, f6, f7, f8, f9, f10, f11]

theorem HierarchicalSheet.loopEq (xs : List Val) :
    HierarchicalSheet.fromSexpr (.list (.str k!"sheet" :: xs)) = forM HierarchicalSheet.step {} xs :=
  rfl

theorem HierarchicalSheetInstance.trackAll (o : HierarchicalSheetInstance) (x : Val) : Post (HierarchicalSheetInstance.step o x) fun o' =>
    Track (fun _ => false) (fun v _ => .ok v) x o.instancePath o'.instancePath ∧
    Track (tok k!"page") (fun _ => (·.idx 1)) x o.page o'.page := by
  unfold HierarchicalSheetInstance.step
  trackItems

theorem HierarchicalSheetInstance.indep (o o' : HierarchicalSheetInstance) (x : Val) : Same (HierarchicalSheetInstance.step o x) (HierarchicalSheetInstance.step o' x) := by
  unfold HierarchicalSheetInstance.step
  same

theorem HierarchicalSheetInstance.unknown {h : Val} {r : List Val} (hu : ∀ k ∈ [k!"page"], h ≠ .str k) (o : HierarchicalSheetInstance) :
    HierarchicalSheetInstance.step o (.list (h :: r)) = .ok o := by
  unfold HierarchicalSheetInstance.step
  unknownHead hu

theorem HierarchicalSheetInstance.reordered {o a b : HierarchicalSheetInstance} {xs ys : List Val} (hr : Reordered [] xs ys) (ha : forM HierarchicalSheetInstance.step o xs = .ok a)
    (hb : forM HierarchicalSheetInstance.step o ys = .ok b) : a = b := by
  have f0 : a.instancePath = b.instancePath := (Track.folds (get := (·.instancePath)) (fun o x o' hs => (HierarchicalSheetInstance.trackAll o x o' hs).1) ha).unique
    (Track.folds (get := (·.instancePath)) (fun o x o' hs => (HierarchicalSheetInstance.trackAll o x o' hs).1) hb) filter_never
  have f1 : a.page = b.page := (Track.folds (get := (·.page)) (fun o x o' hs => (HierarchicalSheetInstance.trackAll o x o' hs).2) ha).unique
    (Track.folds (get := (·.page)) (fun o x o' hs => (HierarchicalSheetInstance.trackAll o x o' hs).2) hb) (hr.tokens _)
  show HierarchicalSheetInstance.mk a.instancePath a.page =
    HierarchicalSheetInstance.mk b.instancePath b.page
  rw [f0, f1]

theorem HierarchicalSheetInstance.loopEq (a1 : Val) (xs : List Val) :
    HierarchicalSheetInstance.fromSexpr (.list (.str k!"path" :: a1 :: xs)) = forM HierarchicalSheetInstance.step { instancePath := a1 } xs :=
  rfl

theorem SymbolInstance.trackAll (o : SymbolInstance) (x : Val) : Post (SymbolInstance.step o x) fun o' =>
    Track (fun _ => false) (fun v _ => .ok v) x o.path o'.path ∧
    Track (tok k!"reference") (fun _ => (·.idx 1)) x o.reference o'.reference ∧
    Track (tok k!"unit") (fun _ => (·.idx 1)) x o.unit o'.unit ∧
    Track (tok k!"value") (fun _ => (·.idx 1)) x o.value o'.value ∧
    Track (tok k!"footprint") (fun _ => (·.idx 1)) x o.footprint o'.footprint := by
  unfold SymbolInstance.step
  trackItems

theorem SymbolInstance.indep (o o' : SymbolInstance) (x : Val) : Same (SymbolInstance.step o x) (SymbolInstance.step o' x) := by
  unfold SymbolInstance.step
  same

theorem SymbolInstance.unknown {h : Val} {r : List Val} (hu : ∀ k ∈ [k!"reference", k!"unit", k!"value", k!"footprint"], h ≠ .str k) (o : SymbolInstance) :
    SymbolInstance.step o (.list (h :: r)) = .ok o := by
  unfold SymbolInstance.step
  unknownHead hu

theorem SymbolInstance.reordered {o a b : SymbolInstance} {xs ys : List Val} (hr : Reordered [] xs ys) (ha : forM SymbolInstance.step o xs = .ok a)
    (hb : forM SymbolInstance.step o ys = .ok b) : a = b := by
  have f0 : a.path = b.path := (Track.folds (get := (·.path)) (fun o x o' hs => (SymbolInstance.trackAll o x o' hs).1) ha).unique
    (Track.folds (get := (·.path)) (fun o x o' hs => (SymbolInstance.trackAll o x o' hs).1) hb) filter_never
  have f1 : a.reference = b.reference := (Track.folds (get := (·.reference)) (fun o x o' hs => (SymbolInstance.trackAll o x o' hs).2.1) ha).unique
    (Track.folds (get := (·.reference)) (fun o x o' hs => (SymbolInstance.trackAll o x o' hs).2.1) hb) (hr.tokens _)
  have f2 : a.unit = b.unit := (Track.folds (get := (·.unit)) (fun o x o' hs => (SymbolInstance.trackAll o x o' hs).2.2.1) ha).unique
    (Track.folds (get := (·.unit)) (fun o x o' hs => (SymbolInstance.trackAll o x o' hs).2.2.1) hb) (hr.tokens _)
  have f3 : a.value = b.value := (Track.folds (get := (·.value)) (fun o x o' hs => (SymbolInstance.trackAll o x o' hs).2.2.2.1) ha).unique
    (Track.folds (get := (·.value)) (fun o x o' hs => (SymbolInstance.trackAll o x o' hs).2.2.2.1) hb) (hr.tokens _)
  have f4 : a.footprint = b.footprint := (Track.folds (get := (·.footprint)) (fun o x o' hs => (SymbolInstance.trackAll o x o' hs).2.2.2.2) ha).unique
    (Track.folds (get := (·.footprint)) (fun o x o' hs => (SymbolInstance.trackAll o x o' hs).2.2.2.2) hb) (hr.tokens _)
  show SymbolInstance.mk a.path a.reference a.unit a.value a.footprint =
    SymbolInstance.mk b.path b.reference b.unit b.value b.footprint
  rw [f0, f1, f2, f3, f4]

theorem SymbolInstance.loopEq (a1 : Val) (xs : List Val) :
    SymbolInstance.fromSexpr (.list (.str k!"path" :: a1 :: xs)) = forM SymbolInstance.step { path := a1 } xs :=
  rfl

theorem Rectangle.trackAll (o : Rectangle) (x : Val) : Post (Rectangle.step o x) fun o' =>
    Track (tok k!"start") (fun _ => Position.fromSexpr) x o.start o'.start ∧
    Track (tok k!"end") (fun _ => Position.fromSexpr) x o.«end» o'.«end» ∧
    Track (tok k!"stroke") (fun _ => Stroke.fromSexpr) x o.stroke o'.stroke ∧
    Track (tok k!"fill") (fun _ => Fill.fromSexpr) x o.fill o'.fill ∧
    Track (tok k!"uuid") (fun _ => fun i => do return some (← i.idx 1)) x o.uuid o'.uuid := by
  unfold Rectangle.step
  trackItems

theorem Rectangle.indep (o o' : Rectangle) (x : Val) : Same (Rectangle.step o x) (Rectangle.step o' x) := by
  unfold Rectangle.step
  same

theorem Rectangle.unknown {h : Val} {r : List Val} (hu : ∀ k ∈ [k!"start", k!"end", k!"stroke", k!"fill", k!"uuid"], h ≠ .str k) (o : Rectangle) :
    Rectangle.step o (.list (h :: r)) = .ok o := by
  unfold Rectangle.step
  unknownHead hu

theorem Rectangle.reordered {o a b : Rectangle} {xs ys : List Val} (hr : Reordered [] xs ys) (ha : forM Rectangle.step o xs = .ok a)
    (hb : forM Rectangle.step o ys = .ok b) : a = b := by
  have f0 : a.start = b.start := (Track.folds (get := (·.start)) (fun o x o' hs => (Rectangle.trackAll o x o' hs).1) ha).unique
    (Track.folds (get := (·.start)) (fun o x o' hs => (Rectangle.trackAll o x o' hs).1) hb) (hr.tokens _)
  have f1 : a.«end» = b.«end» := (Track.folds (get := (·.«end»)) (fun o x o' hs => (Rectangle.trackAll o x o' hs).2.1) ha).unique
    (Track.folds (get := (·.«end»)) (fun o x o' hs => (Rectangle.trackAll o x o' hs).2.1) hb) (hr.tokens _)
  have f2 : a.stroke = b.stroke := (Track.folds (get := (·.stroke)) (fun o x o' hs => (Rectangle.trackAll o x o' hs).2.2.1) ha).unique
    (Track.folds (get := (·.stroke)) (fun o x o' hs => (Rectangle.trackAll o x o' hs).2.2.1) hb) (hr.tokens _)
  have f3 : a.fill = b.fill := (Track.folds (get := (·.fill)) (fun o x o' hs => (Rectangle.trackAll o x o' hs).2.2.2.1) ha).unique
    (Track.folds (get := (·.fill)) (fun o x o' hs => (Rectangle.trackAll o x o' hs).2.2.2.1) hb) (hr.tokens _)
  have f4 : a.uuid = b.uuid := (Track.folds (get := (·.uuid)) (fun o x o' hs => (Rectangle.trackAll o x o' hs).2.2.2.2) ha).unique
    (Track.folds (get := (·.uuid)) (fun o x o' hs => (Rectangle.trackAll o x o' hs).2.2.2.2) hb) (hr.tokens _)
  show Rectangle.mk a.start a.«end» a.stroke a.fill a.uuid =
    Rectangle.mk b.start b.«end» b.stroke b.fill b.uuid
  rw [f0, f1, f2, f3, f4]

theorem Rectangle.loopEq (xs : List Val) :
    Rectangle.fromSexpr (.list (.str k!"rectangle" :: xs)) = forM Rectangle.step {} (.str k!"rectangle" :: xs) :=
  rfl

theorem Arc.trackAll (o : Arc) (x : Val) : Post (Arc.step o x) fun o' =>
    Track (tok k!"start") (fun _ => Position.fromSexpr) x o.start o'.start ∧
    Track (tok k!"mid") (fun _ => Position.fromSexpr) x o.mid o'.mid ∧
    Track (tok k!"end") (fun _ => Position.fromSexpr) x o.«end» o'.«end» ∧
    Track (tok k!"stroke") (fun _ => Stroke.fromSexpr) x o.stroke o'.stroke ∧
    Track (tok k!"fill") (fun _ => Fill.fromSexpr) x o.fill o'.fill ∧
    Track (tok k!"uuid") (fun _ => fun i => do return some (← i.idx 1)) x o.uuid o'.uuid := by
  unfold Arc.step
  trackItems

theorem Arc.indep (o o' : Arc) (x : Val) : Same (Arc.step o x) (Arc.step o' x) := by
  unfold Arc.step
  same

theorem Arc.unknown {h : Val} {r : List Val} (hu : ∀ k ∈ [k!"start", k!"mid", k!"end", k!"stroke", k!"fill", k!"uuid"], h ≠ .str k) (o : Arc) :
    Arc.step o (.list (h :: r)) = .ok o := by
  unfold Arc.step
  unknownHead hu

theorem Arc.reordered {o a b : Arc} {xs ys : List Val} (hr : Reordered [] xs ys) (ha : forM Arc.step o xs = .ok a)
    (hb : forM Arc.step o ys = .ok b) : a = b := by
  have f0 : a.start = b.start := (Track.folds (get := (·.start)) (fun o x o' hs => (Arc.trackAll o x o' hs).1) ha).unique
    (Track.folds (get := (·.start)) (fun o x o' hs => (Arc.trackAll o x o' hs).1) hb) (hr.tokens _)
  have f1 : a.mid = b.mid := (Track.folds (get := (·.mid)) (fun o x o' hs => (Arc.trackAll o x o' hs).2.1) ha).unique
    (Track.folds (get := (·.mid)) (fun o x o' hs => (Arc.trackAll o x o' hs).2.1) hb) (hr.tokens _)
  have f2 : a.«end» = b.«end» := (Track.folds (get := (·.«end»)) (fun o x o' hs => (Arc.trackAll o x o' hs).2.2.1) ha).unique
    (Track.folds (get := (·.«end»)) (fun o x o' hs => (Arc.trackAll o x o' hs).2.2.1) hb) (hr.tokens _)
  have f3 : a.stroke = b.stroke := (Track.folds (get := (·.stroke)) (fun o x o' hs => (Arc.trackAll o x o' hs).2.2.2.1) ha).unique
    (Track.folds (get := (·.stroke)) (fun o x o' hs => (Arc.trackAll o x o' hs).2.2.2.1) hb) (hr.tokens _)
  have f4 : a.fill = b.fill := (Track.folds (get := (·.fill)) (fun o x o' hs => (Arc.trackAll o x o' hs).2.2.2.2.1) ha).unique
    (Track.folds (get := (·.fill)) (fun o x o' hs => (Arc.trackAll o x o' hs).2.2.2.2.1) hb) (hr.tokens _)
  have f5 : a.uuid = b.uuid := (Track.folds (get := (·.uuid)) (fun o x o' hs => (Arc.trackAll o x o' hs).2.2.2.2.2) ha).unique
    (Track.folds (get := (·.uuid)) (fun o x o' hs => (Arc.trackAll o x o' hs).2.2.2.2.2) hb) (hr.tokens _)
  show Arc.mk a.start a.mid a.«end» a.stroke a.fill a.uuid =
    Arc.mk b.start b.mid b.«end» b.stroke b.fill b.uuid
  rw [f0, f1, f2, f3, f4, f5]

theorem Arc.loopEq (xs : List Val) :
    Arc.fromSexpr (.list (.str k!"arc" :: xs)) = forM Arc.step {} (.str k!"arc" :: xs) :=
  rfl

theorem Circle.trackAll (o : Circle) (x : Val) : Post (Circle.step o x) fun o' =>
    Track (tok k!"center") (fun _ => Position.fromSexpr) x o.center o'.center ∧
    Track (tok k!"radius") (fun _ => (·.idx 1)) x o.radius o'.radius ∧
    Track (tok k!"stroke") (fun _ => Stroke.fromSexpr) x o.stroke o'.stroke ∧
    Track (tok k!"fill") (fun _ => Fill.fromSexpr) x o.fill o'.fill ∧
    Track (tok k!"uuid") (fun _ => fun i => do return some (← i.idx 1)) x o.uuid o'.uuid := by
  unfold Circle.step
  trackItems

theorem Circle.indep (o o' : Circle) (x : Val) : Same (Circle.step o x) (Circle.step o' x) := by
  unfold Circle.step
  same

theorem Circle.unknown {h : Val} {r : List Val} (hu : ∀ k ∈ [k!"center", k!"radius", k!"stroke", k!"fill", k!"uuid"], h ≠ .str k) (o : Circle) :
    Circle.step o (.list (h :: r)) = .ok o := by
  unfold Circle.step
  unknownHead hu

theorem Circle.reordered {o a b : Circle} {xs ys : List Val} (hr : Reordered [] xs ys) (ha : forM Circle.step o xs = .ok a)
    (hb : forM Circle.step o ys = .ok b) : a = b := by
  have f0 : a.center = b.center := (Track.folds (get := (·.center)) (fun o x o' hs => (Circle.trackAll o x o' hs).1) ha).unique
    (Track.folds (get := (·.center)) (fun o x o' hs => (Circle.trackAll o x o' hs).1) hb) (hr.tokens _)
  have f1 : a.radius = b.radius := (Track.folds (get := (·.radius)) (fun o x o' hs => (Circle.trackAll o x o' hs).2.1) ha).unique
    (Track.folds (get := (·.radius)) (fun o x o' hs => (Circle.trackAll o x o' hs).2.1) hb) (hr.tokens _)
  have f2 : a.stroke = b.stroke := (Track.folds (get := (·.stroke)) (fun o x o' hs => (Circle.trackAll o x o' hs).2.2.1) ha).unique
    (Track.folds (get := (·.stroke)) (fun o x o' hs => (Circle.trackAll o x o' hs).2.2.1) hb) (hr.tokens _)
  have f3 : a.fill = b.fill := (Track.folds (get := (·.fill)) (fun o x o' hs => (Circle.trackAll o x o' hs).2.2.2.1) ha).unique
    (Track.folds (get := (·.fill)) (fun o x o' hs => (Circle.trackAll o x o' hs).2.2.2.1) hb) (hr.tokens _)
  have f4 : a.uuid = b.uuid := (Track.folds (get := (·.uuid)) (fun o x o' hs => (Circle.trackAll o x o' hs).2.2.2.2) ha).unique
    (Track.folds (get := (·.uuid)) (fun o x o' hs => (Circle.trackAll o x o' hs).2.2.2.2) hb) (hr.tokens _)
  show Circle.mk a.center a.radius a.stroke a.fill a.uuid =
    Circle.mk b.center b.radius b.stroke b.fill b.uuid
  rw [f0, f1, f2, f3, f4]

theorem Circle.loopEq (xs : List Val) :
    Circle.fromSexpr (.list (.str k!"circle" :: xs)) = forM Circle.step {} (.str k!"circle" :: xs) :=
  rfl

theorem NetclassFlag.trackAll (o : NetclassFlag) (x : Val) : Post (NetclassFlag.step o x) fun o' =>
    Track (fun _ => false) (fun v _ => .ok v) x o.text o'.text ∧
    Track (tok k!"length") (fun _ => (·.idx 1)) x o.length o'.length ∧
    Track (tok k!"shape") (fun _ => (·.idx 1)) x o.shape o'.shape ∧
    Track (tok k!"at") (fun _ => Position.fromSexpr) x o.position o'.position ∧
    Track (tok k!"effects") (fun _ => fun i => do return some (← Effects.fromSexpr i)) x o.effects o'.effects ∧
    Track (tok k!"property") (fun l i => do return l ++ [← Property.fromSexpr i]) x o.properties o'.properties ∧
    Track (tok k!"uuid") (fun _ => fun i => do return some (← i.idx 1)) x o.uuid o'.uuid ∧
    Track (tok k!"fields_autoplaced") (fun _ _ => .ok true) x o.fieldsAutoplaced o'.fieldsAutoplaced := by
  unfold NetclassFlag.step
  trackItems

theorem NetclassFlag.indep (o o' : NetclassFlag) (x : Val) : Same (NetclassFlag.step o x) (NetclassFlag.step o' x) := by
  unfold NetclassFlag.step
  same

theorem NetclassFlag.unknown {h : Val} {r : List Val} (hu : ∀ k ∈ [k!"length", k!"shape", k!"at", k!"fields_autoplaced", k!"effects", k!"uuid", k!"property"], h ≠ .str k) (o : NetclassFlag) :
    NetclassFlag.step o (.list (h :: r)) = .ok o := by
  unfold NetclassFlag.step
  unknownHead hu

theorem NetclassFlag.reordered {o a b : NetclassFlag} {xs ys : List Val} (hr : Reordered [] xs ys) (ha : forM NetclassFlag.step o xs = .ok a)
    (hb : forM NetclassFlag.step o ys = .ok b) : a = b := by
  have f0 : a.text = b.text := (Track.folds (get := (·.text)) (fun o x o' hs => (NetclassFlag.trackAll o x o' hs).1) ha).unique
    (Track.folds (get := (·.text)) (fun o x o' hs => (NetclassFlag.trackAll o x o' hs).1) hb) filter_never
  have f1 : a.length = b.length := (Track.folds (get := (·.length)) (fun o x o' hs => (NetclassFlag.trackAll o x o' hs).2.1) ha).unique
    (Track.folds (get := (·.length)) (fun o x o' hs => (NetclassFlag.trackAll o x o' hs).2.1) hb) (hr.tokens _)
  have f2 : a.shape = b.shape := (Track.folds (get := (·.shape)) (fun o x o' hs => (NetclassFlag.trackAll o x o' hs).2.2.1) ha).unique
    (Track.folds (get := (·.shape)) (fun o x o' hs => (NetclassFlag.trackAll o x o' hs).2.2.1) hb) (hr.tokens _)
  have f3 : a.position = b.position := (Track.folds (get := (·.position)) (fun o x o' hs => (NetclassFlag.trackAll o x o' hs).2.2.2.1) ha).unique
    (Track.folds (get := (·.position)) (fun o x o' hs => (NetclassFlag.trackAll o x o' hs).2.2.2.1) hb) (hr.tokens _)
  have f4 : a.effects = b.effects := (Track.folds (get := (·.effects)) (fun o x o' hs => (NetclassFlag.trackAll o x o' hs).2.2.2.2.1) ha).unique
    (Track.folds (get := (·.effects)) (fun o x o' hs => (NetclassFlag.trackAll o x o' hs).2.2.2.2.1) hb) (hr.tokens _)
  have f5 : a.properties = b.properties := (Track.folds (get := (·.properties)) (fun o x o' hs => (NetclassFlag.trackAll o x o' hs).2.2.2.2.2.1) ha).unique
    (Track.folds (get := (·.properties)) (fun o x o' hs => (NetclassFlag.trackAll o x o' hs).2.2.2.2.2.1) hb) (hr.tokens _)
  have f6 : a.uuid = b.uuid := (Track.folds (get := (·.uuid)) (fun o x o' hs => (NetclassFlag.trackAll o x o' hs).2.2.2.2.2.2.1) ha).unique
    (Track.folds (get := (·.uuid)) (fun o x o' hs => (NetclassFlag.trackAll o x o' hs).2.2.2.2.2.2.1) hb) (hr.tokens _)
  have f7 : a.fieldsAutoplaced = b.fieldsAutoplaced := (Track.folds (get := (·.fieldsAutoplaced)) (fun o x o' hs => (NetclassFlag.trackAll o x o' hs).2.2.2.2.2.2.2) ha).unique
    (Track.folds (get := (·.fieldsAutoplaced)) (fun o x o' hs => (NetclassFlag.trackAll o x o' hs).2.2.2.2.2.2.2) hb) (hr.tokens _)
  show NetclassFlag.mk a.text a.length a.shape a.position a.effects a.properties a.uuid a.fieldsAutoplaced =
    NetclassFlag.mk b.text b.length b.shape b.position b.effects b.properties b.uuid b.fieldsAutoplaced
  rw [f0, f1, f2, f3, f4, f5, f6, f7]

theorem NetclassFlag.loopEq (a1 : Val) (xs : List Val) :
    NetclassFlag.fromSexpr (.list (.str k!"netclass_flag" :: a1 :: xs)) = forM NetclassFlag.step { text := a1 } xs :=
  rfl

end Kiutils
