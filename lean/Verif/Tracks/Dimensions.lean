import Verif.Tokens
import Verif.Model.Dimensions
/-!
# Loop bodies of `from_sexpr` item by item: Dimensions
-/
namespace Kiutils

theorem DimensionFormat.trackAll (o : DimensionFormat) (x : Val) : Post (DimensionFormat.step o x) fun o' =>
    Track (tok k!"prefix") (fun _ => fun i => do return some (← i.idx 1)) x o.«prefix» o'.«prefix» ∧
    Track (tok k!"suffix") (fun _ => fun i => do return some (← i.idx 1)) x o.suffix o'.suffix ∧
    Track (tok k!"units") (fun _ => (·.idx 1)) x o.units o'.units ∧
    Track (tok k!"units_format") (fun _ => (·.idx 1)) x o.unitsFormat o'.unitsFormat ∧
    Track (tok k!"precision") (fun _ => (·.idx 1)) x o.precision o'.precision ∧
    Track (tok k!"override_value") (fun _ => fun i => do return some (← i.idx 1)) x o.overrideValue o'.overrideValue ∧
    Track (wordIn [k!"suppress_zeroes"]) (fun _ _ => .ok true) x o.suppressZeroes o'.suppressZeroes := by
  unfold DimensionFormat.step
  cases x <;> trackBoth

theorem DimensionFormat.indep (o o' : DimensionFormat) (x : Val) : Same (DimensionFormat.step o x) (DimensionFormat.step o' x) := by
  unfold DimensionFormat.step
  cases x <;> same

theorem DimensionFormat.unknown {h : Val} {r : List Val} (hu : ∀ k ∈ [k!"prefix", k!"suffix", k!"units", k!"units_format", k!"precision", k!"override_value"], h ≠ .str k) (o : DimensionFormat) :
    DimensionFormat.step o (.list (h :: r)) = .ok o := by
  unfold DimensionFormat.step
  unknownHead hu

theorem DimensionFormat.reordered {o a b : DimensionFormat} {xs ys : List Val} (hr : Reordered [] xs ys) (ha : forM DimensionFormat.step o xs = .ok a)
    (hb : forM DimensionFormat.step o ys = .ok b) : a = b := by
  have f0 : a.«prefix» = b.«prefix» := (Track.folds (get := (·.«prefix»)) (fun o x o' hs => (DimensionFormat.trackAll o x o' hs).1) ha).unique
    (Track.folds (get := (·.«prefix»)) (fun o x o' hs => (DimensionFormat.trackAll o x o' hs).1) hb) (hr.tokens _)
  have f1 : a.suffix = b.suffix := (Track.folds (get := (·.suffix)) (fun o x o' hs => (DimensionFormat.trackAll o x o' hs).2.1) ha).unique
    (Track.folds (get := (·.suffix)) (fun o x o' hs => (DimensionFormat.trackAll o x o' hs).2.1) hb) (hr.tokens _)
  have f2 : a.units = b.units := (Track.folds (get := (·.units)) (fun o x o' hs => (DimensionFormat.trackAll o x o' hs).2.2.1) ha).unique
    (Track.folds (get := (·.units)) (fun o x o' hs => (DimensionFormat.trackAll o x o' hs).2.2.1) hb) (hr.tokens _)
  have f3 : a.unitsFormat = b.unitsFormat := (Track.folds (get := (·.unitsFormat)) (fun o x o' hs => (DimensionFormat.trackAll o x o' hs).2.2.2.1) ha).unique
    (Track.folds (get := (·.unitsFormat)) (fun o x o' hs => (DimensionFormat.trackAll o x o' hs).2.2.2.1) hb) (hr.tokens _)
  have f4 : a.precision = b.precision := (Track.folds (get := (·.precision)) (fun o x o' hs => (DimensionFormat.trackAll o x o' hs).2.2.2.2.1) ha).unique
    (Track.folds (get := (·.precision)) (fun o x o' hs => (DimensionFormat.trackAll o x o' hs).2.2.2.2.1) hb) (hr.tokens _)
  have f5 : a.overrideValue = b.overrideValue := (Track.folds (get := (·.overrideValue)) (fun o x o' hs => (DimensionFormat.trackAll o x o' hs).2.2.2.2.2.1) ha).unique
    (Track.folds (get := (·.overrideValue)) (fun o x o' hs => (DimensionFormat.trackAll o x o' hs).2.2.2.2.2.1) hb) (hr.tokens _)
  have f6 : a.suppressZeroes = b.suppressZeroes := (Track.folds (get := (·.suppressZeroes)) (fun o x o' hs => (DimensionFormat.trackAll o x o' hs).2.2.2.2.2.2) ha).unique
    (Track.folds (get := (·.suppressZeroes)) (fun o x o' hs => (DimensionFormat.trackAll o x o' hs).2.2.2.2.2.2) hb) (hr.word _)
  show DimensionFormat.mk a.«prefix» a.suffix a.units a.unitsFormat a.precision a.overrideValue a.suppressZeroes =
    DimensionFormat.mk b.«prefix» b.suffix b.units b.unitsFormat b.precision b.overrideValue b.suppressZeroes
  rw [f0, f1, f2, f3, f4, f5, f6]

theorem DimensionFormat.loopEq (xs : List Val) :
    DimensionFormat.fromSexpr (.list (.str k!"format" :: xs)) = forM DimensionFormat.step {} xs :=
  rfl

theorem DimensionStyle.trackAll (o : DimensionStyle) (x : Val) : Post (DimensionStyle.step o x) fun o' =>
    Track (tok k!"thickness") (fun _ => (·.idx 1)) x o.thickness o'.thickness ∧
    Track (tok k!"arrow_length") (fun _ => (·.idx 1)) x o.arrowLength o'.arrowLength ∧
    Track (tok k!"text_position_mode") (fun _ => (·.idx 1)) x o.textPositionMode o'.textPositionMode ∧
    Track (tok k!"extension_height") (fun _ => fun i => do return some (← i.idx 1)) x o.extensionHeight o'.extensionHeight ∧
    Track (tok k!"text_frame") (fun _ => fun i => do return some (← i.idx 1)) x o.textFrame o'.textFrame ∧
    Track (tok k!"extension_offset") (fun _ => fun i => do return some (← i.idx 1)) x o.extensionOffset o'.extensionOffset ∧
    Track (wordIn [k!"keep_text_aligned"]) (fun _ _ => .ok true) x o.keepTextAligned o'.keepTextAligned := by
  unfold DimensionStyle.step
  cases x <;> trackBoth

theorem DimensionStyle.indep (o o' : DimensionStyle) (x : Val) : Same (DimensionStyle.step o x) (DimensionStyle.step o' x) := by
  unfold DimensionStyle.step
  cases x <;> same

theorem DimensionStyle.unknown {h : Val} {r : List Val} (hu : ∀ k ∈ [k!"thickness", k!"arrow_length", k!"text_position_mode", k!"extension_height", k!"text_frame", k!"extension_offset"], h ≠ .str k) (o : DimensionStyle) :
    DimensionStyle.step o (.list (h :: r)) = .ok o := by
  unfold DimensionStyle.step
  unknownHead hu

theorem DimensionStyle.reordered {o a b : DimensionStyle} {xs ys : List Val} (hr : Reordered [] xs ys) (ha : forM DimensionStyle.step o xs = .ok a)
    (hb : forM DimensionStyle.step o ys = .ok b) : a = b := by
  have f0 : a.thickness = b.thickness := (Track.folds (get := (·.thickness)) (fun o x o' hs => (DimensionStyle.trackAll o x o' hs).1) ha).unique
    (Track.folds (get := (·.thickness)) (fun o x o' hs => (DimensionStyle.trackAll o x o' hs).1) hb) (hr.tokens _)
  have f1 : a.arrowLength = b.arrowLength := (Track.folds (get := (·.arrowLength)) (fun o x o' hs => (DimensionStyle.trackAll o x o' hs).2.1) ha).unique
    (Track.folds (get := (·.arrowLength)) (fun o x o' hs => (DimensionStyle.trackAll o x o' hs).2.1) hb) (hr.tokens _)
  have f2 : a.textPositionMode = b.textPositionMode := (Track.folds (get := (·.textPositionMode)) (fun o x o' hs => (DimensionStyle.trackAll o x o' hs).2.2.1) ha).unique
    (Track.folds (get := (·.textPositionMode)) (fun o x o' hs => (DimensionStyle.trackAll o x o' hs).2.2.1) hb) (hr.tokens _)
  have f3 : a.extensionHeight = b.extensionHeight := (Track.folds (get := (·.extensionHeight)) (fun o x o' hs => (DimensionStyle.trackAll o x o' hs).2.2.2.1) ha).unique
    (Track.folds (get := (·.extensionHeight)) (fun o x o' hs => (DimensionStyle.trackAll o x o' hs).2.2.2.1) hb) (hr.tokens _)
  have f4 : a.textFrame = b.textFrame := (Track.folds (get := (·.textFrame)) (fun o x o' hs => (DimensionStyle.trackAll o x o' hs).2.2.2.2.1) ha).unique
    (Track.folds (get := (·.textFrame)) (fun o x o' hs => (DimensionStyle.trackAll o x o' hs).2.2.2.2.1) hb) (hr.tokens _)
  have f5 : a.extensionOffset = b.extensionOffset := (Track.folds (get := (·.extensionOffset)) (fun o x o' hs => (DimensionStyle.trackAll o x o' hs).2.2.2.2.2.1) ha).unique
    (Track.folds (get := (·.extensionOffset)) (fun o x o' hs => (DimensionStyle.trackAll o x o' hs).2.2.2.2.2.1) hb) (hr.tokens _)
  have f6 : a.keepTextAligned = b.keepTextAligned := (Track.folds (get := (·.keepTextAligned)) (fun o x o' hs => (DimensionStyle.trackAll o x o' hs).2.2.2.2.2.2) ha).unique
    (Track.folds (get := (·.keepTextAligned)) (fun o x o' hs => (DimensionStyle.trackAll o x o' hs).2.2.2.2.2.2) hb) (hr.word _)
  show DimensionStyle.mk a.thickness a.arrowLength a.textPositionMode a.extensionHeight a.textFrame a.extensionOffset a.keepTextAligned =
    DimensionStyle.mk b.thickness b.arrowLength b.textPositionMode b.extensionHeight b.textFrame b.extensionOffset b.keepTextAligned
  rw [f0, f1, f2, f3, f4, f5, f6]

theorem DimensionStyle.loopEq (xs : List Val) :
    DimensionStyle.fromSexpr (.list (.str k!"style" :: xs)) = forM DimensionStyle.step {} xs :=
  rfl

theorem Dimension.trackAll (o : Dimension) (x : Val) : Post (Dimension.step o x) fun o' =>
    Track (wordIn [k!"locked"]) (fun _ _ => .ok true) x o.locked o'.locked ∧
    Track (tok k!"type") (fun _ => (·.idx 1)) x o.type o'.type ∧
    Track (tok k!"layer") (fun _ => (·.idx 1)) x o.layer o'.layer ∧
    Track (tok k!"tstamp") (fun _ => fun i => do return some (← i.idx 1)) x o.tstamp o'.tstamp ∧
    Track (tok k!"pts") (fun l i => do return l ++ (← (fun i => do mapM' Position.fromSexpr (← i.slice 1)) i)) x o.pts o'.pts ∧
    Track (tok k!"height") (fun _ => fun i => do return some (← i.idx 1)) x o.height o'.height ∧
    Track (tok k!"orientation") (fun _ => fun i => do return some (← i.idx 1)) x o.orientation o'.orientation ∧
    Track (tok k!"leader_length") (fun _ => fun i => do return some (← i.idx 1)) x o.leaderLength o'.leaderLength ∧
    Track (tok k!"gr_text") (fun _ => fun i => do return some (← GrText.fromSexpr i)) x o.grText o'.grText ∧
    Track (tok k!"format") (fun _ => fun i => do return some (← DimensionFormat.fromSexpr i)) x o.format o'.format ∧
    Track (tok k!"style") (fun _ => DimensionStyle.fromSexpr) x o.style o'.style := by
  unfold Dimension.step
  cases x <;> trackBoth

theorem Dimension.indep (o o' : Dimension) (x : Val) : Same (Dimension.step o x) (Dimension.step o' x) := by
  unfold Dimension.step
  cases x <;> same

theorem Dimension.unknown {h : Val} {r : List Val} (hu : ∀ k ∈ [k!"type", k!"layer", k!"tstamp", k!"height", k!"orientation", k!"leader_length", k!"gr_text", k!"format", k!"style", k!"pts"], h ≠ .str k) (o : Dimension) :
    Dimension.step o (.list (h :: r)) = .ok o := by
  unfold Dimension.step
  unknownHead hu

theorem Dimension.reordered {o a b : Dimension} {xs ys : List Val} (hr : Reordered [] xs ys) (ha : forM Dimension.step o xs = .ok a)
    (hb : forM Dimension.step o ys = .ok b) : a = b := by
  have f0 : a.locked = b.locked := (Track.folds (get := (·.locked)) (fun o x o' hs => (Dimension.trackAll o x o' hs).1) ha).unique
    (Track.folds (get := (·.locked)) (fun o x o' hs => (Dimension.trackAll o x o' hs).1) hb) (hr.word _)
  have f1 : a.type = b.type := (Track.folds (get := (·.type)) (fun o x o' hs => (Dimension.trackAll o x o' hs).2.1) ha).unique
    (Track.folds (get := (·.type)) (fun o x o' hs => (Dimension.trackAll o x o' hs).2.1) hb) (hr.tokens _)
  have f2 : a.layer = b.layer := (Track.folds (get := (·.layer)) (fun o x o' hs => (Dimension.trackAll o x o' hs).2.2.1) ha).unique
    (Track.folds (get := (·.layer)) (fun o x o' hs => (Dimension.trackAll o x o' hs).2.2.1) hb) (hr.tokens _)
  have f3 : a.tstamp = b.tstamp := (Track.folds (get := (·.tstamp)) (fun o x o' hs => (Dimension.trackAll o x o' hs).2.2.2.1) ha).unique
    (Track.folds (get := (·.tstamp)) (fun o x o' hs => (Dimension.trackAll o x o' hs).2.2.2.1) hb) (hr.tokens _)
  have f4 : a.pts = b.pts := (Track.folds (get := (·.pts)) (fun o x o' hs => (Dimension.trackAll o x o' hs).2.2.2.2.1) ha).unique
    (Track.folds (get := (·.pts)) (fun o x o' hs => (Dimension.trackAll o x o' hs).2.2.2.2.1) hb) (hr.tokens _)
  have f5 : a.height = b.height := (Track.folds (get := (·.height)) (fun o x o' hs => (Dimension.trackAll o x o' hs).2.2.2.2.2.1) ha).unique
    (Track.folds (get := (·.height)) (fun o x o' hs => (Dimension.trackAll o x o' hs).2.2.2.2.2.1) hb) (hr.tokens _)
  have f6 : a.orientation = b.orientation := (Track.folds (get := (·.orientation)) (fun o x o' hs => (Dimension.trackAll o x o' hs).2.2.2.2.2.2.1) ha).unique
    (Track.folds (get := (·.orientation)) (fun o x o' hs => (Dimension.trackAll o x o' hs).2.2.2.2.2.2.1) hb) (hr.tokens _)
  have f7 : a.leaderLength = b.leaderLength := (Track.folds (get := (·.leaderLength)) (fun o x o' hs => (Dimension.trackAll o x o' hs).2.2.2.2.2.2.2.1) ha).unique
    (Track.folds (get := (·.leaderLength)) (fun o x o' hs => (Dimension.trackAll o x o' hs).2.2.2.2.2.2.2.1) hb) (hr.tokens _)
  have f8 : a.grText = b.grText := (Track.folds (get := (·.grText)) (fun o x o' hs => (Dimension.trackAll o x o' hs).2.2.2.2.2.2.2.2.1) ha).unique
    (Track.folds (get := (·.grText)) (fun o x o' hs => (Dimension.trackAll o x o' hs).2.2.2.2.2.2.2.2.1) hb) (hr.tokens _)
  have f9 : a.format = b.format := (Track.folds (get := (·.format)) (fun o x o' hs => (Dimension.trackAll o x o' hs).2.2.2.2.2.2.2.2.2.1) ha).unique
    (Track.folds (get := (·.format)) (fun o x o' hs => (Dimension.trackAll o x o' hs).2.2.2.2.2.2.2.2.2.1) hb) (hr.tokens _)
  have f10 : a.style = b.style := (Track.folds (get := (·.style)) (fun o x o' hs => (Dimension.trackAll o x o' hs).2.2.2.2.2.2.2.2.2.2) ha).unique
    (Track.folds (get := (·.style)) (fun o x o' hs => (Dimension.trackAll o x o' hs).2.2.2.2.2.2.2.2.2.2) hb) (hr.tokens _)
  show Dimension.mk a.locked a.type a.layer a.tstamp a.pts a.height a.orientation a.leaderLength a.grText a.format a.style =
    Dimension.mk b.locked b.type b.layer b.tstamp b.pts b.height b.orientation b.leaderLength b.grText b.format b.style
  rw [f0, f1, f2, f3, f4, f5, f6, f7, f8, f9, f10]

theorem Dimension.loopEq (xs : List Val) :
    Dimension.fromSexpr (.list (.str k!"dimension" :: xs)) = forM Dimension.step {} xs :=
  rfl

end Kiutils
