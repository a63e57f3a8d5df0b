import Verif.Tokens
import Verif.Model.Footprint
/-!
# Loop bodies of `from_sexpr` item by item: Footprint
-/
namespace Kiutils

theorem Footprint.setLibId_eq (tedit id : Val) : Footprint.setLibId { tedit := tedit } id =
    { tedit := tedit, libraryNickname := (Footprint.setLibId { tedit := tedit } id).libraryNickname, entryName := (Footprint.setLibId { tedit := tedit } id).entryName } := by
  simp only [Footprint.setLibId]
  cases matchNick id.pyStr <;> rfl

theorem padPrimitive.indep (o o' : List GrItem) (x : Val) : Same (padPrimitive o x) (padPrimitive o' x) := by
  unfold padPrimitive
  same

theorem Attributes.trackAll (o : Attributes) (x : Val) : Post (Attributes.step o x) fun o' =>
    Track (fun _ => false) (fun v _ => .ok v) x o.type o'.type ∧
    Track (wordIn [k!"board_only"]) (fun _ _ => .ok true) x o.boardOnly o'.boardOnly ∧
    Track (wordIn [k!"exclude_from_pos_files"]) (fun _ _ => .ok true) x o.excludeFromPosFiles o'.excludeFromPosFiles ∧
    Track (wordIn [k!"exclude_from_bom"]) (fun _ _ => .ok true) x o.excludeFromBom o'.excludeFromBom ∧
    Track (wordIn [k!"allow_missing_courtyard"]) (fun _ _ => .ok true) x o.allowMissingCourtyard o'.allowMissingCourtyard := by
  unfold Attributes.step
  cases x <;> trackBoth

theorem Attributes.indep (o o' : Attributes) (x : Val) : Same (Attributes.step o x) (Attributes.step o' x) := by
  unfold Attributes.step
  same

theorem Attributes.reordered {o a b : Attributes} {xs ys : List Val} (hr : Reordered [] xs ys) (ha : forM Attributes.step o xs = .ok a)
    (hb : forM Attributes.step o ys = .ok b) : a = b := by
  have f0 : a.type = b.type := (Track.folds (get := (·.type)) (fun o x o' hs => (Attributes.trackAll o x o' hs).1) ha).unique
    (Track.folds (get := (·.type)) (fun o x o' hs => (Attributes.trackAll o x o' hs).1) hb) filter_never
  have f1 : a.boardOnly = b.boardOnly := (Track.folds (get := (·.boardOnly)) (fun o x o' hs => (Attributes.trackAll o x o' hs).2.1) ha).unique
    (Track.folds (get := (·.boardOnly)) (fun o x o' hs => (Attributes.trackAll o x o' hs).2.1) hb) (hr.word _)
  have f2 : a.excludeFromPosFiles = b.excludeFromPosFiles := (Track.folds (get := (·.excludeFromPosFiles)) (fun o x o' hs => (Attributes.trackAll o x o' hs).2.2.1) ha).unique
    (Track.folds (get := (·.excludeFromPosFiles)) (fun o x o' hs => (Attributes.trackAll o x o' hs).2.2.1) hb) (hr.word _)
  have f3 : a.excludeFromBom = b.excludeFromBom := (Track.folds (get := (·.excludeFromBom)) (fun o x o' hs => (Attributes.trackAll o x o' hs).2.2.2.1) ha).unique
    (Track.folds (get := (·.excludeFromBom)) (fun o x o' hs => (Attributes.trackAll o x o' hs).2.2.2.1) hb) (hr.word _)
  have f4 : a.allowMissingCourtyard = b.allowMissingCourtyard := (Track.folds (get := (·.allowMissingCourtyard)) (fun o x o' hs => (Attributes.trackAll o x o' hs).2.2.2.2) ha).unique
    (Track.folds (get := (·.allowMissingCourtyard)) (fun o x o' hs => (Attributes.trackAll o x o' hs).2.2.2.2) hb) (hr.word _)
  show Attributes.mk a.type a.boardOnly a.excludeFromPosFiles a.excludeFromBom a.allowMissingCourtyard =
    Attributes.mk b.type b.boardOnly b.excludeFromPosFiles b.excludeFromBom b.allowMissingCourtyard
  rw [f0, f1, f2, f3, f4]

theorem Attributes.loopEq (t : Val) (xs : List Val) :
    Attributes.fromSexpr (.list (.str k!"attr" :: t :: xs)) = forM Attributes.step { type := if t.is k!"through_hole" || t.is k!"smd" then some t else none } (.str k!"attr" :: t :: xs) :=
  rfl

theorem Model.trackAll (o : Model) (x : Val) : Post (Model.step o x) fun o' =>
    Track (fun _ => false) (fun v _ => .ok v) x o.path o'.path ∧
    Track (tok k!"offset") (fun _ => fun i => do return ← Coordinate.fromSexpr (← i.idx 1)) x o.pos o'.pos ∧
    Track (tok k!"scale") (fun _ => fun i => do return ← Coordinate.fromSexpr (← i.idx 1)) x o.scale o'.scale ∧
    Track (tok k!"rotate") (fun _ => fun i => do return ← Coordinate.fromSexpr (← i.idx 1)) x o.rotate o'.rotate ∧
    Track (fun _ => false) (fun v _ => .ok v) x o.hide o'.hide ∧
    Track (tok k!"opacity") (fun _ => fun i => do return some (← i.idx 1)) x o.opacity o'.opacity := by
  unfold Model.step
  trackItems

theorem Model.indep (o o' : Model) (x : Val) : Same (Model.step o x) (Model.step o' x) := by
  unfold Model.step
  same

theorem Model.unknown {h : Val} {r : List Val} (hu : ∀ k ∈ [k!"opacity", k!"offset", k!"scale", k!"rotate"], h ≠ .str k) (o : Model) :
    Model.step o (.list (h :: r)) = .ok o := by
  unfold Model.step
  unknownHead hu

theorem Model.loopEq (path x y z : Val) (xs : List Val) :
    Model.fromSexpr (.list (.str k!"model" :: path :: x :: y :: z :: xs)) = forM Model.step { path := path, hide := x.is k!"hide" } (x :: y :: z :: xs) :=
  rfl

theorem DrillDefinition.trackAll (o : DrillDefinition) (x : Val) : Post (DrillDefinition.step o x) fun o' =>
    Track (fun _ => false) (fun v _ => .ok v) x o.oval o'.oval ∧
    Track (fun _ => false) (fun v _ => .ok v) x o.diameter o'.diameter ∧
    Track (fun _ => false) (fun v _ => .ok v) x o.width o'.width ∧
    Track (tok k!"offset") (fun _ => fun i => do return some (← Position.fromSexpr i)) x o.offset o'.offset := by
  unfold DrillDefinition.step
  cases x <;> trackBoth

theorem DrillDefinition.indep (o o' : DrillDefinition) (x : Val) : Same (DrillDefinition.step o x) (DrillDefinition.step o' x) := by
  unfold DrillDefinition.step
  cases x <;> same

theorem DrillDefinition.unknown {h : Val} {r : List Val} (hu : ∀ k ∈ [k!"offset"], h ≠ .str k) (o : DrillDefinition) :
    DrillDefinition.step o (.list (h :: r)) = .ok o := by
  unfold DrillDefinition.step
  unknownHead hu

theorem DrillDefinition.reordered {o a b : DrillDefinition} {xs ys : List Val} (hr : Reordered [] xs ys) (ha : forM DrillDefinition.step o xs = .ok a)
    (hb : forM DrillDefinition.step o ys = .ok b) : a = b := by
  have f0 : a.oval = b.oval := (Track.folds (get := (·.oval)) (fun o x o' hs => (DrillDefinition.trackAll o x o' hs).1) ha).unique
    (Track.folds (get := (·.oval)) (fun o x o' hs => (DrillDefinition.trackAll o x o' hs).1) hb) filter_never
  have f1 : a.diameter = b.diameter := (Track.folds (get := (·.diameter)) (fun o x o' hs => (DrillDefinition.trackAll o x o' hs).2.1) ha).unique
    (Track.folds (get := (·.diameter)) (fun o x o' hs => (DrillDefinition.trackAll o x o' hs).2.1) hb) filter_never
  have f2 : a.width = b.width := (Track.folds (get := (·.width)) (fun o x o' hs => (DrillDefinition.trackAll o x o' hs).2.2.1) ha).unique
    (Track.folds (get := (·.width)) (fun o x o' hs => (DrillDefinition.trackAll o x o' hs).2.2.1) hb) filter_never
  have f3 : a.offset = b.offset := (Track.folds (get := (·.offset)) (fun o x o' hs => (DrillDefinition.trackAll o x o' hs).2.2.2) ha).unique
    (Track.folds (get := (·.offset)) (fun o x o' hs => (DrillDefinition.trackAll o x o' hs).2.2.2) hb) (hr.tokens _)
  show DrillDefinition.mk a.oval a.diameter a.width a.offset =
    DrillDefinition.mk b.oval b.diameter b.width b.offset
  rw [f0, f1, f2, f3]

theorem DrillDefinition.loopEq {d w : Val} (ha : d.is k!"oval" = false) (xs : List Val) :
    DrillDefinition.fromSexpr (.list (.str k!"drill" :: d :: w :: xs)) = forM DrillDefinition.step { diameter := d, width := some w } (.str k!"drill" :: d :: w :: xs) :=
  by simp only [DrillDefinition.fromSexpr, checkHead_ok, getI1]; exact (if_neg (by simp [ha]))

theorem PadOptions.trackAll (o : PadOptions) (x : Val) : Post (PadOptions.step o x) fun o' =>
    Track (tok k!"clearance") (fun _ => (·.idx 1)) x o.clearance o'.clearance ∧
    Track (tok k!"anchor") (fun _ => (·.idx 1)) x o.anchor o'.anchor := by
  unfold PadOptions.step
  trackItems

theorem PadOptions.indep (o o' : PadOptions) (x : Val) : Same (PadOptions.step o x) (PadOptions.step o' x) := by
  unfold PadOptions.step
  same

theorem PadOptions.unknown {h : Val} {r : List Val} (hu : ∀ k ∈ [k!"clearance", k!"anchor"], h ≠ .str k) (o : PadOptions) :
    PadOptions.step o (.list (h :: r)) = .ok o := by
  unfold PadOptions.step
  unknownHead hu

theorem PadOptions.reordered {o a b : PadOptions} {xs ys : List Val} (hr : Reordered [] xs ys) (ha : forM PadOptions.step o xs = .ok a)
    (hb : forM PadOptions.step o ys = .ok b) : a = b := by
  have f0 : a.clearance = b.clearance := (Track.folds (get := (·.clearance)) (fun o x o' hs => (PadOptions.trackAll o x o' hs).1) ha).unique
    (Track.folds (get := (·.clearance)) (fun o x o' hs => (PadOptions.trackAll o x o' hs).1) hb) (hr.tokens _)
  have f1 : a.anchor = b.anchor := (Track.folds (get := (·.anchor)) (fun o x o' hs => (PadOptions.trackAll o x o' hs).2) ha).unique
    (Track.folds (get := (·.anchor)) (fun o x o' hs => (PadOptions.trackAll o x o' hs).2) hb) (hr.tokens _)
  show PadOptions.mk a.clearance a.anchor =
    PadOptions.mk b.clearance b.anchor
  rw [f0, f1]

theorem PadOptions.loopEq (xs : List Val) :
    PadOptions.fromSexpr (.list (.str k!"options" :: xs)) = forM PadOptions.step {} (.str k!"options" :: xs) :=
  rfl

set_option maxHeartbeats 1000000 in
theorem Pad.trackAll (o : Pad) (x : Val) : Post (Pad.step o x) fun o' =>
    Track (fun _ => false) (fun v _ => .ok v) x o.number o'.number ∧
    Track (fun _ => false) (fun v _ => .ok v) x o.type o'.type ∧
    Track (fun _ => false) (fun v _ => .ok v) x o.shape o'.shape ∧
    Track (tok k!"at") (fun _ => Position.fromSexpr) x o.position o'.position ∧
    Track (wordIn [k!"locked"]) (fun _ _ => .ok true) x o.locked o'.locked ∧
    Track (tok k!"size") (fun _ => Position.fromSexpr) x o.size o'.size ∧
    Track (tok k!"drill") (fun _ => fun i => do return some (← DrillDefinition.fromSexpr i)) x o.drill o'.drill ∧
    Track (tok k!"layers") (fun l i => do return l ++ (← (·.slice 1) i)) x o.layers o'.layers ∧
    Track (tok k!"property") (fun _ => fun i => do return some (← i.idx 1)) x o.property o'.property ∧
    Track (tok k!"remove_unused_layers") (fun _ _ => .ok true) x o.removeUnusedLayers o'.removeUnusedLayers ∧
    Track (tok k!"keep_end_layers") (fun _ _ => .ok true) x o.keepEndLayers o'.keepEndLayers ∧
    Track (tok k!"roundrect_rratio") (fun _ => fun i => do return some (← i.idx 1)) x o.roundrectRatio o'.roundrectRatio ∧
    Track (tok k!"chamfer_ratio") (fun _ => fun i => do return some (← i.idx 1)) x o.chamferRatio o'.chamferRatio ∧
    Track (tok k!"chamfer") (fun l i => do return l ++ (← (·.slice 1) i)) x o.chamfer o'.chamfer ∧
    Track (tok k!"net") (fun _ => fun i => do return some (← Net.fromSexpr i)) x o.net o'.net ∧
    Track (tok k!"tstamp") (fun _ => fun i => do return some (← i.idx 1)) x o.tstamp o'.tstamp ∧
    Track (tok k!"pinfunction") (fun _ => fun i => do return some (← i.idx 1)) x o.pinFunction o'.pinFunction ∧
    Track (tok k!"pintype") (fun _ => fun i => do return some (← i.idx 1)) x o.pinType o'.pinType ∧
    Track (tok k!"die_length") (fun _ => fun i => do return some (← i.idx 1)) x o.dieLength o'.dieLength ∧
    Track (tok k!"solder_mask_margin") (fun _ => fun i => do return some (← i.idx 1)) x o.solderMaskMargin o'.solderMaskMargin ∧
    Track (tok k!"solder_paste_margin") (fun _ => fun i => do return some (← i.idx 1)) x o.solderPasteMargin o'.solderPasteMargin ∧
    Track (tok k!"solder_paste_margin_ratio") (fun _ => fun i => do return some (← i.idx 1)) x o.solderPasteMarginRatio o'.solderPasteMarginRatio ∧
    Track (tok k!"clearance") (fun _ => fun i => do return some (← i.idx 1)) x o.clearance o'.clearance ∧
    Track (tok k!"zone_connect") (fun _ => fun i => do return some (← i.idx 1)) x o.zoneConnect o'.zoneConnect ∧
    Track (tok k!"thermal_width") (fun _ => fun i => do return some (← i.idx 1)) x o.thermalWidth o'.thermalWidth ∧
    Track (tok k!"thermal_gap") (fun _ => fun i => do return some (← i.idx 1)) x o.thermalGap o'.thermalGap ∧
    Track (tok k!"options") (fun _ => fun i => do return some (← PadOptions.fromSexpr i)) x o.customPadOptions o'.customPadOptions ∧
    Track (tok k!"primitives") (fun acc i => do forM padPrimitive acc (← i.slice 1)) x o.customPadPrimitives o'.customPadPrimitives := by
  unfold Pad.step
  cases hl : x.is k!"locked" with
  | true =>
    have := Val.is_iff hl
    subst this
    refine post_ok ?_
    trackLeaf
  | false =>
    simp only [Bool.false_eq_true, if_false]
    trackItems

theorem Pad.indep (o o' : Pad) (x : Val) : Same (Pad.step o x) (Pad.step o' x) := by
  unfold Pad.step
  same
  exact forM_same padPrimitive.indep _ _ _

theorem Pad.unknown {h : Val} {r : List Val} (hu : ∀ k ∈ [k!"at", k!"size", k!"drill", k!"layers", k!"property", k!"remove_unused_layers", k!"keep_end_layers", k!"roundrect_rratio", k!"chamfer_ratio", k!"chamfer", k!"net", k!"tstamp", k!"pinfunction", k!"pintype", k!"die_length", k!"solder_mask_margin", k!"solder_paste_margin", k!"solder_paste_margin_ratio", k!"clearance", k!"zone_connect", k!"thermal_width", k!"thermal_gap", k!"options", k!"primitives"], h ≠ .str k) (o : Pad) :
    Pad.step o (.list (h :: r)) = .ok o := by
  unfold Pad.step
  unknownHead hu

theorem Pad.reordered {o a b : Pad} {xs ys : List Val} (hr : Reordered [] xs ys) (ha : forM Pad.step o xs = .ok a)
    (hb : forM Pad.step o ys = .ok b) : a = b := by
  have f0 : a.number = b.number := (Track.folds (get := (·.number)) (fun o x o' hs => (Pad.trackAll o x o' hs).1) ha).unique
    (Track.folds (get := (·.number)) (fun o x o' hs => (Pad.trackAll o x o' hs).1) hb) filter_never
  have f1 : a.type = b.type := (Track.folds (get := (·.type)) (fun o x o' hs => (Pad.trackAll o x o' hs).2.1) ha).unique
    (Track.folds (get := (·.type)) (fun o x o' hs => (Pad.trackAll o x o' hs).2.1) hb) filter_never
  have f2 : a.shape = b.shape := (Track.folds (get := (·.shape)) (fun o x o' hs => (Pad.trackAll o x o' hs).2.2.1) ha).unique
    (Track.folds (get := (·.shape)) (fun o x o' hs => (Pad.trackAll o x o' hs).2.2.1) hb) filter_never
  have f3 : a.position = b.position := (Track.folds (get := (·.position)) (fun o x o' hs => (Pad.trackAll o x o' hs).2.2.2.1) ha).unique
    (Track.folds (get := (·.position)) (fun o x o' hs => (Pad.trackAll o x o' hs).2.2.2.1) hb) (hr.tokens _)
  have f4 : a.locked = b.locked := (Track.folds (get := (·.locked)) (fun o x o' hs => (Pad.trackAll o x o' hs).2.2.2.2.1) ha).unique
    (Track.folds (get := (·.locked)) (fun o x o' hs => (Pad.trackAll o x o' hs).2.2.2.2.1) hb) (hr.word _)
  have f5 : a.size = b.size := (Track.folds (get := (·.size)) (fun o x o' hs => (Pad.trackAll o x o' hs).2.2.2.2.2.1) ha).unique
    (Track.folds (get := (·.size)) (fun o x o' hs => (Pad.trackAll o x o' hs).2.2.2.2.2.1) hb) (hr.tokens _)
  have f6 : a.drill = b.drill := (Track.folds (get := (·.drill)) (fun o x o' hs => (Pad.trackAll o x o' hs).2.2.2.2.2.2.1) ha).unique
    (Track.folds (get := (·.drill)) (fun o x o' hs => (Pad.trackAll o x o' hs).2.2.2.2.2.2.1) hb) (hr.tokens _)
  have f7 : a.layers = b.layers := (Track.folds (get := (·.layers)) (fun o x o' hs => (Pad.trackAll o x o' hs).2.2.2.2.2.2.2.1) ha).unique
    (Track.folds (get := (·.layers)) (fun o x o' hs => (Pad.trackAll o x o' hs).2.2.2.2.2.2.2.1) hb) (hr.tokens _)
  have f8 : a.property = b.property := (Track.folds (get := (·.property)) (fun o x o' hs => (Pad.trackAll o x o' hs).2.2.2.2.2.2.2.2.1) ha).unique
    (Track.folds (get := (·.property)) (fun o x o' hs => (Pad.trackAll o x o' hs).2.2.2.2.2.2.2.2.1) hb) (hr.tokens _)
  have f9 : a.removeUnusedLayers = b.removeUnusedLayers := (Track.folds (get := (·.removeUnusedLayers)) (fun o x o' hs => (Pad.trackAll o x o' hs).2.2.2.2.2.2.2.2.2.1) ha).unique
    (Track.folds (get := (·.removeUnusedLayers)) (fun o x o' hs => (Pad.trackAll o x o' hs).2.2.2.2.2.2.2.2.2.1) hb) (hr.tokens _)
  have f10 : a.keepEndLayers = b.keepEndLayers := (Track.folds (get := (·.keepEndLayers)) (fun o x o' hs => (Pad.trackAll o x o' hs).2.2.2.2.2.2.2.2.2.2.1) ha).unique
    (Track.folds (get := (·.keepEndLayers)) (fun o x o' hs => (Pad.trackAll o x o' hs).2.2.2.2.2.2.2.2.2.2.1) hb) (hr.tokens _)
  have f11 : a.roundrectRatio = b.roundrectRatio := (Track.folds (get := (·.roundrectRatio)) (fun o x o' hs => (Pad.trackAll o x o' hs).2.2.2.2.2.2.2.2.2.2.2.1) ha).unique
    (Track.folds (get := (·.roundrectRatio)) (fun o x o' hs => (Pad.trackAll o x o' hs).2.2.2.2.2.2.2.2.2.2.2.1) hb) (hr.tokens _)
  have f12 : a.chamferRatio = b.chamferRatio := (Track.folds (get := (·.chamferRatio)) (fun o x o' hs => (Pad.trackAll o x o' hs).2.2.2.2.2.2.2.2.2.2.2.2.1) ha).unique
    (Track.folds (get := (·.chamferRatio)) (fun o x o' hs => (Pad.trackAll o x o' hs).2.2.2.2.2.2.2.2.2.2.2.2.1) hb) (hr.tokens _)
  have f13 : a.chamfer = b.chamfer := (Track.folds (get := (·.chamfer)) (fun o x o' hs => (Pad.trackAll o x o' hs).2.2.2.2.2.2.2.2.2.2.2.2.2.1) ha).unique
    (Track.folds (get := (·.chamfer)) (fun o x o' hs => (Pad.trackAll o x o' hs).2.2.2.2.2.2.2.2.2.2.2.2.2.1) hb) (hr.tokens _)
  have f14 : a.net = b.net := (Track.folds (get := (·.net)) (fun o x o' hs => (Pad.trackAll o x o' hs).2.2.2.2.2.2.2.2.2.2.2.2.2.2.1) ha).unique
    (Track.folds (get := (·.net)) (fun o x o' hs => (Pad.trackAll o x o' hs).2.2.2.2.2.2.2.2.2.2.2.2.2.2.1) hb) (hr.tokens _)
  have f15 : a.tstamp = b.tstamp := (Track.folds (get := (·.tstamp)) (fun o x o' hs => (Pad.trackAll o x o' hs).2.2.2.2.2.2.2.2.2.2.2.2.2.2.2.1) ha).unique
    (Track.folds (get := (·.tstamp)) (fun o x o' hs => (Pad.trackAll o x o' hs).2.2.2.2.2.2.2.2.2.2.2.2.2.2.2.1) hb) (hr.tokens _)
  have f16 : a.pinFunction = b.pinFunction := (Track.folds (get := (·.pinFunction)) (fun o x o' hs => (Pad.trackAll o x o' hs).2.2.2.2.2.2.2.2.2.2.2.2.2.2.2.2.1) ha).unique
    (Track.folds (get := (·.pinFunction)) (fun o x o' hs => (Pad.trackAll o x o' hs).2.2.2.2.2.2.2.2.2.2.2.2.2.2.2.2.1) hb) (hr.tokens _)
  have f17 : a.pinType = b.pinType := (Track.folds (get := (·.pinType)) (fun o x o' hs => (Pad.trackAll o x o' hs).2.2.2.2.2.2.2.2.2.2.2.2.2.2.2.2.2.1) ha).unique
    (Track.folds (get := (·.pinType)) (fun o x o' hs => (Pad.trackAll o x o' hs).2.2.2.2.2.2.2.2.2.2.2.2.2.2.2.2.2.1) hb) (hr.tokens _)
  have f18 : a.dieLength = b.dieLength := (Track.folds (get := (·.dieLength)) (fun o x o' hs => (Pad.trackAll o x o' hs).2.2.2.2.2.2.2.2.2.2.2.2.2.2.2.2.2.2.1) ha).unique
    (Track.folds (get := (·.dieLength)) (fun o x o' hs => (Pad.trackAll o x o' hs).2.2.2.2.2.2.2.2.2.2.2.2.2.2.2.2.2.2.1) hb) (hr.tokens _)
  have f19 : a.solderMaskMargin = b.solderMaskMargin := (Track.folds (get := (·.solderMaskMargin)) (fun o x o' hs => (Pad.trackAll o x o' hs).2.2.2.2.2.2.2.2.2.2.2.2.2.2.2.2.2.2.2.1) ha).unique
    (Track.folds (get := (·.solderMaskMargin)) (fun o x o' hs => (Pad.trackAll o x o' hs).2.2.2.2.2.2.2.2.2.2.2.2.2.2.2.2.2.2.2.1) hb) (hr.tokens _)
  have f20 : a.solderPasteMargin = b.solderPasteMargin := (Track.folds (get := (·.solderPasteMargin)) (fun o x o' hs => (Pad.trackAll o x o' hs).2.2.2.2.2.2.2.2.2.2.2.2.2.2.2.2.2.2.2.2.1) ha).unique
    (Track.folds (get := (·.solderPasteMargin)) (fun o x o' hs => (Pad.trackAll o x o' hs).2.2.2.2.2.2.2.2.2.2.2.2.2.2.2.2.2.2.2.2.1) hb) (hr.tokens _)
  have f21 : a.solderPasteMarginRatio = b.solderPasteMarginRatio := (Track.folds (get := (·.solderPasteMarginRatio)) (fun o x o' hs => (Pad.trackAll o x o' hs).2.2.2.2.2.2.2.2.2.2.2.2.2.2.2.2.2.2.2.2.2.1) ha).unique
    (Track.folds (get := (·.solderPasteMarginRatio)) (fun o x o' hs => (Pad.trackAll o x o' hs).2.2.2.2.2.2.2.2.2.2.2.2.2.2.2.2.2.2.2.2.2.1) hb) (hr.tokens _)
  have f22 : a.clearance = b.clearance := (Track.folds (get := (·.clearance)) (fun o x o' hs => (Pad.trackAll o x o' hs).2.2.2.2.2.2.2.2.2.2.2.2.2.2.2.2.2.2.2.2.2.2.1) ha).unique
    (Track.folds (get := (·.clearance)) (fun o x o' hs => (Pad.trackAll o x o' hs).2.2.2.2.2.2.2.2.2.2.2.2.2.2.2.2.2.2.2.2.2.2.1) hb) (hr.tokens _)
  have f23 : a.zoneConnect = b.zoneConnect := (Track.folds (get := (·.zoneConnect)) (fun o x o' hs => (Pad.trackAll o x o' hs).2.2.2.2.2.2.2.2.2.2.2.2.2.2.2.2.2.2.2.2.2.2.2.1) ha).unique
    (Track.folds (get := (·.zoneConnect)) (fun o x o' hs => (Pad.trackAll o x o' hs).2.2.2.2.2.2.2.2.2.2.2.2.2.2.2.2.2.2.2.2.2.2.2.1) hb) (hr.tokens _)
  have f24 : a.thermalWidth = b.thermalWidth := (Track.folds (get := (·.thermalWidth)) (fun o x o' hs => (Pad.trackAll o x o' hs).2.2.2.2.2.2.2.2.2.2.2.2.2.2.2.2.2.2.2.2.2.2.2.2.1) ha).unique
    (Track.folds (get := (·.thermalWidth)) (fun o x o' hs => (Pad.trackAll o x o' hs).2.2.2.2.2.2.2.2.2.2.2.2.2.2.2.2.2.2.2.2.2.2.2.2.1) hb) (hr.tokens _)
  have f25 : a.thermalGap = b.thermalGap := (Track.folds (get := (·.thermalGap)) (fun o x o' hs => (Pad.trackAll o x o' hs).2.2.2.2.2.2.2.2.2.2.2.2.2.2.2.2.2.2.2.2.2.2.2.2.2.1) ha).unique
    (Track.folds (get := (·.thermalGap)) (fun o x o' hs => (Pad.trackAll o x o' hs).2.2.2.2.2.2.2.2.2.2.2.2.2.2.2.2.2.2.2.2.2.2.2.2.2.1) hb) (hr.tokens _)
  have f26 : a.customPadOptions = b.customPadOptions := (Track.folds (get := (·.customPadOptions)) (fun o x o' hs => (Pad.trackAll o x o' hs).2.2.2.2.2.2.2.2.2.2.2.2.2.2.2.2.2.2.2.2.2.2.2.2.2.2.1) ha).unique
    (Track.folds (get := (·.customPadOptions)) (fun o x o' hs => (Pad.trackAll o x o' hs).2.2.2.2.2.2.2.2.2.2.2.2.2.2.2.2.2.2.2.2.2.2.2.2.2.2.1) hb) (hr.tokens _)
  have f27 : a.customPadPrimitives = b.customPadPrimitives := (Track.folds (get := (·.customPadPrimitives)) (fun o x o' hs => (Pad.trackAll o x o' hs).2.2.2.2.2.2.2.2.2.2.2.2.2.2.2.2.2.2.2.2.2.2.2.2.2.2.2) ha).unique
    (Track.folds (get := (·.customPadPrimitives)) (fun o x o' hs => (Pad.trackAll o x o' hs).2.2.2.2.2.2.2.2.2.2.2.2.2.2.2.2.2.2.2.2.2.2.2.2.2.2.2) hb) (hr.tokens _)
  show Pad.mk a.number a.type a.shape a.position a.locked a.size a.drill a.layers a.property a.removeUnusedLayers a.keepEndLayers a.roundrectRatio a.chamferRatio a.chamfer a.net a.tstamp a.pinFunction a.pinType a.dieLength a.solderMaskMargin a.solderPasteMargin a.solderPasteMarginRatio a.clearance a.zoneConnect a.thermalWidth a.thermalGap a.customPadOptions a.customPadPrimitives =
    Pad.mk b.number b.type b.shape b.position b.locked b.size b.drill b.layers b.property b.removeUnusedLayers b.keepEndLayers b.roundrectRatio b.chamferRatio b.chamfer b.net b.tstamp b.pinFunction b.pinType b.dieLength b.solderMaskMargin b.solderPasteMargin b.solderPasteMarginRatio b.clearance b.zoneConnect b.thermalWidth b.thermalGap b.customPadOptions b.customPadPrimitives
  rw [f0, f1, f2, f3, f4, f5, f6, f7, f8, f9, f10, f11, f12, f13, f14, f15, f16, f17, f18, f19, f20, f21, f22, f23, f24, f25, f26, f27]

theorem Pad.loopEq (a1 a2 a3 : Val) (xs : List Val) :
    Pad.fromSexpr (.list (.str k!"pad" :: a1 :: a2 :: a3 :: xs)) = forM Pad.step { number := a1, type := a2, shape := a3 } (a3 :: xs) :=
  rfl

set_option maxHeartbeats 1000000 in
theorem Footprint.trackAll (o : Footprint) (x : Val) : Post (Footprint.step o x) fun o' =>
    Track (fun _ => false) (fun v _ => .ok v) x o.libraryNickname o'.libraryNickname ∧
    Track (fun _ => false) (fun v _ => .ok v) x o.entryName o'.entryName ∧
    Track (tok k!"version") (fun _ => fun i => do return some (← i.idx 1)) x o.version o'.version ∧
    Track (tok k!"generator") (fun _ => fun i => do return some (← i.idx 1)) x o.generator o'.generator ∧
    Track (wordIn [k!"locked"]) (fun _ _ => .ok true) x o.locked o'.locked ∧
    Track (wordIn [k!"placed"]) (fun _ _ => .ok true) x o.placed o'.placed ∧
    Track (tok k!"layer") (fun _ => (·.idx 1)) x o.layer o'.layer ∧
    Track (tok k!"tedit") (fun _ => (·.idx 1)) x o.tedit o'.tedit ∧
    Track (tok k!"tstamp") (fun _ => fun i => do return some (← i.idx 1)) x o.tstamp o'.tstamp ∧
    Track (tok k!"at") (fun _ => fun i => do return some (← Position.fromSexpr i)) x o.position o'.position ∧
    Track (tok k!"descr") (fun _ => fun i => do return some (← i.idx 1)) x o.description o'.description ∧
    Track (tok k!"tags") (fun _ => fun i => do return some (← i.idx 1)) x o.tags o'.tags ∧
    Track (tok k!"property") (fun acc i => do let k ← i.idx 1; let v ← i.idx 2; Dict.update acc k v) x o.properties o'.properties ∧
    Track (tok k!"path") (fun _ => fun i => do return some (← i.idx 1)) x o.path o'.path ∧
    Track (tok k!"autoplace_cost90") (fun _ => fun i => do return some (← i.idx 1)) x o.autoplaceCost90 o'.autoplaceCost90 ∧
    Track (tok k!"autoplace_cost180") (fun _ => fun i => do return some (← i.idx 1)) x o.autoplaceCost180 o'.autoplaceCost180 ∧
    Track (tok k!"solder_mask_margin") (fun _ => fun i => do return some (← i.idx 1)) x o.solderMaskMargin o'.solderMaskMargin ∧
    Track (tok k!"solder_paste_margin") (fun _ => fun i => do return some (← i.idx 1)) x o.solderPasteMargin o'.solderPasteMargin ∧
    Track (tok k!"solder_paste_ratio") (fun _ => fun i => do return some (← i.idx 1)) x o.solderPasteRatio o'.solderPasteRatio ∧
    Track (tok k!"clearance") (fun _ => fun i => do return some (← i.idx 1)) x o.clearance o'.clearance ∧
    Track (tok k!"zone_connect") (fun _ => fun i => do return some (← i.idx 1)) x o.zoneConnect o'.zoneConnect ∧
    Track (tok k!"thermal_width") (fun _ => fun i => do return some (← i.idx 1)) x o.thermalWidth o'.thermalWidth ∧
    Track (tok k!"thermal_gap") (fun _ => fun i => do return some (← i.idx 1)) x o.thermalGap o'.thermalGap ∧
    Track (tok k!"attr") (fun _ => Attributes.fromSexpr) x o.attributes o'.attributes ∧
    Track (tok k!"private_layers") (fun l i => do return l ++ (← (·.slice 1) i)) x o.privateLayers o'.privateLayers ∧
    Track (tok k!"net_tie_pad_groups") (fun l i => do return l ++ (← (·.slice 1) i)) x o.netTiePadGroups o'.netTiePadGroups ∧
    Track (tokIn [k!"fp_text", k!"fp_text_box", k!"fp_line", k!"fp_rect", k!"fp_circle", k!"fp_arc", k!"fp_poly", k!"fp_curve", k!"image"]) (fun l i => do return l ++ [← (fun i => if tok k!"fp_text" i then do return .text (← FpText.fromSexpr i) else if tok k!"fp_text_box" i then do return .textBox (← FpTextBox.fromSexpr i) else if tok k!"fp_line" i then do return .line (← FpLine.fromSexpr i) else if tok k!"fp_rect" i then do return .rect (← FpRect.fromSexpr i) else if tok k!"fp_circle" i then do return .circle (← FpCircle.fromSexpr i) else if tok k!"fp_arc" i then do return .arc (← FpArc.fromSexpr i) else if tok k!"fp_poly" i then do return .poly (← FpPoly.fromSexpr i) else if tok k!"fp_curve" i then do return .curve (← FpCurve.fromSexpr i) else do return .image (← Image.fromSexpr i)) i]) x o.graphicItems o'.graphicItems ∧
    Track (tok k!"pad") (fun l i => do return l ++ [← Pad.fromSexpr i]) x o.pads o'.pads ∧
    Track (tok k!"zone") (fun l i => do return l ++ [← Zone.fromSexpr i]) x o.zones o'.zones ∧
    Track (tok k!"group") (fun l i => do return l ++ [← Group.fromSexpr i]) x o.groups o'.groups ∧
    Track (tok k!"model") (fun l i => do return l ++ [← Model.fromSexpr i]) x o.models o'.models ∧
    Track (fun _ => false) (fun v _ => .ok v) x o.filePath o'.filePath := by
  unfold Footprint.step
  cases x <;> trackBoth

theorem Footprint.indep (o o' : Footprint) (x : Val) : Same (Footprint.step o x) (Footprint.step o' x) := by
  unfold Footprint.step
  cases x <;> same

theorem Footprint.unknown {h : Val} {r : List Val} (hu : ∀ k ∈ [k!"version", k!"generator", k!"layer", k!"tedit", k!"tstamp", k!"descr", k!"tags", k!"path", k!"at", k!"autoplace_cost90", k!"autoplace_cost180", k!"solder_mask_margin", k!"solder_paste_margin", k!"solder_paste_ratio", k!"clearance", k!"zone_connect", k!"thermal_width", k!"thermal_gap", k!"attr", k!"model", k!"fp_text", k!"fp_text_box", k!"fp_line", k!"fp_rect", k!"fp_circle", k!"fp_arc", k!"fp_poly", k!"fp_curve", k!"image", k!"pad", k!"zone", k!"property", k!"group", k!"private_layers", k!"net_tie_pad_groups", k!"dimension"], h ≠ .str k) (o : Footprint) :
    Footprint.step o (.list (h :: r)) = .ok o := by
  unfold Footprint.step
  unknownHead hu

theorem Footprint.reordered {o a b : Footprint} {xs ys : List Val} (hr : Reordered [[k!"fp_text", k!"fp_text_box", k!"fp_line", k!"fp_rect", k!"fp_circle", k!"fp_arc", k!"fp_poly", k!"fp_curve", k!"image"]] xs ys) (ha : forM Footprint.step o xs = .ok a)
    (hb : forM Footprint.step o ys = .ok b) : a = b := by
  have f0 : a.libraryNickname = b.libraryNickname := (Track.folds (get := (·.libraryNickname)) (fun o x o' hs => (Footprint.trackAll o x o' hs).1) ha).unique
    (Track.folds (get := (·.libraryNickname)) (fun o x o' hs => (Footprint.trackAll o x o' hs).1) hb) filter_never
  have f1 : a.entryName = b.entryName := (Track.folds (get := (·.entryName)) (fun o x o' hs => (Footprint.trackAll o x o' hs).2.1) ha).unique
    (Track.folds (get := (·.entryName)) (fun o x o' hs => (Footprint.trackAll o x o' hs).2.1) hb) filter_never
  have f2 : a.version = b.version := (Track.folds (get := (·.version)) (fun o x o' hs => (Footprint.trackAll o x o' hs).2.2.1) ha).unique
    (Track.folds (get := (·.version)) (fun o x o' hs => (Footprint.trackAll o x o' hs).2.2.1) hb) (hr.tokens _)
  have f3 : a.generator = b.generator := (Track.folds (get := (·.generator)) (fun o x o' hs => (Footprint.trackAll o x o' hs).2.2.2.1) ha).unique
    (Track.folds (get := (·.generator)) (fun o x o' hs => (Footprint.trackAll o x o' hs).2.2.2.1) hb) (hr.tokens _)
  have f4 : a.locked = b.locked := (Track.folds (get := (·.locked)) (fun o x o' hs => (Footprint.trackAll o x o' hs).2.2.2.2.1) ha).unique
    (Track.folds (get := (·.locked)) (fun o x o' hs => (Footprint.trackAll o x o' hs).2.2.2.2.1) hb) (hr.word _)
  have f5 : a.placed = b.placed := (Track.folds (get := (·.placed)) (fun o x o' hs => (Footprint.trackAll o x o' hs).2.2.2.2.2.1) ha).unique
    (Track.folds (get := (·.placed)) (fun o x o' hs => (Footprint.trackAll o x o' hs).2.2.2.2.2.1) hb) (hr.word _)
  have f6 : a.layer = b.layer := (Track.folds (get := (·.layer)) (fun o x o' hs => (Footprint.trackAll o x o' hs).2.2.2.2.2.2.1) ha).unique
    (Track.folds (get := (·.layer)) (fun o x o' hs => (Footprint.trackAll o x o' hs).2.2.2.2.2.2.1) hb) (hr.tokens _)
  have f7 : a.tedit = b.tedit := (Track.folds (get := (·.tedit)) (fun o x o' hs => (Footprint.trackAll o x o' hs).2.2.2.2.2.2.2.1) ha).unique
    (Track.folds (get := (·.tedit)) (fun o x o' hs => (Footprint.trackAll o x o' hs).2.2.2.2.2.2.2.1) hb) (hr.tokens _)
  have f8 : a.tstamp = b.tstamp := (Track.folds (get := (·.tstamp)) (fun o x o' hs => (Footprint.trackAll o x o' hs).2.2.2.2.2.2.2.2.1) ha).unique
    (Track.folds (get := (·.tstamp)) (fun o x o' hs => (Footprint.trackAll o x o' hs).2.2.2.2.2.2.2.2.1) hb) (hr.tokens _)
  have f9 : a.position = b.position := (Track.folds (get := (·.position)) (fun o x o' hs => (Footprint.trackAll o x o' hs).2.2.2.2.2.2.2.2.2.1) ha).unique
    (Track.folds (get := (·.position)) (fun o x o' hs => (Footprint.trackAll o x o' hs).2.2.2.2.2.2.2.2.2.1) hb) (hr.tokens _)
  have f10 : a.description = b.description := (Track.folds (get := (·.description)) (fun o x o' hs => (Footprint.trackAll o x o' hs).2.2.2.2.2.2.2.2.2.2.1) ha).unique
    (Track.folds (get := (·.description)) (fun o x o' hs => (Footprint.trackAll o x o' hs).2.2.2.2.2.2.2.2.2.2.1) hb) (hr.tokens _)
  have f11 : a.tags = b.tags := (Track.folds (get := (·.tags)) (fun o x o' hs => (Footprint.trackAll o x o' hs).2.2.2.2.2.2.2.2.2.2.2.1) ha).unique
    (Track.folds (get := (·.tags)) (fun o x o' hs => (Footprint.trackAll o x o' hs).2.2.2.2.2.2.2.2.2.2.2.1) hb) (hr.tokens _)
  have f12 : a.properties = b.properties := (Track.folds (get := (·.properties)) (fun o x o' hs => (Footprint.trackAll o x o' hs).2.2.2.2.2.2.2.2.2.2.2.2.1) ha).unique
    (Track.folds (get := (·.properties)) (fun o x o' hs => (Footprint.trackAll o x o' hs).2.2.2.2.2.2.2.2.2.2.2.2.1) hb) (hr.tokens _)
  have f13 : a.path = b.path := (Track.folds (get := (·.path)) (fun o x o' hs => (Footprint.trackAll o x o' hs).2.2.2.2.2.2.2.2.2.2.2.2.2.1) ha).unique
    (Track.folds (get := (·.path)) (fun o x o' hs => (Footprint.trackAll o x o' hs).2.2.2.2.2.2.2.2.2.2.2.2.2.1) hb) (hr.tokens _)
  have f14 : a.autoplaceCost90 = b.autoplaceCost90 := (Track.folds (get := (·.autoplaceCost90)) (fun o x o' hs => (Footprint.trackAll o x o' hs).2.2.2.2.2.2.2.2.2.2.2.2.2.2.1) ha).unique
    (Track.folds (get := (·.autoplaceCost90)) (fun o x o' hs => (Footprint.trackAll o x o' hs).2.2.2.2.2.2.2.2.2.2.2.2.2.2.1) hb) (hr.tokens _)
  have f15 : a.autoplaceCost180 = b.autoplaceCost180 := (Track.folds (get := (·.autoplaceCost180)) (fun o x o' hs => (Footprint.trackAll o x o' hs).2.2.2.2.2.2.2.2.2.2.2.2.2.2.2.1) ha).unique
    (Track.folds (get := (·.autoplaceCost180)) (fun o x o' hs => (Footprint.trackAll o x o' hs).2.2.2.2.2.2.2.2.2.2.2.2.2.2.2.1) hb) (hr.tokens _)
  have f16 : a.solderMaskMargin = b.solderMaskMargin := (Track.folds (get := (·.solderMaskMargin)) (fun o x o' hs => (Footprint.trackAll o x o' hs).2.2.2.2.2.2.2.2.2.2.2.2.2.2.2.2.1) ha).unique
    (Track.folds (get := (·.solderMaskMargin)) (fun o x o' hs => (Footprint.trackAll o x o' hs).2.2.2.2.2.2.2.2.2.2.2.2.2.2.2.2.1) hb) (hr.tokens _)
  have f17 : a.solderPasteMargin = b.solderPasteMargin := (Track.folds (get := (·.solderPasteMargin)) (fun o x o' hs => (Footprint.trackAll o x o' hs).2.2.2.2.2.2.2.2.2.2.2.2.2.2.2.2.2.1) ha).unique
    (Track.folds (get := (·.solderPasteMargin)) (fun o x o' hs => (Footprint.trackAll o x o' hs).2.2.2.2.2.2.2.2.2.2.2.2.2.2.2.2.2.1) hb) (hr.tokens _)
  have f18 : a.solderPasteRatio = b.solderPasteRatio := (Track.folds (get := (·.solderPasteRatio)) (fun o x o' hs => (Footprint.trackAll o x o' hs).2.2.2.2.2.2.2.2.2.2.2.2.2.2.2.2.2.2.1) ha).unique
    (Track.folds (get := (·.solderPasteRatio)) (fun o x o' hs => (Footprint.trackAll o x o' hs).2.2.2.2.2.2.2.2.2.2.2.2.2.2.2.2.2.2.1) hb) (hr.tokens _)
  have f19 : a.clearance = b.clearance := (Track.folds (get := (·.clearance)) (fun o x o' hs => (Footprint.trackAll o x o' hs).2.2.2.2.2.2.2.2.2.2.2.2.2.2.2.2.2.2.2.1) ha).unique
    (Track.folds (get := (·.clearance)) (fun o x o' hs => (Footprint.trackAll o x o' hs).2.2.2.2.2.2.2.2.2.2.2.2.2.2.2.2.2.2.2.1) hb) (hr.tokens _)
  have f20 : a.zoneConnect = b.zoneConnect := (Track.folds (get := (·.zoneConnect)) (fun o x o' hs => (Footprint.trackAll o x o' hs).2.2.2.2.2.2.2.2.2.2.2.2.2.2.2.2.2.2.2.2.1) ha).unique
    (Track.folds (get := (·.zoneConnect)) (fun o x o' hs => (Footprint.trackAll o x o' hs).2.2.2.2.2.2.2.2.2.2.2.2.2.2.2.2.2.2.2.2.1) hb) (hr.tokens _)
  have f21 : a.thermalWidth = b.thermalWidth := (Track.folds (get := (·.thermalWidth)) (fun o x o' hs => (Footprint.trackAll o x o' hs).2.2.2.2.2.2.2.2.2.2.2.2.2.2.2.2.2.2.2.2.2.1) ha).unique
    (Track.folds (get := (·.thermalWidth)) (fun o x o' hs => (Footprint.trackAll o x o' hs).2.2.2.2.2.2.2.2.2.2.2.2.2.2.2.2.2.2.2.2.2.1) hb) (hr.tokens _)
  have f22 : a.thermalGap = b.thermalGap := (Track.folds (get := (·.thermalGap)) (fun o x o' hs => (Footprint.trackAll o x o' hs).2.2.2.2.2.2.2.2.2.2.2.2.2.2.2.2.2.2.2.2.2.2.1) ha).unique
    (Track.folds (get := (·.thermalGap)) (fun o x o' hs => (Footprint.trackAll o x o' hs).2.2.2.2.2.2.2.2.2.2.2.2.2.2.2.2.2.2.2.2.2.2.1) hb) (hr.tokens _)
  have f23 : a.attributes = b.attributes := (Track.folds (get := (·.attributes)) (fun o x o' hs => (Footprint.trackAll o x o' hs).2.2.2.2.2.2.2.2.2.2.2.2.2.2.2.2.2.2.2.2.2.2.2.1) ha).unique
    (Track.folds (get := (·.attributes)) (fun o x o' hs => (Footprint.trackAll o x o' hs).2.2.2.2.2.2.2.2.2.2.2.2.2.2.2.2.2.2.2.2.2.2.2.1) hb) (hr.tokens _)
  have f24 : a.privateLayers = b.privateLayers := (Track.folds (get := (·.privateLayers)) (fun o x o' hs => (Footprint.trackAll o x o' hs).2.2.2.2.2.2.2.2.2.2.2.2.2.2.2.2.2.2.2.2.2.2.2.2.1) ha).unique
    (Track.folds (get := (·.privateLayers)) (fun o x o' hs => (Footprint.trackAll o x o' hs).2.2.2.2.2.2.2.2.2.2.2.2.2.2.2.2.2.2.2.2.2.2.2.2.1) hb) (hr.tokens _)
  have f25 : a.netTiePadGroups = b.netTiePadGroups := (Track.folds (get := (·.netTiePadGroups)) (fun o x o' hs => (Footprint.trackAll o x o' hs).2.2.2.2.2.2.2.2.2.2.2.2.2.2.2.2.2.2.2.2.2.2.2.2.2.1) ha).unique
    (Track.folds (get := (·.netTiePadGroups)) (fun o x o' hs => (Footprint.trackAll o x o' hs).2.2.2.2.2.2.2.2.2.2.2.2.2.2.2.2.2.2.2.2.2.2.2.2.2.1) hb) (hr.tokens _)
  have f26 : a.graphicItems = b.graphicItems := (Track.folds (get := (·.graphicItems)) (fun o x o' hs => (Footprint.trackAll o x o' hs).2.2.2.2.2.2.2.2.2.2.2.2.2.2.2.2.2.2.2.2.2.2.2.2.2.2.1) ha).unique
    (Track.folds (get := (·.graphicItems)) (fun o x o' hs => (Footprint.trackAll o x o' hs).2.2.2.2.2.2.2.2.2.2.2.2.2.2.2.2.2.2.2.2.2.2.2.2.2.2.1) hb) (hr.groups _ (by simp))
  have f27 : a.pads = b.pads := (Track.folds (get := (·.pads)) (fun o x o' hs => (Footprint.trackAll o x o' hs).2.2.2.2.2.2.2.2.2.2.2.2.2.2.2.2.2.2.2.2.2.2.2.2.2.2.2.1) ha).unique
    (Track.folds (get := (·.pads)) (fun o x o' hs => (Footprint.trackAll o x o' hs).2.2.2.2.2.2.2.2.2.2.2.2.2.2.2.2.2.2.2.2.2.2.2.2.2.2.2.1) hb) (hr.tokens _)
  have f28 : a.zones = b.zones := (Track.folds (get := (·.zones)) (fun o x o' hs => (Footprint.trackAll o x o' hs).2.2.2.2.2.2.2.2.2.2.2.2.2.2.2.2.2.2.2.2.2.2.2.2.2.2.2.2.1) ha).unique
    (Track.folds (get := (·.zones)) (fun o x o' hs => (Footprint.trackAll o x o' hs).2.2.2.2.2.2.2.2.2.2.2.2.2.2.2.2.2.2.2.2.2.2.2.2.2.2.2.2.1) hb) (hr.tokens _)
  have f29 : a.groups = b.groups := (Track.folds (get := (·.groups)) (fun o x o' hs => (Footprint.trackAll o x o' hs).2.2.2.2.2.2.2.2.2.2.2.2.2.2.2.2.2.2.2.2.2.2.2.2.2.2.2.2.2.1) ha).unique
    (Track.folds (get := (·.groups)) (fun o x o' hs => (Footprint.trackAll o x o' hs).2.2.2.2.2.2.2.2.2.2.2.2.2.2.2.2.2.2.2.2.2.2.2.2.2.2.2.2.2.1) hb) (hr.tokens _)
  have f30 : a.models = b.models := (Track.folds (get := (·.models)) (fun o x o' hs => (Footprint.trackAll o x o' hs).2.2.2.2.2.2.2.2.2.2.2.2.2.2.2.2.2.2.2.2.2.2.2.2.2.2.2.2.2.2.1) ha).unique
    (Track.folds (get := (·.models)) (fun o x o' hs => (Footprint.trackAll o x o' hs).2.2.2.2.2.2.2.2.2.2.2.2.2.2.2.2.2.2.2.2.2.2.2.2.2.2.2.2.2.2.1) hb) (hr.tokens _)
  have f31 : a.filePath = b.filePath := (Track.folds (get := (·.filePath)) (fun o x o' hs => (Footprint.trackAll o x o' hs).2.2.2.2.2.2.2.2.2.2.2.2.2.2.2.2.2.2.2.2.2.2.2.2.2.2.2.2.2.2.2) ha).unique
    (Track.folds (get := (·.filePath)) (fun o x o' hs => (Footprint.trackAll o x o' hs).2.2.2.2.2.2.2.2.2.2.2.2.2.2.2.2.2.2.2.2.2.2.2.2.2.2.2.2.2.2.2) hb) filter_never
  show Footprint.mk a.libraryNickname a.entryName a.version a.generator a.locked a.placed a.layer a.tedit a.tstamp a.position a.description a.tags a.properties a.path a.autoplaceCost90 a.autoplaceCost180 a.solderMaskMargin a.solderPasteMargin a.solderPasteRatio a.clearance a.zoneConnect a.thermalWidth a.thermalGap a.attributes a.privateLayers a.netTiePadGroups a.graphicItems a.pads a.zones a.groups a.models a.filePath =
    Footprint.mk b.libraryNickname b.entryName b.version b.generator b.locked b.placed b.layer b.tedit b.tstamp b.position b.description b.tags b.properties b.path b.autoplaceCost90 b.autoplaceCost180 b.solderMaskMargin b.solderPasteMargin b.solderPasteRatio b.clearance b.zoneConnect b.thermalWidth b.thermalGap b.attributes b.privateLayers b.netTiePadGroups b.graphicItems b.pads b.zones b.groups b.models b.filePath
  rw [f0, f1, f2, f3, f4, f5, f6, f7, f8, f9, f10, f11, f12, f13, f14, f15, f16, f17, f18, f19, f20, f21, f22, f23, f24, f25, f26, f27, f28, f29, f30, f31]

theorem Footprint.loopEq (tedit : Val) {hd : Str} (id : Val) (hh : hd = k!"module" ∨ hd = k!"footprint") (xs : List Val) :
    Footprint.fromSexpr tedit (.list (.str hd :: id :: xs)) = forM Footprint.step { tedit := tedit, libraryNickname := (Footprint.setLibId { tedit := tedit } id).libraryNickname, entryName := (Footprint.setLibId { tedit := tedit } id).entryName } xs :=
  by rcases hh with rfl | rfl <;> (rw [← Footprint.setLibId_eq]; rfl)

end Kiutils
