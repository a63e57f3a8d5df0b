import Verif.Model.Dimensions
import Verif.Format.GrItems
import Verif.Format.Req
/-!
# Dimensions: values and well-formedness
-/
namespace Kiutils

def DimensionFormat.toVal (o : DimensionFormat) : Val :=
  .list ([.str k!"format"] ++ (optL o.«prefix» fun v => [.list [.str k!"prefix", v.canon]]) ++
    (optL o.suffix fun v => [.list [.str k!"suffix", v.canon]]) ++
    [.list [.str k!"units", o.units.canon], .list [.str k!"units_format", o.unitsFormat.canon], .list [.str k!"precision", o.precision.canon]] ++
    (optL o.overrideValue fun v => [.list [.str k!"override_value", v.canon]]) ++
    ifL o.suppressZeroes [.str k!"suppress_zeroes"])

structure DimensionFormat.WF [TextRule] (o : DimensionFormat) : Prop where
  «prefix» : ∀ v, o.«prefix» = some v → TextOk v
  suffix : ∀ v, o.suffix = some v → TextOk v
  units : NumOk o.units
  unitsFormat : NumOk o.unitsFormat
  precision : NumOk o.precision
  overrideValue : ∀ v, o.overrideValue = some v → TextOk v

def DimensionStyle.toVal (o : DimensionStyle) : Val :=
  .list ([.str k!"style", .list [.str k!"thickness", o.thickness.canon], .list [.str k!"arrow_length", o.arrowLength.canon], .list [.str k!"text_position_mode", o.textPositionMode.canon]] ++
    (optL o.extensionHeight fun v => [.list [.str k!"extension_height", v.canon]]) ++
    (optL o.textFrame fun v => [.list [.str k!"text_frame", v.canon]]) ++
    (optL o.extensionOffset fun v => [.list [.str k!"extension_offset", v.canon]]) ++
    ifL o.keepTextAligned [.str k!"keep_text_aligned"])

structure DimensionStyle.WF (o : DimensionStyle) : Prop where
  thickness : NumOk o.thickness
  arrowLength : NumOk o.arrowLength
  textPositionMode : NumOk o.textPositionMode
  extensionHeight : ∀ v, o.extensionHeight = some v → NumOk v
  textFrame : ∀ v, o.textFrame = some v → NumOk v
  extensionOffset : ∀ v, o.extensionOffset = some v → NumOk v

def Dimension.toVal (o : Dimension) : Val :=
  .list ([.str k!"dimension", .list [.str k!"type", o.type.canon], .list [.str k!"layer", o.layer.canon], .list [.str k!"tstamp", optCanon o.tstamp], .list (.str k!"pts" :: o.pts.map (Position.toValXY k!"xy"))] ++
    (optL o.height fun v => [.list [.str k!"height", v.canon]]) ++
    (optL o.orientation fun v => [.list [.str k!"orientation", v.canon]]) ++
    (optL o.leaderLength fun v => [.list [.str k!"leader_length", v.canon]]) ++ (optL o.grText fun v => [v.toVal]) ++
    (optL o.format fun v => [v.toVal]) ++ [o.style.toVal])

structure Dimension.WF [TextRule] (o : Dimension) : Prop where
  type : AtomOk o.type
  layer : RawOk o.layer
  tstamp : ReqOk AtomOk o.tstamp
  pts : ∀ v ∈ o.pts, v.WFXY
  height : ∀ v, o.height = some v → NumOk v
  orientation : ∀ v, o.orientation = some v → NumOk v
  leaderLength : ∀ v, o.leaderLength = some v → NumOk v
  grText : ∀ v, o.grText = some v → v.WF
  format : ∀ v, o.format = some v → v.WF
  style : o.style.WF
  /-- the flag is not written -/
  unlocked : o.locked = false
  /-- otherwise `to_sexpr` raises -/
  nonempty : o.pts ≠ []

end Kiutils
