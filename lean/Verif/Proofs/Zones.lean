import Verif.Format.Zones
import Verif.Proofs.Common
/-!
# Zones: the text denotes `toVal`, `from_sexpr` reads `toVal`
-/
namespace Kiutils

seal Position.fromSexpr

theorem KeepoutSettings.lx [TextRule] {o : KeepoutSettings} (h : o.WF) {i nl s t} (hs : s ⇛ t) :
    (o.toSexpr i nl ++ s) ⇛ toks o.toVal ++ t := by
  obtain ⟨h1, h2, h3, h4, h5⟩ := h
  simp only [toSexpr, toVal]
  lxNorm
  lxAuto

macro_rules | `(tactic| lxObj) => `(tactic| ((with_reducible refine KeepoutSettings.lx ?_ ?_); (· wf)))

theorem KeepoutSettings.from_toVal [TextRule] {o : KeepoutSettings} (h : o.WF) : KeepoutSettings.fromSexpr o.toVal = .ok (canon o) := by
  simp only [toVal, fromSexpr]
  foStart
  foSkip
  fld tracks
  fld vias
  fld pads
  fld copperpour
  fld footprints
  rfl

seal KeepoutSettings.fromSexpr

theorem FillSettings.lx [TextRule] {o : FillSettings} (h : o.WF) {i nl s t} (hs : s ⇛ t) :
    (o.toSexpr i nl ++ s) ⇛ toks o.toVal ++ t := by
  obtain ⟨h1, h2, h3, h4, h5, h6, h7, h8, h9, h10, h11, h12, h13, h14⟩ := h
  simp only [toSexpr, toVal]
  lxNorm
  lxAuto

macro_rules | `(tactic| lxObj) => `(tactic| ((with_reducible refine FillSettings.lx ?_ ?_); (· wf)))

theorem FillSettings.from_toVal [TextRule] {o : FillSettings} (h : o.WF) : FillSettings.fromSexpr o.toVal = .ok (canon o) := by
  simp only [toVal, fromSexpr]
  foStart
  foSkip
  fldF yes
  dsimp only
  fldO mode
  dsimp only
  fldR thermalGap k!"thermal_gap" h.thermalGap
  dsimp only
  fldR thermalBridgeWidth k!"thermal_bridge_width" h.thermalBridgeWidth
  dsimp only
  fldO smoothingStyle
  dsimp only
  fldO smoothingRadius
  dsimp only
  fldO islandRemovalMode
  dsimp only
  fldO islandAreaMin
  dsimp only
  fldO hatchThickness
  dsimp only
  fldO hatchGap
  dsimp only
  fldO hatchOrientation
  dsimp only
  fldO hatchSmoothingLevel
  dsimp only
  fldO hatchSmoothingValue
  dsimp only
  fldO hatchBorderAlgorithm
  dsimp only
  fldO hatchMinHoleArea
  rfl

seal FillSettings.fromSexpr

theorem ZonePolygon.lx [TextRule] {o : ZonePolygon} (h : o.WF) {i nl s t} (hs : s ⇛ t) :
    (o.toSexpr i nl ++ s) ⇛ toks o.toVal ++ t := by
  obtain ⟨h1, h2⟩ := h
  simp only [toSexpr, toVal, h2, Bool.false_eq_true, if_false]
  lxNorm
  lxAuto

macro_rules | `(tactic| lxObj) => `(tactic| ((with_reducible refine ZonePolygon.lx ?_ ?_); (· wf)))

theorem ZonePolygon.from_toVal [TextRule] {o : ZonePolygon} (h : o.WF) : ZonePolygon.fromSexpr o.toVal = .ok (canon o) := by
  simp only [toVal, fromSexpr]
  foStart
  foSkip
  refine fo_setB (fun o v => { o with coordinates := v }) (mapM'_map fun p hp => Position.from_toValXY (h.coordinates p hp) rfl) rfl ?_
  rfl

seal ZonePolygon.fromSexpr

theorem FilledPolygon.lx [TextRule] {o : FilledPolygon} (h : o.WF) {i nl s t} (hs : s ⇛ t) :
    (o.toSexpr i nl ++ s) ⇛ toks o.toVal ++ t := by
  obtain ⟨h1, h2, h3⟩ := h
  simp only [toSexpr, toVal, h3, Bool.false_eq_true, if_false]
  lxNorm
  lxAuto

macro_rules | `(tactic| lxObj) => `(tactic| ((with_reducible refine FilledPolygon.lx ?_ ?_); (· wf)))

theorem FilledPolygon.from_toVal [TextRule] {o : FilledPolygon} (h : o.WF) : FilledPolygon.fromSexpr o.toVal = .ok (canon o) := by
  simp only [toVal, fromSexpr]
  foStart
  foSkip
  fld layer
  fldF island
  refine fo_setB (fun o v => { o with coordinates := v }) (mapM'_map fun p hp => Position.from_toValXY (h.coordinates p hp) rfl) rfl ?_
  rfl

seal FilledPolygon.fromSexpr

theorem FillSegments.lx [TextRule] {o : FillSegments} (h : o.WF) {i nl s t} (hs : s ⇛ t) :
    (o.toSexpr i nl ++ s) ⇛ toks o.toVal ++ t := by
  obtain ⟨h1, h2, h3⟩ := h
  simp only [toSexpr, toVal, h3, Bool.false_eq_true, if_false]
  lxNorm
  lxAuto

macro_rules | `(tactic| lxObj) => `(tactic| ((with_reducible refine FillSegments.lx ?_ ?_); (· wf)))

theorem FillSegments.from_toVal [TextRule] {o : FillSegments} (h : o.WF) : FillSegments.fromSexpr o.toVal = .ok (canon o) := by
  simp only [toVal, fromSexpr]
  foStart
  foSkip
  fld layer
  refine fo_setB (fun o v => { o with coordinates := v }) (mapM'_map fun p hp => Position.from_toValXY (h.coordinates p hp) rfl) rfl ?_
  rfl

seal FillSegments.fromSexpr

theorem Zone.step_layers {o : Zone} (l : List Val) (h : o.layers = []) :
    Zone.step o (.list (.str (Zone.layerKey l) :: l.map Val.canon)) = .ok { o with layers := l.map Val.canon } := by
  have : Zone.layerKey l = k!"layer" ∨ Zone.layerKey l = k!"layers" := by
    match l with
    | [] => exact .inr rfl
    | [a] => simp only [layerKey]; split <;> simp
    | _ :: _ :: _ => exact .inr rfl
  obtain ⟨_, _, _, layers⟩ := o
  simp only at h
  subst h
  rcases this with e | e <;> rw [e] <;> rfl

theorem Zone.from_toVal [TextRule] {o : Zone} (h : o.WF) : Zone.fromSexpr o.toVal = .ok (canon o) := by
  simp only [toVal, fromSexpr]
  foStart
  foSkip
  fldF locked
  dsimp only
  fld net
  dsimp only
  fld netName
  dsimp only
  refine fo_set (fun p v => { p with layers := v }) (o.layers.map Val.canon) (Zone.step_layers _ rfl) ?_
  dsimp only
  fldO tstamp
  dsimp only
  fldO name
  dsimp only
  refine fo_set (fun p v => { p with hatch := v }) (canon o.hatch) (by rfl) ?_
  dsimp only
  fldO priority
  dsimp only
  refine fo_set (fun p (v : Option Val × Val) => { p with connectPads := v.1, clearance := v.2 }) (canon o.connectPads, o.clearance.canon) (by cases o.connectPads <;> rfl) ?_
  dsimp only
  fld minThickness
  dsimp only
  fldO filledAreasThickness
  dsimp only
  fldO keepoutSettings using (fun a ha => KeepoutSettings.from_toVal (h.keepoutSettings a ha))
  dsimp only
  fldO fillSettings using (fun a ha => FillSettings.from_toVal (h.fillSettings a ha))
  dsimp only
  fldL polygons using (fun a ha => ZonePolygon.from_toVal (h.polygons a ha))
  dsimp only
  fldL filledPolygons using (fun a ha => FilledPolygon.from_toVal (h.filledPolygons a ha))
  dsimp only
  fldO fillSegments using (fun a ha => FillSegments.from_toVal (h.fillSegments a ha))
  rfl

seal Zone.fromSexpr

theorem Zone.layerToken_eq {l : List Val} (h : l ≠ []) :
    Zone.layerToken l = .ok (' ' :: '(' :: (kw (Zone.layerKey l) ++ ((forS l fun l => py!" \"{dq l}\"") ++ [')']))) := by
  match l with
  | [] => exact absurd rfl h
  | [a] =>
    simp only [layerKey, layerToken]
    split <;> rfl
  | _ :: _ :: _ => rfl

theorem Zone.isKeyword_layerKey (l : List Val) : isKeyword (Zone.layerKey l) = true := by
  match l with
  | [] => rfl
  | [a] => simp only [layerKey]; split <;> rfl
  | _ :: _ :: _ => rfl

theorem Zone.lexes [TextRule] {o : Zone} (h : o.WF) (i nl) : Lexes (o.toSexpr i nl) [o.toVal] := by
  obtain ⟨h1, h2, h3, h4, h5, h6, h7, h8, h9, h10, h11, h12, h13, h14, h15, h16, h17, h18⟩ := h
  refine ⟨_, by rw [toSexpr, Zone.layerToken_eq h18]; rfl, fun s t hs => ?_⟩
  have hk := isKeyword_layerKey o.layers
  simp only [toVal]
  generalize layerKey o.layers = K at hk ⊢
  lxNorm
  lxAuto
  refine lx_kw hk ?_ ?_
  · delim
  lxAuto

end Kiutils
