import Verif.Format.Dimensions
import Verif.Proofs.GrItems
/-!
# Dimensions: the text denotes `toVal`, `from_sexpr` reads `toVal`
-/
namespace Kiutils

seal Position.fromSexpr GrText.fromSexpr

theorem DimensionFormat.lx [TextRule] {o : DimensionFormat} (h : o.WF) {i nl s t} (hs : s ⇛ t) :
    (o.toSexpr i nl ++ s) ⇛ toks o.toVal ++ t := by
  obtain ⟨h1, h2, h3, h4, h5, h6⟩ := h
  simp only [toSexpr, toVal]
  lxNorm
  lxAuto

macro_rules | `(tactic| lxObj) => `(tactic| ((with_reducible refine DimensionFormat.lx ?_ ?_); (· wf)))

theorem DimensionFormat.from_toVal [TextRule] {o : DimensionFormat} (h : o.WF) : DimensionFormat.fromSexpr o.toVal = .ok (canon o) := by
  simp only [toVal, fromSexpr]
  foStart
  fldO «prefix»
  fldO suffix
  fld units
  fld unitsFormat
  fld precision
  fldO overrideValue
  fldF suppressZeroes
  rfl

seal DimensionFormat.fromSexpr

theorem DimensionStyle.lx [TextRule] {o : DimensionStyle} (h : o.WF) {i nl s t} (hs : s ⇛ t) :
    (o.toSexpr i nl ++ s) ⇛ toks o.toVal ++ t := by
  obtain ⟨h1, h2, h3, h4, h5, h6⟩ := h
  simp only [toSexpr, toVal]
  lxNorm
  lxAuto

macro_rules | `(tactic| lxObj) => `(tactic| ((with_reducible refine DimensionStyle.lx ?_ ?_); (· wf)))

theorem DimensionStyle.from_toVal [TextRule] {o : DimensionStyle} (h : o.WF) : DimensionStyle.fromSexpr o.toVal = .ok (canon o) := by
  simp only [toVal, fromSexpr]
  foStart
  fld thickness
  fld arrowLength
  fld textPositionMode
  fldO extensionHeight
  fldO textFrame
  fldO extensionOffset
  fldF keepTextAligned
  rfl

seal DimensionStyle.fromSexpr

theorem Dimension.from_toVal [TextRule] {o : Dimension} (h : o.WF) : Dimension.fromSexpr o.toVal = .ok (canon o) := by
  have hu := h.unlocked
  simp only [toVal, fromSexpr]
  foStart
  fld type
  dsimp only
  fld layer
  dsimp only
  fldR tstamp k!"tstamp" h.tstamp
  dsimp only
  refine fo_setB (fun o v => { o with pts := v }) (mapM'_map fun p hp => Position.from_toValXY (h.pts p hp) rfl) rfl ?_
  dsimp only
  fldO height
  dsimp only
  fldO orientation
  dsimp only
  fldO leaderLength
  dsimp only
  fldO grText using (fun a ha => GrText.from_toVal (h.grText a ha))
  dsimp only
  fldO format using (fun a ha => DimensionFormat.from_toVal (h.format a ha))
  dsimp only
  fld style using DimensionStyle.from_toVal h.style
  rw [fo_end]
  refine congrArg Except.ok ?_
  dsimp only
  simp only [canon, hu]
  rfl

seal Dimension.fromSexpr

theorem Dimension.lexes [TextRule] {o : Dimension} (h : o.WF) (i nl) : Lexes (o.toSexpr i nl) [o.toVal] := by
  obtain ⟨h1, h2, h3, h4, h5, h6, h7, h8, h9, h10, h11, h12⟩ := h
  have he : (forS o.pts fun p => py!" (xy {p.X.pyStr} {p.Y.pyStr})").isEmpty = false := by
    cases hp : o.pts with
    | nil => exact absurd hp h12
    | cons a l => rfl
  refine ⟨_, by rw [toSexpr]; exact if_neg (by rw [he]; exact Bool.false_ne_true), fun s t hs => ?_⟩
  simp only [toVal]
  lxNorm
  lxAuto

end Kiutils
