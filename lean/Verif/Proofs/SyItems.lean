import Verif.Format.SyItems
import Verif.Proofs.Common
/-!
# Graphic items of symbols: the text denotes `toVal`, `from_sexpr` reads `toVal`
-/
namespace Kiutils

seal Position.fromSexpr Stroke.fromSexpr Fill.fromSexpr Effects.fromSexpr Property.fromSexpr

theorem SyArc.lx [TextRule] {o : SyArc} (h : o.WF) {i nl s t} (hs : s ⇛ t) :
    (o.toSexpr i nl ++ s) ⇛ toks o.toVal ++ t := by
  obtain ⟨h1, h2, h3, h4, h5⟩ := h
  simp only [toSexpr, toVal]
  lxNorm
  lxAuto

macro_rules | `(tactic| lxObj) => `(tactic| ((with_reducible refine SyArc.lx ?_ ?_); (· wf)))

theorem SyArc.from_toVal [TextRule] {o : SyArc} (h : o.WF) : SyArc.fromSexpr o.toVal = .ok (canon o) := by
  simp only [toVal, fromSexpr]
  foStart
  foSkip
  fldF priv
  fld start using Position.from_toVal h.start rfl
  fld mid using Position.from_toVal h.mid rfl
  fld «end» using Position.from_toVal h.end rfl
  fld stroke using Stroke.from_toVal h.stroke
  fld fill using Fill.from_toVal h.fill
  rfl

seal SyArc.fromSexpr

theorem SyCircle.lx [TextRule] {o : SyCircle} (h : o.WF) {i nl s t} (hs : s ⇛ t) :
    (o.toSexpr i nl ++ s) ⇛ toks o.toVal ++ t := by
  obtain ⟨h1, h2, h3, h4⟩ := h
  simp only [toSexpr, toVal]
  lxNorm
  lxAuto

macro_rules | `(tactic| lxObj) => `(tactic| ((with_reducible refine SyCircle.lx ?_ ?_); (· wf)))

theorem SyCircle.from_toVal [TextRule] {o : SyCircle} (h : o.WF) : SyCircle.fromSexpr o.toVal = .ok (canon o) := by
  simp only [toVal, fromSexpr]
  foStart
  foSkip
  fldF priv
  fld center using Position.from_toValXY h.center rfl
  fld radius
  fld stroke using Stroke.from_toVal h.stroke
  fld fill using Fill.from_toVal h.fill
  rfl

seal SyCircle.fromSexpr

theorem SyPolyLine.lx [TextRule] {o : SyPolyLine} (h : o.WF) {i nl s t} (hs : s ⇛ t) :
    (o.toSexpr i nl ++ s) ⇛ toks o.toVal ++ t := by
  obtain ⟨h1, h2, h3⟩ := h
  simp only [toSexpr, toVal]
  lxNorm
  lxAuto

macro_rules | `(tactic| lxObj) => `(tactic| ((with_reducible refine SyPolyLine.lx ?_ ?_); (· wf)))

theorem SyPolyLine.from_toVal [TextRule] {o : SyPolyLine} (h : o.WF) : SyPolyLine.fromSexpr o.toVal = .ok (canon o) := by
  simp only [toVal, fromSexpr]
  foStart
  foSkip
  refine fo_setB (fun o v => { o with points := v }) (mapM'_map fun p hp => Position.from_toValXY (h.points p hp) rfl) rfl ?_
  fld stroke using Stroke.from_toVal h.stroke
  fld fill using Fill.from_toVal h.fill
  rfl

seal SyPolyLine.fromSexpr

theorem SyRect.lx [TextRule] {o : SyRect} (h : o.WF) {i nl s t} (hs : s ⇛ t) :
    (o.toSexpr i nl ++ s) ⇛ toks o.toVal ++ t := by
  obtain ⟨h1, h2, h3, h4⟩ := h
  simp only [toSexpr, toVal]
  lxNorm
  lxAuto

macro_rules | `(tactic| lxObj) => `(tactic| ((with_reducible refine SyRect.lx ?_ ?_); (· wf)))

theorem SyRect.from_toVal [TextRule] {o : SyRect} (h : o.WF) : SyRect.fromSexpr o.toVal = .ok (canon o) := by
  simp only [toVal, fromSexpr]
  foStart
  foSkip
  fldF priv
  fld start using Position.from_toValXY h.start rfl
  fld «end» using Position.from_toValXY h.end rfl
  fld stroke using Stroke.from_toVal h.stroke
  fld fill using Fill.from_toVal h.fill
  rfl

seal SyRect.fromSexpr

theorem SyText.lx [TextRule] {o : SyText} (h : o.WF) {i nl s t} (hs : s ⇛ t) :
    (o.toSexpr i nl ++ s) ⇛ toks o.toVal ++ t := by
  obtain ⟨h1, h2, h3⟩ := h
  simp only [toSexpr, toVal]
  lxNorm
  lxAuto

macro_rules | `(tactic| lxObj) => `(tactic| ((with_reducible refine SyText.lx ?_ ?_); (· wf)))

theorem SyText.from_toVal [TextRule] {o : SyText} (h : o.WF) : SyText.fromSexpr o.toVal = .ok (canon o) := by
  simp only [toVal, fromSexpr]
  foStart
  fld position using Position.from_toVal h.position rfl
  fld effects using Effects.from_toVal h.effects
  rfl

seal SyText.fromSexpr

theorem SyTextBox.lx [TextRule] {o : SyTextBox} (h : o.WF) {i nl s t} (hs : s ⇛ t) :
    (o.toSexpr i nl ++ s) ⇛ toks o.toVal ++ t := by
  obtain ⟨h1, h2, h3, h4, h5, h6, h7⟩ := h
  simp only [toSexpr, toVal]
  lxNorm
  lxAuto

macro_rules | `(tactic| lxObj) => `(tactic| ((with_reducible refine SyTextBox.lx ?_ ?_); (· wf)))

theorem SyTextBox.from_toVal [TextRule] {o : SyTextBox} (h : o.WF) : SyTextBox.fromSexpr o.toVal = .ok (canon o) := by
  have key : ∀ (p : Bool) (t : Val), forM SyTextBox.step { priv := p, text := t }
      ([o.position.toVal k!"at", o.size.toValXY k!"size", o.stroke.toVal, o.fill.toVal, o.effects.toVal] ++
        (optL o.uuid fun v => [.list [.str k!"uuid", v.canon]])) = .ok { canon o with priv := p, text := t } := by
    intro p t
    foStart
    fld position using Position.from_toVal h.position rfl
    fld size using Position.from_toValXY h.size rfl
    fld stroke using Stroke.from_toVal h.stroke
    fld fill using Fill.from_toVal h.fill
    fld effects using Effects.from_toVal h.effects
    fldO uuid
    rfl
  have ht : o.text.canon.isList = false := by have := h.text; cases ht : o.text <;> simp_all [TextOk, Val.canon, Val.isList]
  simp only [toVal, fromSexpr]
  cases hp : o.priv with
  | true =>
    simp only [ifL, if_true, List.cons_append, List.nil_append, checkHead_ok, getI1, getI2]
    refine (if_pos rfl).trans ?_
    rw [if_neg (by simp [ht])]
    exact (key true o.text.canon).trans (by simp only [canon, hp]; rfl)
  | false =>
    simp only [ifL, if_false, List.cons_append, List.nil_append, checkHead_ok, getI1, Bool.false_eq_true]
    have e := (key false o.text.canon).trans (by simp only [canon, hp]; rfl : _ = Except.ok (canon o))
    split
    · exact e
    · exact e

seal SyTextBox.fromSexpr

theorem SyItem.lx [TextRule] {o : SyItem} (h : o.WF) {i s t} (hs : s ⇛ t) : (o.toSexpr i ++ s) ⇛ toks o.toVal ++ t := by
  cases o with
  | arc o => exact SyArc.lx h hs
  | circle o => exact SyCircle.lx h hs
  | curve o => exact False.elim h
  | polyline o => exact SyPolyLine.lx h hs
  | rect o => exact SyRect.lx h hs
  | text o => exact SyText.lx h hs
  | textBox o => exact SyTextBox.lx h hs

macro_rules | `(tactic| lxObj) => `(tactic| ((with_reducible refine SyItem.lx ?_ ?_); (· wf)))

end Kiutils
