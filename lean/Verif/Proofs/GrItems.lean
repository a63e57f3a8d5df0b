import Verif.Format.GrItems
import Verif.Proofs.Common
/-!
# Graphic items of boards: the text denotes `toVal`, `from_sexpr` reads `toVal`
-/
namespace Kiutils

seal Position.fromSexpr Stroke.fromSexpr Effects.fromSexpr RenderCache.fromSexpr

theorem GrText.lx [TextRule] {o : GrText} (h : o.WF) {i nl s t} (hs : s ⇛ t) :
    (o.toSexpr i nl ++ s) ⇛ toks o.toVal ++ t := by
  obtain ⟨h1, h2, h3, h4, h5, h6, h7, h8⟩ := h
  simp only [toSexpr, toVal, h8, ifS_false]
  lxNorm
  lxAuto

macro_rules | `(tactic| lxObj) => `(tactic| ((with_reducible refine GrText.lx ?_ ?_); (· wf)))

theorem GrText.from_toVal [TextRule] {o : GrText} (h : o.WF) : GrText.fromSexpr o.toVal = .ok (canon o) := by
  obtain ⟨text, knockout, position, layer, effects, tstamp, locked, renderCache⟩ := o
  obtain ⟨h1, h2, h3, h4, h5, h6, h7, h8⟩ := h
  simp only at h1 h2 h3 h4 h5 h6 h7 h8
  subst h8
  simp only [toVal, fromSexpr]
  foStart
  fld position using Position.from_toVal h2 rfl
  cases layer with
  | none =>
    have := h7 rfl
    subst this
    simp only [optL_none, List.nil_append]
    fldO tstamp
    fld effects using Effects.from_toVal h5
    fldO renderCache using (fun a ha => RenderCache.from_toVal (h6 a ha))
    rfl
  | some l =>
    refine fo_set (fun o v => { o with layer := some v, knockout := knockout }) l.canon (by cases knockout <;> rfl) ?_
    fldO tstamp
    fld effects using Effects.from_toVal h5
    fldO renderCache using (fun a ha => RenderCache.from_toVal (h6 a ha))
    rfl

seal GrText.fromSexpr

theorem GrTextBox.ok [TextRule] {o : GrTextBox} (h : o.WF) :
    (isOblique o.angle && o.pts.length != 4) = false ∧
    (isRight o.angle && (o.start.isNone || o.«end».isNone)) = false := by
  obtain ⟨_, _, _, _, _, _, _, _, _, _, h11, h12, h13⟩ := h
  constructor
  · cases ha : o.angle with
    | none => rfl
    | some a =>
      cases hc : isCardinal a with
      | true => simp [hc, isOblique]
      | false =>
        rcases h11 with h | ⟨_, _, _, _, h⟩
        · exact absurd h (h12 a ha hc)
        · simp [h]
  · have : isRight o.angle = true → o.start ≠ none ∧ o.«end» ≠ none := by
      intro hm
      refine h13 fun a ha => ?_
      rw [ha] at hm
      exact hm
    revert this
    generalize isRight o.angle = b
    intro this
    cases b with
    | false => rfl
    | true =>
      obtain ⟨p, q⟩ := this rfl
      rw [Bool.true_and]
      cases hs : o.start with
      | none => exact absurd hs p
      | some a => cases he : o.«end» with
        | none => exact absurd he q
        | some b => rfl

theorem GrTextBox.lexes [TextRule] {o : GrTextBox} (h : o.WF) (i nl) : Lexes (o.toSexpr i nl) [o.toVal] := by
  obtain ⟨e1, e2⟩ := GrTextBox.ok h
  refine ⟨_, by rw [toSexpr, e1, e2]; rfl, fun s t hs => ?_⟩
  clear e1 e2
  obtain ⟨locked, text, start, «end», pts, angle, layer, tstamp, effects, stroke, renderCache⟩ := o
  obtain ⟨h1, h2, h3, h4, h5, h6, h7, h8, h9, h10, h11, h12, h13⟩ := h
  simp only at h1 h2 h3 h4 h5 h6 h7 h8 h9 h10 h11 h12 h13
  clear h12 h13
  rcases h11 with rfl | ⟨a, b, c, d, rfl⟩
  · simp only [toVal, List.isEmpty_nil, Bool.not_true, ifL_false]
    lxNorm
    lxAuto
  · have ha : a.WFXY := h2 a (by simp)
    have hb : b.WFXY := h2 b (by simp)
    have hc : c.WFXY := h2 c (by simp)
    have hd : d.WFXY := h2 d (by simp)
    simp only [toVal, List.isEmpty_cons, Bool.not_false, List.map_cons, List.map_nil, ifL_true]
    lxNorm
    lxAuto

theorem GrTextBox.from_loop [TextRule] {o o1 : GrTextBox} (h : o.WF) (h1 : o1 = { locked := o.locked, text := o.text.canon }) :
    forM GrTextBox.step o1 (ifL (!o.pts.isEmpty) [.list (.str k!"pts" :: o.pts.map (Position.toValXY k!"xy"))] ++
    (optL o.start fun v => [v.toValXY k!"start"]) ++ (optL o.«end» fun v => [v.toValXY k!"end"]) ++
    (optL o.angle fun v => [.list [.str k!"angle", v.canon]]) ++ [.list [.str k!"layer", o.layer.canon]] ++
    (optL o.tstamp fun v => [.list [.str k!"tstamp", v.canon]]) ++ (optL o.effects fun v => [v.toVal]) ++
    (optL o.stroke fun v => [v.toVal]) ++ (optL o.renderCache fun v => [v.toVal])) = .ok (canon o) := by
  subst h1
  foStart
  fldM pts using (fun p hp => Position.from_toValXY (h.pts p hp) rfl)
  fldO start using (fun a ha => Position.from_toValXY (h.start a ha) rfl)
  fldO «end» using (fun a ha => Position.from_toValXY (h.end a ha) rfl)
  fldO angle
  fld layer
  fldO tstamp
  fldO effects using (fun a ha => Effects.from_toVal (h.effects a ha))
  fldO stroke using (fun a ha => Stroke.from_toVal (h.stroke a ha))
  fldO renderCache using (fun a ha => RenderCache.from_toVal (h.renderCache a ha))
  rfl

theorem GrTextBox.first_isList {o : GrTextBox} : ∃ y r, ifL (!o.pts.isEmpty) [.list (.str k!"pts" :: o.pts.map (Position.toValXY k!"xy"))] ++
    (optL o.start fun v => [v.toValXY k!"start"]) ++ (optL o.«end» fun v => [v.toValXY k!"end"]) ++
    (optL o.angle fun v => [.list [.str k!"angle", v.canon]]) ++ [.list [.str k!"layer", o.layer.canon]] ++
    (optL o.tstamp fun v => [.list [.str k!"tstamp", v.canon]]) ++ (optL o.effects fun v => [v.toVal]) ++
    (optL o.stroke fun v => [v.toVal]) ++ (optL o.renderCache fun v => [v.toVal]) = .list y :: r := by
  cases o.pts with
  | cons a l => exact ⟨_, _, rfl⟩
  | nil => cases o.start with
    | some a => exact ⟨_, _, rfl⟩
    | none => cases o.«end» with
      | some a => exact ⟨_, _, rfl⟩
      | none => cases o.angle with
        | some a => exact ⟨_, _, rfl⟩
        | none => exact ⟨_, _, rfl⟩

theorem GrTextBox.from_toVal [TextRule] {o : GrTextBox} (h : o.WF) : GrTextBox.fromSexpr o.toVal = .ok (canon o) := by
  cases hl : o.locked with
  | true =>
    have := GrTextBox.from_loop h (o1 := { locked := true, text := o.text.canon }) (by rw [hl])
    rw [← this]
    simp only [toVal, hl, ifL_true, List.append_assoc, List.cons_append, List.nil_append]
    have ht := h.text
    cases htt : o.text with
    | str w => rfl
    | _ => rw [htt] at ht; exact False.elim ht
  | false =>
    have := GrTextBox.from_loop h (o1 := { text := o.text.canon }) (by rw [hl])
    rw [← this]
    simp only [toVal, hl, ifL_false, List.append_assoc, List.cons_append, List.nil_append]
    obtain ⟨y, r, he⟩ := GrTextBox.first_isList (o := o)
    simp only [List.append_assoc, List.cons_append, List.nil_append] at he
    rw [he]
    cases hk : o.text.canon.is k!"locked" with
    | true => simp only [fromSexpr, hk, if_true]; rfl
    | false => simp only [fromSexpr, hk, Bool.false_eq_true, if_false]; rfl

seal GrTextBox.fromSexpr

theorem GrLine.lx [TextRule] {o : GrLine} (h : o.WF) {i nl s t} (hs : s ⇛ t) :
    (o.toSexpr i nl ++ s) ⇛ toks o.toVal ++ t := by
  obtain ⟨h1, h2, h3, h4, h5, h6⟩ := h
  simp only [toSexpr, toVal, h6, optS_none]
  lxNorm
  lxAuto

macro_rules | `(tactic| lxObj) => `(tactic| ((with_reducible refine GrLine.lx ?_ ?_); (· wf)))

theorem GrLine.from_toVal [TextRule] {o : GrLine} (h : o.WF) : GrLine.fromSexpr o.toVal = .ok (canon o) := by
  obtain ⟨start, «end», angle, layer, width, tstamp, locked⟩ := o
  obtain ⟨h1, h2, h3, h4, h5, h6⟩ := h
  simp only at h1 h2 h3 h4 h5 h6
  subst h6
  simp only [toVal, fromSexpr]
  foStart
  foSkip
  fldF locked
  fld start using Position.from_toValXY h1 rfl
  fld «end» using Position.from_toValXY h2 rfl
  fldO layer
  fldR width k!"width" h4
  fldO tstamp
  rfl

seal GrLine.fromSexpr

theorem GrRect.lx [TextRule] {o : GrRect} (h : o.WF) {i nl s t} (hs : s ⇛ t) :
    (o.toSexpr i nl ++ s) ⇛ toks o.toVal ++ t := by
  obtain ⟨h1, h2, h3, h4, h5, h6⟩ := h
  simp only [toSexpr, toVal]
  lxNorm
  lxAuto

macro_rules | `(tactic| lxObj) => `(tactic| ((with_reducible refine GrRect.lx ?_ ?_); (· wf)))

theorem GrRect.from_toVal [TextRule] {o : GrRect} (h : o.WF) : GrRect.fromSexpr o.toVal = .ok (canon o) := by
  simp only [toVal, fromSexpr]
  foStart
  foSkip
  fldF locked
  fld start using Position.from_toValXY h.start rfl
  fld «end» using Position.from_toValXY h.end rfl
  fldO layer
  fldR width k!"width" h.width
  fldO fill
  fldO tstamp
  rfl

seal GrRect.fromSexpr

theorem GrCircle.lx [TextRule] {o : GrCircle} (h : o.WF) {i nl s t} (hs : s ⇛ t) :
    (o.toSexpr i nl ++ s) ⇛ toks o.toVal ++ t := by
  obtain ⟨h1, h2, h3, h4, h5, h6⟩ := h
  simp only [toSexpr, toVal]
  lxNorm
  lxAuto

macro_rules | `(tactic| lxObj) => `(tactic| ((with_reducible refine GrCircle.lx ?_ ?_); (· wf)))

theorem GrCircle.from_toVal [TextRule] {o : GrCircle} (h : o.WF) : GrCircle.fromSexpr o.toVal = .ok (canon o) := by
  simp only [toVal, fromSexpr]
  foStart
  foSkip
  fldF locked
  fld center using Position.from_toValXY h.center rfl
  fld «end» using Position.from_toValXY h.end rfl
  fldO layer
  fldR width k!"width" h.width
  fldO fill
  fldO tstamp
  rfl

seal GrCircle.fromSexpr

theorem GrArc.lx [TextRule] {o : GrArc} (h : o.WF) {i nl s t} (hs : s ⇛ t) :
    (o.toSexpr i nl ++ s) ⇛ toks o.toVal ++ t := by
  obtain ⟨h1, h2, h3, h4, h5, h6⟩ := h
  simp only [toSexpr, toVal]
  lxNorm
  lxAuto

macro_rules | `(tactic| lxObj) => `(tactic| ((with_reducible refine GrArc.lx ?_ ?_); (· wf)))

theorem GrArc.from_toVal [TextRule] {o : GrArc} (h : o.WF) : GrArc.fromSexpr o.toVal = .ok (canon o) := by
  simp only [toVal, fromSexpr]
  foStart
  foSkip
  fldF locked
  fld start using Position.from_toValXY h.start rfl
  fld mid using Position.from_toValXY h.mid rfl
  fld «end» using Position.from_toValXY h.end rfl
  fldO layer
  fldR width k!"width" h.width
  fldO tstamp
  rfl

seal GrArc.fromSexpr

theorem GrPoly.from_toVal [TextRule] {o : GrPoly} (h : o.WF) : GrPoly.fromSexpr o.toVal = .ok (canon o) := by
  simp only [toVal, fromSexpr]
  foStart
  foSkip
  fldF locked
  refine fo_setB (fun o v => { o with coordinates := v }) (mapM'_map fun p hp => Position.from_toValXY (h.coordinates p hp) rfl) rfl ?_
  fldO layer
  fldR width k!"width" h.width
  fldO fill
  fldO tstamp
  rfl

seal GrPoly.fromSexpr

theorem GrPoly.lx [TextRule] {o : GrPoly} (h : o.WF) {i nl pn s t} (hs : s ⇛ t) :
    (o.toSexpr i nl pn ++ s) ⇛ toks o.toVal ++ t := by
  obtain ⟨h1, h2, h3, h4, h5, h6⟩ := h
  simp only [toSexpr, toVal, h6, Bool.false_eq_true, if_false]
  cases pn <;> simp only [Bool.false_eq_true, if_false, if_true] <;> lxNorm <;> lxAuto

theorem GrCurve.lx [TextRule] {o : GrCurve} (h : o.WF) {i nl s t} (hs : s ⇛ t) :
    (o.toSexpr i nl ++ s) ⇛ toks o.toVal ++ t := by
  obtain ⟨h1, h2, h3, h4, h5⟩ := h
  simp only [toSexpr, toVal, h5, Bool.false_eq_true, if_false]
  lxNorm
  lxAuto

macro_rules | `(tactic| lxObj) => `(tactic| ((with_reducible refine GrCurve.lx ?_ ?_); (· wf)))

theorem GrCurve.from_toVal [TextRule] {o : GrCurve} (h : o.WF) : GrCurve.fromSexpr o.toVal = .ok (canon o) := by
  simp only [toVal, fromSexpr]
  foStart
  foSkip
  fldF locked
  refine fo_setB (fun o v => { o with coordinates := v }) (mapM'_map fun p hp => Position.from_toValXY (h.coordinates p hp) rfl) rfl ?_
  fldO layer
  fldR width k!"width" h.width
  fldO tstamp
  rfl

seal GrCurve.fromSexpr

theorem GrItem.lexes [TextRule] {o : GrItem} (h : o.WF) (i nl pn) : Lexes (o.toSexpr i nl pn) [o.toVal] := by
  cases o with
  | text o => exact Lexes.of_lx fun s t hs => by rw [toksL_cons, toksL_nil, List.append_nil]; exact GrText.lx h hs
  | textBox o => exact GrTextBox.lexes h _ _
  | line o => exact Lexes.of_lx fun s t hs => by rw [toksL_cons, toksL_nil, List.append_nil]; exact GrLine.lx h hs
  | rect o => exact Lexes.of_lx fun s t hs => by rw [toksL_cons, toksL_nil, List.append_nil]; exact GrRect.lx h hs
  | circle o => exact Lexes.of_lx fun s t hs => by rw [toksL_cons, toksL_nil, List.append_nil]; exact GrCircle.lx h hs
  | arc o => exact Lexes.of_lx fun s t hs => by rw [toksL_cons, toksL_nil, List.append_nil]; exact GrArc.lx h hs
  | poly o => exact Lexes.of_lx fun s t hs => by rw [toksL_cons, toksL_nil, List.append_nil]; exact GrPoly.lx h hs
  | curve o => exact Lexes.of_lx fun s t hs => by rw [toksL_cons, toksL_nil, List.append_nil]; exact GrCurve.lx h hs
  | image o => exact Lexes.of_lx fun s t hs => by rw [toksL_cons, toksL_nil, List.append_nil]; exact Image.lx h hs

end Kiutils
