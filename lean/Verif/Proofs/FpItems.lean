import Verif.Format.FpItems
import Verif.Proofs.Common
/-!
# Graphic items of footprints: the text denotes `toVal`, `from_sexpr` reads `toVal`
-/
namespace Kiutils

seal Position.fromSexpr Stroke.fromSexpr Effects.fromSexpr RenderCache.fromSexpr

theorem Position.from_toValU [TextRule] {o : Position} {k : Str} (h : o.WFU) (hk : (k == k!"unlocked") = false) :
    Position.fromSexpr (o.toValU k) = .ok (canon o) := by
  obtain ⟨h1, h2, h3⟩ := h
  obtain ⟨X, Y, angle, unlocked⟩ := o
  simp only at h1 h2 h3
  rw [Position.fromSexpr.eq_def]
  cases angle with
  | none =>
    cases unlocked <;> simp only [toValU, optL_none, List.append_nil, ifL_true, ifL_false, List.cons_append, List.nil_append] <;>
      simp only [List.any, h1.not_is, h2.not_is, is_str, hk] <;> rfl
  | some a =>
    cases unlocked <;> simp only [toValU, optL_some, List.append_nil, ifL_true, ifL_false, List.cons_append, List.nil_append] <;>
      simp only [List.any, h1.not_is, h2.not_is, is_str, hk, (h3 a rfl).not_is] <;> rfl

theorem Position.lxU [TextRule] {p : Position} {k : Str} (h : p.WFU) (hk : isKeyword k = true) {s t} (hs : s ⇛ t) :
    ('(' :: (kw k ++ ' ' :: (p.X.pyStr ++ ' ' :: (p.Y.pyStr ++ ((optS p.angle fun a => ' ' :: a.pyStr) ++
      (ifS p.unlocked (' ' :: (kw k!"unlocked" ++ [])) ++ ')' :: s)))))) ⇛ toks (p.toValU k) ++ t := by
  obtain ⟨h1, h2, h3⟩ := h
  simp only [toValU]
  lxNorm
  apply lx_op
  refine lx_kw hk rfl ?_
  lxAuto

macro_rules | `(tactic| lxObj) => `(tactic| ((with_reducible refine Position.lxU ?_ ?_ ?_); (· wf); (· rfl)))

theorem lx_widthText [TextRule] {w : Option Val} {k : Option Stroke} (h : WidthOk w k) {s t} (hs : s ⇛ t) :
    (widthText w k ++ s) ⇛ toksL (widthL w k) ++ t := by
  rcases h with ⟨v, rfl, h1, rfl⟩ | ⟨rfl, v, rfl, h1⟩
  · simp only [widthText, widthL]
    lxNorm
    lxAuto
  · simp only [widthText, widthL]
    lxNorm
    lxAuto

macro_rules | `(tactic| lxObj) => `(tactic| ((with_reducible refine lx_widthText ?_ ?_); (· wf)))

theorem fo_width [TextRule] {σ : Type} {step : σ → Val → PyM σ} {o : σ} {xs : List Val} {r : PyM σ}
    (f : σ → Option Val × Option Stroke → σ) {w : Option Val} {k : Option Stroke} (h : WidthOk w k)
    (h1 : ∀ a, step o (.list [.str k!"width", a]) = .ok (f o (some a, none)))
    (h2 : ∀ s : Stroke, step o s.toVal = (Stroke.fromSexpr s.toVal >>= fun v => .ok (f o (none, some v))))
    (hs : forM step (f o (canon w, canon k)) xs = r) : forM step o (widthL w k ++ xs) = r := by
  rcases h with ⟨v, rfl, _, rfl⟩ | ⟨rfl, v, rfl, h3⟩
  · exact fo_cons (h1 _) hs
  · refine fo_cons ?_ hs
    rw [h2, Stroke.from_toVal h3]; rfl

/-- The field for the width and the stroke. -/
macro "fldW " h:term:max : tactic =>
  `(tactic| refine fo_width (fun o v => { o with width := v.1, stroke := v.2 }) $h (by intro _; rfl) (by intro _; rfl) ?_)

theorem FpText.lx [TextRule] {o : FpText} (h : o.WF) {i nl s t} (hs : s ⇛ t) :
    (o.toSexpr i nl ++ s) ⇛ toks o.toVal ++ t := by
  obtain ⟨h1, h2, h3, h4, h5, h6, h7⟩ := h
  simp only [toSexpr, toVal]
  lxNorm
  lxAuto

macro_rules | `(tactic| lxObj) => `(tactic| ((with_reducible refine FpText.lx ?_ ?_); (· wf)))

theorem FpText.from_toVal [TextRule] {o : FpText} (h : o.WF) : FpText.fromSexpr o.toVal = .ok (canon o) := by
  simp only [toVal, fromSexpr]
  foStart
  fld position using Position.from_toValU h.position rfl
  dsimp only
  refine fo_set (fun p v => { p with layer := v, knockout := o.knockout }) o.layer.canon (by cases o.knockout <;> rfl) ?_
  dsimp only
  fldF hide
  dsimp only
  fld effects using Effects.from_toVal h.effects
  dsimp only
  fldO tstamp
  dsimp only
  fldO renderCache using (fun a ha => RenderCache.from_toVal (h.renderCache a ha))
  rfl

seal FpText.fromSexpr

theorem FpLine.lx [TextRule] {o : FpLine} (h : o.WF) {i nl s t} (hs : s ⇛ t) :
    (o.toSexpr i nl ++ s) ⇛ toks o.toVal ++ t := by
  obtain ⟨h1, h2, h3, h4, h5, h6⟩ := h
  simp only [toSexpr, toVal]
  lxNorm
  lxAuto

macro_rules | `(tactic| lxObj) => `(tactic| ((with_reducible refine FpLine.lx ?_ ?_); (· wf)))

theorem FpLine.from_toVal [TextRule] {o : FpLine} (h : o.WF) : FpLine.fromSexpr o.toVal = .ok (canon o) := by
  obtain ⟨start, «end», layer, width, stroke, locked, tstamp⟩ := o
  obtain ⟨h1, h2, h3, h4, h5, h6⟩ := h
  simp only at h1 h2 h3 h4 h5 h6
  subst h6
  simp only [toVal, fromSexpr]
  foStart
  foSkip
  fld start using Position.from_toValXY h1 rfl
  fld «end» using Position.from_toValXY h2 rfl
  fld layer
  fldW h4
  fldO tstamp
  rfl

seal FpLine.fromSexpr

theorem FpRect.lx [TextRule] {o : FpRect} (h : o.WF) {i nl s t} (hs : s ⇛ t) :
    (o.toSexpr i nl ++ s) ⇛ toks o.toVal ++ t := by
  obtain ⟨h1, h2, h3, h4, h5, h6⟩ := h
  simp only [toSexpr, toVal]
  lxNorm
  lxAuto

macro_rules | `(tactic| lxObj) => `(tactic| ((with_reducible refine FpRect.lx ?_ ?_); (· wf)))

theorem FpRect.from_toVal [TextRule] {o : FpRect} (h : o.WF) : FpRect.fromSexpr o.toVal = .ok (canon o) := by
  simp only [toVal, fromSexpr]
  foStart
  foSkip
  fld start using Position.from_toValXY h.start rfl
  fld «end» using Position.from_toValXY h.end rfl
  fld layer
  fldW h.width
  fldO fill
  fldF locked
  fldO tstamp
  rfl

seal FpRect.fromSexpr

theorem FpTextBox.ok [TextRule] {o : FpTextBox} (h : o.WF) :
    (isOblique o.angle && o.pts.length != 4) = false ∧
    (isRight o.angle && (o.start.isNone || o.«end».isNone)) = false := by
  obtain ⟨_, _, _, _, _, _, _, _, _, _, h11, h12, h13⟩ := h
  constructor
  · cases ha : o.angle with
    | none => rfl
    | some a =>
      cases hc : isCardinal a with
      | true => simp [hc, isOblique]
      | false =>
        rcases h11 with h | ⟨_, _, _, _, h⟩
        · exact absurd h (h12 a ha hc)
        · simp [h]
  · have : isRight o.angle = true → o.start ≠ none ∧ o.«end» ≠ none := by
      intro hm
      refine h13 fun a ha => ?_
      rw [ha] at hm
      exact hm
    revert this
    generalize isRight o.angle = b
    intro this
    cases b with
    | false => rfl
    | true =>
      obtain ⟨p, q⟩ := this rfl
      rw [Bool.true_and]
      cases hs : o.start with
      | none => exact absurd hs p
      | some a => cases he : o.«end» with
        | none => exact absurd he q
        | some b => rfl

theorem FpTextBox.lexes [TextRule] {o : FpTextBox} (h : o.WF) (i nl) : Lexes (o.toSexpr i nl) [o.toVal] := by
  obtain ⟨e1, e2⟩ := FpTextBox.ok h
  refine ⟨_, by rw [toSexpr, e1, e2]; rfl, fun s t hs => ?_⟩
  clear e1 e2
  obtain ⟨locked, text, start, «end», pts, angle, layer, tstamp, effects, stroke, renderCache⟩ := o
  obtain ⟨h1, h2, h3, h4, h5, h6, h7, h8, h9, h10, h11, h12, h13⟩ := h
  simp only at h1 h2 h3 h4 h5 h6 h7 h8 h9 h10 h11 h12 h13
  clear h12 h13
  rcases h11 with rfl | ⟨a, b, c, d, rfl⟩
  · simp only [toVal, List.isEmpty_nil, Bool.not_true, ifL_false]
    lxNorm
    lxAuto
  · have ha : a.WFXY := h2 a (by simp)
    have hb : b.WFXY := h2 b (by simp)
    have hc : c.WFXY := h2 c (by simp)
    have hd : d.WFXY := h2 d (by simp)
    simp only [toVal, List.isEmpty_cons, Bool.not_false, List.map_cons, List.map_nil, ifL_true]
    lxNorm
    lxAuto

theorem FpTextBox.from_loop [TextRule] {o o1 : FpTextBox} (h : o.WF) (h1 : o1 = { locked := o.locked, text := o.text.canon }) :
    forM FpTextBox.step o1 (ifL (!o.pts.isEmpty) [.list (.str k!"pts" :: o.pts.map (Position.toValXY k!"xy"))] ++
    (optL o.start fun v => [v.toValXY k!"start"]) ++ (optL o.«end» fun v => [v.toValXY k!"end"]) ++
    (optL o.angle fun v => [.list [.str k!"angle", v.canon]]) ++ [.list [.str k!"layer", o.layer.canon]] ++
    (optL o.tstamp fun v => [.list [.str k!"tstamp", v.canon]]) ++ (optL o.effects fun v => [v.toVal]) ++
    (optL o.stroke fun v => [v.toVal]) ++ (optL o.renderCache fun v => [v.toVal])) = .ok (canon o) := by
  subst h1
  foStart
  fldM pts using (fun p hp => Position.from_toValXY (h.pts p hp) rfl)
  fldO start using (fun a ha => Position.from_toValXY (h.start a ha) rfl)
  fldO «end» using (fun a ha => Position.from_toValXY (h.end a ha) rfl)
  fldO angle
  fld layer
  fldO tstamp
  fldO effects using (fun a ha => Effects.from_toVal (h.effects a ha))
  fldO stroke using (fun a ha => Stroke.from_toVal (h.stroke a ha))
  fldO renderCache using (fun a ha => RenderCache.from_toVal (h.renderCache a ha))
  rfl

theorem FpTextBox.first_isList {o : FpTextBox} : ∃ y r, ifL (!o.pts.isEmpty) [.list (.str k!"pts" :: o.pts.map (Position.toValXY k!"xy"))] ++
    (optL o.start fun v => [v.toValXY k!"start"]) ++ (optL o.«end» fun v => [v.toValXY k!"end"]) ++
    (optL o.angle fun v => [.list [.str k!"angle", v.canon]]) ++ [.list [.str k!"layer", o.layer.canon]] ++
    (optL o.tstamp fun v => [.list [.str k!"tstamp", v.canon]]) ++ (optL o.effects fun v => [v.toVal]) ++
    (optL o.stroke fun v => [v.toVal]) ++ (optL o.renderCache fun v => [v.toVal]) = .list y :: r := by
  cases o.pts with
  | cons a l => exact ⟨_, _, rfl⟩
  | nil => cases o.start with
    | some a => exact ⟨_, _, rfl⟩
    | none => cases o.«end» with
      | some a => exact ⟨_, _, rfl⟩
      | none => cases o.angle with
        | some a => exact ⟨_, _, rfl⟩
        | none => exact ⟨_, _, rfl⟩

theorem FpTextBox.from_toVal [TextRule] {o : FpTextBox} (h : o.WF) : FpTextBox.fromSexpr o.toVal = .ok (canon o) := by
  cases hl : o.locked with
  | true =>
    have := FpTextBox.from_loop h (o1 := { locked := true, text := o.text.canon }) (by rw [hl])
    rw [← this]
    simp only [toVal, hl, ifL_true, List.append_assoc, List.cons_append, List.nil_append]
    have ht := h.text
    cases htt : o.text with
    | str w => rfl
    | _ => rw [htt] at ht; exact False.elim ht
  | false =>
    have := FpTextBox.from_loop h (o1 := { text := o.text.canon }) (by rw [hl])
    rw [← this]
    simp only [toVal, hl, ifL_false, List.append_assoc, List.cons_append, List.nil_append]
    obtain ⟨y, r, he⟩ := FpTextBox.first_isList (o := o)
    simp only [List.append_assoc, List.cons_append, List.nil_append] at he
    rw [he]
    cases hk : o.text.canon.is k!"locked" with
    | true => simp only [fromSexpr, hk, if_true]; rfl
    | false => simp only [fromSexpr, hk, Bool.false_eq_true, if_false]; rfl

seal FpTextBox.fromSexpr

theorem FpCircle.lx [TextRule] {o : FpCircle} (h : o.WF) {i nl s t} (hs : s ⇛ t) :
    (o.toSexpr i nl ++ s) ⇛ toks o.toVal ++ t := by
  obtain ⟨h1, h2, h3, h4, h5, h6⟩ := h
  simp only [toSexpr, toVal]
  lxNorm
  lxAuto

macro_rules | `(tactic| lxObj) => `(tactic| ((with_reducible refine FpCircle.lx ?_ ?_); (· wf)))

theorem FpCircle.from_toVal [TextRule] {o : FpCircle} (h : o.WF) : FpCircle.fromSexpr o.toVal = .ok (canon o) := by
  simp only [toVal, fromSexpr]
  foStart
  foSkip
  fld center using Position.from_toValXY h.center rfl
  fld «end» using Position.from_toValXY h.end rfl
  fld layer
  fldW h.width
  fldO fill
  fldF locked
  fldO tstamp
  rfl

seal FpCircle.fromSexpr

theorem FpArc.lx [TextRule] {o : FpArc} (h : o.WF) {i nl s t} (hs : s ⇛ t) :
    (o.toSexpr i nl ++ s) ⇛ toks o.toVal ++ t := by
  obtain ⟨h1, h2, h3, h4, h5, h6⟩ := h
  simp only [toSexpr, toVal]
  lxNorm
  lxAuto

macro_rules | `(tactic| lxObj) => `(tactic| ((with_reducible refine FpArc.lx ?_ ?_); (· wf)))

theorem FpArc.from_toVal [TextRule] {o : FpArc} (h : o.WF) : FpArc.fromSexpr o.toVal = .ok (canon o) := by
  simp only [toVal, fromSexpr]
  foStart
  foSkip
  fld start using Position.from_toValXY h.start rfl
  fld mid using Position.from_toValXY h.mid rfl
  fld «end» using Position.from_toValXY h.end rfl
  fld layer
  fldW h.width
  fldF locked
  fldO tstamp
  rfl

seal FpArc.fromSexpr

theorem FpPoly.lx [TextRule] {o : FpPoly} (h : o.WF) {i nl s t} (hs : s ⇛ t) :
    (o.toSexpr i nl ++ s) ⇛ toks o.toVal ++ t := by
  obtain ⟨h1, h2, h3, h4, h5, h6⟩ := h
  simp only [toSexpr, toVal, h6, Bool.false_eq_true, if_false]
  lxNorm
  lxAuto

macro_rules | `(tactic| lxObj) => `(tactic| ((with_reducible refine FpPoly.lx ?_ ?_); (· wf)))

theorem FpPoly.from_toVal [TextRule] {o : FpPoly} (h : o.WF) : FpPoly.fromSexpr o.toVal = .ok (canon o) := by
  simp only [toVal, fromSexpr]
  foStart
  foSkip
  refine fo_setB (fun o v => { o with coordinates := v }) (mapM'_map fun p hp => Position.from_toValXY (h.coordinates p hp) rfl) rfl ?_
  fld layer
  fldW h.width
  fldO fill
  fldF locked
  fldO tstamp
  rfl

seal FpPoly.fromSexpr

theorem FpCurve.lx [TextRule] {o : FpCurve} (h : o.WF) {i nl s t} (hs : s ⇛ t) :
    (o.toSexpr i nl ++ s) ⇛ toks o.toVal ++ t := by
  obtain ⟨h1, h2, h3, h4, h5⟩ := h
  simp only [toSexpr, toVal, h5, Bool.false_eq_true, if_false]
  lxNorm
  lxAuto

macro_rules | `(tactic| lxObj) => `(tactic| ((with_reducible refine FpCurve.lx ?_ ?_); (· wf)))

theorem FpCurve.from_toVal [TextRule] {o : FpCurve} (h : o.WF) : FpCurve.fromSexpr o.toVal = .ok (canon o) := by
  simp only [toVal, fromSexpr]
  foStart
  foSkip
  refine fo_setB (fun o v => { o with coordinates := v }) (mapM'_map fun p hp => Position.from_toValXY (h.coordinates p hp) rfl) rfl ?_
  fld layer
  fldW h.width
  fldF locked
  fldO tstamp
  rfl

seal FpCurve.fromSexpr

theorem FpItem.lexes [TextRule] {o : FpItem} (h : o.WF) (i) : Lexes (o.toSexpr i) [o.toVal] := by
  cases o with
  | text o => exact Lexes.of_lx fun s t hs => by rw [toksL_cons, toksL_nil, List.append_nil]; exact FpText.lx h hs
  | textBox o => exact FpTextBox.lexes h _ _
  | line o => exact Lexes.of_lx fun s t hs => by rw [toksL_cons, toksL_nil, List.append_nil]; exact FpLine.lx h hs
  | rect o => exact Lexes.of_lx fun s t hs => by rw [toksL_cons, toksL_nil, List.append_nil]; exact FpRect.lx h hs
  | circle o => exact Lexes.of_lx fun s t hs => by rw [toksL_cons, toksL_nil, List.append_nil]; exact FpCircle.lx h hs
  | arc o => exact Lexes.of_lx fun s t hs => by rw [toksL_cons, toksL_nil, List.append_nil]; exact FpArc.lx h hs
  | poly o => exact Lexes.of_lx fun s t hs => by rw [toksL_cons, toksL_nil, List.append_nil]; exact FpPoly.lx h hs
  | curve o => exact Lexes.of_lx fun s t hs => by rw [toksL_cons, toksL_nil, List.append_nil]; exact FpCurve.lx h hs
  | image o => exact Lexes.of_lx fun s t hs => by rw [toksL_cons, toksL_nil, List.append_nil]; exact Image.lx h hs

end Kiutils
