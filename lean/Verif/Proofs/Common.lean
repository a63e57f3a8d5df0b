import Verif.Format.Common
import Verif.Fold
/-!
# The shared items: text denotes `toVal`, `from_sexpr` reads `toVal`
-/
namespace Kiutils

theorem Position.from_toVal [TextRule] {o : Position} {k : Str} (h : o.WF) (hk : (k == k!"unlocked") = false) :
    Position.fromSexpr (o.toVal k) = .ok (canon o) := by
  obtain ⟨h1, h2, h3, h4⟩ := h
  obtain ⟨X, Y, angle, unlocked⟩ := o
  simp only at h1 h2 h3 h4
  subst h4
  cases angle with
  | none =>
    simp only [toVal, optL, List.append_nil, fromSexpr]
    simp only [List.any, h1.not_is, h2.not_is, is_str, hk]
    rfl
  | some a =>
    simp only [toVal, optL, fromSexpr, List.cons_append, List.nil_append]
    simp only [List.any, h1.not_is, h2.not_is, is_str, hk, (h3 a rfl).not_is]
    rfl

theorem Position.from_toValXY [TextRule] {o : Position} {k : Str} (h : o.WFXY) (hk : (k == k!"unlocked") = false) :
    Position.fromSexpr (o.toValXY k) = .ok (canon o) := by
  obtain ⟨h1, h2, h3, h4⟩ := h
  have := Position.from_toVal (o := o) (k := k) ⟨h1, h2, by simp [h3], h4⟩ hk
  simpa [Position.toVal, Position.toValXY, h3, optL] using this

theorem Position.lxXY [TextRule] {p : Position} {k : Str} (h : p.WFXY) (hk : isKeyword k = true) {s t} (hs : s ⇛ t) :
    ('(' :: (kw k ++ ' ' :: (p.X.pyStr ++ ' ' :: (p.Y.pyStr ++ ')' :: s)))) ⇛ toks (p.toValXY k) ++ t := by
  obtain ⟨h1, h2, -, -⟩ := h
  simp only [toValXY]
  lxNorm
  apply lx_op
  refine lx_kw hk rfl ?_
  lxAuto

theorem Position.lx [TextRule] {p : Position} {k : Str} (h : p.WF) (hk : isKeyword k = true) {s t} (hs : s ⇛ t) :
    ('(' :: (kw k ++ ' ' :: (p.X.pyStr ++ ' ' :: (p.Y.pyStr ++ ((optS p.angle fun a => ' ' :: a.pyStr) ++ ')' :: s))))) ⇛
      toks (p.toVal k) ++ t := by
  obtain ⟨h1, h2, h3, -⟩ := h
  simp only [toVal]
  lxNorm
  apply lx_op
  refine lx_kw hk rfl ?_
  lxAuto

macro_rules | `(tactic| lxObj) => `(tactic| ((with_reducible refine Position.lxXY ?_ ?_ ?_); (· wf); (· rfl)))
macro_rules | `(tactic| lxObj) => `(tactic| ((with_reducible refine Position.lx ?_ ?_ ?_); (· wf); (· rfl)))

theorem ColorRGBA.lx [TextRule] {o : ColorRGBA} (h : o.WF) {i nl s t} (hs : s ⇛ t) :
    (o.toSexpr i nl ++ s) ⇛ toks o.toVal ++ t := by
  obtain ⟨h1, h2, h3, h4, h5⟩ := h
  simp only [toSexpr, toVal, h5]
  lxNorm
  lxAuto

macro_rules | `(tactic| lxObj) => `(tactic| ((with_reducible refine ColorRGBA.lx ?_ ?_); (· wf)))

theorem ColorRGBA.from_toVal [TextRule] {o : ColorRGBA} (h : o.WF) : ColorRGBA.fromSexpr o.toVal = .ok (canon o) := by
  obtain ⟨h1, h2, h3, h4, h5⟩ := h
  obtain ⟨R, G, B, A, p⟩ := o
  simp only at h5
  subst h5
  rfl

theorem Coordinate.lx [TextRule] {o : Coordinate} (h : o.WF) {i nl s t} (hs : s ⇛ t) :
    (o.toSexpr i nl ++ s) ⇛ toks o.toVal ++ t := by
  obtain ⟨h1, h2, h3⟩ := h
  simp only [toSexpr, toVal]
  lxNorm
  lxAuto

macro_rules | `(tactic| lxObj) => `(tactic| ((with_reducible refine Coordinate.lx ?_ ?_); (· wf)))

theorem Coordinate.from_toVal {o : Coordinate} : Coordinate.fromSexpr o.toVal = .ok (canon o) := rfl

theorem Stroke.lx [TextRule] {o : Stroke} (h : o.WF) {i nl s t} (hs : s ⇛ t) :
    (o.toSexpr i nl ++ s) ⇛ toks o.toVal ++ t := by
  obtain ⟨h1, h2, h3⟩ := h
  simp only [toSexpr, toVal]
  lxNorm
  lxAuto

macro_rules | `(tactic| lxObj) => `(tactic| ((with_reducible refine Stroke.lx ?_ ?_); (· wf)))

theorem Stroke.from_toVal [TextRule] {o : Stroke} (h : o.WF) : Stroke.fromSexpr o.toVal = .ok (canon o) := by
  simp only [toVal, List.cons_append, List.nil_append, List.append_assoc]
  change forM Stroke.step {} (_ :: _ :: _) = _
  foStart
  foSkip
  fld width
  fldO type
  fldO color using (fun a ha => ColorRGBA.from_toVal (h.color a ha))
  rfl

theorem Font.lx [TextRule] {o : Font} (h : o.WF) {i nl s t} (hs : s ⇛ t) :
    (o.toSexpr i nl ++ s) ⇛ toks o.toVal ++ t := by
  obtain ⟨h1, h2, h3, h4, h5, h6⟩ := h
  simp only [toSexpr, toVal]
  lxNorm
  lxAuto

macro_rules | `(tactic| lxObj) => `(tactic| ((with_reducible refine Font.lx ?_ ?_); (· wf)))

theorem Font.from_toVal [TextRule] {o : Font} (h : o.WF) : Font.fromSexpr o.toVal = .ok (canon o) := by
  simp only [toVal, fromSexpr]
  foStart
  foSkip
  fldO face
  refine fo_cons (o' := { ({} : Font) with face := canon o.face, height := o.height.canon, width := o.width.canon }) rfl ?_
  fldO color using (fun a ha => ColorRGBA.from_toVal (h.color a ha))
  fldO thickness
  fldF bold
  fldF italic
  fldO lineSpacing
  rfl

theorem Justify.step_h {o : Justify} {v : Val} (h : v = .str k!"left" ∨ v = .str k!"right" ∨ v = .str k!"center") :
    Justify.step o v.canon = .ok { o with horizontally := some v.canon } := by
  rcases h with rfl | rfl | rfl <;> rfl

theorem Justify.step_v {o : Justify} {v : Val} (h : v = .str k!"top" ∨ v = .str k!"bottom") :
    Justify.step o v.canon = .ok { o with vertically := some v.canon } := by
  rcases h with rfl | rfl <;> rfl

theorem Justify.lx [TextRule] {o : Justify} (h : o.WF) (he : o.isEmpty = false) {i nl s t} (hs : s ⇛ t) :
    (o.toSexpr i nl ++ s) ⇛ toks o.toVal ++ t := by
  obtain ⟨h1, h2⟩ := h
  have h1 : ∀ v, o.horizontally = some v → TokOk v := by
    intro v hv; rcases h1 v hv with rfl | rfl | rfl <;> exact ⟨by simp, by decide, TextRule.word_noQuote (by decide), by decide⟩
  have h2 : ∀ v, o.vertically = some v → TokOk v := by
    intro v hv; rcases h2 v hv with rfl | rfl <;> exact ⟨by simp, by decide, TextRule.word_noQuote (by decide), by decide⟩
  rw [toSexpr, if_neg (by simp [he]), toVal]
  lxNorm
  lxAuto

theorem Justify.from_toVal [TextRule] {o : Justify} (h : o.WF) : Justify.fromSexpr o.toVal = .ok (canon o) := by
  simp only [toVal, fromSexpr]
  foStart
  foSkip
  refine fo_opt (fun o v => { o with horizontally := v }) canon rfl
    (fun a ha => fo_cons (Justify.step_h (h.horizontally a ha)) rfl) ?_
  refine fo_opt (fun o v => { o with vertically := v }) canon rfl
    (fun a ha => fo_cons (Justify.step_v (h.vertically a ha)) rfl) ?_
  fldF mirror
  rfl

theorem Justify.lx_if [TextRule] {o : Justify} (h : o.WF) {s t} (hs : s ⇛ t) :
    (ifS (!o.toSexpr.isEmpty) (' ' :: o.toSexpr) ++ s) ⇛ toksL (ifL (!o.isEmpty) [o.toVal]) ++ t := by
  cases he : o.isEmpty with
  | true =>
    have : o.toSexpr = [] := by rw [toSexpr, if_pos he]; rfl
    simpa [this, ifS, ifL, toksL_nil] using hs
  | false =>
    have : o.toSexpr.isEmpty = false := by rw [toSexpr, if_neg (by simp [he])]; rfl
    simp only [this, ifS, ifL, Bool.not_false, if_true, List.cons_append]
    lxNorm
    apply lx_sp
    exact Justify.lx h he hs

theorem Justify.eq_of_isEmpty {o : Justify} (h : o.isEmpty = true) : o = {} := by
  obtain ⟨a, b, c⟩ := o
  cases a <;> cases b <;> cases c <;> simp_all [isEmpty]

macro_rules | `(tactic| lxObj) => `(tactic| ((with_reducible refine Justify.lx_if ?_ ?_); (· wf)))

theorem Effects.lx [TextRule] {o : Effects} (h : o.WF) {i nl s t} (hs : s ⇛ t) :
    (o.toSexpr i nl ++ s) ⇛ toks o.toVal ++ t := by
  obtain ⟨h1, h2, h3⟩ := h
  simp only [toSexpr, toVal]
  lxNorm
  lxAuto

macro_rules | `(tactic| lxObj) => `(tactic| ((with_reducible refine Effects.lx ?_ ?_); (· wf)))

theorem Effects.from_toVal [TextRule] {o : Effects} (h : o.WF) : Effects.fromSexpr o.toVal = .ok (canon o) := by
  simp only [toVal, fromSexpr]
  foStart
  foSkip
  fld font using Font.from_toVal h.font
  have : ∀ xs r, forM Effects.step { ({} : Effects) with font := canon o.font, justify := canon o.justify } xs = r →
      forM Effects.step { ({} : Effects) with font := canon o.font } (ifL (!o.justify.isEmpty) [o.justify.toVal] ++ xs) = r := by
    intro xs r hr
    cases he : o.justify.isEmpty with
    | true => rw [Justify.eq_of_isEmpty he] at hr; exact hr
    | false => exact fo_setB (fun o v => { o with justify := v }) (Justify.from_toVal h.justify) rfl hr
  apply this
  fldO href
  fldF hide
  rfl

theorem Net.lx [TextRule] {o : Net} (h : o.WF) {i nl s t} (hs : s ⇛ t) : (o.toSexpr i nl ++ s) ⇛ toks o.toVal ++ t := by
  obtain ⟨h1, h2⟩ := h
  simp only [toSexpr, toVal]
  lxNorm
  lxAuto

macro_rules | `(tactic| lxObj) => `(tactic| ((with_reducible refine Net.lx ?_ ?_); (· wf)))

theorem Net.from_toVal {o : Net} : Net.fromSexpr o.toVal = .ok (canon o) := rfl

theorem Group.lx [TextRule] {o : Group} (h : o.WF) {i nl s t} (hs : s ⇛ t) : (o.toSexpr i nl ++ s) ⇛ toks o.toVal ++ t := by
  obtain ⟨h1, h2, h3, h4⟩ := h
  simp only [toSexpr, toVal]
  lxNorm
  lxAuto

macro_rules | `(tactic| lxObj) => `(tactic| ((with_reducible refine Group.lx ?_ ?_); (· wf)))

theorem TextOk.is_eq [TextRule] {v : Val} (h : TextOk v) {k : Str} (hk : v ≠ .str k) : v.canon.is k = false := by
  cases v with
  | str s => simpa [Val.canon, Val.is] using hk
  | _ => exact False.elim h

theorem TextOk.isList [TextRule] {v : Val} (h : TextOk v) : v.canon.isList = false := by
  cases v with
  | str s => rfl
  | _ => exact False.elim h

theorem Group.from_toVal [TextRule] {o : Group} (h : o.WF) : Group.fromSexpr o.toVal = .ok (canon o) := by
  have hname : Group.step { name := o.name.canon } o.name.canon = .ok { name := o.name.canon } := by
    obtain ⟨h1, h2, -, -⟩ := h
    revert h1 h2
    generalize o.name = v
    intro h1 h2
    cases v with
    | str s =>
      have : (Val.str s).is k!"locked" = false := h1.is_eq h2
      simp only [Val.canon, step, this]; rfl
    | _ => exact False.elim h1
  simp only [toVal, fromSexpr, List.cons_append, List.nil_append, List.append_assoc, checkHead_ok]
  refine bind_ok (a := o.name.canon) rfl ?_
  foStart
  foSkip
  refine fo_cons hname ?_
  fldF locked
  fld id
  refine fo_set (fun o v => { o with members := v }) _ rfl ?_
  rfl

theorem PageSettings.lx [TextRule] {o : PageSettings} (h : o.WF) (i nl) : Lexes (o.toSexpr i nl) [o.toVal] := by
  obtain ⟨h1, h2, h3, h4⟩ := h
  by_cases hu : o.paperSize = .str k!"User"
  · obtain ⟨⟨w, hw, hw'⟩, v, hv, hv'⟩ := h3 hu
    refine ⟨_, by rw [toSexpr, if_pos (by rw [hu]; rfl), hw, hv], fun s t hs => ?_⟩
    simp only [toVal, hw, hv, optL]
    lxNorm
    lxAuto
  · obtain ⟨hw, hv⟩ := h4 hu
    have : o.paperSize.is k!"User" = false := by rw [← h1.canon]; exact h1.is_eq hu
    refine ⟨_, by rw [toSexpr, if_neg (by rw [this]; simp)], fun s t hs => ?_⟩
    simp only [toVal, hw, hv, optL]
    lxNorm
    lxAuto

theorem PageSettings.from_toVal [TextRule] {o : PageSettings} (h : o.WF) : PageSettings.fromSexpr o.toVal = .ok (canon o) := by
  obtain ⟨h1, h2, h3, h4⟩ := h
  obtain ⟨size, width, height, portrait⟩ := o
  simp only at h1 h2 h3 h4
  cases size with
  | str s =>
    by_cases hu : Val.str s = .str k!"User"
    · obtain ⟨⟨w, rfl, hw'⟩, v, rfl, hv'⟩ := h3 hu
      simp only [hu, toVal, optL, List.cons_append, List.nil_append, fromSexpr, checkHead_ok]
      change forM PageSettings.step _ _ = _
      foStart
      foSkip
      foSkip
      refine fo_cons (x := w.canon) (by simp only [step, hw'.not_is]; rfl) ?_
      refine fo_cons (x := v.canon) (by simp only [step, hv'.not_is]; rfl) ?_
      fldF portrait
      rfl
    · obtain ⟨rfl, rfl⟩ := h4 hu
      have hu' : (Val.str s).is k!"User" = false := h1.is_eq hu
      have hp' : (Val.str s).is k!"portrait" = false := h1.is_eq h2
      simp only [toVal, optL, List.cons_append, List.nil_append, fromSexpr, checkHead_ok, Val.canon]
      refine bind_ok (a := .str s) rfl ?_
      simp only [hu']
      change forM PageSettings.step _ _ = _
      foStart
      foSkip
      refine fo_cons (x := .str s) (by simp only [step, hp']; rfl) ?_
      fldF portrait
      rfl
  | _ => exact False.elim h1

theorem TitleBlock.lx [TextRule] {o : TitleBlock} (h : o.WF) {i nl s t} (hs : s ⇛ t) :
    (o.toSexpr i nl ++ s) ⇛ toks o.toVal ++ t := by
  obtain ⟨h1, h2, h3, h4, h5, h6, h7⟩ := h
  simp only [toSexpr, toVal]
  lxNorm
  lxAuto

macro_rules | `(tactic| lxObj) => `(tactic| ((with_reducible refine TitleBlock.lx ?_ ?_); (· wf)))

theorem Val.keyEq_canon (a b : Val) : a.canon.keyEq b.canon = a.keyEq b := by simp only [keyEq, canon_canon]

theorem Dict.set_new {β : Type} {d : Dict β} {k : Val} {v : β} (h : ∀ p ∈ d, p.1.keyEq k = false) :
    d.set k v = d ++ [(k, v)] := by
  induction d with
  | nil => rfl
  | cons p d ih =>
    obtain ⟨k', v'⟩ := p
    simp only [set, h (k', v') (by simp), List.cons_append, ih (fun q hq => h q (by simp [hq]))]
    rfl

theorem Dict.update_num {β : Type} {d : Dict β} {k : Val} {v : β} (hk : NumOk k) : d.update k.canon v = .ok (d.set k.canon v) := by
  cases k with
  | int n => rfl
  | flt f => simp only [Val.canon]; split <;> rfl
  | str s => rfl
  | list l => exact False.elim hk

theorem TitleBlock.step_comment (o : TitleBlock) (a b : Val) : step o (.list [.str k!"comment", a, b]) =
    (Dict.update o.comments a b >>= fun c => .ok { o with comments := c }) := rfl

theorem TitleBlock.from_toVal [TextRule] {o : TitleBlock} (h : o.WF) : TitleBlock.fromSexpr o.toVal = .ok (canon o) := by
  simp only [toVal, fromSexpr]
  foStart
  foSkip
  fldO title
  fldO date
  fldO revision
  fldO company
  refine fo_list_pre (fun o v => { o with comments := v }) canon rfl (fun pre a post hl => ?_) rfl
  have e : Dict.update (pre.map canon) a.1.canon a.2.canon = .ok (pre.map canon ++ [canon a]) := by
    rw [Dict.update_num (h.numbers a (by simp [hl])), Dict.set_new]
    · rfl
    · intro p hp
      obtain ⟨q, hq, rfl⟩ := List.mem_map.1 hp
      have := h.distinct
      rw [hl, List.pairwise_append] at this
      show q.1.canon.keyEq _ = false
      rw [Val.keyEq_canon]
      exact this.2.2 q hq a (by simp)
  exact (step_comment _ _ _).trans (bind_ok e rfl)

theorem Property.lx [TextRule] {o : Property} (h : o.WF) {i nl s t} (hs : s ⇛ t) :
    (o.toSexpr i nl ++ s) ⇛ toks o.toVal ++ t := by
  obtain ⟨h1, h2, h3, h4, h7⟩ := h
  simp only [toSexpr, toVal]
  cases he : o.effects with
  | none => simp only [optL_none]; lxNorm; lxAuto
  | some e => simp only [optL_some]; have := h7 e he; lxNorm; lxAuto

macro_rules | `(tactic| lxObj) => `(tactic| ((with_reducible refine Property.lx ?_ ?_); (· wf)))

theorem Property.from_toVal [TextRule] {o : Property} (h : o.WF) : Property.fromSexpr o.toVal = .ok (canon o) := by
  simp only [toVal, fromSexpr, List.cons_append, List.nil_append, List.append_assoc, checkHead_ok]
  refine bind_ok (a := o.key.canon) rfl (bind_ok (a := o.value.canon) rfl ?_)
  simp only [List.drop_succ_cons, List.drop_zero]
  foStart
  fldO id
  fld position using Position.from_toVal h.position rfl
  fldF showName
  fldO effects using (fun a ha => Effects.from_toVal (h.effects a ha))
  rfl

theorem RenderCachePolygon.lx [TextRule] {o : RenderCachePolygon} (h : o.WF) {i nl s t} (hs : s ⇛ t) :
    (o.toSexpr i nl ++ s) ⇛ toks o.toVal ++ t := by
  obtain ⟨h1⟩ := h
  simp only [toSexpr, toVal]
  lxNorm
  lxAuto

macro_rules | `(tactic| lxObj) => `(tactic| ((with_reducible refine RenderCachePolygon.lx ?_ ?_); (· wf)))

theorem RenderCachePolygon.from_toVal [TextRule] {o : RenderCachePolygon} (h : o.WF) :
    RenderCachePolygon.fromSexpr o.toVal = .ok (canon o) := by
  simp only [toVal, fromSexpr]
  foStart
  foSkip
  refine fo_setB (fun o v => { o with pts := v }) (mapM'_map fun p hp => Position.from_toValXY (h.pts p hp) rfl) rfl ?_
  rfl

theorem RenderCache.lx [TextRule] {o : RenderCache} (h : o.WF) {i nl s t} (hs : s ⇛ t) :
    (o.toSexpr i nl ++ s) ⇛ toks o.toVal ++ t := by
  obtain ⟨h1, h2, h3, h4⟩ := h
  simp only [toSexpr, toVal]
  lxNorm
  lxAuto

macro_rules | `(tactic| lxObj) => `(tactic| ((with_reducible refine RenderCache.lx ?_ ?_); (· wf)))

theorem RenderCache.step_str {o : RenderCache} {v : Val} (h : v ≠ .str []) (hs : v.isStr = true) :
    RenderCache.step o v.canon = .ok o := by
  cases v with
  | str s =>
    cases s with
    | nil => simp at h
    | cons c s =>
      simp only [step, Val.canon, Val.idx, List.getElem?_cons_zero]
      refine bind_ok rfl ?_
      simp only [char_is]
      rfl
  | _ => simp [Val.isStr] at hs

theorem LineOk.isStr [TextRule] {v : Val} (h : LineOk v) : v.isStr = true := by
  cases v <;> first | rfl | exact False.elim h
theorem TextOk.isStr [TextRule] {v : Val} (h : TextOk v) : v.isStr = true := by
  cases v <;> first | rfl | exact False.elim h

theorem RenderCache.from_toVal [TextRule] {o : RenderCache} (h : o.WF) : RenderCache.fromSexpr o.toVal = .ok (canon o) := by
  simp only [toVal, List.cons_append, List.nil_append]
  change forM RenderCache.step _ (_ :: _ :: _ :: _) = _
  foStart
  foSkip
  refine fo_cons (step_str h.text_ne h.text.isStr) ?_
  refine fo_cons (step_str (by rintro he; have := h.id; rw [he] at this; exact this.1 rfl) h.id.isStr) ?_
  fldL polygons using (fun a ha => RenderCachePolygon.from_toVal (h.polygons a ha))
  rfl

theorem Fill.lx [TextRule] {o : Fill} (h : o.WF) {i nl s t} (hs : s ⇛ t) :
    (o.toSexpr i nl ++ s) ⇛ toks o.toVal ++ t := by
  obtain ⟨h1, h2⟩ := h
  simp only [toSexpr, toVal]
  lxNorm
  lxAuto

macro_rules | `(tactic| lxObj) => `(tactic| ((with_reducible refine Fill.lx ?_ ?_); (· wf)))

theorem Fill.from_toVal [TextRule] {o : Fill} (h : o.WF) : Fill.fromSexpr o.toVal = .ok (canon o) := by
  simp only [toVal, fromSexpr]
  foStart
  foSkip
  fld type
  fldO color using (fun a ha => ColorRGBA.from_toVal (h.color a ha))
  rfl

theorem Image.lx [TextRule] {o : Image} (h : o.WF) {i nl s t} (hs : s ⇛ t) :
    (o.toSexpr i nl ++ s) ⇛ toks o.toVal ++ t := by
  obtain ⟨h1, h3, h4, h5, h6⟩ := h
  simp only [toSexpr, toVal]
  lxNorm
  lxAuto

macro_rules | `(tactic| lxObj) => `(tactic| ((with_reducible refine Image.lx ?_ ?_); (· wf)))

theorem Image.from_toVal [TextRule] {o : Image} (h : o.WF) : Image.fromSexpr o.toVal = .ok (canon o) := by
  simp only [toVal, fromSexpr]
  foStart
  foSkip
  fld position using Position.from_toValXY h.position rfl
  fldO layer
  fldO scale
  fldO uuid
  fld data
  rfl

end Kiutils
