import Verif.Format.Wks
import Verif.Proofs.Common
/-!
# Worksheets: the text denotes `toVal`, `from_sexpr` reads `toVal`
-/
namespace Kiutils

seal Justify.fromSexpr

theorem WksFontSize.lx [TextRule] {o : WksFontSize} (h : o.WF) {i nl s t} (hs : s ⇛ t) :
    (o.toSexpr i nl ++ s) ⇛ toks o.toVal ++ t := by
  obtain ⟨h1, h2⟩ := h
  simp only [toSexpr, toVal]
  lxNorm
  lxAuto

macro_rules | `(tactic| lxObj) => `(tactic| ((with_reducible refine WksFontSize.lx ?_ ?_); (· wf)))

theorem WksFontSize.from_toVal {o : WksFontSize} : WksFontSize.fromSexpr o.toVal = .ok (canon o) := rfl

theorem TextSize.lx [TextRule] {o : TextSize} (h : o.WF) {i nl s t} (hs : s ⇛ t) :
    (o.toSexpr i nl ++ s) ⇛ toks o.toVal ++ t := by
  obtain ⟨h1, h2⟩ := h
  simp only [toSexpr, toVal]
  lxNorm
  lxAuto

macro_rules | `(tactic| lxObj) => `(tactic| ((with_reducible refine TextSize.lx ?_ ?_); (· wf)))

theorem TextSize.from_toVal {o : TextSize} : TextSize.fromSexpr o.toVal = .ok (canon o) := rfl

theorem WksFont.from_toVal {o : WksFont} : WksFont.fromSexpr o.toVal = .ok (canon o) := by
  simp only [toVal, fromSexpr]
  foStart
  foSkip
  fldO linewidth
  fldO size using (fun a _ => WksFontSize.from_toVal)
  fldF bold
  fldF italic
  rfl

seal WksFont.fromSexpr

theorem WksFont.lx_if [TextRule] {o : WksFont} (h : o.WF) {s t} (hs : s ⇛ t) :
    (ifS (!o.toSexpr.isEmpty) (' ' :: o.toSexpr) ++ s) ⇛ toksL (ifL (!o.isEmpty) [o.toVal]) ++ t := by
  obtain ⟨h1, h2⟩ := h
  cases he : o.isEmpty with
  | true =>
    have : o.toSexpr = [] := by rw [toSexpr, if_pos he]
    simpa [this, ifS, ifL, toksL_nil] using hs
  | false =>
    have : o.toSexpr.isEmpty = false := by rw [toSexpr, if_neg (by simp [he])]; rfl
    simp only [this, ifS, ifL, Bool.not_false, if_true, List.cons_append]
    rw [toSexpr, if_neg (by simp [he])]
    simp only [toVal]
    lxNorm
    lxAuto

theorem WksFont.eq_of_isEmpty {o : WksFont} (h : o.isEmpty = true) : o = {} := by
  obtain ⟨a, b, c, d⟩ := o
  cases a <;> cases b <;> cases c <;> cases d <;> simp_all [isEmpty]

macro_rules | `(tactic| lxObj) => `(tactic| ((with_reducible refine WksFont.lx_if ?_ ?_); (· wf)))

theorem WksPosition.from_toVal {o : WksPosition} {k : Str} : WksPosition.fromSexpr (o.toVal k) = .ok (canon o) := by
  obtain ⟨x, y, c⟩ := o
  cases c <;> rfl

theorem WksPosition.lx [TextRule] {p : WksPosition} {k : Str} (h : p.WF) (hk : isKeyword k = true) {s t} (hs : s ⇛ t) :
    ('(' :: (kw k ++ ' ' :: (p.text ++ ')' :: s))) ⇛ toks (p.toVal k) ++ t := by
  obtain ⟨h1, h2, h3⟩ := h
  simp only [toVal, text]
  lxNorm
  apply lx_op
  refine lx_kw hk rfl ?_
  lxAuto

macro_rules | `(tactic| lxObj) => `(tactic| ((with_reducible refine WksPosition.lx ?_ ?_ ?_); (· wf); (· rfl)))

theorem WksShape.lx [TextRule] {head : Str} {o : WksShape} (hk : isKeyword head = true) (h : o.WF) {i nl s t} (hs : s ⇛ t) :
    (o.toSexpr head i nl ++ s) ⇛ toks (o.toVal head) ++ t := by
  obtain ⟨h1, h2, h3, h4, h5, h6, h7, h8, h9⟩ := h
  simp only [toSexpr, toVal]
  lxNorm
  apply lx_indents
  apply lx_op
  refine lx_kw hk rfl ?_
  lxAuto

macro_rules | `(tactic| lxObj) => `(tactic| ((with_reducible refine WksShape.lx ?_ ?_ ?_); (· rfl); (· wf)))

theorem WksShape.from_toVal {head : Str} {o : WksShape} : WksShape.fromSexpr head (o.toVal head) = .ok (canon o) := by
  simp only [toVal, fromSexpr]
  foStart
  fld name
  fld start using WksPosition.from_toVal (k := k!"start")
  fld «end» using WksPosition.from_toVal (k := k!"end")
  fldO option
  fldO lineWidth
  fldO «repeat»
  fldO incrx
  fldO incry
  fldO comment
  rfl

theorem Bitmap.lx [TextRule] {o : Bitmap} (h : o.WF) {i nl s t} (hs : s ⇛ t) :
    (o.toSexpr i nl ++ s) ⇛ toks o.toVal ++ t := by
  obtain ⟨h1, h2, h3, h4, h5, h6, h7, h8, h9⟩ := h
  simp only [toSexpr, toVal]
  lxNorm
  lxAuto

macro_rules | `(tactic| lxObj) => `(tactic| ((with_reducible refine Bitmap.lx ?_ ?_); (· wf)))

theorem Bitmap.data_map (l : List Val) :
    Bitmap.data (l.map fun d => .list [.str k!"data", d.canon]) = .ok (l.map canon) := by
  induction l with
  | nil => rfl
  | cons v l ih =>
    rw [List.map_cons, Bitmap.data, ih]
    rfl

theorem Bitmap.from_toVal [TextRule] {o : Bitmap} (h : o.WF) : Bitmap.fromSexpr o.toVal = .ok (canon o) := by
  simp only [toVal, fromSexpr]
  foStart
  fld name
  fld position using WksPosition.from_toVal (k := k!"pos")
  fldO option
  fld scale
  fldO «repeat»
  fldO incrx
  fldO incry
  fldO comment
  refine fo_setB (fun o v => { o with pngdata := v }) (Bitmap.data_map o.pngdata) rfl ?_
  rfl

seal Bitmap.fromSexpr

theorem TbText.lx [TextRule] {o : TbText} (h : o.WF) {i nl s t} (hs : s ⇛ t) :
    (o.toSexpr i nl ++ s) ⇛ toks o.toVal ++ t := by
  obtain ⟨h1, h2, h3, h4, h5, h6, h7, h8, h9, h10, h11, h12, h13, h14, h15⟩ := h
  have h6' : ∀ v, o.justify = some v → ∀ s t, s ⇛ t → (v.toSexpr ++ s) ⇛ toks v.toVal ++ t :=
    fun v hv s t hs => Justify.lx (h7 v hv) (h8 v hv) hs
  simp only [toSexpr, toVal]
  lxNorm
  lxAuto

macro_rules | `(tactic| lxObj) => `(tactic| ((with_reducible refine TbText.lx ?_ ?_); (· wf)))

theorem TbText.from_toVal [TextRule] {o : TbText} (h : o.WF) : TbText.fromSexpr o.toVal = .ok (canon o) := by
  have : ∀ (p : TbText) xs r, p.font = {} → forM TbText.step { p with font := canon o.font } xs = r →
      forM TbText.step p (ifL (!o.font.isEmpty) [o.font.toVal] ++ xs) = r := by
    intro p xs r hp hr
    cases he : o.font.isEmpty with
    | true => rw [WksFont.eq_of_isEmpty he] at hr; rw [show canon ({} : WksFont) = p.font from by rw [hp]; rfl] at hr; exact hr
    | false => exact fo_setB (fun o v => { o with font := v }) WksFont.from_toVal rfl hr
  simp only [toVal, fromSexpr]
  foStart
  fld name
  fld position using WksPosition.from_toVal (k := k!"pos")
  fldO option
  fldO rotate
  refine this _ _ _ rfl ?_
  fldO justify using (fun a ha => Justify.from_toVal (h.justify a ha))
  fldO maxlen
  fldO maxheight
  fldO «repeat»
  fldO incrx
  fldO incry
  fldO incrlabel
  fldO comment
  rfl

seal TbText.fromSexpr

theorem Setup.lx [TextRule] {o : Setup} (h : o.WF) {i nl s t} (hs : s ⇛ t) :
    (o.toSexpr i nl ++ s) ⇛ toks o.toVal ++ t := by
  obtain ⟨h1, h2, h3, h4, h5, h6, h7⟩ := h
  simp only [toSexpr, toVal]
  lxNorm
  lxAuto

macro_rules | `(tactic| lxObj) => `(tactic| ((with_reducible refine Setup.lx ?_ ?_); (· wf)))

theorem Setup.from_toVal {o : Setup} : Setup.fromSexpr o.toVal = .ok (canon o) := by
  simp only [toVal, fromSexpr]
  foStart
  fld textSize using TextSize.from_toVal
  fld lineWidth
  fld textLineWidth
  fld leftMargin
  fld rightMargin
  fld topMargin
  fld bottomMargin
  rfl

seal Setup.fromSexpr

theorem WksItem.lx [TextRule] {o : WksItem} (h : o.WF) (i) : Lexes (o.toSexpr i) [o.toVal] := by
  cases o with
  | polygon => exact False.elim h
  | line o => exact .of_lx fun s t hs => by simpa only [toksL_cons, toksL_nil, List.append_nil, toVal] using WksShape.lx rfl h hs
  | rect o => exact .of_lx fun s t hs => by simpa only [toksL_cons, toksL_nil, List.append_nil, toVal] using WksShape.lx rfl h hs
  | bitmap o => exact .of_lx fun s t hs => by simpa only [toksL_cons, toksL_nil, List.append_nil, toVal] using Bitmap.lx h hs
  | tbtext o => exact .of_lx fun s t hs => by simpa only [toksL_cons, toksL_nil, List.append_nil, toVal] using TbText.lx h hs

theorem WorkSheet.lx [TextRule] {o : WorkSheet} (h : o.WF) (i nl) : Lexes (o.toSexpr i nl) [o.toVal] := by
  obtain ⟨h1, h2, h3, h4⟩ := h
  obtain ⟨x, hx, hx'⟩ := Lexes.forSM (f := fun a => WksItem.toSexpr a (i + 2)) fun a ha => WksItem.lx (h4 a ha) (i + 2)
  refine ⟨_, by rw [toSexpr, hx]; rfl, fun s t hs => ?_⟩
  simp only [toVal]
  lxNorm
  lxAuto

seal WksShape.fromSexpr

theorem WorkSheet.step_item [TextRule] {o : WorkSheet} {a : WksItem} (h : a.WF) :
    WorkSheet.step o a.toVal = .ok { o with drawingObjects := o.drawingObjects ++ [canon a] } := by
  cases a with
  | polygon => exact False.elim h
  | line a =>
    exact eq_bind (b := canon a) (fun v : WksShape => { o with drawingObjects := o.drawingObjects ++ [WksItem.line v] })
      (WksShape.from_toVal (head := k!"line") (o := a)) rfl
  | rect a =>
    exact eq_bind (b := canon a) (fun v : WksShape => { o with drawingObjects := o.drawingObjects ++ [WksItem.rect v] })
      (WksShape.from_toVal (head := k!"rect") (o := a)) rfl
  | bitmap a =>
    exact eq_bind (b := canon a) (fun v : Bitmap => { o with drawingObjects := o.drawingObjects ++ [WksItem.bitmap v] })
      (Bitmap.from_toVal (o := a) h) rfl
  | tbtext a =>
    exact eq_bind (b := canon a) (fun v : TbText => { o with drawingObjects := o.drawingObjects ++ [WksItem.tbtext v] })
      (TbText.from_toVal (o := a) h) rfl

theorem WorkSheet.from_toVal [TextRule] {o : WorkSheet} (h : o.WF) :
    WorkSheet.fromSexpr o.toVal = .ok (canon { o with filePath := none }) := by
  simp only [toVal, fromSexpr]
  foStart
  fld version
  fld generator
  fld setup using Setup.from_toVal
  refine fo_list (fun o v => { o with drawingObjects := v }) canon rfl (fun pre a ha => step_item (h.drawingObjects a ha)) ?_
  rfl

end Kiutils
