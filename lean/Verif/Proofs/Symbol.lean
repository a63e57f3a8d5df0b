import Verif.Format.Symbol
import Verif.Proofs.SyItems
import Verif.Proofs.LibId
/-!
# Symbols and symbol libraries: the text denotes `toVal`, `from_sexpr` reads `toVal`
-/
namespace Kiutils

seal Position.fromSexpr Stroke.fromSexpr Fill.fromSexpr Effects.fromSexpr Property.fromSexpr SyArc.fromSexpr SyCircle.fromSexpr SyCurve.fromSexpr SyPolyLine.fromSexpr SyRect.fromSexpr SyText.fromSexpr SyTextBox.fromSexpr

theorem SymbolAlternativePin.lx [TextRule] {o : SymbolAlternativePin} (h : o.WF) {i nl s t} (hs : s ⇛ t) :
    (o.toSexpr i nl ++ s) ⇛ toks o.toVal ++ t := by
  obtain ⟨h1, h2, h3⟩ := h
  simp only [toSexpr, toVal]
  lxNorm
  lxAuto

macro_rules | `(tactic| lxObj) => `(tactic| ((with_reducible refine SymbolAlternativePin.lx ?_ ?_); (· wf)))

theorem SymbolAlternativePin.from_toVal {o : SymbolAlternativePin} : SymbolAlternativePin.fromSexpr o.toVal = .ok (canon o) := rfl
seal SymbolAlternativePin.fromSexpr

theorem SymbolPin.lx [TextRule] {o : SymbolPin} (h : o.WF) {i nl s t} (hs : s ⇛ t) :
    (o.toSexpr i nl ++ s) ⇛ toks o.toVal ++ t := by
  obtain ⟨h1, h2, h3, h4, h5, h6, h7, h8, h9⟩ := h
  have hi : ∀ {b : Bool} {n : Nat} {s t}, s ⇛ t → (ifS b (indents n) ++ s) ⇛ t := by
    intro b n s t hs
    cases b
    · exact hs
    · exact lx_indents hs
  simp only [toSexpr, toVal]
  lxNorm
  lxAuto
  cases hm : (o.nameEffects.isSome || o.numberEffects.isSome) with
  | true =>
    simp only [if_true]
    lxNorm
    lxAuto
  | false =>
    simp only [Bool.or_eq_false_iff, Option.isSome_eq_false_iff, Option.isNone_iff_eq_none] at hm
    simp only [hm.1, hm.2, optL_none, if_false, Bool.false_eq_true]
    lxNorm
    lxAuto

macro_rules | `(tactic| lxObj) => `(tactic| ((with_reducible refine SymbolPin.lx ?_ ?_); (· wf)))

theorem SymbolPin.step_name [TextRule] {o : SymbolPin} {n : Val} {e : Option Effects} (h : ∀ v, e = some v → v.WF) (he : o.nameEffects = none := by rfl) :
    SymbolPin.step o (.list ([.str k!"name", n] ++ optL e fun e => [e.toVal])) =
      .ok { o with name := n, nameEffects := canon e } := by
  cases e with
  | none => cases o; cases he; rfl
  | some e =>
    exact eq_bind (b := canon e) (fun v : Effects => { o with name := n, nameEffects := some v }) (Effects.from_toVal (h e rfl)) rfl

theorem SymbolPin.step_number [TextRule] {o : SymbolPin} {n : Val} {e : Option Effects} (h : ∀ v, e = some v → v.WF) (he : o.numberEffects = none := by rfl) :
    SymbolPin.step o (.list ([.str k!"number", n] ++ optL e fun e => [e.toVal])) =
      .ok { o with number := n, numberEffects := canon e } := by
  cases e with
  | none => cases o; cases he; rfl
  | some e =>
    exact eq_bind (b := canon e) (fun v : Effects => { o with number := n, numberEffects := some v }) (Effects.from_toVal (h e rfl)) rfl

theorem SymbolPin.from_toVal [TextRule] {o : SymbolPin} (h : o.WF) : SymbolPin.fromSexpr o.toVal = .ok (canon o) := by
  simp only [toVal, fromSexpr]
  foStart
  fld position using Position.from_toVal h.position rfl
  fld length
  fldF hide
  refine fo_cons (SymbolPin.step_name h.nameEffects) ?_
  refine fo_cons (SymbolPin.step_number h.numberEffects) ?_
  fldL alternatePins using (fun a _ => SymbolAlternativePin.from_toVal)
  rfl

seal SymbolPin.fromSexpr

theorem Symbol.canonL_eq (l : List Symbol) : Symbol.canonL l = l.map canon := by
  induction l with
  | nil => simp [Symbol.canonL]
  | cons a l ih => rw [Symbol.canonL, ih]; rfl

theorem Symbol.toValL_eq (l : List Symbol) : Symbol.toValL l = l.map Symbol.toVal := by
  induction l with
  | nil => simp [Symbol.toValL]
  | cons a l ih => rw [Symbol.toValL, ih]; rfl

theorem Symbol.textUnits_eq (l : List Symbol) (i : Nat) : Symbol.textUnits l i = forS l fun u => u.toSexpr i := by
  induction l with
  | nil => simp [Symbol.textUnits, forS]
  | cons a l ih => rw [Symbol.textUnits, ih]; rfl

theorem Symbol.toVal_eq (o : Symbol) : o.toVal = .list (o.flatVals ++ o.units.map Symbol.toVal) := by
  cases o; rw [Symbol.toVal, Symbol.toValL_eq]

theorem Symbol.toSexpr_eq (o : Symbol) (i : Nat) (nl : Bool) :
    o.toSexpr i nl = o.textFlat i ++ (forS o.units fun u => u.toSexpr (i + 2)) ++ py!"{indents i}){endl nl}" := by
  cases o; rw [Symbol.toSexpr, Symbol.textUnits_eq]

/-- The loop body of `Symbol.from_sexpr` with the units. -/
def Symbol.step (o : Symbol) (item : Val) : PyM Symbol :=
  item.idx 0 >>= fun k =>
    if k.is k!"symbol" then Symbol.fromSexpr item >>= fun u => .ok { o with units := o.units ++ [u] }
    else Symbol.stepFlat o item

theorem Symbol.loop_eq (l : List Val) (o : Symbol) : Symbol.loop l o = forM Symbol.step o l := by
  induction l generalizing o with
  | nil => simp [Symbol.loop, forM]
  | cons v l ih =>
    rw [Symbol.loop, forM]
    simp only [ih]
    rfl

theorem Symbol.fromSexpr_eq (id : Val) (l : List Val) :
    Symbol.fromSexpr (.list (.str k!"symbol" :: id :: l)) = (Symbol.setLibId {} id >>= fun o => forM Symbol.step o l) := by
  rw [Symbol.fromSexpr]
  refine (if_pos rfl).trans ?_
  simp only [Symbol.loop_eq]

theorem IdOk.text [TextRule] {o : Symbol} (h : IdOk o.libraryNickname o.entryName o.unitId o.styleId) : TextOk (.str o.libId) := by
  obtain ⟨a, b, c, d, _⟩ := o
  simp only at h
  cases h with
  | nick n e h1 h2 h3 h4 h5 h6 =>
    have : n.isEmpty = false := by cases n <;> simp_all
    simp only [TextOk, Symbol.libId, Val.truthy, this, optPyStr, Val.pyStr]
    simpa [kw] using TextRule.text_named h1 h4 h6
  | unit e u s h1 h2 h3 =>
    simp only [TextOk, Symbol.libId, Val.pyStr, intStr, kw, optPyStr, List.append_assoc]
    refine TextRule.text_unit h1 (by simp) ?_
    simp only [← List.append_assoc]
    intro hl
    have hn : ¬ ((s : Int) < 0) := by omega
    simp only [hn, if_false, Int.natAbs_natCast] at hl
    have hm : '\\' ∈ natStr s := by
      have : (natStr s).getLast? = some '\\' := by
        rw [List.getLast?_append, List.getLast?_append, List.getLast?_append, List.getLast?_append] at hl
        cases hx : (natStr s).getLast? with
        | none => simp [List.getLast?_eq_none_iff] at hx; exact absurd hx (natStr_ne_nil s)
        | some x => simpa [hx] using hl
      exact List.mem_of_getLast? this
    have := natStr_digits s _ hm
    revert this; decide
  | top e h1 h2 h3 h4 => simpa [TextOk, Symbol.libId, optPyStr, Val.pyStr] using h3

/-- Setting `libId` to what `libId` returns gives back the four parts. -/
theorem IdOk.set_get [TextRule] {o : Symbol} (h : IdOk o.libraryNickname o.entryName o.unitId o.styleId) :
    Symbol.setLibId {} (.str o.libId) = .ok
      { libraryNickname := canon o.libraryNickname, entryName := canon o.entryName, unitId := canon o.unitId,
        styleId := canon o.styleId } := by
  obtain ⟨a, b, c, d, _⟩ := o
  simp only at h
  cases h with
  | nick n e h1 h2 h3 h4 h5 h6 =>
    have : n.isEmpty = false := by cases n <;> simp_all
    have e1 := matchNick_mk h1 h2 h3 h4 h5
    simp only [Symbol.setLibId, Symbol.libId, Val.truthy, this, optPyStr, Val.pyStr, kw, Bool.not_false, if_true, List.cons_append,
      List.nil_append, e1]
    rfl
  | unit e u s h1 h2 h3 =>
    have n1 : ¬ ((s : Int) < 0) := by omega
    have n2 : ¬ ((u : Int) < 0) := by omega
    have e1 : matchUnit (e ++ '_' :: (natStr u ++ '_' :: natStr s)) = some (e, natStr u, natStr s) :=
      matchUnit_mk (TextRule.begins_ne h1) h3 (natStr_ne_nil u) (natStr_digits u) (natStr_ne_nil s) (natStr_digits s)
    have e2 : matchNick (e ++ '_' :: (natStr u ++ '_' :: natStr s)) = none := by
      refine matchNick_none ?_
      have c1 : ':' ∉ natStr u := fun h => by have := natStr_digits u _ h; revert this; decide
      have c2 : ':' ∉ natStr s := fun h => by have := natStr_digits s _ h; revert this; decide
      intro hx
      have hx := List.dropLast_subset _ hx
      cases e with
      | nil => exact TextRule.begins_ne h1 rfl
      | cons c e =>
        simp only [List.cons_append, List.drop_one, List.tail_cons, List.mem_append, List.mem_cons] at hx h2
        simp [h2, c1, c2] at hx
    simp only [Symbol.setLibId, Symbol.libId, optPyStr, Val.pyStr, intStr, kw, n1, n2, if_false, Int.natAbs_natCast,
      List.cons_append, List.nil_append, e1, e2, digitsVal_natStr]
    rfl
  | top e h1 h2 h3 h4 =>
    have e1 : matchNick e = none := matchNick_none h1
    have e2 : matchUnit e = none := by
      cases hm : matchUnit e with
      | none => rfl
      | some p =>
        obtain ⟨a1, -, a3, a4, a5, a6, a7⟩ := matchUnit_some (e := p.1) (u := p.2.1) (v := p.2.2) hm
        rcases a7 with a7 | a7
        · exact absurd ⟨a4, a6⟩ (h4 _ _ _ a7 a1 a3 a5)
        · rw [a7] at h2; simp at h2
    simp only [Symbol.setLibId, Symbol.libId, optPyStr, Val.pyStr, List.append_nil, e1, e2]
    rfl

theorem Symbol.lx [TextRule] {o : Symbol} (h : o.WF) : ∀ {i nl s t}, s ⇛ t → (o.toSexpr i nl ++ s) ⇛ toks o.toVal ++ t := by
  induction h with
  | mk o h hu ih =>
    intro i nl s t hs
    obtain ⟨h1, h2, h3, h4, h5, h6, h7⟩ := h
    have h8 : ∀ {s t}, sqEnd s = true → s ⇛ t → ('"' :: (dequote o.libId ++ '"' :: s)) ⇛ toks (.str o.libId) ++ t :=
      fun hd hs => lx_text (v := .str o.libId) h1.text hd hs
    rw [toSexpr_eq, toVal_eq]
    simp only [textFlat, flatVals]
    lxNorm
    lxAuto
    delim

macro_rules | `(tactic| lxObj) => `(tactic| ((with_reducible refine Symbol.lx ?_ ?_); (· wf)))

seal Symbol.fromSexpr

theorem Symbol.step_item [TextRule] {o : Symbol} {a : SyItem} (h : a.WF) :
    Symbol.step o a.toVal = .ok { o with graphicItems := o.graphicItems ++ [canon a] } := by
  cases a with
  | arc a =>
    exact eq_bind (b := canon a) (fun v : SyArc => { o with graphicItems := o.graphicItems ++ [SyItem.arc v] })
      (SyArc.from_toVal (o := a) h) rfl
  | circle a =>
    exact eq_bind (b := canon a) (fun v : SyCircle => { o with graphicItems := o.graphicItems ++ [SyItem.circle v] })
      (SyCircle.from_toVal (o := a) h) rfl
  | curve a => exact False.elim h
  | polyline a =>
    exact eq_bind (b := canon a) (fun v : SyPolyLine => { o with graphicItems := o.graphicItems ++ [SyItem.polyline v] })
      (SyPolyLine.from_toVal (o := a) h) rfl
  | rect a =>
    exact eq_bind (b := canon a) (fun v : SyRect => { o with graphicItems := o.graphicItems ++ [SyItem.rect v] })
      (SyRect.from_toVal (o := a) h) rfl
  | text a =>
    exact eq_bind (b := canon a) (fun v : SyText => { o with graphicItems := o.graphicItems ++ [SyItem.text v] })
      (SyText.from_toVal (o := a) h) rfl
  | textBox a =>
    exact eq_bind (b := canon a) (fun v : SyTextBox => { o with graphicItems := o.graphicItems ++ [SyItem.textBox v] })
      (SyTextBox.from_toVal (o := a) h) rfl

theorem Symbol.step_pinNames {o : Symbol} {off : Option Val} {hide : Bool} (h1 : o.pinNamesOffset = none := by rfl)
    (h2 : o.pinNamesHide = false := by rfl) :
    Symbol.step o (.list ([.str k!"pin_names"] ++ (optL off fun v => [.list [.str k!"offset", v.canon]]) ++
      ifL hide [.str k!"hide"])) = .ok { o with pinNames := true, pinNamesOffset := canon off, pinNamesHide := hide } := by
  cases o; cases h1; cases h2
  cases off <;> cases hide <;> rfl

theorem Symbol.step_unit {o : Symbol} {a b : Symbol} (h : Symbol.fromSexpr a.toVal = .ok b) :
    Symbol.step o a.toVal = .ok { o with units := o.units ++ [b] } := by
  refine eq_bind (fun v : Symbol => { o with units := o.units ++ [v] }) h ?_
  rw [Symbol.toVal_eq]
  rfl

theorem Symbol.from_toVal [TextRule] {o : Symbol} (h : o.WF) : Symbol.fromSexpr o.toVal = .ok (canon o) := by
  induction h with
  | mk o h hu ih =>
    have e : ∀ (p : Symbol) xs r, p.pinNames = false → p.pinNamesOffset = none → p.pinNamesHide = false →
        forM Symbol.step { p with pinNames := o.pinNames, pinNamesOffset := canon o.pinNamesOffset, pinNamesHide := o.pinNamesHide }
          xs = r →
        forM Symbol.step p (ifL o.pinNames [.list ([.str k!"pin_names"] ++
          (optL o.pinNamesOffset fun v => [.list [.str k!"offset", v.canon]]) ++ ifL o.pinNamesHide [.str k!"hide"])] ++ xs) = r := by
      intro p xs r p1 p2 p3 hr
      have hh := h.pinNames
      cases hn : o.pinNames with
      | true =>
        rw [hn] at hr
        exact fo_cons (Symbol.step_pinNames p2 p3) hr
      | false =>
        obtain ⟨q1, q2⟩ := hh hn
        rw [hn, q1, q2] at hr
        rw [← hr]
        cases p; cases p1; cases p2; cases p3
        rfl
    rw [Symbol.toVal_eq]
    simp only [Symbol.flatVals]
    simp only [List.append_assoc, List.cons_append, List.nil_append]
    rw [Symbol.fromSexpr_eq]
    refine bind_ok h.id.set_get ?_
    apply fo_start
    simp only [List.append_assoc, List.cons_append, List.nil_append]
    fldO extends_
    fldF isPower
    fldF hidePinNumbers
    refine e _ _ _ rfl rfl rfl ?_
    refine fo_opt (fun o v => { o with inBom := v }) canon rfl (by intro b _; cases b <;> rfl) ?_
    refine fo_opt (fun o v => { o with onBoard := v }) canon rfl (by intro b _; cases b <;> rfl) ?_
    fldL properties using (fun a ha => Property.from_toVal (h.properties a ha))
    refine fo_list (fun o v => { o with graphicItems := v }) canon rfl (fun pre a ha => step_item (h.graphicItems a ha)) ?_
    fldL pins using (fun a ha => SymbolPin.from_toVal (h.pins a ha))
    dsimp only
    refine fo_list (fun o v => { o with units := v }) canon rfl (fun pre a ha => step_unit (ih a ha)) ?_
    rw [fo_end]
    dsimp only
    cases o
    refine congrArg Except.ok ?_
    refine Eq.trans ?_ (Symbol.canonS.eq_1 ..).symm
    rw [Symbol.canonL_eq]
    simp only [canon]

theorem SymbolLib.lx [TextRule] {o : SymbolLib} (h : o.WF) {i nl s t} (hs : s ⇛ t) :
    (o.toSexpr i nl ++ s) ⇛ toks o.toVal ++ t := by
  obtain ⟨h1, h2, h3⟩ := h
  obtain ⟨g, hg, hg'⟩ := h2
  have h2 : o.generator.getD (.str k!"None") = g := by rw [hg]; rfl
  have h4 : optPyStr o.generator = g.pyStr := by rw [hg]; rfl
  simp only [toSexpr, toVal, h2, h4]
  lxNorm
  lxAuto

macro_rules | `(tactic| lxObj) => `(tactic| ((with_reducible refine SymbolLib.lx ?_ ?_); (· wf)))

theorem SymbolLib.from_toVal [TextRule] {o : SymbolLib} (h : o.WF) : SymbolLib.fromSexpr o.toVal = .ok (canon { o with filePath := none }) := by
  obtain ⟨g, hg, -⟩ := h.generator
  simp only [toVal, fromSexpr]
  foStart
  fld version
  refine fo_cons (o' := { ({} : SymbolLib) with version := o.version.canon, generator := canon o.generator }) (by rw [hg]; rfl) ?_
  refine fo_listB (fun o v => { o with symbols := v }) (fun a ha => Symbol.from_toVal (h.symbols a ha)) rfl (by intro _ a; rw [Symbol.toVal_eq]; rfl) ?_
  rfl

seal SymbolLib.fromSexpr

end Kiutils
