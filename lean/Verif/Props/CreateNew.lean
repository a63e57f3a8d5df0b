import Verif.Props.RoundTrip
import Verif.Props.LibId
/-!
# Freshly created objects (C31)

`create_new` of `Board`, `Schematic`, `WorkSheet` and `Footprint` stores the version as the text `'20211014'`
(misc/config.py 13), which is written without quotes and so is read back as a number: the loaded object never equals the created
one (`_violated`), but differs from it in nothing else (`_partial`).
-/
namespace Kiutils

/-! ## Helpers: well-formedness of the created objects -/

theorem ok_fl {ip fp : Str} (h1 : ip ≠ []) (h2 : fp ≠ []) (h3 : ∀ c ∈ ip, isDigit c = true) (h4 : ∀ c ∈ fp, isDigit c = true)
    (h5 : (F64.ofDecimal false ip fp).repr = ip ++ '.' :: fp) : NumOk (fl ip fp) :=
  ⟨false, ip, fp, h1, h2, h3, h4, by simpa using h5, rfl⟩

set_option maxRecDepth 100000 in
theorem GeneralSettings.default_wf : GeneralSettings.WF {} := ⟨ok_fl (by decide) (by decide) (by decide) (by decide) (by decide)⟩

set_option maxRecDepth 100000 in
theorem ok_zero : NumOk (fl k!"0" k!"0") := ok_fl (by decide) (by decide) (by decide) (by decide) (by decide)

theorem SetupData.default_wf : SetupData.WF {} :=
  ⟨by optOk, ok_zero, by optOk, by optOk, by optOk, by optOk, by optOk, by optOk⟩

theorem PageSettings.default_wf : PageSettings.WF {} :=
  ⟨by textOk, (by intro h; cases h), (by intro h; cases h), fun _ => ⟨rfl, rfl⟩⟩

theorem IsNickname.colon {s n e : Str} (h : IsNickname s n e) : ':' ∉ n.drop 1 := by
  obtain ⟨rfl, h1, h2, h3⟩ := h
  cases n with
  | nil => exact absurd rfl h1
  | cons c n =>
    intro hx
    simp only [List.drop_one, List.tail_cons] at hx
    obtain ⟨a, b, rfl⟩ := List.append_of_mem hx
    have := h3 (c :: a) (b ++ ':' :: e) (by simp) (by simp) (by simp)
    simp at this
    omega

theorem NoNickname.colon {s : Str} (h : NoNickname s) : ':' ∉ (s.drop 1).dropLast := by
  cases s with
  | nil => simp
  | cons c s =>
    intro hx
    simp only [List.drop_one, List.tail_cons] at hx
    obtain ⟨a, b, hab⟩ := List.append_of_mem hx
    have hs : s ≠ [] := by rintro rfl; simp at hx
    have : s = a ++ ':' :: (b ++ [s.getLast hs]) := by
      have := (List.dropLast_concat_getLast hs).symm
      rw [hab] at this
      simpa using this
    rcases h (c :: a) (b ++ [s.getLast hs]) (by simpa using this) with h | h
    · cases h
    · simp at h

/-- Any identifier without line breaks and without a backslash at its end is well formed. -/
theorem schIdOk_of_text {s n e : Str} (hs : '\n' ∉ s) (hb : s.getLast? ≠ some '\\') :
    (IsNickname s n e → SchIdOk (some (.str n)) (some (.str e))) ∧ (NoNickname s → SchIdOk none (some (.str s))) := by
  constructor
  · intro h
    have hc := h.colon
    obtain ⟨rfl, h1, h2, -⟩ := h
    simp only [List.mem_append, List.mem_cons, not_or] at hs
    refine .nick n e h1 hc hs.1 h2 hs.2.2 ?_
    show e.getLast? ≠ _
    rw [List.getLast?_append, List.getLast?_cons] at hb
    cases he : e.getLast? with
    | none => simp
    | some x => simpa [he] using hb
  · intro h
    exact .plain s h.colon hb

theorem idOk_of_text {s : Str} (hs : '\n' ∉ s) (hb : s.getLast? ≠ some '\\')
    (hz : (∃ n e, IsNickname s n e) ∨ ∀ e u v, EndsInNumbers s e u v → ∃ a b, u = natStr a ∧ v = natStr b) (o o' : Symbol)
    (h : o.setLibId (.str s) = .ok o') : IdOk o'.libraryNickname o'.entryName o'.unitId o'.styleId := by
  obtain ⟨o'', h', hp⟩ := C25_Symbol_parts o s hs
  rw [h] at h'
  cases h'
  rcases hp with ⟨n, e, hn, h1, h2, h3, h4⟩ | ⟨hn, e, u, v, he, h1, h2, h3, h4⟩ | ⟨hn, he, h1, h2, h3, h4⟩
  · rw [h1, h2, h3, h4]
    have hc := hn.colon
    obtain ⟨rfl, h1, h2, -⟩ := hn
    simp only [List.mem_append, List.mem_cons, not_or] at hs
    refine .nick n e h1 hc hs.1 h2 hs.2.2 ?_
    show e.getLast? ≠ _
    rw [List.getLast?_append, List.getLast?_cons] at hb
    cases he : e.getLast? with
    | none => simp
    | some x => simpa [he] using hb
  · rw [h1, h2, h3, h4]
    rcases hz with ⟨n, e', hn'⟩ | hz
    · rcases hn n e' hn'.1 with h | h
      · exact absurd h hn'.2.1
      · exact absurd h hn'.2.2.1
    · obtain ⟨rfl, h5, h6, h7, h8, h9⟩ := he
      simp only [List.mem_append, List.mem_cons, not_or] at hs
      have hc := hn.colon
      refine .unit e _ _ h5 (fun hx => hc ?_) hs.1
      cases e with
      | nil => exact absurd rfl h5
      | cons c e =>
        simp only [List.drop_one, List.tail_cons, List.cons_append] at hx ⊢
        rw [List.dropLast_append_of_ne_nil (by simp)]
        exact List.mem_append_left _ hx
  · rw [h1, h2, h3, h4]
    refine .top s hn.colon hs hb fun p u v h5 h6 h7 h8 h9 => he p u v ⟨h5, h6, h7, h8, h9.1, h9.2⟩

theorem font_wf {t : Option Val} {v : Val} (hv : NumOk v) (ht : ∀ x, t = some x → NumOk x) :
    Font.WF { width := v, height := v, thickness := t } :=
  ⟨by optOk, hv, hv, ht, by optOk, by optOk⟩

theorem justify_wf : Justify.WF {} := ⟨by optOk, by optOk⟩

/-! ## Boards, schematics and worksheets -/

theorem Board.createNew_wf : Board.WF { Board.createNew with version := .int 20211014 } :=
  { version := .inl (ok_int (by decide)), generator := .inr (by show TokOk (st _); tokOk), general := GeneralSettings.default_wf,
    paper := PageSettings.default_wf, titleBlock := by optOk,
    layers := (by
      have : ∀ v ∈ standardLayers, v.WF := by
        unfold standardLayers
        listOk <;> exact ⟨ok_int (by decide), by textOk, .inr (by tokOk), by intro v hv; cases hv <;> textOk⟩
      exact this),
    setup := SetupData.default_wf, propertyNames := by listOk, properties := by listOk, distinct := .nil,
    nets := (by listOk; exact ⟨ok_int (by decide), by textOk⟩), footprints := by listOk,
    graphicItems := by listOk, dimensions := by listOk, targets := by listOk, traceItems := by listOk, zones := by listOk,
    groups := by listOk }

/-- Loading the text of a new board succeeds and gives a new board with a number as its version. -/
theorem C31_Board_partial (tedit : Val) (i : Nat) (nl : Bool) :
    Reloads (Board.createNew.toSexpr i nl) (Board.fromSexpr tedit) { Board.createNew with version := .int 20211014 } := by
  have h := C19_Board _ Board.createNew_wf tedit i nl
  have ht : Board.toSexpr { Board.createNew with version := .int 20211014 } i nl = Board.createNew.toSexpr i nl := by
    unfold Board.toSexpr
    simp only [show (Val.int 20211014).pyStr = Board.createNew.version.pyStr from by decide]
  rw [ht] at h
  exact h

theorem version_differs {v : Val} (h1 : Val.Eq (.int 20211014) v) (h2 : Val.Eq (.str k!"20211014") v) : False := by
  cases h1; cases h2

/-- Loading the text of a new board never gives an equal board. -/
theorem C31_Board_violated (tedit : Val) (i : Nat) (nl : Bool) :
    ¬ Reloads (Board.createNew.toSexpr i nl) (Board.fromSexpr tedit) Board.createNew := by
  rintro ⟨o, h, he⟩
  obtain ⟨o', h', he'⟩ := C31_Board_partial tedit i nl
  rw [h] at h'; cases h'
  exact version_differs he'.1 he.1

theorem Schematic.createNew_wf : Schematic.WF { Schematic.createNew with version := .int 20211014 } :=
  { version := .inl (ok_int (by decide)), generator := .inr (by show TokOk (st _); tokOk), uuid := by optOk,
    paper := PageSettings.default_wf, titleBlock := by optOk, libSymbols := by listOk, junctions := by listOk, noConnects := by listOk,
    busEntries := by listOk, busAliases := by listOk, graphicalItems := by listOk, shapes := by listOk, images := by listOk,
    textBoxes := by listOk, texts := by listOk, labels := by listOk, globalLabels := by listOk, hierarchicalLabels := by listOk,
    netclassFlags := by listOk, schematicSymbols := by listOk, sheets := by listOk,
    sheetInstances := (by listOk; exact ⟨by textOk, by textOk⟩), symbolInstances := by listOk }

theorem C31_Schematic_partial (i : Nat) (nl : Bool) :
    Reloads (Schematic.createNew.toSexpr i nl) Schematic.fromSexpr { Schematic.createNew with version := .int 20211014 } := by
  have h := C17_Schematic _ Schematic.createNew_wf i nl
  have ht : Schematic.toSexpr { Schematic.createNew with version := .int 20211014 } i nl = Schematic.createNew.toSexpr i nl := by
    unfold Schematic.toSexpr
    simp only [show (Val.int 20211014).pyStr = Schematic.createNew.version.pyStr from by decide]
  rw [ht] at h
  exact h

theorem C31_Schematic_violated (i : Nat) (nl : Bool) :
    ¬ Reloads (Schematic.createNew.toSexpr i nl) Schematic.fromSexpr Schematic.createNew := by
  rintro ⟨o, h, he⟩
  obtain ⟨o', h', he'⟩ := C31_Schematic_partial i nl
  rw [h] at h'; cases h'
  exact version_differs he'.1 he.1

set_option maxRecDepth 100000 in
theorem WorkSheet.createNew_wf : WorkSheet.WF { WorkSheet.createNew with version := .int 20211014 } :=
  { version := ok_int (by decide), generator := (by show TokOk (st _); tokOk), drawingObjects := by listOk,
    setup := (by
      have h1 : NumOk (fl k!"0" k!"15") := ok_fl (by decide) (by decide) (by decide) (by decide) (by decide)
      have h2 : NumOk (fl k!"10" k!"0") := ok_fl (by decide) (by decide) (by decide) (by decide) (by decide)
      have h3 : NumOk (fl k!"1" k!"5") := ok_fl (by decide) (by decide) (by decide) (by decide) (by decide)
      exact ⟨⟨h3, h3⟩, h1, h1, h2, h2, h2, h2⟩) }

theorem C31_WorkSheet_partial (i : Nat) (nl : Bool) :
    Reloads (WorkSheet.createNew.toSexpr i nl) WorkSheet.fromSexpr { WorkSheet.createNew with version := .int 20211014 } := by
  have h := C15_WorkSheet _ WorkSheet.createNew_wf i nl
  have ht : WorkSheet.toSexpr { WorkSheet.createNew with version := .int 20211014 } i nl = WorkSheet.createNew.toSexpr i nl := by
    unfold WorkSheet.toSexpr
    simp only [show (Val.int 20211014).pyStr = WorkSheet.createNew.version.pyStr from by decide]
  rw [ht] at h
  exact h

theorem C31_WorkSheet_violated (i : Nat) (nl : Bool) :
    ¬ Reloads (WorkSheet.createNew.toSexpr i nl) WorkSheet.fromSexpr WorkSheet.createNew := by
  rintro ⟨o, h, he⟩
  obtain ⟨o', h', he'⟩ := C31_WorkSheet_partial i nl
  rw [h] at h'; cases h'
  exact version_differs he'.1 he.1

/-! ## Design rules and library tables -/

theorem C31_DesignRules (i : Nat) (nl : Bool) :
    ∃ o', (DesignRules.createNew.toSexpr i nl >>= DesignRules.parseText) = .ok o' ∧ PyEq.eq DesignRules.createNew o' :=
  C14_DesignRules DesignRules.createNew ⟨ok_int (by decide), by listOk⟩ i nl

/-- `create_new` accepts any type, but only tables of the two known types can be loaded. -/
theorem C31_LibTable_partial (t : Str) (ht : t = k!"sym_lib_table" ∨ t = k!"fp_lib_table") (i : Nat) (nl : Bool) :
    Reloads (.ok ((LibTable.createNew (.str t)).toSexpr i nl)) LibTable.fromSexpr (LibTable.createNew (.str t)) :=
  C13_LibTable (LibTable.createNew (.str t)) ⟨by rcases ht with rfl | rfl <;> simp [LibTable.createNew], by listOk⟩ i nl
example := C31_LibTable_partial k!"fp_lib_table" (.inr rfl)

theorem C31_LibTable_violated (t : Str) (hw : TokOk (.str t)) (h1 : t ≠ k!"sym_lib_table") (h2 : t ≠ k!"fp_lib_table") (i : Nat)
    (nl : Bool) :
    ((.ok ((LibTable.createNew (.str t)).toSexpr i nl) : PyM Str) >>= parseSexp >>= LibTable.fromSexpr) = .error .exception := by
  have h : Lexes (.ok ((LibTable.createNew (.str t)).toSexpr i nl)) [.list [.str t]] := .one fun s r hs => by
    simp only [LibTable.createNew, LibTable.toSexpr, forS]
    lxNorm
    exact lx_indents (lx_op (lx_tok hw rfl (lx_nl (lx_indents (lx_cl (lx_endl hs))))))
  rw [h.parse]
  show (if _ then _ else _) = _
  rw [if_neg]
  simp only [Val.is, Bool.or_eq_true, beq_iff_eq, not_or]
  exact ⟨h2, h1⟩
example : TokOk (.str k!"table") ∧ k!"table" ≠ k!"sym_lib_table" ∧ k!"table" ≠ k!"fp_lib_table" := ⟨by tokOk, by decide, by decide⟩

/-! ## Symbols and footprints, with arguments -/

set_option maxRecDepth 100000 in
/-- A new symbol with any identifier (without line breaks, and without leading zeros in unit numbers) and any texts that do not
end in a backslash can be saved and comes back equal. -/
theorem C31_Symbol (id : Str) (reference value footprint datasheet : Val) (hs : '\n' ∉ id) (hb : id.getLast? ≠ some '\\')
    (hz : (∃ n e, IsNickname id n e) ∨ ∀ e u v, EndsInNumbers id e u v → ∃ a b, u = natStr a ∧ v = natStr b)
    (hr : TextOk reference) (hv : TextOk value) (hf : TextOk footprint) (hd : TextOk datasheet) :
    ∃ o, Symbol.createNew (.str id) reference value footprint datasheet = .ok o ∧ o.libId = id ∧
      ∀ i nl, Reloads (.ok (o.toSexpr i nl)) Symbol.fromSexpr o := by
  obtain ⟨o, ho, hl⟩ := C25_Symbol { inBom := some true, onBoard := some true } id hs
  have hid := idOk_of_text hs hb hz _ _ ho
  have hr' := (C26_rename _ _ _ ho).2
  have hu : o.units = [] := by have := (C26_rename _ _ _ ho).1; simpa using this
  have h127 : NumOk (fl k!"1" k!"27") := ok_fl (by decide) (by decide) (by decide) (by decide) (by decide)
  have hfont : Font.WF { width := fl k!"1" k!"27", height := fl k!"1" k!"27" } := font_wf h127 (by optOk)
  have hpos : Position.WF { angle := some (.int 0) } := ⟨ok_zero, ok_zero, by optOk; exact ok_int (by decide), rfl⟩
  have hp : o.properties = [] := by rw [hr']
  have hg : o.graphicItems = [] := by rw [hr']
  have hpi : o.pins = [] := by rw [hr']
  have hex : o.extends_ = none := by rw [hr']
  have hpn : o.pinNamesHide = false ∧ o.pinNamesOffset = none := by rw [hr']; exact ⟨rfl, rfl⟩
  have hc : ∃ c, Symbol.createNew (.str id) reference value footprint datasheet = .ok c := by
    simp only [Symbol.createNew, ho]; exact ⟨_, rfl⟩
  obtain ⟨c, hc⟩ := hc
  refine ⟨c, hc, ?_⟩
  simp only [Symbol.createNew, ho] at hc
  cases hc
  refine ⟨hl.2 hz, fun i nl => C16_Symbol _ ?_ i nl⟩
  refine .mk _ ?_ ?_
  refine ⟨hid, ?_, fun _ => hpn, ?_, ?_, ?_, ?_⟩
  · simp only [hex]; optOk
  · simp only [hpn.2]; optOk
  · simp only [hp]
    listOk
    · exact ⟨by textOk, hr, by optOk; exact ok_int (by decide), hpos, by optOk; exact ⟨hfont, justify_wf, by optOk⟩⟩
    · exact ⟨by textOk, hv, by optOk; exact ok_int (by decide), hpos, by optOk; exact ⟨hfont, justify_wf, by optOk⟩⟩
    · exact ⟨by textOk, hf, by optOk; exact ok_int (by decide), hpos, by optOk; exact ⟨hfont, justify_wf, by optOk⟩⟩
    · exact ⟨by textOk, hd, by optOk; exact ok_int (by decide), hpos, by optOk; exact ⟨hfont, justify_wf, by optOk⟩⟩
  · simp only [hg]; listOk
  · simp only [hpi]; listOk
  · simp only [hu]; listOk
example := C31_Symbol k!"Device:R" (.str k!"R") (.str k!"4k7 \"1%\"") (.str []) (.str k!"~") (by decide) (by decide)
  (.inl ⟨_, _, matchNick_isNickname (by decide) (show matchNick k!"Device:R" = some (k!"Device", k!"R") by decide)⟩) (by textOk) (by textOk)
  (by textOk) (by textOk)

set_option maxRecDepth 100000 in
theorem newFpText_wf {type layer : Str} {text y : Val} (h1 : TokOk (.str type)) (h2 : TextOk text) (h3 : TextOk (.str layer))
    (h4 : NumOk y) : (newFpText type text layer y).WF :=
  ⟨h1, h2, ⟨ok_int (by decide), h4, by optOk⟩, h3,
    ⟨font_wf (by exact ok_fl (by decide) (by decide) (by decide) (by decide) (by decide))
      (by optOk; exact ok_fl (by decide) (by decide) (by decide) (by decide) (by decide)), justify_wf, by optOk⟩, by optOk, by optOk⟩

/-- The three types that `create_new` accepts; all others raise an exception. -/
theorem C31_Footprint_type (tedit : Val) (id value type reference : Str) :
    Footprint.createNew tedit id value type reference = .error .exception ↔
      type ≠ k!"smd" ∧ type ≠ k!"through_hole" ∧ type ≠ k!"other" := by
  unfold Footprint.createNew
  split
  · rename_i h
    simp only [Bool.or_eq_true, beq_iff_eq] at h
    constructor
    · intro h; cases h
    · rintro ⟨h1, h2, h3⟩
      rcases h with (h | h) | h <;> contradiction
  · rename_i h
    simp only [Bool.or_eq_true, beq_iff_eq, not_or] at h
    exact ⟨fun _ => ⟨h.1.1, h.1.2, h.2⟩, fun _ => rfl⟩

set_option maxRecDepth 100000 in
/-- A new footprint with any identifier and texts (without line breaks in the identifier, and without a backslash at the end)
can be saved; it comes back with a number as its version and otherwise equal. The time stamp must be a word: if its hexadecimal
digits happen to be all decimal, it is read as a number, too. -/
theorem C31_Footprint_partial (tedit : Val) (id value type reference : Str) (hs : '\n' ∉ id) (hb : id.getLast? ≠ some '\\')
    (hv : TextOk (.str value)) (hr : TextOk (.str reference)) (ht : type = k!"smd" ∨ type = k!"through_hole" ∨ type = k!"other")
    (hd : TokOk tedit) :
    ∃ o, Footprint.createNew tedit id value type reference = .ok o ∧ o.libId = id ∧
      ∀ tedit' i nl lf, Reloads (o.toSexpr i nl lf) (Footprint.fromSexpr tedit') { o with version := some (.int 20211014) } := by
  have hid : ∀ p : Footprint, SchIdOk (p.setLibId (.str id)).libraryNickname (p.setLibId (.str id)).entryName := by
    intro p
    rcases C25_Footprint_parts p id hs with ⟨n, e, h1, h2⟩ | ⟨h1, h2⟩
    · rw [h2]; exact (schIdOk_of_text hs hb).1 h1
    · rw [h2]; exact (schIdOk_of_text (n := []) (e := []) hs hb).2 h1
  have hc : ∃ c, Footprint.createNew tedit id value type reference = .ok c := by
    rcases ht with rfl | rfl | rfl <;> exact ⟨_, rfl⟩
  obtain ⟨c, hc⟩ := hc
  refine ⟨c, hc, ?_⟩
  have hrest : ∃ (n e : Option Val) (a : Option Val), (∀ v, a = some v → v = .str k!"through_hole" ∨ v = .str k!"smd") ∧ SchIdOk n e ∧
      c = { tedit := tedit, libraryNickname := n, entryName := e, version := some createNewVersion,
            generator := some createNewGenerator, attributes := { type := a },
            graphicItems := [.text (newFpText k!"reference" (.str reference) k!"F.SilkS" (.flt (F64.ofDecimal true k!"0" k!"5"))),
              .text (newFpText k!"value" (.str value) k!"F.Fab" (.int 1)),
              .text (newFpText k!"user" (st k!"${REFERENCE}") k!"F.Fab" (fl k!"2" k!"5"))] } ∧ c.libId = id := by
    have h0 : ∀ p : Footprint, ∃ n e, SchIdOk n e ∧ p.setLibId (.str id) = { p with libraryNickname := n, entryName := e } := by
      intro p
      rcases C25_Footprint_parts p id hs with ⟨n, e, h1, h2⟩ | ⟨h1, h2⟩
      · exact ⟨_, _, (schIdOk_of_text hs hb).1 h1, h2⟩
      · exact ⟨_, _, (schIdOk_of_text (n := []) (e := []) hs hb).2 h1, h2⟩
    obtain ⟨n, e, hne, hp⟩ := h0 { tedit := tedit, version := some createNewVersion, generator := some createNewGenerator }
    have hl := C25_Footprint { tedit := tedit, version := some createNewVersion, generator := some createNewGenerator } id hs
    unfold Footprint.createNew at hc
    rw [hp] at hl
    simp only [hp] at hc
    rcases ht with rfl | rfl | rfl
    · cases hc; exact ⟨n, e, _, by optOk; exact .inr rfl, hne, rfl, hl⟩
    · cases hc; exact ⟨n, e, _, by optOk; exact .inl rfl, hne, rfl, hl⟩
    · cases hc; exact ⟨n, e, _, by optOk, hne, rfl, hl⟩
  obtain ⟨n, e, a, ha, hne, rfl, hl⟩ := hrest
  refine ⟨hl, fun tedit' i nl lf => ?_⟩
  have hm05 : NumOk (.flt (F64.ofDecimal true k!"0" k!"5")) :=
    ⟨true, k!"0", k!"5", by decide, by decide, by decide, by decide, by decide, rfl⟩
  have h25 : NumOk (fl k!"2" k!"5") := ok_fl (by decide) (by decide) (by decide) (by decide) (by decide)
  have h := C18_Footprint
    { tedit := tedit, libraryNickname := n, entryName := e, version := some (.int 20211014),
      generator := some createNewGenerator, attributes := { type := a },
      graphicItems := [.text (newFpText k!"reference" (.str reference) k!"F.SilkS" (.flt (F64.ofDecimal true k!"0" k!"5"))),
        .text (newFpText k!"value" (.str value) k!"F.Fab" (.int 1)),
        .text (newFpText k!"user" (st k!"${REFERENCE}") k!"F.Fab" (fl k!"2" k!"5"))] }
    { id := hne, version := (by optOk; exact .inl (ok_int (by decide))), generator := (by optOk; exact .inr (by tokOk)),
      layer := (by textOk), tedit := .inr hd, tstamp := (by optOk), position := (by optOk), description := (by optOk),
      tags := (by optOk), propertyNames := (by listOk), properties := (by listOk), distinct := .nil, path := (by optOk),
      autoplaceCost90 := (by optOk), autoplaceCost180 := (by optOk), solderMaskMargin := (by optOk),
      solderPasteMargin := (by optOk), solderPasteRatio := (by optOk), clearance := (by optOk), zoneConnect := (by optOk),
      thermalWidth := (by optOk), thermalGap := (by optOk), attributes := ⟨ha⟩,
      privateLayers := (by listOk), netTiePadGroups := (by listOk),
      graphicItems := (by
        listOk
        · exact newFpText_wf (by tokOk) hr (by textOk) hm05
        · exact newFpText_wf (by tokOk) hv (by textOk) (ok_int (by decide))
        · exact newFpText_wf (by tokOk) (by textOk) (by textOk) h25),
      pads := (by listOk), zones := (by listOk), groups := (by listOk), models := (by listOk) } tedit' i nl lf
  exact h
example := C31_Footprint_partial (.str k!"5f12ab3c") k!"R:0603" k!"4k7 \"1%\"" k!"smd" k!"R1" (by decide) (by decide) (by textOk) (by textOk)
  (.inl rfl) (by tokOk)

theorem C31_Footprint_violated (tedit : Val) (id value type reference : Str) (hs : '\n' ∉ id) (hb : id.getLast? ≠ some '\\')
    (hv : TextOk (.str value)) (hr : TextOk (.str reference)) (hd : TokOk tedit) (o : Footprint)
    (ho : Footprint.createNew tedit id value type reference = .ok o) (tedit' : Val) (i : Nat) (nl lf : Bool) :
    ¬ Reloads (o.toSexpr i nl lf) (Footprint.fromSexpr tedit') o := by
  have ht : type = k!"smd" ∨ type = k!"through_hole" ∨ type = k!"other" := by
    refine Classical.byContradiction fun hc => ?_
    simp only [not_or] at hc
    rw [(C31_Footprint_type tedit id value type reference).2 hc] at ho
    cases ho
  rintro ⟨o1, h, he⟩
  obtain ⟨o2, h2, _, h3⟩ := C31_Footprint_partial tedit id value type reference hs hb hv hr ht hd
  rw [ho] at h2; cases h2
  obtain ⟨o3, h', he'⟩ := h3 tedit' i nl lf
  rw [h] at h'; cases h'
  have hv : o.version = some (.str k!"20211014") := by
    rcases ht with rfl | rfl | rfl <;>
    · cases ho
      show (Footprint.setLibId _ _).version = _
      unfold Footprint.setLibId
      split <;> rfl
  have e1 := he'.2.2.1
  have e2 := he.2.2.1
  rw [hv] at e2
  revert e1 e2
  cases o1.version with
  | none => exact fun e => nomatch e
  | some v => exact fun e1 e2 => version_differs e1 e2
example := C31_Footprint_violated (.str k!"5f12ab3c") k!"R:0603" k!"4k7 \"1%\"" k!"smd" k!"R1" (by decide) (by decide) (by textOk) (by textOk)
  (by tokOk) _ rfl

end Kiutils
