import Verif.Proofs.Holes
import Verif.Props.Zones
import Verif.Props.Keeps
/-!
# Holes of pads (C42, C79)

C42 said which drills are the same after saving and loading; here is the exact condition. C79: the file content of pads, footprints and
boards is kept for *all* holes that KiCad writes, round holes with an offset included (`Verif/Format/Holes.lean`).
-/
namespace Kiutils

/-! ## Lemmas -/

theorem DrillDefinition.Hole.loads [TextRule] {o : DrillDefinition} (h : o.Hole) (i : Nat) (nl : Bool) :
    ((.ok (o.toSexpr i nl) : PyM Str) >>= parseSexp >>= DrillDefinition.fromSexpr) = .ok (canon o.loaded) :=
  (Lexes.one fun _ _ hs => h.lx hs).loads h.from_toVal

theorem not_list {v : Val} (h : NumOk v) (l : List Val) : ¬ Val.Eq v (.list l) := by
  intro he
  cases v with
  | list _ => exact h
  | str _ => exact h
  | int _ => cases he
  | flt _ => cases he

/-- An oval hole with one size and an offset. -/
theorem DrillDefinition.oval_offset [TextRule] {o : DrillDefinition} {p : Position} (hr : o.oval = true) (hd : NumOk o.diameter) (hw : o.width = none)
    (hp : p.WFXY) (ho : o.offset = some p) (i : Nat) (nl : Bool) :
    ∃ o', (parseSexp (o.toSexpr i nl) >>= DrillDefinition.fromSexpr) = .ok o' ∧ o'.width = some (p.toValXY k!"offset") := by
  have hl : parseSexp (o.toSexpr i nl) = .ok (.list [.str k!"drill", .str k!"oval", o.diameter.canon, p.toValXY k!"offset"]) := by
    refine parse_of_lx fun s t hs => ?_
    unfold DrillDefinition.toSexpr
    rw [hr, ho, hw]
    simp only [ifS_true, optS_some, optS_none]
    lxNorm
    lxAuto
  rw [hl, ok_bind]
  refine ⟨{ oval := true, diameter := o.diameter.canon, width := some (p.toValXY k!"offset"), offset := some (canon p) }, ?_, rfl⟩
  rw [DrillDefinition.fromSexpr.eq_def]
  simp only [checkHead_ok, getI1, getI2, getI3]
  refine (if_pos rfl).trans ?_
  apply fo_start
  foSkip
  foSkip
  refine fo_cons (DrillDefinition.step_num hd _) ?_
  have hs : ∀ a, DrillDefinition.step a (p.toValXY k!"offset") =
      (Position.fromSexpr (p.toValXY k!"offset") >>= fun q => .ok { a with offset := some q }) := fun _ => rfl
  refine fo_cons (o' := { oval := true, diameter := o.diameter.canon, width := some (p.toValXY k!"offset"), offset := some (canon p) }) ?_ rfl
  rw [hs, Position.from_toValXY hp rfl]
  rfl

/-! ## C42 -/

/-- A drill whose sizes are numbers is the same after saving and loading if and only if it is oval with both sizes, or round without a
width and without an offset. -/
theorem C42_exactly [TextRule] (o : DrillDefinition) (hd : NumOk o.diameter) (hw : ∀ w, o.width = some w → NumOk w)
    (ho : ∀ p, o.offset = some p → p.WFXY) (i : Nat) (nl : Bool) :
    Reloads (.ok (o.toSexpr i nl)) DrillDefinition.fromSexpr o ↔
      (o.oval = true ∧ o.width ≠ none) ∨ (o.oval = false ∧ o.width = none ∧ o.offset = none) := by
  obtain ⟨oval, diameter, width, offset⟩ := o
  dsimp only at hd hw ho ⊢
  constructor
  · rintro ⟨o', hl, he⟩
    have hew : PyEq.eq width o'.width := he.2.2.1
    cases oval with
    | true =>
      refine .inl ⟨rfl, fun hn => ?_⟩
      subst hn
      cases offset with
      | none =>
        have := C42_oval_violated { oval := true, diameter := diameter } rfl hd rfl rfl i nl
        rw [ok_bind] at hl
        rw [this] at hl
        cases hl
      | some p =>
        obtain ⟨o'', h1, h2⟩ := DrillDefinition.oval_offset (o := { oval := true, diameter := diameter, offset := some p }) rfl hd rfl
          (ho p rfl) rfl i nl
        rw [ok_bind] at hl
        rw [h1] at hl
        cases hl
        rw [h2] at hew
        exact hew
    | false =>
      have hh : DrillDefinition.Hole { diameter := diameter, offset := offset } := ⟨hd, nofun, fun _ => rfl, ho⟩
      have := hh.loads i nl
      rw [show ((.ok (DrillDefinition.toSexpr ⟨false, diameter, width, offset⟩ i nl) : PyM Str)) =
        .ok (DrillDefinition.toSexpr { diameter := diameter, offset := offset } i nl) from rfl, this] at hl
      cases hl
      refine .inr ⟨rfl, ?_⟩
      cases offset with
      | none =>
        cases width with
        | none => exact ⟨rfl, rfl⟩
        | some w => exact hew.elim
      | some p =>
        cases width with
        | none => exact hew.elim
        | some w => exact (not_list (hw w rfl) _ hew).elim
  · rintro (⟨rfl, h⟩ | ⟨rfl, rfl, rfl⟩)
    · refine C42_partial _ hd (fun _ => ⟨?_, ho⟩) (fun h => by cases h) i nl
      cases width with
      | none => exact absurd rfl h
      | some w => exact ⟨w, rfl, hw w rfl⟩
    · exact C42_partial _ hd (fun h => by cases h) (fun _ => ⟨rfl, rfl⟩) i nl
example := C42_exactly { diameter := .int 1, width := some (.int 2), offset := some samplePositionXY } (ok_int (by decide))
  (by rintro w ⟨⟩; exact ok_int (by decide)) (by rintro w ⟨⟩; exact samplePositionXY_wf)

/-! ## Lemmas for C79 -/

theorem keep_loaded [TextRule] {α : Type} {s : Str} {v w : Val} {load : Val → PyM α} {save : α → PyM Str} {e : α} (hs : TextOf v s)
    (hl : load v = .ok e) (hw : (save e >>= parseSexp) = .ok w) : Rewrites s load save w := by
  obtain ⟨l, rfl, h⟩ := hs
  cases ht : save e with
  | error x => rw [ht] at hw; cases hw
  | ok t =>
    rw [ht] at hw
    refine ⟨e, t, ?_, ht, hw⟩
    rw [C06_tree_round_trip l s h]
    exact hl

theorem keeps_of_rewrites [TextRule] {α : Type} {s : Str} {v : Val} {load : Val → PyM α} {save : α → PyM Str} (hs : TextOf v s)
    (h : Rewrites s load save v) : Keeps s load save := by
  obtain ⟨o, t, h1, h2, h3⟩ := h
  obtain ⟨l, rfl, h⟩ := hs
  exact ⟨o, t, _, h1, h2, C06_tree_round_trip l s h, h3⟩

theorem Board.Holed.asRead [TextRule] {o : Board} (h : o.Holed) : ({ o with setup := o.setup.asRead } : Board).Holed :=
  ⟨{ h.rest with setup := h.rest.setup.asRead }, h.footprints⟩

theorem Board.loaded_canon (o : Board) : canon o.loaded = (canon ({ o with setup := o.setup.asRead } : Board)).loaded := by
  show ({ canon o with setup := canon o.setup.asRead, footprints := canon (o.footprints.map Footprint.loaded), filePath := none } : Board) =
    { canon o with setup := (canon o.setup.asRead).asRead, footprints := (canon o.footprints).map Footprint.loaded, filePath := none }
  rw [map_loaded Footprint.loaded_canon, SetupData.asRead_fix]

theorem Board.canon_loaded_toSexpr (o : Board) (i nl) :
    (canon o.loaded).toSexpr i nl = (canon ({ o with setup := o.setup.asRead } : Board)).toSexpr i nl := by
  rw [Board.loaded_canon, Board.loaded_toSexpr]
  have e : (canon ({ o with setup := o.setup.asRead } : Board)).setup.asRead = (canon ({ o with setup := o.setup.asRead } : Board)).setup :=
    SetupData.asRead_fix o.setup
  rw [e]

theorem Pad.WF.holed [TextRule] {o : Pad} (h : o.WF) {d : DrillDefinition} (hd : d.Hole) : ({ o with drill := some d } : Pad).Holed :=
  ⟨{ h with drill := nofun }, by rintro p ⟨⟩; exact hd⟩
theorem Footprint.WF.holed [TextRule] {o : Footprint} (h : o.WF) {l : List Pad} (hl : ∀ p ∈ l, p.Holed) : ({ o with pads := l } : Footprint).Holed :=
  ⟨{ h with pads := fun _ hv => absurd hv List.not_mem_nil }, hl⟩
theorem Board.WF.holed [TextRule] {o : Board} (h : o.WF) {l : List Footprint} (hl : ∀ f ∈ l, f.Holed) : ({ o with footprints := l } : Board).Holed :=
  ⟨{ h with footprints := fun _ hv => absurd hv List.not_mem_nil }, hl⟩

/-- A pad with a round hole with an offset, in the samples. -/
def sampleHole : DrillDefinition := { diameter := .int 1, offset := some samplePositionXY }
theorem sampleHole_ok : sampleHole.Hole := ⟨ok_int (by decide), nofun, fun _ => rfl, by rintro p ⟨⟩; exact samplePositionXY_wf⟩
def sampleHoledPad : Pad := { samplePad with drill := some sampleHole }
theorem sampleHoledPad_ok : sampleHoledPad.Holed := samplePad_wf.holed sampleHole_ok
def sampleHoledFootprint : Footprint := { sampleFootprint with pads := [sampleHoledPad] }
theorem sampleHoledFootprint_ok : sampleHoledFootprint.Holed :=
  sampleFootprint_wf.holed (by intro p hp; cases List.mem_singleton.1 hp; exact sampleHoledPad_ok)
def sampleHoledBoard : Board := { sampleBoard with footprints := [sampleHoledFootprint] }
theorem sampleHoledBoard_ok : sampleHoledBoard.Holed :=
  sampleBoard_wf.holed (by intro p hp; cases List.mem_singleton.1 hp; exact sampleHoledFootprint_ok)

/-! ## C79: the content of the file -/

/-- A text of a hole is loaded and saved with the same content. -/
theorem C79_DrillDefinition [TextRule] (o : DrillDefinition) (h : o.Hole) (s : Str) (hs : TextOf o.toVal s) (i : Nat) (nl : Bool) :
    Keeps s DrillDefinition.fromSexpr (fun o => .ok (o.toSexpr i nl)) := by
  refine keeps_of_rewrites hs (keep_loaded hs h.from_toVal ?_)
  rw [DrillDefinition.loaded_canon, DrillDefinition.loaded_toSexpr]
  exact (Lexes.one fun _ _ hs => h.stable.lx hs).parse.trans (congrArg Except.ok (DrillDefinition.toVal_canon o))
example := C79_DrillDefinition sampleHole sampleHole_ok

/-- A text of a pad with any such hole is loaded and saved with the same content. -/
theorem C79_Pad [TextRule] (o : Pad) (h : o.Holed) (s : Str) (hs : TextOf o.toVal s) (i : Nat) (nl : Bool) :
    Keeps s Pad.fromSexpr (fun o => o.toSexpr i nl) := by
  refine keeps_of_rewrites hs (keep_loaded hs h.from_toVal ?_)
  rw [Pad.loaded_canon, Pad.loaded_toSexpr]
  exact (h.stable.lexes i nl).parse.trans (congrArg Except.ok (Pad.toVal_canon o))
example := C79_Pad sampleHoledPad sampleHoledPad_ok

/-- A text of a footprint with any such holes is loaded and saved with the same content. -/
theorem C79_Footprint [TextRule] (o : Footprint) (h : o.Holed) (tedit : Val) (s : Str) (hs : TextOf o.toVal s) (i : Nat) (nl lf : Bool) :
    Keeps s (Footprint.fromSexpr tedit) (fun o => o.toSexpr i nl lf) := by
  refine keeps_of_rewrites hs (keep_loaded hs (h.from_toVal tedit) ?_)
  rw [Footprint.loaded_canon, Footprint.loaded_toSexpr]
  exact (h.stable.lexes i nl lf).parse.trans (congrArg Except.ok h.toVal_canon)
example := C79_Footprint sampleHoledFootprint sampleHoledFootprint_ok

/-- A text of a board with any such holes is loaded and saved with the same content, `useauxorigin` excepted. -/
theorem C79_Board [TextRule] (o : Board) (h : o.Holed) (tedit : Val) (s : Str) (hs : TextOf o.toVal s) (i : Nat) (nl : Bool) :
    Rewrites s (Board.fromSexpr tedit) (fun o => o.toSexpr i nl) (Board.toVal { o with setup := { o.setup with plotSettings := o.setup.plotSettings.map fun p => { p with useAuxOrigin := false } } }) := by
  refine keep_loaded hs (h.from_toVal tedit) ?_
  rw [Board.canon_loaded_toSexpr]
  exact (h.asRead.stable.lexes i nl).parse.trans (congrArg Except.ok h.asRead.toVal_canon)
example := C79_Board sampleHoledBoard sampleHoledBoard_ok

/-! ## C79: the text that is saved -/

/-- Saving a hole, pad, footprint or board writes the documented text. -/
theorem C79_DrillDefinition_saved [TextRule] (o : DrillDefinition) (h : o.Hole) (i : Nat) (nl : Bool) : Denotes (.ok (o.toSexpr i nl)) o.toVal :=
  (Lexes.one fun _ _ hs => h.lx hs).parse
example := C79_DrillDefinition_saved sampleHole sampleHole_ok

theorem C79_Pad_saved [TextRule] (o : Pad) (h : o.Holed) (i : Nat) (nl : Bool) : Denotes (o.toSexpr i nl) o.toVal := (h.lexes i nl).parse
example := C79_Pad_saved sampleHoledPad sampleHoledPad_ok

theorem C79_Footprint_saved [TextRule] (o : Footprint) (h : o.Holed) (i : Nat) (nl lf : Bool) : Denotes (o.toSexpr i nl lf) o.toVal :=
  (h.lexes i nl lf).parse
example := C79_Footprint_saved sampleHoledFootprint sampleHoledFootprint_ok

theorem C79_Board_saved [TextRule] (o : Board) (h : o.Holed) (i : Nat) (nl : Bool) : Denotes (o.toSexpr i nl) o.toVal := (h.lexes i nl).parse
example := C79_Board_saved sampleHoledBoard sampleHoledBoard_ok

/-! ## C79: the object that is loaded -/

/-- What is loaded is the object itself, except that each round hole has its offset as its width too (and that paths are not loaded). -/
theorem C79_DrillDefinition_loaded [TextRule] (o : DrillDefinition) (h : o.Hole) (s : Str) (hs : TextOf o.toVal s) :
    Loads s DrillDefinition.fromSexpr o.loaded := loads_of hs h.from_toVal
example := C79_DrillDefinition_loaded sampleHole sampleHole_ok

theorem C79_Pad_loaded [TextRule] (o : Pad) (h : o.Holed) (s : Str) (hs : TextOf o.toVal s) : Loads s Pad.fromSexpr o.loaded :=
  loads_of hs h.from_toVal
example := C79_Pad_loaded sampleHoledPad sampleHoledPad_ok

theorem C79_Footprint_loaded [TextRule] (o : Footprint) (h : o.Holed) (tedit : Val) (s : Str) (hs : TextOf o.toVal s) :
    Loads s (Footprint.fromSexpr tedit) o.loaded := loads_of hs (h.from_toVal tedit)
example := C79_Footprint_loaded sampleHoledFootprint sampleHoledFootprint_ok

theorem C79_Board_loaded [TextRule] (o : Board) (h : o.Holed) (tedit : Val) (s : Str) (hs : TextOf o.toVal s) :
    Loads s (Board.fromSexpr tedit) o.loaded := loads_of hs (h.from_toVal tedit)
example := C79_Board_loaded sampleHoledBoard sampleHoledBoard_ok

/-! ## C79: once more -/

/-- After the first load nothing changes any more. -/
theorem C79_DrillDefinition_settles [TextRule] (o : DrillDefinition) (h : o.Hole) (i : Nat) (nl : Bool) (i' : Nat) (nl' : Bool) :
    Settles (fun o : DrillDefinition => .ok (o.toSexpr i nl)) (fun o => .ok (o.toSexpr i' nl')) DrillDefinition.fromSexpr o := by
  refine ⟨canon o.loaded, h.loads i nl, ?_⟩
  dsimp only
  rw [DrillDefinition.loaded_canon, DrillDefinition.loaded_toSexpr]
  refine (h.stable.loads i' nl').trans (congrArg Except.ok ?_)
  rw [← DrillDefinition.loaded_canon]
  exact idem o.loaded
example := C79_DrillDefinition_settles sampleHole sampleHole_ok

theorem C79_Pad_settles [TextRule] (o : Pad) (h : o.Holed) (i : Nat) (nl : Bool) (i' : Nat) (nl' : Bool) :
    Settles (fun o : Pad => o.toSexpr i nl) (fun o => o.toSexpr i' nl') Pad.fromSexpr o := by
  refine ⟨canon o.loaded, (h.lexes i nl).loads h.from_toVal, ?_⟩
  dsimp only
  rw [Pad.loaded_canon, Pad.loaded_toSexpr]
  refine ((h.stable.lexes i' nl').loads h.stable.from_toVal).trans (congrArg Except.ok ?_)
  rw [← Pad.loaded_canon]
  exact idem o.loaded
example := C79_Pad_settles sampleHoledPad sampleHoledPad_ok

theorem C79_Footprint_settles [TextRule] (o : Footprint) (h : o.Holed) (tedit : Val) (i : Nat) (nl lf : Bool) (i' : Nat) (nl' lf' : Bool) :
    Settles (fun o : Footprint => o.toSexpr i nl lf) (fun o => o.toSexpr i' nl' lf') (Footprint.fromSexpr tedit) o := by
  refine ⟨canon o.loaded, (h.lexes i nl lf).loads (h.from_toVal tedit), ?_⟩
  dsimp only
  rw [Footprint.loaded_canon, Footprint.loaded_toSexpr]
  refine ((h.stable.lexes i' nl' lf').loads (h.stable.from_toVal tedit)).trans (congrArg Except.ok ?_)
  rw [← Footprint.loaded_canon]
  exact idem o.loaded
example := C79_Footprint_settles sampleHoledFootprint sampleHoledFootprint_ok

theorem C79_Board_settles [TextRule] (o : Board) (h : o.Holed) (tedit : Val) (i : Nat) (nl : Bool) (i' : Nat) (nl' : Bool) :
    Settles (fun o : Board => o.toSexpr i nl) (fun o => o.toSexpr i' nl') (Board.fromSexpr tedit) o := by
  refine ⟨canon o.loaded, (h.lexes i nl).loads (h.from_toVal tedit), ?_⟩
  dsimp only
  rw [Board.canon_loaded_toSexpr]
  refine ((h.asRead.stable.lexes i' nl').loads (h.asRead.stable.from_toVal tedit)).trans (congrArg Except.ok ?_)
  rw [← Board.loaded_canon]
  exact idem o.loaded
example := C79_Board_settles sampleHoledBoard sampleHoledBoard_ok

end Kiutils
