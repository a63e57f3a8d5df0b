import Verif.Props.Samples
import Verif.Proofs.LibId
/-!
# Library identifiers (C25, C26)
-/
namespace Kiutils

/-! ## Specification -/

/-- `s` is `n:e` with a non-empty nickname `n` and a non-empty entry name `e`, and no shorter nickname is possible. -/
def IsNickname (s n e : Str) : Prop :=
  s = n ++ ':' :: e ∧ n ≠ [] ∧ e ≠ [] ∧ ∀ n' e', s = n' ++ ':' :: e' → n' ≠ [] → e' ≠ [] → n.length ≤ n'.length

/-- `s` has no nickname: every `:` is at its start or at its end. -/
def NoNickname (s : Str) : Prop := ∀ n e, s = n ++ ':' :: e → n = [] ∨ e = []

/-- `s` is `e_u_v` with two runs of digits at the end. -/
def EndsInNumbers (s e u v : Str) : Prop :=
  s = e ++ '_' :: (u ++ '_' :: v) ∧ e ≠ [] ∧ u ≠ [] ∧ v ≠ [] ∧ (∀ c ∈ u, isDigit c = true) ∧ ∀ c ∈ v, isDigit c = true

/-! ## The pattern of the nickname -/

theorem groupEnd_noNl {s : Str} (h : '\n' ∉ s) : groupEnd notNl s = if s = [] then none else some s := by
  split
  · rename_i h0; subst h0; rfl
  · rename_i h0
    refine groupEnd_all rfl h0 fun c hc => ?_
    simp only [notNl, bne_iff_ne, ne_eq]
    rintro rfl
    exact h hc

theorem matchNickAux_spec (s pre : Str) (h : '\n' ∉ s) :
    match matchNickAux pre s with
    | some (n, e) => pre ++ s = n ++ ':' :: e ∧ n ≠ [] ∧ e ≠ [] ∧ pre.length ≤ n.length ∧
        ∀ n' e', pre ++ s = n' ++ ':' :: e' → pre.length ≤ n'.length → n' ≠ [] → e' ≠ [] → n.length ≤ n'.length
    | none => ∀ n' e', pre ++ s = n' ++ ':' :: e' → pre.length ≤ n'.length → n' = [] ∨ e' = [] := by
  induction s generalizing pre with
  | nil =>
    intro n' e' he hl
    have := congrArg List.length he
    simp at this
    omega
  | cons c r ih =>
    have hr : '\n' ∉ r := fun hx => h (by simp [hx])
    have hc : notNl c = true := by
      simp only [notNl, bne_iff_ne, ne_eq]; rintro rfl; exact h (by simp)
    -- a colon at `pre` itself
    have here : ∀ n' e', pre ++ c :: r = n' ++ ':' :: e' → n'.length = pre.length → n' = pre ∧ c = ':' ∧ e' = r := by
      intro n' e' he hl
      have := List.append_inj he hl.symm
      obtain ⟨h1, h2⟩ := this
      simp only [List.cons.injEq] at h2
      exact ⟨h1.symm, h2.1, h2.2.symm⟩
    rw [matchNickAux]
    by_cases hm : pre ≠ [] ∧ c = ':'
    · rw [if_pos hm, groupEnd_noNl hr]
      by_cases h0 : r = []
      · subst h0
        simp only [if_true, hc]
        have hi := ih (pre ++ [c]) hr
        simp only [matchNickAux, List.append_assoc, List.cons_append, List.nil_append] at hi ⊢
        intro n' e' he hl
        by_cases hl' : n'.length = pre.length
        · right
          exact (here n' e' he hl').2.2
        · exact hi n' e' he (by simp; omega)
      · simp only [h0, if_false]
        obtain ⟨hp, rfl⟩ := hm
        exact ⟨rfl, hp, h0, Nat.le_refl _, fun n' e' _ hl _ _ => hl⟩
    · rw [if_neg hm]
      simp only [hc, if_true]
      have hi := ih (pre ++ [c]) hr
      cases hq : matchNickAux (pre ++ [c]) r with
      | none =>
        rw [hq] at hi
        simp only [List.append_assoc, List.cons_append, List.nil_append, List.length_append, List.length_cons, List.length_nil] at hi ⊢
        intro n' e' he hl
        by_cases hl' : n'.length = pre.length
        · obtain ⟨h1, h2, -⟩ := here n' e' he hl'
          left
          rw [h1]
          by_cases hp : pre = []
          · exact hp
          · exact absurd ⟨hp, h2⟩ hm
        · exact hi n' e' he (by omega)
      | some p =>
        obtain ⟨n, e⟩ := p
        rw [hq] at hi
        simp only [List.append_assoc, List.cons_append, List.nil_append, List.length_append, List.length_cons, List.length_nil] at hi ⊢
        obtain ⟨h1, h2, h3, h4, h5⟩ := hi
        refine ⟨h1, h2, h3, by omega, fun n' e' he hl hn' he' => ?_⟩
        by_cases hl' : n'.length = pre.length
        · obtain ⟨h6, h7, -⟩ := here n' e' he hl'
          exact absurd ⟨h6 ▸ hn', h7⟩ hm
        · exact h5 n' e' he (by omega) hn' he'

theorem matchNick_isNickname {s n e : Str} (hs : '\n' ∉ s) (h : matchNick s = some (n, e)) : IsNickname s n e := by
  have := matchNickAux_spec s [] hs
  rw [show matchNickAux [] s = some (n, e) from h] at this
  obtain ⟨h1, h2, h3, -, h5⟩ := this
  exact ⟨h1, h2, h3, fun n' e' he hn' he' => h5 n' e' he (by simp) hn' he'⟩

theorem matchNick_noNickname {s : Str} (hs : '\n' ∉ s) (h : matchNick s = none) : NoNickname s := by
  have := matchNickAux_spec s [] hs
  rw [show matchNickAux [] s = none from h] at this
  exact fun n e he => this n e he (by simp)

theorem truthy_str {n : Str} (h : n ≠ []) : (Val.str n).truthy = true := by
  cases n with
  | nil => exact absurd rfl h
  | cons c n => rfl

/-! ## C25 -/

/-- Setting `libId` of a footprint to any text without line breaks and reading it gives the text back. -/
theorem C25_Footprint (o : Footprint) (s : Str) (hs : '\n' ∉ s) : (o.setLibId (.str s)).libId = s := by
  unfold Footprint.setLibId Footprint.libId
  simp only [Val.pyStr]
  cases h : matchNick s with
  | none => simp [optPyStr, Val.pyStr]
  | some p =>
    obtain ⟨n, e⟩ := p
    obtain ⟨h1, h2, -⟩ := matchNick_isNickname hs h
    simp [optPyStr, Val.pyStr, truthy_str h2, h1, kw]
example : '\n' ∉ k!"Device:R:1" := by decide

/-- The parts of the identifier of a footprint. -/
theorem C25_Footprint_parts (o : Footprint) (s : Str) (hs : '\n' ∉ s) :
    (∃ n e, IsNickname s n e ∧
      o.setLibId (.str s) = { o with libraryNickname := some (.str n), entryName := some (.str e) }) ∨
    (NoNickname s ∧ o.setLibId (.str s) = { o with libraryNickname := none, entryName := some (.str s) }) := by
  unfold Footprint.setLibId
  simp only [Val.pyStr]
  cases h : matchNick s with
  | none => exact .inr ⟨matchNick_noNickname hs h, rfl⟩
  | some p => exact .inl ⟨p.1, p.2, matchNick_isNickname hs h, rfl⟩
example (o : Footprint) := C25_Footprint_parts o k!"Device:R:1" (by decide)

/-- Setting `libId` of a symbol on a schematic to any text without line breaks and reading it gives the text back. -/
theorem C25_SchematicSymbol (o : SchematicSymbol) (s : Str) (hs : '\n' ∉ s) :
    ∃ o', o.setLibId (.str s) = .ok o' ∧ o'.libId = s := by
  unfold SchematicSymbol.setLibId
  simp only
  cases h : matchNick s with
  | none => exact ⟨_, rfl, by simp [SchematicSymbol.libId, optPyStr, Val.pyStr]⟩
  | some p =>
    obtain ⟨n, e⟩ := p
    obtain ⟨h1, h2, -⟩ := matchNick_isNickname hs h
    exact ⟨_, rfl, by simp [SchematicSymbol.libId, optPyStr, Val.pyStr, truthy_str h2, h1, kw]⟩
example (o : SchematicSymbol) := C25_SchematicSymbol o k!"Device:R:1" (by decide)

/-- The parts of the identifier of a symbol on a schematic. -/
theorem C25_SchematicSymbol_parts (o : SchematicSymbol) (s : Str) (hs : '\n' ∉ s) :
    (∃ n e, IsNickname s n e ∧
      o.setLibId (.str s) = .ok { o with libraryNickname := some (.str n), entryName := some (.str e) }) ∨
    (NoNickname s ∧ o.setLibId (.str s) = .ok { o with libraryNickname := none, entryName := some (.str s) }) := by
  unfold SchematicSymbol.setLibId
  simp only
  cases h : matchNick s with
  | none => exact .inr ⟨matchNick_noNickname hs h, rfl⟩
  | some p => exact .inl ⟨p.1, p.2, matchNick_isNickname hs h, rfl⟩
example (o : SchematicSymbol) := C25_SchematicSymbol_parts o k!"Device:R:1" (by decide)

theorem matchUnit_endsInNumbers {s e u v : Str} (hs : '\n' ∉ s) (h : matchUnit s = some (e, u, v)) : EndsInNumbers s e u v := by
  obtain ⟨h1, -, h3, h4, h5, h6, h7⟩ := matchUnit_some h
  refine ⟨?_, h1, h3, h5, h4, h6⟩
  rcases h7 with h7 | h7
  · exact h7
  · exact absurd (by rw [h7]; simp) hs

theorem EndsInNumbers.matchUnit {s e u v : Str} (hs : '\n' ∉ s) (h : EndsInNumbers s e u v) : matchUnit s = some (e, u, v) := by
  obtain ⟨rfl, h1, h2, h3, h4, h5⟩ := h
  exact matchUnit_mk h1 (fun hx => hs (by simp [hx])) h2 h4 h3 h5

/-- Setting `libId` of a symbol sets the four parts of the identifier: nickname and entry name; or entry name, unit and style; or
the entry name alone. -/
theorem C25_Symbol_parts (o : Symbol) (s : Str) (hs : '\n' ∉ s) :
    ∃ o', o.setLibId (.str s) = .ok o' ∧
      ((∃ n e, IsNickname s n e ∧ o'.libraryNickname = some (.str n) ∧ o'.entryName = some (.str e) ∧ o'.unitId = none ∧
          o'.styleId = none) ∨
       (NoNickname s ∧ ∃ e u v, EndsInNumbers s e u v ∧ o'.libraryNickname = none ∧ o'.entryName = some (.str e) ∧
          o'.unitId = some (.int (digitsVal u)) ∧ o'.styleId = some (.int (digitsVal v))) ∨
       (NoNickname s ∧ (∀ e u v, ¬ EndsInNumbers s e u v) ∧ o'.libraryNickname = none ∧ o'.entryName = some (.str s) ∧
          o'.unitId = none ∧ o'.styleId = none)) := by
  unfold Symbol.setLibId
  refine ⟨_, rfl, ?_⟩
  cases h : matchNick s with
  | some p => exact .inl ⟨p.1, p.2, matchNick_isNickname hs h, rfl, rfl, rfl, rfl⟩
  | none =>
    have hn := matchNick_noNickname hs h
    cases hu : matchUnit s with
    | some q =>
      obtain ⟨e, u, v⟩ := q
      exact .inr (.inl ⟨hn, e, u, v, matchUnit_endsInNumbers hs hu, rfl, rfl, rfl, rfl⟩)
    | none =>
      refine .inr (.inr ⟨hn, fun e u v he => ?_, rfl, rfl, rfl, rfl⟩)
      rw [he.matchUnit hs] at hu
      cases hu
example (o : Symbol) := C25_Symbol_parts o k!"Device:R:1" (by decide)

theorem digits_inj {u v u' v' : Str} (hu : '_' ∉ u) (hu' : '_' ∉ u') (h : u ++ '_' :: v = u' ++ '_' :: v') : u = u' ∧ v = v' := by
  induction u generalizing u' with
  | nil =>
    cases u' with
    | nil => simpa using h
    | cons c u' => simp only [List.nil_append, List.cons_append, List.cons.injEq] at h; exact absurd (by rw [h.1]; simp) hu'
  | cons c u ih =>
    cases u' with
    | nil => simp only [List.nil_append, List.cons_append, List.cons.injEq] at h; exact absurd (by simp [h.1]) hu
    | cons d u' =>
      simp only [List.cons_append, List.cons.injEq] at h
      obtain ⟨rfl, h⟩ := h
      obtain ⟨h1, h2⟩ := ih (u' := u') (fun hx => hu (by simp [hx])) (fun hx => hu' (by simp [hx])) h
      exact ⟨by rw [h1], h2⟩

/-- Setting `libId` of a symbol and reading it gives the text back exactly if it has a nickname, or its unit and style numbers
(if there are any) are written as `str()` writes them. -/
theorem C25_Symbol (o : Symbol) (s : Str) (hs : '\n' ∉ s) :
    ∃ o', o.setLibId (.str s) = .ok o' ∧
      (o'.libId = s ↔ (∃ n e, IsNickname s n e) ∨ ∀ e u v, EndsInNumbers s e u v → ∃ a b, u = natStr a ∧ v = natStr b) := by
  obtain ⟨o', ho', hp⟩ := C25_Symbol_parts o s hs
  refine ⟨o', ho', ?_⟩
  unfold Symbol.libId
  rcases hp with ⟨n, e, hn, h1, h2, h3, h4⟩ | ⟨hn, e, u, v, he, h1, h2, h3, h4⟩ | ⟨hn, he, h1, h2, h3, h4⟩
  · rw [h1, h2]
    refine ⟨fun _ => .inl ⟨n, e, hn⟩, fun _ => ?_⟩
    simp [optPyStr, Val.pyStr, truthy_str hn.2.1, hn.1, kw]
  · rw [h1, h2, h3, h4]
    have hint : ∀ n : Nat, intStr (n : Int) = natStr n := fun n => by
      unfold intStr; rw [if_neg (by omega)]; rfl
    simp only [optPyStr, Val.pyStr, hint]
    constructor
    · intro h
      refine .inr fun e' u' v' he' => ?_
      have hx := he'.matchUnit hs
      rw [he.matchUnit hs] at hx
      simp only [Option.some.injEq, Prod.mk.injEq] at hx
      obtain ⟨rfl, rfl, rfl⟩ := hx
      have h0 := he.1
      rw [h0] at h
      simp only [kw, List.append_cancel_left_eq] at h
      have h := List.cons.inj h
      have h := h.2
      have h5 := digits_inj (us_notMem (natStr_digits _)) (us_notMem he.2.2.2.2.1) h
      exact ⟨_, _, h5.1.symm, h5.2.symm⟩
    · rintro (⟨n, e', hn'⟩ | h)
      · rcases hn n e' hn'.1 with h | h
        · exact absurd h hn'.2.1
        · exact absurd h hn'.2.2.1
      · obtain ⟨a, b, rfl, rfl⟩ := h e u v he
        rw [digitsVal_natStr, digitsVal_natStr]
        simp [kw, he.1]
  · rw [h1, h2, h3, h4]
    refine ⟨fun _ => .inr fun e u v h => absurd h (he e u v), fun _ => ?_⟩
    simp [optPyStr, Val.pyStr]
example : '\n' ∉ k!"Device:R_0_1" ∧ IsNickname k!"Device:R_0_1" k!"Device" k!"R_0_1" :=
  ⟨by decide, matchNick_isNickname (by decide) (by decide)⟩
example : '\n' ∉ k!"R_0_12" ∧ EndsInNumbers k!"R_0_12" k!"R" k!"0" k!"12" := ⟨by decide, matchUnit_endsInNumbers (by decide) (by decide)⟩

/-- With a leading zero the identifier is not read back: `R_01_1` becomes `R_1_1`. -/
theorem C25_leading_zero (o : Symbol) : ∃ o', o.setLibId (.str k!"R_01_1") = .ok o' ∧ o'.libId = k!"R_1_1" := ⟨_, rfl, rfl⟩

/-- A line break at the end of an identifier with a nickname is lost. -/
theorem C25_line_break (o : Footprint) : (o.setLibId (.str k!"Device:R\n")).libId = k!"Device:R" := rfl

/-! ## C26 -/

/-- Renaming a symbol changes its identifier and the entry names of its units, and nothing else, in the symbol and in the units:
each unit keeps its unit and style numbers and its own units. -/
theorem C26_rename (o o' : Symbol) (id : Val) (h : o.setLibId id = .ok o') :
    o'.units = o.units.map (fun u => { u with entryName := o'.entryName }) ∧
    o' = { o with libraryNickname := o'.libraryNickname, entryName := o'.entryName, unitId := o'.unitId, styleId := o'.styleId,
                  units := o'.units } := by
  unfold Symbol.setLibId at h
  cases id with
  | str s =>
    simp only [Except.ok.injEq] at h
    subst h
    cases matchNick s with
    | some p => exact ⟨rfl, rfl⟩
    | none =>
      cases matchUnit s with
      | some p => exact ⟨rfl, rfl⟩
      | none => exact ⟨rfl, rfl⟩
  | _ => cases h
example : ∃ o', sampleSymbol.setLibId (.str k!"Device:Q") = .ok o' ∧ o'.units ≠ [] := ⟨_, rfl, by decide⟩

/-- After the renaming, the identifier of every unit consists of the new entry name and its own numbers. -/
theorem C26_unit_ids (o o' : Symbol) (id : Val) (h : o.setLibId id = .ok o') (u' : Symbol) (hu : u' ∈ o'.units) (a b : Int)
    (hn : u'.libraryNickname = none) (ha : u'.unitId = some (.int a)) (hb : u'.styleId = some (.int b)) :
    ∃ e, o'.entryName = some (.str e) ∧ u'.libId = e ++ '_' :: (intStr a ++ '_' :: intStr b) := by
  have hr := (C26_rename o o' id h).1
  rw [hr] at hu
  obtain ⟨u, -, rfl⟩ := List.mem_map.mp hu
  have : ∃ e, o'.entryName = some (.str e) := by
    unfold Symbol.setLibId at h
    cases id with
    | str s =>
      simp only [Except.ok.injEq] at h
      subst h
      cases matchNick s with
      | some p => exact ⟨_, rfl⟩
      | none =>
        cases matchUnit s with
        | some p => exact ⟨_, rfl⟩
        | none => exact ⟨_, rfl⟩
    | _ => cases h
  obtain ⟨e, he⟩ := this
  refine ⟨e, he, ?_⟩
  unfold Symbol.libId
  simp only at hn ha hb
  simp [hn, ha, hb, he, optPyStr, Val.pyStr, kw]
example := C26_unit_ids { units := [{ unitId := some (.int 1), styleId := some (.int 2) }] } _ (.str k!"Device:Q") rfl _ (List.mem_singleton.2 rfl) 1 2 rfl rfl rfl

end Kiutils
