import Verif.Props.Edit
import Verif.Props.Files
import Verif.Proofs.FloatInt
import Verif.FloatGrammar
/-!
# When saving raises (C46), and what is loaded from a file can be saved (C47)

`to_sexpr` of most classes never raises: in the model these methods are functions into texts. For each of the other classes a
condition on the attributes is stated here, and `to_sexpr` is proved to return a text exactly if the condition holds.
-/
namespace Kiutils

/-- The computation returns, it does not raise. -/
def Returns {α : Type} (m : PyM α) : Prop := ∃ a, m = .ok a

/-! ## The conditions -/

/-- The value is a string. -/
def Val.IsText (v : Val) : Prop := ∃ s, v = .str s
/-- The value is a string or a list: it has a length. -/
def Val.Sized (v : Val) : Prop := v.IsText ∨ ∃ l, v = .list l
/-- The value is a float, or an int in the range of floats. -/
def Val.IsNumber (v : Val) : Prop := (∃ f, v = .flt f) ∨ ∃ n : Int, v = .int n ∧ n.natAbs < 2 ^ 1024 - 2 ^ 970
/-- `float(v)` returns: the value is a number, or a string that denotes one by the grammar of Python's documentation
(`Verif/FloatGrammar.lean`). -/
def Val.Floats (v : Val) : Prop := v.IsNumber ∨ ∃ s x, v = .str s ∧ FloatGrammar.FloatText s x

/-- The angle of a text box is missing, 0, 90, 180 or 270. -/
def Upright (angle : Option Val) : Prop := ∀ a, angle = some a → a.canon ∈ [Val.int 0, .int 90, .int 180, .int 270]

/-- A user-defined page has both dimensions. -/
def PageSettings.Savable (o : PageSettings) : Prop := o.paperSize = .str k!"User" → o.width ≠ none ∧ o.height ≠ none
/-- The dimension has a point. -/
def Dimension.Savable (o : Dimension) : Prop := o.pts ≠ []
/-- The zone has a layer. -/
def Zone.Savable (o : Zone) : Prop := o.layers ≠ []
/-- All elements of the constraint are strings. -/
def Constraint.Savable (o : Constraint) : Prop := ∀ e ∈ o.elements, e.IsText
def Rule.Savable (o : Rule) : Prop := ∀ c ∈ o.constraints, c.Savable
def DesignRules.Savable (o : DesignRules) : Prop := ∀ r ∈ o.rules, r.Savable
/-- An upright box has two corners, any other four points. -/
def GrTextBox.Savable (o : GrTextBox) : Prop :=
  (Upright o.angle → o.start ≠ none ∧ o.«end» ≠ none) ∧ (¬ Upright o.angle → o.pts.length = 4)
/-- An upright box has two corners, any other four points. -/
def FpTextBox.Savable (o : FpTextBox) : Prop :=
  (Upright o.angle → o.start ≠ none ∧ o.«end» ≠ none) ∧ (¬ Upright o.angle → o.pts.length = 4)
def GrItem.Savable (o : GrItem) : Prop := ∀ b, o = .textBox b → b.Savable
def FpItem.Savable (o : FpItem) : Prop := ∀ b, o = .textBox b → b.Savable
/-- No layer is a number, and the primitives can be saved. -/
def Pad.Savable (o : Pad) : Prop := (∀ l ∈ o.layers, l.Sized) ∧ ∀ p ∈ o.customPadPrimitives, p.Savable
def Footprint.Savable (o : Footprint) : Prop :=
  (∀ i ∈ o.graphicItems, i.Savable) ∧ (∀ p ∈ o.pads, p.Savable) ∧ ∀ z ∈ o.zones, z.Savable
/-- The colour is a colour. -/
def Junction.Savable (o : Junction) : Prop := ∃ c, o.color = .rgba c
/-- The text is not a number. -/
def Text.Savable (o : Text) : Prop := o.text.Sized
/-- The flag has effects. -/
def NetclassFlag.Savable (o : NetclassFlag) : Prop := o.effects ≠ none
/-- The transparency of the fill colour is a number, if a number of decimals is set. -/
def HierarchicalSheet.Savable (o : HierarchicalSheet) : Prop := o.fill.precision ≠ none → o.fill.A.IsNumber
def Schematic.Savable (o : Schematic) : Prop :=
  o.paper.Savable ∧ (∀ j ∈ o.junctions, j.Savable) ∧ (∀ t ∈ o.texts, t.Savable) ∧ (∀ f ∈ o.netclassFlags, f.Savable) ∧
    ∀ s ∈ o.sheets, s.Savable
/-- The object is not a polygon, a class that is not implemented. -/
def WksItem.Savable (o : WksItem) : Prop := o ≠ .polygon
def WorkSheet.Savable (o : WorkSheet) : Prop := ∀ i ∈ o.drawingObjects, i.Savable
/-- The ratios and the pen diameter are numbers or denote numbers. -/
def PlotSettings.Savable (o : PlotSettings) : Prop :=
  (∀ v, o.dashedLineDashRatio = some v → v.Floats) ∧ (∀ v, o.dashedLineGapRatio = some v → v.Floats) ∧ o.hpglPenDiameter.Floats
def SetupData.Savable (o : SetupData) : Prop := ∀ p, o.plotSettings = some p → p.Savable
def Board.Savable (o : Board) : Prop :=
  o.paper.Savable ∧ o.setup.Savable ∧ (∀ f ∈ o.footprints, f.Savable) ∧ (∀ i ∈ o.graphicItems, i.Savable) ∧
    (∀ d ∈ o.dimensions, d.Savable) ∧ ∀ z ∈ o.zones, z.Savable

/-! ## Tools -/

theorem returns_ok {α : Type} (a : α) : Returns (.ok a : PyM α) := ⟨a, rfl⟩
theorem not_returns {α : Type} {e : PyErr} : ¬ Returns (.error e : PyM α) := fun ⟨_, h⟩ => nomatch h

theorem returns_bind {α β : Type} {m : PyM α} {f : α → PyM β} {P : Prop} (h : ∀ a, Returns (f a) ↔ P) :
    Returns (m >>= f) ↔ Returns m ∧ P := by
  cases m with
  | error e => exact ⟨fun h => absurd h not_returns, fun h => absurd h.1 not_returns⟩
  | ok a => exact ⟨fun hr => ⟨returns_ok a, (h a).mp hr⟩, fun hr => (h a).mpr hr.2⟩

theorem returns_bind_ok {α β : Type} {m : PyM α} {f : α → PyM β} (h : ∀ a, Returns (f a)) :
    Returns (m >>= f) ↔ Returns m := by
  rw [returns_bind (P := True) fun a => iff_of_true (h a) trivial, and_true]

theorem returns_bind_pure {α β : Type} {m : PyM α} {f : α → β} : Returns (m >>= fun a => pure (f a)) ↔ Returns m :=
  returns_bind_ok fun _ => returns_ok _

theorem returns_map {α β : Type} {m : PyM α} {f : α → β} : Returns (m.map f) ↔ Returns m := by
  cases m with
  | error e => exact ⟨fun h => absurd h not_returns, fun h => absurd h not_returns⟩
  | ok a => exact ⟨fun _ => returns_ok a, fun _ => returns_ok _⟩

theorem returns_forSM {α : Type} {xs : List α} {f : α → PyM Str} {P : α → Prop} (h : ∀ x, Returns (f x) ↔ P x) :
    Returns (forSM xs f) ↔ ∀ x ∈ xs, P x := by
  induction xs with
  | nil => exact iff_of_true (returns_ok _) fun _ hx => absurd hx List.not_mem_nil
  | cons a r ih =>
    rw [forSM, returns_bind (P := ∀ x ∈ r, P x) fun b => by rw [returns_bind_ok fun _ => returns_ok _, ih], h, List.forall_mem_cons]

theorem returns_optSM {α : Type} {x : Option α} {f : α → PyM Str} {P : α → Prop} (h : ∀ x, Returns (f x) ↔ P x) :
    Returns (optSM x f) ↔ ∀ a, x = some a → P a := by
  cases x with
  | none => exact iff_of_true (returns_ok _) fun _ hx => nomatch hx
  | some a => exact (h a).trans ⟨fun h _ e => by cases e; exact h, fun h => h a rfl⟩

theorem Val.is_text_iff (v : Val) (s : Str) : v.is s = true ↔ v = .str s := by
  cases v <;> simp [Val.is]

theorem floatOfInt_returns (n : Int) : Returns (floatOfInt n) ↔ n.natAbs < 2 ^ 1024 - 2 ^ 970 := by
  rw [← Nat.not_le, ← floatOfInt_error_iff, floatOfInt]
  split
  · exact iff_of_false not_returns fun h => h rfl
  · exact iff_of_true (returns_ok _) fun h => nomatch h

/-- `f'{v:.{p}f}'` returns for numbers only. -/
theorem formatFixed_returns (p : Nat) (v : Val) : Returns (formatFixed p v) ↔ v.IsNumber := by
  cases v with
  | int n =>
    rw [formatFixed, returns_map, floatOfInt_returns]
    exact ⟨fun h => .inr ⟨n, rfl, h⟩, fun h => by
      rcases h with ⟨_, h⟩ | ⟨m, h, h'⟩
      · cases h
      · cases h; exact h'⟩
  | flt f => exact iff_of_true (returns_ok _) (.inl ⟨f, rfl⟩)
  | str s => exact iff_of_false not_returns (by rintro (⟨_, h⟩ | ⟨_, h, -⟩) <;> cases h)
  | list s => exact iff_of_false not_returns (by rintro (⟨_, h⟩ | ⟨_, h, -⟩) <;> cases h)

/-- `float(v)` -/
theorem floatFixed_returns (p : Nat) (v : Val) : Returns (floatFixed p v) ↔ v.Floats := by
  cases v with
  | int n =>
    refine (formatFixed_returns p (.int n)).trans ⟨.inl, fun h => ?_⟩
    rcases h with h | ⟨s, _, h, -⟩
    · exact h
    · cases h
  | flt f => exact iff_of_true (returns_ok _) (.inl (.inl ⟨f, rfl⟩))
  | str s =>
    rw [floatFixed]
    cases h : floatOfText s with
    | none =>
      refine iff_of_false not_returns ?_
      rintro ((⟨_, h⟩ | ⟨_, h, -⟩) | ⟨_, _, h1, h2⟩)
      · cases h
      · cases h
      · cases h1; rw [(FloatGrammar.floatOfText_iff _ _).mpr h2] at h; cases h
    | some f =>
      have hf := (FloatGrammar.floatOfText_iff _ _).mp h
      cases f with
      | none => exact iff_of_true (returns_ok _) (.inr ⟨s, _, rfl, hf⟩)
      | some f => exact iff_of_true (returns_ok _) (.inr ⟨s, _, rfl, hf⟩)
  | list l => exact iff_of_false not_returns (by rintro ((⟨_, h⟩ | ⟨_, h, -⟩) | ⟨_, _, h, -⟩) <;> cases h)

/-! ## C46 -/

/-- `to_sexpr` returns a text exactly if a user-defined page has both dimensions; likewise below for each class the condition is the
one stated at its `Savable`. -/
theorem C46_PageSettings (o : PageSettings) (i : Nat) (nl : Bool) : Returns (o.toSexpr i nl) ↔ o.Savable := by
  have h := C34_raises o i nl
  cases hm : o.toSexpr i nl with
  | error e =>
    refine iff_of_false not_returns fun hs => ?_
    rw [hm] at h
    obtain ⟨h1, h2⟩ := h.mp ⟨e, rfl⟩
    obtain ⟨h3, h4⟩ := hs h1
    rcases h2 with h2 | h2
    · exact h3 h2
    · exact h4 h2
  | ok s =>
    refine iff_of_true (returns_ok _) fun hu => ?_
    rw [hm] at h
    constructor
    · intro hw
      obtain ⟨_, he⟩ := h.mpr ⟨hu, .inl hw⟩
      cases he
    · intro hw
      obtain ⟨_, he⟩ := h.mpr ⟨hu, .inr hw⟩
      cases he
example : ¬ Returns (PageSettings.toSexpr { paperSize := .str k!"User", width := some (.int 3) }) := by
  rw [C46_PageSettings]
  exact fun h => (h rfl).2 rfl

theorem C46_Dimension (o : Dimension) (i : Nat) (nl : Bool) : Returns (o.toSexpr i nl) ↔ o.Savable := by
  unfold Dimension.toSexpr Dimension.Savable
  cases o.pts with
  | nil => exact iff_of_false not_returns fun h => h rfl
  | cons p r => exact iff_of_true (returns_ok _) (by simp)
example : Returns (sampleDimension.toSexpr 2 true) := (C46_Dimension _ _ _).mpr (by intro h; cases h)

theorem C46_Zone (o : Zone) (i : Nat) (nl : Bool) : Returns (o.toSexpr i nl) ↔ o.Savable := by
  rw [Zone.toSexpr, returns_bind_pure]
  unfold Zone.layerToken Zone.Savable
  cases o.layers with
  | nil => exact iff_of_false not_returns fun h => h rfl
  | cons p r =>
    refine iff_of_true ?_ (by simp)
    cases r
    · simp only; split <;> exact returns_ok _
    · exact returns_ok _
example : ¬ Returns (Zone.toSexpr { sampleZone with layers := [] } 2 true) := by
  rw [C46_Zone]; exact fun h => h rfl

theorem joinSp_returns (l : List Val) : Returns (joinSp l) ↔ ∀ e ∈ l, e.IsText := by
  induction l with
  | nil => exact iff_of_true (returns_ok _) fun _ hx => absurd hx List.not_mem_nil
  | cons a r ih =>
    rw [List.forall_mem_cons]
    cases a with
    | str s =>
      cases r with
      | nil => exact iff_of_true (returns_ok _) ⟨⟨s, rfl⟩, fun _ hx => absurd hx List.not_mem_nil⟩
      | cons b r =>
        have : joinSp (.str s :: b :: r) = (joinSp (b :: r) >>= fun t => pure (s ++ ' ' :: t)) := by
          rw [joinSp.eq_def]
        rw [this, returns_bind_pure, ih]
        exact ⟨fun h => ⟨⟨s, rfl⟩, h⟩, fun h => h.2⟩
    | int n => rw [joinSp.eq_def]; exact iff_of_false not_returns fun ⟨⟨_, h⟩, _⟩ => nomatch h
    | flt n => rw [joinSp.eq_def]; exact iff_of_false not_returns fun ⟨⟨_, h⟩, _⟩ => nomatch h
    | list n => rw [joinSp.eq_def]; exact iff_of_false not_returns fun ⟨⟨_, h⟩, _⟩ => nomatch h

theorem C46_Constraint (o : Constraint) (i : Nat) (nl : Bool) : Returns (o.toSexpr i nl) ↔ o.Savable := by
  rw [Constraint.toSexpr, returns_bind_pure, joinSp_returns]; rfl
example : Returns (Constraint.toSexpr { elements := [.str k!"track", .str k!"via"] }) :=
  (C46_Constraint _ _ _).mpr (by intro e he; simp at he; rcases he with rfl | rfl <;> exact ⟨_, rfl⟩)

theorem C46_Rule (o : Rule) (i : Nat) : Returns (o.toSexpr i) ↔ o.Savable := by
  rw [Rule.toSexpr, returns_bind_pure, returns_forSM (P := Constraint.Savable)]
  · rfl
  · intro c; rw [returns_bind_pure, C46_Constraint]

theorem C46_DesignRules (o : DesignRules) (i : Nat) (nl : Bool) : Returns (o.toSexpr i nl) ↔ o.Savable := by
  rw [DesignRules.toSexpr, returns_bind_pure, returns_forSM (P := Rule.Savable)]
  · rfl
  · intro c; rw [returns_bind_pure, C46_Rule]
example : ¬ Returns (DesignRules.toSexpr { rules := [{ constraints := [{ elements := [.str k!"track", .int 3] }] }] }) := by
  rw [C46_DesignRules]
  intro h
  obtain ⟨s, hs⟩ := h _ (List.mem_singleton.mpr rfl) _ (List.mem_singleton.mpr rfl) (.int 3) (by simp)
  cases hs

theorem isCardinal_iff (a : Val) : isCardinal a = true ↔ a.canon ∈ [Val.int 0, .int 90, .int 180, .int 270] := by
  have key : ∀ n : Int, a.keyEq (.int n) = true ↔ a.canon = .int n := by
    intro n
    unfold Val.keyEq
    cases a.canon <;> simp [Val.canon]
  simp only [isCardinal, List.any_cons, List.any_nil, Bool.or_false, Bool.or_eq_true, key, List.mem_cons, List.not_mem_nil, or_false]

theorem isRight_iff (a : Option Val) : isRight a = true ↔ Upright a := by
  cases a with
  | none => exact iff_of_true rfl fun _ h => nomatch h
  | some a => exact (isCardinal_iff a).trans ⟨fun h _ e => by cases e; exact h, fun h => h a rfl⟩

theorem isOblique_eq (a : Option Val) : isOblique a = !isRight a := by
  cases a <;> rfl

/-- The two tests in front of the text of a text box. -/
theorem textBox_returns {angle : Option Val} {pts : List Position} {s e : Option Position} {m : PyM Str} (hm : Returns m) :
    Returns (if (isOblique angle && pts.length != 4) = true then .error .exception
      else if (isRight angle && (s.isNone || e.isNone)) = true then .error .exception else m) ↔
      (Upright angle → s ≠ none ∧ e ≠ none) ∧ (¬ Upright angle → pts.length = 4) := by
  rw [isOblique_eq, ← isRight_iff]
  cases isRight angle with
  | true =>
    simp only [Bool.not_true, Bool.false_and, Bool.false_eq_true, if_false, Bool.true_and, true_imp_iff, not_true, false_imp_iff,
      and_true]
    cases s with
    | none => exact iff_of_false not_returns fun h => h.1 rfl
    | some s =>
      cases e with
      | none => exact iff_of_false not_returns fun h => h.2 rfl
      | some e => exact iff_of_true hm ⟨by simp, by simp⟩
  | false =>
    simp only [Bool.not_false, Bool.true_and, Bool.false_and, Bool.false_eq_true, if_false, false_imp_iff, true_and, not_false_eq_true,
      true_imp_iff]
    by_cases h : pts.length = 4
    · simp only [h]; exact iff_of_true hm trivial
    · rw [if_pos (by simp [h])]; exact iff_of_false not_returns h

theorem C46_GrTextBox (o : GrTextBox) (i : Nat) (nl : Bool) : Returns (o.toSexpr i nl) ↔ o.Savable := by
  rw [GrTextBox.toSexpr]
  exact textBox_returns (returns_ok _)
example : ¬ Returns (GrTextBox.toSexpr { angle := some (.int 45), pts := [{}, {}] }) := by
  rw [C46_GrTextBox]
  refine fun h => absurd (h.2 fun hu => ?_) (by decide)
  have := hu _ rfl
  revert this
  simp [Val.canon]

theorem C46_FpTextBox (o : FpTextBox) (i : Nat) (nl : Bool) : Returns (o.toSexpr i nl) ↔ o.Savable := by
  rw [FpTextBox.toSexpr]
  exact textBox_returns (returns_ok _)
example : ¬ Returns (FpTextBox.toSexpr { text := .str k!"a" }) := by
  rw [C46_FpTextBox]
  exact fun h => (h.1 fun _ h => nomatch h).1 rfl

theorem C46_GrItem (o : GrItem) (i : Nat) (nl pn : Bool) : Returns (o.toSexpr i nl pn) ↔ o.Savable := by
  cases o with
  | textBox b => exact (C46_GrTextBox b i nl).trans ⟨fun h _ e => by cases e; exact h, fun h => h b rfl⟩
  | _ => exact iff_of_true (returns_ok _) fun _ h => nomatch h

theorem C46_FpItem (o : FpItem) (i : Nat) : Returns (o.toSexpr i) ↔ o.Savable := by
  cases o with
  | textBox b => exact (C46_FpTextBox b i true).trans ⟨fun h _ e => by cases e; exact h, fun h => h b rfl⟩
  | _ => exact iff_of_true (returns_ok _) fun _ h => nomatch h

theorem padLayer_returns (l : Val) : Returns (padLayer l) ↔ l.Sized := by
  rw [padLayer, returns_bind_ok fun b => by cases b <;> exact returns_ok _]
  cases l with
  | str s => exact iff_of_true (returns_ok _) (.inl ⟨s, rfl⟩)
  | list s => exact iff_of_true (returns_ok _) (.inr ⟨s, rfl⟩)
  | int n => exact iff_of_false not_returns (by rintro (⟨_, h⟩ | ⟨_, h⟩) <;> cases h)
  | flt n => exact iff_of_false not_returns (by rintro (⟨_, h⟩ | ⟨_, h⟩) <;> cases h)

theorem C46_Pad (o : Pad) (i : Nat) (nl : Bool) : Returns (o.toSexpr i nl) ↔ o.Savable := by
  rw [Pad.toSexpr, returns_bind (P := ∀ p ∈ o.customPadPrimitives, p.Savable), returns_forSM padLayer_returns]
  · rfl
  · intro a
    rw [returns_bind_pure, returns_forSM (P := GrItem.Savable)]
    intro p
    rw [returns_bind_pure, C46_GrItem]
example : ¬ Returns (Pad.toSexpr { samplePad with layers := [.str k!"F.Cu", .int 3] } 2 true) := by
  rw [C46_Pad]
  intro h
  rcases h.1 (.int 3) (by simp) with ⟨_, h⟩ | ⟨_, h⟩ <;> cases h

theorem C46_Footprint (o : Footprint) (i : Nat) (nl first : Bool) : Returns (o.toSexpr i nl first) ↔ o.Savable := by
  rw [Footprint.toSexpr, returns_bind (P := (∀ p ∈ o.pads, p.Savable) ∧ ∀ z ∈ o.zones, z.Savable),
    returns_forSM fun x => C46_FpItem x _]
  · rfl
  · intro a
    rw [returns_bind (P := ∀ z ∈ o.zones, z.Savable), returns_forSM fun x => C46_Pad x _ _]
    intro b
    rw [returns_bind_pure, returns_forSM fun x => C46_Zone x _ _]
example : ¬ Returns (Footprint.toSexpr { sampleFootprint with pads := [{ samplePad with layers := [.int 3] }] } 2 true false) := by
  rw [C46_Footprint]
  intro h
  rcases (h.2.1 _ (List.mem_singleton.mpr rfl)).1 _ (List.mem_singleton.mpr rfl) with ⟨_, h⟩ | ⟨_, h⟩ <;> cases h

theorem C46_Junction (o : Junction) (i : Nat) (nl : Bool) : Returns (o.toSexpr i nl) ↔ o.Savable := by
  rw [Junction.toSexpr, returns_bind_pure]
  unfold Junction.Savable
  cases o.color with
  | rgba c => exact iff_of_true (returns_ok _) ⟨c, rfl⟩
  | raw v => exact iff_of_false not_returns fun ⟨_, h⟩ => nomatch h
example : ¬ Returns (Junction.toSexpr { color := .raw (.int 1) }) := by
  rw [C46_Junction]
  exact fun ⟨_, h⟩ => nomatch h

theorem C46_Text (o : Text) (i : Nat) (nl : Bool) : Returns (o.toSexpr i nl) ↔ o.Savable := by
  rw [Text.toSexpr, returns_bind_pure]
  unfold Text.Savable
  cases o.text with
  | str s => exact iff_of_true (returns_ok _) (.inl ⟨s, rfl⟩)
  | list s => exact iff_of_true (returns_ok _) (.inr ⟨s, rfl⟩)
  | int n => exact iff_of_false not_returns (by rintro (⟨_, h⟩ | ⟨_, h⟩) <;> cases h)
  | flt n => exact iff_of_false not_returns (by rintro (⟨_, h⟩ | ⟨_, h⟩) <;> cases h)
example : Returns (sampleText.toSexpr 2 true) := (C46_Text _ _ _).mpr (.inl ⟨_, rfl⟩)

theorem C46_NetclassFlag (o : NetclassFlag) (i : Nat) (nl : Bool) : Returns (o.toSexpr i nl) ↔ o.Savable := by
  rw [NetclassFlag.toSexpr, returns_bind_pure]
  unfold NetclassFlag.Savable
  cases o.effects with
  | none => exact iff_of_false not_returns fun h => h rfl
  | some e => exact iff_of_true (returns_ok _) (by simp)
example : ¬ Returns (NetclassFlag.toSexpr {}) := by
  rw [C46_NetclassFlag]
  exact fun h => h rfl

theorem C46_HierarchicalSheet (o : HierarchicalSheet) (i : Nat) (nl : Bool) : Returns (o.toSexpr i nl) ↔ o.Savable := by
  rw [HierarchicalSheet.toSexpr, returns_bind_pure]
  unfold HierarchicalSheet.Savable ColorRGBA.toSexprM
  cases o.fill.precision with
  | none => exact iff_of_true (returns_ok _) fun h => absurd rfl h
  | some p =>
    simp only
    rw [returns_bind_pure, formatFixed_returns]
    exact ⟨fun h _ => h, fun h => h (by simp)⟩
set_option exponentiation.threshold 1100 in
example : ¬ Returns (HierarchicalSheet.toSexpr { fill := { A := .int (2 ^ 1024), precision := some 4 } }) := by
  rw [C46_HierarchicalSheet]
  intro h
  rcases h (by intro h; cases h) with ⟨_, h⟩ | ⟨n, h, h'⟩
  · cases h
  · cases h
    rw [Int.natAbs_pow, show (2 : Int).natAbs = 2 from rfl] at h'
    generalize 2 ^ 1024 = a at h'
    generalize 2 ^ 970 = b at h'
    omega

theorem C46_Schematic (o : Schematic) (i : Nat) (nl : Bool) : Returns (o.toSexpr i nl) ↔ o.Savable := by
  rw [Schematic.toSexpr, returns_bind (P := (∀ j ∈ o.junctions, j.Savable) ∧ (∀ t ∈ o.texts, t.Savable) ∧
    (∀ f ∈ o.netclassFlags, f.Savable) ∧ ∀ s ∈ o.sheets, s.Savable), C46_PageSettings]
  · rfl
  intro a
  rw [returns_bind (P := (∀ t ∈ o.texts, t.Savable) ∧ (∀ f ∈ o.netclassFlags, f.Savable) ∧ ∀ s ∈ o.sheets, s.Savable),
    returns_forSM fun x => C46_Junction x _ _]
  intro b
  rw [returns_bind (P := (∀ f ∈ o.netclassFlags, f.Savable) ∧ ∀ s ∈ o.sheets, s.Savable), returns_forSM fun x => C46_Text x _ _]
  intro c
  rw [returns_bind (P := ∀ s ∈ o.sheets, s.Savable), returns_forSM fun x => C46_NetclassFlag x _ _]
  intro d
  rw [returns_bind_pure, returns_forSM (P := HierarchicalSheet.Savable)]
  intro s
  rw [returns_bind_pure, C46_HierarchicalSheet]
example : Returns (Schematic.createNew.toSexpr 0 true) := by
  rw [C46_Schematic]
  exact ⟨fun h => (by cases h), fun _ h => absurd h List.not_mem_nil, fun _ h => absurd h List.not_mem_nil,
    fun _ h => absurd h List.not_mem_nil, fun _ h => absurd h List.not_mem_nil⟩

theorem C46_WksItem (o : WksItem) (i : Nat) : Returns (o.toSexpr i) ↔ o.Savable := by
  cases o with
  | polygon => exact iff_of_false not_returns fun h => h rfl
  | _ => exact iff_of_true (returns_ok _) (by intro h; cases h)

theorem C46_WorkSheet (o : WorkSheet) (i : Nat) (nl : Bool) : Returns (o.toSexpr i nl) ↔ o.Savable := by
  rw [WorkSheet.toSexpr, returns_bind_pure, returns_forSM fun x => C46_WksItem x _]
  rfl
example : ¬ Returns (WorkSheet.toSexpr { drawingObjects := [.polygon] }) := by
  rw [C46_WorkSheet]
  exact fun h => h _ (List.mem_singleton.mpr rfl) rfl

theorem C46_PlotSettings (o : PlotSettings) (i : Nat) (nl : Bool) : Returns (o.toSexpr i nl) ↔ o.Savable := by
  rw [PlotSettings.toSexpr, returns_bind (P := (∀ v, o.dashedLineGapRatio = some v → v.Floats) ∧ o.hpglPenDiameter.Floats),
    returns_optSM (P := Val.Floats)]
  · rfl
  · intro v; rw [returns_bind_pure, floatFixed_returns]
  · intro a
    rw [returns_bind (P := o.hpglPenDiameter.Floats), returns_optSM (P := Val.Floats)]
    · intro v; rw [returns_bind_pure, floatFixed_returns]
    · intro b
      rw [returns_bind_pure, floatFixed_returns]
example : ¬ Returns (PlotSettings.toSexpr { hpglPenDiameter := .list [] }) := by
  rw [C46_PlotSettings]
  rintro ⟨-, -, (⟨_, h⟩ | ⟨_, h, -⟩) | ⟨_, _, h, -⟩⟩ <;> cases h

theorem C46_SetupData (o : SetupData) (i : Nat) (nl : Bool) : Returns (o.toSexpr i nl) ↔ o.Savable := by
  rw [SetupData.toSexpr, returns_bind_pure, returns_optSM fun x => C46_PlotSettings x _ _]
  rfl

theorem C46_Board (o : Board) (i : Nat) (nl : Bool) : Returns (o.toSexpr i nl) ↔ o.Savable := by
  rw [Board.toSexpr, returns_bind (P := o.setup.Savable ∧ (∀ f ∈ o.footprints, f.Savable) ∧ (∀ i ∈ o.graphicItems, i.Savable) ∧
    (∀ d ∈ o.dimensions, d.Savable) ∧ ∀ z ∈ o.zones, z.Savable), C46_PageSettings]
  · rfl
  intro a
  rw [returns_bind (P := (∀ f ∈ o.footprints, f.Savable) ∧ (∀ i ∈ o.graphicItems, i.Savable) ∧
    (∀ d ∈ o.dimensions, d.Savable) ∧ ∀ z ∈ o.zones, z.Savable), C46_SetupData]
  intro b
  rw [returns_bind (P := (∀ i ∈ o.graphicItems, i.Savable) ∧ (∀ d ∈ o.dimensions, d.Savable) ∧ ∀ z ∈ o.zones, z.Savable),
    returns_forSM (P := Footprint.Savable)]
  · intro f; rw [returns_bind_pure, C46_Footprint]
  intro c
  rw [returns_bind (P := (∀ d ∈ o.dimensions, d.Savable) ∧ ∀ z ∈ o.zones, z.Savable), returns_forSM fun x => C46_GrItem x _ _ _]
  intro d
  rw [returns_bind (P := ∀ z ∈ o.zones, z.Savable), returns_forSM fun x => C46_Dimension x _ _]
  intro e
  simp only
  rw [returns_bind_pure, returns_forSM fun x => C46_Zone x _ _]
example : ¬ Returns (Board.toSexpr { zones := [sampleZone, { sampleZone with layers := [] }] }) := by
  rw [C46_Board]
  exact fun h => h.2.2.2.2.2 { sampleZone with layers := [] } (by simp) rfl

/-! ### Which exception it is -/

/-- The only exception the computation can raise. -/
def OnlyRaises {α : Type} (m : PyM α) (e : PyErr) : Prop := ∀ e', m = .error e' → e' = e

theorem onlyRaises_ok {α : Type} {a : α} {e : PyErr} : OnlyRaises (.ok a : PyM α) e := fun _ h => nomatch h
theorem onlyRaises_error {α : Type} {e : PyErr} : OnlyRaises (.error e : PyM α) e := fun _ h => by cases h; rfl
theorem onlyRaises_bind {α β : Type} {m : PyM α} {f : α → PyM β} {e : PyErr} (hm : OnlyRaises m e) (hf : ∀ a, OnlyRaises (f a) e) :
    OnlyRaises (m >>= f) e := by
  cases m with
  | error e' => exact fun _ h => by cases h; exact hm _ rfl
  | ok a => exact hf a
theorem onlyRaises_forSM {α : Type} {xs : List α} {f : α → PyM Str} {e : PyErr} (h : ∀ x, OnlyRaises (f x) e) :
    OnlyRaises (forSM xs f) e := by
  induction xs with
  | nil => exact onlyRaises_ok
  | cons a r ih => exact onlyRaises_bind (h a) fun _ => onlyRaises_bind ih fun _ => onlyRaises_ok

/-- If `to_sexpr` raises, it is an `Exception`; likewise below. -/
theorem C46_PageSettings_exception (o : PageSettings) (i : Nat) (nl : Bool) : OnlyRaises (o.toSexpr i nl) .exception := by
  unfold PageSettings.toSexpr
  simp only
  split
  · split
    · exact onlyRaises_ok
    · exact onlyRaises_error
  · exact onlyRaises_ok
theorem C46_Dimension_exception (o : Dimension) (i : Nat) (nl : Bool) : OnlyRaises (o.toSexpr i nl) .exception := by
  unfold Dimension.toSexpr
  cases o.pts with
  | nil => exact onlyRaises_error
  | cons p r => exact onlyRaises_ok
theorem C46_Zone_exception (o : Zone) (i : Nat) (nl : Bool) : OnlyRaises (o.toSexpr i nl) .exception := by
  rw [Zone.toSexpr]
  refine onlyRaises_bind ?_ fun _ => onlyRaises_ok
  unfold Zone.layerToken
  cases o.layers with
  | nil => exact onlyRaises_error
  | cons p r =>
    cases r
    · simp only; split <;> exact onlyRaises_ok
    · exact onlyRaises_ok
theorem C46_GrTextBox_exception (o : GrTextBox) (i : Nat) (nl : Bool) : OnlyRaises (o.toSexpr i nl) .exception := by
  rw [GrTextBox.toSexpr]
  simp only
  split
  · exact onlyRaises_error
  · split
    · exact onlyRaises_error
    · exact onlyRaises_ok
theorem C46_FpTextBox_exception (o : FpTextBox) (i : Nat) (nl : Bool) : OnlyRaises (o.toSexpr i nl) .exception := by
  rw [FpTextBox.toSexpr]
  simp only
  split
  · exact onlyRaises_error
  · split
    · exact onlyRaises_error
    · exact onlyRaises_ok
theorem C46_Constraint_exception (o : Constraint) (i : Nat) (nl : Bool) : OnlyRaises (o.toSexpr i nl) .typeError := by
  rw [Constraint.toSexpr]
  refine onlyRaises_bind ?_ fun _ => onlyRaises_ok
  induction o.elements with
  | nil => exact onlyRaises_ok
  | cons a r ih =>
    rw [joinSp.eq_def]
    split
    · exact onlyRaises_ok
    · exact onlyRaises_ok
    · rename_i h; cases h; exact onlyRaises_bind ih fun _ => onlyRaises_ok
    · exact onlyRaises_error
theorem C46_DesignRules_exception (o : DesignRules) (i : Nat) (nl : Bool) : OnlyRaises (o.toSexpr i nl) .typeError := by
  rw [DesignRules.toSexpr]
  refine onlyRaises_bind (onlyRaises_forSM fun r => ?_) fun _ => onlyRaises_ok
  refine onlyRaises_bind ?_ fun _ => onlyRaises_ok
  rw [Rule.toSexpr]
  refine onlyRaises_bind (onlyRaises_forSM fun c => ?_) fun _ => onlyRaises_ok
  exact onlyRaises_bind (C46_Constraint_exception c _ _) fun _ => onlyRaises_ok
theorem C46_Junction_exception (o : Junction) (i : Nat) (nl : Bool) : OnlyRaises (o.toSexpr i nl) .attributeError := by
  rw [Junction.toSexpr]
  refine onlyRaises_bind ?_ fun _ => onlyRaises_ok
  cases o.color
  · exact onlyRaises_ok
  · exact onlyRaises_error
theorem C46_Text_exception (o : Text) (i : Nat) (nl : Bool) : OnlyRaises (o.toSexpr i nl) .typeError := by
  rw [Text.toSexpr]
  refine onlyRaises_bind ?_ fun _ => onlyRaises_ok
  cases o.text
  all_goals first | exact onlyRaises_ok | exact onlyRaises_error
theorem C46_NetclassFlag_exception (o : NetclassFlag) (i : Nat) (nl : Bool) : OnlyRaises (o.toSexpr i nl) .attributeError := by
  rw [NetclassFlag.toSexpr]
  refine onlyRaises_bind ?_ fun _ => onlyRaises_ok
  cases o.effects
  · exact onlyRaises_error
  · exact onlyRaises_ok
theorem C46_WorkSheet_exception (o : WorkSheet) (i : Nat) (nl : Bool) : OnlyRaises (o.toSexpr i nl) .notImplemented := by
  rw [WorkSheet.toSexpr]
  refine onlyRaises_bind (onlyRaises_forSM fun x => ?_) fun _ => onlyRaises_ok
  cases x <;> first | exact onlyRaises_ok | exact onlyRaises_error

/-! ## C47: whatever is loaded can be saved -/

theorem forM_inv' {σ : Type} {step : σ → Val → PyM σ} {P : σ → Prop} (h : ∀ o x, P o → Post (step o x) P) {o : σ} (ho : P o)
    (xs : List Val) : Post (forM step o xs) P :=
  fun _ he => forM_inv (fun o x o' hp hs => h o x hp o' hs) xs o _ ho he

theorem post_bind' {α β : Type} {P : β → Prop} {m : PyM α} {Q : α → Prop} {f : α → PyM β} (hm : Post m Q)
    (h : ∀ a, Q a → Post (f a) P) : Post (m >>= f) P := by
  cases m with
  | error e => exact post_error
  | ok a => exact h a (hm a rfl)

theorem PageSettings.loaded (v : Val) : Post (PageSettings.fromSexpr v) PageSettings.Savable := by
  unfold PageSettings.fromSexpr
  refine post_bind fun l => post_bind fun size => ?_
  simp only
  have hstep : ∀ s : Val, ∀ o x, (o.paperSize = s ∧ o.Savable) → Post (PageSettings.step o x) fun o => o.paperSize = s ∧ o.Savable := by
    intro s o x ho
    unfold PageSettings.step
    post
    all_goals exact ho
  split
  · refine post_ite post_error (post_bind fun w => post_bind fun h => ?_)
    intro o ho
    exact (forM_inv' (hstep size) (by exact ⟨rfl, fun _ => ⟨by simp, by simp⟩⟩) _ o ho).2
  · rename_i hs
    intro o ho
    exact (forM_inv' (hstep size) (by exact ⟨rfl, fun hu => absurd ((Val.is_text_iff _ _).mpr hu) hs⟩) _ o ho).2

/-- Page settings that were loaded can be saved. -/
theorem C47_PageSettings (v : Val) (o : PageSettings) (h : PageSettings.fromSexpr v = .ok o) (i : Nat) (nl : Bool) :
    Returns (o.toSexpr i nl) := (C46_PageSettings o i nl).mpr (PageSettings.loaded v o h)
example := C47_PageSettings (.list [.str k!"paper", .str k!"A4"]) _ rfl

theorem Constraint.loaded (v : Val) : Post (Constraint.fromSexpr v) Constraint.Savable := by
  unfold Constraint.fromSexpr
  refine post_bind fun l => post_bind fun type => forM_inv' (fun o x ho => ?_) (fun _ h => absurd h List.not_mem_nil) _
  cases x with
  | list l => unfold Constraint.step; post; all_goals exact ho
  | int n => exact post_error
  | flt n => exact post_error
  | str s =>
    have ho' : ∀ e ∈ o.elements ++ [Val.str s], e.IsText := by
      intro e he
      rcases List.mem_append.mp he with he | he
      · exact ho e he
      · exact ⟨s, List.mem_singleton.mp he⟩
    unfold Constraint.step; post; all_goals exact ho'

theorem forall_mem_append_one {α : Type} {P : α → Prop} {l : List α} {a : α} (h : ∀ x ∈ l, P x) (ha : P a) : ∀ x ∈ l ++ [a], P x := by
  intro b hb
  rcases List.mem_append.mp hb with hb | hb
  · exact h b hb
  · rw [List.mem_singleton.mp hb]; exact ha

theorem Rule.loaded (v : Val) : Post (Rule.fromSexpr v) Rule.Savable := by
  unfold Rule.fromSexpr
  refine post_bind fun l => post_bind fun name => forM_inv' (fun o x ho => ?_) (fun _ h => absurd h List.not_mem_nil) _
  unfold Rule.step
  refine post_bind fun k => post_ite (post_bind' (Constraint.loaded x) fun c hc => post_pure ?_) ?_
  · exact forall_mem_append_one ho hc
  · post; all_goals exact ho

theorem DesignRules.loaded (v : Val) : Post (DesignRules.fromSexpr v) DesignRules.Savable := by
  unfold DesignRules.fromSexpr
  split
  · exact post_error
  · exact post_error
  · refine post_ite (forM_inv' (fun o x ho => ?_) (fun _ h => absurd h List.not_mem_nil) _) post_error
    unfold DesignRules.step
    refine post_bind fun k => post_ite (post_bind fun _ => post_pure ho) (post_ite (post_bind' (Rule.loaded x) fun c hc => post_pure ?_) (post_pure ho))
    exact forall_mem_append_one ho hc
  · exact post_error

/-- Design rules that were loaded can be saved. -/
theorem C47_DesignRules (v : Val) (o : DesignRules) (h : DesignRules.fromSexpr v = .ok o) (i : Nat) (nl : Bool) :
    Returns (o.toSexpr i nl) := (C46_DesignRules o i nl).mpr (DesignRules.loaded v o h)
example := C47_DesignRules (.list [.list [.str k!"version", .int 1]]) _ rfl

theorem WorkSheet.loaded (v : Val) : Post (WorkSheet.fromSexpr v) WorkSheet.Savable := by
  unfold WorkSheet.fromSexpr
  refine post_bind fun l => forM_inv' (fun o x ho => ?_) (fun _ h => absurd h List.not_mem_nil) _
  unfold WorkSheet.step
  post
  all_goals first | exact ho | exact forall_mem_append_one ho (by intro h; cases h)

/-- Worksheets that were loaded can be saved. -/
theorem C47_WorkSheet (v : Val) (o : WorkSheet) (h : WorkSheet.fromSexpr v = .ok o) (i : Nat) (nl : Bool) :
    Returns (o.toSexpr i nl) := (C46_WorkSheet o i nl).mpr (WorkSheet.loaded v o h)
example := C47_WorkSheet (.list [.str k!"kicad_wks"]) _ rfl

/-! ### Schematics

The page settings of a file never stand in the way. A schematic with one of the following items loads, but saving it raises. -/

/-- An item of the form `(key …)` -/
def Val.Tagged (key : Str) (v : Val) : Prop := ∃ r, v = .list (.str key :: r)

theorem Val.tagged_iff {key : Str} {v k : Val} (hk : v.idx 0 = .ok k) (hkey : key.length ≠ 1) : v.Tagged key ↔ k.is key = true := by
  rw [Val.is_text_iff]
  cases v with
  | list l =>
    cases l with
    | nil => cases hk
    | cons a r =>
      cases hk
      exact ⟨fun ⟨r', h⟩ => by cases h; rfl, fun h => ⟨r, by rw [h]⟩⟩
  | str s =>
    cases s with
    | nil => cases hk
    | cons c s =>
      cases hk
      exact ⟨fun ⟨_, h⟩ => (nomatch h), fun h => absurd (congrArg List.length (Val.str.inj h)).symm hkey⟩
  | int n => cases hk
  | flt n => cases hk

theorem bind_returns {α β : Type} {m : PyM α} {f : α → PyM β} {b : β} (h : (m >>= f) = .ok b) : ∃ a, m = .ok a ∧ f a = .ok b := by
  cases m with
  | error e => cases h
  | ok a => exact ⟨a, rfl, h⟩

theorem checkHead_list {key : Str} {l l' : List Val} (h : checkHead key (.list l) = .ok l') : l' = l := by
  cases l with
  | nil => cases h
  | cons a r =>
    unfold checkHead at h
    simp only at h
    split at h <;> cases h
    rfl

theorem forM_exists {σ : Type} {step : σ → Val → PyM σ} {Q : σ → Prop} {T : Val → Prop}
    (h : ∀ o x o', step o x = .ok o' → (Q o' ↔ Q o ∨ T x)) :
    ∀ (xs : List Val) (o o' : σ), forM step o xs = .ok o' → (Q o' ↔ Q o ∨ ∃ x ∈ xs, T x)
  | [], o, o', he => by cases he; simp
  | x :: r, o, o', he => by
    rw [forM] at he
    cases hs : step o x with
    | error e => rw [hs] at he; cases he
    | ok o1 =>
      rw [hs] at he
      rw [forM_exists h r o1 o' he, h o x o1 hs]
      simp [or_assoc]

/-- A loaded text can be saved, unless it is a number. -/
theorem C47_Text (h t : Val) (rest : List Val) (o : Text) (ho : Text.fromSexpr (.list (h :: t :: rest)) = .ok o) (i : Nat) (nl : Bool) :
    Returns (o.toSexpr i nl) ↔ t.Sized := by
  rw [C46_Text]
  unfold Text.fromSexpr at ho
  obtain ⟨l, hl, ho⟩ := bind_returns ho
  cases checkHead_list hl
  have ho : forM Text.step { text := t } rest = .ok o := ho
  have : o.text = t := by
    refine forM_inv' (P := fun o => o.text = t) (fun o x ho => ?_) (by rfl) rest o ho
    unfold Text.step
    post
    all_goals exact ho
  rw [Text.Savable, this]
example : ∃ o, Text.fromSexpr (.list [.str k!"text", .int 3]) = .ok o ∧ ¬ Returns o.toSexpr :=
  ⟨_, rfl, fun h => by
    rcases (C47_Text (.str k!"text") (.int 3) [] _ rfl _ _).mp h with ⟨_, h⟩ | ⟨_, h⟩ <;> cases h⟩

theorem post_ite' {α : Type} {P : α → Prop} {c : Prop} [Decidable c] {m n : PyM α} (h : c → Post m P) (h' : ¬ c → Post n P) :
    Post (if c then m else n) P := by
  split
  · exact h ‹_›
  · exact h' ‹_›

/-- As `post`, keeping the conditions. -/
macro "postc" : tactic => `(tactic|
  repeat' (with_reducible first
    | exact post_error
    | refine post_ite' (fun _ => ?_) (fun _ => ?_)
    | refine post_bind fun _ => ?_
    | refine post_pure ?_
    | refine post_ok ?_))

theorem post_idx {β : Type} {P : β → Prop} {x : Val} {f : Val → PyM β} (h : ∀ k, x.idx 0 = .ok k → Post (f k) P) :
    Post (x.idx 0 >>= f) P := by
  cases hk : x.idx 0 with
  | error e => exact post_error
  | ok k => exact h k hk

theorem NetclassFlag.step_effects (o : NetclassFlag) (x : Val) :
    Post (NetclassFlag.step o x) fun o' => o'.effects ≠ none ↔ o.effects ≠ none ∨ x.Tagged k!"effects" := by
  unfold NetclassFlag.step
  refine post_idx fun k hk => ?_
  rw [Val.tagged_iff hk (by decide)]
  postc
  all_goals simp_all [Val.is_text_iff]

/-- A loaded flag can be saved exactly if it has an item `(effects …)`. -/
theorem C47_NetclassFlag (h t : Val) (rest : List Val) (o : NetclassFlag) (ho : NetclassFlag.fromSexpr (.list (h :: t :: rest)) = .ok o)
    (i : Nat) (nl : Bool) : Returns (o.toSexpr i nl) ↔ ∃ x ∈ rest, x.Tagged k!"effects" := by
  rw [C46_NetclassFlag]
  unfold NetclassFlag.fromSexpr at ho
  obtain ⟨l, hl, ho⟩ := bind_returns ho
  cases checkHead_list hl
  have ho : forM NetclassFlag.step { text := t } rest = .ok o := ho
  rw [NetclassFlag.Savable, forM_exists (Q := fun o => o.effects ≠ none) (fun o x o' h => NetclassFlag.step_effects o x o' h) rest _ o ho]
  simp
example : ∃ o, NetclassFlag.fromSexpr (.list [.str k!"netclass_flag", .str k!"F"]) = .ok o ∧ ¬ Returns o.toSexpr :=
  ⟨_, rfl, fun h => by
    obtain ⟨_, h, -⟩ := (C47_NetclassFlag (.str k!"netclass_flag") (.str k!"F") [] _ rfl _ _).mp h
    exact absurd h List.not_mem_nil⟩

theorem Junction.step_color (o : Junction) (x : Val) : Post (Junction.step o x) fun o' =>
    o'.Savable ↔ x.Tagged k!"color" ∨ (o.Savable ∧ ¬ x.Tagged k!"diameter") := by
  unfold Junction.step
  refine post_idx fun k hk => ?_
  rw [Val.tagged_iff hk (by decide), Val.tagged_iff hk (by decide)]
  postc
  all_goals simp_all [Val.is_text_iff, Junction.Savable]

/-- A loaded junction can be saved exactly if after every item `(diameter …)` there is an item `(color …)`. -/
theorem C47_Junction (l : List Val) (o : Junction) (ho : Junction.fromSexpr (.list l) = .ok o) (i : Nat) (nl : Bool) :
    Returns (o.toSexpr i nl) ↔ ∀ a d b, l = a ++ d :: b → d.Tagged k!"diameter" → ∃ c ∈ b, c.Tagged k!"color" := by
  rw [C46_Junction]
  unfold Junction.fromSexpr at ho
  obtain ⟨l', hl, ho⟩ := bind_returns ho
  cases checkHead_list hl
  clear hl
  have key : ∀ (l : List Val) (o o' : Junction), forM Junction.step o l = .ok o' → (o'.Savable ↔
      (o.Savable ∨ ∃ c ∈ l, c.Tagged k!"color") ∧ ∀ a d b, l = a ++ d :: b → d.Tagged k!"diameter" → ∃ c ∈ b, c.Tagged k!"color") := by
    intro l
    induction l with
    | nil =>
      intro o o' h
      cases h
      simp
    | cons x r ih =>
      intro o o' h
      rw [forM] at h
      obtain ⟨o1, h1, h⟩ := bind_returns h
      have hc : o1.Savable ↔ x.Tagged k!"color" ∨ (o.Savable ∧ ¬ x.Tagged k!"diameter") := Junction.step_color o x o1 h1
      rw [ih o1 o' h, hc]
      have hne : x.Tagged k!"color" → ¬ x.Tagged k!"diameter" := by
        rintro ⟨_, h⟩ ⟨_, h'⟩; rw [h] at h'; cases h'
      constructor
      · rintro ⟨h2, h3⟩
        constructor
        · rcases h2 with (h2 | h2) | ⟨c, hc, h2⟩
          · exact .inr ⟨x, List.mem_cons_self, h2⟩
          · exact .inl h2.1
          · exact .inr ⟨c, List.mem_cons_of_mem _ hc, h2⟩
        · intro a d b e hd
          cases a with
          | nil =>
            cases e
            rcases h2 with (h2 | h2) | h2
            · exact absurd hd (hne h2)
            · exact absurd hd h2.2
            · exact h2
          | cons y a => cases e; exact h3 a d b rfl hd
      · rintro ⟨h2, h3⟩
        refine ⟨?_, fun a d b e hd => h3 (x :: a) d b (by rw [e]; rfl) hd⟩
        by_cases hx : x.Tagged k!"diameter"
        · exact .inr (h3 [] x r rfl hx)
        · rcases h2 with h2 | ⟨c, hc, h2⟩
          · exact .inl (.inr ⟨h2, hx⟩)
          · rcases List.mem_cons.mp hc with rfl | hc
            · exact .inl (.inl h2)
            · exact .inr ⟨c, hc, h2⟩
  rw [key _ _ _ ho]
  exact ⟨fun h => h.2, fun h => ⟨.inl ⟨_, rfl⟩, h⟩⟩
example : ∃ o, Junction.fromSexpr (.list [.str k!"junction", .list [.str k!"diameter", .int 1]]) = .ok o ∧ ¬ Returns o.toSexpr :=
  ⟨_, rfl, fun h => by
    obtain ⟨_, h, -⟩ := (C47_Junction [.str k!"junction", .list [.str k!"diameter", .int 1]] _ rfl _ _).mp h [.str k!"junction"] _ [] rfl ⟨_, rfl⟩
    exact absurd h List.not_mem_nil⟩

theorem Schematic.paper_loaded (v : Val) : Post (Schematic.fromSexpr v) fun o => o.paper.Savable := by
  unfold Schematic.fromSexpr
  refine post_bind fun l => forM_inv' (fun o x ho => ?_) (by exact fun h => by cases h) _
  have hp : Post (PageSettings.fromSexpr x >>= fun p => pure { o with paper := p }) fun o : Schematic => o.paper.Savable :=
    post_bind' (PageSettings.loaded x) fun p hp => post_pure hp
  unfold Schematic.step
  refine post_bind fun k => ?_
  refine post_ite (by post; exact ho) (post_ite (by post; exact ho) (post_ite (by post; exact ho) (post_ite hp ?_)))
  post
  all_goals exact ho

/-- A loaded schematic can be saved exactly if its junctions, texts, flags and sheets can. (Missing: that they always can. See
`C47_Junction`, `C47_Text`, `C47_NetclassFlag`, `C47_HierarchicalSheet_violated` for when they cannot.) -/
theorem C47_Schematic_partial (v : Val) (o : Schematic) (h : Schematic.fromSexpr v = .ok o) (i : Nat) (nl : Bool) :
    Returns (o.toSexpr i nl) ↔ (∀ j ∈ o.junctions, j.Savable) ∧ (∀ t ∈ o.texts, t.Savable) ∧ (∀ f ∈ o.netclassFlags, f.Savable) ∧
      ∀ s ∈ o.sheets, s.Savable := by
  rw [C46_Schematic]
  exact and_iff_right (Schematic.paper_loaded v o h)
example := C47_Schematic_partial (.list [.str k!"kicad_sch", .list [.str k!"junction", .list [.str k!"diameter", .int 1]]]) _ rfl

/-- A sheet whose fill colour has a text as transparency is loaded, but cannot be saved. -/
theorem C47_HierarchicalSheet_violated : ∃ v o, HierarchicalSheet.fromSexpr v = .ok o ∧ ∀ i nl, ¬ Returns (o.toSexpr i nl) := by
  refine ⟨.list [.str k!"sheet", .list [.str k!"fill", .list [.str k!"color", .int 0, .int 0, .int 0, .str k!"x"]]], _, rfl, ?_⟩
  intro i nl h
  rcases (C46_HierarchicalSheet _ i nl).mp h (by intro h; cases h) with ⟨_, h⟩ | ⟨_, h, -⟩ <;> cases h

/-! ### Boards and footprints -/

theorem mapM'_nil {β : Type} {f : Val → PyM β} {xs : List Val} {ys : List β} (h : mapM' f xs = .ok ys) : ys = [] ↔ xs = [] := by
  cases xs with
  | nil => cases h; simp
  | cons x r =>
    rw [mapM'] at h
    obtain ⟨y, -, h⟩ := bind_returns h
    obtain ⟨z, -, h⟩ := bind_returns h
    cases h
    simp

theorem Dimension.step_pts (o : Dimension) (x : Val) :
    Post (Dimension.step o x) fun o' => o'.Savable ↔ o.Savable ∨ ∃ a r, x = .list (.str k!"pts" :: a :: r) := by
  cases x with
  | list l =>
    cases l with
    | nil => exact post_error
    | cons k l =>
      have hT : (∃ a r, Val.list (k :: l) = .list (.str k!"pts" :: a :: r)) ↔ k.is k!"pts" = true ∧ l ≠ [] := by
        rw [Val.is_text_iff]
        cases l with
        | nil => simp
        | cons a r => simp
      rw [hT]
      unfold Dimension.step
      have h0 : (Val.list (k :: l)).idx 0 = .ok k := rfl
      have h1 : (Val.list (k :: l)).slice 1 = .ok l := rfl
      simp only [h0, h1, ok_bind]
      have hm : Post (mapM' Position.fromSexpr l) fun ps => ps = [] ↔ l = [] := fun ps h => mapM'_nil h
      repeat' (with_reducible first
        | exact post_error
        | refine post_ite' (fun _ => ?_) (fun _ => ?_)
        | refine post_bind' hm fun _ _ => ?_
        | refine post_bind fun _ => ?_
        | refine post_pure ?_)
      all_goals simp_all [Val.is_text_iff, Dimension.Savable]
      all_goals tauto
  | _ =>
    unfold Dimension.step
    refine post_ite (post_pure ?_) (post_pure ?_)
    all_goals exact ⟨.inl, fun h => h.elim id fun ⟨_, _, h⟩ => (nomatch h)⟩

/-- A loaded dimension can be saved exactly if there is an item `(pts …)` that is not empty. -/
theorem C47_Dimension (l : List Val) (o : Dimension) (ho : Dimension.fromSexpr (.list l) = .ok o) (i : Nat) (nl : Bool) :
    Returns (o.toSexpr i nl) ↔ ∃ a r, .list (.str k!"pts" :: a :: r) ∈ l.drop 1 := by
  rw [C46_Dimension]
  unfold Dimension.fromSexpr at ho
  obtain ⟨l', hl, ho⟩ := bind_returns ho
  cases checkHead_list hl
  rw [forM_exists (Q := Dimension.Savable) (fun o x o' h => Dimension.step_pts o x o' h) _ _ o ho]
  constructor
  · rintro (h | ⟨x, hx, a, r, rfl⟩)
    · exact absurd rfl h
    · exact ⟨a, r, hx⟩
  · rintro ⟨a, r, h⟩
    exact .inr ⟨_, h, a, r, rfl⟩
example : ∃ o, Dimension.fromSexpr (.list [.str k!"dimension", .list [.str k!"pts"]]) = .ok o ∧ ¬ Returns o.toSexpr :=
  ⟨_, rfl, fun h => by
    obtain ⟨a, r, h⟩ := (C47_Dimension [.str k!"dimension", .list [.str k!"pts"]] _ rfl _ _).mp h
    cases List.mem_singleton.mp h⟩

theorem Zone.step_savable (o : Zone) (x : Val) : Post (Zone.step o x) fun o' => o'.Savable ↔ o.Savable ∨
    ∃ a r, x = .list (.str k!"layer" :: a :: r) ∨ x = .list (.str k!"layers" :: a :: r) := by
  cases x with
  | list l =>
    cases l with
    | nil => exact post_error
    | cons k l =>
      have hT : (∃ a r, Val.list (k :: l) = .list (.str k!"layer" :: a :: r) ∨ Val.list (k :: l) = .list (.str k!"layers" :: a :: r)) ↔
          (k.is k!"layers" || k.is k!"layer") = true ∧ l ≠ [] := by
        rw [Bool.or_eq_true, Val.is_text_iff, Val.is_text_iff]
        cases l with
        | nil => simp
        | cons a r =>
          constructor
          · rintro ⟨_, _, h | h⟩ <;> cases h <;> simp
          · rintro ⟨h | h, -⟩ <;> cases h
            · exact ⟨a, r, .inr rfl⟩
            · exact ⟨a, r, .inl rfl⟩
      rw [hT]
      unfold Zone.step
      have h0 : (Val.list (k :: l)).idx 0 = .ok k := rfl
      have h1 : (Val.list (k :: l)).slice 1 = .ok l := rfl
      simp only [h0, h1, ok_bind]
      repeat' (with_reducible first
        | exact post_error
        | refine post_ite' (fun _ => ?_) (fun _ => ?_)
        | refine post_bind fun _ => ?_
        | refine post_pure ?_)
      all_goals simp_all [Val.is_text_iff, Zone.Savable]
      all_goals tauto
  | _ =>
    unfold Zone.step
    refine post_ite (post_pure ?_) (post_pure ?_)
    all_goals exact ⟨.inl, fun h => h.elim id fun ⟨_, _, h⟩ => h.elim (fun h => nomatch h) (fun h => nomatch h)⟩

/-- A loaded zone can be saved exactly if there is an item `(layer …)` or `(layers …)` that is not empty. -/
theorem C47_Zone (l : List Val) (o : Zone) (ho : Zone.fromSexpr (.list l) = .ok o) (i : Nat) (nl : Bool) :
    Returns (o.toSexpr i nl) ↔ ∃ a r, .list (.str k!"layer" :: a :: r) ∈ l ∨ .list (.str k!"layers" :: a :: r) ∈ l := by
  rw [C46_Zone]
  unfold Zone.fromSexpr at ho
  obtain ⟨l', hl, ho⟩ := bind_returns ho
  cases checkHead_list hl
  rw [forM_exists (Q := Zone.Savable) (fun o x o' h => Zone.step_savable o x o' h) _ _ o ho]
  constructor
  · rintro (h | ⟨x, hx, a, r, rfl | rfl⟩)
    · exact absurd rfl h
    · exact ⟨a, r, .inl hx⟩
    · exact ⟨a, r, .inr hx⟩
  · rintro ⟨a, r, h | h⟩
    · exact .inr ⟨_, h, a, r, .inl rfl⟩
    · exact .inr ⟨_, h, a, r, .inr rfl⟩
example : ∃ o, Zone.fromSexpr (.list [.str k!"zone", .list [.str k!"net", .int 0]]) = .ok o ∧ ¬ Returns o.toSexpr :=
  ⟨_, rfl, fun h => by
    obtain ⟨a, r, h⟩ := (C47_Zone [.str k!"zone", .list [.str k!"net", .int 0]] _ rfl _ _).mp h
    simp at h⟩

theorem Board.paper_loaded (tedit v : Val) : Post (Board.fromSexpr tedit v) fun o => o.paper.Savable := by
  unfold Board.fromSexpr
  refine post_bind fun l => forM_inv' (fun o x ho => ?_) (by exact fun h => by cases h) _
  have hp : Post (PageSettings.fromSexpr x >>= fun p => pure { o with paper := p }) fun o : Board => o.paper.Savable :=
    post_bind' (PageSettings.loaded x) fun p hp => post_pure hp
  unfold Board.step
  refine post_bind fun k => ?_
  refine post_ite (by post; exact ho) (post_ite (by post; exact ho) (post_ite (by post; exact ho) (post_ite hp ?_)))
  post
  all_goals exact ho

/-- A loaded board can be saved exactly if its plot settings, footprints, text boxes, dimensions and zones can. (Missing: that they
always can. See `C47_Dimension`, `C47_Zone` and the theorems below for when they cannot.) -/
theorem C47_Board_partial (tedit v : Val) (o : Board) (h : Board.fromSexpr tedit v = .ok o) (i : Nat) (nl : Bool) :
    Returns (o.toSexpr i nl) ↔ o.setup.Savable ∧ (∀ f ∈ o.footprints, f.Savable) ∧ (∀ i ∈ o.graphicItems, i.Savable) ∧
      (∀ d ∈ o.dimensions, d.Savable) ∧ ∀ z ∈ o.zones, z.Savable := by
  rw [C46_Board]
  exact and_iff_right (Board.paper_loaded tedit v o h)
example := C47_Board_partial (.int 0) (.list [.str k!"kicad_pcb", .list [.str k!"zone"]]) _ rfl

/-- Plot settings with a text as pen diameter are loaded, but can be saved only if `float()` reads the text. -/
theorem C47_PlotSettings_violated (s : Str) (hs : ∀ x, ¬ FloatGrammar.FloatText s x) :
    ∃ o, PlotSettings.fromSexpr (.list [.str k!"pcbplotparams", .list [.str k!"hpglpendiameter", .str s]]) = .ok o ∧
      ∀ i nl, ¬ Returns (o.toSexpr i nl) := by
  refine ⟨_, rfl, ?_⟩
  intro i nl h
  rcases ((C46_PlotSettings _ i nl).mp h).2.2 with (⟨_, h⟩ | ⟨_, h, -⟩) | ⟨_, _, h, h'⟩
  · cases h
  · cases h
  · cases h; exact hs _ h'

example := C47_PlotSettings_violated k!"x" fun x h => by
  rw [← FloatGrammar.floatOfText_iff] at h
  have : floatOfText k!"x" = none := by decide
  rw [this] at h; cases h

/-- A text box without points is loaded, but cannot be saved. -/
theorem C47_GrTextBox_violated : ∃ v o, GrTextBox.fromSexpr v = .ok o ∧ ∀ i nl, ¬ Returns (o.toSexpr i nl) := by
  refine ⟨.list [.str k!"gr_text_box", .str k!"a"], _, rfl, ?_⟩
  intro i nl h
  exact (((C46_GrTextBox _ i nl).mp h).1 fun _ h => nomatch h).1 rfl

/-- A pad with a number as layer is loaded, but cannot be saved. -/
theorem C47_Pad_violated : ∃ v o, Pad.fromSexpr v = .ok o ∧ ∀ i nl, ¬ Returns (o.toSexpr i nl) := by
  refine ⟨.list [.str k!"pad", .int 1, .str k!"smd", .str k!"rect", .list [.str k!"layers", .int 1]], _, rfl, ?_⟩
  intro i nl h
  rcases ((C46_Pad _ i nl).mp h).1 (.int 1) (List.mem_singleton.mpr rfl) with ⟨_, h⟩ | ⟨_, h⟩ <;> cases h

end Kiutils
