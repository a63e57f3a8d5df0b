import Verif.Props.NewObjects
/-!
# C71: new objects with arguments

Calling a class with arguments, positional or by keyword, sets exactly the attributes meant; all others get new defaults as in C69.
Calls that do not fit raise `TypeError` and make nothing.
-/
namespace Kiutils.Objects

/-! ## Specification -/

/-- The argument for the attribute `n` of a class with these attributes: the one with that keyword or at that position. -/
def argFor (names : List Str) (pos : List Ref) (kw : List (Str × Ref)) (n : Str) : Option Ref :=
  match kw.find? (fun x => x.1 = n) with
  | some x => some x.2
  | none => pos[names.idxOf n]?

/-- The call fits: not too many positional arguments; each keyword names an attribute, which no positional argument has set, and there
is no keyword twice. -/
def Fits (names : List Str) (pos : List Ref) (kw : List (Str × Ref)) : Prop :=
  pos.length ≤ names.length ∧ (∀ x ∈ kw, x.1 ∈ names.drop pos.length) ∧ (kw.map (·.1)).Nodup

/-- The attributes `slots` of an object: those with an argument hold the argument itself, the others look like the default and have
addresses of their own from `b` on and below `e`. -/
inductive Filled (h : Heap) (arg : Str → Option Ref) : Nat → Nat → List (Str × Ref) → List (Str × Shape) → Prop where
  | nil {b e : Nat} : b ≤ e → Filled h arg b e [] []
  | given {b e : Nat} {n : Str} {r : Ref} {s : Shape} {rs : List (Str × Ref)} {ss : List (Str × Shape)} :
      arg n = some r → Filled h arg b e rs ss → Filled h arg b e ((n, r) :: rs) ((n, s) :: ss)
  | default {b m e : Nat} {n : Str} {r : Ref} {s : Shape} {rs : List (Str × Ref)} {ss : List (Str × Shape)} :
      arg n = none → Looks h b m r s → Filled h arg m e rs ss → Filled h arg b e ((n, r) :: rs) ((n, s) :: ss)

/-- Calls of a class with these attributes and defaults, in any state and with any arguments: if the call fits, it makes a new object
with the arguments and, for the other attributes, new defaults, and changes nothing that was there before; else it raises `TypeError`
and makes nothing. -/
def Calls (c : Str) (defaults : List (Str × Shape)) : Prop :=
  ∀ (classes : Str → Nat) (h : Heap) (pos : List Ref) (kw : List (Str × Ref)),
    (Fits (defaults.map (·.1)) pos kw → ∃ a h' slots, call classes 5 c pos kw h = some (.returns a h') ∧ h <+: h' ∧
      h'[a]? = some ⟨c, slots⟩ ∧ Filled h' (argFor (defaults.map (·.1)) pos kw) h.length a slots defaults) ∧
    (¬ Fits (defaults.map (·.1)) pos kw → call classes 5 c pos kw h = some (.typeError h))

/-! ## Binding the arguments -/

theorem lookup_append_none {l m : List (Str × Ref)} {n : Str} (h : l.lookup n = none) : (l ++ m).lookup n = m.lookup n := by
  rw [List.lookup_append, h]; rfl

theorem lookup_zip (names : List Str) (pos : List Ref) (n : Str) (k : n ∈ names) :
    (names.zip pos).lookup n = pos[names.idxOf n]? := by
  induction names generalizing pos with
  | nil => cases k
  | cons m names ih =>
    cases pos with
    | nil => simp
    | cons r pos =>
      by_cases e : n = m
      · subst e; simp
      · rw [List.zip_cons_cons, List.lookup_cons, beq_false_of_ne e]
        rw [List.idxOf_cons, beq_false_of_ne (Ne.symm e)]
        exact ih pos ((List.mem_cons.mp k).resolve_left e)

theorem mem_drop_iff {names : List Str} (nd : names.Nodup) (k : Nat) (n : Str) (hk : n ∈ names) : n ∈ names.drop k ↔ k ≤ names.idxOf n := by
  induction names generalizing k with
  | nil => cases hk
  | cons m names ih =>
    obtain ⟨nm, nd⟩ := List.nodup_cons.mp nd
    cases k with
    | zero => simpa using hk
    | succ k =>
      rw [List.drop_succ_cons]
      by_cases e : n = m
      · subst e
        simp only [List.idxOf_cons_self, Nat.le_zero, Nat.succ_ne_zero, iff_false]
        exact fun x => nm (List.mem_of_mem_drop x)
      · rw [List.idxOf_cons, beq_false_of_ne (Ne.symm e), cond_false, ih nd k ((List.mem_cons.mp hk).resolve_left e)]
        exact (Nat.succ_le_succ_iff).symm

theorem bindKeywords_some (names : List Str) (args kw : List (Str × Ref))
    (h : (∀ x ∈ kw, x.1 ∈ names ∧ args.lookup x.1 = none) ∧ (kw.map (·.1)).Nodup) :
    bindKeywords names args kw = some (kw.reverse ++ args) := by
  induction kw generalizing args with
  | nil => rw [bindKeywords]; rfl
  | cons x kw ih =>
    obtain ⟨h, nd⟩ := h
    obtain ⟨nx, nd⟩ := List.nodup_cons.mp nd
    rw [bindKeywords, if_pos (h x (List.mem_cons_self ..)), ih]
    · simp
    · refine ⟨fun y hy => ⟨(h y (List.mem_cons_of_mem _ hy)).1, ?_⟩, nd⟩
      rw [List.lookup_cons, beq_false_of_ne (fun e => nx (List.mem_map.mpr ⟨y, hy, e⟩))]
      exact (h y (List.mem_cons_of_mem _ hy)).2

theorem bindKeywords_none (names : List Str) (args kw : List (Str × Ref))
    (h : ¬ ((∀ x ∈ kw, x.1 ∈ names ∧ args.lookup x.1 = none) ∧ (kw.map (·.1)).Nodup)) : bindKeywords names args kw = none := by
  induction kw generalizing args with
  | nil => exact absurd ⟨fun _ hx => absurd hx List.not_mem_nil, List.nodup_nil⟩ h
  | cons x kw ih =>
    rw [bindKeywords]
    split
    · rename_i hx
      refine ih _ fun k => h ⟨fun y hy => ?_, List.nodup_cons.mpr ⟨fun m => ?_, k.2⟩⟩
      · rcases List.mem_cons.mp hy with e | hy
        · exact e ▸ hx
        · obtain ⟨a, b⟩ := k.1 y hy
          rw [List.lookup_cons] at b
          split at b
          · cases b
          · exact ⟨a, b⟩
      · obtain ⟨y, hy, e⟩ := List.mem_map.mp m
        have b := (k.1 y hy).2
        rw [List.lookup_cons, e, beq_self_eq_true] at b
        cases b
    · rfl

theorem find_reverse {kw : List (Str × Ref)} (nd : (kw.map (·.1)).Nodup) (n : Str) :
    kw.reverse.lookup n = (kw.find? (fun x => x.1 = n)).map (·.2) := by
  induction kw with
  | nil => rfl
  | cons x kw ih =>
    obtain ⟨nx, nd⟩ := List.nodup_cons.mp nd
    rw [List.reverse_cons, List.lookup_append, ih nd]
    by_cases e : x.1 = n
    · have : kw.find? (fun y => y.1 = n) = none := by
        rw [List.find?_eq_none]
        intro y hy
        simp only [decide_eq_true_eq]
        exact fun e' => nx (List.mem_map.mpr ⟨y, hy, e'.trans e.symm⟩)
      rw [this, List.find?_cons_of_pos (by simpa using e), ← e]
      simp [List.lookup]
    · rw [List.find?_cons_of_neg (by simpa using e), List.lookup_cons, beq_false_of_ne (Ne.symm e)]
      simp

theorem fits_iff {names : List Str} (nd : names.Nodup) (pos : List Ref) (kw : List (Str × Ref)) (k : pos.length ≤ names.length) :
    Fits names pos kw ↔ (∀ x ∈ kw, x.1 ∈ names ∧ (names.zip pos).lookup x.1 = none) ∧ (kw.map (·.1)).Nodup := by
  unfold Fits
  constructor
  · rintro ⟨_, a, b⟩
    refine ⟨fun x hx => ?_, b⟩
    have m := List.mem_of_mem_drop (a x hx)
    refine ⟨m, ?_⟩
    rw [lookup_zip _ _ _ m, List.getElem?_eq_none_iff]
    exact (mem_drop_iff nd _ _ m).mp (a x hx)
  · rintro ⟨a, b⟩
    refine ⟨k, fun x hx => ?_, b⟩
    obtain ⟨m, z⟩ := a x hx
    rw [lookup_zip _ _ _ m, List.getElem?_eq_none_iff] at z
    exact (mem_drop_iff nd _ _ m).mpr z

theorem bindArgs_fits {names : List Str} (nd : names.Nodup) (pos : List Ref) (kw : List (Str × Ref)) (f : Fits names pos kw) :
    ∃ args, bindArgs names pos kw = some args ∧ ∀ n ∈ names, args.lookup n = argFor names pos kw n := by
  have g := (fits_iff nd pos kw f.1).mp f
  refine ⟨_, by rw [bindArgs, if_neg (Nat.not_lt.mpr f.1), bindKeywords_some _ _ _ g], fun n hn => ?_⟩
  rw [List.lookup_append, find_reverse g.2, lookup_zip _ _ _ hn, argFor]
  cases kw.find? (fun x => x.1 = n) <;> simp

theorem bindArgs_not_fits {names : List Str} (nd : names.Nodup) (pos : List Ref) (kw : List (Str × Ref)) (f : ¬ Fits names pos kw) :
    bindArgs names pos kw = none := by
  unfold bindArgs
  split
  · rfl
  · rename_i k
    exact bindKeywords_none _ _ _ fun g => f ((fits_iff nd pos kw (Nat.not_lt.mp k)).mpr g)

/-! ## Filling in -/

theorem Filled.mono {h h' : Heap} (p : h <+: h') {arg : Str → Option Ref} {b e : Nat} {rs : List (Str × Ref)} {ss : List (Str × Shape)}
    (k : Filled h arg b e rs ss) : Filled h' arg b e rs ss := by
  induction k with
  | nil x => exact .nil x
  | given a _ ih => exact .given a ih
  | default a l _ ih => exact .default a (l.mono p) ih

theorem field_default (classes : Str → Nat) (n : Nat) (f : Factory) (h : Heap) (s : Shape) (hs : expandField (expand n) none f = some s) :
    ∃ r h1, fieldValue classes n none f h = some (r, h1) ∧ h <+: h1 ∧ Looks h1 h.length h1.length r s := by
  have new (c : Str) : (h ++ [⟨c, []⟩] : Heap)[h.length]? = some ⟨c, []⟩ := by simp
  cases f with
  | const x =>
    rw [expandField] at hs
    cases hs
    exact ⟨.const x, h, by rw [fieldValue], List.prefix_rfl, .const _ (Nat.le_refl _)⟩
  | list =>
    rw [expandField] at hs
    cases hs
    exact ⟨_, _, by rw [fieldValue], List.prefix_append _ _, .obj (new _) (.nil (Nat.le_refl _)) (Nat.le_refl _) (by simp)⟩
  | dict =>
    rw [expandField] at hs
    cases hs
    exact ⟨_, _, by rw [fieldValue], List.prefix_append _ _, .obj (new _) (.nil (Nat.le_refl _)) (Nat.le_refl _) (by simp)⟩
  | cls c => rw [expandField] at hs; cases hs
  | new c cargs =>
    rw [expandField] at hs
    obtain ⟨l, hl, e⟩ := Option.bind_eq_some_iff.mp hs
    cases e
    obtain ⟨a, h1, e, p, k⟩ := construct_looks classes n c cargs h l hl
    exact ⟨.obj a, h1, by rw [fieldValue]; exact congrArg (Option.bind · _) e, p, k⟩

theorem fillIn_filled (classes : Str → Nat) (n : Nat) (args : List (Str × Ref)) (arg : Str → Option Ref) (fields : List (Str × Factory))
    (h : Heap) (l : List (Str × Shape)) (e : expandL (expand n) [] fields = some l) (k : ∀ f ∈ fields, args.lookup f.1 = arg f.1) :
    ∃ slots h', fillIn classes n args fields h = some (slots, h') ∧ h <+: h' ∧ Filled h' arg h.length h'.length slots l := by
  induction fields generalizing h l with
  | nil =>
    rw [expandL] at e
    cases e
    exact ⟨[], h, by rw [fillIn], List.prefix_rfl, .nil (Nat.le_refl _)⟩
  | cons f fields ih =>
    rw [expandL] at e
    obtain ⟨s, hs, e⟩ := Option.bind_eq_some_iff.mp e
    obtain ⟨ss, hss, e⟩ := Option.bind_eq_some_iff.mp e
    cases e
    have kf := k f (List.mem_cons_self ..)
    have ks := fun g hg => k g (List.mem_cons_of_mem _ hg)
    cases ha : arg f.1 with
    | some r =>
      obtain ⟨slots, h2, e2, p2, k2⟩ := ih h ss hss ks
      exact ⟨(f.1, r) :: slots, h2, by rw [fillIn, kf, ha, fieldValue, Option.bind_some]; simp only [e2, Option.bind_some], p2,
        .given ha k2⟩
    | none =>
      obtain ⟨r, h1, e1, p1, k1⟩ := field_default classes n f.2 h s hs
      obtain ⟨slots, h2, e2, p2, k2⟩ := ih h1 ss hss ks
      exact ⟨(f.1, r) :: slots, h2, by rw [fillIn, kf, ha, e1, Option.bind_some]; simp only [e2, Option.bind_some], p1.trans p2,
        .default ha (k1.mono p2) k2⟩

theorem expandL_names (new : Str → List (Str × Str) → Option (List (Str × Shape))) (args : List (Str × Str)) (fields : List (Str × Factory))
    (l : List (Str × Shape)) (e : expandL new args fields = some l) : l.map (·.1) = fields.map (·.1) := by
  induction fields generalizing l with
  | nil => rw [expandL] at e; cases e; rfl
  | cons f fields ih =>
    rw [expandL] at e
    obtain ⟨s, _, e⟩ := Option.bind_eq_some_iff.mp e
    obtain ⟨ss, hss, e⟩ := Option.bind_eq_some_iff.mp e
    cases e
    rw [List.map_cons, List.map_cons, ih ss hss]

theorem calls_of {c : Str} {l : List (Str × Shape)} (e : expand 5 c [] = some l) (nd : (l.map (·.1)).Nodup) : Calls c l := by
  intro classes h pos kw
  rw [expand] at e
  obtain ⟨fields, hl, e⟩ := Option.bind_eq_some_iff.mp e
  have names := expandL_names _ _ _ _ e
  constructor
  · intro f
    obtain ⟨args, ea, ka⟩ := bindArgs_fits nd pos kw f
    obtain ⟨slots, h', e1, p, k⟩ := fillIn_filled classes 4 args (argFor (l.map (·.1)) pos kw) fields h l e
      (fun f hf => ka f.1 (by rw [names]; exact List.mem_map_of_mem (f := (·.1)) hf))
    refine ⟨h'.length, h' ++ [⟨c, slots⟩], slots, ?_, p.trans (List.prefix_append _ _), by simp, k.mono (List.prefix_append _ _)⟩
    rw [call, hl, Option.bind_some, ← names, ea]
    simp only [construct, hl, Option.bind_some, e1]
  · intro f
    rw [call, hl, Option.bind_some, ← names, bindArgs_not_fits nd pos kw f]

/-! ## The theorems -/

theorem C71_Board : Calls k!"Board" (HasSlots.slots ({} : Board)) := calls_of rfl (by decide)
theorem C71_Constraint : Calls k!"Constraint" (HasSlots.slots ({} : Constraint)) := calls_of rfl (by decide)
theorem C71_Rule : Calls k!"Rule" (HasSlots.slots ({} : Rule)) := calls_of rfl (by decide)
theorem C71_DesignRules : Calls k!"DesignRules" (HasSlots.slots ({} : DesignRules)) := calls_of rfl (by decide)
theorem C71_Attributes : Calls k!"Attributes" (HasSlots.slots ({} : Attributes)) := calls_of rfl (by decide)
theorem C71_Model : Calls k!"Model" (HasSlots.slots ({} : Model)) := calls_of rfl (by decide)
theorem C71_DrillDefinition : Calls k!"DrillDefinition" (HasSlots.slots ({} : DrillDefinition)) := calls_of rfl (by decide)
theorem C71_PadOptions : Calls k!"PadOptions" (HasSlots.slots ({} : PadOptions)) := calls_of rfl (by decide)
theorem C71_Pad : Calls k!"Pad" (HasSlots.slots ({} : Pad)) := calls_of rfl (by decide)
theorem C71_GeneralSettings : Calls k!"GeneralSettings" (HasSlots.slots ({} : GeneralSettings)) := calls_of rfl (by decide)
theorem C71_LayerToken : Calls k!"LayerToken" (HasSlots.slots ({} : LayerToken)) := calls_of rfl (by decide)
theorem C71_StackupSubLayer : Calls k!"StackupSubLayer" (HasSlots.slots ({} : StackupSubLayer)) := calls_of rfl (by decide)
theorem C71_StackupLayer : Calls k!"StackupLayer" (HasSlots.slots ({} : StackupLayer)) := calls_of rfl (by decide)
theorem C71_Stackup : Calls k!"Stackup" (HasSlots.slots ({} : Stackup)) := calls_of rfl (by decide)
theorem C71_PlotSettings : Calls k!"PlotSettings" (HasSlots.slots ({} : PlotSettings)) := calls_of rfl (by decide)
theorem C71_SetupData : Calls k!"SetupData" (HasSlots.slots ({} : SetupData)) := calls_of rfl (by decide)
theorem C71_Segment : Calls k!"Segment" (HasSlots.slots ({} : Segment)) := calls_of rfl (by decide)
theorem C71_Via : Calls k!"Via" (HasSlots.slots ({} : Via)) := calls_of rfl (by decide)
theorem C71_Arc : Calls k!"Arc" (HasSlots.slots ({} : TraceArc)) := calls_of rfl (by decide)
theorem C71_Target : Calls k!"Target" (HasSlots.slots ({} : Target)) := calls_of rfl (by decide)
theorem C71_Position : Calls k!"Position" (HasSlots.slots ({} : Position)) := calls_of rfl (by decide)
theorem C71_Coordinate : Calls k!"Coordinate" (HasSlots.slots ({} : Coordinate)) := calls_of rfl (by decide)
theorem C71_ColorRGBA : Calls k!"ColorRGBA" (HasSlots.slots ({} : ColorRGBA)) := calls_of rfl (by decide)
theorem C71_Stroke : Calls k!"Stroke" (HasSlots.slots ({} : Stroke)) := calls_of rfl (by decide)
theorem C71_Font : Calls k!"Font" (HasSlots.slots ({} : Font)) := calls_of rfl (by decide)
theorem C71_Justify : Calls k!"Justify" (HasSlots.slots ({} : Justify)) := calls_of rfl (by decide)
theorem C71_Effects : Calls k!"Effects" (HasSlots.slots ({} : Effects)) := calls_of rfl (by decide)
theorem C71_Net : Calls k!"Net" (HasSlots.slots ({} : Net)) := calls_of rfl (by decide)
theorem C71_Group : Calls k!"Group" (HasSlots.slots ({} : Group)) := calls_of rfl (by decide)
theorem C71_PageSettings : Calls k!"PageSettings" (HasSlots.slots ({} : PageSettings)) := calls_of rfl (by decide)
theorem C71_TitleBlock : Calls k!"TitleBlock" (HasSlots.slots ({} : TitleBlock)) := calls_of rfl (by decide)
theorem C71_Property : Calls k!"Property" (HasSlots.slots ({} : Property)) := calls_of rfl (by decide)
theorem C71_RenderCachePolygon : Calls k!"RenderCachePolygon" (HasSlots.slots ({} : RenderCachePolygon)) := calls_of rfl (by decide)
theorem C71_RenderCache : Calls k!"RenderCache" (HasSlots.slots ({} : RenderCache)) := calls_of rfl (by decide)
theorem C71_Fill : Calls k!"Fill" (HasSlots.slots ({} : Fill)) := calls_of rfl (by decide)
theorem C71_Image : Calls k!"Image" (HasSlots.slots ({} : Image)) := calls_of rfl (by decide)
theorem C71_DimensionFormat : Calls k!"DimensionFormat" (HasSlots.slots ({} : DimensionFormat)) := calls_of rfl (by decide)
theorem C71_DimensionStyle : Calls k!"DimensionStyle" (HasSlots.slots ({} : DimensionStyle)) := calls_of rfl (by decide)
theorem C71_Dimension : Calls k!"Dimension" (HasSlots.slots ({} : Dimension)) := calls_of rfl (by decide)
theorem C71_FpText : Calls k!"FpText" (HasSlots.slots ({} : FpText)) := calls_of rfl (by decide)
theorem C71_FpLine : Calls k!"FpLine" (HasSlots.slots ({} : FpLine)) := calls_of rfl (by decide)
theorem C71_FpRect : Calls k!"FpRect" (HasSlots.slots ({} : FpRect)) := calls_of rfl (by decide)
theorem C71_FpTextBox : Calls k!"FpTextBox" (HasSlots.slots ({} : FpTextBox)) := calls_of rfl (by decide)
theorem C71_FpCircle : Calls k!"FpCircle" (HasSlots.slots ({} : FpCircle)) := calls_of rfl (by decide)
theorem C71_FpArc : Calls k!"FpArc" (HasSlots.slots ({} : FpArc)) := calls_of rfl (by decide)
theorem C71_FpPoly : Calls k!"FpPoly" (HasSlots.slots ({} : FpPoly)) := calls_of rfl (by decide)
theorem C71_FpCurve : Calls k!"FpCurve" (HasSlots.slots ({} : FpCurve)) := calls_of rfl (by decide)
theorem C71_GrText : Calls k!"GrText" (HasSlots.slots ({} : GrText)) := calls_of rfl (by decide)
theorem C71_GrTextBox : Calls k!"GrTextBox" (HasSlots.slots ({} : GrTextBox)) := calls_of rfl (by decide)
theorem C71_GrLine : Calls k!"GrLine" (HasSlots.slots ({} : GrLine)) := calls_of rfl (by decide)
theorem C71_GrRect : Calls k!"GrRect" (HasSlots.slots ({} : GrRect)) := calls_of rfl (by decide)
theorem C71_GrCircle : Calls k!"GrCircle" (HasSlots.slots ({} : GrCircle)) := calls_of rfl (by decide)
theorem C71_GrArc : Calls k!"GrArc" (HasSlots.slots ({} : GrArc)) := calls_of rfl (by decide)
theorem C71_GrPoly : Calls k!"GrPoly" (HasSlots.slots ({} : GrPoly)) := calls_of rfl (by decide)
theorem C71_GrCurve : Calls k!"GrCurve" (HasSlots.slots ({} : GrCurve)) := calls_of rfl (by decide)
theorem C71_Junction : Calls k!"Junction" (HasSlots.slots ({} : Junction)) := calls_of rfl (by decide)
theorem C71_NoConnect : Calls k!"NoConnect" (HasSlots.slots ({} : NoConnect)) := calls_of rfl (by decide)
theorem C71_BusEntry : Calls k!"BusEntry" (HasSlots.slots ({} : BusEntry)) := calls_of rfl (by decide)
theorem C71_BusAlias : Calls k!"BusAlias" (HasSlots.slots ({} : BusAlias)) := calls_of rfl (by decide)
theorem C71_Connection : Calls k!"Connection" (HasSlots.slots ({} : Connection)) := calls_of rfl (by decide)
theorem C71_PolyLine : Calls k!"PolyLine" (HasSlots.slots ({} : PolyLine)) := calls_of rfl (by decide)
theorem C71_Text : Calls k!"Text" (HasSlots.slots ({} : Text)) := calls_of rfl (by decide)
theorem C71_TextBox : Calls k!"TextBox" (HasSlots.slots ({} : TextBox)) := calls_of rfl (by decide)
theorem C71_LocalLabel : Calls k!"LocalLabel" (HasSlots.slots ({} : LocalLabel)) := calls_of rfl (by decide)
theorem C71_GlobalLabel : Calls k!"GlobalLabel" (HasSlots.slots ({} : GlobalLabel)) := calls_of rfl (by decide)
theorem C71_HierarchicalLabel : Calls k!"HierarchicalLabel" (HasSlots.slots ({} : HierarchicalLabel)) := calls_of rfl (by decide)
theorem C71_SymbolProjectPath : Calls k!"SymbolProjectPath" (HasSlots.slots ({} : SymbolProjectPath)) := calls_of rfl (by decide)
theorem C71_SymbolProjectInstance : Calls k!"SymbolProjectInstance" (HasSlots.slots ({} : SymbolProjectInstance)) := calls_of rfl (by decide)
theorem C71_SchematicSymbol : Calls k!"SchematicSymbol" (HasSlots.slots ({} : SchematicSymbol)) := calls_of rfl (by decide)
theorem C71_HierarchicalPin : Calls k!"HierarchicalPin" (HasSlots.slots ({} : HierarchicalPin)) := calls_of rfl (by decide)
theorem C71_HierarchicalSheetProjectPath : Calls k!"HierarchicalSheetProjectPath" (HasSlots.slots ({} : HierarchicalSheetProjectPath)) := calls_of rfl (by decide)
theorem C71_HierarchicalSheetProjectInstance : Calls k!"HierarchicalSheetProjectInstance" (HasSlots.slots ({} : HierarchicalSheetProjectInstance)) := calls_of rfl (by decide)
theorem C71_HierarchicalSheet : Calls k!"HierarchicalSheet" (HasSlots.slots ({} : HierarchicalSheet)) := calls_of rfl (by decide)
theorem C71_HierarchicalSheetInstance : Calls k!"HierarchicalSheetInstance" (HasSlots.slots ({} : HierarchicalSheetInstance)) := calls_of rfl (by decide)
theorem C71_SymbolInstance : Calls k!"SymbolInstance" (HasSlots.slots ({} : SymbolInstance)) := calls_of rfl (by decide)
theorem C71_Rectangle : Calls k!"Rectangle" (HasSlots.slots ({} : Rectangle)) := calls_of rfl (by decide)
theorem C71_SchArc : Calls k!"schitems.Arc" (HasSlots.slots ({} : Arc)) := calls_of rfl (by decide)
theorem C71_Circle : Calls k!"Circle" (HasSlots.slots ({} : Circle)) := calls_of rfl (by decide)
theorem C71_SyArc : Calls k!"SyArc" (HasSlots.slots ({} : SyArc)) := calls_of rfl (by decide)
theorem C71_SyCircle : Calls k!"SyCircle" (HasSlots.slots ({} : SyCircle)) := calls_of rfl (by decide)
theorem C71_SyCurve : Calls k!"SyCurve" (HasSlots.slots ({} : SyCurve)) := calls_of rfl (by decide)
theorem C71_SyPolyLine : Calls k!"SyPolyLine" (HasSlots.slots ({} : SyPolyLine)) := calls_of rfl (by decide)
theorem C71_SyRect : Calls k!"SyRect" (HasSlots.slots ({} : SyRect)) := calls_of rfl (by decide)
theorem C71_SyText : Calls k!"SyText" (HasSlots.slots ({} : SyText)) := calls_of rfl (by decide)
theorem C71_SyTextBox : Calls k!"SyTextBox" (HasSlots.slots ({} : SyTextBox)) := calls_of rfl (by decide)
theorem C71_KeepoutSettings : Calls k!"KeepoutSettings" (HasSlots.slots ({} : KeepoutSettings)) := calls_of rfl (by decide)
theorem C71_FillSettings : Calls k!"FillSettings" (HasSlots.slots ({} : FillSettings)) := calls_of rfl (by decide)
theorem C71_ZonePolygon : Calls k!"ZonePolygon" (HasSlots.slots ({} : ZonePolygon)) := calls_of rfl (by decide)
theorem C71_FilledPolygon : Calls k!"FilledPolygon" (HasSlots.slots ({} : FilledPolygon)) := calls_of rfl (by decide)
theorem C71_FillSegments : Calls k!"FillSegments" (HasSlots.slots ({} : FillSegments)) := calls_of rfl (by decide)
theorem C71_Hatch : Calls k!"Hatch" (HasSlots.slots ({} : Hatch)) := calls_of rfl (by decide)
theorem C71_Zone : Calls k!"Zone" (HasSlots.slots ({} : Zone)) := calls_of rfl (by decide)
theorem C71_Library : Calls k!"Library" (HasSlots.slots ({} : Library)) := calls_of rfl (by decide)
theorem C71_LibTable : Calls k!"LibTable" (HasSlots.slots ({} : LibTable)) := calls_of rfl (by decide)
theorem C71_Schematic : Calls k!"Schematic" (HasSlots.slots ({} : Schematic)) := calls_of rfl (by decide)
theorem C71_SymbolAlternativePin : Calls k!"SymbolAlternativePin" (HasSlots.slots ({} : SymbolAlternativePin)) := calls_of rfl (by decide)
theorem C71_SymbolPin : Calls k!"SymbolPin" (HasSlots.slots ({} : SymbolPin)) := calls_of rfl (by decide)
theorem C71_Symbol : Calls k!"Symbol" (HasSlots.slots ({} : Symbol)) := calls_of rfl (by decide)
theorem C71_SymbolLib : Calls k!"SymbolLib" (HasSlots.slots ({} : SymbolLib)) := calls_of rfl (by decide)
theorem C71_WksFontSize : Calls k!"WksFontSize" (HasSlots.slots ({} : WksFontSize)) := calls_of rfl (by decide)
theorem C71_WksFont : Calls k!"WksFont" (HasSlots.slots ({} : WksFont)) := calls_of rfl (by decide)
theorem C71_WksPosition : Calls k!"WksPosition" (HasSlots.slots ({} : WksPosition)) := calls_of rfl (by decide)
theorem C71_Line : Calls k!"Line" (HasSlots.slots ({} : WksShape)) := calls_of rfl (by decide)
theorem C71_Rect : Calls k!"Rect" (HasSlots.slots ({} : WksShape)) := calls_of rfl (by decide)
theorem C71_Bitmap : Calls k!"Bitmap" (HasSlots.slots ({} : Bitmap)) := calls_of rfl (by decide)
theorem C71_TbText : Calls k!"TbText" (HasSlots.slots ({} : TbText)) := calls_of rfl (by decide)
theorem C71_TextSize : Calls k!"TextSize" (HasSlots.slots ({} : TextSize)) := calls_of rfl (by decide)
theorem C71_Setup : Calls k!"Setup" (HasSlots.slots ({} : Setup)) := calls_of rfl (by decide)
theorem C71_WorkSheet : Calls k!"WorkSheet" (HasSlots.slots ({} : WorkSheet)) := calls_of rfl (by decide)

/-- The time stamp is the text of an expression, which is evaluated when the module is imported (C52). -/
theorem C71_Footprint (t : Str) : ∃ slots, Calls k!"Footprint" slots ∧
    slots.map (fun s => if s.1 = k!"tedit" then (s.1, .const (quoted t)) else s) = HasSlots.slots ({ tedit := .str t } : Footprint) :=
  ⟨_, calls_of rfl (by decide), rfl⟩

/-- Polygons of drawing sheets can be made, though neither read nor written. -/
theorem C71_Polygon : Calls k!"Polygon" [(k!"name", .const (quoted [])), (k!"position", shape ({} : WksPosition)), (k!"option", .const k!"None"),
    (k!"rotate", .const k!"None"), (k!"coordinates", .obj k!"list" []), (k!"repeat", .const k!"None"), (k!"incrx", .const k!"None"),
    (k!"incry", .const k!"None"), (k!"comment", .const k!"None")] := calls_of rfl (by decide)

/-! ## Concrete calls -/

/-- `Position(1, 2, angle=90)` fits: no attribute is set twice. -/
example : Fits ((HasSlots.slots ({} : Position)).map (·.1)) [.const k!"1", .const k!"2"] [(k!"angle", .const k!"90")] := by
  unfold Fits; decide

/-- The argument for each attribute. -/
example : ((HasSlots.slots ({} : Position)).map (·.1)).map (argFor ((HasSlots.slots ({} : Position)).map (·.1)) [.const k!"1", .const k!"2"]
      [(k!"angle", .const k!"90")]) = [some (.const k!"1"), some (.const k!"2"), some (.const k!"90"), none] := by decide

/-- `Position(1, X=2)` does not fit. -/
example : ¬ Fits ((HasSlots.slots ({} : Position)).map (·.1)) [.const k!"1"] [(k!"X", .const k!"2")] := by
  unfold Fits; decide

/-- `Symbol(libId='Device:R')` does not fit: `libId` is a property, not a field. -/
example (r : Ref) : ¬ Fits ((HasSlots.slots ({} : Symbol)).map (·.1)) [] [(k!"libId", r)] := by
  rintro ⟨_, a, _⟩
  have := a _ (List.mem_cons_self ..)
  revert this
  show ¬ (k!"libId" ∈ ((HasSlots.slots ({} : Symbol)).map (·.1)).drop 0)
  decide

end Kiutils.Objects
