import Verif.Props.Defects
/-!
# Layers of zones, sublayers of a stackup, page settings (C32–C34), drills and line widths (C42, C43)
-/
namespace Kiutils

/-! ## C32 -/

/-- Specification: the children of a zone that name its layers. -/
def isLayerToken : Val → Bool
  | .list (.str k :: _) => k == k!"layer" || k == k!"layers"
  | _ => false

/-- Specification: one layer that is not one of the two names for several layers. -/
def SingleLayer (l : List Val) : Prop := ∃ x, l = [x] ∧ x ≠ .str k!"*.Cu" ∧ x ≠ .str k!"F&B.Cu"

/-- A zone can be written exactly if it has a layer. -/
theorem C32_needs_layer (o : Zone) (i : Nat) (nl : Bool) :
    (o.layers = [] → o.toSexpr i nl = .error .exception) ∧ (o.layers ≠ [] → ∃ s, o.toSexpr i nl = .ok s) := by
  unfold Zone.toSexpr Zone.layerToken
  constructor
  · intro h
    rw [h]
    rfl
  · intro h
    match hl : o.layers with
    | [] => exact absurd hl h
    | [x] =>
      simp only
      split <;> exact ⟨_, rfl⟩
    | _ :: _ :: _ => exact ⟨_, rfl⟩

theorem filter_none {α : Type} (p : α → Bool) (l : List α) (h : ∀ x ∈ l, p x = false) : l.filter p = [] := by
  rw [List.filter_eq_nil_iff]
  intro x hx hp
  rw [h x hx] at hp
  cases hp

theorem filter_optL {α : Type} (p : Val → Bool) (x : Option α) (f : α → Val) (h : ∀ a, p (f a) = false) :
    (optL x fun a => [f a]).filter p = [] := by
  cases x with
  | none => rfl
  | some a => simp [optL, h]

theorem canon_text [TextRule] {v : Val} (h : TextOk v) : v.canon = v := by
  cases v with
  | str s => rfl
  | _ => exact False.elim h

theorem map_canon_text [TextRule] {l : List Val} (h : ∀ v ∈ l, TextOk v) : l.map Val.canon = l := by
  induction l with
  | nil => rfl
  | cons a l ih =>
    rw [List.map_cons, canon_text (h a (by simp)), ih fun v hv => h v (by simp [hv])]

/-- The text of a zone has one child that names the layers: all of them in order, under `layer` if there is one layer that does
not stand for several, else under `layers`. -/
theorem C32_token [TextRule] (o : Zone) (h : o.WF) (i : Nat) (nl : Bool) :
    ∃ l k, (o.toSexpr i nl >>= parseSexp) = .ok (.list l) ∧ l.filter isLayerToken = [.list (.str k :: o.layers)] ∧
      (SingleLayer o.layers → k = k!"layer") ∧ (¬ SingleLayer o.layers → k = k!"layers") := by
  refine ⟨_, Zone.layerKey o.layers, (Zone.lexes h i nl).parse, ?_, ?_, ?_⟩
  · simp only [List.filter_append]
    rw [filter_optL _ o.tstamp _ (fun _ => rfl), filter_optL _ o.name _ (fun _ => rfl), filter_optL _ o.priority _ (fun _ => rfl),
      filter_optL _ o.filledAreasThickness _ (fun _ => rfl), filter_optL _ o.keepoutSettings _ (fun _ => rfl),
      filter_optL _ o.fillSettings _ (fun _ => rfl), filter_optL _ o.fillSegments _ (fun _ => rfl),
      filter_none _ (o.polygons.map _) (by intro x hx; obtain ⟨p, -, rfl⟩ := List.mem_map.mp hx; rfl),
      filter_none _ (o.filledPolygons.map _) (by intro x hx; obtain ⟨p, -, rfl⟩ := List.mem_map.mp hx; rfl),
      map_canon_text h.layers]
    have hk : isLayerToken (.list (.str (Zone.layerKey o.layers) :: o.layers)) = true := by
      unfold Zone.layerKey
      repeat' split
      all_goals rfl
    have hl : (ifL o.locked [Val.str k!"locked"]).filter isLayerToken = [] := by cases o.locked <;> rfl
    rw [hl]
    simp only [List.filter_cons, List.filter_nil, hk, if_true, List.append_nil]
    rfl
  · rintro ⟨x, hx, h1, h2⟩
    rw [hx, Zone.layerKey]
    have ht := h.layers x (by rw [hx]; simp)
    cases x with
    | str w =>
      have e1 : (Val.str w).is k!"F&B.Cu" = false := by
        show (w == _) = false
        rw [beq_eq_false_iff_ne]; rintro rfl; exact h2 rfl
      have e2 : (Val.str w).is k!"*.Cu" = false := by
        show (w == _) = false
        rw [beq_eq_false_iff_ne]; rintro rfl; exact h1 rfl
      rw [e1, e2]; rfl
    | _ => exact False.elim ht
  · intro hs
    match hl : o.layers with
    | [] => exact absurd hl h.nonempty
    | [x] =>
      rw [Zone.layerKey]
      have ht := h.layers x (by rw [hl]; simp)
      by_cases e : (x.is k!"F&B.Cu" || x.is k!"*.Cu") = true
      · rw [if_pos e]
      · refine absurd ⟨x, hl, ?_, ?_⟩ hs
        · rintro rfl; exact e rfl
        · rintro rfl; exact e rfl
    | _ :: _ :: _ => rfl
example := C32_token sampleZone sampleZone_wf

/-- Reading either token gives the same list of layers. -/
theorem C32_reload [TextRule] (o : Zone) (h : o.WF) (i : Nat) (nl : Bool) :
    ∃ o', (o.toSexpr i nl >>= parseSexp >>= Zone.fromSexpr) = .ok o' ∧ o'.layers = o.layers := by
  refine ⟨canon o, ?_, ?_⟩
  · rw [(Zone.lexes h i nl).parse, ok_bind]
    exact Zone.from_toVal h
  · exact map_canon_text h.layers
example := C32_reload sampleZone sampleZone_wf
example : SingleLayer [Val.str k!"F.Cu"] := ⟨_, rfl, by intro h; (cases h), by intro h; cases h⟩
example : ¬ SingleLayer [Val.str k!"*.Cu"] := by rintro ⟨x, h, h1, -⟩; cases h; exact h1 rfl

/-! ## C33 -/

/-- The loop over the tokens of one sublayer changes this sublayer only. -/
theorem StackupLayer.loop_sub (g : List Val) (hg : ∀ x ∈ g, x.isList = true) (ob : StackupLayer) (t : StackupSubLayer) (rest : List Val) :
    forM StackupLayer.step ⟨ob, some t⟩ (g ++ rest) =
      (forM StackupSubLayer.step t g >>= fun t' => forM StackupLayer.step ⟨ob, some t'⟩ rest) := by
  induction g generalizing t with
  | nil => rfl
  | cons x g ih =>
    have hx := hg x (by simp)
    cases x with
    | list l =>
      rw [List.cons_append, forM, forM]
      have e : StackupLayer.step ⟨ob, some t⟩ (.list l) = (StackupSubLayer.step t (.list l) >>= fun t' => .ok ⟨ob, some t'⟩) := rfl
      rw [e]
      cases StackupSubLayer.step t (.list l) with
      | error e => rfl
      | ok t' =>
        exact ih (fun y hy => hg y (by simp [hy])) t'
    | _ => cases hx

theorem StackupLayer.loop_own (g : List Val) (hg : ∀ x ∈ g, x.isList = true) (ob : StackupLayer) (rest : List Val) :
    forM StackupLayer.step ⟨ob, none⟩ (g ++ rest) =
      (forM StackupLayer.ownStep ob g >>= fun ob' => forM StackupLayer.step ⟨ob', none⟩ rest) := by
  induction g generalizing ob with
  | nil => rfl
  | cons x g ih =>
    have hx := hg x (by simp)
    cases x with
    | list l =>
      rw [List.cons_append, forM, forM]
      have e : StackupLayer.step ⟨ob, none⟩ (.list l) = (StackupLayer.ownStep ob (.list l) >>= fun ob' => .ok ⟨ob', none⟩) := rfl
      rw [e]
      cases StackupLayer.ownStep ob (.list l) with
      | error e => rfl
      | ok t' =>
        exact ih (fun y hy => hg y (by simp [hy])) t'
    | _ => cases hx

/-- Specification of the sublayers: each group of tokens is read on its own, starting from an empty sublayer. -/
def readSubLayers : List (List Val) → PyM (List StackupSubLayer)
  | [] => .ok []
  | g :: gs => do
    let t ← forM StackupSubLayer.step {} g
    let ts ← readSubLayers gs
    return t :: ts

/-- The end of `from_sexpr`: the last sublayer is added. -/
def StackupLayer.finish (s : StackupLayer.State) : StackupLayer :=
  match s.temp with
  | some t => { s.object with subLayers := s.object.subLayers ++ [t] }
  | none => s.object

theorem StackupLayer.groups (gs : List (List Val)) (hg : ∀ g ∈ gs, ∀ x ∈ g, x.isList = true) (ob : StackupLayer)
    (t : StackupSubLayer) :
    (forM StackupLayer.step ⟨ob, some t⟩ (gs.flatMap fun g => .str k!"addsublayer" :: g) >>= fun s => .ok (finish s)) =
      (readSubLayers gs >>= fun ts => .ok { ob with subLayers := ob.subLayers ++ (t :: ts) }) := by
  induction gs generalizing ob t with
  | nil => rfl
  | cons g gs ih =>
    have : forM StackupLayer.step ⟨ob, some t⟩ ((g :: gs).flatMap fun g => .str k!"addsublayer" :: g) =
        forM StackupLayer.step ⟨{ ob with subLayers := ob.subLayers ++ [t] }, some {}⟩
          (g ++ gs.flatMap fun g => .str k!"addsublayer" :: g) := rfl
    rw [this, loop_sub g (hg g (by simp)), readSubLayers]
    cases forM StackupSubLayer.step {} g with
    | error e => rfl
    | ok t' =>
      have := ih (fun g' hg' => hg g' (by simp [hg'])) { ob with subLayers := ob.subLayers ++ [t] } t'
      refine Eq.trans this ?_
      simp only [bind, Except.bind, pure, Except.pure]
      cases readSubLayers gs with
      | error e => rfl
      | ok ts => simp

/-- Reading a layer of the stackup: the tokens before the first `addsublayer` belong to the layer, the tokens after each
`addsublayer` to a sublayer of their own; sublayers do not influence each other. -/
theorem C33_grouping (name : Val) (own : List Val) (gs : List (List Val)) (ho : ∀ x ∈ own, x.isList = true)
    (hg : ∀ g ∈ gs, ∀ x ∈ g, x.isList = true) :
    StackupLayer.fromSexpr (.list (.str k!"layer" :: name :: (own ++ gs.flatMap fun g => .str k!"addsublayer" :: g))) = (do
      let o ← forM StackupLayer.ownStep { name := name } own
      let ts ← readSubLayers gs
      return { o with subLayers := o.subLayers ++ ts }) := by
  have key : StackupLayer.fromSexpr (.list (.str k!"layer" :: name :: (own ++ gs.flatMap fun g => .str k!"addsublayer" :: g))) =
      (forM StackupLayer.step { object := { name := name } } (own ++ gs.flatMap fun g => .str k!"addsublayer" :: g) >>=
        fun s => .ok (StackupLayer.finish s)) := by
    rw [StackupLayer.fromSexpr.eq_def]
    show (forM StackupLayer.step { object := { name := name } } (own ++ gs.flatMap fun g => .str k!"addsublayer" :: g) >>= _) = _
    congr 1
    funext s
    cases hs : s.temp <;> simp [StackupLayer.finish, hs, pure, Except.pure]
  rw [key, StackupLayer.loop_own own ho]
  cases forM StackupLayer.ownStep { name := name } own with
  | error e => rfl
  | ok o =>
    cases gs with
    | nil =>
      show Except.ok o = Except.ok { o with subLayers := o.subLayers ++ [] }
      rw [List.append_nil]
    | cons g gs =>
      have : forM StackupLayer.step ⟨o, none⟩ ((g :: gs).flatMap fun g => .str k!"addsublayer" :: g) =
          forM StackupLayer.step ⟨o, some {}⟩ (g ++ gs.flatMap fun g => .str k!"addsublayer" :: g) := rfl
      show (forM StackupLayer.step ⟨o, none⟩ ((g :: gs).flatMap fun g => .str k!"addsublayer" :: g) >>= _) = _
      rw [this, StackupLayer.loop_sub g (hg g (by simp)), ok_bind, readSubLayers]
      cases forM StackupSubLayer.step {} g with
      | error e => rfl
      | ok t =>
        refine Eq.trans (StackupLayer.groups gs (fun g' hg' => hg g' (by simp [hg'])) o t) ?_
        cases readSubLayers gs <;> rfl
example : ∀ g ∈ [[Val.list [.str k!"thickness", .int 1]], []], ∀ x ∈ g, x.isList = true := by
  intro g hg x hx
  rcases List.mem_cons.mp hg with rfl | hg
  · rcases List.mem_singleton.mp hx with rfl; rfl
  · rcases List.mem_singleton.mp hg with rfl; cases hx

/-- Saving and loading a layer of the stackup keeps all sublayers apart: equal sublayers in the same order. -/
theorem C33_reload [TextRule] (o : StackupLayer) (h : o.WF) (i : Nat) (nl : Bool) :
    ∃ o', (parseSexp (o.toSexpr i nl) >>= StackupLayer.fromSexpr) = .ok o' ∧ PyEq.eq o.subLayers o'.subLayers := by
  refine ⟨canon o, ?_, canonEq o.subLayers⟩
  rw [parse_of_lx fun _ _ hs => StackupLayer.lx h hs]
  exact StackupLayer.from_toVal
example := C33_reload sampleStackupLayer sampleStackupLayer_wf

/-! ## C34 -/

/-- Page settings cannot be written exactly if the page is user-defined and a dimension is missing. -/
theorem C34_raises (o : PageSettings) (i : Nat) (nl : Bool) :
    (∃ e, o.toSexpr i nl = .error e) ↔ o.paperSize = .str k!"User" ∧ (o.width = none ∨ o.height = none) := by
  unfold PageSettings.toSexpr
  have hu : o.paperSize.is k!"User" = true ↔ o.paperSize = .str k!"User" := by
    cases o.paperSize with
    | str s => simp [Val.is]
    | _ => simp [Val.is]
  by_cases h : o.paperSize.is k!"User" = true
  · have hs : (Val.str k!"User").is k!"User" = true := rfl
    rw [hu.mp h]
    simp only [hs, if_true, true_and]
    cases o.width <;> cases o.height <;> simp
  · simp only [h]
    simp [← hu, h]
example : ∃ o : PageSettings, o.paperSize = .str k!"User" ∧ (o.width = none ∨ o.height = none) :=
  ⟨{ paperSize := .str k!"User" }, rfl, .inl rfl⟩

/-- Loading the saved page gives its size and orientation back, and its dimensions exactly if it is user-defined. -/
theorem C34_reload [TextRule] (o : PageSettings) (hp : TextOk o.paperSize) (hn : o.paperSize ≠ .str k!"portrait")
    (hu : o.paperSize = .str k!"User" → (∃ w, o.width = some w ∧ NumOk w) ∧ ∃ h, o.height = some h ∧ NumOk h) (i : Nat) (nl : Bool) :
    (o.paperSize = .str k!"User" → Reloads (o.toSexpr i nl) PageSettings.fromSexpr o) ∧
    (o.paperSize ≠ .str k!"User" → Reloads (o.toSexpr i nl) PageSettings.fromSexpr { o with width := none, height := none }) := by
  constructor
  · intro h
    exact C20_PageSettings o ⟨hp, hn, hu, fun h' => absurd h h'⟩ i nl
  · intro h
    have := C20_PageSettings { o with width := none, height := none } ⟨hp, hn, fun h' => absurd h' h, fun _ => ⟨rfl, rfl⟩⟩ i nl
    have e : PageSettings.toSexpr { o with width := none, height := none } i nl = o.toSexpr i nl := by
      unfold PageSettings.toSexpr
      cases hs : o.paperSize with
      | str s =>
        have : (Val.str s).is k!"User" = false := by
          show (s == _) = false
          rw [beq_eq_false_iff_ne]
          rintro rfl
          exact h hs
        simp only [this]
        rfl
      | _ => rfl
    rwa [e] at this
example := C34_reload samplePageSettings samplePageSettings_wf.paperSize samplePageSettings_wf.paperSize_ne samplePageSettings_wf.user

/-! ## C42: drills -/

/-- A round drill with an offset: the offset is also stored as the width. -/
theorem C42_round_offset_violated [TextRule] (o : DrillDefinition) (p : Position) (hr : o.oval = false) (hd : NumOk o.diameter)
    (hp : p.WFXY) (ho : o.offset = some p) (i : Nat) (nl : Bool) :
    ∃ o', (parseSexp (o.toSexpr i nl) >>= DrillDefinition.fromSexpr) = .ok o' ∧
      o'.width = some (.list [.str k!"offset", p.X.canon, p.Y.canon]) := by
  have hl : parseSexp (o.toSexpr i nl) = .ok (.list [.str k!"drill", o.diameter.canon, p.toValXY k!"offset"]) := by
    refine parse_of_lx fun s t hs => ?_
    unfold DrillDefinition.toSexpr
    rw [hr, ho]
    simp only [ifS_false, optS_some]
    lxNorm
    lxAuto
  rw [hl, ok_bind]
  refine ⟨{ diameter := o.diameter.canon, width := some (p.toValXY k!"offset"), offset := some (canon p) }, ?_, rfl⟩
  rw [DrillDefinition.fromSexpr.eq_def]
  simp only [checkHead_ok, getI1, hd.not_is]
  foSkip
  refine fo_cons (DrillDefinition.step_num hd _) ?_
  have hs : ∀ a, DrillDefinition.step a (p.toValXY k!"offset") =
      (Position.fromSexpr (p.toValXY k!"offset") >>= fun q => .ok { a with offset := some q }) := fun _ => rfl
  refine fo_cons (o' := { diameter := o.diameter.canon, width := some (p.toValXY k!"offset"), offset := some (canon p) }) ?_ rfl
  rw [hs, Position.from_toValXY hp rfl]
  rfl
example := C42_round_offset_violated { diameter := .int 1, offset := some samplePositionXY } samplePositionXY rfl (ok_int (by decide))
  samplePositionXY_wf rfl

/-- An oval drill with a diameter only cannot be loaded from the text that was saved. -/
theorem C42_oval_violated (o : DrillDefinition) (hr : o.oval = true) (hd : NumOk o.diameter) (hw : o.width = none)
    (ho : o.offset = none) (i : Nat) (nl : Bool) :
    (parseSexp (o.toSexpr i nl) >>= DrillDefinition.fromSexpr) = .error .indexError := by
  have hl : parseSexp (o.toSexpr i nl) = .ok (.list [.str k!"drill", .str k!"oval", o.diameter.canon]) := by
    refine parse_of_lx fun s t hs => ?_
    unfold DrillDefinition.toSexpr
    rw [hr, ho, hw]
    simp only [ifS_true, optS_none]
    lxNorm
    lxAuto
  rw [hl, ok_bind, DrillDefinition.fromSexpr.eq_def]
  rfl
example := C42_oval_violated { oval := true, diameter := .int 1 } rfl (ok_int (by decide)) rfl rfl

/-- Drills of the other kinds survive: round ones without offset, oval ones with both dimensions. -/
theorem C42_partial [TextRule] (o : DrillDefinition) (hd : NumOk o.diameter)
    (ho : o.oval = true → (∃ w, o.width = some w ∧ NumOk w) ∧ ∀ p, o.offset = some p → p.WFXY)
    (hr : o.oval = false → o.width = none ∧ o.offset = none) (i : Nat) (nl : Bool) :
    Reloads (.ok (o.toSexpr i nl)) DrillDefinition.fromSexpr o := by
  refine C41_DrillDefinition o ⟨hd, fun h => (ho h).1, hr, ?_⟩ i nl
  intro p hp
  cases h : o.oval with
  | true => exact (ho h).2 p hp
  | false => rw [(hr h).2] at hp; cases hp
example := C42_partial { oval := true, diameter := .int 1, width := some (.int 2), offset := some samplePositionXY } (ok_int (by decide))
  (fun _ => ⟨⟨_, rfl, ok_int (by decide)⟩, by rintro p ⟨⟩; exact samplePositionXY_wf⟩) (fun h => by cases h)

/-! ## C43: width and stroke of the graphic items of footprints -/

theorem isSome_eq {α : Type} [PyEq α] {a b : Option α} (h : PyEq.eq a b) : a.isSome = b.isSome := by
  cases a <;> cases b <;> first | rfl | exact False.elim h

theorem isNone_eq {α : Type} [PyEq α] {a b : Option α} (h : PyEq.eq a b) : b.isNone = a.isNone := by
  cases a <;> cases b <;> first | rfl | exact False.elim h

/-- Whatever is loaded has either a width or a stroke. -/
theorem C43_FpLine (exp : Val) (o : FpLine) (h : FpLine.fromSexpr exp = .ok o) : o.width.isSome = o.stroke.isNone := by
  rw [FpLine.fromSexpr.eq_def] at h
  cases hc : checkHead k!"fp_line" exp with
  | error e => rw [hc] at h; cases h
  | ok l =>
    rw [hc] at h
    have h : forM FpLine.step {} l = .ok o := h
    refine forM_inv (P := fun o => o.width.isSome = o.stroke.isNone) ?_ l {} o rfl h
    intro o x o' hp hs
    unfold FpLine.step at hs
    simp only [bind, Except.bind, pure, Except.pure] at hs
    repeat' split at hs
    all_goals first | (cases hs; exact hp) | (cases hs; rfl) | cases hs
example : ∃ o, FpLine.fromSexpr (.list [.str k!"fp_line", .list [.str k!"width", .int 1]]) = .ok o :=
  ⟨_, by rw [FpLine.fromSexpr.eq_def]; rfl⟩

/-- With both or with neither of them the object does not survive saving and loading; of both, the stroke is lost. -/
theorem C43_FpLine_violated (o : FpLine) (h : o.width.isSome ≠ o.stroke.isNone) (i : Nat) (nl : Bool) :
    ¬ Reloads (.ok (o.toSexpr i nl)) FpLine.fromSexpr o ∧
    (o.width.isSome = true → o.toSexpr i nl = FpLine.toSexpr { o with stroke := none } i nl) := by
  constructor
  · rintro ⟨o', ho, he⟩
    have h' : o'.width.isSome = o'.stroke.isNone := by
      simp only [bind, Except.bind] at ho
      split at ho
      · cases ho
      · exact C43_FpLine _ _ ho
    have hw : PyEq.eq o.width o'.width := by obtain ⟨⟩ := he; simp_all
    have hk : PyEq.eq o.stroke o'.stroke := by obtain ⟨⟩ := he; simp_all
    exact h (by rw [isSome_eq hw, h', isNone_eq hk])
  · intro hw
    unfold FpLine.toSexpr
    cases hw' : o.width with
    | none => rw [hw'] at hw; cases hw
    | some w => rfl
example : ({ sampleFpLine with width := none, stroke := none } : FpLine).width.isSome ≠ ({ sampleFpLine with width := none, stroke := none } : FpLine).stroke.isNone := by
  decide

/-- Whatever is loaded has either a width or a stroke. -/
theorem C43_FpRect (exp : Val) (o : FpRect) (h : FpRect.fromSexpr exp = .ok o) : o.width.isSome = o.stroke.isNone := by
  rw [FpRect.fromSexpr.eq_def] at h
  cases hc : checkHead k!"fp_rect" exp with
  | error e => rw [hc] at h; cases h
  | ok l =>
    rw [hc] at h
    have h : forM FpRect.step {} l = .ok o := h
    refine forM_inv (P := fun o => o.width.isSome = o.stroke.isNone) ?_ l {} o rfl h
    intro o x o' hp hs
    unfold FpRect.step at hs
    simp only [bind, Except.bind, pure, Except.pure] at hs
    repeat' split at hs
    all_goals first | (cases hs; exact hp) | (cases hs; rfl) | cases hs
example : ∃ o, FpRect.fromSexpr (.list [.str k!"fp_rect", .list [.str k!"width", .int 1]]) = .ok o :=
  ⟨_, by rw [FpRect.fromSexpr.eq_def]; rfl⟩

/-- With both or with neither of them the object does not survive saving and loading; of both, the stroke is lost. -/
theorem C43_FpRect_violated (o : FpRect) (h : o.width.isSome ≠ o.stroke.isNone) (i : Nat) (nl : Bool) :
    ¬ Reloads (.ok (o.toSexpr i nl)) FpRect.fromSexpr o ∧
    (o.width.isSome = true → o.toSexpr i nl = FpRect.toSexpr { o with stroke := none } i nl) := by
  constructor
  · rintro ⟨o', ho, he⟩
    have h' : o'.width.isSome = o'.stroke.isNone := by
      simp only [bind, Except.bind] at ho
      split at ho
      · cases ho
      · exact C43_FpRect _ _ ho
    have hw : PyEq.eq o.width o'.width := by obtain ⟨⟩ := he; simp_all
    have hk : PyEq.eq o.stroke o'.stroke := by obtain ⟨⟩ := he; simp_all
    exact h (by rw [isSome_eq hw, h', isNone_eq hk])
  · intro hw
    unfold FpRect.toSexpr
    cases hw' : o.width with
    | none => rw [hw'] at hw; cases hw
    | some w => rfl
example : ({ sampleFpRect with width := none, stroke := none } : FpRect).width.isSome ≠ ({ sampleFpRect with width := none, stroke := none } : FpRect).stroke.isNone := by
  decide

/-- Whatever is loaded has either a width or a stroke. -/
theorem C43_FpCircle (exp : Val) (o : FpCircle) (h : FpCircle.fromSexpr exp = .ok o) : o.width.isSome = o.stroke.isNone := by
  rw [FpCircle.fromSexpr.eq_def] at h
  cases hc : checkHead k!"fp_circle" exp with
  | error e => rw [hc] at h; cases h
  | ok l =>
    rw [hc] at h
    have h : forM FpCircle.step {} l = .ok o := h
    refine forM_inv (P := fun o => o.width.isSome = o.stroke.isNone) ?_ l {} o rfl h
    intro o x o' hp hs
    unfold FpCircle.step at hs
    simp only [bind, Except.bind, pure, Except.pure] at hs
    repeat' split at hs
    all_goals first | (cases hs; exact hp) | (cases hs; rfl) | cases hs
example : ∃ o, FpCircle.fromSexpr (.list [.str k!"fp_circle", .list [.str k!"width", .int 1]]) = .ok o :=
  ⟨_, by rw [FpCircle.fromSexpr.eq_def]; rfl⟩

/-- With both or with neither of them the object does not survive saving and loading; of both, the stroke is lost. -/
theorem C43_FpCircle_violated (o : FpCircle) (h : o.width.isSome ≠ o.stroke.isNone) (i : Nat) (nl : Bool) :
    ¬ Reloads (.ok (o.toSexpr i nl)) FpCircle.fromSexpr o ∧
    (o.width.isSome = true → o.toSexpr i nl = FpCircle.toSexpr { o with stroke := none } i nl) := by
  constructor
  · rintro ⟨o', ho, he⟩
    have h' : o'.width.isSome = o'.stroke.isNone := by
      simp only [bind, Except.bind] at ho
      split at ho
      · cases ho
      · exact C43_FpCircle _ _ ho
    have hw : PyEq.eq o.width o'.width := by obtain ⟨⟩ := he; simp_all
    have hk : PyEq.eq o.stroke o'.stroke := by obtain ⟨⟩ := he; simp_all
    exact h (by rw [isSome_eq hw, h', isNone_eq hk])
  · intro hw
    unfold FpCircle.toSexpr
    cases hw' : o.width with
    | none => rw [hw'] at hw; cases hw
    | some w => rfl
example : ({ sampleFpCircle with width := none, stroke := none } : FpCircle).width.isSome ≠ ({ sampleFpCircle with width := none, stroke := none } : FpCircle).stroke.isNone := by
  decide

/-- Whatever is loaded has either a width or a stroke. -/
theorem C43_FpArc (exp : Val) (o : FpArc) (h : FpArc.fromSexpr exp = .ok o) : o.width.isSome = o.stroke.isNone := by
  rw [FpArc.fromSexpr.eq_def] at h
  cases hc : checkHead k!"fp_arc" exp with
  | error e => rw [hc] at h; cases h
  | ok l =>
    rw [hc] at h
    have h : forM FpArc.step {} l = .ok o := h
    refine forM_inv (P := fun o => o.width.isSome = o.stroke.isNone) ?_ l {} o rfl h
    intro o x o' hp hs
    unfold FpArc.step at hs
    simp only [bind, Except.bind, pure, Except.pure] at hs
    repeat' split at hs
    all_goals first | (cases hs; exact hp) | (cases hs; rfl) | cases hs
example : ∃ o, FpArc.fromSexpr (.list [.str k!"fp_arc", .list [.str k!"width", .int 1]]) = .ok o :=
  ⟨_, by rw [FpArc.fromSexpr.eq_def]; rfl⟩

/-- With both or with neither of them the object does not survive saving and loading; of both, the stroke is lost. -/
theorem C43_FpArc_violated (o : FpArc) (h : o.width.isSome ≠ o.stroke.isNone) (i : Nat) (nl : Bool) :
    ¬ Reloads (.ok (o.toSexpr i nl)) FpArc.fromSexpr o ∧
    (o.width.isSome = true → o.toSexpr i nl = FpArc.toSexpr { o with stroke := none } i nl) := by
  constructor
  · rintro ⟨o', ho, he⟩
    have h' : o'.width.isSome = o'.stroke.isNone := by
      simp only [bind, Except.bind] at ho
      split at ho
      · cases ho
      · exact C43_FpArc _ _ ho
    have hw : PyEq.eq o.width o'.width := by obtain ⟨⟩ := he; simp_all
    have hk : PyEq.eq o.stroke o'.stroke := by obtain ⟨⟩ := he; simp_all
    exact h (by rw [isSome_eq hw, h', isNone_eq hk])
  · intro hw
    unfold FpArc.toSexpr
    cases hw' : o.width with
    | none => rw [hw'] at hw; cases hw
    | some w => rfl
example : ({ sampleFpArc with width := none, stroke := none } : FpArc).width.isSome ≠ ({ sampleFpArc with width := none, stroke := none } : FpArc).stroke.isNone := by
  decide

/-- Whatever is loaded has either a width or a stroke. -/
theorem C43_FpPoly (exp : Val) (o : FpPoly) (h : FpPoly.fromSexpr exp = .ok o) : o.width.isSome = o.stroke.isNone := by
  rw [FpPoly.fromSexpr.eq_def] at h
  cases hc : checkHead k!"fp_poly" exp with
  | error e => rw [hc] at h; cases h
  | ok l =>
    rw [hc] at h
    have h : forM FpPoly.step {} l = .ok o := h
    refine forM_inv (P := fun o => o.width.isSome = o.stroke.isNone) ?_ l {} o rfl h
    intro o x o' hp hs
    unfold FpPoly.step at hs
    simp only [bind, Except.bind, pure, Except.pure] at hs
    repeat' split at hs
    all_goals first | (cases hs; exact hp) | (cases hs; rfl) | cases hs
example : ∃ o, FpPoly.fromSexpr (.list [.str k!"fp_poly", .list [.str k!"width", .int 1]]) = .ok o :=
  ⟨_, by rw [FpPoly.fromSexpr.eq_def]; rfl⟩

/-- With both or with neither of them the object does not survive saving and loading; of both, the stroke is lost. -/
theorem C43_FpPoly_violated (o : FpPoly) (h : o.width.isSome ≠ o.stroke.isNone) (i : Nat) (nl : Bool) :
    ¬ Reloads (.ok (o.toSexpr i nl)) FpPoly.fromSexpr o ∧
    (o.width.isSome = true → o.toSexpr i nl = FpPoly.toSexpr { o with stroke := none } i nl) := by
  constructor
  · rintro ⟨o', ho, he⟩
    have h' : o'.width.isSome = o'.stroke.isNone := by
      simp only [bind, Except.bind] at ho
      split at ho
      · cases ho
      · exact C43_FpPoly _ _ ho
    have hw : PyEq.eq o.width o'.width := by obtain ⟨⟩ := he; simp_all
    have hk : PyEq.eq o.stroke o'.stroke := by obtain ⟨⟩ := he; simp_all
    exact h (by rw [isSome_eq hw, h', isNone_eq hk])
  · intro hw
    unfold FpPoly.toSexpr
    cases hw' : o.width with
    | none => rw [hw'] at hw; cases hw
    | some w => rfl
example : ({ sampleFpPoly with width := none, stroke := none } : FpPoly).width.isSome ≠ ({ sampleFpPoly with width := none, stroke := none } : FpPoly).stroke.isNone := by
  decide

/-- Whatever is loaded has either a width or a stroke. -/
theorem C43_FpCurve (exp : Val) (o : FpCurve) (h : FpCurve.fromSexpr exp = .ok o) : o.width.isSome = o.stroke.isNone := by
  rw [FpCurve.fromSexpr.eq_def] at h
  cases hc : checkHead k!"fp_curve" exp with
  | error e => rw [hc] at h; cases h
  | ok l =>
    rw [hc] at h
    have h : forM FpCurve.step {} l = .ok o := h
    refine forM_inv (P := fun o => o.width.isSome = o.stroke.isNone) ?_ l {} o rfl h
    intro o x o' hp hs
    unfold FpCurve.step at hs
    simp only [bind, Except.bind, pure, Except.pure] at hs
    repeat' split at hs
    all_goals first | (cases hs; exact hp) | (cases hs; rfl) | cases hs
example : ∃ o, FpCurve.fromSexpr (.list [.str k!"fp_curve", .list [.str k!"width", .int 1]]) = .ok o :=
  ⟨_, by rw [FpCurve.fromSexpr.eq_def]; rfl⟩

/-- With both or with neither of them the object does not survive saving and loading; of both, the stroke is lost. -/
theorem C43_FpCurve_violated (o : FpCurve) (h : o.width.isSome ≠ o.stroke.isNone) (i : Nat) (nl : Bool) :
    ¬ Reloads (.ok (o.toSexpr i nl)) FpCurve.fromSexpr o ∧
    (o.width.isSome = true → o.toSexpr i nl = FpCurve.toSexpr { o with stroke := none } i nl) := by
  constructor
  · rintro ⟨o', ho, he⟩
    have h' : o'.width.isSome = o'.stroke.isNone := by
      simp only [bind, Except.bind] at ho
      split at ho
      · cases ho
      · exact C43_FpCurve _ _ ho
    have hw : PyEq.eq o.width o'.width := by obtain ⟨⟩ := he; simp_all
    have hk : PyEq.eq o.stroke o'.stroke := by obtain ⟨⟩ := he; simp_all
    exact h (by rw [isSome_eq hw, h', isNone_eq hk])
  · intro hw
    unfold FpCurve.toSexpr
    cases hw' : o.width with
    | none => rw [hw'] at hw; cases hw
    | some w => rfl
example : ({ sampleFpCurve with width := none, stroke := none } : FpCurve).width.isSome ≠ ({ sampleFpCurve with width := none, stroke := none } : FpCurve).stroke.isNone := by
  decide

end Kiutils
