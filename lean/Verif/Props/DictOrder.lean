import Verif.Props.EqualTexts
import Verif.Props.Inject
/-!
# C87: the order of the entries of a dict is kept and means nothing else

In C77 dicts are compared as lists of entries. Python's `==` does not look at their order.
-/
namespace Kiutils

/-! ## Specification -/

/-- The same up to the order of the comments. -/
structure TitleBlock.UpToOrder (a b : TitleBlock) : Prop where
  rest : b = { a with comments := b.comments }
  comments : a.comments.Perm b.comments

/-- The same up to the order of the properties. -/
structure Footprint.UpToOrder (a b : Footprint) : Prop where
  rest : b = { a with properties := b.properties }
  properties : a.properties.Perm b.properties

/-- The same up to the order of the pins. -/
structure SchematicSymbol.UpToOrder (a b : SchematicSymbol) : Prop where
  rest : b = { a with pins := b.pins }
  pins : a.pins.Perm b.pins

/-- Both missing, or both present and related. -/
def OptRel {α : Type} (R : α → α → Prop) : Option α → Option α → Prop
  | none, none => True
  | some a, some b => R a b
  | _, _ => False

/-- The same up to the order of the properties, of those of the footprints, and of the comments of the title block. -/
structure Board.UpToOrder (a b : Board) : Prop where
  rest : b = { a with titleBlock := b.titleBlock, properties := b.properties, footprints := b.footprints }
  titleBlock : OptRel TitleBlock.UpToOrder a.titleBlock b.titleBlock
  properties : a.properties.Perm b.properties
  footprints : ListRel Footprint.UpToOrder a.footprints b.footprints

/-- The same up to the order of the comments of the title block and of the pins of the symbols. -/
structure Schematic.UpToOrder (a b : Schematic) : Prop where
  rest : b = { a with titleBlock := b.titleBlock, schematicSymbols := b.schematicSymbols }
  titleBlock : OptRel TitleBlock.UpToOrder a.titleBlock b.titleBlock
  schematicSymbols : ListRel SchematicSymbol.UpToOrder a.schematicSymbols b.schematicSymbols

/-- An entry of a dict. -/
def IsEntry (x : Val) : Prop := ∃ k r, x = .list (.str k :: r) ∧ (k = k!"property" ∨ k = k!"comment" ∨ k = k!"pin")

/-- The same children, but groups of entries of dicts that follow each other are in another order, here or further inside. -/
inductive OnlyOrder : List Val → List Val → Prop
  | refl (xs : List Val) : OnlyOrder xs xs
  | entries (pre xs ys post : List Val) (h : xs.Perm ys) (he : ∀ x ∈ xs, IsEntry x) : OnlyOrder (pre ++ xs ++ post) (pre ++ ys ++ post)
  | inside (pre xs ys post : List Val) (h : OnlyOrder xs ys) : OnlyOrder (pre ++ .list xs :: post) (pre ++ .list ys :: post)
  | trans (xs ys zs : List Val) (h : OnlyOrder xs ys) (h' : OnlyOrder ys zs) : OnlyOrder xs zs

/-! ## Lemmas -/

theorem OnlyOrder.within {xs ys : List Val} (h : OnlyOrder xs ys) (p q : List Val) : OnlyOrder (p ++ xs ++ q) (p ++ ys ++ q) := by
  induction h with
  | refl => exact .refl _
  | entries pre xs ys post hp he =>
    have := OnlyOrder.entries (p ++ pre) xs ys (post ++ q) hp he
    simpa only [List.append_assoc] using this
  | inside pre xs ys post h _ =>
    have := OnlyOrder.inside (p ++ pre) xs ys (post ++ q) h
    simpa only [List.append_assoc, List.cons_append] using this
  | trans xs ys zs _ _ ih ih' => exact .trans _ _ _ ih ih'

theorem OnlyOrder.append {a b c d : List Val} (h : OnlyOrder a b) (h' : OnlyOrder c d) : OnlyOrder (a ++ c) (b ++ d) := by
  refine .trans _ (b ++ c) _ ?_ ?_
  · simpa using h.within [] c
  · simpa using h'.within b []

theorem OnlyOrder.single {xs ys : List Val} (h : OnlyOrder xs ys) : OnlyOrder [.list xs] [.list ys] := .inside [] xs ys [] h

theorem OnlyOrder.perm {α : Type} {l m : List α} (f : α → Val) (h : l.Perm m) (he : ∀ a, IsEntry (f a)) : OnlyOrder (l.map f) (m.map f) := by
  have := OnlyOrder.entries [] _ _ [] (h.map f) (fun x hx => by obtain ⟨a, _, rfl⟩ := List.mem_map.1 hx; exact he a)
  simpa using this

/-- Related objects whose trees are lists. -/
theorem OnlyOrder.map {α : Type} {R : α → α → Prop} {f : α → Val} {l m : List α} (h : ListRel R l m)
    (hf : ∀ a b, R a b → ∃ xs ys, f a = .list xs ∧ f b = .list ys ∧ OnlyOrder xs ys) : OnlyOrder (l.map f) (m.map f) := by
  induction h with
  | nil => exact .refl _
  | cons h _ ih =>
    obtain ⟨xs, ys, e1, e2, ho⟩ := hf _ _ h
    rw [List.map_cons, List.map_cons, e1, e2]
    exact .append ho.single ih

theorem OnlyOrder.opt {α : Type} {R : α → α → Prop} {f : α → Val} {l m : Option α} (h : OptRel R l m)
    (hf : ∀ a b, R a b → ∃ xs ys, f a = .list xs ∧ f b = .list ys ∧ OnlyOrder xs ys) : OnlyOrder (optL l fun v => [f v]) (optL m fun v => [f v]) := by
  cases l with
  | none => cases m with
    | none => exact .refl _
    | some b => exact h.elim
  | some a => cases m with
    | none => exact h.elim
    | some b =>
      obtain ⟨xs, ys, e1, e2, ho⟩ := hf a b h
      show OnlyOrder [f a] [f b]
      rw [e1, e2]
      exact ho.single

/-- Goes through the children that are written one after the other. -/
macro "order" : tactic => `(tactic| repeat' (with_reducible first | exact OnlyOrder.refl _ | assumption | apply OnlyOrder.append))

theorem TitleBlock.order {a b : TitleBlock} (h : a.UpToOrder b) : ∃ xs ys, a.toVal = .list xs ∧ b.toVal = .list ys ∧ OnlyOrder xs ys := by
  obtain ⟨hr, hp⟩ := h
  rw [hr]
  refine ⟨_, _, rfl, rfl, ?_⟩
  have := OnlyOrder.perm (fun c : Val × Val => .list [.str k!"comment", c.1.canon, c.2.canon]) hp fun a => ⟨_, _, rfl, .inr (.inl rfl)⟩
  order

theorem Footprint.order {a b : Footprint} (h : a.UpToOrder b) : ∃ xs ys, a.toVal = .list xs ∧ b.toVal = .list ys ∧ OnlyOrder xs ys := by
  obtain ⟨hr, hp⟩ := h
  rw [hr]
  refine ⟨_, _, rfl, rfl, ?_⟩
  have := OnlyOrder.perm (fun p : Val × Val => .list [.str k!"property", p.1.canon, p.2.canon]) hp fun a => ⟨_, _, rfl, .inl rfl⟩
  order
  exact .refl _

theorem SchematicSymbol.order {a b : SchematicSymbol} (h : a.UpToOrder b) : ∃ xs ys, a.toVal = .list xs ∧ b.toVal = .list ys ∧ OnlyOrder xs ys := by
  obtain ⟨hr, hp⟩ := h
  rw [hr]
  refine ⟨_, _, rfl, rfl, ?_⟩
  have := OnlyOrder.perm (fun p : Val × Val => .list [.str k!"pin", p.1.canon, .list [.str k!"uuid", p.2.canon]]) hp fun a => ⟨_, _, rfl, .inr (.inr rfl)⟩
  order
  exact .refl _

theorem Board.order {a b : Board} (h : a.UpToOrder b) : ∃ xs ys, a.toVal = .list xs ∧ b.toVal = .list ys ∧ OnlyOrder xs ys := by
  obtain ⟨hr, ht, hp, hf⟩ := h
  rw [hr]
  refine ⟨_, _, rfl, rfl, ?_⟩
  have h1 := OnlyOrder.perm (fun p : Val × Val => .list [.str k!"property", p.1.canon, p.2.canon]) hp fun a => ⟨_, _, rfl, .inl rfl⟩
  have h2 := OnlyOrder.map hf fun _ _ => Footprint.order
  have h3 := OnlyOrder.opt ht fun _ _ => TitleBlock.order
  order

theorem Schematic.order {a b : Schematic} (h : a.UpToOrder b) : ∃ xs ys, a.toVal = .list xs ∧ b.toVal = .list ys ∧ OnlyOrder xs ys := by
  obtain ⟨hr, ht, hf⟩ := h
  rw [hr]
  refine ⟨_, _, rfl, rfl, ?_⟩
  have h2 := OnlyOrder.map hf fun _ _ => SchematicSymbol.order
  have h3 := OnlyOrder.opt ht fun _ _ => TitleBlock.order
  order

theorem TitleBlock.UpToOrder.canon {a b : TitleBlock} (h : a.UpToOrder b) : TitleBlock.UpToOrder (canon a) (canon b) :=
  ⟨by rw [h.rest]; rfl, h.comments.map _⟩

theorem Footprint.UpToOrder.canon {a b : Footprint} (h : a.UpToOrder b) :
    Footprint.UpToOrder (canon { a with filePath := none }) (canon { b with filePath := none }) :=
  ⟨by rw [h.rest]; rfl, h.properties.map _⟩

theorem SchematicSymbol.UpToOrder.canon {a b : SchematicSymbol} (h : a.UpToOrder b) : SchematicSymbol.UpToOrder (canon a) (canon b) :=
  ⟨by rw [h.rest]; rfl, h.pins.map _⟩

theorem ListRel.both {α : Type} {R : α → α → Prop} {f : α → α} {l m : List α} (h : ListRel R l m) (hf : ∀ a b, R a b → R (f a) (f b)) :
    ListRel R (l.map f) (m.map f) := by
  induction h with
  | nil => exact .nil
  | cons h _ ih => exact .cons (hf _ _ h) ih

theorem OptRel.both {α : Type} {R : α → α → Prop} {f : α → α} {l m : Option α} (h : OptRel R l m) (hf : ∀ a b, R a b → R (f a) (f b)) :
    OptRel R (l.map f) (m.map f) := by
  cases l <;> cases m <;> first | exact h | exact hf _ _ h

theorem Board.UpToOrder.canon {a b : Board} (h : a.UpToOrder b) : Board.UpToOrder (canon a.asRead) (canon b.asRead) :=
  ⟨by rw [h.rest]; rfl, h.titleBlock.both fun _ _ => TitleBlock.UpToOrder.canon, h.properties.map _, by
    show ListRel _ ((a.footprints.map fun f => { f with filePath := none }).map Kiutils.canon) ((b.footprints.map fun f => { f with filePath := none }).map Kiutils.canon)
    rw [List.map_map, List.map_map]
    exact h.footprints.both fun _ _ => Footprint.UpToOrder.canon⟩

theorem Schematic.UpToOrder.canon {a b : Schematic} (h : a.UpToOrder b) : Schematic.UpToOrder (canon a.asRead) (canon b.asRead) :=
  ⟨by rw [h.rest]; rfl, h.titleBlock.both fun _ _ => TitleBlock.UpToOrder.canon,
    h.schematicSymbols.both fun _ _ => SchematicSymbol.UpToOrder.canon⟩

theorem keyEq_swap {a b : Val} (h : a.keyEq b = false) : b.keyEq a = false := by
  unfold Val.keyEq at *
  generalize a.canon = x at *
  generalize b.canon = y at *
  cases x <;> cases y <;> simp only [beq_eq_false_iff_ne, ne_eq] at h ⊢ <;> exact fun e => h e.symm

theorem distinct_perm {l m : List (Val × Val)} (h : l.Perm m) (hl : l.Pairwise fun a b => a.1.keyEq b.1 = false) :
    m.Pairwise fun a b => a.1.keyEq b.1 = false :=
  h.pairwise hl fun h => keyEq_swap h

theorem TitleBlock.UpToOrder.wf [TextRule] {a b : TitleBlock} (h : a.UpToOrder b) (ha : a.WF) : b.WF := by
  have hp := h.comments
  rw [h.rest]
  exact { ha with numbers := fun c hc => ha.numbers c (hp.mem_iff.2 hc), comments := fun c hc => ha.comments c (hp.mem_iff.2 hc), distinct := distinct_perm hp ha.distinct }

theorem Footprint.UpToOrder.wf [TextRule] {a b : Footprint} (h : a.UpToOrder b) (ha : a.WF) : b.WF := by
  have hp := h.properties
  rw [h.rest]
  exact { ha with propertyNames := fun c hc => ha.propertyNames c (hp.mem_iff.2 hc), properties := fun c hc => ha.properties c (hp.mem_iff.2 hc), distinct := distinct_perm hp ha.distinct }

theorem SchematicSymbol.UpToOrder.wf [TextRule] {a b : SchematicSymbol} (h : a.UpToOrder b) (ha : a.WF) : b.WF := by
  have hp := h.pins
  rw [h.rest]
  exact { ha with pinNumbers := fun c hc => ha.pinNumbers c (hp.mem_iff.2 hc), pinIds := fun c hc => ha.pinIds c (hp.mem_iff.2 hc), distinct := distinct_perm hp ha.distinct }

theorem ListRel.all {α : Type} {R : α → α → Prop} {P : α → Prop} {l m : List α} (h : ListRel R l m) (hR : ∀ a b, R a b → P a → P b)
    (hl : ∀ a ∈ l, P a) : ∀ b ∈ m, P b := by
  induction h with
  | nil => exact fun _ h => nomatch h
  | cons h _ ih =>
    intro b hb
    rcases List.mem_cons.1 hb with rfl | hb
    · exact hR _ _ h (hl _ List.mem_cons_self)
    · exact ih (fun a ha => hl a (List.mem_cons_of_mem _ ha)) b hb

theorem OptRel.all {α : Type} {R : α → α → Prop} {P : α → Prop} {l m : Option α} (h : OptRel R l m) (hR : ∀ a b, R a b → P a → P b)
    (hl : ∀ a, l = some a → P a) : ∀ b, m = some b → P b := by
  rintro b rfl
  cases l with
  | none => exact h.elim
  | some a => exact hR a b h (hl a rfl)

theorem Board.UpToOrder.wf [TextRule] {a b : Board} (h : a.UpToOrder b) (ha : a.WF) : b.WF := by
  have hp := h.properties
  have hf := h.footprints.all (fun _ _ h => h.wf) ha.footprints
  have ht := h.titleBlock.all (fun _ _ h => h.wf) ha.titleBlock
  rw [h.rest]
  exact { ha with propertyNames := fun c hc => ha.propertyNames c (hp.mem_iff.2 hc), properties := fun c hc => ha.properties c (hp.mem_iff.2 hc), distinct := distinct_perm hp ha.distinct, titleBlock := ht, footprints := hf }

theorem Schematic.UpToOrder.wf [TextRule] {a b : Schematic} (h : a.UpToOrder b) (ha : a.WF) : b.WF := by
  have hf := h.schematicSymbols.all (fun _ _ h => h.wf) ha.schematicSymbols
  have ht := h.titleBlock.all (fun _ _ h => h.wf) ha.titleBlock
  rw [h.rest]
  exact { ha with titleBlock := ht, schematicSymbols := hf }

/-! ## Theorems -/

/-- The samples with their dicts in another order. -/
def otherTitleBlock : TitleBlock := { sampleTitleBlock with comments := [(.int 2, .str k!"y"), (.int 1, .str k!"x")] }
def otherFootprint : Footprint := { sampleFootprint with properties := [(.str k!"b", .str k!"y \"z\""), (.str k!"a", .str k!"x")] }
def otherSchematicSymbol : SchematicSymbol := { sampleSchematicSymbol with pins := [(.str k!"2", .str k!"ab-3"), (.str k!"1", .str k!"1e-2")] }
def otherBoard : Board := { sampleBoard with
  titleBlock := some otherTitleBlock, footprints := [otherFootprint], properties := [(.str k!"b", .str k!"y \"z\""), (.str k!"a", .str k!"x")] }
def otherSchematic : Schematic := { sampleSchematic with titleBlock := some otherTitleBlock, schematicSymbols := [otherSchematicSymbol] }

theorem otherTitleBlock_order : sampleTitleBlock.UpToOrder otherTitleBlock := ⟨rfl, .swap ..⟩
theorem otherFootprint_order : sampleFootprint.UpToOrder otherFootprint := ⟨rfl, .swap ..⟩
theorem otherSchematicSymbol_order : sampleSchematicSymbol.UpToOrder otherSchematicSymbol := ⟨rfl, .swap ..⟩
theorem otherBoard_order : sampleBoard.UpToOrder otherBoard := ⟨rfl, otherTitleBlock_order, .swap .., .cons otherFootprint_order .nil⟩
theorem otherSchematic_order : sampleSchematic.UpToOrder otherSchematic := ⟨rfl, otherTitleBlock_order, .cons otherSchematicSymbol_order .nil⟩

/-- The files differ only in the order of entries, and the objects loaded from them only in the order of their dicts. -/
theorem C87_TitleBlock [TextRule] (a b : TitleBlock) (ha : a.WF) (h : a.UpToOrder b) (i i' : Nat) (nl nl' : Bool) :
    ∃ xs ys a' b', Denotes (.ok (a.toSexpr i nl)) (.list xs) ∧ Denotes (.ok (b.toSexpr i' nl')) (.list ys) ∧ OnlyOrder xs ys ∧
      TitleBlock.fromSexpr (.list xs) = .ok a' ∧ TitleBlock.fromSexpr (.list ys) = .ok b' ∧ TitleBlock.UpToOrder a' b' := by
  have hb := h.wf ha
  obtain ⟨xs, ys, e1, e2, ho⟩ := TitleBlock.order h
  exact ⟨xs, ys, _, _, e1 ▸ C48_TitleBlock a ha i nl, e2 ▸ C48_TitleBlock b hb i' nl', ho, e1 ▸ TitleBlock.from_toVal ha, e2 ▸ TitleBlock.from_toVal hb, h.canon⟩
example := C87_TitleBlock sampleTitleBlock (otherTitleBlock) sampleTitleBlock_wf otherTitleBlock_order

/-- The files differ only in the order of entries, and the objects loaded from them only in the order of their dicts. -/
theorem C87_SchematicSymbol [TextRule] (a b : SchematicSymbol) (ha : a.WF) (h : a.UpToOrder b) (i i' : Nat) (nl nl' : Bool) :
    ∃ xs ys a' b', Denotes (.ok (a.toSexpr i nl)) (.list xs) ∧ Denotes (.ok (b.toSexpr i' nl')) (.list ys) ∧ OnlyOrder xs ys ∧
      SchematicSymbol.fromSexpr (.list xs) = .ok a' ∧ SchematicSymbol.fromSexpr (.list ys) = .ok b' ∧ SchematicSymbol.UpToOrder a' b' := by
  have hb := h.wf ha
  obtain ⟨xs, ys, e1, e2, ho⟩ := SchematicSymbol.order h
  exact ⟨xs, ys, _, _, e1 ▸ C48_SchematicSymbol a ha i nl, e2 ▸ C48_SchematicSymbol b hb i' nl', ho, e1 ▸ SchematicSymbol.from_toVal ha, e2 ▸ SchematicSymbol.from_toVal hb, h.canon⟩
example := C87_SchematicSymbol sampleSchematicSymbol (otherSchematicSymbol) sampleSchematicSymbol_wf otherSchematicSymbol_order

/-- The files differ only in the order of entries, and the objects loaded from them only in the order of their dicts. -/
theorem C87_Footprint [TextRule] (a b : Footprint) (ha : a.WF) (h : a.UpToOrder b) (tedit : Val) (i i' : Nat) (nl nl' : Bool) (lf lf' : Bool) :
    ∃ xs ys a' b', Denotes (a.toSexpr i nl lf) (.list xs) ∧ Denotes (b.toSexpr i' nl' lf') (.list ys) ∧ OnlyOrder xs ys ∧
      Footprint.fromSexpr tedit (.list xs) = .ok a' ∧ Footprint.fromSexpr tedit (.list ys) = .ok b' ∧ Footprint.UpToOrder a' b' := by
  have hb := h.wf ha
  obtain ⟨xs, ys, e1, e2, ho⟩ := Footprint.order h
  exact ⟨xs, ys, _, _, e1 ▸ C48_Footprint a ha i nl lf, e2 ▸ C48_Footprint b hb i' nl' lf', ho, e1 ▸ Footprint.from_toVal ha tedit, e2 ▸ Footprint.from_toVal hb tedit, h.canon⟩
example := C87_Footprint sampleFootprint (otherFootprint) sampleFootprint_wf otherFootprint_order (.str k!"5f12ab34")

/-- The files differ only in the order of entries, and the objects loaded from them only in the order of their dicts. -/
theorem C87_Board [TextRule] (a b : Board) (ha : a.WF) (h : a.UpToOrder b) (tedit : Val) (i i' : Nat) (nl nl' : Bool) :
    ∃ xs ys a' b', Denotes (a.toSexpr i nl) (.list xs) ∧ Denotes (b.toSexpr i' nl') (.list ys) ∧ OnlyOrder xs ys ∧
      Board.fromSexpr tedit (.list xs) = .ok a' ∧ Board.fromSexpr tedit (.list ys) = .ok b' ∧ Board.UpToOrder a' b' := by
  have hb := h.wf ha
  obtain ⟨xs, ys, e1, e2, ho⟩ := Board.order h
  exact ⟨xs, ys, _, _, e1 ▸ C48_Board a ha i nl, e2 ▸ C48_Board b hb i' nl', ho, e1 ▸ Board.from_toVal ha tedit, e2 ▸ Board.from_toVal hb tedit, h.canon⟩
example := C87_Board sampleBoard (otherBoard) sampleBoard_wf otherBoard_order (.str k!"5f12ab34")

/-- The files differ only in the order of entries, and the objects loaded from them only in the order of their dicts. -/
theorem C87_Schematic [TextRule] (a b : Schematic) (ha : a.WF) (h : a.UpToOrder b) (i i' : Nat) (nl nl' : Bool) :
    ∃ xs ys a' b', Denotes (a.toSexpr i nl) (.list xs) ∧ Denotes (b.toSexpr i' nl') (.list ys) ∧ OnlyOrder xs ys ∧
      Schematic.fromSexpr (.list xs) = .ok a' ∧ Schematic.fromSexpr (.list ys) = .ok b' ∧ Schematic.UpToOrder a' b' := by
  have hb := h.wf ha
  obtain ⟨xs, ys, e1, e2, ho⟩ := Schematic.order h
  exact ⟨xs, ys, _, _, e1 ▸ C48_Schematic a ha i nl, e2 ▸ C48_Schematic b hb i' nl', ho, e1 ▸ Schematic.from_toVal ha, e2 ▸ Schematic.from_toVal hb, h.canon⟩
example := C87_Schematic sampleSchematic (otherSchematic) sampleSchematic_wf otherSchematic_order

theorem entries_canon [TextRule] {l m : List (Val × Val)} (hl : ∀ p ∈ l, p.1.canon = p.1 ∧ p.2.canon = p.2)
    (hm : ∀ p ∈ m, p.1.canon = p.1 ∧ p.2.canon = p.2) (h : canon l = canon m) : l = m := by
  have key : ∀ l : List (Val × Val), (∀ p ∈ l, p.1.canon = p.1 ∧ p.2.canon = p.2) → canon l = l := fun l hl => by
    show l.map canon = l
    conv => rhs; rw [← List.map_id l]
    exact List.map_congr_left fun p hp => Prod.ext (hl p hp).1 (hl p hp).2
  rw [key l hl, key m hm] at h
  exact h

/-- The order is visible in the file: texts that mean the same belong to dicts in the same order. -/
theorem C87_Footprint_kept [TextRule] (a b : Footprint) (ha : a.WF) (hb : b.WF) (i i' : Nat) (nl nl' lf lf' : Bool)
    (h : SameMeaning (a.toSexpr i nl lf) (b.toSexpr i' nl' lf')) : a.properties = b.properties :=
  entries_canon (fun p hp => ⟨(ha.propertyNames p hp).canon, (ha.properties p hp).canon⟩)
    (fun p hp => ⟨(hb.propertyNames p hp).canon, (hb.properties p hp).canon⟩)
    (congrArg Footprint.properties (C68_Footprint a b ha hb i i' nl nl' lf lf' h).canon)
example := C87_Footprint_kept sampleFootprint sampleFootprint sampleFootprint_wf sampleFootprint_wf 0 4 true false true false (C12_Footprint sampleFootprint sampleFootprint_wf 0 true true 4 false false)

theorem C87_Board_kept [TextRule] (a b : Board) (ha : a.WF) (hb : b.WF) (i i' : Nat) (nl nl' : Bool)
    (h : SameMeaning (a.toSexpr i nl) (b.toSexpr i' nl')) : a.properties = b.properties :=
  entries_canon (fun p hp => ⟨(ha.propertyNames p hp).canon, (ha.properties p hp).canon⟩)
    (fun p hp => ⟨(hb.propertyNames p hp).canon, (hb.properties p hp).canon⟩)
    (congrArg Board.properties (C68_Board a b ha hb i i' nl nl' h).canon)
example := C87_Board_kept sampleBoard sampleBoard sampleBoard_wf sampleBoard_wf 0 4 true false (C12_Board sampleBoard sampleBoard_wf 0 true 4 false)

theorem C87_SchematicSymbol_kept [TextRule] (a b : SchematicSymbol) (ha : a.WF) (hb : b.WF) (i i' : Nat) (nl nl' : Bool)
    (h : SameMeaning (.ok (a.toSexpr i nl)) (.ok (b.toSexpr i' nl'))) : a.pins = b.pins :=
  entries_canon (fun p hp => ⟨(ha.pinNumbers p hp).canon, (ha.pinIds p hp).canon⟩)
    (fun p hp => ⟨(hb.pinNumbers p hp).canon, (hb.pinIds p hp).canon⟩)
    (congrArg SchematicSymbol.pins (C68_SchematicSymbol a b ha hb i i' nl nl' h).canon)
example := C87_SchematicSymbol_kept sampleSchematicSymbol sampleSchematicSymbol sampleSchematicSymbol_wf sampleSchematicSymbol_wf 0 4 true false (C12_SchematicSymbol sampleSchematicSymbol sampleSchematicSymbol_wf 0 true 4 false)

end Kiutils
