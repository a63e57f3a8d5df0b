import Verif.Proofs.ShiftNot
import Verif.Props.Indent
import Verif.Props.Newline
/-!
# Objects that do not move as a whole

For each class with a condition `Movable`: if the text of an object moves, the condition holds. For the `_exactly` theorems of C72.
-/
namespace Kiutils

theorem LibTable.not_moved (o : LibTable) (i k : Nat) (nl : Bool) (hk : 0 < k) (h : Shifted k (o.toSexpr i nl) (o.toSexpr (i + k) nl)) : o.Movable := by
  unfold LibTable.Movable
  cases hl : o.libs with
  | nil => rfl
  | cons l ls =>
    unfold LibTable.toSexpr Library.toSexpr at h
    rw [hl] at h
    simp only [forS, List.flatMap_cons, List.append_assoc, List.cons_append, List.nil_append] at h
    next_line h
    have := h.blanks (by decide) (by decide) (by decide)
    omega

theorem Constraint.begins {o : Constraint} {i : Nat} {nl : Bool} {s : Str} (h : o.toSexpr i nl = .ok s) : ∃ r, s = indents i ++ '(' :: r := by
  obtain ⟨j, _, h⟩ := split_ok h
  cases h
  exact ⟨_, rfl⟩

/-- How a rule with constraints begins. -/
theorem Rule.begins {o : Rule} {i : Nat} {s : Str} (h : o.toSexpr i = .ok s) {c : Constraint} {cs : List Constraint} (hc : o.constraints = c :: cs) :
    ∃ r, s = indents i ++ '(' :: (kw k!"rule" ++ ' ' :: '"' :: (dq o.name ++ '"' :: '\n' ::
      ((optS o.layer fun l => py!"{indents i}  (layer \"{dq l}\")\n") ++ (indents (i + (i + 2)) ++ '(' :: r)))) := by
  unfold Rule.toSexpr at h
  obtain ⟨t, ht, h⟩ := split_ok h
  rw [hc] at ht
  obtain ⟨a, b, ha, _, rfl⟩ := forSM_cons_ok ht
  obtain ⟨a', ha', ha⟩ := split_ok ha
  obtain ⟨r, rfl⟩ := Constraint.begins ha'
  cases ha
  cases h
  rw [indents_add i (i + 2)]
  simp only [List.append_assoc, List.cons_append, List.nil_append]
  exact ⟨_, rfl⟩

theorem Rule.not_moved (o : Rule) (i k : Nat) (hk : 0 < k) (h : ShiftedM k (o.toSexpr i) (o.toSexpr (i + k))) (hs : ∃ s, o.toSexpr i = .ok s) : o.Movable := by
  unfold Rule.Movable
  obtain ⟨s, hs⟩ := hs
  cases hl : o.constraints with
  | nil => rfl
  | cons l ls =>
    obtain ⟨s', hs', h⟩ := h.both hs
    obtain ⟨r, rfl⟩ := Rule.begins hs hl
    obtain ⟨r', rfl⟩ := Rule.begins hs' hl
    next_line h
    cases hy : o.layer with
    | none =>
      rw [hy] at h
      have := Shifted.blanks (n := i + (i + 2)) (m := i + k + (i + k + 2)) h (by decide) (by decide) (by decide)
      omega
    | some y =>
      rw [hy] at h
      simp only [optS, List.append_assoc, List.cons_append, List.nil_append] at h
      next_line h
      have := h.blanks (by decide) (by decide) (by decide)
      omega

theorem Bitmap.not_moved (o : Bitmap) (i k : Nat) (nl : Bool) (hk : 0 < k) (h : Shifted k (o.toSexpr i nl) (o.toSexpr (i + k) nl)) : o.Movable := by
  unfold Bitmap.Movable
  cases hl : o.comment with
  | none => rfl
  | some c =>
    unfold Bitmap.toSexpr at h
    rw [hl] at h
    simp only [optS, List.append_assoc, List.cons_append, List.nil_append] at h
    next_line h
    have := Shifted.blanks (n := 1) (m := 1) h (by decide) (by decide) (by decide)
    omega

theorem TbText.not_moved (o : TbText) (i k : Nat) (nl : Bool) (hk : 0 < k) (h : Shifted k (o.toSexpr i nl) (o.toSexpr (i + k) nl)) : o.Movable := by
  unfold TbText.Movable
  cases hl : o.comment with
  | none => rfl
  | some c =>
    unfold TbText.toSexpr at h
    rw [hl] at h
    simp only [List.append_assoc, List.cons_append, List.nil_append] at h
    simp only [optS, List.append_assoc, List.cons_append, List.nil_append] at h
    next_line h
    have := Shifted.blanks (n := 0) (m := 0) h (by decide) (by decide) (by decide)
    omega

theorem WksShape.not_moved (w : Str) (o : WksShape) (i k : Nat) (nl : Bool) (hk : 0 < k) (h : Shifted k (o.toSexpr w i nl) (o.toSexpr w (i + k) nl)) : o.Movable := by
  unfold WksShape.Movable
  cases hl : o.comment with
  | none => rfl
  | some c =>
    unfold WksShape.toSexpr at h
    rw [hl] at h
    simp only [optS, List.append_assoc, List.cons_append, List.nil_append] at h
    next_line h
    have := Shifted.blanks (n := 0) (m := 0) h (by decide) (by decide) (by decide)
    omega

theorem Symbol.begins (o : Symbol) (i : Nat) (nl : Bool) : ∃ r, o.toSexpr i nl = indents i ++ '(' :: r := by
  cases o
  simp only [Symbol.toSexpr, Symbol.textFlat, List.append_assoc, List.cons_append]
  exact ⟨_, rfl⟩

theorem SymbolLib.not_moved (o : SymbolLib) (i k : Nat) (nl : Bool) (hk : 0 < k) (h : Shifted k (o.toSexpr i nl) (o.toSexpr (i + k) nl)) : o.Movable := by
  unfold SymbolLib.Movable
  cases hl : o.symbols with
  | nil => rfl
  | cons l ls =>
    unfold SymbolLib.toSexpr at h
    rw [hl] at h
    obtain ⟨r, hr⟩ := Symbol.begins l (i + 2) true
    obtain ⟨r', hr'⟩ := Symbol.begins l (i + k + 2) true
    simp only [forS, List.flatMap_cons, hr, hr', List.append_assoc, List.cons_append, List.nil_append] at h
    next_line h
    rw [← List.append_assoc, ← List.append_assoc (indents (i + k)), ← indents_add, ← indents_add] at h
    have := h.blanks (by decide) (by decide) (by decide)
    omega

theorem DesignRules.begins {o : DesignRules} {i : Nat} {nl : Bool} {s : Str} (h : o.toSexpr i nl = .ok s) {c : Rule} {cs : List Rule} (hc : o.rules = c :: cs) :
    ∃ r, s = indents i ++ '(' :: (kw k!"version" ++ ' ' :: (o.version.pyStr ++ ')' :: '\n' :: (indents i ++ '\n' :: (indents (i + i) ++ '(' :: r)))) := by
  unfold DesignRules.toSexpr at h
  obtain ⟨t, ht, h⟩ := split_ok h
  rw [hc] at ht h
  obtain ⟨a, b, ha, _, rfl⟩ := forSM_cons_ok ht
  obtain ⟨a', ha', ha⟩ := split_ok ha
  unfold Rule.toSexpr at ha'
  obtain ⟨_, _, ha'⟩ := split_ok ha'
  cases ha'
  cases ha
  cases h
  rw [indents_add i i]
  simp only [List.isEmpty_cons, Bool.false_eq_true, if_false, List.append_assoc, List.cons_append, List.nil_append]
  exact ⟨_, rfl⟩

theorem DesignRules.not_moved (o : DesignRules) (i k : Nat) (nl : Bool) (hk : 0 < k) (h : ShiftedM k (o.toSexpr i nl) (o.toSexpr (i + k) nl))
    (hs : ∃ s, o.toSexpr i nl = .ok s) : o.Movable := by
  unfold DesignRules.Movable
  obtain ⟨s, hs⟩ := hs
  cases hl : o.rules with
  | nil => rfl
  | cons l ls =>
    obtain ⟨s', hs', h⟩ := h.both hs
    obtain ⟨r, rfl⟩ := DesignRules.begins hs hl
    obtain ⟨r', rfl⟩ := DesignRules.begins hs' hl
    next_line h
    next_line h
    have := h.blanks (by decide) (by decide) (by decide)
    omega

/-- Text, blanks and more text within a line: the blanks in between cannot be moved. -/
theorem Shifted.gap {k i n m : Nat} {p y y' : Str} {c d : Char}
    (h : Shifted k (indents i ++ (p ++ (indents n ++ c :: y))) (indents (i + k) ++ (p ++ (indents m ++ d :: y'))))
    (hp : OneLine p) {e : Char} (he : e ∈ p) (hb : e ≠ ' ') (hc : c ≠ ' ') (hn : c ≠ '\n') (hd : d ≠ ' ') : m = n := by
  obtain ⟨z, hz⟩ := Shifted.begins (p := indents i ++ (p ++ (indents n ++ [c]))) (y := y) (by simpa using h)
    (indents_oneLine.append (hp.append (indents_oneLine.append (.cons hn .nil)))) (List.mem_append_right _ (List.mem_append_left _ he)) hb
  rw [Nat.add_comm i k, indents_add k i] at hz
  simp only [List.append_assoc] at hz
  exact blanks_eq hd hc (List.append_cancel_left (List.append_cancel_left (List.append_cancel_left hz)))

theorem ColorRGBA.oneLine {o : ColorRGBA} (ho : Only OneLine o) : OneLine o.toSexpr := by
  unfold ColorRGBA.toSexpr
  have hR := Val.pyStr_oneLine (ColorRGBA.R_only ho)
  have hG := Val.pyStr_oneLine (ColorRGBA.G_only ho)
  have hB := Val.pyStr_oneLine (ColorRGBA.B_only ho)
  have hA := ColorRGBA.A_only ho
  refine .append indents_oneLine (.cons (by decide) (.append (.lit rfl) (.cons (by decide) (.append hR (.cons (by decide) (.append hG
    (.cons (by decide) (.append hB (.cons (by decide) (.append ?_ (.cons (by decide) .nil)))))))))))
  split
  · exact fmtFixedVal_oneLine hA
  · exact Val.pyStr_oneLine hA

/-- The first line of a junction up to the color. -/
def Junction.lead (o : Junction) (c : Str) : Str :=
  py!"(junction (at {o.position.X.pyStr} {o.position.Y.pyStr}) (diameter {o.diameter.pyStr}) {c}"

theorem Junction.not_moved (o : Junction) (i k : Nat) (nl : Bool) (ho : Only OneLine o) (hk : 0 < k) (h : ShiftedM k (o.toSexpr i nl) (o.toSexpr (i + k) nl))
    (hs : ∃ s, o.toSexpr i nl = .ok s) : o.Movable := by
  unfold Junction.Movable
  intro hu
  obtain ⟨s, hs⟩ := hs
  obtain ⟨s', hs', h⟩ := h.both hs
  unfold Junction.toSexpr at hs hs'
  obtain ⟨c, hc, hs⟩ := split_ok hs
  obtain ⟨c', hc', hs'⟩ := split_ok hs'
  rw [hc] at hc'
  cases hc'
  cases hs
  cases hs'
  rw [hu] at h
  have hl : OneLine (o.lead c) := by
    have hP := Junction.position_only ho
    have hX := Val.pyStr_oneLine (Position.X_only hP)
    have hY := Val.pyStr_oneLine (Position.Y_only hP)
    have hD := Val.pyStr_oneLine (Junction.diameter_only ho)
    have hC := Junction.color_only ho
    refine .cons (by decide) (.append (.lit rfl) (.cons (by decide) (.cons (by decide) (.append (.lit rfl) (.cons (by decide) (.append hX
      (.cons (by decide) (.append hY (.cons (by decide) (.cons (by decide) (.cons (by decide) (.append (.lit rfl) (.cons (by decide)
      (.append hD (.cons (by decide) (.cons (by decide) ?_))))))))))))))))
    cases ho' : o.color with
    | raw v => rw [ho'] at hc; cases hc
    | rgba r => rw [ho'] at hc hC; cases hc; exact ColorRGBA.oneLine (JunctionColor.rgba_case hC)
  have := Shifted.gap (p := o.lead c) (n := i) (m := i + k) (c := ')') (d := ')') (y := endl nl) (y' := endl nl)
    (by simpa only [Junction.lead, optS, List.append_assoc, List.cons_append, List.nil_append] using h) hl (List.mem_cons_self ..) (by decide) (by decide) (by decide) (by decide)
  omega

/-- The text of a point of a polygon behind its indentation. -/
def Position.shown (p : Position) : Str := py!"    (xy {p.X.pyStr} {p.Y.pyStr})"

theorem RenderCachePolygon.not_moved (o : RenderCachePolygon) (i k : Nat) (nl : Bool) (ho : Only OneLine o) (hk : 0 < k)
    (h : Shifted k (o.toSexpr i nl) (o.toSexpr (i + k) nl)) : o.Movable := by
  obtain ⟨pts⟩ := o
  match pts with
  | [] => exact Nat.zero_le _
  | [_] => exact Nat.le_refl _
  | a :: b :: r =>
    exfalso
    have ho := (RenderCachePolygon.pts_only ho).head
    unfold RenderCachePolygon.toSexpr at h
    simp only [List.zipIdx_cons, forS, List.flatMap_cons, ifS, Nat.zero_mod, beq_self_eq_true, if_true, List.append_assoc, List.cons_append, List.nil_append,
      Nat.reduceMod, Nat.reduceAdd, Nat.reduceBEq, Bool.false_eq_true, if_false] at h
    next_line h
    next_line h
    have hl : OneLine a.shown := by
      have hX := Val.pyStr_oneLine (Position.X_only ho)
      have hY := Val.pyStr_oneLine (Position.Y_only ho)
      exact .cons (by decide) (.cons (by decide) (.cons (by decide) (.cons (by decide) (.cons (by decide) (.append (.lit rfl) (.cons (by decide)
        (.append hX (.cons (by decide) (.append hY (.cons (by decide) .nil))))))))))
    have := Shifted.gap (k := k) (i := i) (p := a.shown) (n := i + 4) (m := i + k + 4) (c := '(') (d := '(')
      (by
        rw [indents_add i 4, indents_add (i + k) 4]
        simp only [Position.shown, List.append_assoc, List.cons_append, List.nil_append]
        exact h) hl (e := '(') (by unfold Position.shown; simp) (by decide) (by decide) (by decide) (by decide)
    omega

theorem RenderCachePolygon.feeds (o : RenderCachePolygon) (i j : Nat) (nl : Bool) : feeds (o.toSexpr i nl) = feeds (o.toSexpr j nl) := by
  unfold RenderCachePolygon.toSexpr
  simp only [feeds_append, feeds_cons, feeds_indents]
  rw [feeds_forS (f' := fun p => py!"{ifS (p.2 % 4 == 0) ['\n']}{indents j}    (xy {p.1.X.pyStr} {p.1.Y.pyStr})") (fun a _ => by
    simp only [feeds_append, feeds_cons, feeds_indents])]

theorem RenderCachePolygon.feedEnd (o : RenderCachePolygon) (i : Nat) : FeedEnd (o.toSexpr i true) := by
  unfold RenderCachePolygon.toSexpr
  feed_end

theorem RenderCache.not_moved (o : RenderCache) (i k : Nat) (nl : Bool) (ho : Only OneLine o) (hk : 0 < k)
    (h : Shifted k (o.toSexpr i nl) (o.toSexpr (i + k) nl)) : o.Movable := by
  unfold RenderCache.toSexpr at h
  simp only [List.append_assoc, List.cons_append, List.nil_append] at h
  next_line h
  rw [Nat.add_right_comm] at h
  have := (h.items fun a _ => ⟨a.feedEnd _, a.feedEnd _, a.feeds _ _ _⟩).1
  exact fun p hp => p.not_moved (i + 2) k true ((RenderCache.polygons_only ho).mem hp) hk (this p hp)

theorem RenderCache.rows (o : RenderCache) (i j : Nat) : Rows (o.toSexpr i true) (o.toSexpr j true) := by
  refine .inr ⟨by unfold RenderCache.toSexpr; feed_end, by unfold RenderCache.toSexpr; feed_end, ?_⟩
  unfold RenderCache.toSexpr
  simp only [feeds_append, feeds_cons, feeds_indents]
  rw [feeds_forS (f' := fun p => p.toSexpr (j + 2)) fun p _ => p.feeds ..]

theorem Effects.feedEnd (o : Effects) (i : Nat) : FeedEnd (o.toSexpr i true) := by unfold Effects.toSexpr; feed_end

theorem GrText.not_moved (o : GrText) (i k : Nat) (nl : Bool) (ho : Only OneLine o) (hk : 0 < k)
    (h : Shifted k (o.toSexpr i nl) (o.toSexpr (i + k) nl)) : o.Movable := by
  intro c hc
  unfold GrText.toSexpr at h
  rw [hc] at h
  simp only [List.append_assoc, List.cons_append, List.nil_append] at h
  next_line h
  replace h := (h.within.indents.char.char).closed (o.effects.feedEnd 0) (o.effects.feedEnd 0) rfl
  rw [Nat.add_right_comm] at h
  exact c.not_moved (i + 2) k true (hc ▸ GrText.renderCache_only ho).some hk (Shifted.head h (c.rows ..))

theorem FpText.not_moved (o : FpText) (i k : Nat) (nl : Bool) (ho : Only OneLine o) (hk : 0 < k)
    (h : Shifted k (o.toSexpr i nl) (o.toSexpr (i + k) nl)) : o.Movable := by
  intro c hc
  unfold FpText.toSexpr at h
  rw [hc] at h
  simp only [List.append_assoc, List.cons_append, List.nil_append] at h
  next_line h
  replace h := (h.within.indents.char.char).closed (o.effects.feedEnd 0) (o.effects.feedEnd 0) rfl
  replace h := h.part (.optS fun t _ => .inr ⟨by feed_end, by feed_end, by simp only [feeds_append, feeds_cons, feeds_indents]⟩)
  rw [Nat.add_right_comm] at h
  exact c.not_moved (i + 2) k true (hc ▸ FpText.renderCache_only ho).some hk (Shifted.head h (c.rows ..))

theorem WksShape.rows (w : Str) (o : WksShape) (i j : Nat) : Rows (o.toSexpr w i) (o.toSexpr w j) := by
  refine .inr ⟨by unfold WksShape.toSexpr; feed_end, by unfold WksShape.toSexpr; feed_end, ?_⟩
  unfold WksShape.toSexpr
  simp only [feeds_append, feeds_cons, feeds_indents]
theorem TbText.rows (o : TbText) (i j : Nat) : Rows (o.toSexpr i) (o.toSexpr j) := by
  refine .inr ⟨by unfold TbText.toSexpr; feed_end, by unfold TbText.toSexpr; feed_end, ?_⟩
  unfold TbText.toSexpr
  simp only [feeds_append, feeds_cons, feeds_indents]
theorem Bitmap.rows (o : Bitmap) (i j : Nat) : Rows (o.toSexpr i) (o.toSexpr j) := by
  refine .inr ⟨by unfold Bitmap.toSexpr; feed_end, by unfold Bitmap.toSexpr; feed_end, ?_⟩
  unfold Bitmap.toSexpr
  simp only [feeds_append, feeds_cons, feeds_indents]
  rw [feeds_forS (f' := fun d => py!"{indents j}  (data \"{d.pyStr}\")\n") fun p _ => by simp only [feeds_append, feeds_cons, feeds_indents]]
theorem WksItem.rows (o : WksItem) (i j : Nat) {t t' : Str} (h : o.toSexpr i = .ok t) (h' : o.toSexpr j = .ok t') : Rows t t' := by
  cases o <;> cases h <;> cases h'
  · exact WksShape.rows ..
  · exact WksShape.rows ..
  · exact Bitmap.rows ..
  · exact TbText.rows ..

theorem WorkSheet.not_moved (o : WorkSheet) (i k : Nat) (nl : Bool) (hk : 0 < k) (h : ShiftedM k (o.toSexpr i nl) (o.toSexpr (i + k) nl))
    (hs : ∃ s, o.toSexpr i nl = .ok s) : o.Movable := by
  obtain ⟨s, hs⟩ := hs
  obtain ⟨s', hs', h⟩ := h.both hs
  unfold WorkSheet.toSexpr at hs hs'
  obtain ⟨c, hc, hs⟩ := split_ok hs
  obtain ⟨c', hc', hs'⟩ := split_ok hs'
  cases hs
  cases hs'
  simp only [List.append_assoc, List.cons_append, List.nil_append] at h
  next_line h
  replace h := h.part (s := o.setup.toSexpr (i + 2)) (.inr ⟨by unfold Setup.toSexpr; feed_end, by unfold Setup.toSexpr; feed_end, by
    unfold Setup.toSexpr; simp only [feeds_append, feeds_cons, feeds_indents]⟩)
  have := (forSM_each hc hc' (fun a _ t t' => a.rows _ _) h).1
  intro a ha
  obtain ⟨t, t', ht, ht', h⟩ := this a ha
  rw [Nat.add_right_comm] at ht'
  cases a with
  | line o => cases ht; cases ht'; exact WksShape.not_moved _ o _ k true hk h
  | rect o => cases ht; cases ht'; exact WksShape.not_moved _ o _ k true hk h
  | polygon => trivial
  | bitmap o => cases ht; cases ht'; exact Bitmap.not_moved o _ k true hk h
  | tbtext o => cases ht; cases ht'; exact TbText.not_moved o _ k true hk h

theorem GrTextBox.not_moved (o : GrTextBox) (i k : Nat) (nl : Bool) (ho : Only OneLine o) (hk : 0 < k) (h : ShiftedM k (o.toSexpr i nl) (o.toSexpr (i + k) nl))
    (hs : ∃ s, o.toSexpr i nl = .ok s) : o.Movable := by
  intro c hc
  obtain ⟨s, hs⟩ := hs
  obtain ⟨s', hs', h⟩ := h.both hs
  have hE := GrTextBox.effects_only ho
  have hS := GrTextBox.stroke_only ho
  have hC := (hc ▸ GrTextBox.renderCache_only ho).some
  unfold GrTextBox.toSexpr at hs hs'
  split at hs
  · cases hs
  split at hs
  · cases hs
  rename_i h1 h2
  rw [if_neg h1, if_neg h2] at hs'
  cases hs
  cases hs'
  rw [hc] at h
  simp only [List.append_assoc, List.cons_append, List.nil_append] at h
  next_line h
  replace h := h.part (by
    split
    · exact .inr ⟨by feed_end, by feed_end, by simp only [feeds_append, feeds_cons, feeds_indents]⟩
    · exact .nil)
  next_line h
  rw [Nat.add_right_comm] at h
  replace h := h.part (.optS fun e he => .of_shifted (C72_Effects e (i + 2) k true (he ▸ hE).some) (e.feedEnd _) (e.feedEnd _))
  replace h := h.part (.optS fun e he => .of_shifted (C72_Stroke e (i + 2) k true (he ▸ hS).some) ⟨_, C73_Stroke ..⟩ ⟨_, C73_Stroke ..⟩)
  exact c.not_moved (i + 2) k true hC hk (Shifted.head h (c.rows ..))

theorem FpTextBox.not_moved (o : FpTextBox) (i k : Nat) (nl : Bool) (ho : Only OneLine o) (hk : 0 < k) (h : ShiftedM k (o.toSexpr i nl) (o.toSexpr (i + k) nl))
    (hs : ∃ s, o.toSexpr i nl = .ok s) : o.Movable := by
  intro c hc
  obtain ⟨s, hs⟩ := hs
  obtain ⟨s', hs', h⟩ := h.both hs
  have hE := FpTextBox.effects_only ho
  have hS := FpTextBox.stroke_only ho
  have hC := (hc ▸ FpTextBox.renderCache_only ho).some
  unfold FpTextBox.toSexpr at hs hs'
  split at hs
  · cases hs
  split at hs
  · cases hs
  rename_i h1 h2
  rw [if_neg h1, if_neg h2] at hs'
  cases hs
  cases hs'
  rw [hc] at h
  simp only [List.append_assoc, List.cons_append, List.nil_append] at h
  next_line h
  replace h := h.part (by
    split
    · exact .inr ⟨by feed_end, by feed_end, by simp only [feeds_append, feeds_cons, feeds_indents]⟩
    · exact .nil)
  next_line h
  rw [Nat.add_right_comm] at h
  replace h := h.part (.optS fun e he => .of_shifted (C72_Effects e (i + 2) k true (he ▸ hE).some) (e.feedEnd _) (e.feedEnd _))
  replace h := h.part (.optS fun e he => .of_shifted (C72_Stroke e (i + 2) k true (he ▸ hS).some) ⟨_, C73_Stroke ..⟩ ⟨_, C73_Stroke ..⟩)
  exact c.not_moved (i + 2) k true hC hk (Shifted.head h (c.rows ..))

theorem GrText.rows (o : GrText) (i j : Nat) : Rows (o.toSexpr i true) (o.toSexpr j true) := by
  refine .inr ⟨by unfold GrText.toSexpr; feed_end, by unfold GrText.toSexpr; feed_end, ?_⟩
  unfold GrText.toSexpr
  simp only [feeds_append, feeds_cons, feeds_indents]
  cases o.renderCache with
  | none => rfl
  | some c => simp only [optS]; rcases c.rows (i + 2) (j + 2) with ⟨h, h'⟩ | ⟨_, _, h⟩
              · rw [h, h']
              · rw [h]

theorem Dimension.not_moved (o : Dimension) (i k : Nat) (nl : Bool) (ho : Only OneLine o) (hk : 0 < k) (h : ShiftedM k (o.toSexpr i nl) (o.toSexpr (i + k) nl))
    (hs : ∃ s, o.toSexpr i nl = .ok s) : o.Movable := by
  intro t ht
  obtain ⟨s, hs⟩ := hs
  obtain ⟨s', hs', h⟩ := h.both hs
  have hT := (ht ▸ Dimension.grText_only ho).some
  unfold Dimension.toSexpr at hs hs'
  simp only at hs hs'
  split at hs
  · cases hs
  rename_i h1
  rw [if_neg h1] at hs'
  cases hs
  cases hs'
  rw [ht] at h
  simp only [List.append_assoc, List.cons_append, List.nil_append] at h
  next_line h
  next_line h
  iterate 3
    replace h := h.part (.optS fun t _ => .inr ⟨by feed_end, by feed_end, by simp only [feeds_append, feeds_cons, feeds_indents]⟩)
  rw [Nat.add_right_comm] at h
  exact t.not_moved (i + 2) k true hT hk (Shifted.head h (t.rows ..))

theorem ZonePolygon.feedEnd (o : ZonePolygon) (i : Nat) : FeedEnd (o.toSexpr i true) := by
  unfold ZonePolygon.toSexpr
  split <;> feed_end
theorem FilledPolygon.feedEnd (o : FilledPolygon) (i : Nat) : FeedEnd (o.toSexpr i true) := by
  unfold FilledPolygon.toSexpr
  split <;> feed_end

theorem Zone.not_moved (o : Zone) (i k : Nat) (nl : Bool) (ho : Only OneLine o) (hk : 0 < k) (h : ShiftedM k (o.toSexpr i nl) (o.toSexpr (i + k) nl))
    (hs : ∃ s, o.toSexpr i nl = .ok s) : o.Movable := by
  intro t ht
  obtain ⟨s, hs⟩ := hs
  obtain ⟨s', hs', h⟩ := h.both hs
  have hF := Zone.fillSettings_only ho
  have hP := Zone.polygons_only ho
  have hQ := Zone.filledPolygons_only ho
  unfold Zone.toSexpr at hs hs'
  obtain ⟨c, hc, hs⟩ := split_ok hs
  obtain ⟨c', hc', hs'⟩ := split_ok hs'
  rw [hc] at hc'
  cases hc'
  cases hs
  cases hs'
  rw [ht] at h
  simp only [List.append_assoc, List.cons_append, List.nil_append] at h
  next_line h
  replace h := h.part (.optS fun t _ => .inr ⟨by feed_end, by feed_end, by simp only [feeds_append, feeds_cons, feeds_indents]⟩)
  next_line h
  next_line h
  replace h := h.part (.optS fun t _ => .inr ⟨by feed_end, by feed_end, by simp only [feeds_append, feeds_cons, feeds_indents]⟩)
  rw [Nat.add_right_comm] at h
  replace h := h.part (.optS fun e he => .of_shifted (C72_FillSettings e (i + 2) k true (he ▸ hF).some) ⟨_, C73_FillSettings ..⟩ ⟨_, C73_FillSettings ..⟩)
  replace h := h.part (.forS fun e he => .of_shifted (C72_ZonePolygon e (i + 2) k true (hP.mem he)) (e.feedEnd _) (e.feedEnd _))
  replace h := h.part (.forS fun e he => .of_shifted (C72_FilledPolygon e (i + 2) k true (hQ.mem he)) (e.feedEnd _) (e.feedEnd _))
  cases hcs : t.coordinates with
  | nil => rfl
  | cons p ps =>
    simp only [optS, FillSegments.toSexpr, hcs, List.isEmpty_cons, Bool.false_eq_true, if_false, List.append_assoc, List.cons_append, List.nil_append] at h
    have := Shifted.blanks (n := 4) (m := 4) h (by decide) (by decide) (by decide)
    omega

theorem FeedEnd.ofM {m m0 : PyM Str} (h : m = m0.map (· ++ ['\n'])) {t : Str} (ht : m = .ok t) : FeedEnd t := by
  rw [h] at ht
  cases m0 with
  | error e => cases ht
  | ok s => cases ht; exact ⟨s, rfl⟩
theorem Sh.feeds {k : Nat} {s s' : Str} (h : Sh k .start s .start s') : feeds s = feeds s' := (h.shifted (d := true)).feeds

theorem Junction.rows (o : Junction) (i j : Nat) {t t' : Str} (h : o.toSexpr i true = .ok t) (h' : o.toSexpr j true = .ok t') : Rows t t' := by
  refine .inr ⟨.ofM (C73_Junction ..) h, .ofM (C73_Junction ..) h', ?_⟩
  unfold Junction.toSexpr at h h'
  obtain ⟨c, hc, h⟩ := split_ok h
  obtain ⟨c', hc', h'⟩ := split_ok h'
  rw [hc] at hc'
  cases hc'
  cases h
  cases h'
  cases o.uuid <;> simp only [optS, feeds_append, feeds_cons, feeds_indents]

theorem ShM.both {k : Nat} {b d : Where} {m m' : PyM Str} (h : ShM k b m d m') {s s' : Str} (hs : m = .ok s) (hs' : m' = .ok s') : Sh k b s d s' := by
  rcases h with ⟨t, t', h1, h2, h⟩ | ⟨e, h1, _⟩
  · rw [hs] at h1; rw [hs'] at h2; cases h1; cases h2; exact h
  · rw [hs] at h1; cases h1

theorem Schematic.libs_shift {k : Nat} {o : Schematic} (ho : Only OneLine o) (n : Nat) : Sh k .start
      (if o.libSymbols.isEmpty then py!"{indents n}  (lib_symbols)\n"
        else py!"\n{indents n}  (lib_symbols" ++ (forS o.libSymbols fun s => py!"\n{s.toSexpr (n + 4)}") ++ py!"{indents n}  )\n") .start
      (if o.libSymbols.isEmpty then py!"{indents (n + k)}  (lib_symbols)\n"
        else py!"\n{indents (n + k)}  (lib_symbols" ++ (forS o.libSymbols fun s => py!"\n{s.toSexpr (n + k + 4)}") ++ py!"{indents (n + k)}  )\n") := by
    cases h : o.libSymbols with
    | nil => simp only [List.isEmpty_nil, if_true]; shifts
    | cons a r =>
      have hr : Only OneLine (a :: r) := h ▸ Schematic.libSymbols_only ho
      have := Sh.forSL (k := k) (f := fun s => s.toSexpr (n + 4)) (f' := fun s => s.toSexpr (n + k + 4)) hr fun x hx => Symbol.toSexpr_shift (nl := true) hx (by omega)
      simp only [List.isEmpty_cons, Bool.false_eq_true, if_false]
      shifts

theorem Schematic.not_moved (o : Schematic) (i k : Nat) (nl : Bool) (ho : Only OneLine o) (hk : 0 < k) (h : ShiftedM k (o.toSexpr i nl) (o.toSexpr (i + k) nl))
    (hs : ∃ s, o.toSexpr i nl = .ok s) : o.Movable := by
  obtain ⟨s, hs⟩ := hs
  obtain ⟨s', hs', h⟩ := h.both hs
  unfold Schematic.toSexpr at hs hs'
  obtain ⟨a, ha, hs⟩ := split_ok hs
  obtain ⟨a', ha', hs'⟩ := split_ok hs'
  obtain ⟨b, hb, hs⟩ := split_ok hs
  obtain ⟨b', hb', hs'⟩ := split_ok hs'
  obtain ⟨c, hc, hs⟩ := split_ok hs
  obtain ⟨c', hc', hs'⟩ := split_ok hs'
  obtain ⟨d, hd, hs⟩ := split_ok hs
  obtain ⟨d', hd', hs'⟩ := split_ok hs'
  obtain ⟨e, he, hs⟩ := split_ok hs
  obtain ⟨e', he', hs'⟩ := split_ok hs'
  simp only [pure, Except.pure, Except.ok.injEq] at hs hs'
  rw [← hs, ← hs'] at h
  clear hs hs'
  have hl := Schematic.libs_shift (k := k) ho i
  have sa : Sh k .start a .start a' := (PageSettings.toSexpr_shift (k := k) (newline := true) (Schematic.paper_only ho) (by omega)).both ha ha'
  simp only [List.append_assoc, List.cons_append, List.nil_append] at h
  next_line h
  replace h := h.within
  replace h := h.part (Sh.feeds (k := k) (by have := Schematic.uuid_only ho; shifts))
  replace h := h.part sa.feeds
  replace h := h.part (Sh.feeds (k := k) (by have := Schematic.titleBlock_only ho; shifts))
  replace h := h.part (by simpa only [List.append_assoc, List.cons_append, List.nil_append] using hl.feeds)
  have hj : ∀ j ∈ o.junctions, j.Movable := by
    cases ej : o.junctions with
    | nil => exact nofun
    | cons j js =>
      have hJ := Schematic.junctions_only ho
      rw [ej] at h hb hb' hJ
      have h' := Within.feed h
      intro x hx
      obtain ⟨t, t', ht, ht', h'⟩ := (forSM_each hb hb' (fun a _ t t' => a.rows _ _) h').1 x hx
      rw [Nat.add_right_comm] at ht'
      exact x.not_moved (i + 2) k true (hJ.mem hx) hk (by rw [ht, ht']; exact h') ⟨t, ht⟩
  have sb : Sh k .start b .start b' := (ShM.forSM (k := k) (b := .start) (Schematic.junctions_only ho) fun x hx hx' =>
    x.toSexpr_shift (k := k) (newline := true) hx' (hj x hx) (by omega)).both hb hb'
  replace h := h.part (s := ifS _ _) rfl
  replace h := h.part sb.feeds
  replace h := h.part (s := ifS _ _) rfl
  replace h := h.part (Sh.feeds (k := k) (by shifts))
  replace h := h.part (s := ifS _ _) rfl
  replace h := h.part (Sh.feeds (k := k) (by shifts))
  replace h := h.part (s := ifS _ _) rfl
  replace h := h.part (Sh.feeds (k := k) (by shifts))
  replace h := h.part (s := ifS _ _) rfl
  replace h := h.part (Sh.feeds (k := k) (by shifts))
  replace h := h.part (s := ifS _ _) rfl
  replace h := h.part (Sh.feeds (k := k) (by shifts))
  replace h := h.part (s := ifS _ _) rfl
  replace h := h.part (Sh.feeds (k := k) (by shifts))
  replace h := h.part (s := ifS _ _) rfl
  replace h := h.part (Sh.feeds (k := k) (by shifts))
  replace h := h.part (s := ifS _ _) rfl
  replace h := h.part (Sh.feeds (ShM.both (k := k) (by shifts) hc hc'))
  replace h := h.part (s := ifS _ _) rfl
  replace h := h.part (Sh.feeds (k := k) (by shifts))
  replace h := h.part (s := ifS _ _) rfl
  replace h := h.part (Sh.feeds (k := k) (by shifts))
  replace h := h.part (s := ifS _ _) rfl
  replace h := h.part (Sh.feeds (k := k) (by shifts))
  replace h := h.part (s := ifS _ _) rfl
  replace h := h.part (Sh.feeds (ShM.both (k := k) (by shifts) hd hd'))
  replace h := h.part (Sh.feeds (k := k) (by shifts))
  replace h := h.part (Sh.feeds (ShM.both (k := k) (by shifts) he he'))
  have hi : o.sheetInstances = [] := by
    cases hi : o.sheetInstances with
    | nil => rfl
    | cons x xs =>
      rw [hi] at h
      replace h := Within.feed h
      have := Shifted.blanks (n := 2) (m := 2) h (by decide) (by decide) (by decide)
      omega
  rw [hi] at h
  refine ⟨hj, hi, ?_⟩
  cases hy : o.symbolInstances with
  | nil => rfl
  | cons x xs =>
    rw [hy] at h
    replace h := Within.feed h
    have := Shifted.blanks (n := 2) (m := 2) h (by decide) (by decide) (by decide)
    omega

theorem feeds_cong {s s' t t' : Str} (h : feeds s = feeds s') (h' : feeds t = feeds t') : feeds (s ++ t) = feeds (s' ++ t') := by
  rw [feeds_append, feeds_append, h, h']
theorem feeds_optS {α : Type} {x : Option α} {f f' : α → Str} (h : ∀ a, x = some a → feeds (f a) = feeds (f' a)) : feeds (optS x f) = feeds (optS x f') := by
  cases x with
  | none => rfl
  | some a => exact h a rfl
theorem feeds_ifS {b : Bool} {s s' : Str} (h : feeds s = feeds s') : feeds (ifS b s) = feeds (ifS b s') := by
  cases b with
  | false => rfl
  | true => exact h
theorem Within.last {k : Nat} {s s' e e' f f' : Str} (h : Within k (s ++ e ++ f) (s' ++ e' ++ f')) (hs : feeds s = feeds s') : Within k (e ++ f) (e' ++ f') :=
  Within.part (by simpa only [List.append_assoc] using h) hs
theorem Rows.feeds {s s' : Str} (h : Rows s s') : feeds s = feeds s' := by
  rcases h with ⟨rfl, rfl⟩ | ⟨_, _, h⟩
  · rfl
  · exact h
theorem Sh.feedsI {k : Nat} {s s' : Str} (h : Sh k .start s .inside s') : Kiutils.feeds s = Kiutils.feeds s' := (h.shifted (d := false)).feeds

theorem GrTextBox.rows (o : GrTextBox) (i k : Nat) (ho : Only OneLine o) {t t' : Str} (h : o.toSexpr i true = .ok t) (h' : o.toSexpr (i + k) true = .ok t') : Rows t t' := by
  refine .inr ⟨.ofM (C73_GrTextBox ..) h, .ofM (C73_GrTextBox ..) h', ?_⟩
  unfold GrTextBox.toSexpr at h h'
  split at h
  · cases h
  split at h
  · cases h
  rename_i h1 h2
  rw [if_neg h1, if_neg h2] at h'
  cases h
  cases h'
  refine feeds_cong (feeds_cong (s := _ ++ _) (Sh.feeds (k := k) (by shifts)) (feeds_optS fun c _ => (c.rows ..).feeds)) ?_
  simp only [feeds_append, feeds_cons, feeds_indents]

theorem FpTextBox.rows (o : FpTextBox) (i k : Nat) (ho : Only OneLine o) {t t' : Str} (h : o.toSexpr i true = .ok t) (h' : o.toSexpr (i + k) true = .ok t') : Rows t t' := by
  refine .inr ⟨.ofM (C73_FpTextBox ..) h, .ofM (C73_FpTextBox ..) h', ?_⟩
  unfold FpTextBox.toSexpr at h h'
  split at h
  · cases h
  split at h
  · cases h
  rename_i h1 h2
  rw [if_neg h1, if_neg h2] at h'
  cases h
  cases h'
  refine feeds_cong (feeds_cong (s := _ ++ _) (Sh.feeds (k := k) (by shifts)) (feeds_optS fun c _ => (c.rows ..).feeds)) ?_
  simp only [feeds_append, feeds_cons, feeds_indents]

theorem FpText.rows (o : FpText) (i j : Nat) : Rows (o.toSexpr i true) (o.toSexpr j true) := by
  refine .inr ⟨⟨_, C73_FpText ..⟩, ⟨_, C73_FpText ..⟩, ?_⟩
  unfold FpText.toSexpr
  refine feeds_cong (feeds_cong (feeds_cong ?_ (feeds_optS fun c _ => ?_)) (feeds_optS fun c _ => (c.rows ..).feeds)) ?_ <;>
  simp only [feeds_append, feeds_cons, feeds_indents]

theorem Zone.rows (o : Zone) (i k : Nat) (ho : Only OneLine o) {t t' : Str} (h : o.toSexpr i true = .ok t) (h' : o.toSexpr (i + k) true = .ok t') : Rows t t' := by
  refine .inr ⟨.ofM (C73_Zone ..) h, .ofM (C73_Zone ..) h', ?_⟩
  unfold Zone.toSexpr at h h'
  obtain ⟨c, hc, h⟩ := split_ok h
  obtain ⟨c', hc', h'⟩ := split_ok h'
  rw [hc] at hc'
  cases hc'
  simp only [pure, Except.pure, Except.ok.injEq] at h h'
  rw [← h, ← h']
  refine feeds_cong (feeds_cong (feeds_cong (feeds_cong (feeds_cong (feeds_cong (feeds_cong (feeds_cong (feeds_cong ?_ ?_) ?_) ?_) ?_) ?_) ?_) ?_) rfl) ?_
  · simp only [feeds_append, feeds_cons, feeds_indents]
  · exact Sh.feeds (k := k) (by shifts)
  · simp only [feeds_append, feeds_cons, feeds_indents]
  · simp only [feeds_append, feeds_cons, feeds_indents]
  · exact Sh.feeds (k := k) (by shifts)
  · exact Sh.feeds (k := k) (by shifts)
  · exact Sh.feeds (k := k) (by shifts)
  · exact Sh.feeds (k := k) (by shifts)
  · simp only [feeds_append, feeds_cons, feeds_indents]

theorem GrItem.ends (o : GrItem) (i : Nat) (b : Bool) : o.toSexpr i true b = (o.toSexpr i false b).map (· ++ ['\n']) := by
  cases o with
  | textBox x => exact C73_GrTextBox x i
  | text x => exact congrArg Except.ok (C73_GrText x i)
  | line x => exact congrArg Except.ok (C73_GrLine x i)
  | rect x => exact congrArg Except.ok (C73_GrRect x i)
  | circle x => exact congrArg Except.ok (C73_GrCircle x i)
  | arc x => exact congrArg Except.ok (C73_GrArc x i)
  | poly x => exact congrArg Except.ok (C73_GrPoly x i b)
  | curve x => exact congrArg Except.ok (C73_GrCurve x i)
  | image x => exact congrArg Except.ok (C73_Image x i)

theorem Rows.moved {k : Nat} {m m' : PyM Str} (h : ShM k .start m .start m') {t t' : Str} (ht : m = .ok t) (ht' : m' = .ok t') (e : FeedEnd t) (e' : FeedEnd t') : Rows t t' :=
  .inr ⟨e, e', (h.both ht ht').feeds⟩

theorem GrItem.rows (o : GrItem) (i k : Nat) (b : Bool) (ho : Only OneLine o) {t t' : Str} (h : o.toSexpr i true b = .ok t) (h' : o.toSexpr (i + k) true b = .ok t') : Rows t t' := by
  have e := FeedEnd.ofM (o.ends ..) h
  have e' := FeedEnd.ofM (o.ends ..) h'
  cases o with
  | textBox x => exact x.rows i k (GrItem.textBox_case ho) h h'
  | text x => cases h; cases h'; exact x.rows _ _
  | line x => exact .moved (k := k) (GrItem.toSexpr_shift (newline := true) ho trivial rfl) h h' e e'
  | rect x => exact .moved (k := k) (GrItem.toSexpr_shift (newline := true) ho trivial rfl) h h' e e'
  | circle x => exact .moved (k := k) (GrItem.toSexpr_shift (newline := true) ho trivial rfl) h h' e e'
  | arc x => exact .moved (k := k) (GrItem.toSexpr_shift (newline := true) ho trivial rfl) h h' e e'
  | poly x => exact .moved (k := k) (GrItem.toSexpr_shift (newline := true) ho trivial rfl) h h' e e'
  | curve x => exact .moved (k := k) (GrItem.toSexpr_shift (newline := true) ho trivial rfl) h h' e e'
  | image x => exact .moved (k := k) (GrItem.toSexpr_shift (newline := true) ho trivial rfl) h h' e e'

theorem GrItem.not_moved (o : GrItem) (i k : Nat) (b : Bool) (ho : Only OneLine o) (hk : 0 < k) (h : ShiftedM k (o.toSexpr i true b) (o.toSexpr (i + k) true b))
    (hs : ∃ s, o.toSexpr i true b = .ok s) : o.Movable := by
  cases o with
  | textBox x => exact x.not_moved i k true (GrItem.textBox_case ho) hk h hs
  | text x => exact x.not_moved i k true (GrItem.text_case ho) hk h
  | line x => exact trivial
  | rect x => exact trivial
  | circle x => exact trivial
  | arc x => exact trivial
  | poly x => exact trivial
  | curve x => exact trivial
  | image x => exact trivial

theorem FpItem.ends (o : FpItem) (i : Nat) {t : Str} (h : o.toSexpr i = .ok t) : FeedEnd t := by
  cases o with
  | textBox x => exact .ofM (C73_FpTextBox x i) h
  | text x => cases h; exact ⟨_, C73_FpText x i⟩
  | line x => cases h; exact ⟨_, C73_FpLine x i⟩
  | rect x => cases h; exact ⟨_, C73_FpRect x i⟩
  | circle x => cases h; exact ⟨_, C73_FpCircle x i⟩
  | arc x => cases h; exact ⟨_, C73_FpArc x i⟩
  | poly x => cases h; exact ⟨_, C73_FpPoly x i⟩
  | curve x => cases h; exact ⟨_, C73_FpCurve x i⟩
  | image x => cases h; exact ⟨_, C73_Image x i⟩

theorem FpItem.rows (o : FpItem) (i k : Nat) (ho : Only OneLine o) {t t' : Str} (h : o.toSexpr i = .ok t) (h' : o.toSexpr (i + k) = .ok t') : Rows t t' := by
  have e := o.ends _ h
  have e' := o.ends _ h'
  cases o with
  | textBox x => exact x.rows i k (FpItem.textBox_case ho) h h'
  | text x => cases h; cases h'; exact x.rows _ _
  | line x => exact .moved (k := k) (FpItem.toSexpr_shift ho trivial rfl) h h' e e'
  | rect x => exact .moved (k := k) (FpItem.toSexpr_shift ho trivial rfl) h h' e e'
  | circle x => exact .moved (k := k) (FpItem.toSexpr_shift ho trivial rfl) h h' e e'
  | arc x => exact .moved (k := k) (FpItem.toSexpr_shift ho trivial rfl) h h' e e'
  | poly x => exact .moved (k := k) (FpItem.toSexpr_shift ho trivial rfl) h h' e e'
  | curve x => exact .moved (k := k) (FpItem.toSexpr_shift ho trivial rfl) h h' e e'
  | image x => exact .moved (k := k) (FpItem.toSexpr_shift ho trivial rfl) h h' e e'

theorem FpItem.not_moved (o : FpItem) (i k : Nat) (ho : Only OneLine o) (hk : 0 < k) (h : ShiftedM k (o.toSexpr i) (o.toSexpr (i + k)))
    (hs : ∃ s, o.toSexpr i = .ok s) : o.Movable := by
  cases o with
  | textBox x => exact x.not_moved i k true (FpItem.textBox_case ho) hk h hs
  | text x => exact x.not_moved i k true (FpItem.text_case ho) hk h
  | line x => exact trivial
  | rect x => exact trivial
  | circle x => exact trivial
  | arc x => exact trivial
  | poly x => exact trivial
  | curve x => exact trivial
  | image x => exact trivial

/-- A list whose items are written on lines of their own, each begun by a line feed. -/
theorem forSM_led {k : Nat} {α : Type} {l : List α} {f f' : α → PyM Str} {s s' x x' : Str}
    (hs : (forSM l fun a => do return '\n' :: (← f a)) = .ok s) (hs' : (forSM l fun a => do return '\n' :: (← f' a)) = .ok s')
    (hr : ∀ a ∈ l, ∀ t t', f a = .ok t → f' a = .ok t' → feeds t = feeds t') (h : Within k (s ++ '\n' :: x) (s' ++ '\n' :: x')) :
    ∀ a ∈ l, ∃ t t', f a = .ok t ∧ f' a = .ok t' ∧ Shifted k (t ++ ['\n']) (t' ++ ['\n']) := by
  have led : ∀ {l : List α} {f : α → PyM Str} {s : Str} (_ : (forSM l fun a => do return '\n' :: (← f a)) = .ok s) (x : Str), ∃ y, s ++ '\n' :: x = '\n' :: y := by
    intro l f s h x
    cases l with
    | nil => cases h; exact ⟨x, rfl⟩
    | cons a l =>
      obtain ⟨t, r, ht, _, rfl⟩ := forSM_cons_ok h
      obtain ⟨t, _, ht⟩ := split_ok ht
      cases ht
      exact ⟨_, rfl⟩
  induction l generalizing s s' with
  | nil => exact nofun
  | cons a l ih =>
    obtain ⟨t, r, ht, hr1, rfl⟩ := forSM_cons_ok hs
    obtain ⟨t', r', ht', hr2, rfl⟩ := forSM_cons_ok hs'
    obtain ⟨u, hu, ht⟩ := split_ok ht
    obtain ⟨u', hu', ht'⟩ := split_ok ht'
    cases ht
    cases ht'
    have e := hr a (List.mem_cons_self ..) u u' hu hu'
    intro b hb
    rcases List.mem_cons.1 hb with rfl | hb
    · refine ⟨u, u', hu, hu', ?_⟩
      obtain ⟨y, hy⟩ := led hr1 x
      obtain ⟨y', hy'⟩ := led hr2 x'
      rw [List.append_assoc, List.append_assoc, hy, hy'] at h
      exact h.feed.cut e
    · rw [List.append_assoc, List.append_assoc] at h
      exact ih hr1 hr2 (fun c hc => hr c (List.mem_cons_of_mem _ hc)) (h.part (by rw [feeds_cons, feeds_cons, e])) b hb

theorem forSM_feeds {α : Type} {l : List α} {f f' : α → PyM Str} {s s' : Str} (hs : forSM l f = .ok s) (hs' : forSM l f' = .ok s')
    (hr : ∀ a ∈ l, ∀ t t', f a = .ok t → f' a = .ok t' → feeds t = feeds t') : feeds s = feeds s' := by
  induction l generalizing s s' with
  | nil => cases hs; cases hs'; rfl
  | cons a l ih =>
    obtain ⟨t, r, ht, hr1, rfl⟩ := forSM_cons_ok hs
    obtain ⟨t', r', ht', hr2, rfl⟩ := forSM_cons_ok hs'
    exact feeds_cong (hr a (List.mem_cons_self ..) _ _ ht ht') (ih hr1 hr2 fun c hc => hr c (List.mem_cons_of_mem _ hc))

theorem GrItem.feeds_inner (o : GrItem) (i k : Nat) (b : Bool) (ho : Only OneLine o) {t t' : Str} (h : o.toSexpr i false b = .ok t) (h' : o.toSexpr (i + k) false b = .ok t') :
    feeds t = feeds t' := by
  have e := (o.rows i k b ho (t := t ++ ['\n']) (t' := t' ++ ['\n']) (by rw [o.ends, h]; rfl) (by rw [o.ends, h']; rfl)).feeds
  rw [feeds_append, feeds_append] at e
  exact Nat.add_right_cancel e

theorem Pad.rows (o : Pad) (i k : Nat) (ho : Only OneLine o) {t t' : Str} (h : o.toSexpr i true = .ok t) (h' : o.toSexpr (i + k) true = .ok t') : Rows t t' := by
  refine .inr ⟨.ofM (C73_Pad ..) h, .ofM (C73_Pad ..) h', ?_⟩
  have hp := Pad.customPadPrimitives_only ho
  unfold Pad.toSexpr at h h'
  obtain ⟨a, ha, h⟩ := split_ok h
  obtain ⟨a', ha', h'⟩ := split_ok h'
  rw [ha] at ha'
  cases ha'
  obtain ⟨p, hpr, h⟩ := split_ok h
  obtain ⟨p', hpr', h'⟩ := split_ok h'
  simp only [pure, Except.pure, Except.ok.injEq] at h h'
  rw [← h, ← h']
  have e : feeds p = feeds p' := forSM_feeds hpr hpr' fun x hx t t' ht ht' => by
    obtain ⟨u, hu, ht⟩ := split_ok ht
    obtain ⟨u', hu', ht'⟩ := split_ok ht'
    cases ht
    cases ht'
    rw [Nat.add_right_comm] at hu'
    rw [feeds_cons, feeds_cons, x.feeds_inner _ k _ (hp.mem hx) hu hu']
  refine feeds_cong (feeds_cong (feeds_cong (feeds_cong (feeds_cong (feeds_cong ?_ (feeds_ifS ?_)) (feeds_optS fun _ _ => ?_)) (feeds_ifS ?_)) (feeds_optS fun _ _ => ?_)) (feeds_ifS ?_)) rfl <;>
  simp only [feeds_append, feeds_cons, feeds_indents, e]

theorem Pad.not_moved (o : Pad) (i k : Nat) (nl : Bool) (ho : Only OneLine o) (hk : 0 < k) (h : ShiftedM k (o.toSexpr i nl) (o.toSexpr (i + k) nl))
    (hs : ∃ s, o.toSexpr i nl = .ok s) : o.Movable := by
  obtain ⟨s, hs⟩ := hs
  obtain ⟨s', hs', h⟩ := h.both hs
  have hp := Pad.customPadPrimitives_only ho
  unfold Pad.toSexpr at hs hs'
  obtain ⟨a, ha, hs⟩ := split_ok hs
  obtain ⟨a', ha', hs'⟩ := split_ok hs'
  rw [ha] at ha'
  cases ha'
  obtain ⟨p, hpr, hs⟩ := split_ok hs
  obtain ⟨p', hpr', hs'⟩ := split_ok hs'
  simp only [pure, Except.pure, Except.ok.injEq] at hs hs'
  rw [← hs, ← hs'] at h
  clear hs hs'
  replace h := h.within.last (feeds_cong (feeds_cong (feeds_cong (feeds_cong
    (by simp only [feeds_append, feeds_cons, feeds_indents]) (feeds_ifS (by simp only [feeds_append, feeds_cons, feeds_indents])))
    (feeds_optS fun _ _ => by simp only [feeds_append, feeds_cons, feeds_indents])) (feeds_ifS (by simp only [feeds_append, feeds_cons, feeds_indents])))
    (feeds_optS fun _ _ => by simp only [feeds_append, feeds_cons, feeds_indents]))
  intro x hx
  have he : (!o.customPadPrimitives.isEmpty) = true := by
    cases e : o.customPadPrimitives with
    | nil => rw [e] at hx; cases hx
    | cons _ _ => rfl
  simp only [he, ifS, if_true, List.append_assoc, List.cons_append, List.nil_append] at h
  replace h := h.feed.within
  replace h := h.indents.char.char.char.same
  obtain ⟨t, t', ht, ht', h⟩ := forSM_led hpr hpr' (fun x hx t t' ht ht' => x.feeds_inner (i + 4) k _ (hp.mem hx) ht (Nat.add_right_comm i k 4 ▸ ht')) h x hx
  rw [Nat.add_right_comm] at ht'
  exact x.not_moved (i + 4) k false (hp.mem hx) hk (by rw [x.ends, x.ends, ht, ht']; exact h) ⟨_, by rw [x.ends, ht]; rfl⟩

theorem Rows.ifS {b : Bool} {s s' : Str} (h : Rows s s') : Rows (ifS b s) (ifS b s') := by
  cases b with
  | false => exact .nil
  | true => exact h

/-- Whole lines, by the structure of the texts. -/
macro "whole_lines" : tactic => `(tactic| (
  repeat first
    | with_reducible assumption
    | with_reducible refine Rows.optS fun _ _ => ?_
    | with_reducible refine Rows.ifS ?_
    | with_reducible refine Rows.forS fun _ _ => ?_
    | exact .inr ⟨by feed_end, by feed_end, by simp only [if_true, Bool.false_eq_true, if_false, feeds_append, feeds_cons, feeds_indents]⟩))

theorem Attributes.rows (o : Attributes) (i j : Nat) : Rows (o.toSexpr i true) (o.toSexpr j true) := by
  unfold Attributes.toSexpr
  split
  · exact .nil
  · exact .inr ⟨by feed_end, by feed_end, by simp only [feeds_append, feeds_cons, feeds_indents]⟩

theorem Shifted.right4 {k : Nat} {a b c d e f g a' b' c' d' e' f' g' : Str} (h : Shifted k (a ++ b ++ c ++ d ++ e ++ f ++ g) (a' ++ b' ++ c' ++ d' ++ e' ++ f' ++ g')) :
    Shifted k (a ++ (b ++ (c ++ (d ++ (e ++ f ++ g))))) (a' ++ (b' ++ (c' ++ (d' ++ (e' ++ f' ++ g'))))) := by
  simpa only [List.append_assoc] using h

theorem Footprint.not_moved (o : Footprint) (i k : Nat) (nl b : Bool) (ho : Only OneLine o) (hk : 0 < k) (h : ShiftedM k (o.toSexpr i nl b) (o.toSexpr (i + k) nl b))
    (hs : ∃ s, o.toSexpr i nl b = .ok s) : o.Movable := by
  obtain ⟨s, hs⟩ := hs
  obtain ⟨s', hs', h⟩ := h.both hs
  have hg := Footprint.graphicItems_only ho
  have hp := Footprint.pads_only ho
  have hz := Footprint.zones_only ho
  unfold Footprint.toSexpr at hs hs'
  obtain ⟨g, hgs, hs⟩ := split_ok hs
  obtain ⟨g', hgs', hs'⟩ := split_ok hs'
  obtain ⟨p, hps, hs⟩ := split_ok hs
  obtain ⟨p', hps', hs'⟩ := split_ok hs'
  obtain ⟨z, hzs, hs⟩ := split_ok hs
  obtain ⟨z', hzs', hs'⟩ := split_ok hs'
  simp only [pure, Except.pure, Except.ok.injEq] at hs hs'
  rw [← hs, ← hs'] at h
  clear hs hs'
  have hh := h.right4
  clear h
  replace h := hh.part (by
    have ha := o.attributes.rows (i + 2) (i + k + 2)
    iterate 17 refine Rows.append ?_ ?_
    · (cases b <;> exact .inr ⟨by feed_end, by feed_end, by simp only [if_true, Bool.false_eq_true, if_false, feeds_append, feeds_cons, feeds_indents]⟩)
    all_goals whole_lines)
  clear hh
  obtain ⟨h1, h⟩ := forSM_each hgs hgs' (fun x hx t t' ht ht' => x.rows (i + 2) k (hg.mem hx) ht (Nat.add_right_comm i k 2 ▸ ht')) h
  obtain ⟨h2, h⟩ := forSM_each hps hps' (fun x hx t t' ht ht' => x.rows (i + 2) k (hp.mem hx) ht (Nat.add_right_comm i k 2 ▸ ht')) h
  obtain ⟨h3, h⟩ := forSM_each hzs hzs' (fun x hx t t' ht ht' => x.rows (i + 2) k (hz.mem hx) ht (Nat.add_right_comm i k 2 ▸ ht')) h
  refine ⟨fun x hx => ?_, fun x hx => ?_, fun x hx => ?_⟩
  · obtain ⟨t, t', ht, ht', h⟩ := h1 x hx
    rw [Nat.add_right_comm] at ht'
    exact x.not_moved (i + 2) k (hg.mem hx) hk (by rw [ht, ht']; exact h) ⟨t, ht⟩
  · obtain ⟨t, t', ht, ht', h⟩ := h2 x hx
    rw [Nat.add_right_comm] at ht'
    exact x.not_moved (i + 2) k true (hp.mem hx) hk (by rw [ht, ht']; exact h) ⟨t, ht⟩
  · obtain ⟨t, t', ht, ht', h⟩ := h3 x hx
    rw [Nat.add_right_comm] at ht'
    exact x.not_moved (i + 2) k true (hz.mem hx) hk (by rw [ht, ht']; exact h) ⟨t, ht⟩

theorem forSM_rows {α : Type} {l : List α} {f f' : α → PyM Str} {s s' : Str} (hs : forSM l f = .ok s) (hs' : forSM l f' = .ok s')
    (hr : ∀ a ∈ l, ∀ t t', f a = .ok t → f' a = .ok t' → Rows t t') : Rows s s' := by
  induction l generalizing s s' with
  | nil => cases hs; cases hs'; exact .nil
  | cons a l ih =>
    obtain ⟨t, r, ht, hr1, rfl⟩ := forSM_cons_ok hs
    obtain ⟨t', r', ht', hr2, rfl⟩ := forSM_cons_ok hs'
    exact .append (hr a (List.mem_cons_self ..) _ _ ht ht') (ih hr1 hr2 fun c hc => hr c (List.mem_cons_of_mem _ hc))

theorem Footprint.rows (o : Footprint) (i k : Nat) (b : Bool) (ho : Only OneLine o) {t t' : Str} (hs : o.toSexpr i true b = .ok t) (hs' : o.toSexpr (i + k) true b = .ok t') : Rows t t' := by
  have hg := Footprint.graphicItems_only ho
  have hp := Footprint.pads_only ho
  have hz := Footprint.zones_only ho
  unfold Footprint.toSexpr at hs hs'
  obtain ⟨g, hgs, hs⟩ := split_ok hs
  obtain ⟨g', hgs', hs'⟩ := split_ok hs'
  obtain ⟨p, hps, hs⟩ := split_ok hs
  obtain ⟨p', hps', hs'⟩ := split_ok hs'
  obtain ⟨z, hzs, hs⟩ := split_ok hs
  obtain ⟨z', hzs', hs'⟩ := split_ok hs'
  simp only [pure, Except.pure, Except.ok.injEq] at hs hs'
  rw [← hs, ← hs']
  clear hs hs'
  have ha := o.attributes.rows (i + 2) (i + k + 2)
  have rg := forSM_rows hgs hgs' (fun x hx t t' ht ht' => x.rows (i + 2) k (hg.mem hx) ht (Nat.add_right_comm i k 2 ▸ ht'))
  have rp := forSM_rows hps hps' (fun x hx t t' ht ht' => x.rows (i + 2) k (hp.mem hx) ht (Nat.add_right_comm i k 2 ▸ ht'))
  have rz := forSM_rows hzs hzs' (fun x hx t t' ht ht' => x.rows (i + 2) k (hz.mem hx) ht (Nat.add_right_comm i k 2 ▸ ht'))
  have rm : Rows (forS o.models fun x => x.toSexpr (i + 2)) (forS o.models fun x => x.toSexpr (i + k + 2)) := .forS fun x hx =>
    .of_shifted (Nat.add_right_comm i k 2 ▸ C72_Model x (i + 2) k true ((Footprint.models_only ho).mem hx)) ⟨_, C73_Model ..⟩ ⟨_, C73_Model ..⟩
  have rr : Rows (forS o.groups fun x => x.toSexpr (i + 2)) (forS o.groups fun x => x.toSexpr (i + k + 2)) := .forS fun x hx =>
    .of_shifted (Nat.add_right_comm i k 2 ▸ C72_Group x (i + 2) k true ((Footprint.groups_only ho).mem hx)) ⟨_, C73_Group ..⟩ ⟨_, C73_Group ..⟩
  iterate 23 refine Rows.append ?_ ?_
  · (cases b <;> exact .inr ⟨by feed_end, by feed_end, by simp only [if_true, Bool.false_eq_true, if_false, feeds_append, feeds_cons, feeds_indents]⟩)
  all_goals whole_lines

theorem Shifted.right11 {k : Nat} {a8 a9 a10 a11 a12 a13 a14 a15 a16 a17 a18 a19 a8' a9' a10' a11' a12' a13' a14' a15' a16' a17' a18' a19' : Str} (h : Shifted k (a8 ++ a9 ++ a10 ++ a11 ++ a12 ++ a13 ++ a14 ++ a15 ++ a16 ++ a17 ++ a18 ++ a19) (a8' ++ a9' ++ a10' ++ a11' ++ a12' ++ a13' ++ a14' ++ a15' ++ a16' ++ a17' ++ a18' ++ a19')) :
    Shifted k (a8 ++ (a9 ++ (a10 ++ (a11 ++ (a12 ++ (a13 ++ (a14 ++ (a15 ++ (a16 ++ (a17 ++ (a18 ++ a19))))))))))) (a8' ++ (a9' ++ (a10' ++ (a11' ++ (a12' ++ (a13' ++ (a14' ++ (a15' ++ (a16' ++ (a17' ++ (a18' ++ a19'))))))))))) := by
  simpa only [List.append_assoc] using h

theorem Dimension.rows (o : Dimension) (i k : Nat) (ho : Only OneLine o) {t t' : Str} (h : o.toSexpr i true = .ok t) (h' : o.toSexpr (i + k) true = .ok t') : Rows t t' := by
  refine .inr ⟨.ofM (C73_Dimension ..) h, .ofM (C73_Dimension ..) h', ?_⟩
  unfold Dimension.toSexpr at h h'
  simp only at h h'
  split at h
  · cases h
  rename_i h1
  rw [if_neg h1] at h'
  cases h
  cases h'
  refine feeds_cong (feeds_cong (feeds_cong (feeds_cong (s := _ ++ _) (Sh.feeds (k := k) (by shifts)) (feeds_optS fun c _ => (c.rows ..).feeds)) ?_) ?_) ?_
  · exact Sh.feeds (k := k) (by shifts)
  · exact Sh.feeds (k := k) (by shifts)
  · simp only [feeds_append, feeds_cons, feeds_indents]

theorem TraceItem.rows (o : TraceItem) (i k : Nat) (ho : Only OneLine o) : Rows (o.toSexpr i) (o.toSexpr (i + k)) := by
  cases o with
  | segment x => exact .of_shifted (C72_Segment x i k true (TraceItem.segment_case ho)) ⟨_, C73_Segment ..⟩ ⟨_, C73_Segment ..⟩
  | arc x => exact .of_shifted (C72_TraceArc x i k true (TraceItem.arc_case ho)) ⟨_, C73_TraceArc ..⟩ ⟨_, C73_TraceArc ..⟩
  | via x => exact .of_shifted (C72_Via x i k true (TraceItem.via_case ho)) ⟨_, C73_Via ..⟩ ⟨_, C73_Via ..⟩

theorem Board.not_moved (o : Board) (i k : Nat) (nl : Bool) (ho : Only OneLine o) (hk : 0 < k) (h : ShiftedM k (o.toSexpr i nl) (o.toSexpr (i + k) nl))
    (hs : ∃ s, o.toSexpr i nl = .ok s) : o.Movable := by
  obtain ⟨s, hs⟩ := hs
  obtain ⟨s', hs', h⟩ := h.both hs
  have hf := Board.footprints_only ho
  have hg := Board.graphicItems_only ho
  have hd := Board.dimensions_only ho
  have hz := Board.zones_only ho
  unfold Board.toSexpr at hs hs'
  obtain ⟨p0, ps, hs⟩ := split_ok hs
  obtain ⟨p0', ps', hs'⟩ := split_ok hs'
  obtain ⟨s0, ss, hs⟩ := split_ok hs
  obtain ⟨s0', ss', hs'⟩ := split_ok hs'
  obtain ⟨f0, fs, hs⟩ := split_ok hs
  obtain ⟨f0', fs', hs'⟩ := split_ok hs'
  obtain ⟨g0, gs, hs⟩ := split_ok hs
  obtain ⟨g0', gs', hs'⟩ := split_ok hs'
  obtain ⟨d0, ds, hs⟩ := split_ok hs
  obtain ⟨d0', ds', hs'⟩ := split_ok hs'
  obtain ⟨z0, zs, hs⟩ := split_ok hs
  obtain ⟨z0', zs', hs'⟩ := split_ok hs'
  simp only [pure, Except.pure, Except.ok.injEq] at hs hs'
  rw [← hs, ← hs'] at h
  clear hs hs'
  replace h := h.right11
  have sp : Sh k .start p0 .start p0' := (PageSettings.toSexpr_shift (k := k) (newline := true) (Board.paper_only ho) (by omega)).both ps ps'
  have ss : Sh k .start s0 .start s0' := (SetupData.toSexpr_shift (k := k) (newline := true) (Board.setup_only ho) (by omega)).both ss ss'
  replace h := h.part (.inr ⟨by feed_end, by feed_end, Sh.feeds (k := k) (by shifts)⟩)
  have hp : o.properties = [] := by
    cases hp : o.properties with
    | nil => rfl
    | cons x xs =>
      simp only [hp, List.isEmpty_cons, Bool.not_false, ifS, if_true, forS, List.flatMap_cons, List.append_assoc, List.cons_append] at h
      have := Shifted.blanks (n := 2) (m := 2) h (by decide) (by decide) (by decide)
      omega
  simp only [hp, List.isEmpty_nil, Bool.not_true, ifS, Bool.false_eq_true, if_false, List.nil_append] at h
  replace h := h.part (s := ite _ _ _) (by
    split
    · exact .inr ⟨by feed_end, by feed_end, feeds_cong (feeds_forS fun x hx => Sh.feeds (k := k) (by have := (Board.nets_only ho).mem hx; shifts)) rfl⟩
    · exact .nil)
  obtain ⟨h1, h⟩ := forSM_each fs fs' (fun x hx t t' ht ht' => by
    obtain ⟨u, hu, ht⟩ := split_ok ht
    obtain ⟨u', hu', ht'⟩ := split_ok ht'
    cases ht
    cases ht'
    rw [Nat.add_right_comm] at hu'
    exact .inr ⟨by feed_end, by feed_end, feeds_cong (x.rows (i + 2) k true (hf.mem hx) hu hu').feeds rfl⟩) h
  obtain ⟨h2, h⟩ := forSM_each gs gs' (fun x hx t t' ht ht' => x.rows (i + 2) k true (hg.mem hx) ht (Nat.add_right_comm i k 2 ▸ ht')) h
  obtain ⟨h3, h⟩ := forSM_each ds ds' (fun x hx t t' ht ht' => x.rows (i + 2) k (hd.mem hx) ht (Nat.add_right_comm i k 2 ▸ ht')) h
  replace h := h.part (.forS fun x hx => .of_shifted (Nat.add_right_comm i k 2 ▸ C72_Target x (i + 2) k true ((Board.targets_only ho).mem hx)) ⟨_, C73_Target ..⟩ ⟨_, C73_Target ..⟩)
  replace h := h.part (s := ite _ _ _) (by
    split
    · exact .inr ⟨.nl, .nl, rfl⟩
    · exact .nil)
  replace h := h.part (s := ite _ _ _) (by
    split
    · exact .inr ⟨by feed_end, by feed_end, feeds_cong (feeds_forS fun x hx => (Nat.add_right_comm i k 2 ▸ x.rows (i + 2) k ((Board.traceItems_only ho).mem hx)).feeds) rfl⟩
    · exact .nil)
  obtain ⟨h4, h⟩ := forSM_each zs zs' (fun x hx t t' ht ht' => x.rows (i + 2) k (hz.mem hx) ht (Nat.add_right_comm i k 2 ▸ ht')) h
  refine ⟨fun x hx => ?_, fun x hx => ?_, fun x hx => ?_, fun x hx => ?_, hp⟩
  · obtain ⟨t, t', ht, ht', h⟩ := h1 x hx
    obtain ⟨u, hu, ht⟩ := split_ok ht
    obtain ⟨u', hu', ht'⟩ := split_ok ht'
    cases ht
    cases ht'
    rw [Nat.add_right_comm] at hu'
    exact x.not_moved (i + 2) k true true (hf.mem hx) hk (by rw [hu, hu']; exact h.head (x.rows (i + 2) k true (hf.mem hx) hu hu')) ⟨u, hu⟩
  · obtain ⟨t, t', ht, ht', h⟩ := h2 x hx
    rw [Nat.add_right_comm] at ht'
    exact x.not_moved (i + 2) k true (hg.mem hx) hk (by rw [ht, ht']; exact h) ⟨t, ht⟩
  · obtain ⟨t, t', ht, ht', h⟩ := h3 x hx
    rw [Nat.add_right_comm] at ht'
    exact x.not_moved (i + 2) k true (hd.mem hx) hk (by rw [ht, ht']; exact h) ⟨t, ht⟩
  · obtain ⟨t, t', ht, ht', h⟩ := h4 x hx
    rw [Nat.add_right_comm] at ht'
    exact x.not_moved (i + 2) k true (hz.mem hx) hk (by rw [ht, ht']; exact h) ⟨t, ht⟩

end Kiutils
