import Verif.Model.Board
import Verif.Model.Schematic
import Verif.Model.Symbol
import Verif.Model.Dru
import Verif.Model.Wks
import Verif.Model.Libraries
/-!
# Texts made of whole lines

Specification of C57 (`WholeLines`, `LinesOnly`), rules for it, and the proof that every item text ends a line.
-/
namespace Kiutils

/-- The text consists of whole lines: it is empty or ends with a line feed. -/
def WholeLines (s : Str) : Prop := s = [] ∨ ∃ t, s = t ++ ['\n']

/-- Editing a list that is saved by `save` changes only the text of the edited items: whatever the items before and behind an
edited stretch are, there are texts `pre` and `post` such that the saved text is always `pre`, then the texts `item a` of the items
`a` of the stretch one by one, then `post`. -/
def TextOnly {α : Type} (save : List α → PyM Str) (item : α → PyM Str) : Prop :=
  ∀ before behind : List α, ∃ pre post : Str, ∀ (stretch : List α) (s : Str), stretch ≠ [] → save (before ++ stretch ++ behind) = .ok s →
    ∃ ts : List Str, stretch.mapM item = .ok ts ∧ s = pre ++ ts.flatten ++ post

/-- Editing a list that is saved by `save` changes only the lines of the edited items: whatever the items before and behind an
edited stretch are, there are texts `pre` and `post` such that the saved text is always `pre`, then the texts `item a` of the items
`a` of the stretch one by one, then `post`; and all these texts but the last one are whole lines. -/
def LinesOnly {α : Type} (save : List α → PyM Str) (item : α → PyM Str) : Prop :=
  ∀ before behind : List α, ∃ pre post : Str, WholeLines pre ∧
    ∀ (stretch : List α) (s : Str), stretch ≠ [] → save (before ++ stretch ++ behind) = .ok s →
      ∃ ts : List Str, stretch.mapM item = .ok ts ∧ (∀ t ∈ ts, WholeLines t) ∧ s = pre ++ ts.flatten ++ post

/-! ## Rules -/

/-- The text ends a line. -/
def Ends (s : Str) : Prop := ∃ t, s = t ++ ['\n']

theorem Ends.whole {s : Str} (h : Ends s) : WholeLines s := .inr h
theorem Ends.nl : Ends ['\n'] := ⟨[], rfl⟩
theorem Ends.endl : Ends (endl true) := ⟨[], rfl⟩
theorem Ends.cons {c : Char} {s : Str} (h : Ends s) : Ends (c :: s) := by
  obtain ⟨t, rfl⟩ := h
  exact ⟨c :: t, rfl⟩
theorem Ends.append {a s : Str} (h : Ends s) : Ends (a ++ s) := by
  obtain ⟨t, rfl⟩ := h
  exact ⟨a ++ t, by simp⟩
theorem Ends.append_whole {a s : Str} (ha : Ends a) (h : WholeLines s) : Ends (a ++ s) := by
  rcases h with rfl | h
  · simpa using ha
  · exact .append h

theorem WholeLines.nil : WholeLines [] := .inl rfl
theorem WholeLines.append {a b : Str} (ha : WholeLines a) (hb : WholeLines b) : WholeLines (a ++ b) := by
  rcases hb with rfl | ⟨t, rfl⟩
  · simpa using ha
  · exact .inr ⟨a ++ t, by simp⟩
theorem WholeLines.append_ends {a b : Str} (hb : Ends b) : WholeLines (a ++ b) := .inr (Ends.append hb)
theorem WholeLines.forS {α : Type} {l : List α} {f : α → Str} (h : ∀ a, WholeLines (f a)) : WholeLines (forS l f) := by
  induction l with
  | nil => exact .nil
  | cons a l ih => rw [Kiutils.forS, List.flatMap_cons]; exact .append (h a) ih
theorem WholeLines.ifS {b : Bool} {s : Str} (h : WholeLines s) : WholeLines (ifS b s) := by
  cases b
  · exact .nil
  · exact h
theorem WholeLines.optS {α : Type} {x : Option α} {f : α → Str} (h : ∀ a, WholeLines (f a)) : WholeLines (optS x f) := by
  cases x
  · exact .nil
  · exact h _
theorem WholeLines.ite {c : Prop} [Decidable c] {a b : Str} (ha : WholeLines a) (hb : WholeLines b) : WholeLines (if c then a else b) := by
  split
  · exact ha
  · exact hb
theorem ite_cond (b : Bool) (d : Decidable (b = true)) (x y : Str) : @ite _ (b = true) d x y = bif b then x else y := by
  cases b <;> simp
theorem WholeLines.cond {c : Bool} {a b : Str} (ha : WholeLines a) (hb : WholeLines b) : WholeLines (bif c then a else b) := by
  cases c
  · exact hb
  · exact ha
theorem Ends.ite {c : Prop} [Decidable c] {a b : Str} (ha : Ends a) (hb : Ends b) : Ends (if c then a else b) := by
  split
  · exact ha
  · exact hb

/-- Whatever `m` returns is made of whole lines. -/
def EndsM (m : PyM Str) : Prop := ∀ s, m = .ok s → Ends s

theorem EndsM.ok {s : Str} (h : Ends s) : EndsM (.ok s) := fun _ e => by cases e; exact h
theorem EndsM.pure {s : Str} (h : Ends s) : EndsM (pure s) := .ok h
theorem EndsM.error {e : PyErr} : EndsM (.error e) := fun _ h => nomatch h
theorem EndsM.bind {α : Type} {m : PyM α} {k : α → PyM Str} (h : ∀ a, m = .ok a → EndsM (k a)) : EndsM (m >>= k) := by
  cases e : m with
  | error => exact .error
  | ok a => exact h a e
theorem EndsM.ite {c : Prop} [Decidable c] {a b : PyM Str} (ha : EndsM a) (hb : EndsM b) : EndsM (if c then a else b) := by
  split
  · exact ha
  · exact hb

theorem WholeLines.forSM {α : Type} {l : List α} {f : α → PyM Str} (h : ∀ a t, f a = .ok t → WholeLines t) {s : Str}
    (hs : forSM l f = .ok s) : WholeLines s := by
  induction l generalizing s with
  | nil => cases hs; exact .nil
  | cons a l ih =>
    rw [Kiutils.forSM] at hs
    cases ea : f a with
    | error => rw [ea] at hs; exact nomatch hs
    | ok x => cases el : Kiutils.forSM l f with
      | error => rw [ea, el] at hs; exact nomatch hs
      | ok y => rw [ea, el] at hs; cases hs; exact .append (h a x ea) (ih el)

/-- Proves `Ends s`, from the right end of `s`. -/
syntax "ends" : tactic
/-- Proves `WholeLines s`. -/
syntax "whole" : tactic
/-- Proves that an item is made of whole lines. -/
syntax "whole_item" : tactic
/-- Proves that an item ends a line; extended below for every class. -/
syntax "ends_item" : tactic
macro_rules
  | `(tactic| ends) => `(tactic| with_reducible (
    repeat first
      | exact Ends.nl
      | exact Ends.endl
      | apply Ends.cons
      | apply Ends.append
    all_goals first
      | done
      | assumption
      | ends_item
      | (apply Ends.ite <;> ends)
      | (split <;> ends)))
macro_rules
  | `(tactic| whole) => `(tactic| with_reducible first
    | exact WholeLines.nil
    | assumption
    | whole_item
    | (apply Ends.whole; ends)
    | (apply WholeLines.append <;> whole)
    | (apply WholeLines.forS; intro _; whole)
    | (apply WholeLines.optS; intro _; whole)
    | (apply WholeLines.ifS; whole)
    | (apply WholeLines.ite <;> whole)
    | (apply WholeLines.cond <;> whole))
macro_rules
  | `(tactic| ends_item) => `(tactic| fail)
macro_rules
  | `(tactic| whole_item) => `(tactic| fail)

/-- Both at once: `W` is what is said of the texts before `post`. -/
def EditOnly {α : Type} (W : Str → Prop) (save : List α → PyM Str) (item : α → PyM Str) : Prop :=
  ∀ before behind : List α, ∃ pre post : Str, W pre ∧
    ∀ (stretch : List α) (s : Str), stretch ≠ [] → save (before ++ stretch ++ behind) = .ok s →
      ∃ ts : List Str, stretch.mapM item = .ok ts ∧ (∀ t ∈ ts, W t) ∧ s = pre ++ ts.flatten ++ post

/-- What the rules need of `W`. -/
structure Closed (W : Str → Prop) : Prop where
  nil : W []
  append : ∀ {a b}, W a → W b → W (a ++ b)

theorem closed_whole : Closed WholeLines := ⟨.nil, .append⟩
theorem closed_true : Closed fun _ => True := ⟨trivial, fun _ _ => trivial⟩
theorem EditOnly.lines {α : Type} {save : List α → PyM Str} {item : α → PyM Str} (h : EditOnly WholeLines save item) : LinesOnly save item := h
theorem EditOnly.text {α : Type} {save : List α → PyM Str} {item : α → PyM Str} (h : EditOnly (fun _ => True) save item) :
    TextOnly save item := fun before behind => by
  obtain ⟨pre, post, -, h⟩ := h before behind
  exact ⟨pre, post, fun stretch s hne hs => by
    obtain ⟨ts, h1, -, h2⟩ := h stretch s hne hs
    exact ⟨ts, h1, h2⟩⟩

theorem Closed.forS {α : Type} {W : Str → Prop} (c : Closed W) {l : List α} {f : α → Str} (h : ∀ a, W (f a)) : W (Kiutils.forS l f) := by
  induction l with
  | nil => exact c.nil
  | cons a l ih => rw [Kiutils.forS, List.flatMap_cons]; exact c.append (h a) ih
theorem Closed.flatten {W : Str → Prop} (c : Closed W) {ts : List Str} (h : ∀ t ∈ ts, W t) : W ts.flatten := by
  induction ts with
  | nil => exact c.nil
  | cons a l ih => rw [List.flatten_cons]; exact c.append (h a (by simp)) (ih fun t ht => h t (by simp [ht]))

theorem EditOnly.bind {α β : Type} {W : Str → Prop} (c : Closed W) {m : PyM β} {w : β → List α → PyM Str} {item : α → PyM Str}
    (h : ∀ b, m = .ok b → EditOnly W (w b) item) : EditOnly W (fun l => m >>= fun b => w b l) item := by
  intro before behind
  cases e : m with
  | error => exact ⟨[], [], c.nil, fun _ _ _ h => nomatch h⟩
  | ok b => exact h b e before behind

theorem EditOnly.congr {α : Type} {W : Str → Prop} {save save' : List α → PyM Str} {item : α → PyM Str}
    (h : ∀ l, l ≠ [] → save l = save' l) (h' : EditOnly W save' item) : EditOnly W save item := by
  intro before behind
  obtain ⟨pre, post, hp, h'⟩ := h' before behind
  exact ⟨pre, post, hp, fun stretch s hne hs => h' stretch s hne ((h _ (by simp [hne])).symm.trans hs)⟩

theorem forS_append {α : Type} (a b : List α) (f : α → Str) : forS (a ++ b) f = forS a f ++ forS b f := List.flatMap_append

theorem mapM_ok {α : Type} (l : List α) (f : α → Str) : l.mapM (m := PyM) (fun a => .ok (f a)) = .ok (l.map f) := by
  induction l with
  | nil => rfl
  | cons a l ih => rw [List.mapM_cons, ih]; rfl

/-- The text of the list, between texts that do not depend on it. -/
theorem EditOnly.of_pure {α : Type} {W : Str → Prop} (c : Closed W) {w : List α → Str} {f : α → Str} {pre post : Str} (h : ∀ l, l ≠ [] → w l = pre ++ forS l f ++ post)
    (hp : W pre) (hf : ∀ a, W (f a)) : EditOnly W (fun l => .ok (w l)) (fun a => .ok (f a)) := by
  intro before behind
  refine ⟨pre ++ forS before f, forS behind f ++ post, c.append hp (c.forS hf), fun stretch s hne hs => ?_⟩
  have hne' : before ++ stretch ++ behind ≠ [] := by simp [hne]
  dsimp only at hs
  rw [h _ hne'] at hs
  cases hs
  refine ⟨stretch.map f, mapM_ok stretch f, fun t ht => ?_, ?_⟩
  · obtain ⟨a, -, rfl⟩ := List.mem_map.1 ht
    exact hf a
  · simp [forS, List.flatMap_def]

theorem forSM_mapM {α : Type} (l : List α) (f : α → PyM Str) : forSM l f = (l.mapM f).map List.flatten := by
  induction l with
  | nil => rfl
  | cons a l ih =>
    rw [forSM, List.mapM_cons, ih]
    cases f a with
    | error => rfl
    | ok x => cases l.mapM f <;> rfl

theorem mapM_append_ok {α : Type} {a b : List α} {f : α → PyM Str} {ts : List Str} (h : (a ++ b).mapM f = .ok ts) :
    ∃ xs ys, a.mapM f = .ok xs ∧ b.mapM f = .ok ys ∧ ts = xs ++ ys := by
  rw [List.mapM_append] at h
  cases ea : a.mapM f with
  | error => rw [ea] at h; exact nomatch h
  | ok xs => cases eb : b.mapM f with
    | error => rw [ea, eb] at h; exact nomatch h
    | ok ys => rw [ea, eb] at h; cases h; exact ⟨xs, ys, rfl, rfl, rfl⟩

theorem mapM_mem {α : Type} {l : List α} {f : α → PyM Str} {ts : List Str} (h : l.mapM f = .ok ts) {t : Str} (ht : t ∈ ts) :
    ∃ a ∈ l, f a = .ok t := by
  induction l generalizing ts with
  | nil => cases h; exact nomatch ht
  | cons a l ih =>
    rw [List.mapM_cons] at h
    cases ea : f a with
    | error => rw [ea] at h; exact nomatch h
    | ok x => cases el : l.mapM f with
      | error => rw [ea, el] at h; exact nomatch h
      | ok xs =>
        rw [ea, el] at h
        cases h
        rcases List.mem_cons.1 ht with rfl | ht
        · exact ⟨a, by simp, ea⟩
        · obtain ⟨b, hb, e⟩ := ih el ht
          exact ⟨b, by simp [hb], e⟩

/-- What is done with the text of the list: it is put between texts that do not depend on it. -/
def Puts {α : Type} (W : Str → Prop) (g : Str → List α → PyM Str) : Prop :=
  ∃ pre post, W pre ∧ ∀ t l s, l ≠ [] → g t l = .ok s → s = pre ++ t ++ post

theorem Puts.bind {α β : Type} {W : Str → Prop} (c : Closed W) {m : PyM β} {g : β → Str → List α → PyM Str} (h : ∀ b, m = .ok b → Puts W (g b)) :
    Puts W (fun t l => m >>= fun b => g b t l) := by
  cases e : m with
  | error => exact ⟨[], [], c.nil, fun _ _ _ _ h => nomatch h⟩
  | ok b => exact h b e

theorem Puts.ok {α : Type} {W : Str → Prop} {g : Str → List α → Str} {pre post : Str} (h : ∀ t l, l ≠ [] → g t l = pre ++ t ++ post) (hp : W pre) :
    Puts W (fun t l => .ok (g t l)) :=
  ⟨pre, post, hp, fun t l s hl hs => by cases hs; exact h t l hl⟩

theorem EditOnly.here {α : Type} {W : Str → Prop} (c : Closed W) {f : α → PyM Str} {g : Str → List α → PyM Str} (hg : Puts W g) (hf : ∀ a t, f a = .ok t → W t) :
    EditOnly W (fun l => forSM l f >>= fun t => g t l) f := by
  obtain ⟨pre, post, hp, hg⟩ := hg
  intro before behind
  cases e1 : before.mapM f with
  | error => exact ⟨[], [], c.nil, fun stretch s _ h => by
      dsimp only at h
      rw [forSM_mapM, List.append_assoc, List.mapM_append, e1] at h
      exact nomatch h⟩
  | ok t1 => cases e3 : behind.mapM f with
    | error => exact ⟨[], [], c.nil, fun stretch s _ h => by
        dsimp only at h
        rw [forSM_mapM] at h
        cases e : (before ++ stretch ++ behind).mapM f with
        | error => rw [e] at h; exact nomatch h
        | ok ts =>
          obtain ⟨_, _, _, h2, _⟩ := mapM_append_ok e
          rw [e3] at h2
          exact nomatch h2⟩
    | ok t3 =>
      have w1 : W t1.flatten := c.flatten fun t ht => by
        obtain ⟨a, -, ha⟩ := mapM_mem e1 ht
        exact hf a t ha
      refine ⟨pre ++ t1.flatten, t3.flatten ++ post, c.append hp w1, fun stretch s hne hs => ?_⟩
      have hne' : before ++ stretch ++ behind ≠ [] := by simp [hne]
      dsimp only at hs
      rw [forSM_mapM] at hs
      cases e : (before ++ stretch ++ behind).mapM f with
      | error => rw [e] at hs; exact nomatch hs
      | ok ts =>
        rw [e] at hs
        obtain ⟨x, z, h12, h3, rfl⟩ := mapM_append_ok e
        obtain ⟨x, y, h1, h2, rfl⟩ := mapM_append_ok h12
        rw [e1] at h1
        rw [e3] at h3
        cases h1
        cases h3
        refine ⟨y, h2, fun t ht => ?_, ?_⟩
        · obtain ⟨a, -, ha⟩ := mapM_mem h2 ht
          exact hf a t ha
        · rw [hg _ _ s hne' hs]
          simp

/-- `x` within `s`. -/
def SplitAt (x s pre post : Str) : Prop := s = pre ++ x ++ post
theorem SplitAt.here {x : Str} : SplitAt x x [] [] := by simp [SplitAt]
theorem SplitAt.left {x a b p q : Str} (h : SplitAt x a p q) : SplitAt x (a ++ b) p (q ++ b) := by
  unfold SplitAt at *; subst h; simp
theorem SplitAt.right {x a b p q : Str} (h : SplitAt x b p q) : SplitAt x (a ++ b) (a ++ p) q := by
  unfold SplitAt at *; subst h; simp
theorem SplitAt.cons {x b p q : Str} {c : Char} (h : SplitAt x b p q) : SplitAt x (c :: b) (c :: p) q := by
  unfold SplitAt at *; subst h; simp

open Lean Meta Elab Tactic in
/-- `p`, `q` and the proof of `SplitAt x s p q`, if `x` is a part of `s`. -/
partial def findText (x s : Expr) : Option (Expr × Expr × Expr) :=
  let nil := mkApp (.const ``List.nil [0]) (.const ``Char [])
  let app := fun a b : Expr => mkAppN (.const ``HAppend.hAppend [0, 0, 0])
    #[.const ``Str [], .const ``Str [], .const ``Str [], mkApp2 (.const ``instHAppendOfAppend [0]) (.const ``Str [])
      (mkApp (.const ``List.instAppend [0]) (.const ``Char [])), a, b]
  if s == x then some (nil, nil, mkApp (.const ``SplitAt.here []) x)
  else match s.getAppFnArgs with
  | (``HAppend.hAppend, #[_, _, _, _, a, b]) =>
    match findText x a with
    | some (p, q, h) => some (p, app q b, mkAppN (.const ``SplitAt.left []) #[x, a, b, p, q, h])
    | none => match findText x b with
      | some (p, q, h) => some (app a p, q, mkAppN (.const ``SplitAt.right []) #[x, a, b, p, q, h])
      | none => none
  | (``List.cons, #[_, c, b]) =>
    match findText x b with
    | some (p, q, h) => some (mkApp3 (.const ``List.cons [0]) (.const ``Char []) c p, q, mkAppN (.const ``SplitAt.cons []) #[x, b, p, q, c, h])
    | none => none
  | _ => none

open Lean Meta Elab Tactic in
/-- Finds a text within another one. -/
elab "find_text" : tactic => withMainContext do
  let t ← instantiateMVars (← getMainTarget)
  match t.getAppFnArgs with
  | (``SplitAt, #[x, s, p, q]) =>
    match findText x s with
    | some (p', q', h) =>
      unless ← isDefEq p p' do throwError "pre: {p} {p'}"
      unless ← isDefEq q q' do throwError "post: {q} {q'}"
      closeMainGoal `find_text h
    | none => throwError "not found"
  | _ => throwError "not a SplitAt"

theorem isEmpty_false {α : Type} {l : List α} (h : l ≠ []) : l.isEmpty = false := by cases l <;> simp_all
theorem ifS_true {s : Str} : ifS true s = s := rfl

/-! ## The classes: every item text ends a line -/

theorem GeneralSettings.ends (o : GeneralSettings) (i : Nat) : Ends (o.toSexpr i true) := by
  unfold GeneralSettings.toSexpr
  try dsimp only
  ends
macro_rules | `(tactic| ends_item) => `(tactic| exact GeneralSettings.ends _ _)

theorem LayerToken.ends (o : LayerToken) (i : Nat) : Ends (o.toSexpr i true) := by
  unfold LayerToken.toSexpr
  try dsimp only
  ends
macro_rules | `(tactic| ends_item) => `(tactic| exact LayerToken.ends _ _)

theorem StackupLayer.ends (o : StackupLayer) (i : Nat) : Ends (o.toSexpr i true) := by
  unfold StackupLayer.toSexpr
  try dsimp only
  ends
macro_rules | `(tactic| ends_item) => `(tactic| exact StackupLayer.ends _ _)

theorem Stackup.ends (o : Stackup) (i : Nat) : Ends (o.toSexpr i true) := by
  unfold Stackup.toSexpr
  try dsimp only
  ends
macro_rules | `(tactic| ends_item) => `(tactic| exact Stackup.ends _ _)

theorem Segment.ends (o : Segment) (i : Nat) : Ends (o.toSexpr i true) := by
  unfold Segment.toSexpr
  try dsimp only
  ends
macro_rules | `(tactic| ends_item) => `(tactic| exact Segment.ends _ _)

theorem Via.ends (o : Via) (i : Nat) : Ends (o.toSexpr i true) := by
  unfold Via.toSexpr
  try dsimp only
  ends
macro_rules | `(tactic| ends_item) => `(tactic| exact Via.ends _ _)

theorem TraceArc.ends (o : TraceArc) (i : Nat) : Ends (o.toSexpr i true) := by
  unfold TraceArc.toSexpr
  try dsimp only
  ends
macro_rules | `(tactic| ends_item) => `(tactic| exact TraceArc.ends _ _)

theorem Target.ends (o : Target) (i : Nat) : Ends (o.toSexpr i true) := by
  unfold Target.toSexpr
  try dsimp only
  ends
macro_rules | `(tactic| ends_item) => `(tactic| exact Target.ends _ _)

theorem Net.ends (o : Net) (i : Nat) : Ends (o.toSexpr i true) := by
  unfold Net.toSexpr
  try dsimp only
  ends
macro_rules | `(tactic| ends_item) => `(tactic| exact Net.ends _ _)

theorem Stroke.ends (o : Stroke) (i : Nat) : Ends (o.toSexpr i true) := by
  unfold Stroke.toSexpr
  try dsimp only
  ends
macro_rules | `(tactic| ends_item) => `(tactic| exact Stroke.ends _ _)

theorem Effects.ends (o : Effects) (i : Nat) : Ends (o.toSexpr i true) := by
  unfold Effects.toSexpr
  try dsimp only
  ends
macro_rules | `(tactic| ends_item) => `(tactic| exact Effects.ends _ _)

theorem Group.ends (o : Group) (i : Nat) : Ends (o.toSexpr i true) := by
  unfold Group.toSexpr
  try dsimp only
  ends
macro_rules | `(tactic| ends_item) => `(tactic| exact Group.ends _ _)

theorem TitleBlock.ends (o : TitleBlock) (i : Nat) : Ends (o.toSexpr i true) := by
  unfold TitleBlock.toSexpr
  try dsimp only
  ends
macro_rules | `(tactic| ends_item) => `(tactic| exact TitleBlock.ends _ _)

theorem Property.ends (o : Property) (i : Nat) : Ends (o.toSexpr i true) := by
  unfold Property.toSexpr
  try dsimp only
  ends
macro_rules | `(tactic| ends_item) => `(tactic| exact Property.ends _ _)

theorem RenderCachePolygon.ends (o : RenderCachePolygon) (i : Nat) : Ends (o.toSexpr i true) := by
  unfold RenderCachePolygon.toSexpr
  try dsimp only
  ends
macro_rules | `(tactic| ends_item) => `(tactic| exact RenderCachePolygon.ends _ _)

theorem RenderCache.ends (o : RenderCache) (i : Nat) : Ends (o.toSexpr i true) := by
  unfold RenderCache.toSexpr
  try dsimp only
  ends
macro_rules | `(tactic| ends_item) => `(tactic| exact RenderCache.ends _ _)

theorem Fill.ends (o : Fill) (i : Nat) : Ends (o.toSexpr i true) := by
  unfold Fill.toSexpr
  try dsimp only
  ends
macro_rules | `(tactic| ends_item) => `(tactic| exact Fill.ends _ _)

theorem Image.ends (o : Image) (i : Nat) : Ends (o.toSexpr i true) := by
  unfold Image.toSexpr
  try dsimp only
  ends
macro_rules | `(tactic| ends_item) => `(tactic| exact Image.ends _ _)

theorem DimensionFormat.ends (o : DimensionFormat) (i : Nat) : Ends (o.toSexpr i true) := by
  unfold DimensionFormat.toSexpr
  try dsimp only
  ends
macro_rules | `(tactic| ends_item) => `(tactic| exact DimensionFormat.ends _ _)

theorem DimensionStyle.ends (o : DimensionStyle) (i : Nat) : Ends (o.toSexpr i true) := by
  unfold DimensionStyle.toSexpr
  try dsimp only
  ends
macro_rules | `(tactic| ends_item) => `(tactic| exact DimensionStyle.ends _ _)

theorem Model.ends (o : Model) (i : Nat) : Ends (o.toSexpr i true) := by
  unfold Model.toSexpr
  try dsimp only
  ends
macro_rules | `(tactic| ends_item) => `(tactic| exact Model.ends _ _)

theorem FpText.ends (o : FpText) (i : Nat) : Ends (o.toSexpr i true) := by
  unfold FpText.toSexpr
  try dsimp only
  ends
macro_rules | `(tactic| ends_item) => `(tactic| exact FpText.ends _ _)

theorem FpLine.ends (o : FpLine) (i : Nat) : Ends (o.toSexpr i true) := by
  unfold FpLine.toSexpr
  try dsimp only
  ends
macro_rules | `(tactic| ends_item) => `(tactic| exact FpLine.ends _ _)

theorem FpRect.ends (o : FpRect) (i : Nat) : Ends (o.toSexpr i true) := by
  unfold FpRect.toSexpr
  try dsimp only
  ends
macro_rules | `(tactic| ends_item) => `(tactic| exact FpRect.ends _ _)

theorem FpCircle.ends (o : FpCircle) (i : Nat) : Ends (o.toSexpr i true) := by
  unfold FpCircle.toSexpr
  try dsimp only
  ends
macro_rules | `(tactic| ends_item) => `(tactic| exact FpCircle.ends _ _)

theorem FpArc.ends (o : FpArc) (i : Nat) : Ends (o.toSexpr i true) := by
  unfold FpArc.toSexpr
  try dsimp only
  ends
macro_rules | `(tactic| ends_item) => `(tactic| exact FpArc.ends _ _)

theorem FpPoly.ends (o : FpPoly) (i : Nat) : Ends (o.toSexpr i true) := by
  unfold FpPoly.toSexpr
  try dsimp only
  ends
macro_rules | `(tactic| ends_item) => `(tactic| exact FpPoly.ends _ _)

theorem FpCurve.ends (o : FpCurve) (i : Nat) : Ends (o.toSexpr i true) := by
  unfold FpCurve.toSexpr
  try dsimp only
  ends
macro_rules | `(tactic| ends_item) => `(tactic| exact FpCurve.ends _ _)

theorem GrText.ends (o : GrText) (i : Nat) : Ends (o.toSexpr i true) := by
  unfold GrText.toSexpr
  try dsimp only
  ends
macro_rules | `(tactic| ends_item) => `(tactic| exact GrText.ends _ _)

theorem GrLine.ends (o : GrLine) (i : Nat) : Ends (o.toSexpr i true) := by
  unfold GrLine.toSexpr
  try dsimp only
  ends
macro_rules | `(tactic| ends_item) => `(tactic| exact GrLine.ends _ _)

theorem GrRect.ends (o : GrRect) (i : Nat) : Ends (o.toSexpr i true) := by
  unfold GrRect.toSexpr
  try dsimp only
  ends
macro_rules | `(tactic| ends_item) => `(tactic| exact GrRect.ends _ _)

theorem GrCircle.ends (o : GrCircle) (i : Nat) : Ends (o.toSexpr i true) := by
  unfold GrCircle.toSexpr
  try dsimp only
  ends
macro_rules | `(tactic| ends_item) => `(tactic| exact GrCircle.ends _ _)

theorem GrArc.ends (o : GrArc) (i : Nat) : Ends (o.toSexpr i true) := by
  unfold GrArc.toSexpr
  try dsimp only
  ends
macro_rules | `(tactic| ends_item) => `(tactic| exact GrArc.ends _ _)

theorem GrCurve.ends (o : GrCurve) (i : Nat) : Ends (o.toSexpr i true) := by
  unfold GrCurve.toSexpr
  try dsimp only
  ends
macro_rules | `(tactic| ends_item) => `(tactic| exact GrCurve.ends _ _)

theorem Library.ends (o : Library) (i : Nat) : Ends (o.toSexpr i true) := by
  unfold Library.toSexpr
  try dsimp only
  ends
macro_rules | `(tactic| ends_item) => `(tactic| exact Library.ends _ _)

theorem NoConnect.ends (o : NoConnect) (i : Nat) : Ends (o.toSexpr i true) := by
  unfold NoConnect.toSexpr
  try dsimp only
  ends
macro_rules | `(tactic| ends_item) => `(tactic| exact NoConnect.ends _ _)

theorem BusEntry.ends (o : BusEntry) (i : Nat) : Ends (o.toSexpr i true) := by
  unfold BusEntry.toSexpr
  try dsimp only
  ends
macro_rules | `(tactic| ends_item) => `(tactic| exact BusEntry.ends _ _)

theorem BusAlias.ends (o : BusAlias) (i : Nat) : Ends (o.toSexpr i true) := by
  unfold BusAlias.toSexpr
  try dsimp only
  ends
macro_rules | `(tactic| ends_item) => `(tactic| exact BusAlias.ends _ _)

theorem Connection.ends (o : Connection) (i : Nat) : Ends (o.toSexpr i true) := by
  unfold Connection.toSexpr
  try dsimp only
  ends
macro_rules | `(tactic| ends_item) => `(tactic| exact Connection.ends _ _)

theorem PolyLine.ends (o : PolyLine) (i : Nat) : Ends (o.toSexpr i true) := by
  unfold PolyLine.toSexpr
  try dsimp only
  ends
macro_rules | `(tactic| ends_item) => `(tactic| exact PolyLine.ends _ _)

theorem TextBox.ends (o : TextBox) (i : Nat) : Ends (o.toSexpr i true) := by
  unfold TextBox.toSexpr
  try dsimp only
  ends
macro_rules | `(tactic| ends_item) => `(tactic| exact TextBox.ends _ _)

theorem LocalLabel.ends (o : LocalLabel) (i : Nat) : Ends (o.toSexpr i true) := by
  unfold LocalLabel.toSexpr
  try dsimp only
  ends
macro_rules | `(tactic| ends_item) => `(tactic| exact LocalLabel.ends _ _)

theorem GlobalLabel.ends (o : GlobalLabel) (i : Nat) : Ends (o.toSexpr i true) := by
  unfold GlobalLabel.toSexpr
  try dsimp only
  ends
macro_rules | `(tactic| ends_item) => `(tactic| exact GlobalLabel.ends _ _)

theorem HierarchicalLabel.ends (o : HierarchicalLabel) (i : Nat) : Ends (o.toSexpr i true) := by
  unfold HierarchicalLabel.toSexpr
  try dsimp only
  ends
macro_rules | `(tactic| ends_item) => `(tactic| exact HierarchicalLabel.ends _ _)

theorem SymbolProjectPath.ends (o : SymbolProjectPath) (i : Nat) : Ends (o.toSexpr i true) := by
  unfold SymbolProjectPath.toSexpr
  try dsimp only
  ends
macro_rules | `(tactic| ends_item) => `(tactic| exact SymbolProjectPath.ends _ _)

theorem SymbolProjectInstance.ends (o : SymbolProjectInstance) (i : Nat) : Ends (o.toSexpr i true) := by
  unfold SymbolProjectInstance.toSexpr
  try dsimp only
  ends
macro_rules | `(tactic| ends_item) => `(tactic| exact SymbolProjectInstance.ends _ _)

theorem SchematicSymbol.ends (o : SchematicSymbol) (i : Nat) : Ends (o.toSexpr i true) := by
  unfold SchematicSymbol.toSexpr
  try dsimp only
  ends
macro_rules | `(tactic| ends_item) => `(tactic| exact SchematicSymbol.ends _ _)

theorem HierarchicalPin.ends (o : HierarchicalPin) (i : Nat) : Ends (o.toSexpr i true) := by
  unfold HierarchicalPin.toSexpr
  try dsimp only
  ends
macro_rules | `(tactic| ends_item) => `(tactic| exact HierarchicalPin.ends _ _)

theorem HierarchicalSheetProjectPath.ends (o : HierarchicalSheetProjectPath) (i : Nat) : Ends (o.toSexpr i true) := by
  unfold HierarchicalSheetProjectPath.toSexpr
  try dsimp only
  ends
macro_rules | `(tactic| ends_item) => `(tactic| exact HierarchicalSheetProjectPath.ends _ _)

theorem HierarchicalSheetProjectInstance.ends (o : HierarchicalSheetProjectInstance) (i : Nat) : Ends (o.toSexpr i true) := by
  unfold HierarchicalSheetProjectInstance.toSexpr
  try dsimp only
  ends
macro_rules | `(tactic| ends_item) => `(tactic| exact HierarchicalSheetProjectInstance.ends _ _)

theorem HierarchicalSheetInstance.ends (o : HierarchicalSheetInstance) (i : Nat) : Ends (o.toSexpr i true) := by
  unfold HierarchicalSheetInstance.toSexpr
  try dsimp only
  ends
macro_rules | `(tactic| ends_item) => `(tactic| exact HierarchicalSheetInstance.ends _ _)

theorem SymbolInstance.ends (o : SymbolInstance) (i : Nat) : Ends (o.toSexpr i true) := by
  unfold SymbolInstance.toSexpr
  try dsimp only
  ends
macro_rules | `(tactic| ends_item) => `(tactic| exact SymbolInstance.ends _ _)

theorem Rectangle.ends (o : Rectangle) (i : Nat) : Ends (o.toSexpr i true) := by
  unfold Rectangle.toSexpr
  try dsimp only
  ends
macro_rules | `(tactic| ends_item) => `(tactic| exact Rectangle.ends _ _)

theorem Arc.ends (o : Arc) (i : Nat) : Ends (o.toSexpr i true) := by
  unfold Arc.toSexpr
  try dsimp only
  ends
macro_rules | `(tactic| ends_item) => `(tactic| exact Arc.ends _ _)

theorem Circle.ends (o : Circle) (i : Nat) : Ends (o.toSexpr i true) := by
  unfold Circle.toSexpr
  try dsimp only
  ends
macro_rules | `(tactic| ends_item) => `(tactic| exact Circle.ends _ _)

theorem SyArc.ends (o : SyArc) (i : Nat) : Ends (o.toSexpr i true) := by
  unfold SyArc.toSexpr
  try dsimp only
  ends
macro_rules | `(tactic| ends_item) => `(tactic| exact SyArc.ends _ _)

theorem SyCircle.ends (o : SyCircle) (i : Nat) : Ends (o.toSexpr i true) := by
  unfold SyCircle.toSexpr
  try dsimp only
  ends
macro_rules | `(tactic| ends_item) => `(tactic| exact SyCircle.ends _ _)

theorem SyCurve.ends (o : SyCurve) (i : Nat) : Ends (o.toSexpr i true) := by
  unfold SyCurve.toSexpr
  try dsimp only
  ends
macro_rules | `(tactic| ends_item) => `(tactic| exact SyCurve.ends _ _)

theorem SyPolyLine.ends (o : SyPolyLine) (i : Nat) : Ends (o.toSexpr i true) := by
  unfold SyPolyLine.toSexpr
  try dsimp only
  ends
macro_rules | `(tactic| ends_item) => `(tactic| exact SyPolyLine.ends _ _)

theorem SyRect.ends (o : SyRect) (i : Nat) : Ends (o.toSexpr i true) := by
  unfold SyRect.toSexpr
  try dsimp only
  ends
macro_rules | `(tactic| ends_item) => `(tactic| exact SyRect.ends _ _)

theorem SyText.ends (o : SyText) (i : Nat) : Ends (o.toSexpr i true) := by
  unfold SyText.toSexpr
  try dsimp only
  ends
macro_rules | `(tactic| ends_item) => `(tactic| exact SyText.ends _ _)

theorem SyTextBox.ends (o : SyTextBox) (i : Nat) : Ends (o.toSexpr i true) := by
  unfold SyTextBox.toSexpr
  try dsimp only
  ends
macro_rules | `(tactic| ends_item) => `(tactic| exact SyTextBox.ends _ _)

theorem SymbolAlternativePin.ends (o : SymbolAlternativePin) (i : Nat) : Ends (o.toSexpr i true) := by
  unfold SymbolAlternativePin.toSexpr
  try dsimp only
  ends
macro_rules | `(tactic| ends_item) => `(tactic| exact SymbolAlternativePin.ends _ _)

theorem SymbolPin.ends (o : SymbolPin) (i : Nat) : Ends (o.toSexpr i true) := by
  unfold SymbolPin.toSexpr
  try dsimp only
  ends
macro_rules | `(tactic| ends_item) => `(tactic| exact SymbolPin.ends _ _)

theorem Bitmap.ends (o : Bitmap) (i : Nat) : Ends (o.toSexpr i true) := by
  unfold Bitmap.toSexpr
  try dsimp only
  ends
macro_rules | `(tactic| ends_item) => `(tactic| exact Bitmap.ends _ _)

theorem TbText.ends (o : TbText) (i : Nat) : Ends (o.toSexpr i true) := by
  unfold TbText.toSexpr
  try dsimp only
  ends
macro_rules | `(tactic| ends_item) => `(tactic| exact TbText.ends _ _)

theorem Setup.ends (o : Setup) (i : Nat) : Ends (o.toSexpr i true) := by
  unfold Setup.toSexpr
  try dsimp only
  ends
macro_rules | `(tactic| ends_item) => `(tactic| exact Setup.ends _ _)

theorem KeepoutSettings.ends (o : KeepoutSettings) (i : Nat) : Ends (o.toSexpr i true) := by
  unfold KeepoutSettings.toSexpr
  try dsimp only
  ends
macro_rules | `(tactic| ends_item) => `(tactic| exact KeepoutSettings.ends _ _)

theorem FillSettings.ends (o : FillSettings) (i : Nat) : Ends (o.toSexpr i true) := by
  unfold FillSettings.toSexpr
  try dsimp only
  ends
macro_rules | `(tactic| ends_item) => `(tactic| exact FillSettings.ends _ _)

theorem ZonePolygon.ends (o : ZonePolygon) (i : Nat) : Ends (o.toSexpr i true) := by
  unfold ZonePolygon.toSexpr
  try dsimp only
  ends
macro_rules | `(tactic| ends_item) => `(tactic| exact ZonePolygon.ends _ _)

theorem FilledPolygon.ends (o : FilledPolygon) (i : Nat) : Ends (o.toSexpr i true) := by
  unfold FilledPolygon.toSexpr
  try dsimp only
  ends
macro_rules | `(tactic| ends_item) => `(tactic| exact FilledPolygon.ends _ _)

theorem FillSegments.ends (o : FillSegments) (i : Nat) : Ends (o.toSexpr i true) := by
  unfold FillSegments.toSexpr
  try dsimp only
  ends
macro_rules | `(tactic| ends_item) => `(tactic| exact FillSegments.ends _ _)

/-- Proves that whatever is returned ends a line. -/
syntax "endsM" : tactic
macro_rules
  | `(tactic| endsM) => `(tactic| first
    | exact EndsM.error
    | (with_reducible apply EndsM.ok; ends)
    | (with_reducible apply EndsM.pure; ends)
    | (with_reducible apply EndsM.bind; intro _ _; endsM)
    | (with_reducible apply EndsM.ite <;> endsM)
    | (split <;> endsM))

theorem Symbol.textUnits_forS (us : List Symbol) (i : Nat) : Symbol.textUnits us i = forS us fun u => u.toSexpr i := by
  induction us with
  | nil => rw [Symbol.textUnits]; rfl
  | cons u r ih => rw [Symbol.textUnits, ih]; rfl

theorem Symbol.toSexpr_eq (o : Symbol) (i : Nat) (nl : Bool) : o.toSexpr i nl =
    o.textFlat i ++ (forS o.units fun u => u.toSexpr (i + 2)) ++ py!"{indents i}){endl nl}" := by
  cases o
  rw [Symbol.toSexpr, Symbol.textUnits_forS]

theorem Symbol.ends (o : Symbol) (i : Nat) : Ends (o.toSexpr i true) := by
  cases o
  unfold Symbol.toSexpr
  ends
macro_rules | `(tactic| ends_item) => `(tactic| exact Symbol.ends _ _)
theorem GrPoly.ends (o : GrPoly) (i : Nat) (b : Bool) : Ends (o.toSexpr i true b) := by
  unfold GrPoly.toSexpr
  try dsimp only
  ends
macro_rules | `(tactic| ends_item) => `(tactic| exact GrPoly.ends _ _ _)
theorem WksShape.ends (h : Str) (o : WksShape) (i : Nat) : Ends (o.toSexpr h i true) := by
  unfold WksShape.toSexpr
  try dsimp only
  ends
macro_rules | `(tactic| ends_item) => `(tactic| exact WksShape.ends _ _ _)
theorem TraceItem.ends (o : TraceItem) (i : Nat) : Ends (o.toSexpr i) := by
  unfold TraceItem.toSexpr
  ends
macro_rules | `(tactic| ends_item) => `(tactic| exact TraceItem.ends _ _)
theorem SchGraphic.ends (o : SchGraphic) (i : Nat) : Ends (o.toSexpr i) := by
  unfold SchGraphic.toSexpr
  ends
macro_rules | `(tactic| ends_item) => `(tactic| exact SchGraphic.ends _ _)
theorem SchShape.ends (o : SchShape) (i : Nat) : Ends (o.toSexpr i) := by
  unfold SchShape.toSexpr
  ends
macro_rules | `(tactic| ends_item) => `(tactic| exact SchShape.ends _ _)
theorem SyItem.ends (o : SyItem) (i : Nat) : Ends (o.toSexpr i) := by
  unfold SyItem.toSexpr
  ends
macro_rules | `(tactic| ends_item) => `(tactic| exact SyItem.ends _ _)
theorem Attributes.whole (o : Attributes) (i : Nat) : WholeLines (o.toSexpr i true) := by
  unfold Attributes.toSexpr
  split
  · whole
  · exact Ends.whole (by ends)
macro_rules | `(tactic| whole_item) => `(tactic| exact Attributes.whole _ _)

theorem PageSettings.endsM (o : PageSettings) (i : Nat) : EndsM (o.toSexpr i true) := by
  unfold PageSettings.toSexpr
  try dsimp only
  endsM
theorem FpTextBox.endsM (o : FpTextBox) (i : Nat) : EndsM (o.toSexpr i true) := by
  unfold FpTextBox.toSexpr
  try dsimp only
  endsM
theorem GrTextBox.endsM (o : GrTextBox) (i : Nat) : EndsM (o.toSexpr i true) := by
  unfold GrTextBox.toSexpr
  try dsimp only
  endsM
theorem PlotSettings.endsM (o : PlotSettings) (i : Nat) : EndsM (o.toSexpr i true) := by
  unfold PlotSettings.toSexpr
  try dsimp only
  endsM
theorem SetupData.endsM (o : SetupData) (i : Nat) : EndsM (o.toSexpr i true) := by
  unfold SetupData.toSexpr
  try dsimp only
  endsM
theorem Dimension.endsM (o : Dimension) (i : Nat) : EndsM (o.toSexpr i true) := by
  unfold Dimension.toSexpr
  try dsimp only
  endsM
theorem Constraint.endsM (o : Constraint) (i : Nat) : EndsM (o.toSexpr i true) := by
  unfold Constraint.toSexpr
  try dsimp only
  endsM
theorem Pad.endsM (o : Pad) (i : Nat) : EndsM (o.toSexpr i true) := by
  unfold Pad.toSexpr
  try dsimp only
  endsM
theorem Footprint.endsM (o : Footprint) (i : Nat) (b : Bool) : EndsM (o.toSexpr i true b) := by
  unfold Footprint.toSexpr
  try dsimp only
  endsM
theorem Junction.endsM (o : Junction) (i : Nat) : EndsM (o.toSexpr i true) := by
  unfold Junction.toSexpr
  try dsimp only
  endsM
theorem Text.endsM (o : Text) (i : Nat) : EndsM (o.toSexpr i true) := by
  unfold Text.toSexpr
  try dsimp only
  endsM
theorem HierarchicalSheet.endsM (o : HierarchicalSheet) (i : Nat) : EndsM (o.toSexpr i true) := by
  unfold HierarchicalSheet.toSexpr
  try dsimp only
  endsM
theorem NetclassFlag.endsM (o : NetclassFlag) (i : Nat) : EndsM (o.toSexpr i true) := by
  unfold NetclassFlag.toSexpr
  try dsimp only
  endsM
theorem Zone.endsM (o : Zone) (i : Nat) : EndsM (o.toSexpr i true) := by
  unfold Zone.toSexpr
  try dsimp only
  endsM
theorem Rule.endsM (o : Rule) (i : Nat) : EndsM (o.toSexpr i) := by
  unfold Rule.toSexpr
  try dsimp only
  endsM
theorem FpItem.endsM (o : FpItem) (i : Nat) : EndsM (o.toSexpr i) := by
  unfold FpItem.toSexpr
  try dsimp only
  split <;> first | exact .ok (by ends) | exact FpTextBox.endsM _ _ | endsM
theorem GrItem.endsM (o : GrItem) (i : Nat) (b : Bool) : EndsM (o.toSexpr i true b) := by
  unfold GrItem.toSexpr
  try dsimp only
  split <;> first | exact .ok (by ends) | exact GrTextBox.endsM _ _ | endsM
theorem WksItem.endsM (o : WksItem) (i : Nat) : EndsM (o.toSexpr i) := by
  unfold WksItem.toSexpr
  try dsimp only
  split <;> first | exact .ok (by ends) | exact FpTextBox.endsM _ _ | endsM

end Kiutils
