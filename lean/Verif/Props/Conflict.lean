import Verif.Props.Errors
import Verif.Props.InPlace
import Verif.Props.TokensBoard
import Verif.Props.TokensSchematic
import Verif.Props.TokensFootprint
import Verif.Props.TokensSymbol
import Verif.Props.TokensWks
import Verif.Props.TokensDru
import Verif.Props.TokensLibraries
/-!
# Stray text in files, such as unresolved merge conflicts (C83)

Text in front of the expression of a file is noticed. Words among the children of the expression are not: a file with the marks of an
unresolved merge conflict is loaded with the content of both sides.
-/
namespace Kiutils

/-! ## Specification -/

/-- What `git merge` leaves behind where two versions of a file differ: a line with `<<<<<<<` and the name of a version, the items of
this version, a line with `=======`, the items of the other version, and a line with `>>>>>>>` and the name of the other version. -/
def conflict (ours theirs : List Val) (name name' : List Str) : List Val :=
  .str k!"<<<<<<<" :: (name.map .str ++ (ours ++ .str k!"=======" :: (theirs ++ .str k!">>>>>>>" :: name'.map .str)))

/-- `l'` is `l` with words that meet `ok` put in, in any places. -/
inductive Littered (ok : Str → Prop) : List Val → List Val → Prop where
  | nil : Littered ok [] []
  | keep (v : Val) {l l' : List Val} : Littered ok l l' → Littered ok (v :: l) (v :: l')
  | word {s : Str} {l l' : List Val} : ok s → Littered ok l l' → Littered ok l (.str s :: l')

/-- The text begins, after white space, with a character that is neither an opening bracket nor `^` (which the reader skips, C02). -/
def StartsOdd (text : Str) : Prop :=
  ∃ w c s, text = w ++ c :: s ∧ (∀ d ∈ w, isSpace d = true) ∧ isSpace c = false ∧ c ≠ '(' ∧ c ≠ '^'

/-- A number as the reader gives it. -/
def IsNumber : Val → Prop
  | .int _ => True
  | .flt _ => True
  | _ => False

/-! ## Lemmas -/

theorem Littered.refl {ok : Str → Prop} : ∀ l : List Val, Littered ok l l
  | [] => .nil
  | v :: l => .keep v (refl l)

theorem Littered.append {ok : Str → Prop} {a a' b b' : List Val} (h : Littered ok a a') (hb : Littered ok b b') :
    Littered ok (a ++ b) (a' ++ b') := by
  induction h with
  | nil => exact hb
  | keep v _ ih => exact .keep v ih
  | word hs _ ih => exact .word hs ih

theorem Littered.words {ok : Str → Prop} : ∀ (n : List Str), (∀ s ∈ n, ok s) → Littered ok [] (n.map .str)
  | [], _ => .nil
  | s :: n, h => .word (h s List.mem_cons_self) (words n fun t ht => h t (List.mem_cons_of_mem _ ht))

theorem conflict_littered {ok : Str → Prop} (h1 : ok k!"<<<<<<<") (h2 : ok k!"=======") (h3 : ok k!">>>>>>>") {n n' : List Str}
    (hn : ∀ s ∈ n, ok s) (hn' : ∀ s ∈ n', ok s) (xs a b ys : List Val) :
    Littered ok (xs ++ (a ++ (b ++ ys))) (xs ++ (conflict a b n n' ++ ys)) := by
  refine (Littered.refl xs).append ?_
  rw [← List.append_assoc]
  refine Littered.append ?_ (.refl ys)
  refine .word h1 ?_
  refine Littered.append (a := []) (.words n hn) ?_
  refine (Littered.refl a).append (.word h2 ?_)
  have := (Littered.refl (ok := ok) b).append (.word h3 (.words n' hn'))
  rwa [List.append_nil] at this

theorem forM_littered {σ : Type} {step : σ → Val → PyM σ} {ok : Str → Prop} (hk : ∀ s, ok s → ∀ o, step o (.str s) = .ok o)
    {l l' : List Val} (h : Littered ok l l') (o : σ) : forM step o l' = forM step o l := by
  induction h generalizing o with
  | nil => rfl
  | keep v _ ih =>
    simp only [forM]
    exact congrArg (step o v >>= ·) (funext ih)
  | word hs _ ih =>
    simp only [forM, hk _ hs]
    exact ih o

theorem forM_stops {σ : Type} {step : σ → Val → PyM σ} {x : Val} {e : PyErr} (hx : ∀ o, step o x = .error e) (o : σ) (xs ys : List Val) (a : σ) :
    forM step o (xs ++ x :: ys) ≠ .ok a := by
  rw [forM_append]
  intro h
  obtain ⟨b, _, hb⟩ := bind_ok_split h
  simp only [forM, hx] at hb
  cases hb

theorem short_ne {c : Char} {ks : List Str} (h : ∀ k ∈ ks, k.length ≠ 1) : ∀ k ∈ ks, (Val.str [c]) ≠ .str k := by
  intro k hk he
  cases he
  exact h _ hk rfl

theorem canon_notList : ∀ v : Val, v.isList = false → (Val.canon v).isList = false
  | .int _, _ => rfl
  | .str _, _ => rfl
  | .flt f, _ => by
    show (if f.isInteger = true then Val.int f.toInt else Val.flt f).isList = false
    split <;> rfl

theorem lex_odd {c : Char} {r : Str} (hs : isSpace c = false) (h1 : c ≠ '(') (h2 : c ≠ ')') (h3 : c ≠ '^') :
    ∃ a ts, lex (c :: r) = .atom a :: ts ∧ a.isList = false := by
  have hb : isBare c = true := by simp [isBare, hs, h1, h2, h3]
  cases hm : matchNum (c :: r) with
  | some p =>
    exact ⟨_, _, lex_tok hs (by unfold tokenAt; simp [h1, h2, hm]; exact ⟨rfl, rfl, rfl⟩), canon_notList _ rfl⟩
  | none =>
    cases hq : matchSq (c :: r) with
    | some p => exact ⟨_, _, lex_tok hs (by unfold tokenAt; simp [h1, h2, hm, hq]; exact ⟨rfl, rfl, rfl⟩), rfl⟩
    | none => exact ⟨_, _, lex_tok hs (by unfold tokenAt; simp [h1, h2, hm, hq, hb]; exact ⟨rfl, rfl, rfl⟩), rfl⟩

theorem run_keepsFirst {a : Val} (ts : List Tok) (st : List (List Val)) (out : List Val) (v : Val)
    (hs : ((out :: st).getLast (by simp)).head? = some a) (h : run st out ts = .ok v) : v = a := by
  induction ts generalizing st out with
  | nil => cases st with
    | nil => cases out with
      | nil => simp at hs
      | cons b o => simp at hs; subst hs; simp only [run] at h; cases h; rfl
    | cons b st => simp only [run] at h; cases h
  | cons t ts ih =>
    cases t with
    | op => rw [run] at h; exact ih (out :: st) [] (by simpa using hs) h
    | atom b =>
      rw [run] at h
      refine ih st _ ?_ h
      cases st with
      | nil =>
        simp only [List.getLast_singleton] at hs ⊢
        cases out with
        | nil => simp at hs
        | cons b o => simpa using hs
      | cons b st => simpa using hs
    | cl => cases st with
      | nil => simp only [run] at h; cases h
      | cons top st =>
        rw [run] at h
        refine ih st _ ?_ h
        cases st with
        | nil =>
          simp only [List.getLast_cons_cons, List.getLast_singleton] at hs ⊢
          cases top with
          | nil => simp at hs
          | cons b o => simpa using hs
        | cons b st => simpa using hs

/-- A text that starts oddly is not read as a list. -/
theorem odd_notList {text : Str} (h : StartsOdd text) (v : Val) (hv : parseSexp text = .ok v) : v.isList = false := by
  obtain ⟨w, c, s, rfl, hw, hc, h1, h3⟩ := h
  rw [parseSexp, lex_spaces hw] at hv
  by_cases h2 : c = ')'
  · subst h2; rw [lex_cl] at hv; simp only [run] at hv; cases hv
  · obtain ⟨a, ts, hl, ha⟩ := lex_odd (r := s) hc h1 h2 h3
    rw [hl, run] at hv
    rw [run_keepsFirst ts [] [a] v rfl hv]
    exact ha

/-- The frames of the stack machine (innermost first) while it reads a list that begins with `a`, or after that. -/
def InFirst (a : Val) : List (List Val) → Prop
  | [] => False
  | [b] => ∃ l, b.head? = some (.list (a :: l))
  | [f, b] => (∃ l, b.head? = some (.list (a :: l))) ∨ (b = [] ∧ f.head? = some a)
  | _ :: f :: b :: r => InFirst a (f :: b :: r)

theorem head_append {b c : List Val} {a : Val} (h : b.head? = some a) : (b ++ c).head? = some a := by
  cases b with
  | nil => cases h
  | cons x b => exact h

theorem inFirst_out {a x : Val} {out : List Val} {st : List (List Val)} (h : InFirst a (out :: st)) : InFirst a ((out ++ [x]) :: st) := by
  match st, h with
  | [], ⟨l, h⟩ => exact ⟨l, head_append h⟩
  | [b], .inl h => exact .inl h
  | [b], .inr ⟨h1, h2⟩ => exact .inr ⟨h1, head_append h2⟩
  | _ :: _ :: _, h => exact h

theorem inFirst_op {a : Val} {out : List Val} {st : List (List Val)} (h : InFirst a (out :: st)) : InFirst a ([] :: out :: st) := by
  match st, h with
  | [], h => exact .inl h
  | [_], h => exact h
  | _ :: _ :: _, h => exact h

theorem inFirst_cl {a : Val} {out top : List Val} {st : List (List Val)} (h : InFirst a (out :: top :: st)) :
    InFirst a ((top ++ [.list out]) :: st) := by
  match st, h with
  | [], .inl ⟨l, h⟩ => exact ⟨l, head_append h⟩
  | [], .inr ⟨h1, h2⟩ =>
    subst h1
    cases out with
    | nil => cases h2
    | cons x o => cases h2; exact ⟨o, rfl⟩
  | b :: r, h => exact inFirst_out (show InFirst a (top :: b :: r) from h)

theorem run_inFirst {a : Val} (ts : List Tok) (st : List (List Val)) (out : List Val) (v : Val) (hs : InFirst a (out :: st))
    (h : run st out ts = .ok v) : ∃ l, v = .list (a :: l) := by
  induction ts generalizing st out with
  | nil => cases st with
    | nil =>
      obtain ⟨l, hl⟩ := hs
      cases out with
      | nil => cases hl
      | cons b o => cases hl; simp only [run] at h; cases h; exact ⟨l, rfl⟩
    | cons b st => simp only [run] at h; cases h
  | cons t ts ih =>
    cases t with
    | op => rw [run] at h; exact ih (out :: st) [] (inFirst_op hs) h
    | atom b => rw [run] at h; exact ih st _ (inFirst_out hs) h
    | cl => cases st with
      | nil => simp only [run] at h; cases h
      | cons top st => rw [run] at h; exact ih st _ (inFirst_cl hs) h

/-- A text that starts oddly, read as the content of a list: the first child is not a list, or there is none. -/
theorem odd_first {text : Str} (h : StartsOdd text) (v : Val) (hv : parseSexp ('(' :: (text ++ [')'])) = .ok v) :
    v = .list [] ∨ ∃ a l, v = .list (a :: l) ∧ a.isList = false := by
  obtain ⟨w, c, s, rfl, hw, hc, h1, h3⟩ := h
  rw [parseSexp, lex_op, List.append_assoc, lex_spaces hw, List.cons_append] at hv
  by_cases h2 : c = ')'
  · subst h2
    rw [lex_cl, run, run] at hv
    exact .inl (run_keepsFirst _ [] [.list []] v rfl hv)
  · obtain ⟨a, ts, hl, ha⟩ := lex_odd (r := s ++ [')']) hc h1 h2 h3
    rw [hl, run, run] at hv
    obtain ⟨l, rfl⟩ := run_inFirst (a := a) ts [[]] [a] v (.inr ⟨rfl, rfl⟩) hv
    exact .inr ⟨a, l, rfl, ha⟩

theorem front_fails {α β : Type} {load : Env → Path → Option Codec → FileM β} {from_ : Val → PyM α} {f : Path → α → β} {heads : List Str} {e : PyErr}
    (hF : Faithful load (fun p text => (parseSexp text >>= from_).map (f p))) (hR : Rejects from_ heads e)
    {env : Env} {p : Path} {enc : Option Codec} {fs : FS} {text : Str} (hc : Contains env fs p enc text) (ho : StartsOdd text) :
    ∃ e, load env p enc fs = (.error e, fs) := by
  have hk := hF.keeps env p enc fs
  have : ∃ e, (parseSexp text >>= from_).map (f p) = .error e := by
    cases hv : parseSexp text with
    | error e => exact ⟨e, rfl⟩
    | ok v => exact ⟨.exception, congrArg (Except.map (f p)) (hR.notList v (odd_notList ho v hv))⟩
  obtain ⟨e, he⟩ := this
  exact ⟨e, Prod.ext (hF.malformed env p enc fs text e hc he) hk⟩

theorem loads_same {β : Type} {load : Env → Path → Option Codec → FileM β} {read : Path → Str → PyM β} (hF : Faithful load read)
    {env : Env} {p : Path} {enc : Option Codec} {fs : FS} {text : Str} (hc : Contains env fs p enc text) {o : β} (h : read p text = .ok o) :
    load env p enc fs = (.ok o, fs) := Session.load hF hc h

/-! ## LibTable -/

theorem LibTable.word {s : Str} (hs : s ≠ []) (o : LibTable) : LibTable.step o (.str s) = .ok o := by
  cases s with
  | nil => exact absurd rfl hs
  | cons c s =>
    have hu : ∀ k ∈ [k!"lib"], (Val.str [c]) ≠ .str k := short_ne (by decide)
    unfold LibTable.step
    unknownHead hu

/-- Words among the children of the expression make no difference at all. -/
theorem C83_LibTable_words {hd : Str} (hh : hd = k!"fp_lib_table" ∨ hd = k!"sym_lib_table") (l l' : List Val) (h : Littered (· ≠ []) l l') :
    LibTable.fromSexpr (.list (.str hd :: l')) = LibTable.fromSexpr (.list (.str hd :: l)) := by
  rw [LibTable.loopEq hh, LibTable.loopEq hh]
  exact forM_littered (fun _ hs => LibTable.word hs) (.keep _ h) _

/-- A file with an unresolved merge conflict among the children of its expression is loaded as if it contained the items of both
versions. -/
theorem C83_LibTable_violated [TextRule] {hd : Str} (hh : hd = k!"fp_lib_table" ∨ hd = k!"sym_lib_table") (xs ours theirs ys : List Val) (name name' : List Str) (hn : ∀ s ∈ name, s ≠ []) (hn' : ∀ s ∈ name', s ≠ [])
    (env : Env) (p : Path) (enc : Option Codec) (fs : FS) (text : Str) (hc : Contains env fs p enc text)
    (ht : TextOf (.list (.str hd :: (xs ++ (conflict ours theirs name name' ++ ys)))) text)
    (o : LibTable) (ho : LibTable.fromSexpr (.list (.str hd :: (xs ++ (ours ++ (theirs ++ ys))))) = .ok o) :
    LibTable.fromFile env p enc fs = (.ok { o with filePath := some p }, fs) := by
  refine loads_same C58_LibTable hc ?_
  show (parseSexp text >>= LibTable.fromSexpr).map _ = _
  rw [textOf_parse ht]
  exact congrArg (Except.map _) ((C83_LibTable_words hh _ _ (conflict_littered (by decide) (by decide) (by decide) hn hn' xs ours theirs ys)).trans ho)

/-- A number among the children is noticed. -/
theorem C83_LibTable_number_partial {hd : Str} (hh : hd = k!"fp_lib_table" ∨ hd = k!"sym_lib_table") (xs ys : List Val) (v : Val) (hv : IsNumber v) (o : LibTable) :
    LibTable.fromSexpr (.list (.str hd :: (xs ++ v :: ys))) ≠ .ok o := by
  rw [LibTable.loopEq hh]
  refine forM_stops (e := .typeError) (fun o => ?_) _ (.str hd :: xs) ys o
  cases v with
  | int _ => rfl
  | flt _ => rfl
  | _ => cases hv

/-- Text in front of the expression is noticed. -/
theorem C83_LibTable_front_partial (env : Env) (p : Path) (enc : Option Codec) (fs : FS) (text : Str) (hc : Contains env fs p enc text) (h : StartsOdd text) :
    ∃ e, LibTable.fromFile env p enc fs = (.error e, fs) :=
  front_fails (f := fun p o => { o with filePath := some p }) C58_LibTable C09_LibTable hc h

/-! ## WorkSheet -/

theorem WorkSheet.word {s : Str} (hs : s ≠ []) (o : WorkSheet) : WorkSheet.step o (.str s) = .ok o := by
  cases s with
  | nil => exact absurd rfl hs
  | cons c s =>
    have hu : ∀ k ∈ [k!"version", k!"generator", k!"setup", k!"rect", k!"line", k!"polygon", k!"tbtext", k!"bitmap"], (Val.str [c]) ≠ .str k := short_ne (by decide)
    unfold WorkSheet.step
    unknownHead hu

/-- Words among the children of the expression make no difference at all. -/
theorem C83_WorkSheet_words (l l' : List Val) (h : Littered (· ≠ []) l l') :
    WorkSheet.fromSexpr (.list (.str k!"kicad_wks" :: l')) = WorkSheet.fromSexpr (.list (.str k!"kicad_wks" :: l)) := by
  rw [WorkSheet.loopEq, WorkSheet.loopEq]
  exact forM_littered (fun _ hs => WorkSheet.word hs) (h) _

/-- A file with an unresolved merge conflict among the children of its expression is loaded as if it contained the items of both
versions. -/
theorem C83_WorkSheet_violated [TextRule] (xs ours theirs ys : List Val) (name name' : List Str) (hn : ∀ s ∈ name, s ≠ []) (hn' : ∀ s ∈ name', s ≠ [])
    (env : Env) (p : Path) (enc : Option Codec) (fs : FS) (text : Str) (hc : Contains env fs p enc text)
    (ht : TextOf (.list (.str k!"kicad_wks" :: (xs ++ (conflict ours theirs name name' ++ ys)))) text)
    (o : WorkSheet) (ho : WorkSheet.fromSexpr (.list (.str k!"kicad_wks" :: (xs ++ (ours ++ (theirs ++ ys))))) = .ok o) :
    WorkSheet.fromFile env p enc fs = (.ok { o with filePath := some p }, fs) := by
  refine loads_same C58_WorkSheet hc ?_
  show (parseSexp text >>= WorkSheet.fromSexpr).map _ = _
  rw [textOf_parse ht]
  exact congrArg (Except.map _) ((C83_WorkSheet_words _ _ (conflict_littered (by decide) (by decide) (by decide) hn hn' xs ours theirs ys)).trans ho)

/-- A number among the children is noticed. -/
theorem C83_WorkSheet_number_partial (xs ys : List Val) (v : Val) (hv : IsNumber v) (o : WorkSheet) :
    WorkSheet.fromSexpr (.list (.str k!"kicad_wks" :: (xs ++ v :: ys))) ≠ .ok o := by
  rw [WorkSheet.loopEq]
  refine forM_stops (e := .typeError) (fun o => ?_) _ xs ys o
  cases v with
  | int _ => rfl
  | flt _ => rfl
  | _ => cases hv

/-- Text in front of the expression is noticed. -/
theorem C83_WorkSheet_front_partial (env : Env) (p : Path) (enc : Option Codec) (fs : FS) (text : Str) (hc : Contains env fs p enc text) (h : StartsOdd text) :
    ∃ e, WorkSheet.fromFile env p enc fs = (.error e, fs) :=
  front_fails (f := fun p o => { o with filePath := some p }) C58_WorkSheet C09_WorkSheet hc h

/-! ## SymbolLib -/

theorem SymbolLib.word {s : Str} (hs : s ≠ []) (o : SymbolLib) : SymbolLib.step o (.str s) = .ok o := by
  cases s with
  | nil => exact absurd rfl hs
  | cons c s =>
    have hu : ∀ k ∈ [k!"version", k!"generator", k!"symbol"], (Val.str [c]) ≠ .str k := short_ne (by decide)
    unfold SymbolLib.step
    unknownHead hu

/-- Words among the children of the expression make no difference at all. -/
theorem C83_SymbolLib_words (l l' : List Val) (h : Littered (· ≠ []) l l') :
    SymbolLib.fromSexpr (.list (.str k!"kicad_symbol_lib" :: l')) = SymbolLib.fromSexpr (.list (.str k!"kicad_symbol_lib" :: l)) := by
  rw [SymbolLib.loopEq, SymbolLib.loopEq]
  exact forM_littered (fun _ hs => SymbolLib.word hs) (h) _

/-- A file with an unresolved merge conflict among the children of its expression is loaded as if it contained the items of both
versions. -/
theorem C83_SymbolLib_violated [TextRule] (xs ours theirs ys : List Val) (name name' : List Str) (hn : ∀ s ∈ name, s ≠ []) (hn' : ∀ s ∈ name', s ≠ [])
    (env : Env) (p : Path) (enc : Option Codec) (fs : FS) (text : Str) (hc : Contains env fs p enc text)
    (ht : TextOf (.list (.str k!"kicad_symbol_lib" :: (xs ++ (conflict ours theirs name name' ++ ys)))) text)
    (o : SymbolLib) (ho : SymbolLib.fromSexpr (.list (.str k!"kicad_symbol_lib" :: (xs ++ (ours ++ (theirs ++ ys))))) = .ok o) :
    SymbolLib.fromFile env p enc fs = (.ok { o with filePath := some p }, fs) := by
  refine loads_same C58_SymbolLib hc ?_
  show (parseSexp text >>= SymbolLib.fromSexpr).map _ = _
  rw [textOf_parse ht]
  exact congrArg (Except.map _) ((C83_SymbolLib_words _ _ (conflict_littered (by decide) (by decide) (by decide) hn hn' xs ours theirs ys)).trans ho)

/-- A number among the children is noticed. -/
theorem C83_SymbolLib_number_partial (xs ys : List Val) (v : Val) (hv : IsNumber v) (o : SymbolLib) :
    SymbolLib.fromSexpr (.list (.str k!"kicad_symbol_lib" :: (xs ++ v :: ys))) ≠ .ok o := by
  rw [SymbolLib.loopEq]
  refine forM_stops (e := .typeError) (fun o => ?_) _ xs ys o
  cases v with
  | int _ => rfl
  | flt _ => rfl
  | _ => cases hv

/-- Text in front of the expression is noticed. -/
theorem C83_SymbolLib_front_partial (env : Env) (p : Path) (enc : Option Codec) (fs : FS) (text : Str) (hc : Contains env fs p enc text) (h : StartsOdd text) :
    ∃ e, SymbolLib.fromFile env p enc fs = (.error e, fs) :=
  front_fails (f := fun p o => { o with filePath := some p }) C58_SymbolLib C09_SymbolLib hc h

/-! ## Schematic -/

theorem Schematic.word {s : Str} (hs : s ≠ []) (o : Schematic) : Schematic.step o (.str s) = .ok o := by
  cases s with
  | nil => exact absurd rfl hs
  | cons c s =>
    have hu : ∀ k ∈ [k!"version", k!"generator", k!"uuid", k!"paper", k!"title_block", k!"lib_symbols", k!"junction", k!"no_connect", k!"bus_entry", k!"bus_alias", k!"wire", k!"bus", k!"polyline", k!"arc", k!"circle", k!"rectangle", k!"image", k!"text", k!"text_box", k!"label", k!"global_label", k!"hierarchical_label", k!"netclass_flag", k!"symbol", k!"sheet", k!"sheet_instances", k!"symbol_instances"], (Val.str [c]) ≠ .str k := short_ne (by decide)
    unfold Schematic.step
    unknownHead hu

/-- Words among the children of the expression make no difference at all. -/
theorem C83_Schematic_words (l l' : List Val) (h : Littered (· ≠ []) l l') :
    Schematic.fromSexpr (.list (.str k!"kicad_sch" :: l')) = Schematic.fromSexpr (.list (.str k!"kicad_sch" :: l)) := by
  rw [Schematic.loopEq, Schematic.loopEq]
  exact forM_littered (fun _ hs => Schematic.word hs) (.keep _ h) _

/-- A file with an unresolved merge conflict among the children of its expression is loaded as if it contained the items of both
versions. -/
theorem C83_Schematic_violated [TextRule] (xs ours theirs ys : List Val) (name name' : List Str) (hn : ∀ s ∈ name, s ≠ []) (hn' : ∀ s ∈ name', s ≠ [])
    (env : Env) (p : Path) (enc : Option Codec) (fs : FS) (text : Str) (hc : Contains env fs p enc text)
    (ht : TextOf (.list (.str k!"kicad_sch" :: (xs ++ (conflict ours theirs name name' ++ ys)))) text)
    (o : Schematic) (ho : Schematic.fromSexpr (.list (.str k!"kicad_sch" :: (xs ++ (ours ++ (theirs ++ ys))))) = .ok o) :
    Schematic.fromFile env p enc fs = (.ok { o with filePath := some p }, fs) := by
  refine loads_same C58_Schematic hc ?_
  show (parseSexp text >>= Schematic.fromSexpr).map _ = _
  rw [textOf_parse ht]
  exact congrArg (Except.map _) ((C83_Schematic_words _ _ (conflict_littered (by decide) (by decide) (by decide) hn hn' xs ours theirs ys)).trans ho)

/-- A number among the children is noticed. -/
theorem C83_Schematic_number_partial (xs ys : List Val) (v : Val) (hv : IsNumber v) (o : Schematic) :
    Schematic.fromSexpr (.list (.str k!"kicad_sch" :: (xs ++ v :: ys))) ≠ .ok o := by
  rw [Schematic.loopEq]
  refine forM_stops (e := .typeError) (fun o => ?_) _ (.str k!"kicad_sch" :: xs) ys o
  cases v with
  | int _ => rfl
  | flt _ => rfl
  | _ => cases hv

/-- Text in front of the expression is noticed. -/
theorem C83_Schematic_front_partial (env : Env) (p : Path) (enc : Option Codec) (fs : FS) (text : Str) (hc : Contains env fs p enc text) (h : StartsOdd text) :
    ∃ e, Schematic.fromFile env p enc fs = (.error e, fs) :=
  front_fails (f := fun p o => { o with filePath := some p }) C58_Schematic C09_Schematic hc h

/-! ## Board -/

theorem Board.word (tedit : Val) {s : Str} (hs : s ≠ []) (o : Board) : Board.step tedit o (.str s) = .ok o := by
  cases s with
  | nil => exact absurd rfl hs
  | cons c s =>
    have hu : ∀ k ∈ [k!"version", k!"generator", k!"general", k!"paper", k!"title_block", k!"layers", k!"setup", k!"property", k!"net", k!"footprint", k!"gr_text", k!"gr_text_box", k!"gr_line", k!"gr_rect", k!"gr_circle", k!"gr_arc", k!"gr_poly", k!"gr_curve", k!"image", k!"dimension", k!"target", k!"segment", k!"arc", k!"via", k!"zone", k!"group"], (Val.str [c]) ≠ .str k := short_ne (by decide)
    unfold Board.step
    unknownHead hu

/-- Words among the children of the expression make no difference at all. -/
theorem C83_Board_words (tedit : Val) (l l' : List Val) (h : Littered (· ≠ []) l l') :
    Board.fromSexpr tedit (.list (.str k!"kicad_pcb" :: l')) = Board.fromSexpr tedit (.list (.str k!"kicad_pcb" :: l)) := by
  rw [Board.loopEq tedit, Board.loopEq tedit]
  exact forM_littered (fun _ hs => Board.word tedit hs) (.keep _ h) _

/-- A file with an unresolved merge conflict among the children of its expression is loaded as if it contained the items of both
versions. -/
theorem C83_Board_violated [TextRule] (tedit : Val) (xs ours theirs ys : List Val) (name name' : List Str) (hn : ∀ s ∈ name, s ≠ []) (hn' : ∀ s ∈ name', s ≠ [])
    (env : Env) (p : Path) (enc : Option Codec) (fs : FS) (text : Str) (hc : Contains env fs p enc text)
    (ht : TextOf (.list (.str k!"kicad_pcb" :: (xs ++ (conflict ours theirs name name' ++ ys)))) text)
    (o : Board) (ho : Board.fromSexpr tedit (.list (.str k!"kicad_pcb" :: (xs ++ (ours ++ (theirs ++ ys))))) = .ok o) :
    Board.fromFile env tedit p enc fs = (.ok { o with filePath := some p }, fs) := by
  refine loads_same (C58_Board tedit) hc ?_
  show (parseSexp text >>= Board.fromSexpr tedit).map _ = _
  rw [textOf_parse ht]
  exact congrArg (Except.map _) ((C83_Board_words tedit _ _ (conflict_littered (by decide) (by decide) (by decide) hn hn' xs ours theirs ys)).trans ho)

/-- A number among the children is noticed. -/
theorem C83_Board_number_partial (tedit : Val) (xs ys : List Val) (v : Val) (hv : IsNumber v) (o : Board) :
    Board.fromSexpr tedit (.list (.str k!"kicad_pcb" :: (xs ++ v :: ys))) ≠ .ok o := by
  rw [Board.loopEq tedit]
  refine forM_stops (e := .typeError) (fun o => ?_) _ (.str k!"kicad_pcb" :: xs) ys o
  cases v with
  | int _ => rfl
  | flt _ => rfl
  | _ => cases hv

/-- Text in front of the expression is noticed. -/
theorem C83_Board_front_partial (tedit : Val) (env : Env) (p : Path) (enc : Option Codec) (fs : FS) (text : Str) (hc : Contains env fs p enc text) (h : StartsOdd text) :
    ∃ e, Board.fromFile env tedit p enc fs = (.error e, fs) :=
  front_fails (f := fun p o => { o with filePath := some p }) (C58_Board tedit) (C09_Board tedit) hc h

/-! ## DesignRules -/

theorem DesignRules.word {s : Str} (hs : s ≠ []) (o : DesignRules) : DesignRules.step o (.str s) = .ok o := by
  cases s with
  | nil => exact absurd rfl hs
  | cons c s =>
    have hu : ∀ k ∈ [k!"version", k!"rule"], (Val.str [c]) ≠ .str k := short_ne (by decide)
    unfold DesignRules.step
    unknownHead hu

/-- Words after the version make no difference at all. -/
theorem C83_DesignRules_words (r : List Val) (l l' : List Val) (h : Littered (· ≠ []) l l') :
    DesignRules.fromSexpr (.list (.list (.str k!"version" :: r) :: l')) = DesignRules.fromSexpr (.list (.list (.str k!"version" :: r) :: l)) := by
  rw [DesignRules.loopEq, DesignRules.loopEq]
  exact forM_littered (fun _ hs => DesignRules.word hs) (.keep _ h) _

/-- A file with an unresolved merge conflict after the version is loaded as if it contained the rules of both versions. -/
theorem C83_DesignRules_violated [TextRule] (r xs ours theirs ys : List Val) (name name' : List Str) (hn : ∀ s ∈ name, s ≠ []) (hn' : ∀ s ∈ name', s ≠ [])
    (env : Env) (p : Path) (enc : Option Codec) (fs : FS) (text : Str) (hc : Contains env fs p enc text)
    (ht : PrintsSeq (.list (.str k!"version" :: r) :: (xs ++ (conflict ours theirs name name' ++ ys))) text)
    (o : DesignRules) (ho : DesignRules.fromSexpr (.list (.list (.str k!"version" :: r) :: (xs ++ (ours ++ (theirs ++ ys))))) = .ok o) :
    DesignRules.fromFile env p enc fs = (.ok { o with filePath := some p }, fs) := by
  refine loads_same C58_DesignRules hc ?_
  have hp := C06_tree_round_trip _ _ ⟨[], text, (fun c hc => nomatch hc), ht, rfl⟩
  show (parseSexp ([] ++ '(' :: (text ++ [')'])) >>= DesignRules.fromSexpr).map _ = _
  rw [hp]
  exact congrArg (Except.map _) ((C83_DesignRules_words r _ _ (conflict_littered (by decide) (by decide) (by decide) hn hn' xs ours theirs ys)).trans ho)

/-- A number among the items is noticed. -/
theorem C83_DesignRules_number_partial (r xs ys : List Val) (v : Val) (hv : IsNumber v) (o : DesignRules) :
    DesignRules.fromSexpr (.list (.list (.str k!"version" :: r) :: (xs ++ v :: ys))) ≠ .ok o := by
  rw [DesignRules.loopEq]
  refine forM_stops (e := .typeError) (fun o => ?_) _ (.list (.str k!"version" :: r) :: xs) ys o
  cases v with
  | int _ => rfl
  | flt _ => rfl
  | _ => cases hv

/-- Text in front of the first expression is noticed. -/
theorem C83_DesignRules_front_partial (env : Env) (p : Path) (enc : Option Codec) (fs : FS) (text : Str) (hc : Contains env fs p enc text) (h : StartsOdd text) :
    ∃ e, DesignRules.fromFile env p enc fs = (.error e, fs) := by
  have : ∃ e, (parseSexp ('(' :: (text ++ [')'])) >>= DesignRules.fromSexpr).map (fun o => { o with filePath := some p }) = .error e := by
    cases hv : parseSexp ('(' :: (text ++ [')'])) with
    | error e => exact ⟨e, rfl⟩
    | ok v =>
      rcases odd_first h v hv with rfl | ⟨a, l, rfl, ha⟩
      · exact ⟨_, rfl⟩
      · cases a <;> first | exact ⟨_, rfl⟩ | cases ha
  obtain ⟨e, he⟩ := this
  exact ⟨e, Prod.ext (C58_DesignRules.malformed env p enc fs text e hc he) (C58_DesignRules.keeps env p enc fs)⟩

/-! ## Footprint

The reader of footprints looks for the words `locked` and `placed` among the children and ignores all other words and all numbers. -/

theorem Footprint.word {s : Str} (hs : s ≠ k!"locked" ∧ s ≠ k!"placed") (o : Footprint) : Footprint.step o (.str s) = .ok o := by
  have hu : ∀ k ∈ [k!"locked", k!"placed"], (Val.str s) ≠ .str k := by
    intro k hk he
    cases he
    simp only [List.mem_cons, List.not_mem_nil, or_false] at hk
    rcases hk with h | h
    · exact hs.1 h
    · exact hs.2 h
  show (if (Val.str s).is k!"locked" = true then _ else if (Val.str s).is k!"placed" = true then _ else _) = _
  rw [is_false_of_ne hu (by decide), is_false_of_ne hu (by decide)]
  rfl

/-- Words other than `locked` and `placed` among the children make no difference at all. -/
theorem C83_Footprint_words (tedit : Val) {hd : Str} (hh : hd = k!"module" ∨ hd = k!"footprint") (id : Val) (l l' : List Val)
    (h : Littered (fun s => s ≠ k!"locked" ∧ s ≠ k!"placed") l l') :
    Footprint.fromSexpr tedit (.list (.str hd :: id :: l')) = Footprint.fromSexpr tedit (.list (.str hd :: id :: l)) := by
  rw [Footprint.loopEq tedit id hh, Footprint.loopEq tedit id hh]
  exact forM_littered (fun _ hs => Footprint.word hs) h _

/-- A file with an unresolved merge conflict among the children of its expression is loaded as if it contained the items of both
versions. -/
theorem C83_Footprint_violated [TextRule] (tedit : Val) {hd : Str} (hh : hd = k!"module" ∨ hd = k!"footprint") (id : Val) (xs ours theirs ys : List Val)
    (name name' : List Str) (hn : ∀ s ∈ name, s ≠ k!"locked" ∧ s ≠ k!"placed") (hn' : ∀ s ∈ name', s ≠ k!"locked" ∧ s ≠ k!"placed")
    (env : Env) (p : Path) (enc : Option Codec) (fs : FS) (text : Str) (hc : Contains env fs p enc text)
    (ht : TextOf (.list (.str hd :: id :: (xs ++ (conflict ours theirs name name' ++ ys)))) text)
    (o : Footprint) (ho : Footprint.fromSexpr tedit (.list (.str hd :: id :: (xs ++ (ours ++ (theirs ++ ys))))) = .ok o) :
    Footprint.fromFile env tedit p enc fs = (.ok o, fs) := by
  refine loads_same (C58_Footprint tedit) hc ?_
  show (parseSexp text >>= Footprint.fromSexpr tedit) = _
  rw [textOf_parse ht]
  exact (C83_Footprint_words tedit hh id _ _ (conflict_littered (by decide) (by decide) (by decide) hn hn' xs ours theirs ys)).trans ho

/-- Numbers are not noticed either. -/
theorem C83_Footprint_number_violated (tedit : Val) {hd : Str} (hh : hd = k!"module" ∨ hd = k!"footprint") (id : Val) (xs ys : List Val) (v : Val) (hv : IsNumber v) :
    Footprint.fromSexpr tedit (.list (.str hd :: id :: (xs ++ v :: ys))) = Footprint.fromSexpr tedit (.list (.str hd :: id :: (xs ++ ys))) := by
  rw [Footprint.loopEq tedit id hh, Footprint.loopEq tedit id hh]
  refine forM_insert (fun o => ?_) _ xs ys
  cases v with
  | int _ => rfl
  | flt _ => rfl
  | _ => cases hv

/-- Text in front of the expression is noticed. -/
theorem C83_Footprint_front_partial (tedit : Val) (env : Env) (p : Path) (enc : Option Codec) (fs : FS) (text : Str) (hc : Contains env fs p enc text) (h : StartsOdd text) :
    ∃ e, Footprint.fromFile env tedit p enc fs = (.error e, fs) := by
  have : ∃ e, (parseSexp text >>= Footprint.fromSexpr tedit) = .error e := by
    cases hv : parseSexp text with
    | error e => exact ⟨e, rfl⟩
    | ok v => exact ⟨.exception, (C09_Footprint tedit).notList v (odd_notList h v hv)⟩
  obtain ⟨e, he⟩ := this
  exact ⟨e, Prod.ext ((C58_Footprint tedit).malformed env p enc fs text e hc he) ((C58_Footprint tedit).keeps env p enc fs)⟩

/-! ## Cases -/

section Cases

/-- A file with one tree. -/
theorem spelled_in [DecidablePred TextRule.text] {v : Val} (h : spellable v = true) :
    Contains (Env.simple .latin1 false) (FS.spelled v) k!"a" none (Kiutils.spelled v) ∧ TextOf v (Kiutils.spelled v) :=
  ⟨spelled_contains h false, spelled_textOf h⟩

set_option maxRecDepth 100000 in
example := C83_Board_violated (.int 0) [.list [.str k!"version", .int 1]] [.list [.str k!"net", .int 1, .str k!"A"]] [.list [.str k!"net", .int 1, .str k!"B"]] [] [k!"HEAD"] [k!"feature"] (by decide) (by decide) _ _ none _ _
  (spelled_in (v := .list (.str k!"kicad_pcb" :: ([.list [.str k!"version", .int 1]] ++ (conflict [.list [.str k!"net", .int 1, .str k!"A"]] [.list [.str k!"net", .int 1, .str k!"B"]] [k!"HEAD"] [k!"feature"] ++ [])))) (by decide +kernel)).1 (spelled_in (by decide +kernel)).2 _ rfl
set_option maxRecDepth 100000 in
example := C83_Schematic_violated  [.list [.str k!"version", .int 1]] [.list [.str k!"uuid", .str k!"a"]] [.list [.str k!"uuid", .str k!"b"]] [] [k!"HEAD"] [k!"feature"] (by decide) (by decide) _ _ none _ _
  (spelled_in (v := .list (.str k!"kicad_sch" :: ([.list [.str k!"version", .int 1]] ++ (conflict [.list [.str k!"uuid", .str k!"a"]] [.list [.str k!"uuid", .str k!"b"]] [k!"HEAD"] [k!"feature"] ++ [])))) (by decide +kernel)).1 (spelled_in (by decide +kernel)).2 _ rfl
set_option maxRecDepth 100000 in
example := C83_SymbolLib_violated  [.list [.str k!"version", .int 1]] [.list [.str k!"symbol", .str k!"a"]] [.list [.str k!"symbol", .str k!"b"]] [] [k!"HEAD"] [k!"feature"] (by decide) (by decide) _ _ none _ _
  (spelled_in (v := .list (.str k!"kicad_symbol_lib" :: ([.list [.str k!"version", .int 1]] ++ (conflict [.list [.str k!"symbol", .str k!"a"]] [.list [.str k!"symbol", .str k!"b"]] [k!"HEAD"] [k!"feature"] ++ [])))) (by decide +kernel)).1 (spelled_in (by decide +kernel)).2 _ rfl
set_option maxRecDepth 100000 in
example := C83_WorkSheet_violated  [.list [.str k!"version", .int 1]] [.list [.str k!"generator", .str k!"a"]] [.list [.str k!"generator", .str k!"b"]] [] [k!"HEAD"] [k!"feature"] (by decide) (by decide) _ _ none _ _
  (spelled_in (v := .list (.str k!"kicad_wks" :: ([.list [.str k!"version", .int 1]] ++ (conflict [.list [.str k!"generator", .str k!"a"]] [.list [.str k!"generator", .str k!"b"]] [k!"HEAD"] [k!"feature"] ++ [])))) (by decide +kernel)).1 (spelled_in (by decide +kernel)).2 _ rfl
set_option maxRecDepth 100000 in
example := C83_LibTable_violated (.inr rfl) [] [.list [.str k!"lib", .list [.str k!"name", .str k!"a"]]] [.list [.str k!"lib", .list [.str k!"name", .str k!"b"]]] [] [k!"HEAD"] [k!"feature"] (by decide) (by decide) _ _ none _ _
  (spelled_in (v := .list (.str k!"sym_lib_table" :: ([] ++ (conflict [.list [.str k!"lib", .list [.str k!"name", .str k!"a"]]] [.list [.str k!"lib", .list [.str k!"name", .str k!"b"]]] [k!"HEAD"] [k!"feature"] ++ [])))) (by decide +kernel)).1 (spelled_in (by decide +kernel)).2 _ rfl
set_option maxRecDepth 100000 in
example := C83_Footprint_violated (.int 0) (.inr rfl) (.str k!"R") [.list [.str k!"version", .int 1]] [.list [.str k!"layer", .str k!"F.Cu"]] [.list [.str k!"layer", .str k!"B.Cu"]] [] [k!"HEAD"] [k!"feature"] (by decide) (by decide) _ _ none _ _
  (spelled_in (v := .list (.str k!"footprint" :: .str k!"R" :: ([.list [.str k!"version", .int 1]] ++ (conflict [.list [.str k!"layer", .str k!"F.Cu"]] [.list [.str k!"layer", .str k!"B.Cu"]] [k!"HEAD"] [k!"feature"] ++ [])))) (by decide +kernel)).1 (spelled_in (by decide +kernel)).2 _ rfl
/-- A text of design rules with a conflict. -/
def conflictRules : List Val := .list [.str k!"version", .int 1] :: ([] ++ (conflict [.list [.str k!"rule", .str k!"a"]] [.list [.str k!"rule", .str k!"b"]] [k!"HEAD"] [k!"feature"] ++ []))
theorem conflictRules_ok : PrintsSeq conflictRules ((spellSeq conflictRules).getD []) :=
  spellSeq_prints _ _ (Option.some_get (by decide +kernel : (spellSeq conflictRules).isSome)).symm
set_option maxRecDepth 100000 in
example := C83_DesignRules_violated [.int 1] [] [.list [.str k!"rule", .str k!"a"]] [.list [.str k!"rule", .str k!"b"]] [] [k!"HEAD"] [k!"feature"] (by decide) (by decide)
  (Env.simple .latin1 false) k!"a" none (FS.two k!"a" k!"b" (latin ((spellSeq conflictRules).getD [])) [2]) _ (latin_contains (by decide +kernel) false) conflictRules_ok _ rfl
example := C83_Board_number_partial (.int 0) [.list [.str k!"version", .int 1]] [] (.int 7) trivial
example := C83_Board_words (.int 0) _ _ (.keep (.list [.str k!"version", .int 1]) (.word (s := k!"stray") (by decide) .nil))
example := C83_Schematic_number_partial  [.list [.str k!"version", .int 1]] [] (.int 7) trivial
example := C83_Schematic_words _ _ (.keep (.list [.str k!"version", .int 1]) (.word (s := k!"stray") (by decide) .nil))
example := C83_SymbolLib_number_partial  [.list [.str k!"version", .int 1]] [] (.int 7) trivial
example := C83_SymbolLib_words _ _ (.keep (.list [.str k!"version", .int 1]) (.word (s := k!"stray") (by decide) .nil))
example := C83_WorkSheet_number_partial  [.list [.str k!"version", .int 1]] [] (.int 7) trivial
example := C83_WorkSheet_words _ _ (.keep (.list [.str k!"version", .int 1]) (.word (s := k!"stray") (by decide) .nil))
example := C83_LibTable_number_partial (.inr rfl) [.list [.str k!"version", .int 1]] [] (.int 7) trivial
example := C83_LibTable_words (.inr rfl) _ _ (.keep (.list [.str k!"version", .int 1]) (.word (s := k!"stray") (by decide) .nil))
example := C83_DesignRules_number_partial [.int 1] [.list [.str k!"version", .int 1]] [] (.int 7) trivial
example := C83_DesignRules_words [.int 1] _ _ (.keep (.list [.str k!"version", .int 1]) (.word (s := k!"stray") (by decide) .nil))
example := C83_Footprint_number_violated (.int 0) (.inr rfl) (.str k!"R") [.list [.str k!"version", .int 1]] [] (.int 7) trivial
example := C83_Footprint_words (.int 0) (.inr rfl) (.str k!"R") _ _ (.keep (.list [.str k!"version", .int 1]) (.word (s := k!"stray") (by decide) .nil))

/-- A word in front of an expression. -/
theorem startsOdd_word : StartsOdd k!"\n x (kicad_pcb)" := ⟨k!"\n ", 'x', k!" (kicad_pcb)", rfl, by decide, by decide, by decide, by decide⟩
/-- A byte order mark in front of an expression. -/
theorem startsOdd_mark (s : Str) : StartsOdd ('\uFEFF' :: s) := ⟨[], '\uFEFF', s, rfl, by decide, by decide, by decide, by decide⟩
/-- A file with a byte order mark, in UTF-8. -/
theorem mark_contains : Contains (Env.simple .utf8 false) (FS.two k!"a" k!"b" ([0xEF, 0xBB, 0xBF] ++ latin k!"(kicad_pcb)") [2]) k!"a" none ('\uFEFF' :: k!"(kicad_pcb)") :=
  ⟨_, _, rfl, rfl, (by show Codec.utf8.decode _ = some ('\uFEFF' :: k!"(kicad_pcb)"); decide +kernel), by repeat (first | exact .nil | refine .other (by decide) ?_)⟩
example := C83_Board_front_partial (.int 0) _ _ _ _ _ mark_contains (startsOdd_mark _)
example := C83_Footprint_front_partial (.int 0) _ _ _ _ _ mark_contains (startsOdd_mark _)
example := C83_Schematic_front_partial _ _ _ _ _ mark_contains (startsOdd_mark _)
example := C83_SymbolLib_front_partial _ _ _ _ _ mark_contains (startsOdd_mark _)
example := C83_WorkSheet_front_partial _ _ _ _ _ mark_contains (startsOdd_mark _)
example := C83_LibTable_front_partial _ _ _ _ _ mark_contains (startsOdd_mark _)
example := C83_DesignRules_front_partial _ _ _ _ _ mark_contains (startsOdd_mark _)

end Cases

end Kiutils
