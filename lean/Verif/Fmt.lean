import Verif.Py
import Verif.Numbers
import Verif.TextRule
/-!
# Framework: what a piece of text denotes

* `toks v` — the tokens of a value, `run_toks` — the reader turns them into the value;
* kinds of well-formed scalar attributes (`NumOk`, `TokOk`, `TextOk`, …);
* `lx_*` — one lemma per kind of text fragment, in continuation form: `s ⇛ t → (fragment ++ s) ⇛ tokens ++ t`;
* `fold_*` — one lemma per kind of field, for the loops of `from_sexpr`.
-/
namespace Kiutils

/-! ## Tokens of a value -/

mutual
/-- The tokens of a value. -/
def toks : Val → List Tok
  | .list l => .op :: (toksL l ++ [.cl])
  | .int n => [.atom (.int n)]
  | .flt f => [.atom (.flt f)]
  | .str s => [.atom (.str s)]
/-- The tokens of the elements of a list. -/
def toksL : List Val → List Tok
  | [] => []
  | v :: r => toks v ++ toksL r
end

theorem toks_list (l : List Val) : toks (.list l) = .op :: (toksL l ++ [.cl]) := by rw [toks]
theorem toks_str (s : Str) : toks (.str s) = [.atom (.str s)] := by rw [toks]
theorem toksL_nil : toksL [] = [] := by rw [toksL]
theorem toksL_cons (v : Val) (r : List Val) : toksL (v :: r) = toks v ++ toksL r := by rw [toksL]
theorem toksL_append (a b : List Val) : toksL (a ++ b) = toksL a ++ toksL b := by
  induction a with
  | nil => simp [toksL_nil]
  | cons v r ih => simp [toksL_cons, ih]

mutual
theorem run_toks (v : Val) (st : List (List Val)) (out : List Val) (ts : List Tok) :
    run st out (toks v ++ ts) = run st (out ++ [v]) ts := by
  match v with
  | .int n => simp [toks, run]
  | .flt n => simp [toks, run]
  | .str n => simp [toks, run]
  | .list l =>
    rw [toks_list, List.cons_append, run, List.append_assoc, run_toksL l (out :: st) [] _]
    simp [run]
theorem run_toksL (l : List Val) (st : List (List Val)) (out : List Val) (ts : List Tok) :
    run st out (toksL l ++ ts) = run st (out ++ l) ts := by
  match l with
  | [] => simp [toksL_nil]
  | v :: r =>
    rw [toksL_cons, List.append_assoc, run_toks v st out _, run_toksL r st (out ++ [v]) ts]
    simp
end

/-- A text whose tokens are those of `v` is read as `v`. -/
theorem parse_of_lex {s : Str} {v : Val} (h : lex s = toks v) : parseSexp s = .ok v := by
  have := run_toks v [] [] []
  rw [List.append_nil] at this
  rw [parseSexp, h, this]
  simp [run]

/-! ## Kinds of scalar attributes -/

/-- A number that is written and read back exactly: an int that is a double (every int of at most 2^53 in absolute value is,
`exactInt_of_le`), or a float in plain decimal notation. -/
def NumOk : Val → Prop
  | .int n => ExactInt n
  | .flt f => f.Plain
  | _ => False

/-- A word that can be written without quotes at the end of a line: not empty, without blanks, brackets or `^`, not starting
with a quote (`TextRule.word`). -/
def LineOk [TextRule] : Val → Prop
  | .str s => s ≠ [] ∧ (∀ c ∈ s, isBare c = true) ∧ TextRule.word s
  | _ => False

/-- A word that can be written without quotes anywhere: as `LineOk`, and not read as a number. -/
def TokOk [TextRule] : Val → Prop
  | .str s => s ≠ [] ∧ (∀ c ∈ s, isBare c = true) ∧ TextRule.word s ∧ looksNumeric s = false
  | _ => False

/-- A number or an unquoted word. -/
def AtomOk [TextRule] (v : Val) : Prop := NumOk v ∨ TokOk v

/-- A text that can be written between quotes: it does not end in a backslash (or meets another rule for texts). -/
def TextOk [TextRule] : Val → Prop
  | .str s => TextRule.text s
  | _ => False

/-- As `TokOk`, without quotes. -/
def WordOk [TextRule] (v : Val) : Prop := TokOk v ∧ '"' ∉ v.pyStr

/-- A text that can be written between quotes without escapes: it has no quotes and does not end in a backslash. -/
def RawOk [TextRule] (v : Val) : Prop := TextOk v ∧ '"' ∉ v.pyStr

theorem dequote_noQuote (s : Str) (h : '"' ∉ s) : dequote s = s := by
  induction s with
  | nil => rfl
  | cons c s ih =>
    simp only [List.mem_cons, not_or] at h
    have hc : ¬ c = '"' := fun e => h.1 e.symm
    simp [dequote, hc, ih h.2]

theorem canon_str (s : Str) : Val.canon (.str s) = .str s := rfl
theorem canon_canon (v : Val) : v.canon.canon = v.canon := by
  cases v with
  | flt f =>
    by_cases h : f.isInteger = true
    · simp [Val.canon, h]
    · simp [Val.canon, h]
  | _ => rfl

theorem TextOk.canon [TextRule] {v : Val} (h : TextOk v) : v.canon = v := by
  cases v <;> first | rfl | exact absurd h id
theorem TokOk.canon [TextRule] {v : Val} (h : TokOk v) : v.canon = v := by
  cases v <;> first | rfl | exact absurd h id
theorem LineOk.canon [TextRule] {v : Val} (h : LineOk v) : v.canon = v := by
  cases v <;> first | rfl | exact absurd h id

/-! ## Values of optional parts -/

/-- The values written for an optional attribute. -/
def optL {α : Type} (x : Option α) (g : α → List Val) : List Val :=
  match x with
  | none => []
  | some a => g a

/-- The values written if a flag is set. -/
def ifL (b : Bool) (l : List Val) : List Val := if b then l else []

theorem optL_none {α : Type} (g : α → List Val) : optL none g = [] := rfl
theorem optL_some {α : Type} (a : α) (g : α → List Val) : optL (some a) g = g a := rfl

/-! ## What may follow a fragment -/

theorem numEnd_optS {α} {x : Option α} {f : α → Str} {s : Str} (h : ∀ a, numEnd (f a ++ s) = true) (hs : numEnd s = true) :
    numEnd (optS x f ++ s) = true := by cases x with
  | none => exact hs
  | some a => exact h a
theorem numEnd_ifS {b : Bool} {a s : Str} (h : numEnd (a ++ s) = true) (hs : numEnd s = true) :
    numEnd (ifS b a ++ s) = true := by cases b with
  | false => exact hs
  | true => exact h
theorem sqEnd_optS {α} {x : Option α} {f : α → Str} {s : Str} (h : ∀ a, sqEnd (f a ++ s) = true) (hs : sqEnd s = true) :
    sqEnd (optS x f ++ s) = true := by cases x with
  | none => exact hs
  | some a => exact h a
theorem sqEnd_ifS {b : Bool} {a s : Str} (h : sqEnd (a ++ s) = true) (hs : sqEnd s = true) :
    sqEnd (ifS b a ++ s) = true := by cases b with
  | false => exact hs
  | true => exact h
theorem bareEnd_optS {α} {x : Option α} {f : α → Str} {s : Str} (h : ∀ a, bareEnd (f a ++ s) = true) (hs : bareEnd s = true) :
    bareEnd (optS x f ++ s) = true := by cases x with
  | none => exact hs
  | some a => exact h a
theorem bareEnd_ifS {b : Bool} {a s : Str} (h : bareEnd (a ++ s) = true) (hs : bareEnd s = true) :
    bareEnd (ifS b a ++ s) = true := by cases b with
  | false => exact hs
  | true => exact h
theorem numEnd_forS {α} {x : List α} {f : α → Str} {s : Str} (h : ∀ a r, numEnd (f a ++ r) = true) (hs : numEnd s = true) :
    numEnd (forS x f ++ s) = true := by cases x with
  | nil => exact hs
  | cons a l => rw [forS, List.flatMap_cons, List.append_assoc]; exact h a _
theorem sqEnd_forS {α} {x : List α} {f : α → Str} {s : Str} (h : ∀ a r, sqEnd (f a ++ r) = true) (hs : sqEnd s = true) :
    sqEnd (forS x f ++ s) = true := by cases x with
  | nil => exact hs
  | cons a l => rw [forS, List.flatMap_cons, List.append_assoc]; exact h a _
theorem bareEnd_forS {α} {x : List α} {f : α → Str} {s : Str} (h : ∀ a r, bareEnd (f a ++ r) = true) (hs : bareEnd s = true) :
    bareEnd (forS x f ++ s) = true := by cases x with
  | nil => exact hs
  | cons a l => rw [forS, List.flatMap_cons, List.append_assoc]; exact h a _

theorem numEnd_indents {n : Nat} {s : Str} (hs : numEnd s = true) : numEnd (indents n ++ s) = true := by cases n with
  | zero => exact hs
  | succ n => rfl
theorem sqEnd_indents {n : Nat} {s : Str} (hs : sqEnd s = true) : sqEnd (indents n ++ s) = true := by cases n with
  | zero => exact hs
  | succ n => rfl
theorem bareEnd_indents {n : Nat} {s : Str} (hs : bareEnd s = true) : bareEnd (indents n ++ s) = true := by cases n with
  | zero => exact hs
  | succ n => rfl
theorem bareEnd_endl {n : Bool} {s : Str} (hs : bareEnd s = true) : bareEnd (endl n ++ s) = true := by cases n with
  | false => exact hs
  | true => rfl

theorem sqEnd_endl {n : Bool} {s : Str} (hs : sqEnd s = true) : sqEnd (endl n ++ s) = true := by cases n with
  | false => exact hs
  | true => rfl
theorem sqEnd_of_numEnd {s : Str} (h : numEnd s = true) : sqEnd s = true := by
  cases s with
  | nil => simp [numEnd] at h
  | cons d r =>
    simp [numEnd] at h
    rcases h with rfl | rfl <;> rfl

/-- Closes goals about the character after a fragment. -/
syntax "delim" : tactic
macro_rules
  | `(tactic| delim) => `(tactic| first
      | rfl
      | assumption
      | (refine sqEnd_of_numEnd ?_; assumption)
      | (refine bareEnd_of_numEnd ?_; assumption)
      | (refine bareEnd_of_sqEnd ?_; assumption)
      | (with_reducible apply numEnd_optS) <;> (intros; delim)
      | (with_reducible apply numEnd_ifS) <;> delim
      | (with_reducible apply sqEnd_optS) <;> (intros; delim)
      | (with_reducible apply sqEnd_ifS) <;> delim
      | (with_reducible apply bareEnd_optS) <;> (intros; delim)
      | (with_reducible apply bareEnd_ifS) <;> delim
      | (with_reducible apply numEnd_forS) <;> (intros; delim)
      | (with_reducible apply sqEnd_forS) <;> (intros; delim)
      | (with_reducible apply bareEnd_forS) <;> (intros; delim)
      | (with_reducible apply numEnd_indents) <;> delim
      | (with_reducible apply sqEnd_indents) <;> delim
      | (with_reducible apply bareEnd_indents) <;> delim
      | (with_reducible apply bareEnd_endl) <;> delim
      | (with_reducible apply sqEnd_endl) <;> delim
      | with_reducible apply_assumption
      | (simp only [List.append_assoc, List.cons_append, List.nil_append]; delim))

/-! ## Lexing fragments, in continuation form -/

/-- The tokens of `s` are `t`, and a text may end before `s`. -/
def Lx [TextRule] (s : Str) (t : List Tok) : Prop := lex s = t ∧ TextRule.next s

@[inherit_doc] infix:50 " ⇛ " => Lx

section
variable {s : Str} {t : List Tok}

theorem lx_nil [TextRule] : [] ⇛ [] := ⟨rfl, TextRule.next_nil⟩
theorem Lx.lex [TextRule] (h : s ⇛ t) : Kiutils.lex s = t := h.1

theorem lx_op [TextRule] (h : s ⇛ t) : ('(' :: s) ⇛ .op :: t := ⟨by rw [lex_op, h.1], TextRule.next_sep (by decide) h.2⟩
theorem lx_cl [TextRule] (h : s ⇛ t) : (')' :: s) ⇛ .cl :: t := ⟨by rw [lex_cl, h.1], TextRule.next_sep (by decide) h.2⟩
theorem lx_sp [TextRule] (h : s ⇛ t) : (' ' :: s) ⇛ t := ⟨by rw [lex_blank, h.1], TextRule.next_sep (by decide) h.2⟩
theorem lx_nl [TextRule] (h : s ⇛ t) : ('\n' :: s) ⇛ t := ⟨by rw [lex_newline, h.1], TextRule.next_sep (by decide) h.2⟩
theorem lx_indents [TextRule] {n : Nat} (h : s ⇛ t) : (indents n ++ s) ⇛ t := by
  induction n with
  | zero => exact h
  | succ n ih => exact lx_sp ih
theorem lx_endl [TextRule] {b : Bool} (h : s ⇛ t) : (endl b ++ s) ⇛ t := by
  cases b
  · exact h
  · exact lx_nl h

theorem lx_kw [TextRule] {k : Str} (hk : isKeyword k = true) (hd : bareEnd s = true) (h : s ⇛ t) :
    (kw k ++ s) ⇛ toks (.str k) ++ t := by
  refine ⟨?_, TextRule.next_word (TextRule.word_noQuote (isKeyword_noQuote hk)) hd h.2⟩
  rw [kw, lex_keyword k s hk hd, h.1, toks_str]; rfl

/-- A number. -/
theorem lx_lit [TextRule] {n : NumLit} (hn : n.Wf) (hd : numEnd s = true) (h : s ⇛ t) : (n.src ++ s) ⇛ .atom n.val :: t :=
  ⟨by rw [lex_num hn hd, h.1], TextRule.next_word (TextRule.word_noQuote (NumLit.src_noQuote hn)) (bareEnd_of_numEnd hd) h.2⟩

theorem lx_num [TextRule] {v : Val} (hv : NumOk v) (hd : numEnd s = true) (h : s ⇛ t) : (v.pyStr ++ s) ⇛ toks v.canon ++ t := by
  cases v with
  | int n =>
    have := lx_lit (intLit_wf n) hd h
    rw [intLit_src, intLit_val n hv] at this
    simp only [Val.pyStr, Val.canon, toks]; exact this
  | flt f =>
    obtain ⟨n, h1, h2, h3⟩ := F64.Plain.lit hv
    have := lx_lit h1 hd h
    rw [h2, h3] at this
    simp only [Val.pyStr]
    simp only [Val.canon] at this ⊢
    split at this <;> simp [toks, *]
  | str s => exact absurd hv id
  | list l => exact absurd hv id

theorem lx_tok [TextRule] {v : Val} (hv : TokOk v) (hd : bareEnd s = true) (h : s ⇛ t) : (v.pyStr ++ s) ⇛ toks v.canon ++ t := by
  cases v with
  | str w =>
    obtain ⟨h1, h2, h3, h4⟩ := hv
    refine ⟨?_, TextRule.next_word h3 hd h.2⟩
    simp only [Val.pyStr, Val.canon, lex_word w s h1 h2 (TextRule.word_head h3) h4 hd, h.1, toks]; rfl
  | _ => exact absurd hv id

theorem lx_atom [TextRule] {v : Val} (hv : AtomOk v) (hd : numEnd s = true) (h : s ⇛ t) : (v.pyStr ++ s) ⇛ toks v.canon ++ t := by
  rcases hv with hv | hv
  · exact lx_num hv hd h
  · exact lx_tok hv (bareEnd_of_numEnd hd) h

theorem lx_line [TextRule] {v : Val} (hv : LineOk v) (h : s ⇛ t) : (v.pyStr ++ '\n' :: s) ⇛ toks v.canon ++ t := by
  cases v with
  | str w =>
    obtain ⟨h1, h2, h3⟩ := hv
    refine ⟨?_, TextRule.next_word h3 rfl (TextRule.next_sep (by decide) h.2)⟩
    simp only [Val.pyStr, Val.canon, lex_word_of_not_numEnd w ('\n' :: s) h1 h2 (TextRule.word_head h3) rfl rfl, toks, lex_newline, h.1]; rfl
  | _ => exact absurd hv id

theorem lx_text [TextRule] {v : Val} (hv : TextOk v) (hd : sqEnd s = true) (h : s ⇛ t) :
    ('"' :: (dq v ++ '"' :: s)) ⇛ toks v.canon ++ t := by
  cases v with
  | str w =>
    refine ⟨?_, TextRule.next_text hv⟩
    simp only [dq, Val.pyStr, Val.canon, TextRule.lex_text hv hd h.2, h.1, toks]; rfl
  | _ => exact absurd hv id

theorem lx_raw [TextRule] {v : Val} (hv : RawOk v) (hd : sqEnd s = true) (h : s ⇛ t) :
    ('"' :: (v.pyStr ++ '"' :: s)) ⇛ toks v.canon ++ t := by
  have := lx_text hv.1 hd h
  rwa [dq, dequote_noQuote _ hv.2] at this

theorem lx_word [TextRule] {v : Val} (hv : WordOk v) (hd : bareEnd s = true) (h : s ⇛ t) : (dq v ++ s) ⇛ toks v.canon ++ t := by
  rw [dq, dequote_noQuote _ hv.2]
  exact lx_tok hv.1 hd h

theorem lx_opt [TextRule] {α : Type} {x : Option α} {f : α → Str} {g : α → List Val} (hs : s ⇛ t)
    (hf : ∀ a, x = some a → ∀ t, s ⇛ t → (f a ++ s) ⇛ toksL (g a) ++ t) :
    (optS x f ++ s) ⇛ toksL (optL x g) ++ t := by
  cases x with
  | none => simpa [optS, optL, toksL_nil] using hs
  | some a => exact hf a rfl _ hs

theorem lx_if [TextRule] {b : Bool} {a : Str} {l : List Val} (hs : s ⇛ t)
    (hf : b = true → ∀ t, s ⇛ t → (a ++ s) ⇛ toksL l ++ t) :
    (ifS b a ++ s) ⇛ toksL (ifL b l) ++ t := by
  cases b with
  | false => simpa [ifS, ifL, toksL_nil] using hs
  | true => exact hf rfl _ hs

theorem lx_for [TextRule] {α : Type} {xs : List α} {f : α → Str} {g : α → Val} (hs : s ⇛ t)
    (hf : ∀ a ∈ xs, ∀ s t, s ⇛ t → (f a ++ s) ⇛ toks (g a) ++ t) :
    (forS xs f ++ s) ⇛ toksL (xs.map g) ++ t := by
  induction xs with
  | nil => simpa [forS, toksL_nil] using hs
  | cons a r ih =>
    have := ih (fun b hb => hf b (by simp [hb]))
    simp only [forS, List.flatMap_cons, List.map_cons, toksL_cons, List.append_assoc] at this ⊢
    exact hf a (by simp) _ _ this

/-- As `lx_for`, for fragments that need a blank or bracket after them; `f` starts with a blank. -/
theorem lx_for_sp [TextRule] {α : Type} {xs : List α} {f : α → Str} {g : α → Val} (hs : s ⇛ t)
    (hd : numEnd s = true) (hfd : ∀ a r, numEnd (f a ++ r) = true)
    (hf : ∀ a ∈ xs, ∀ s t, numEnd s = true → s ⇛ t → (f a ++ s) ⇛ toks (g a) ++ t) :
    (forS xs f ++ s) ⇛ toksL (xs.map g) ++ t := by
  induction xs with
  | nil => simpa [forS, toksL_nil] using hs
  | cons a r ih =>
    have := ih (fun b hb => hf b (by simp [hb]))
    simp only [forS, List.flatMap_cons, List.map_cons, toksL_cons, List.append_assoc] at this ⊢
    refine hf a (by simp) _ _ ?_ this
    cases r with
    | nil => exact hd
    | cons b r => rw [List.flatMap_cons, List.append_assoc]; exact hfd b _

/-- As `lx_for`, for fragments that end in a quote. -/
theorem lx_for_sq [TextRule] {α : Type} {xs : List α} {f : α → Str} {g : α → Val} (hs : s ⇛ t)
    (hd : sqEnd s = true) (hfd : ∀ a r, sqEnd (f a ++ r) = true)
    (hf : ∀ a ∈ xs, ∀ s t, sqEnd s = true → s ⇛ t → (f a ++ s) ⇛ toks (g a) ++ t) :
    (forS xs f ++ s) ⇛ toksL (xs.map g) ++ t := by
  induction xs with
  | nil => simpa [forS, toksL_nil] using hs
  | cons a r ih =>
    have := ih (fun b hb => hf b (by simp [hb]))
    simp only [forS, List.flatMap_cons, List.map_cons, toksL_cons, List.append_assoc] at this ⊢
    refine hf a (by simp) _ _ ?_ this
    cases r with
    | nil => exact hd
    | cons b r => rw [List.flatMap_cons, List.append_assoc]; exact hfd b _

/-- As `lx_for`, for `enumerate(xs)`. -/
theorem lx_forIdx [TextRule] {α : Type} {xs : List α} {n : Nat} {f : α × Nat → Str} {g : α → Val} (hs : s ⇛ t)
    (hf : ∀ a ∈ xs, ∀ i s t, s ⇛ t → (f (a, i) ++ s) ⇛ toks (g a) ++ t) :
    (forS (xs.zipIdx n) f ++ s) ⇛ toksL (xs.map g) ++ t := by
  induction xs generalizing n with
  | nil => simpa [forS, toksL_nil] using hs
  | cons a r ih =>
    have := ih (n := n + 1) (fun b hb => hf b (by simp [hb]))
    simp only [forS, List.zipIdx_cons, List.flatMap_cons, List.map_cons, toksL_cons, List.append_assoc] at this ⊢
    exact hf a (by simp) _ _ _ this

/-- An optional line break. -/
theorem lx_ifnl [TextRule] {b : Bool} (h : s ⇛ t) : (ifS b ['\n'] ++ s) ⇛ t := by
  cases b
  · exact h
  · exact lx_nl h

theorem lx_yesNo [TextRule] {b : Bool} (hd : bareEnd s = true) (h : s ⇛ t) : (yesNo b ++ s) ⇛ toks (.str (yesNo b)) ++ t := by
  cases b
  · exact lx_kw (k := k!"no") rfl hd h
  · exact lx_kw (k := k!"yes") rfl hd h

theorem lx_trueFalse [TextRule] {b : Bool} (hd : bareEnd s = true) (h : s ⇛ t) :
    (trueFalse b ++ s) ⇛ toks (.str (trueFalse b)) ++ t := by
  cases b
  · exact lx_kw (k := k!"false") rfl hd h
  · exact lx_kw (k := k!"true") rfl hd h

end

/-! ## Text that may fail to be produced -/

/-- `m` produces a text that denotes the values `v`. -/
def Lexes [TextRule] (m : PyM Str) (v : List Val) : Prop := ∃ x, m = .ok x ∧ ∀ s t, s ⇛ t → (x ++ s) ⇛ toksL v ++ t

theorem Lexes.forSM [TextRule] {α : Type} {xs : List α} {f : α → PyM Str} {g : α → Val} (h : ∀ a ∈ xs, Lexes (f a) [g a]) :
    Lexes (forSM xs f) (xs.map g) := by
  induction xs with
  | nil => exact ⟨[], rfl, fun s t hs => by simpa [toksL_nil] using hs⟩
  | cons a r ih =>
    obtain ⟨x, hx, hx'⟩ := h a (by simp)
    obtain ⟨y, hy, hy'⟩ := ih (fun b hb => h b (by simp [hb]))
    refine ⟨x ++ y, by rw [Kiutils.forSM, hx, hy]; rfl, fun s t hs => ?_⟩
    rw [List.append_assoc, List.map_cons, toksL_cons, List.append_assoc]
    have := hx' (y ++ s) _ (hy' s t hs)
    rwa [toksL_cons, toksL_nil, List.append_nil] at this

theorem Lexes.optSM [TextRule] {α : Type} {x : Option α} {f : α → PyM Str} {g : α → List Val} (h : ∀ a, x = some a → Lexes (f a) (g a)) :
    Lexes (optSM x f) (optL x g) := by
  cases x with
  | none => exact ⟨[], rfl, fun s t hs => by simpa [optL, toksL_nil] using hs⟩
  | some a => exact h a rfl

theorem optSM_eq {α : Type} {x : Option α} {f : α → PyM Str} {g : α → Str} (h : ∀ a, x = some a → f a = .ok (g a)) :
    optSM x f = .ok (optS x g) := by
  cases x with
  | none => rfl
  | some a => exact h a rfl

theorem Lexes.of_lx [TextRule] {x : Str} {v : List Val} (h : ∀ s t, s ⇛ t → (x ++ s) ⇛ toksL v ++ t) : Lexes (.ok x) v :=
  ⟨x, rfl, h⟩

/-- A text that denotes one value is read as this value. -/
theorem Lexes.parse [TextRule] {m : PyM Str} {v : Val} (h : Lexes m [v]) : (m >>= parseSexp) = .ok v := by
  obtain ⟨x, hx, hx'⟩ := h
  have := (hx' [] [] lx_nil).lex
  rw [toksL_cons, toksL_nil, List.append_nil, List.append_nil, List.append_nil] at this
  rw [hx]
  exact parse_of_lex this

/-- From the tokens of a text (in continuation form) to the value that `parse_sexp` returns. -/
theorem parse_of_lx [TextRule] {s : Str} {v : Val} (h : ∀ r t, r ⇛ t → (s ++ r) ⇛ toks v ++ t) : parseSexp s = .ok v := by
  have := (h [] [] lx_nil).lex
  rw [List.append_nil, List.append_nil] at this
  exact parse_of_lex this

/-- Side conditions: well-formedness hypotheses in the context. -/
macro "wf" : tactic => `(tactic| first | assumption | solve_by_elim)

/-- Extension point: lemmas `(o.toSexpr … ++ s) ⇛ toks o.toVal ++ t` of the classes. -/
syntax "lxObj" : tactic
macro_rules | `(tactic| lxObj) => `(tactic| fail "no class lemma applies")

/-- Normal form of text and tokens. -/
macro "lxNorm" : tactic => `(tactic|
  simp only [List.append_assoc, List.cons_append, List.nil_append, toks_list, toksL_cons, toksL_nil, toksL_append])

open Lean Elab Tactic Meta in
/-- Uses a hypothesis `∀ s t, s ⇛ t → (x ++ s) ⇛ …` about a piece of text. -/
elab "lxHyp" : tactic => withMainContext do
  for d in (← getLCtx).decls.toList.reverse.filterMap id do
    if d.isImplementationDetail then continue
    let ty ← instantiateMVars d.type
    if ty.isForall && ty.getForallBody.getAppFn.isConstOf ``Lx then
      let saved ← saveState
      try
        let gs ← withReducible <| (← getMainGoal).apply d.toExpr
        replaceMainGoal gs
        return
      catch _ => saved.restore
  throwError "no hypothesis about text applies"

/-- Consumes the text fragment by fragment. -/
syntax "lxAuto" : tactic

/-- One step: consume the first fragment of the text. -/
macro "lxStep" : tactic => `(tactic| first
  | with_reducible exact lx_nil
  | with_reducible assumption
  | with_reducible apply lx_op
  | with_reducible apply lx_cl
  | with_reducible apply lx_sp
  | with_reducible apply lx_nl
  | with_reducible apply lx_indents
  | with_reducible apply lx_endl
  | with_reducible apply lx_ifnl
  | ((with_reducible refine lx_kw ?_ ?_ ?_); (· rfl); (· delim))
  | ((with_reducible refine lx_yesNo ?_ ?_); (· delim))
  | ((with_reducible refine lx_trueFalse ?_ ?_); (· delim))
  | ((with_reducible refine lx_text ?_ ?_ ?_); (· wf); (· delim))
  | ((with_reducible refine lx_raw ?_ ?_ ?_); (· wf); (· delim))
  | ((with_reducible refine lx_word ?_ ?_ ?_); (· wf); (· delim))
  | ((with_reducible refine lx_line ?_ ?_); (· wf))
  | ((with_reducible refine lx_num ?_ ?_ ?_); (· wf); (· delim))
  | ((with_reducible refine lx_tok ?_ ?_ ?_); (· wf); (· delim))
  | ((with_reducible refine lx_atom ?_ ?_ ?_); (· wf); (· delim))
  | ((with_reducible refine lx_opt ?_ ?_); rotate_left 1; (· intro a ha t hs; (try lxNorm); lxAuto))
  | ((with_reducible refine lx_if ?_ ?_); rotate_left 1; (· intro ha t hs; (try lxNorm); lxAuto))
  | ((with_reducible refine lx_for ?_ ?_); rotate_left 1; (· intro a ha s t hs; (try lxNorm); lxAuto))
  | ((with_reducible refine lx_forIdx ?_ ?_); rotate_left 1; (· intro a ha i s t hs; (try lxNorm); lxAuto))
  | ((with_reducible refine lx_for_sp ?_ ?_ ?_ ?_); rotate_left 1; (· delim); (· intros; delim);
     (· intro a ha s t hd hs; (try lxNorm); lxAuto))
  | ((with_reducible refine lx_for_sq ?_ ?_ ?_ ?_); rotate_left 1; (· delim); (· intros; delim);
     (· intro a ha s t hd hs; (try lxNorm); lxAuto))
  | lxObj
  | lxHyp)

macro_rules | `(tactic| lxAuto) => `(tactic| repeat' lxStep)

end Kiutils
