import Verif.Props.Exact
import Verif.Model.Libraries
import Verif.Model.Common
/-!
# C94: backslashes and line breaks in texts

KiCad escapes quotation marks, backslashes and line breaks in quoted texts, the library only quotation marks. So a text with a
backslash or a line break is not the same in the library as it is in KiCad.
-/
namespace Kiutils

/-! ## Specification

How KiCad writes and reads quoted texts. This is not part of the library; it is the format of its files. -/

/-- What KiCad writes between the quotation marks for the text `s`. -/
def escaped : Str → Str
  | [] => []
  | '"' :: r => '\\' :: '"' :: escaped r
  | '\\' :: r => '\\' :: '\\' :: escaped r
  | '\n' :: r => '\\' :: 'n' :: escaped r
  | '\r' :: r => '\\' :: 'r' :: escaped r
  | c :: r => c :: escaped r

/-- Read a quoted text, behind its first quotation mark: the text that is meant, and what is behind its last quotation mark. `\c` means
the character `code c`. (KiCad also knows codes of several digits, which are not treated here.) -/
def meant (code : Char → Char) : Str → Option (Str × Str)
  | [] => none
  | '"' :: r => some ([], r)
  | '\\' :: c :: r => (meant code r).map fun x => (code c :: x.1, x.2)
  | ['\\'] => none
  | c :: r => (meant code r).map fun x => (c :: x.1, x.2)

/-- The text `x` consists of the pieces `l`, each of which is a fixed beginning up to and with a quotation mark and a quoted text with the
meaning given, and of `rest` behind them. -/
def Means (code : Char → Char) : List (Str × Str) → Str → Str → Prop
  | [], x, rest => x = rest
  | (b, s) :: l, x, rest => ∃ y z, x = b ++ y ∧ meant code y = some (s, z) ∧ Means code l z rest

/-- No backslashes and no line breaks. -/
def Simple (s : Str) : Prop := '\\' ∉ s ∧ '\n' ∉ s ∧ '\r' ∉ s

/-! ## Lemmas -/

/-- What the library makes of the text: backslashes are doubled, line breaks are `\n` and `\r`. -/
def doubled : Str → Str
  | [] => []
  | '\\' :: r => '\\' :: '\\' :: doubled r
  | '\n' :: r => '\\' :: 'n' :: doubled r
  | '\r' :: r => '\\' :: 'r' :: doubled r
  | c :: r => c :: doubled r

theorem escaped_eq (s : Str) : escaped s = dequote (doubled s) := by
  induction s using escaped.induct with
  | case1 => rfl
  | case2 r ih => simp [escaped, doubled, dequote, ih]
  | case3 r ih => simp [escaped, doubled, dequote, ih]
  | case4 r ih => simp [escaped, doubled, dequote, ih]
  | case5 r ih => simp [escaped, doubled, dequote, ih]
  | case6 c r h1 h2 h3 h4 ih =>
    rw [escaped, doubled, dequote_cons_ne _ (fun e => h1 e), ih] <;> assumption

theorem doubled_length (s : Str) : s.length ≤ (doubled s).length := by
  induction s using doubled.induct with
  | case1 => exact Nat.le_refl _
  | case2 r ih => simp [doubled]; omega
  | case3 r ih => simp [doubled]; omega
  | case4 r ih => simp [doubled]; omega
  | case5 c r h1 h2 h3 ih =>
    rw [doubled] <;> first | assumption | skip
    simpa using ih

theorem doubled_simple {s : Str} (h : Simple s) : doubled s = s := by
  induction s using doubled.induct with
  | case1 => rfl
  | case2 r ih => exact absurd List.mem_cons_self h.1
  | case3 r ih => exact absurd List.mem_cons_self h.2.1
  | case4 r ih => exact absurd List.mem_cons_self h.2.2
  | case5 c r h1 h2 h3 ih =>
    rw [doubled, ih] <;> first | assumption | skip
    exact ⟨fun e => h.1 (List.mem_cons_of_mem _ e), fun e => h.2.1 (List.mem_cons_of_mem _ e), fun e => h.2.2 (List.mem_cons_of_mem _ e)⟩

theorem simple_of_length {s : Str} (h : (doubled s).length = s.length) : Simple s := by
  induction s using doubled.induct with
  | case1 => exact ⟨nofun, nofun, nofun⟩
  | case2 r ih => have := doubled_length r; simp [doubled] at h; omega
  | case3 r ih => have := doubled_length r; simp [doubled] at h; omega
  | case4 r ih => have := doubled_length r; simp [doubled] at h; omega
  | case5 c r h1 h2 h3 ih =>
    rw [doubled] at h <;> first | assumption | skip
    have := ih (by simpa using h)
    refine ⟨fun e => ?_, fun e => ?_, fun e => ?_⟩ <;> rcases List.mem_cons.1 e with e | e
    · exact h1 e.symm
    · exact this.1 e
    · exact h2 e.symm
    · exact this.2.1 e
    · exact h3 e.symm
    · exact this.2.2 e

theorem doubled_last (s : Str) : (doubled s).getLast? = some '\\' ↔ s.getLast? = some '\\' := by
  induction s using doubled.induct with
  | case1 => rfl
  | case2 r ih => cases r with
    | nil => decide
    | cons d r =>
      have : doubled (d :: r) ≠ [] := fun e => by have := doubled_length (d :: r); rw [e] at this; simp at this
      rw [doubled, List.getLast?_cons_cons, List.getLast?_cons_of_ne_nil this, ih]
      simp
  | case3 r ih => cases r with
    | nil => decide
    | cons d r =>
      have : doubled (d :: r) ≠ [] := fun e => by have := doubled_length (d :: r); rw [e] at this; simp at this
      rw [doubled, List.getLast?_cons_cons, List.getLast?_cons_of_ne_nil this, ih]
      simp
  | case4 r ih => cases r with
    | nil => decide
    | cons d r =>
      have : doubled (d :: r) ≠ [] := fun e => by have := doubled_length (d :: r); rw [e] at this; simp at this
      rw [doubled, List.getLast?_cons_cons, List.getLast?_cons_of_ne_nil this, ih]
      simp
  | case5 c r h1 h2 h3 ih =>
    rw [doubled] <;> first | assumption | skip
    cases r with
    | nil => rfl
    | cons d r =>
      have : doubled (d :: r) ≠ [] := fun e => by have := doubled_length (d :: r); rw [e] at this; simp at this
      rw [List.getLast?_cons_of_ne_nil this, ih]
      simp

/-- Every quotation mark and every backslash that is meant has two characters in the text. -/
theorem meant_length (code : Char → Char) (x u r : Str) (h : meant code x = some (u, r)) :
    u.length + u.count '"' + u.count '\\' + 1 + r.length ≤ x.length := by
  induction x using meant.induct generalizing u r with
  | case1 => simp [meant] at h
  | case2 y => simp [meant] at h; obtain ⟨rfl, rfl⟩ := h; simp; omega
  | case3 c y ih =>
    simp only [meant, Option.map_eq_some_iff] at h
    obtain ⟨⟨v, q⟩, h1, h2⟩ := h
    cases h2
    have := ih _ _ h1
    simp only [List.length_cons, List.count_cons]
    split <;> split <;> rename_i a b
    · rw [beq_iff_eq] at a b; rw [a] at b; exact absurd b (by decide)
    all_goals omega
  | case4 => simp [meant] at h
  | case5 c y h1 h2 h3 ih =>
    rw [meant] at h <;> first | assumption | skip
    simp only [Option.map_eq_some_iff] at h
    obtain ⟨⟨v, q⟩, e1, e2⟩ := h
    cases e2
    have := ih _ _ e1
    have n1 : c ≠ '"' := fun e => h1 e
    have n2 : c ≠ '\\' := fun e => by
      subst e
      cases y with
      | nil => exact h3 rfl rfl
      | cons d y => exact h2 d y rfl rfl
    simp only [List.length_cons, List.count_cons]
    simp [n1, n2]
    omega

theorem dequote_length (s : Str) : (dequote s).length = s.length + s.count '"' := by
  induction s with
  | nil => rfl
  | cons c s ih =>
    by_cases h : c = '"'
    · subst h; rw [dequote_cons_quote]; simp [ih]; omega
    · rw [dequote_cons_ne s h]; simp [ih, h]; omega

theorem meant_dequote (code : Char → Char) (hq : code '"' = '"') {s : Str} (h : '\\' ∉ s) (r : Str) :
    meant code (dequote s ++ '"' :: r) = some (s, r) := by
  induction s with
  | nil => simp [dequote, meant]
  | cons c s ih =>
    have ih := ih fun e => h (List.mem_cons_of_mem _ e)
    have hc : c ≠ '\\' := fun e => h (by simp [e])
    by_cases hd : c = '"'
    · subst hd
      rw [dequote_cons_quote]
      simp [meant, ih, hq]
    · rw [dequote_cons_ne s hd, List.cons_append, meant, ih]
      · rfl
      · exact hd
      · intro d y e; exact absurd e hc
      · intro e; exact absurd e hc

/-- Pieces as the library writes them. -/
def pieced (l : List (Str × Str)) (rest : Str) : Str := l.foldr (fun x r => x.1 ++ (dequote x.2 ++ '"' :: r)) rest

/-- The number of backslashes in the pieces. -/
def slashes (l : List (Str × Str)) : Nat := l.foldr (fun x n => x.2.count '\\' + n) 0

theorem Means.length {code : Char → Char} {l : List (Str × Str)} {x rest : Str} (h : Means code l x rest) :
    (pieced l rest).length + slashes l ≤ x.length := by
  induction l generalizing x with
  | nil => cases h; exact Nat.le_refl _
  | cons p l ih =>
    obtain ⟨y, z, rfl, h1, h2⟩ := h
    have h3 := ih h2
    have h4 := meant_length code _ _ _ h1
    simp only [pieced, slashes, List.foldr_cons, List.length_append, List.length_cons, dequote_length] at h3 ⊢
    omega

theorem slashes_zero {l : List (Str × Str)} (h : slashes l = 0) : ∀ x ∈ l, '\\' ∉ x.2 := by
  induction l with
  | nil => nofun
  | cons p l ih =>
    have : p.2.count '\\' + slashes l = 0 := h
    intro x hx
    rcases List.mem_cons.1 hx with rfl | hx
    · exact List.count_eq_zero.1 (by omega)
    · exact ih (by omega) x hx

theorem means_iff (code : Char → Char) (hq : code '"' = '"') (l : List (Str × Str)) (rest : Str) :
    Means code l (pieced l rest) rest ↔ ∀ x ∈ l, '\\' ∉ x.2 := by
  constructor
  · intro h
    have := h.length
    exact slashes_zero (by omega)
  · intro h
    induction l with
    | nil => rfl
    | cons p l ih => exact ⟨_, _, rfl, meant_dequote code hq (h p List.mem_cons_self) _, ih fun x hx => h x (List.mem_cons_of_mem _ hx)⟩

theorem meant_plain (code : Char → Char) {c : Char} (h1 : c ≠ '"') (h2 : c ≠ '\\') (r : Str) :
    meant code (c :: r) = (meant code r).map fun x => (c :: x.1, x.2) := by
  rw [meant]
  · exact h1
  · intro d y e; exact absurd e h2
  · intro e; exact absurd e h2

/-- What the library writes for a text with a backslash never means this text, nor do backslashes in front of a text arise. -/
theorem meant_never (code : Char → Char) (hq : code '"' = '"') (hb : ∀ c, code c = '\\' → c = '\\') (r z : Str) :
    ∀ (n : Nat) (s : Str) (j : Nat), s.length ≤ n → (1 ≤ j ∨ '\\' ∈ s) →
      meant code (dequote s ++ '"' :: r) ≠ some (List.replicate j '\\' ++ s, z) := by
  intro n
  induction n generalizing z with
  | zero =>
    intro s j hn hj h
    obtain rfl := List.length_eq_zero_iff.1 (Nat.le_zero.1 hn)
    have h' : some (([] : Str), r) = some (List.replicate j '\\' ++ [], z) := h
    have := congrArg List.length (Prod.mk.inj (Option.some.inj h')).1
    simp at this
    rcases hj with hj | hj
    · omega
    · cases hj
  | succ n ih =>
    intro s j hn hj h
    match s with
    | [] => exact ih z [] j (by simp) hj h
    | c :: t =>
    simp only [List.length_cons] at hn
    by_cases h1 : c = '\\'
    · subst h1
      rw [dequote_cons_ne _ (by decide)] at h
      match t with
      | [] =>
        have h' : (meant code r).map (fun x => (code '"' :: x.1, x.2)) = some (List.replicate j '\\' ++ ['\\'], z) := h
        rw [hq] at h'
        simp only [Option.map_eq_some_iff, Prod.mk.injEq] at h'
        obtain ⟨x, -, h', -⟩ := h'
        cases j <;> simp [List.replicate_succ] at h'
      | d :: t =>
        by_cases h1 : d = '"'
        · subst h1
          rw [dequote_cons_quote] at h
          simp only [List.cons_append, meant, Option.map_some, Option.some.injEq, Prod.mk.injEq] at h
          have := congrArg List.length h.1
          simp at this
          omega
        · rw [dequote_cons_ne _ h1] at h
          simp only [List.cons_append, meant, Option.map_eq_some_iff, Prod.mk.injEq] at h
          obtain ⟨⟨u, q⟩, h2, h3, rfl⟩ := h
          have h4 : code d = '\\' := by cases j <;> simp [List.replicate_succ] at h3 <;> exact h3.1
          have h5 := hb d h4
          subst h5
          have h6 : u = List.replicate (j + 1) '\\' ++ t := by
            have : List.replicate j '\\' ++ '\\' :: '\\' :: t = '\\' :: (List.replicate (j + 1) '\\' ++ t) := by
              rw [← List.cons_append, ← List.replicate_succ, List.replicate_succ', List.replicate_succ']
              simp
            rw [this] at h3
            exact (List.cons.inj h3).2
          rw [h6] at h2
          exact ih q t (j + 1) (by simp at hn; omega) (.inl (by omega)) h2
    · have key : ∃ u q, meant code (dequote t ++ '"' :: r) = some (u, q) ∧ c :: u = List.replicate j '\\' ++ c :: t := by
        by_cases h2 : c = '"'
        · subst h2
          rw [dequote_cons_quote] at h
          simp only [List.cons_append, meant, hq, Option.map_eq_some_iff, Prod.mk.injEq] at h
          obtain ⟨⟨u, q⟩, h2, h3, -⟩ := h
          exact ⟨u, q, h2, h3⟩
        · rw [dequote_cons_ne _ h2, List.cons_append, meant_plain code h2 h1] at h
          simp only [Option.map_eq_some_iff, Prod.mk.injEq] at h
          obtain ⟨⟨u, q⟩, h2, h3, -⟩ := h
          exact ⟨u, q, h2, h3⟩
      obtain ⟨u, q, h2, h3⟩ := key
      cases j with
      | succ j => simp [List.replicate_succ] at h3; exact h1 h3.1
      | zero =>
        have : u = t := by simpa using h3
        subst this
        refine ih q u 0 (by omega) (.inr ?_) (by simpa using h2)
        rcases hj with hj | hj
        · omega
        · rcases List.mem_cons.1 hj with hj | hj
          · exact absurd hj.symm h1
          · exact hj

theorem means_any (code : Char → Char) (hq : code '"' = '"') (hb : ∀ c, code c = '\\' → c = '\\') (l : List (Str × Str)) (rest : Str) :
    (∃ rest', Means code l (pieced l rest) rest') ↔ ∀ x ∈ l, '\\' ∉ x.2 := by
  refine ⟨fun ⟨rest', h⟩ => ?_, fun h => ⟨rest, (means_iff code hq l rest).2 h⟩⟩
  induction l with
  | nil => nofun
  | cons p l ih =>
    obtain ⟨y, z, h1, h2, h3⟩ := h
    cases (List.append_cancel_left (show p.1 ++ (dequote p.2 ++ '"' :: pieced l rest) = p.1 ++ y from h1))
    have hp : '\\' ∉ p.2 := fun hm => meant_never code hq hb _ z _ p.2 0 (Nat.le_refl _) (.inr hm) h2
    rw [meant_dequote code hq hp] at h2
    cases Option.some.inj h2
    intro x hx
    rcases List.mem_cons.1 hx with rfl | hx
    · exact hp
    · exact ih ⟨_, h3⟩ h3 x hx

/-- A list of a word and a text is read in one way only. -/
theorem ReadAs.unique {sep : Char} {w : Str} {s t : Str} (h : ReadAs sep w (.str s)) (h' : ReadAs sep w (.str t)) : s = t := by
  have := (h [] (by simp)).symm.trans (h' [] (by simp))
  simpa using Except.ok.inj this

/-! ## The property -/

/-- C94, reading: what KiCad writes for a text is loaded as this text if and only if it has no backslashes and no line breaks. (False of
the code for all other texts.) -/
theorem C94_loaded (sep : Char) (hs : isSpace sep = true) (s : Str) : ReadAs sep ('"' :: (escaped s ++ ['"'])) (.str s) ↔ Simple s := by
  constructor
  · intro h
    rw [escaped_eq] at h
    by_cases hl : (doubled s).getLast? = some '\\'
    · exfalso
      obtain ⟨ts, ht⟩ := h.tokens (by simp) [' '] (by decide)
      have h1 := C04_backslash_merges (doubled s) [] k!"\")" sep ' ' hl (by simp) (.inr hs) (.inr rfl)
        (by rintro e; simp at e; subst e; exact absurd hs (by decide))
      have h2 : lex ('"' :: (dequote (doubled s) ++ '"' :: sep :: ([] ++ '"' :: ' ' :: k!"\")"))) = .atom (.str s) :: .atom (.str [' ']) :: .cl :: ts := by
        rw [← ht]; simp [dequote]
      rw [h1] at h2
      simp only [List.cons.injEq, Tok.atom.injEq, Val.str.injEq] at h2
      have h3 := congrArg List.length h2.1
      have h4 := doubled_length s
      rw [unescape_cons (by simp)] at h3
      simp [unescape] at h3
      omega
    · have := h.unique ((C70_quoted sep hs (doubled s)).2 hl)
      exact simple_of_length (by rw [← this])
  · intro h
    rw [escaped_eq, doubled_simple h]
    refine (C70_quoted sep hs s).2 fun hl => h.1 (List.mem_of_mem_getLast? hl)

/-- C94, writing: what the library writes for a text means this text in KiCad if and only if it has no backslashes. (False of the code
for all texts with a backslash.) -/
theorem C94_saved (code : Char → Char) (hq : code '"' = '"') (s r : Str) : meant code (dequote s ++ '"' :: r) = some (s, r) ↔ '\\' ∉ s := by
  refine ⟨fun h hm => ?_, fun h => meant_dequote code hq h r⟩
  have h1 := meant_length code _ _ _ h
  have h2 : 0 < s.count '\\' := List.count_pos_iff.2 hm
  simp [dequote_length] at h1
  omega

/-- The same, whatever is behind the text when it is read: no text with a backslash is ever read as the same text, if only `\\` means a
backslash. -/
theorem C94_saved_any (code : Char → Char) (hq : code '"' = '"') (hb : ∀ c, code c = '\\' → c = '\\') (s r : Str) :
    (∃ z, meant code (dequote s ++ '"' :: r) = some (s, z)) ↔ '\\' ∉ s :=
  ⟨fun ⟨z, h⟩ hm => meant_never code hq hb r z _ s 0 (Nat.le_refl _) (.inr hm) h, fun h => ⟨r, meant_dequote code hq h r⟩⟩

/-- C94 for the entries of a library table, such as the paths of libraries: what is saved means the texts of the object if and only if
none of them has a backslash. -/
theorem C94_Library (code : Char → Char) (hq : code '"' = '"') (o : Library) (n t u p d : Str) (hn : o.name = .str n) (ht : o.type = .str t)
    (hu : o.uri = .str u) (hp : o.options = .str p) (hd : o.description = .str d) :
    Means code [(k!"  (lib (name \"", n), (k!")(type \"", t), (k!")(uri \"", u), (k!")(options \"", p), (k!")(descr \"", d)] o.toSexpr
        (if o.active = true then k!"))\n" else k!")(disabled))\n") ↔
      '\\' ∉ n ∧ '\\' ∉ t ∧ '\\' ∉ u ∧ '\\' ∉ p ∧ '\\' ∉ d := by
  have e : o.toSexpr = pieced [(k!"  (lib (name \"", n), (k!")(type \"", t), (k!")(uri \"", u), (k!")(options \"", p), (k!")(descr \"", d)]
      (if o.active = true then k!"))\n" else k!")(disabled))\n") := by
    unfold Library.toSexpr
    rw [hn, ht, hu, hp, hd]
    cases o.active <;> simp [pieced, indents, dq, ifS, endl, Val.pyStr, kw]
  rw [e, means_iff code hq]
  simp

/-- C94 for the properties of symbols: what is saved means name and value of the property if and only if they have no backslashes,
whatever is taken for the rest of the text. -/
theorem C94_Property (code : Char → Char) (hq : code '"' = '"') (hb : ∀ c, code c = '\\' → c = '\\') (o : Property) (k v : Str)
    (hk : o.key = .str k) (hv : o.value = .str v) :
    (∃ rest, Means code [(k!"    (property \"", k), (k!" \"", v)] o.toSexpr rest) ↔ '\\' ∉ k ∧ '\\' ∉ v := by
  have e : ∃ r, o.toSexpr = pieced [(k!"    (property \"", k), (k!" \"", v)] r := by
    unfold Property.toSexpr
    rw [hk, hv]
    refine ⟨(optS o.id fun i => py!" (id {i.pyStr})") ++ (py!" (at {o.position.X.pyStr} {o.position.Y.pyStr}{optS o.position.angle fun a => py!" {a.pyStr}"}){ifS o.showName py!" (show_name)"}" ++
      (match o.effects with
        | some e => py!"\n{e.toSexpr (4 + 2)}{indents 4}){endl true}"
        | none => py!"){endl true}")), ?_⟩
    simp [pieced, dq, Val.pyStr, kw, indents, List.replicate_succ]
    cases o.effects <;> rfl
  obtain ⟨r, e⟩ := e
  rw [e, means_any code hq hb]
  simp

/-- C94, the part that holds for all texts that do not end in a backslash: what KiCad writes for the text is loaded as some text, which
is saved as the same characters. -/
theorem C94_kept_partial (sep : Char) (hs : isSpace sep = true) (s : Str) (h : s.getLast? ≠ some '\\') :
    ∃ t, ReadAs sep ('"' :: (escaped s ++ ['"'])) (.str t) ∧ dequote t = escaped s :=
  ⟨doubled s, by rw [escaped_eq]; exact (C70_quoted sep hs _).2 (fun e => h ((doubled_last s).1 e)), (escaped_eq s).symm⟩

/-! ## Examples -/

/-- `C:\lib` is loaded from a file of KiCad with two backslashes, and what is loaded is saved as it was. -/
example : ¬ Simple k!"C:\\lib" ∧ escaped k!"C:\\lib" = k!"C:\\\\lib" ∧ parseSexp (entryText ' ' (k!"\"C:\\\\lib\"") k!"x") = .ok (.list [.str k!"k", .str k!"C:\\\\lib", .str k!"x"]) ∧
    ∃ t, ReadAs ' ' ('"' :: (escaped k!"C:\\lib" ++ ['"'])) (.str t) ∧ dequote t = escaped k!"C:\\lib" :=
  ⟨fun h => absurd h.1 (by decide), by decide, by rfl, C94_kept_partial ' ' rfl _ (by decide)⟩

/-- `a "b" c` is the same on both sides. -/
example : ReadAs ' ' ('"' :: (escaped k!"a \"b\" c" ++ ['"'])) (.str k!"a \"b\" c") :=
  (C94_loaded ' ' rfl _).2 ⟨by decide, by decide, by decide⟩

example : meant (fun c => if c = 'n' then '\n' else c) (dequote k!"a \"b\" c" ++ '"' :: k!")") = some (k!"a \"b\" c", k!")") :=
  (C94_saved _ (by decide) _ _).2 (by decide)

/-- `C:\new` is saved as it is, which means `C:`, a line break and `ew`. -/
example : meant (fun c => if c = 'n' then '\n' else c) (dequote k!"C:\\new" ++ '"' :: k!")") = some (k!"C:\new", k!")") := by decide

/-- A library on a drive of Windows. -/
def driveLibrary : Library := { name := .str k!"a", uri := .str k!"C:\\new" }
example : ¬ Means (fun c => if c = 'n' then '\n' else c)
    [(k!"  (lib (name \"", k!"a"), (k!")(type \"", k!"KiCad"), (k!")(uri \"", k!"C:\\new"), (k!")(options \"", []), (k!")(descr \"", [])]
    driveLibrary.toSexpr k!"))\n" :=
  fun h => absurd ((C94_Library _ (by decide) driveLibrary _ _ _ _ _ rfl rfl rfl rfl rfl).1 h).2.2.1 (by decide)

example : Means (fun c => if c = 'n' then '\n' else c)
    [(k!"  (lib (name \"", k!"a"), (k!")(type \"", k!"KiCad"), (k!")(uri \"", k!"C:/new"), (k!")(options \"", []), (k!")(descr \"", [])]
    ({ driveLibrary with uri := .str k!"C:/new" } : Library).toSexpr k!"))\n" :=
  (C94_Library _ (by decide) { driveLibrary with uri := .str k!"C:/new" } _ _ _ _ _ rfl rfl rfl rfl rfl).2 (by decide)

theorem only_backslash : ∀ c, (fun c => if c = 'n' then '\n' else c) c = '\\' → c = '\\' := fun c h => by
  dsimp only at h
  split at h
  · exact absurd h (by decide)
  · exact h

/-- A property whose value has a backslash, and one with a quotation mark. -/
example : ¬ ∃ rest, Means (fun c => if c = 'n' then '\n' else c) [(k!"    (property \"", k!"Path"), (k!" \"", k!"\\\\server")]
    ({ key := .str k!"Path", value := .str k!"\\\\server" } : Property).toSexpr rest :=
  fun h => absurd ((C94_Property _ (by decide) only_backslash _ _ _ rfl rfl).1 h).2 (by decide)

example : ∃ rest, Means (fun c => if c = 'n' then '\n' else c) [(k!"    (property \"", k!"Size"), (k!" \"", k!"5\"")]
    ({ key := .str k!"Size", value := .str k!"5\"" } : Property).toSexpr rest :=
  (C94_Property _ (by decide) only_backslash _ _ _ rfl rfl).2 (by decide)

example : ¬ ∃ z, meant (fun c => if c = 'n' then '\n' else c) (dequote k!"C:\\new" ++ '"' :: k!")") = some (k!"C:\\new", z) :=
  fun h => absurd ((C94_saved_any _ (by decide) only_backslash _ _).1 h) (by decide)

end Kiutils
