import Verif.FloatText
import Verif.Numbers
/-!
# The texts that `float()` reads, as a grammar

The grammar of the Python documentation (Built-in Functions, `float`), with the value of each text. It is stated without the
functions of `Verif/FloatText.lean`, and `floatOfText` is proved to accept exactly the texts of the grammar, with these values.
-/
namespace Kiutils
namespace FloatGrammar

/-- `digitpart: digit (["_"] digit)*`, with the digits alone. -/
inductive DigitPart : Str → Str → Prop
  | one {c : Char} : isDigit c = true → DigitPart [c] [c]
  | more {c : Char} {s ds : Str} : isDigit c = true → DigitPart s ds → DigitPart (c :: s) (c :: ds)
  | under {c : Char} {s ds : Str} : isDigit c = true → DigitPart s ds → DigitPart (c :: '_' :: s) (c :: ds)

/-- `number: [digitpart] "." digitpart | digitpart ["."]`, with the digits before and behind the point. -/
inductive Number : Str → Str → Str → Prop
  | frac {s fp : Str} : DigitPart s fp → Number ('.' :: s) [] fp
  | both {a b ip fp : Str} : DigitPart a ip → DigitPart b fp → Number (a ++ '.' :: b) ip fp
  | int {s ip : Str} : DigitPart s ip → Number s ip []
  | point {s ip : Str} : DigitPart s ip → Number (s ++ ['.']) ip []

/-- `[sign]` -/
inductive Sign : Str → Bool → Prop
  | none : Sign [] false
  | plus : Sign ['+'] false
  | minus : Sign ['-'] true

/-- `[exponent]`, `exponent: ("e" | "E") [sign] digitpart`, with its value. -/
inductive Exponent : Str → Int → Prop
  | none : Exponent [] 0
  | some {c : Char} {sg s ds : Str} {neg : Bool} : c = 'e' ∨ c = 'E' → Sign sg neg → DigitPart s ds →
      Exponent (c :: (sg ++ s)) (if neg then -(digitsVal ds : Int) else digitsVal ds)

/-- The text is the word in small letters, or with some of them as capitals. -/
def Word : Str → Str → Prop
  | l :: word, c :: s => (c = l ∨ c.toNat + 32 = l.toNat) ∧ Word word s
  | [], [] => True
  | _, _ => False

/-- The double nearest to the decimal number with these digits, times a power of ten. -/
def value (neg : Bool) (ip fp : Str) (e : Int) : F64 :=
  F64.ofRat neg (digitsVal (ip ++ fp) * 10 ^ (e - (fp.length : Int)).toNat) (10 ^ ((fp.length : Int) - e).toNat)

/-- `absfloatvalue`, with its value; `none` is not-a-number. -/
inductive Unsigned (neg : Bool) : Str → Option F64 → Prop
  | nan {s : Str} : Word k!"nan" s → Unsigned neg s none
  | inf {s : Str} : Word k!"inf" s ∨ Word k!"infinity" s → Unsigned neg s (some (.inf neg))
  | number {s t ip fp : Str} {e : Int} : Number s ip fp → Exponent t e → Unsigned neg (s ++ t) (some (value neg ip fp e))

/-- White space for `float()`. -/
def Space (c : Char) : Prop := isSpace c = true ∧ ¬ (0x1c ≤ c.toNat ∧ c.toNat ≤ 0x1f)

/-- `floatvalue`, with white space around it: `float(s)` returns `x`. -/
inductive FloatText : Str → Option F64 → Prop
  | mk {a b sg s : Str} {neg : Bool} {x : Option F64} : (∀ c ∈ a, Space c) → (∀ c ∈ b, Space c) → Sign sg neg →
      Unsigned neg s x → FloatText (a ++ (sg ++ s) ++ b) x

/-! ## Underscores -/

theorem ne_under {c : Char} (h : isDigit c = true) : c ≠ '_' := by
  rintro rfl; exact absurd h (by decide)

theorem drop_cons {c : Char} {r : Str} {p : Bool} (h : c ≠ '_') :
    dropUnderscores p (c :: r) = (dropUnderscores (isDigit c) r).map (c :: ·) := by
  rw [dropUnderscores.eq_def]
  split
  · next h' => cases h'
  · next h' => cases h'; exact absurd rfl h
  · next h' => cases h'; rfl

theorem drop_under {c : Char} {r : Str} {p : Bool} :
    dropUnderscores p ('_' :: c :: r) = if p && isDigit c then dropUnderscores false (c :: r) else none := by
  rw [dropUnderscores]

theorem drop_under_nil {p : Bool} : dropUnderscores p ['_'] = none := by rw [dropUnderscores]

theorem drop_part {s ds : Str} (h : DigitPart s ds) (p : Bool) (r : Str) :
    dropUnderscores p (s ++ r) = (dropUnderscores true r).map (ds ++ ·) := by
  induction h generalizing p with
  | one hc => rw [List.singleton_append, drop_cons (ne_under hc), hc]; rfl
  | @more c s ds hc _ ih =>
    rw [List.cons_append, drop_cons (ne_under hc), hc, ih, Option.map_map]; rfl
  | @under c s ds hc hs ih =>
    rw [List.cons_append, drop_cons (ne_under hc), hc]
    have hd : ∃ d t, s = d :: t ∧ isDigit d = true := by
      cases hs with
      | one h => exact ⟨_, _, rfl, h⟩
      | more h _ => exact ⟨_, _, rfl, h⟩
      | under h _ => exact ⟨_, _, rfl, h⟩
    obtain ⟨d, t, rfl, hd⟩ := hd
    have : dropUnderscores true ('_' :: (d :: t) ++ r) = dropUnderscores false (d :: t ++ r) := by
      rw [List.cons_append, List.cons_append, drop_under, hd]; rfl
    rw [this, ih, Option.map_map]; rfl

theorem DigitPart.ne_nil {s ds : Str} (h : DigitPart s ds) : ds ≠ [] := by cases h <;> simp
theorem DigitPart.digits {s ds : Str} (h : DigitPart s ds) : ∀ c ∈ ds, isDigit c = true := by
  induction h with
  | one hc => intro c h; simp at h; exact h ▸ hc
  | more hc _ ih => intro c h; exact (List.mem_cons.mp h).elim (fun e => e ▸ hc) (ih c)
  | under hc _ ih => intro c h; exact (List.mem_cons.mp h).elim (fun e => e ▸ hc) (ih c)

/-- From the text without underscores back to the text: a character that is no digit. -/
theorem drop_inv {p : Bool} {t r : Str} {c : Char} (h : dropUnderscores p t = some (c :: r)) (hc : isDigit c = false) :
    ∃ t', t = c :: t' ∧ dropUnderscores false t' = some r := by
  cases t with
  | nil => rw [dropUnderscores] at h; cases h
  | cons d t =>
    by_cases hd : d = '_'
    · subst hd
      cases t with
      | nil => rw [drop_under_nil] at h; cases h
      | cons e t =>
        rw [drop_under] at h
        by_cases he : isDigit e = true
        · rw [he] at h
          cases p with
          | false => simp at h
          | true =>
            simp only [Bool.and_self, if_true] at h
            rw [drop_cons (ne_under he)] at h
            obtain ⟨_, _, h2⟩ := Option.map_eq_some_iff.mp h
            cases h2
            rw [hc] at he; cases he
        · simp [he] at h
    · rw [drop_cons hd] at h
      obtain ⟨u, h1, h2⟩ := Option.map_eq_some_iff.mp h
      cases h2
      exact ⟨t, rfl, by rw [← hc]; exact h1⟩

theorem drop_nil {p : Bool} {t : Str} (h : dropUnderscores p t = some []) : t = [] := by
  cases t with
  | nil => rfl
  | cons d t =>
    by_cases hd : d = '_'
    · subst hd
      cases t with
      | nil => rw [drop_under_nil] at h; cases h
      | cons e t =>
        rw [drop_under] at h
        split at h
        · next he =>
          simp only [Bool.and_eq_true] at he
          rw [drop_cons (ne_under he.2)] at h
          obtain ⟨_, _, h2⟩ := Option.map_eq_some_iff.mp h
          cases h2
        · cases h
    · rw [drop_cons hd] at h
      obtain ⟨_, _, h2⟩ := Option.map_eq_some_iff.mp h
      cases h2

/-- Without digits, nothing was removed. -/
theorem drop_inv_all {u : Str} (hu : ∀ c ∈ u, isDigit c = false) {p : Bool} {t : Str} (h : dropUnderscores p t = some u) : t = u := by
  induction u generalizing p t with
  | nil => exact drop_nil h
  | cons c u ih =>
    obtain ⟨t', rfl, h'⟩ := drop_inv h (hu c List.mem_cons_self)
    rw [ih (fun d hd => hu d (List.mem_cons_of_mem _ hd)) h']

/-- From the text without underscores back to the text: digits. -/
theorem drop_inv_part {ds : Str} (hne : ds ≠ []) (hds : ∀ c ∈ ds, isDigit c = true) {t r : Str}
    (hr : ∀ c, r.head? = some c → isDigit c = false) (h : dropUnderscores false t = some (ds ++ r)) :
    ∃ a b, t = a ++ b ∧ DigitPart a ds ∧ dropUnderscores false b = some r := by
  induction ds generalizing t with
  | nil => exact absurd rfl hne
  | cons c ds ih =>
    have hc := hds c List.mem_cons_self
    have hds' : ∀ c ∈ ds, isDigit c = true := fun d hd => hds d (List.mem_cons_of_mem _ hd)
    cases t with
    | nil => rw [dropUnderscores] at h; cases h
    | cons d t =>
      by_cases hd : d = '_'
      · subst hd
        cases t with
        | nil => rw [drop_under_nil] at h; cases h
        | cons e t => rw [drop_under] at h; simp at h
      · rw [drop_cons hd] at h
        obtain ⟨u, h1, h2⟩ := Option.map_eq_some_iff.mp h
        cases h2
        rw [hc] at h1
        cases ds with
        | nil =>
          refine ⟨[c], t, rfl, .one hc, ?_⟩
          change dropUnderscores true t = some r at h1
          cases r with
          | nil => rw [drop_nil h1]; rfl
          | cons e r =>
            have he := hr e rfl
            obtain ⟨t', rfl, h'⟩ := drop_inv h1 he
            have : e ≠ '_' := by
              rintro rfl
              cases t' with
              | nil => rw [drop_under_nil] at h1; cases h1
              | cons f t' =>
                rw [drop_under] at h1
                split at h1
                · next hf =>
                  simp only [Bool.and_eq_true] at hf
                  rw [drop_cons (ne_under hf.2)] at h1
                  obtain ⟨_, _, h2⟩ := Option.map_eq_some_iff.mp h1
                  cases h2
                  rw [he] at hf; exact absurd hf.2 (by simp)
                · cases h1
            rw [drop_cons this, he, h']; rfl
        | cons e ds =>
          cases t with
          | nil => rw [dropUnderscores] at h1; cases h1
          | cons f t =>
            by_cases hf : f = '_'
            · subst hf
              cases t with
              | nil => rw [drop_under_nil] at h1; cases h1
              | cons g t =>
                rw [drop_under] at h1
                split at h1
                · obtain ⟨a, b, e1, e2, e3⟩ := ih (by simp) hds' h1
                  refine ⟨c :: '_' :: a, b, ?_, .under hc e2, e3⟩
                  rw [e1]; rfl
                · cases h1
            · have h1' : dropUnderscores false (f :: t) = some (e :: ds ++ r) := by
                rw [drop_cons hf] at h1 ⊢; exact h1
              obtain ⟨a, b, e1, e2, e3⟩ := ih (by simp) hds' h1'
              refine ⟨c :: a, b, ?_, .more hc e2, e3⟩
              rw [e1]; rfl

/-! ## Texts without underscores -/

/-- An exponent without underscores. -/
inductive PlainExp : Str → Int → Prop
  | none : PlainExp [] 0
  | some {c : Char} {sg ds : Str} {neg : Bool} : c = 'e' ∨ c = 'E' → Sign sg neg → ds ≠ [] → (∀ c ∈ ds, isDigit c = true) →
      PlainExp (c :: (sg ++ ds)) (if neg then -(digitsVal ds : Int) else digitsVal ds)

theorem not_sign {c : Char} (h : isDigit c = true) : c ≠ '+' ∧ c ≠ '-' := by
  constructor <;> (rintro rfl; exact absurd h (by decide))

theorem floatExponent_cons (c : Char) (r : Str) : floatExponent (c :: r) =
    if c = 'e' ∨ c = 'E' then
      if !(unsign r).isEmpty && (unsign r).all isDigit then
        some (if r.head? == some '-' then -(digitsVal (unsign r) : Int) else digitsVal (unsign r))
      else none
    else none := rfl

theorem floatOfText_eq (s : Str) : floatOfText s =
    match dropUnderscores false (floatStrip s) with
    | none => none
    | some s =>
      if (unsign s).map asciiLower = k!"nan" then some none
      else if (unsign s).map asciiLower = k!"inf" ∨ (unsign s).map asciiLower = k!"infinity" then
        some (some (.inf (s.head? == some '-')))
      else (floatUnsigned (s.head? == some '-') (unsign s)).map some := rfl

/-- Every text has a sign and a rest. -/
theorem sign_split (r : Str) : ∃ sg b neg, r = sg ++ b ∧ Sign sg neg ∧ (r.head? == some '-') = neg ∧ unsign r = b := by
  rw [unsign.eq_def]
  split
  · exact ⟨['+'], _, false, rfl, .plus, rfl, rfl⟩
  · exact ⟨['-'], _, true, rfl, .minus, rfl, rfl⟩
  · next h1 h2 =>
    refine ⟨[], r, false, rfl, .none, ?_, rfl⟩
    cases r with
    | nil => rfl
    | cons c r =>
      rw [List.head?_cons, beq_eq_false_iff_ne]
      intro e
      cases e
      exact h2 r rfl

/-- A sign in front of a text that does not begin with a sign. -/
theorem sign_join {sg b : Str} {neg : Bool} (h : Sign sg neg) (hb : ∀ c, b.head? = some c → c ≠ '+' ∧ c ≠ '-') :
    ((sg ++ b).head? == some '-') = neg ∧ unsign (sg ++ b) = b := by
  cases h with
  | plus => exact ⟨rfl, rfl⟩
  | minus => exact ⟨rfl, rfl⟩
  | none =>
    cases b with
    | nil => exact ⟨rfl, rfl⟩
    | cons c r =>
      obtain ⟨h1, h2⟩ := hb c rfl
      refine ⟨?_, ?_⟩
      · rw [List.nil_append, List.head?_cons, beq_eq_false_iff_ne]
        intro e; cases e; exact h2 rfl
      · rw [List.nil_append, unsign.eq_def]
        split
        · next e => cases e; exact absurd rfl h1
        · next e => cases e; exact absurd rfl h2
        · rfl

theorem exponent_iff (t : Str) (e : Int) : floatExponent t = some e ↔ PlainExp t e := by
  constructor
  · intro h
    cases t with
    | nil => rw [floatExponent] at h; cases h; exact .none
    | cons c r =>
      rw [floatExponent_cons] at h
      split at h
      · next hc =>
        obtain ⟨sg, b, neg, rfl, h1, h2, h3⟩ := sign_split r
        rw [h2, h3] at h
        split at h
        · next hd =>
          cases h
          rw [Bool.and_eq_true, Bool.not_eq_true', List.isEmpty_eq_false_iff, List.all_eq_true] at hd
          exact .some hc h1 hd.1 hd.2
        · cases h
      · cases h
  · rintro (_ | ⟨hc, hs, hne, hds⟩)
    · rfl
    · next c sg ds neg =>
      obtain ⟨h1, h2⟩ := sign_join hs (b := ds) (by
        intro c hc
        cases ds with
        | nil => cases hc
        | cons d r => cases hc; exact not_sign (hds _ List.mem_cons_self))
      rw [floatExponent_cons, if_pos hc, h1, h2]
      have hd : (!ds.isEmpty && ds.all isDigit) = true := by
        rw [Bool.and_eq_true, Bool.not_eq_true', List.isEmpty_eq_false_iff, List.all_eq_true]
        exact ⟨hne, hds⟩
      rw [if_pos hd]

/-- A number without underscores: digits, the point if there is one, digits. -/
inductive PlainNum : Str → Str → Str → Prop
  | int {ip : Str} : ip ≠ [] → (∀ c ∈ ip, isDigit c = true) → PlainNum ip ip []
  | point {ip fp : Str} : ip ++ fp ≠ [] → (∀ c ∈ ip, isDigit c = true) → (∀ c ∈ fp, isDigit c = true) →
      PlainNum (ip ++ '.' :: fp) ip fp

theorem exp_head {t : Str} {e : Int} (h : PlainExp t e) : ∀ c, t.head? = some c → isDigit c = false ∧ c ≠ '.' := by
  intro c hc
  cases h with
  | none => cases hc
  | some h => cases hc; rcases h with rfl | rfl <;> decide

theorem value_eq (neg : Bool) (ip fp : Str) (e : Int) :
    (let x : Int := e - (fp.length : Int)
    if 0 ≤ x then F64.ofRat neg (digitsVal (ip ++ fp) * 10 ^ x.toNat) 1
    else F64.ofRat neg (digitsVal (ip ++ fp)) (10 ^ (-x).toNat)) = value neg ip fp e := by
  simp only [value]
  split
  · next h => rw [show ((fp.length : Int) - e).toNat = 0 by omega, Nat.pow_zero]
  · next h =>
    rw [show (e - (fp.length : Int)).toNat = 0 by omega, Nat.pow_zero, Nat.mul_one]
    rw [show (-(e - (fp.length : Int))) = (fp.length : Int) - e by omega]

theorem take_digits {ds r : Str} (hds : ∀ c ∈ ds, isDigit c = true) (hr : ∀ c, r.head? = some c → isDigit c = false) :
    (ds ++ r).takeWhile isDigit = ds ∧ (ds ++ r).dropWhile isDigit = r := by
  induction ds with
  | nil =>
    cases r with
    | nil => exact ⟨rfl, rfl⟩
    | cons c r => rw [List.nil_append, List.takeWhile_cons, List.dropWhile_cons, hr c rfl]; exact ⟨rfl, rfl⟩
  | cons d ds ih =>
    rw [List.cons_append, List.takeWhile_cons, List.dropWhile_cons, hds d List.mem_cons_self]
    obtain ⟨h1, h2⟩ := ih fun c hc => hds c (List.mem_cons_of_mem _ hc)
    exact ⟨by simp [h1], by simp [h2]⟩

theorem digits_split (u : Str) : ∃ ds r, u = ds ++ r ∧ (∀ c ∈ ds, isDigit c = true) ∧ ∀ c, r.head? = some c → isDigit c = false := by
  refine ⟨u.takeWhile isDigit, u.dropWhile isDigit, List.takeWhile_append_dropWhile.symm, ?_, ?_⟩
  · intro c hc; exact List.all_eq_true.mp List.all_takeWhile c hc
  · intro c hc
    have := List.head?_dropWhile_not isDigit u
    rw [hc] at this
    simpa using this

theorem floatUnsigned_eq (neg : Bool) (s : Str) : floatUnsigned neg s =
    if (s.takeWhile isDigit).isEmpty && (fracPart (s.dropWhile isDigit)).1.isEmpty then none
    else (floatExponent (fracPart (s.dropWhile isDigit)).2).map
      (value neg (s.takeWhile isDigit) (fracPart (s.dropWhile isDigit)).1) := by
  rw [show value neg (s.takeWhile isDigit) (fracPart (s.dropWhile isDigit)).1 = fun e => _ from
    funext fun e => (value_eq _ _ _ e).symm]
  rfl

theorem fracPart_other {r : Str} (h : ∀ c, r.head? = some c → c ≠ '.') : fracPart r = ([], r) := by
  rw [fracPart.eq_def]
  split
  · exact absurd rfl (h _ rfl)
  · rfl

theorem isEmpty_iff2 {a b : Str} : (a.isEmpty && b.isEmpty) = true ↔ a ++ b = [] := by
  cases a <;> cases b <;> simp

theorem unsigned_iff (neg : Bool) (u : Str) (f : F64) :
    floatUnsigned neg u = some f ↔
      ∃ n t ip fp e, u = n ++ t ∧ PlainNum n ip fp ∧ PlainExp t e ∧ f = value neg ip fp e := by
  rw [floatUnsigned_eq]
  constructor
  · intro h
    obtain ⟨ip, r, rfl, h1, h2⟩ := digits_split u
    obtain ⟨e1, e2⟩ := take_digits h1 h2
    rw [e1, e2] at h
    split at h
    · cases h
    · next hne =>
      rw [isEmpty_iff2] at hne
      obtain ⟨e, he, hf⟩ := Option.map_eq_some_iff.mp h
      rw [exponent_iff] at he
      by_cases hp : ∃ r', r = '.' :: r'
      · obtain ⟨r', rfl⟩ := hp
        obtain ⟨fp, t, rfl, h3, h4⟩ := digits_split r'
        obtain ⟨e3, e4⟩ := take_digits h3 h4
        simp only [fracPart, e3, e4] at hne he hf
        exact ⟨ip ++ '.' :: fp, t, ip, fp, e, by simp, .point hne h1 h3, he, hf.symm⟩
      · have hr : ∀ c, r.head? = some c → c ≠ '.' := by
          intro c hc e
          cases r with
          | nil => cases hc
          | cons d r => cases hc; exact hp ⟨r, by rw [e]⟩
        rw [fracPart_other hr] at hne he hf
        rw [List.append_nil] at hne
        exact ⟨ip, r, ip, [], e, rfl, .int hne h1, he, hf.symm⟩
  · rintro ⟨n, t, ip, fp, e, rfl, hn, ht, rfl⟩
    have hh := exp_head ht
    cases hn with
    | int h1 h2 =>
      obtain ⟨e1, e2⟩ := take_digits h2 fun c hc => (hh c hc).1
      rw [e1, e2, fracPart_other fun c hc => (hh c hc).2, if_neg, (exponent_iff t e).mpr ht]; rfl
      rw [isEmpty_iff2, List.append_nil]; exact h1
    | point h1 h2 h3 =>
      obtain ⟨e1, e2⟩ := take_digits (r := '.' :: (fp ++ t)) h2 (fun c hc => by cases hc; decide)
      obtain ⟨e3, e4⟩ := take_digits h3 fun c hc => (hh c hc).1
      rw [List.append_assoc, List.cons_append, e1, e2]
      simp only [fracPart, e3, e4]
      rw [if_neg (by rw [isEmpty_iff2]; exact h1), (exponent_iff t e).mpr ht]; rfl

/-! ## Words -/

theorem le_toNat {a b : Char} : a ≤ b ↔ a.toNat ≤ b.toNat := Iff.rfl

theorem toNat_inj {a b : Char} (h : a.toNat = b.toNat) : a = b := Char.ext (UInt32.toNat_inj.mp h)

theorem lower_iff {c l : Char} (h1 : 97 ≤ l.toNat) (h2 : l.toNat ≤ 122) :
    asciiLower c = l ↔ c = l ∨ c.toNat + 32 = l.toNat := by
  rw [asciiLower]
  split
  · next h =>
    rw [le_toNat, le_toNat, show 'A'.toNat = 65 from rfl, show 'Z'.toNat = 90 from rfl] at h
    have hv : (Char.ofNat (c.toNat + 32)).toNat = c.toNat + 32 := by
      have hc : (c.toNat + 32).isValidChar := .inl (by omega)
      rw [Char.ofNat, dif_pos hc]
      rfl
    constructor
    · intro e; right; rw [← hv, e]
    · rintro (rfl | e)
      · omega
      · exact toNat_inj (by rw [hv, e])
  · next h =>
    rw [le_toNat, le_toNat, show 'A'.toNat = 65 from rfl, show 'Z'.toNat = 90 from rfl] at h
    refine ⟨.inl, ?_⟩
    rintro (rfl | e)
    · rfl
    · omega

theorem word_iff {w : Str} (hw : ∀ l ∈ w, 97 ≤ l.toNat ∧ l.toNat ≤ 122) {s : Str} : s.map asciiLower = w ↔ Word w s := by
  induction w generalizing s with
  | nil => cases s <;> simp [Word]
  | cons l w ih =>
    cases s with
    | nil => simp [Word]
    | cons c s =>
      have hl := hw l List.mem_cons_self
      rw [List.map_cons, List.cons.injEq, Word, lower_iff hl.1 hl.2, ih fun l hl => hw l (List.mem_cons_of_mem _ hl)]

theorem nan_iff {s : Str} : s.map asciiLower = k!"nan" ↔ Word k!"nan" s := word_iff (by decide)
theorem inf_iff {s : Str} : s.map asciiLower = k!"inf" ↔ Word k!"inf" s := word_iff (by decide)
theorem infinity_iff {s : Str} : s.map asciiLower = k!"infinity" ↔ Word k!"infinity" s := word_iff (by decide)

/-- The characters of a word are letters. -/
theorem word_letters {w : Str} (hw : ∀ l ∈ w, 97 ≤ l.toNat ∧ l.toNat ≤ 122) {s : Str} (h : Word w s) :
    ∀ c ∈ s, 65 ≤ c.toNat ∧ c.toNat ≤ 122 ∧ c ≠ '_' := by
  induction w generalizing s with
  | nil =>
    cases s with
    | nil => exact fun _ hc => absurd hc List.not_mem_nil
    | cons => exact absurd h (by simp [Word])
  | cons l w ih =>
    cases s with
    | nil => exact absurd h (by simp [Word])
    | cons c s =>
      rw [Word] at h
      have hl := hw l List.mem_cons_self
      intro d hd
      rcases List.mem_cons.mp hd with rfl | hd
      · have h1 : d.toNat = l.toNat ∨ d.toNat + 32 = l.toNat := h.1.imp (congrArg _) id
        refine ⟨by omega, by omega, ?_⟩
        rintro rfl
        have : '_'.toNat = 95 := rfl
        omega
      · exact ih (fun l hl => hw l (List.mem_cons_of_mem _ hl)) h.2 d hd

theorem letter_not_digit {c : Char} (h1 : 65 ≤ c.toNat) (h2 : c.toNat ≤ 122) : isDigit c = false := by
  rw [isDigit, digitVal_eq]
  rw [if_neg (by simp; omega), if_pos (by omega)]; rfl

theorem letter_not_space {c : Char} (h1 : 43 ≤ c.toNat) (h2 : c.toNat ≤ 122) : isSpace c = false := by
  cases h : isSpace c with
  | false => rfl
  | true =>
    rw [isSpace] at h
    simp at h
    omega

/-- The texts `nan`, `inf` and `infinity`. -/
theorem word_drop {s : Str} (hs : ∀ c ∈ s, 65 ≤ c.toNat ∧ c.toNat ≤ 122 ∧ c ≠ '_') (p : Bool) : dropUnderscores p s = some s := by
  induction s generalizing p with
  | nil => rfl
  | cons c s ih =>
    rw [drop_cons (hs c List.mem_cons_self).2.2, ih fun d hd => hs d (List.mem_cons_of_mem _ hd)]; rfl

/-! ## From the grammar to the function -/

theorem sign_drop {sg : Str} {neg : Bool} (h : Sign sg neg) (r : Str) :
    dropUnderscores false (sg ++ r) = (dropUnderscores false r).map (sg ++ ·) := by
  cases h with
  | none => simp
  | plus => rw [List.singleton_append, drop_cons (by decide)]; rfl
  | minus => rw [List.singleton_append, drop_cons (by decide)]; rfl

theorem exponent_drop {t : Str} {e : Int} (h : Exponent t e) (p : Bool) : ∃ u, dropUnderscores p t = some u ∧ PlainExp u e := by
  cases h with
  | none => exact ⟨[], rfl, .none⟩
  | @some c sg s ds neg hc hs hd =>
    refine ⟨c :: (sg ++ ds), ?_, .some hc hs hd.ne_nil hd.digits⟩
    have hc' : c ≠ '_' ∧ isDigit c = false := by rcases hc with rfl | rfl <;> decide
    have hp := drop_part hd false []
    rw [List.append_nil] at hp
    rw [drop_cons hc'.1, hc'.2, sign_drop hs, hp]
    simp [dropUnderscores]

theorem number_drop {s t ip fp : Str} {e : Int} (hn : Number s ip fp) (ht : Exponent t e) :
    ∃ n u, dropUnderscores false (s ++ t) = some (n ++ u) ∧ PlainNum n ip fp ∧ PlainExp u e := by
  cases hn with
  | frac h =>
    obtain ⟨u, h1, h2⟩ := exponent_drop ht true
    refine ⟨'.' :: fp, u, ?_, .point (ip := []) (by simpa using h.ne_nil) (fun _ hc => absurd hc List.not_mem_nil) h.digits, h2⟩
    rw [List.cons_append, drop_cons (by decide), drop_part h, h1]; rfl
  | both ha hb =>
    obtain ⟨u, h1, h2⟩ := exponent_drop ht true
    refine ⟨ip ++ '.' :: fp, u, ?_, .point (by simp [ha.ne_nil]) ha.digits hb.digits, h2⟩
    rw [List.append_assoc, drop_part ha, List.cons_append, drop_cons (by decide), drop_part hb, h1]
    simp
  | int h =>
    obtain ⟨u, h1, h2⟩ := exponent_drop ht true
    refine ⟨ip, u, ?_, .int h.ne_nil h.digits, h2⟩
    rw [drop_part h, h1]; rfl
  | point h =>
    obtain ⟨u, h1, h2⟩ := exponent_drop ht false
    refine ⟨ip ++ ['.'], u, ?_, .point (by simp [h.ne_nil]) h.digits (fun _ hc => absurd hc List.not_mem_nil), h2⟩
    rw [List.append_assoc, drop_part h, List.singleton_append, drop_cons (by decide), show isDigit '.' = false by decide, h1]
    simp

/-! ## From the function to the grammar -/

theorem exponent_inv {t u : Str} {e : Int} (h : PlainExp u e) (hd : dropUnderscores false t = some u) : Exponent t e := by
  cases h with
  | none => rw [drop_nil hd]; exact .none
  | @some c sg ds neg hc hs hne hds =>
    have hc' : isDigit c = false := by rcases hc with rfl | rfl <;> decide
    obtain ⟨t', rfl, hd1⟩ := drop_inv hd hc'
    have : ∃ b, t' = sg ++ b ∧ dropUnderscores false b = some ds := by
      cases hs with
      | none => exact ⟨t', rfl, hd1⟩
      | plus => exact (drop_inv hd1 (by decide)).imp fun _ h => h
      | minus => exact (drop_inv hd1 (by decide)).imp fun _ h => h
    obtain ⟨b, rfl, hd2⟩ := this
    obtain ⟨x, y, rfl, h1, h2⟩ := drop_inv_part hne hds (r := []) (fun _ h => nomatch h) (by rw [hd2, List.append_nil])
    rw [drop_nil h2, List.append_nil]
    exact .some hc hs h1

theorem number_inv {t n u ip fp : Str} {e : Int} (hn : PlainNum n ip fp) (hu : PlainExp u e)
    (hd : dropUnderscores false t = some (n ++ u)) : ∃ a b, t = a ++ b ∧ Number a ip fp ∧ Exponent b e := by
  have hh : ∀ c, u.head? = some c → isDigit c = false := fun c hc => (exp_head hu c hc).1
  cases hn with
  | int h1 h2 =>
    obtain ⟨a, b, rfl, h3, h4⟩ := drop_inv_part h1 h2 hh hd
    exact ⟨a, b, rfl, .int h3, exponent_inv hu h4⟩
  | point h1 h2 h3 =>
    rw [List.append_assoc, List.cons_append] at hd
    have key : ∀ b, dropUnderscores false b = some ('.' :: (fp ++ u)) →
        ∃ x y, b = '.' :: (x ++ y) ∧ Exponent y e ∧ ((fp = [] ∧ x = []) ∨ DigitPart x fp) := by
      intro b hb
      obtain ⟨b', rfl, hb1⟩ := drop_inv hb (by decide)
      by_cases hf : fp = []
      · subst hf
        exact ⟨[], b', rfl, exponent_inv hu hb1, .inl ⟨rfl, rfl⟩⟩
      · obtain ⟨x, y, rfl, h4, h5⟩ := drop_inv_part hf h3 hh hb1
        exact ⟨x, y, rfl, exponent_inv hu h5, .inr h4⟩
    by_cases hi : ip = []
    · subst hi
      obtain ⟨x, y, rfl, h4, h5⟩ := key t hd
      rcases h5 with ⟨rfl, -⟩ | h5
      · exact absurd rfl h1
      · exact ⟨'.' :: x, y, rfl, .frac h5, h4⟩
    · obtain ⟨a, b, rfl, h4, h5⟩ := drop_inv_part hi h2 (r := '.' :: (fp ++ u)) (fun c hc => by cases hc; decide) hd
      obtain ⟨x, y, rfl, h6, h7⟩ := key b h5
      rcases h7 with ⟨rfl, rfl⟩ | h7
      · exact ⟨a ++ ['.'], y, by simp, .point h4, h6⟩
      · exact ⟨a ++ '.' :: x, y, by simp, .both h4 h7, h6⟩

/-! ## White space at the ends -/

theorem space_iff (c : Char) : floatSpace c = true ↔ Space c := by
  rw [floatSpace, Space, Bool.and_eq_true, Bool.not_eq_true', ← Bool.not_eq_true, Bool.and_eq_true, decide_eq_true_eq, decide_eq_true_eq]

theorem not_floatSpace {c : Char} (h : isSpace c = false) : floatSpace c = false := by rw [floatSpace, h]; rfl

theorem strip_split (s : Str) : ∃ a b, s = a ++ floatStrip s ++ b ∧ (∀ c ∈ a, Space c) ∧ ∀ c ∈ b, Space c := by
  have h := List.takeWhile_append_dropWhile (p := floatSpace) (l := (s.dropWhile floatSpace).reverse)
  refine ⟨s.takeWhile floatSpace, ((s.dropWhile floatSpace).reverse.takeWhile floatSpace).reverse, ?_, ?_, ?_⟩
  · rw [floatStrip, List.append_assoc, ← List.reverse_append, h, List.reverse_reverse, List.takeWhile_append_dropWhile]
  · exact fun c hc => (space_iff c).mp (List.all_eq_true.mp List.all_takeWhile c hc)
  · exact fun c hc => (space_iff c).mp (List.all_eq_true.mp List.all_takeWhile c (List.mem_reverse.mp hc))

theorem dropWhile_spaces {a r : Str} (ha : ∀ c ∈ a, Space c) (hr : ∀ c, r.head? = some c → floatSpace c = false) :
    (a ++ r).dropWhile floatSpace = r := by
  induction a with
  | nil =>
    cases r with
    | nil => rfl
    | cons c r => rw [List.nil_append, List.dropWhile_cons, hr c rfl]; rfl
  | cons d a ih =>
    rw [List.cons_append, List.dropWhile_cons, (space_iff d).mpr (ha d List.mem_cons_self)]
    exact ih fun c hc => ha c (List.mem_cons_of_mem _ hc)

theorem strip_join {a b t : Str} (ha : ∀ c ∈ a, Space c) (hb : ∀ c ∈ b, Space c) (ht : ∀ c ∈ t, floatSpace c = false) (hne : t ≠ []) :
    floatStrip (a ++ t ++ b) = t := by
  rw [floatStrip, List.append_assoc, dropWhile_spaces ha, List.reverse_append, dropWhile_spaces, List.reverse_reverse]
  · exact fun c hc => hb c (List.mem_reverse.mp hc)
  · intro c hc
    exact ht c (List.mem_reverse.mp (List.mem_of_mem_head? hc))
  · intro c hc
    cases t with
    | nil => exact absurd rfl hne
    | cons d t => cases hc; exact ht _ List.mem_cons_self

theorem digit_not_space {c : Char} (h : isDigit c = true) : isSpace c = false := by
  cases hs : isSpace c with
  | false => rfl
  | true => rw [isDigit_of_space hs] at h; cases h

/-- The characters of a text of the grammar, none of which is white space. -/
theorem DigitPart.chars {s ds : Str} (h : DigitPart s ds) : ∀ c ∈ s, isSpace c = false := by
  induction h with
  | one hc => intro c h; exact (List.mem_singleton.mp h) ▸ digit_not_space hc
  | more hc _ ih => intro c h; exact (List.mem_cons.mp h).elim (fun e => e ▸ digit_not_space hc) (ih c)
  | under hc _ ih =>
    intro c h
    rcases List.mem_cons.mp h with e | h
    · exact e ▸ digit_not_space hc
    · rcases List.mem_cons.mp h with e | h
      · subst e; decide
      · exact ih c h

theorem DigitPart.ne {s ds : Str} (h : DigitPart s ds) : s ≠ [] := by cases h <;> simp

theorem Number.chars {s ip fp : Str} (h : Number s ip fp) : (∀ c ∈ s, isSpace c = false) ∧ s ≠ [] := by
  have hp : isSpace '.' = false := by decide
  cases h with
  | frac h => exact ⟨fun c hc => (List.mem_cons.mp hc).elim (fun e => e ▸ hp) (h.chars c), by simp⟩
  | both ha hb =>
    refine ⟨fun c hc => ?_, by simp⟩
    rcases List.mem_append.mp hc with hc | hc
    · exact ha.chars c hc
    · exact (List.mem_cons.mp hc).elim (fun e => e ▸ hp) (hb.chars c)
  | int h => exact ⟨h.chars, h.ne⟩
  | point h =>
    refine ⟨fun c hc => ?_, by simp⟩
    rcases List.mem_append.mp hc with hc | hc
    · exact h.chars c hc
    · exact (List.mem_singleton.mp hc) ▸ hp

theorem Sign.chars {s : Str} {neg : Bool} (h : Sign s neg) : ∀ c ∈ s, isSpace c = false := by
  cases h <;> decide

theorem Exponent.chars {s : Str} {e : Int} (h : Exponent s e) : ∀ c ∈ s, isSpace c = false := by
  cases h with
  | none => exact fun _ hc => absurd hc List.not_mem_nil
  | some hc hs hd =>
    intro c h
    rcases List.mem_cons.mp h with rfl | h
    · rcases hc with rfl | rfl <;> decide
    · exact (List.mem_append.mp h).elim (hs.chars c) (hd.chars c)

theorem Unsigned.chars {neg : Bool} {s : Str} {x : Option F64} (h : Unsigned neg s x) : (∀ c ∈ s, isSpace c = false) ∧ s ≠ [] := by
  have hw : ∀ {w s : Str}, (∀ l ∈ w, 97 ≤ l.toNat ∧ l.toNat ≤ 122) → w ≠ [] → Word w s → (∀ c ∈ s, isSpace c = false) ∧ s ≠ [] := by
    intro w s hw hne h
    refine ⟨fun c hc => ?_, ?_⟩
    · have := word_letters hw h c hc
      exact letter_not_space (by omega) this.2.1
    · rintro rfl
      cases w with
      | nil => exact hne rfl
      | cons => exact absurd h (by simp [Word])
  cases h with
  | nan h => exact hw (by decide) (by decide) h
  | inf h => exact h.elim (hw (by decide) (by decide)) (hw (by decide) (by decide))
  | number hn he =>
    exact ⟨fun c hc => (List.mem_append.mp hc).elim (hn.chars.1 c) (he.chars c), by simp [hn.chars.2]⟩

/-! ## The function reads the grammar -/

/-- A number is not one of the words. -/
theorem number_not_word {n u ip fp w : Str} (hn : PlainNum n ip fp) (hw : ∀ l ∈ w, 97 ≤ l.toNat ∧ l.toNat ≤ 122) : ¬ Word w (n ++ u) := by
  intro h
  have hl := word_letters hw h
  have hd : ∀ {c : Char}, c ∈ n ++ u → isDigit c = true → False := fun {c} h1 h2 => by
    rw [letter_not_digit (hl c h1).1 (hl c h1).2.1] at h2; cases h2
  cases hn with
  | int h1 h2 =>
    cases n with
    | nil => exact h1 rfl
    | cons c r => exact hd (by simp) (h2 c (by simp))
  | point h1 h2 h3 =>
    have := (hl '.' (by simp)).1
    exact absurd this (by decide)

theorem plain_head {n ip fp : Str} (h : PlainNum n ip fp) (u : Str) : ∀ c, (n ++ u).head? = some c → c ≠ '+' ∧ c ≠ '-' := by
  intro c hc
  cases h with
  | int h1 h2 =>
    cases n with
    | nil => exact absurd rfl h1
    | cons d r => cases hc; exact not_sign (h2 _ List.mem_cons_self)
  | point h1 h2 h3 =>
    cases ip with
    | nil => cases hc; decide
    | cons d r => cases hc; exact not_sign (h2 _ List.mem_cons_self)

theorem floatOfText_of {s : Str} {x : Option F64} (h : FloatText s x) : floatOfText s = some x := by
  obtain ⟨ha, hb, hs, hu⟩ := h
  next a b sg s neg =>
  have hc : ∀ c ∈ sg ++ s, floatSpace c = false := fun c hc =>
    not_floatSpace ((List.mem_append.mp hc).elim (hs.chars c) (hu.chars.1 c))
  rw [floatOfText_eq, strip_join ha hb hc (by simp [hu.chars.2]), sign_drop hs]
  have word : ∀ {w : Str}, (∀ l ∈ w, 97 ≤ l.toNat ∧ l.toNat ≤ 122) → Word w s →
      dropUnderscores false s = some s ∧ ∀ c, s.head? = some c → c ≠ '+' ∧ c ≠ '-' := by
    intro w hw h
    have hl := word_letters hw h
    refine ⟨word_drop hl false, fun c hc => ?_⟩
    have := hl c (List.mem_of_mem_head? hc)
    constructor <;> (rintro rfl; revert this; decide)
  cases hu with
  | nan h =>
    obtain ⟨h1, h2⟩ := word (by decide) h
    obtain ⟨h3, h4⟩ := sign_join hs h2
    rw [h1]
    simp only [Option.map_some, h4]
    rw [if_pos (nan_iff.mpr h)]
  | inf h =>
    have h' : s.map asciiLower = k!"inf" ∨ s.map asciiLower = k!"infinity" := h.imp inf_iff.mpr infinity_iff.mpr
    have hw := h.elim (word (by decide)) (word (by decide))
    obtain ⟨h3, h4⟩ := sign_join hs hw.2
    rw [hw.1]
    simp only [Option.map_some, h3, h4]
    rw [if_neg, if_pos h']
    rcases h' with h' | h' <;> (rw [h']; decide)
  | number hn he =>
    obtain ⟨n, u, h1, h2, h3⟩ := number_drop hn he
    have hh : ∀ c, (n ++ u).head? = some c → c ≠ '+' ∧ c ≠ '-' := by
      intro c hc
      exact plain_head h2 u c hc
    obtain ⟨h4, h5⟩ := sign_join hs hh
    rw [h1]
    simp only [Option.map_some, h4, h5]
    rw [if_neg (fun h => number_not_word h2 (by decide) (nan_iff.mp h)),
      if_neg (fun h => h.elim (fun h => number_not_word h2 (by decide) (inf_iff.mp h))
        fun h => number_not_word h2 (by decide) (infinity_iff.mp h)),
      (unsigned_iff neg (n ++ u) _).mpr ⟨n, u, _, _, _, rfl, h2, h3, rfl⟩]
    rfl

theorem floatText_of {s : Str} {x : Option F64} (h : floatOfText s = some x) : FloatText s x := by
  rw [floatOfText_eq] at h
  obtain ⟨a, b, hs, ha, hb⟩ := strip_split s
  generalize floatStrip s = t at h hs
  subst hs
  cases hd : dropUnderscores false t with
  | none => rw [hd] at h; cases h
  | some u =>
    rw [hd] at h
    obtain ⟨sg, v, neg, rfl, h1, h2, h3⟩ := sign_split u
    simp only [h2, h3] at h
    have : ∃ r, t = sg ++ r ∧ dropUnderscores false r = some v := by
      cases h1 with
      | none => exact ⟨t, rfl, hd⟩
      | plus => exact (drop_inv hd (by decide)).imp fun _ h => h
      | minus => exact (drop_inv hd (by decide)).imp fun _ h => h
    obtain ⟨r, rfl, hr⟩ := this
    refine .mk ha hb h1 ?_
    have word : ∀ {w : Str}, (∀ l ∈ w, 97 ≤ l.toNat ∧ l.toNat ≤ 122) → Word w v → r = v := fun {w} hw h =>
      drop_inv_all (fun c hc => by have := word_letters hw h c hc; exact letter_not_digit this.1 this.2.1) hr
    split at h
    · next hw =>
      rw [nan_iff] at hw
      cases h
      rw [word (by decide) hw]
      exact .nan hw
    · split at h
      · next hw =>
        rw [inf_iff, infinity_iff] at hw
        cases h
        rw [hw.elim (word (by decide)) (word (by decide))]
        exact .inf hw
      · obtain ⟨f, hf, rfl⟩ := Option.map_eq_some_iff.mp h
        obtain ⟨n, t, ip, fp, e, rfl, hn, ht, rfl⟩ := (unsigned_iff _ _ _).mp hf
        obtain ⟨x, y, rfl, hx, hy⟩ := number_inv hn ht hr
        exact .number hx hy

/-- `float(s)` returns `x` exactly if `s` is a text of the grammar with this value. -/
theorem floatOfText_iff (s : Str) (x : Option F64) : floatOfText s = some x ↔ FloatText s x := ⟨floatText_of, floatOfText_of⟩

end FloatGrammar
end Kiutils
