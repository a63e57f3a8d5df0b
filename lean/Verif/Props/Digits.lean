import Verif.Proofs.Digits
import Verif.Props.FileFormat
/-!
# C51: the digits of numbers are kept

Loading and saving a file leaves every number in it as it is, character for character, if the number is written in the usual form
and has at most fifteen significant digits. (Comparing two versions of a file therefore shows only what was changed.)
-/
namespace Kiutils
open F64

/-- A number in the usual form: digits 0 to 9, no plus sign, no superfluous zeros in front or at the end, no `-0`. -/
structure NumLit.Usual (n : NumLit) : Prop where
  sign : n.sign = none ∨ n.sign = some '-'
  ip : ∀ c ∈ n.ip, c ∈ k!"0123456789"
  no_zeros : n.ip = k!"0" ∨ n.ip ≠ [] ∧ ∀ r, n.ip ≠ '0' :: r
  fp : (n.fp = none ∧ (n.sign = none ∨ n.ip ≠ k!"0")) ∨
    ∃ a c, n.fp = some (a ++ [c]) ∧ (∀ x ∈ a ++ [c], x ∈ k!"0123456789") ∧ c ≠ '0'

/-- At most fifteen digits, not counting zeros in front. -/
def NumLit.Digits15 (n : NumLit) : Prop := digitsVal (n.ip ++ n.fp.getD []) < 10 ^ 15

/-- An integer, or at least 0.0001 in absolute value. -/
def NumLit.NotTiny (n : NumLit) : Prop := n.fp = none ∨ 10 ^ (n.fp.getD []).length ≤ 10000 * digitsVal (n.ip ++ n.fp.getD [])

theorem ascii_of_mem {s : Str} (h : ∀ c ∈ s, c ∈ k!"0123456789") : AsciiDigits s := by
  intro c hc
  have := h c hc
  simp only [List.mem_cons, List.not_mem_nil, or_false] at this
  rcases this with rfl | rfl | rfl | rfl | rfl | rfl | rfl | rfl | rfl | rfl
  exacts [⟨0, by decide, rfl⟩, ⟨1, by decide, rfl⟩, ⟨2, by decide, rfl⟩, ⟨3, by decide, rfl⟩, ⟨4, by decide, rfl⟩,
    ⟨5, by decide, rfl⟩, ⟨6, by decide, rfl⟩, ⟨7, by decide, rfl⟩, ⟨8, by decide, rfl⟩, ⟨9, by decide, rfl⟩]

theorem NumLit.Usual.wf {n : NumLit} (h : n.Usual) : n.Wf := by
  obtain ⟨s, ip, fp⟩ := n
  obtain ⟨h1, h2, h3, h4⟩ := h
  simp only at h1 h2 h3 h4
  refine ⟨?_, (ascii_of_mem h2).digits, ?_, ?_, ?_⟩
  · rcases h3 with rfl | h3
    · simp
    · exact h3.1
  · rintro f rfl
    rcases h4 with h4 | ⟨a, c, h4, -⟩
    · cases h4.1
    · cases h4; simp
  · rintro f rfl
    rcases h4 with h4 | ⟨a, c, h4, h5, -⟩
    · cases h4.1
    · cases h4; exact (ascii_of_mem h5).digits
  · rcases h1 with rfl | rfl <;> simp

/-- The value read for the text of such a number is written as that text. -/
theorem C51_number (n : NumLit) (h : n.Usual) (h15 : n.Digits15) (hlo : n.NotTiny) : n.val.pyStr = n.src := by
  obtain ⟨s, ip, fp⟩ := n
  obtain ⟨h1, h2, h3, h4⟩ := h
  unfold NumLit.Digits15 at h15
  unfold NumLit.NotTiny at hlo
  simp only at h1 h2 h3 h4 h15 hlo
  have ha := ascii_of_mem h2
  rcases h4 with ⟨rfl, h4⟩ | ⟨a, c, rfl, h5, hc⟩
  · simp only [Option.getD_none, List.append_nil] at h15
    have hb : digitsVal ip ≤ 2 ^ 53 := by omega
    have hn := natStr_digitsVal ha h3
    unfold NumLit.val NumLit.src F64.ofDecimal
    simp only [Option.getD_none, List.append_nil, List.length_nil, Nat.pow_zero]
    rw [canon_ofRat_exact _ _ hb]
    rcases h1 with rfl | rfl
    · simp only [Val.pyStr, intStr, Option.toList, List.nil_append]
      have : ¬ ((if (none == some '-') = true then -(digitsVal ip : Int) else (digitsVal ip : Int)) < 0) := by
        simp
      rw [if_neg this]
      simpa using hn
    · have h0 : digitsVal ip ≠ 0 := by
        rcases h4 with h4 | h4
        · cases h4
        · intro h0
          rw [h0] at hn
          exact h4 hn.symm
      have : (if (some '-' == some '-') = true then -(digitsVal ip : Int) else (digitsVal ip : Int)) = -(digitsVal ip : Int) := by
        simp
      rw [this]
      simp only [Val.pyStr, intStr]
      rw [if_pos (by omega)]
      simpa using hn
  · have hf := ascii_of_mem h5
    simp only [Option.getD_some] at h15 hlo
    have hlo := hlo.resolve_left nofun
    obtain ⟨g1, g2⟩ := repr_ofDecimal (s == some '-') ha hf h3 ⟨a, c, rfl, hc⟩ h15 hlo
    unfold NumLit.val
    simp only [Option.getD_some]
    generalize F64.ofDecimal (s == some '-') ip (a ++ [c]) = f at *
    have : Val.canon (.flt f) = .flt f := by simp [Val.canon, g1]
    rw [this]
    simp only [Val.pyStr, g2, NumLit.src]
    rcases h1 with rfl | rfl <;> rfl

/-- In a file: of a list of such numbers, each comes back as the same text. -/
theorem C51_list (key : Str) (hk : isKeyword key = true) (ns : List NumLit) (h : ∀ n ∈ ns, n.Usual ∧ n.Digits15 ∧ n.NotTiny) :
    ∃ vs : List Val, parseSexp ('(' :: (key ++ ns.flatMap (fun n => ' ' :: n.src) ++ [')'])) = .ok (.list (.str key :: vs)) ∧
      vs.map Val.pyStr = ns.map NumLit.src := by
  refine ⟨ns.map NumLit.val, ?_, ?_⟩
  · refine parse_of_lex ?_
    have key' : ∀ ns : List NumLit, (∀ n ∈ ns, n.Usual ∧ n.Digits15 ∧ n.NotTiny) →
        lex (ns.flatMap (fun n => ' ' :: n.src) ++ [')']) = toksL (ns.map NumLit.val) ++ [.cl] ∧
        (numEnd (ns.flatMap (fun n => ' ' :: n.src) ++ [')'])) = true := by
      intro ns h
      induction ns with
      | nil => exact ⟨by rw [List.flatMap_nil, List.nil_append, lex_cl, lex_nil]; rfl, rfl⟩
      | cons n ns ih =>
        obtain ⟨ih1, ih2⟩ := ih fun x hx => h x (List.mem_cons_of_mem _ hx)
        refine ⟨?_, rfl⟩
        have hv : toks n.val = [.atom n.val] := by
          unfold NumLit.val
          simp only [Val.canon]
          split <;> rfl
        rw [List.flatMap_cons, List.cons_append, List.cons_append, lex_blank, List.append_assoc,
          lex_num (h n List.mem_cons_self).1.wf ih2, ih1, List.map_cons, toksL_cons, hv]
        rfl
    obtain ⟨k1, k2⟩ := key' ns h
    have k3 := lx_kw hk (bareEnd_of_numEnd k2) ⟨k1, trivial⟩
    unfold kw at k3
    rw [List.append_assoc, lex_op, k3.lex]
    rw [toks_list, toksL_cons]
    simp
  · rw [List.map_map]
    exact List.map_congr_left fun n hn => C51_number n (h n hn).1 (h n hn).2.1 (h n hn).2.2

/-- A whole object: the text of a coordinate is the same after loading and saving. -/
theorem C51_Coordinate (x y z : NumLit) (h : ∀ n ∈ [x, y, z], n.Usual ∧ n.Digits15 ∧ n.NotTiny) :
    ((fun o : Coordinate => o.toSexpr) <$> (parseSexp (k!"(xyz " ++ x.src ++ k!" " ++ y.src ++ k!" " ++ z.src ++ k!")") >>= Coordinate.fromSexpr)) =
      .ok (k!"(xyz " ++ x.src ++ k!" " ++ y.src ++ k!" " ++ z.src ++ k!")") := by
  obtain ⟨vs, h1, h2⟩ := C51_list k!"xyz" (by decide) [x, y, z] h
  have ht : k!"(xyz " ++ x.src ++ k!" " ++ y.src ++ k!" " ++ z.src ++ k!")" =
      '(' :: (k!"xyz" ++ [x, y, z].flatMap (fun n => ' ' :: n.src) ++ [')']) := by simp
  rw [← ht] at h1
  obtain ⟨a, b, c, rfl⟩ : ∃ a b c, vs = [a, b, c] := by
    have hl := congrArg List.length h2
    simp only [List.length_map, List.length_cons, List.length_nil] at hl
    match vs, hl with
    | [a, b, c], _ => exact ⟨a, b, c, rfl⟩
  simp only [List.map_cons, List.map_nil, List.cons.injEq, and_true] at h2
  rw [h1, ← h2.1, ← h2.2.1, ← h2.2.2]
  have : (Coordinate.toSexpr { X := a, Y := b, Z := c }) =
      k!"(xyz " ++ a.pyStr ++ k!" " ++ b.pyStr ++ k!" " ++ c.pyStr ++ k!")" := by
    simp [Coordinate.toSexpr, indents, kw, endl]
  rw [← this]
  rfl

/-! ## Examples -/

/-- -12.7 -/
theorem usual_sample : NumLit.Usual ⟨some '-', k!"12", some k!"7"⟩ :=
  ⟨.inr rfl, by decide, .inr ⟨by decide, by intro r h; cases h⟩, .inr ⟨[], '7', rfl, by decide, by decide⟩⟩
example := C51_number ⟨some '-', k!"12", some k!"7"⟩ usual_sample (by unfold NumLit.Digits15; decide) (.inr (by decide))
theorem usual_sample_mem : ∀ n ∈ [⟨some '-', k!"12", some k!"7"⟩, ⟨some '-', k!"12", some k!"7"⟩, ⟨some '-', k!"12", some k!"7"⟩],
    NumLit.Usual n ∧ NumLit.Digits15 n ∧ NumLit.NotTiny n := fun n hn => by
  simp only [List.mem_cons, List.not_mem_nil, or_false, or_self] at hn
  exact hn ▸ ⟨usual_sample, by unfold NumLit.Digits15; decide, .inr (by decide)⟩
example := C51_list k!"pts" (by decide) _ usual_sample_mem
example := C51_Coordinate _ _ _ usual_sample_mem
/-- 0.0762 -/
example := C51_number ⟨none, k!"0", some k!"0762"⟩ ⟨.inl rfl, by decide, .inl rfl, .inr ⟨k!"076", '2', rfl, by decide, by decide⟩⟩
  (by unfold NumLit.Digits15; decide) (.inr (by decide))
/-- 90 -/
example := C51_number ⟨none, k!"90", none⟩ ⟨.inl rfl, by decide, .inr ⟨by decide, by intro r h; cases h⟩, .inl ⟨rfl, .inl rfl⟩⟩
  (by unfold NumLit.Digits15; decide) (.inl rfl)

end Kiutils
