import Verif.Proofs.ReprShortest
import Verif.FloatGrammar
/-!
# C55: floats are written with the fewest digits that denote them

Of all texts that Python's `float()` reads as a given float, `to_sexpr` writes one with the fewest significant digits, and of those
the one whose value is nearest to the float. Python's documentation promises this for `repr`; here it is proved of the model of `repr`.
-/
namespace Kiutils
open F64 FloatGrammar

/-- The text is a decimal literal, in the grammar of `float()`, of the value `± D * 10^q`. -/
def IsLiteral (s : Str) (neg : Bool) (D : Nat) (q : Int) : Prop :=
  ∃ a b sg t u ip fp e, s = a ++ (sg ++ (t ++ u)) ++ b ∧ (∀ c ∈ a, Space c) ∧ (∀ c ∈ b, Space c) ∧ Sign sg neg ∧ Number t ip fp ∧
    Exponent u e ∧ D = digitsVal (ip ++ fp) ∧ q = e - (fp.length : Int)

/-- `D` has at most `k` significant digits: it is a number of `k` digits, with zeros behind it. -/
def SigDigits (D k : Nat) : Prop := ∃ D' j, D = D' * 10 ^ j ∧ D' < 10 ^ k

/-- The value of `D * 10^q` as a rational number. -/
def decimal (D : Nat) (q : Int) : ℚ := D * 10 ^ q

theorem SigDigits.mono {D k l : Nat} (h : SigDigits D k) (hl : k ≤ l) : SigDigits D l := by
  obtain ⟨D', j, h1, h2⟩ := h
  exact ⟨D', j, h1, lt_of_lt_of_le h2 (Nat.pow_le_pow_right (by norm_num) hl)⟩

theorem part_digits {s : Str} (hne : s ≠ []) (h : ∀ c ∈ s, isDigit c = true) : DigitPart s s := by
  induction s with
  | nil => exact absurd rfl hne
  | cons c s ih =>
    have hc := h c List.mem_cons_self
    by_cases hs : s = []
    · subst hs; exact .one hc
    · exact .more hc (ih hs fun d hd => h d (List.mem_cons_of_mem _ hd))

theorem value_reads (neg : Bool) (ip fp : Str) (e : Int) :
    Reads neg (decimal (digitsVal (ip ++ fp)) (e - (fp.length : Int))) (value neg ip fp e) := by
  refine ⟨_, _, by positivity, ?_, rfl⟩
  unfold decimal
  rcases lt_or_ge (e - (fp.length : Int)) 0 with h | h
  · rw [show (e - (fp.length : Int)).toNat = 0 by omega, ten_zpow_of_neg h,
      show ((fp.length : Int) - e).toNat = (-(e - (fp.length : Int))).toNat by omega]
    push_cast; field_simp
  · rw [show ((fp.length : Int) - e).toNat = 0 by omega, ten_zpow_of_nonneg h]
    push_cast; simp

/-- What `float()` makes of a decimal literal. -/
theorem IsLiteral.float {s : Str} {neg : Bool} {D : Nat} {q : Int} (h : IsLiteral s neg D q) :
    ∃ f, floatOfText s = some (some f) ∧ Reads neg (decimal D q) f := by
  obtain ⟨a, b, sg, t, u, ip, fp, e, rfl, ha, hb, hs, ht, hu, rfl, rfl⟩ := h
  exact ⟨_, floatOfText_of (.mk ha hb hs (.number ht hu)), value_reads neg ip fp e⟩

theorem reads_neg {neg s : Bool} {v : ℚ} {m : Nat} {e : Int} (h : Reads neg v (.fin s m e)) : s = neg := by
  obtain ⟨a, b, _, _, h⟩ := h
  have := ofRat_neg neg a b
  rw [h] at this; exact this

theorem sign_of (neg : Bool) : Sign (if neg then ['-'] else []) neg := by cases neg <;> constructor

theorem isLiteral_of {neg : Bool} {t u ip fp : Str} {e : Int} {D : Nat} {q : Int} (ht : Number t ip fp) (hu : Exponent u e)
    (hD : D = digitsVal (ip ++ fp)) (hq : q = e - (fp.length : Int)) : IsLiteral ((if neg then ['-'] else []) ++ (t ++ u)) neg D q :=
  ⟨[], [], _, t, u, ip, fp, e, by simp, fun _ h => absurd h List.not_mem_nil, fun _ h => absurd h List.not_mem_nil, sign_of neg, ht, hu,
    hD, hq⟩

/-- The digits of `repr`, and their place. -/
theorem repr_isLiteral {neg : Bool} {m : Nat} {e : Int} (hm : m ≠ 0) {k : Nat} {p : Int} (hk : 0 < k)
    (hd : IsDec k p (shortest neg m e 17 1)) :
    ∃ D q, IsLiteral (F64.fin neg m e).repr neg D q ∧ decimal D q = decVal k (shortest neg m e 17 1) ∧ SigDigits D k := by
  obtain ⟨hne, hdig, hval⟩ := digits_val hk hd
  have hlen : (stripZeros (natStr (shortest neg m e 17 1).1)).length ≤ k := by
    obtain ⟨z, hz⟩ := stripZeros_eq (natStr (shortest neg m e 17 1).1)
    have hl := natStr_length_eq hk hd.lo hd.hi
    rw [hz, List.length_append] at hl
    omega
  have hsig : digitsVal (stripZeros (natStr (shortest neg m e 17 1).1)) < 10 ^ k := by
    obtain ⟨z, hz⟩ := stripZeros_eq (natStr (shortest neg m e 17 1).1)
    have h2 := digitsVal_natStr (shortest neg m e 17 1).1
    rw [hz, digitsVal_append, digitsVal_zeros] at h2
    have h3 := hd.hi
    have h4 : 1 ≤ 10 ^ (List.replicate z '0').length := Nat.one_le_pow _ _ (by norm_num)
    nlinarith
  simp only [F64.repr, if_neg hm]
  generalize stripZeros (natStr (shortest neg m e 17 1).1) = ds at *
  rw [← hval]
  generalize (shortest neg m e 17 1).2 = x at *
  have hzero : ∀ n, ∀ c ∈ List.replicate n '0', isDigit c = true := fun n c hc => by
    rw [(List.mem_replicate.1 hc).2]; decide
  split
  · -- scientific notation
    have hex : ∃ u, Exponent u x ∧ u = 'e' :: (if x < 0 then '-' else '+') ::
        (if (natStr x.natAbs).length < 2 then '0' :: natStr x.natAbs else natStr x.natAbs) := by
      refine ⟨_, ?_, rfl⟩
      have hds : ∃ es, (if (natStr x.natAbs).length < 2 then '0' :: natStr x.natAbs else natStr x.natAbs) = es ∧ es ≠ [] ∧
          (∀ c ∈ es, isDigit c = true) ∧ digitsVal es = x.natAbs := by
        refine ⟨_, rfl, ?_, ?_, ?_⟩
        · split
          · simp
          · exact natStr_ne_nil _
        · intro c hc
          split at hc
          · rcases List.mem_cons.1 hc with rfl | hc
            · decide
            · exact natStr_digits _ c hc
          · exact natStr_digits _ c hc
        · split
          · rw [show ('0' :: natStr x.natAbs) = ['0'] ++ natStr x.natAbs from rfl, digitsVal_append, digitsVal_natStr]
            simp [digitsVal, digitVal]
          · exact digitsVal_natStr _
      obtain ⟨es, h0, h1, h2, h3⟩ := hds
      rw [h0]
      by_cases hx : x < 0
      · have := Exponent.some (c := 'e') (.inl rfl) Sign.minus (part_digits h1 h2)
        rw [h3] at this
        simp only [if_true] at this
        rw [show -((x.natAbs : ℕ) : Int) = x by omega] at this
        rw [if_pos hx]; exact this
      · have := Exponent.some (c := 'e') (.inl rfl) Sign.plus (part_digits h1 h2)
        rw [h3] at this
        simp only [Bool.false_eq_true, if_false] at this
        rw [show ((x.natAbs : ℕ) : Int) = x by omega] at this
        rw [if_neg hx]; exact this
    obtain ⟨u, hu, hu'⟩ := hex
    rw [← hu']
    rw [List.append_assoc]
    match ds, hne with
    | [a], _ =>
      refine ⟨_, _, isLiteral_of (.int (.one (hdig a List.mem_cons_self))) hu rfl rfl, ?_, ⟨_, 0, (by simp), hsig⟩⟩
      simp [decimal]
    | a :: b :: r, _ =>
      have h1 : DigitPart [a] [a] := .one (hdig a List.mem_cons_self)
      have h2 : DigitPart (b :: r) (b :: r) := part_digits (by simp) fun c hc => hdig c (List.mem_cons_of_mem _ hc)
      refine ⟨_, _, isLiteral_of (.both h1 h2) hu rfl rfl, ?_, ⟨_, 0, (by simp), hsig⟩⟩
      simp only [decimal, List.cons_append, List.nil_append, List.length_cons]
      congr 2
      push_cast
      ring
  · split
    · -- 0.000…
      have h1 : DigitPart ['0'] ['0'] := .one (by decide)
      have h2 : DigitPart (List.replicate (-(x + 1)).toNat '0' ++ ds) (List.replicate (-(x + 1)).toNat '0' ++ ds) :=
        part_digits (by simp [hne]) fun c hc => (List.mem_append.1 hc).elim (hzero _ c) (hdig c)
      have hv : digitsVal ds = digitsVal (['0'] ++ (List.replicate (-(x + 1)).toNat '0' ++ ds)) := by
        rw [digitsVal_append, digitsVal_append, digitsVal_zeros]
        simp [digitsVal, digitVal]
      refine ⟨digitsVal ds, 0 - ((List.replicate (-(x + 1)).toNat '0' ++ ds).length : Int), ?_, ?_, ⟨_, 0, (by simp), hsig⟩⟩
      · have := isLiteral_of (neg := neg) (.both h1 h2) .none hv rfl
        simpa only [List.append_assoc, List.append_nil, List.cons_append, List.nil_append] using this
      · simp only [decimal, List.length_append, List.length_replicate]
        congr 2
        push_cast
        omega
    · split
      · -- an integer
        next hl =>
        have h1 : DigitPart (ds ++ List.replicate ((x + 1).toNat - ds.length) '0') (ds ++ List.replicate ((x + 1).toNat - ds.length) '0') :=
          part_digits (by simp [hne]) fun c hc => (List.mem_append.1 hc).elim (hdig c) (hzero _ c)
        have h2 : DigitPart ['0'] ['0'] := .one (by decide)
        have hv : digitsVal ds * 10 ^ ((x + 1).toNat - ds.length + 1) =
            digitsVal (ds ++ List.replicate ((x + 1).toNat - ds.length) '0' ++ ['0']) := by
          rw [digitsVal_append, digitsVal_append, digitsVal_zeros]
          simp [digitsVal, digitVal, Nat.pow_succ]
          ring
        refine ⟨digitsVal ds * 10 ^ ((x + 1).toNat - ds.length + 1), 0 - ((['0'] : Str).length : Int), ?_, ?_, ⟨_, _, rfl, hsig⟩⟩
        · have := isLiteral_of (neg := neg) (.both h1 h2) .none hv rfl
          simpa only [List.append_assoc, List.append_nil, List.cons_append, List.nil_append] using this
        · simp only [decimal]
          push_cast
          rw [mul_assoc, ← zpow_natCast, ← zpow_add₀ (by norm_num)]
          congr 2
          simp
          omega
      · -- digits on both sides of the point
        next hl =>
        have h1 : DigitPart (ds.take (x + 1).toNat) (ds.take (x + 1).toNat) :=
          part_digits (by rw [Ne, List.take_eq_nil_iff]; rintro (h | h) <;> [omega; exact hne h]) fun c hc => hdig c (List.mem_of_mem_take hc)
        have h2 : DigitPart (ds.drop (x + 1).toNat) (ds.drop (x + 1).toNat) :=
          part_digits (by rw [Ne, List.drop_eq_nil_iff]; omega) fun c hc => hdig c (List.mem_of_mem_drop hc)
        refine ⟨digitsVal ds, 0 - ((ds.drop (x + 1).toNat).length : Int), ?_, ?_, ⟨_, 0, (by simp), hsig⟩⟩
        · have := isLiteral_of (neg := neg) (.both h1 h2) .none (by rw [List.take_append_drop]) rfl
          simpa only [List.append_assoc, List.append_nil, List.cons_append, List.nil_append] using this
        · simp only [decimal, List.length_drop]
          congr 2
          omega

/-- The text of a finite float is a decimal literal that `float()` reads as the float. A literal that is read as the float has at least
as many significant digits; and if it has not more, its value is not nearer to the float. -/
theorem C55_shortest (neg : Bool) (m : Nat) (e : Int) (hv : (F64.fin neg m e).Valid) :
    ∃ D q, IsLiteral (Val.flt (.fin neg m e)).pyStr neg D q ∧ floatOfText (Val.flt (.fin neg m e)).pyStr = some (some (.fin neg m e)) ∧
      ∀ s neg' D' q', IsLiteral s neg' D' q' → floatOfText s = some (some (.fin neg m e)) →
        neg' = neg ∧ (∀ k, SigDigits D' k → SigDigits D k) ∧
        ((∀ k, SigDigits D k → SigDigits D' k) →
          |decimal D q - m * 2 ^ e| ≤ |decimal D' q' - m * 2 ^ e|) := by
  have hread : ∀ {s neg' D' q'}, IsLiteral s neg' D' q' → floatOfText s = some (some (.fin neg m e)) →
      neg = neg' ∧ Reads neg (decimal D' q') (.fin neg m e) := by
    intro s neg' D' q' h1 h2
    obtain ⟨f, g1, g2⟩ := h1.float
    rw [h2] at g1
    cases g1
    obtain rfl := reads_neg g2
    exact ⟨rfl, g2⟩
  by_cases hm : m = 0
  · subst hm
    obtain rfl : e = -1074 := by
      rcases hv.norm with h | h
      · norm_num at h
      · exact h
    have hd : IsLiteral (Val.flt (.fin neg 0 (-1074))).pyStr neg 0 (-1) := by
      have h0 : DigitPart ['0'] ['0'] := .one (by decide)
      have := isLiteral_of (neg := neg) (D := 0) (.both h0 h0) .none (by decide) rfl
      simpa [Val.pyStr, F64.repr] using this
    refine ⟨0, -1, hd, ?_, ?_⟩
    · obtain ⟨f, g1, g2⟩ := hd.float
      rw [g1]
      rw [Reads.iff (a := 0) (b := 1) (by norm_num) (by simp [decimal])] at g2
      rw [← g2]; rfl
    · intro s neg' D' q' h1 h2
      refine ⟨(hread h1 h2).1.symm, fun k _ => ⟨0, 0, (by simp), (by positivity)⟩, fun _ => ?_⟩
      simp [decimal]
      positivity
  · obtain ⟨k, h1, h2, h3, h4, h5, h6⟩ := shortest_best (neg := neg) hv hm (fuel := 17) (k := 1) (by norm_num) (by norm_num) (by norm_num)
    obtain ⟨D, q, d1, d2, d3⟩ := repr_isLiteral hm h1 h3
    refine ⟨D, q, d1, ?_, ?_⟩
    · obtain ⟨f, g1, g2⟩ := d1.float
      change floatOfText (F64.fin neg m e).repr = _
      rw [g1]
      rw [d2] at g2
      obtain ⟨a, b, hb, hab, hr⟩ := h4
      rw [Reads.iff hb hab] at g2
      rw [← g2, hr]
    · intro s neg' D' q' h1' h2'
      obtain ⟨rfl, hr⟩ := hread h1' h2'
      have hsh : ∀ D'' j : ℕ, D' = D'' * 10 ^ j → decimal D' q' = D'' * 10 ^ (q' + (j : ℤ)) := by
        rintro D'' j rfl
        unfold decimal
        push_cast
        rw [mul_assoc, ← zpow_natCast, ← zpow_add₀ (by norm_num), add_comm]
      refine ⟨rfl, fun l hl => d3.mono ?_, fun hl => ?_⟩
      · obtain ⟨D'', j, e1, e2⟩ := hl
        rw [hsh _ _ e1] at hr
        by_contra hlt
        rcases Nat.eq_zero_or_pos l with rfl | hpos
        · obtain rfl : D'' = 0 := by simpa using e2
          rw [Reads.iff (a := 0) (b := 1) (by norm_num) (by simp)] at hr
          simp only [ofRat, if_true] at hr
          cases hr; exact hm rfl
        · exact h5 D'' _ l hpos (by omega) e2 hr
      · obtain ⟨D'', j, e1, e2⟩ := hl k d3
        rw [hsh _ _ e1] at hr ⊢
        rw [d2]
        exact h6 D'' _ e2 hr

/-- 0.1 has more decimals than it needs: `0.1000` and `1e-1` denote it, too, and so does its exact value with 55 digits. -/
example : (F64.fin false 7205759403792794 (-56)).Valid := ⟨by norm_num, by norm_num, by norm_num, .inl (by norm_num)⟩
set_option maxRecDepth 100000 in
example : (Val.flt (.fin false 7205759403792794 (-56))).pyStr = k!"0.1" ∧
    floatOfText k!" 10_00e-4 " = some (some (.fin false 7205759403792794 (-56))) ∧
    floatOfText k!"0.1000000000000000055511151231257827021181583404541015625" = some (some (.fin false 7205759403792794 (-56))) := by
  decide +kernel

/-- Infinite floats, too, are written as `float()` reads them. -/
theorem C55_inf (neg : Bool) : floatOfText (Val.flt (.inf neg)).pyStr = some (some (.inf neg)) := by cases neg <;> rfl

end Kiutils
