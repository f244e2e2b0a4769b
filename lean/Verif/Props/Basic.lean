import Verif.Proofs.Order

/-!
# C17-C19, C31: classification, sign operations, bit and byte round-trips, field accessors
-/

namespace Verif.Props

open Spec BigUInt

/-! ## C17 -/

/-- The five classes of the specification partition all bit patterns. -/
theorem C17_partition (N : ℕ) :
    (IsNaN N ∨ IsInf N ∨ IsZero N ∨ IsSubnormal N ∨ IsNormal N) ∧
    ¬ (IsNaN N ∧ IsInf N) ∧ ¬ (IsNaN N ∧ IsZero N) ∧ ¬ (IsNaN N ∧ IsSubnormal N) ∧
    ¬ (IsNaN N ∧ IsNormal N) ∧ ¬ (IsInf N ∧ IsZero N) ∧ ¬ (IsInf N ∧ IsSubnormal N) ∧
    ¬ (IsInf N ∧ IsNormal N) ∧ ¬ (IsZero N ∧ IsSubnormal N) ∧ ¬ (IsZero N ∧ IsNormal N) ∧
    ¬ (IsSubnormal N ∧ IsNormal N) := by
  unfold IsNaN IsInf IsZero IsSubnormal IsNormal
  omega

theorem isSubnormal_iff (x : F256) : x.isSubnormal = true ↔ IsSubnormal x.pat := by
  have h1 := x.bits.lo.isLt
  have h2 := x.bits.hi.isLt
  have hz := eqZero_iff x
  rw [F256.isSubnormal, Bool.and_eq_true, Bool.not_eq_true', ← Bool.not_eq_true, hz,
    decide_eq_true_iff, ← BitVec.toNat_inj, toNat_and_exp,
    show (0 : BitVec 128).toNat = 0 by decide]
  unfold IsSubnormal expField fracField F256.pat
  omega

theorem isNormal_iff (x : F256) : x.isNormal = true ↔ IsNormal x.pat := by
  have h : expField x.pat < 2 ^ 19 := Nat.mod_lt _ (by norm_num)
  rw [F256.isNormal, decide_eq_true_iff, biasedExponent_eq, BitVec.toNat_sub, BitVec.toNat_ofNat,
    show (1 : BitVec 32).toNat = 1 by decide, EXP_MAX]
  unfold IsNormal
  omega

/-- C17. Every predicate of the API agrees with the IEEE encoding. -/
theorem C17_predicates (x : F256) :
    (x.isNan = true ↔ IsNaN x.pat) ∧
    (x.isInfinite = true ↔ IsInf x.pat) ∧
    (x.isFinite = true ↔ IsFin x.pat) ∧
    (x.eqZero = true ↔ IsZero x.pat) ∧
    (x.isSubnormal = true ↔ IsSubnormal x.pat) ∧
    (x.isNormal = true ↔ IsNormal x.pat) ∧
    (x.isSpecial = true ↔ IsNaN x.pat ∨ IsInf x.pat ∨ IsZero x.pat) := by
  refine ⟨?_, ?_, ?_, ?_, isSubnormal_iff x, isNormal_iff x, ?_⟩
  · rw [nan_iff, isNaN_iff]
  · rw [isInfinite_iff, isInf_iff]
  · rw [isFinite_iff, fin_iff]
  · rw [eqZero_iff, isZero_iff]
  · rw [isSpecial_iff, isNaN_iff, isInf_iff, isZero_iff]; omega

/-- The finite patterns are exactly zero, subnormal and normal ones. -/
theorem C17_finite (N : ℕ) : IsFin N ↔ IsZero N ∨ IsSubnormal N ∨ IsNormal N := by
  unfold IsFin IsZero IsSubnormal IsNormal
  omega

/-- The IEEE category of a pattern. -/
def categoryOf (N : ℕ) : F256.FpCategory :=
  if expField N = 524287 then (if fracField N = 0 then .Infinite else .Nan)
  else if expField N = 0 then (if fracField N = 0 then .Zero else .Subnormal)
  else .Normal

/-- C17 (partial: `classify`). `classify` is right except on NaN patterns other than those with
the magnitude of the canonical NaN (high word 0x7ffff8…0, low word 0).
Missing: the other NaN patterns, which are classified as `Normal` (`C17_classify_nan`,
`C17_classify_counterexample`). -/
theorem C17_classify_partial (x : F256) (h : IsNaN x.pat → x.abs = F256.NAN) :
    x.classify = categoryOf x.pat := by
  have e0 := sticky_eq (absBits x) 0
  have e1 := sticky_eq (absBits x) (524287 * 2 ^ 107)
  have e2 := sticky_eq (absBits x) (524287 * 2 ^ 107 + 2 ^ 106)
  have e3 := sticky_lt (absBits x) (2 ^ 107)
  rw [nat_absBits] at e0 e1 e2 e3
  have hn : IsNaN x.pat → x.pat % 2 ^ 255 = 2 * (524287 * 2 ^ 107 + 2 ^ 106) * 2 ^ 128 := by
    intro hn
    rw [← pat_abs, h hn]; decide
  rw [isNaN_iff] at hn
  unfold F256.classify categoryOf
  simp only [← BitVec.toNat_inj, BitVec.le_def,
    show (0 : BitVec 128).toNat = 2 * 0 by decide,
    show INF_HI.toNat = 2 * (524287 * 2 ^ 107) by decide,
    show NAN_HI.toNat = 2 * (524287 * 2 ^ 107 + 2 ^ 106) by decide,
    show HI_FRACTION_MASK.toNat = 2 * 2 ^ 107 - 1 by decide]
  unfold expField fracField
  unfold INF at hn
  generalize BitVec.toNat (absBitsSticky (absBits x)) = s at *
  split_ifs <;> first | rfl | (exfalso; omega)

/-- What `classify` does with the other NaN patterns. -/
theorem C17_classify_nan (x : F256) (h : IsNaN x.pat) (h' : x.abs ≠ F256.NAN) :
    x.classify = .Normal := by
  have e0 := sticky_eq (absBits x) 0
  have e1 := sticky_eq (absBits x) (524287 * 2 ^ 107)
  have e2 := sticky_eq (absBits x) (524287 * 2 ^ 107 + 2 ^ 106)
  have e3 := sticky_lt (absBits x) (2 ^ 107)
  rw [nat_absBits] at e0 e1 e2 e3
  have hn : x.pat % 2 ^ 255 ≠ 2 * (524287 * 2 ^ 107 + 2 ^ 106) * 2 ^ 128 := by
    intro hn
    apply h'
    apply pat_inj
    rw [pat_abs, hn]; decide
  rw [isNaN_iff] at h
  unfold F256.classify
  simp only [← BitVec.toNat_inj, BitVec.le_def,
    show (0 : BitVec 128).toNat = 2 * 0 by decide,
    show INF_HI.toNat = 2 * (524287 * 2 ^ 107) by decide,
    show NAN_HI.toNat = 2 * (524287 * 2 ^ 107 + 2 ^ 106) by decide,
    show HI_FRACTION_MASK.toNat = 2 * 2 ^ 107 - 1 by decide]
  unfold INF at h
  generalize BitVec.toNat (absBitsSticky (absBits x)) = s at *
  split_ifs <;> first | rfl | (exfalso; omega)

/-- The NaN pattern with last bit 1 is classified as a normal number. -/
theorem C17_classify_counterexample :
    let x : F256 := ⟨⟨NAN_HI, 1⟩⟩
    x.isNan = true ∧ x.classify = .Normal ∧ categoryOf x.pat = .Nan := by decide

example : IsNaN F256.NAN.negated.pat ∧ F256.NAN.negated.abs = F256.NAN := by decide
example : F256.MIN_GT_ZERO.classify = .Subnormal ∧ F256.MAX.classify = .Normal := by decide

/-! ## C18 -/

/-- C18. Negation flips the sign bit and keeps the other 255 bits. -/
theorem C18_neg (x : F256) :
    signBit x.negated.pat = 1 - signBit x.pat ∧ x.negated.pat % 2 ^ 255 = x.pat % 2 ^ 255 := by
  have := pat_lt x
  rw [pat_negated]
  unfold signBit
  omega

/-- C18. `abs` clears the sign bit and keeps the other 255 bits. -/
theorem C18_abs (x : F256) :
    signBit x.abs.pat = 0 ∧ x.abs.pat % 2 ^ 255 = x.pat % 2 ^ 255 := by
  rw [pat_abs]
  unfold signBit
  omega

/-- C18. Negating twice gives the same bits. -/
theorem C18_neg_neg (x : F256) : x.negated.negated = x := by
  apply pat_inj
  have := pat_lt x
  rw [pat_negated, pat_negated]
  omega

theorem mag_negated (x : F256) : mag x.negated.pat = mag x.pat := by
  rw [← mag_abs, (C18_neg x).2, mag_abs]

theorem smag_negated (x : F256) : smag x.negated.pat = - smag x.pat := by
  have h := (C18_neg x).1
  rw [smag, smag, mag_negated, h]
  rcases signBit_cases x.pat with h | h <;> simp [h]

/-- C18. Negation negates the denoted number. -/
theorem C18_neg_val (x : F256) : val x.negated.pat = - val x.pat := by
  rw [val_smag, val_smag, smag_negated, Int.cast_neg, neg_div]

/-- C18. `abs` gives the absolute value. -/
theorem C18_abs_val (x : F256) : val x.abs.pat = |val x.pat| := by
  have h := (C18_abs x).1
  rw [val_eq, val_eq, h, abs_mul, abs_pow, abs_neg, abs_one, one_pow, one_mul, pow_zero, one_mul,
    abs_of_nonneg (by positivity), ← mag_abs, (C18_abs x).2, mag_abs]

/-- C18. The sign predicates report the sign bit. -/
theorem C18_sign_predicates (x : F256) :
    (x.isSignPositive = true ↔ signBit x.pat = 0) ∧
    (x.isSignNegative = true ↔ signBit x.pat = 1) ∧ x.sign = signBit x.pat := by
  have h1 := x.bits.lo.isLt
  have h2 := x.bits.hi.isLt
  rw [F256.isSignPositive, F256.isSignNegative, decide_eq_true_iff, decide_eq_true_iff,
    BitVec.lt_def, BitVec.le_def, show HI_SIGN_MASK.toNat = 2 ^ 127 by decide, sign_eq]
  unfold signBit F256.pat
  omega

/-- Classification is invariant under negation and abs. -/
theorem C18_class (x : F256) :
    expField x.negated.pat = expField x.pat ∧ fracField x.negated.pat = fracField x.pat ∧
    expField x.abs.pat = expField x.pat ∧ fracField x.abs.pat = fracField x.pat := by
  have h1 := (C18_neg x).2
  have h2 := (C18_abs x).2
  refine ⟨?_, ?_, ?_, ?_⟩
  · rw [← expField_abs, h1, expField_abs]
  · rw [← fracField_abs, h1, fracField_abs]
  · rw [← expField_abs, h2, expField_abs]
  · rw [← fracField_abs, h2, fracField_abs]

example : F256.ONE.negated = F256.NEG_ONE ∧ F256.NEG_INFINITY.abs = F256.INFINITY := by decide

/-! ## C19 -/

/-- C19. `to_bits` / `from_bits` are inverse. -/
theorem C19_bits (x : F256) (b : BitVec 128 × BitVec 128) :
    F256.fromBits x.toBits = x ∧ (F256.fromBits b).toBits = b := ⟨rfl, rfl⟩

/-- The number written in base 256 by a list of bytes, most significant byte first. -/
def base256 (l : List (BitVec 8)) : ℕ := l.foldl (fun acc b => acc * 256 + b.toNat) 0

theorem base256_append (l m : List (BitVec 8)) :
    base256 (l ++ m) = base256 l * 256 ^ m.length + base256 m := by
  induction m using List.reverseRecOn with
  | nil => simp [base256]
  | append_singleton m b ih =>
    rw [← List.append_assoc]
    simp only [base256, List.foldl_append, List.foldl_cons, List.foldl_nil, List.length_append,
      List.length_singleton] at *
    rw [ih, pow_succ]; ring

theorem base256_cons (b : BitVec 8) (m : List (BitVec 8)) :
    base256 (b :: m) = b.toNat * 256 ^ m.length + base256 m := by
  have := base256_append [b] m
  simpa [base256] using this

theorem base256_lt (l : List (BitVec 8)) : base256 l < 256 ^ l.length := by
  induction l with
  | nil => simp [base256]
  | cons b m ih =>
    rw [base256_cons, List.length_cons, pow_succ]
    have := b.isLt
    nlinarith [Nat.pos_of_ne_zero (show 256 ^ m.length ≠ 0 by positivity)]

theorem base256_inj : ∀ {l m : List (BitVec 8)}, l.length = m.length → base256 l = base256 m → l = m
  | [], [], _, _ => rfl
  | b :: l, c :: m, hl, h => by
    rw [base256_cons, base256_cons] at h
    have hl' : l.length = m.length := by simpa using hl
    have h1 := base256_lt l
    have h2 := base256_lt m
    rw [hl'] at h h1
    have hb : b.toNat = c.toNat := by
      rcases Nat.lt_trichotomy b.toNat c.toNat with h3 | h3 | h3
      · nlinarith
      · exact h3
      · nlinarith
    rw [hb] at h
    rw [BitVec.eq_of_toNat_eq hb, base256_inj hl' (by omega)]

theorem ofBeBytes_toNat (l : List (BitVec 8)) (h : l.length ≤ 16) :
    (F256.ofBeBytes l).toNat = base256 l := by
  induction l using List.reverseRecOn with
  | nil => rfl
  | append_singleton l b ih =>
    have hl : l.length + 1 ≤ 16 := by simpa using h
    have ih := ih (by omega)
    have h1 := base256_lt l
    have h2 : 256 ^ l.length ≤ 256 ^ 15 := Nat.pow_le_pow_right (by norm_num) (by omega)
    have hb := b.isLt
    simp only [F256.ofBeBytes, base256, List.foldl_append, List.foldl_cons, List.foldl_nil] at *
    rw [BitVec.toNat_or, BitVec.toNat_shiftLeft, ih, Nat.shiftLeft_eq, Nat.mod_eq_of_lt (by omega)]
    simp only [BitVec.truncate_eq_setWidth, BitVec.toNat_setWidth]
    rw [Nat.mod_eq_of_lt (show b.toNat < 2 ^ 128 by omega),
      or_disjoint (by omega)]
    norm_num

theorem ofLeBytes_eq (l : List (BitVec 8)) : F256.ofLeBytes l = F256.ofBeBytes l.reverse := by
  simp [F256.ofLeBytes, F256.ofBeBytes, List.foldl_reverse]

theorem beBytes_eq (w : BitVec 128) : F256.beBytes w = (F256.leBytes w).reverse := by
  simp [F256.beBytes, F256.leBytes, List.range_succ]

theorem base256_prefix (w : BitVec 128) : ∀ k, k ≤ 16 →
    base256 ((List.range k).map fun i => (w >>> (8 * (15 - i))).truncate 8) =
      w.toNat / 2 ^ (8 * (16 - k))
  | 0, _ => by
    have := w.isLt
    simp only [List.range_zero, List.map_nil, base256, List.foldl_nil]
    omega
  | k + 1, h => by
    have ih := base256_prefix w k (by omega)
    have e : 8 * (16 - k) = 8 * (16 - (k + 1)) + 8 := by omega
    have e' : 15 - k = 16 - (k + 1) := by omega
    rw [e, pow_add, ← Nat.div_div_eq_div_mul] at ih
    simp only [base256, List.range_succ, List.map_append, List.map_cons, List.map_nil,
      List.foldl_append, List.foldl_cons, List.foldl_nil] at *
    rw [ih]
    simp only [BitVec.truncate_eq_setWidth, BitVec.toNat_setWidth, BitVec.toNat_ushiftRight,
      Nat.shiftRight_eq_div_pow, e']
    omega

theorem base256_beBytes (w : BitVec 128) : base256 (F256.beBytes w) = w.toNat := by
  have := base256_prefix w 16 (by omega)
  simpa [F256.beBytes] using this

theorem length_beBytes (w : BitVec 128) : (F256.beBytes w).length = 16 := by
  simp [F256.beBytes]

theorem length_leBytes (w : BitVec 128) : (F256.leBytes w).length = 16 := by
  simp [F256.leBytes]

theorem ofBe_be (w : BitVec 128) : F256.ofBeBytes (F256.beBytes w) = w :=
  BitVec.eq_of_toNat_eq (by
    rw [ofBeBytes_toNat _ (by rw [length_beBytes]), base256_beBytes])

theorem ofLe_le (w : BitVec 128) : F256.ofLeBytes (F256.leBytes w) = w := by
  rw [ofLeBytes_eq, ← beBytes_eq, ofBe_be]

theorem be_ofBe (l : List (BitVec 8)) (h : l.length = 16) :
    F256.beBytes (F256.ofBeBytes l) = l := by
  apply base256_inj
  · rw [length_beBytes, h]
  · rw [base256_beBytes, ofBeBytes_toNat l (by omega)]

theorem le_ofLe (l : List (BitVec 8)) (h : l.length = 16) :
    F256.leBytes (F256.ofLeBytes l) = l := by
  have := be_ofBe l.reverse (by simpa using h)
  rw [beBytes_eq, ← ofLeBytes_eq] at this
  exact List.reverse_injective this

/-- C19. The byte encodings have 32 bytes; the big-endian one, read as a base-256 number, is the
bit pattern; the little-endian one is its reverse. -/
theorem C19_be_value (x : F256) :
    x.toBeBytes.length = 32 ∧ x.toLeBytes.length = 32 ∧ x.toNeBytes.length = 32 ∧
    base256 x.toBeBytes = x.pat ∧ x.toLeBytes = x.toBeBytes.reverse := by
  refine ⟨?_, ?_, ?_, ?_, ?_⟩
  · simp [F256.toBeBytes, length_beBytes]
  · simp [F256.toLeBytes, length_leBytes]
  · simp [F256.toNeBytes, length_leBytes]
  · rw [F256.toBeBytes, base256_append, base256_beBytes, base256_beBytes, length_beBytes, F256.pat]
    norm_num
  · rw [F256.toBeBytes, F256.toLeBytes, List.reverse_append, beBytes_eq, beBytes_eq,
      List.reverse_reverse, List.reverse_reverse]

/-- C19. Decoding the bytes gives the number back, bit for bit, for every pattern. -/
theorem C19_roundtrip (x : F256) :
    F256.fromBeBytes x.toBeBytes = x ∧ F256.fromLeBytes x.toLeBytes = x ∧
    F256.fromNeBytes x.toNeBytes = x := by
  have hb := length_beBytes
  have hl := length_leBytes
  refine ⟨?_, ?_, ?_⟩
  · rw [F256.fromBeBytes, F256.toBeBytes, List.take_left' (hb _), List.drop_left' (hb _), ofBe_be,
      ofBe_be]; rfl
  · rw [F256.fromLeBytes, F256.toLeBytes, List.take_left' (hl _), List.drop_left' (hl _), ofLe_le,
      ofLe_le]; rfl
  · rw [F256.fromNeBytes, F256.toNeBytes, List.take_left' (hl _), List.drop_left' (hl _), ofLe_le,
      ofLe_le]; rfl

/-- C19. Every array of 32 bytes is the encoding of the number it decodes to. -/
theorem C19_roundtrip' (l : List (BitVec 8)) (h : l.length = 32) :
    (F256.fromBeBytes l).toBeBytes = l ∧ (F256.fromLeBytes l).toLeBytes = l ∧
    (F256.fromNeBytes l).toNeBytes = l := by
  have h1 : (l.take 16).length = 16 := by simp [h]
  have h2 : (l.drop 16).length = 16 := by simp [h]
  refine ⟨?_, ?_, ?_⟩
  · simp only [F256.fromBeBytes, F256.toBeBytes, U256.new]
    rw [be_ofBe _ h1, be_ofBe _ h2, List.take_append_drop]
  · simp only [F256.fromLeBytes, F256.toLeBytes, U256.new]
    rw [le_ofLe _ h1, le_ofLe _ h2, List.take_append_drop]
  · simp only [F256.fromNeBytes, F256.toNeBytes, F256.fromBits, F256.toBits, U256.new]
    rw [le_ofLe _ h1, le_ofLe _ h2, List.take_append_drop]

example : F256.ONE.toBeBytes.take 3 = [0x3f, 0xff, 0xf0] := by decide
example : (List.replicate 32 (7 : BitVec 8)).length = 32 := by decide

end Verif.Props
