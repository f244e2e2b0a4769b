import Verif.Model.Debug
import Verif.Proofs.TrigFrom
import Verif.Props.IntText

/-!
# C79: the text of `Debug`
-/

namespace Verif.Props

open Verif Spec

/-- The value of a character as lower-case hexadecimal digit -/
def hexValue (c : BitVec 8) : Option ℕ :=
  if 48 ≤ c.toNat ∧ c.toNat ≤ 57 then some (c.toNat - 48)
  else if 97 ≤ c.toNat ∧ c.toNat ≤ 102 then some (c.toNat - 87)
  else none

/-- `s` consists of `k` hexadecimal digits denoting `n`. -/
def HexOf (s : List (BitVec 8)) (k n : ℕ) : Prop :=
  s.length = k ∧ ∃ ds : List ℕ, s.map hexValue = ds.map some ∧ Nat.ofDigits 16 ds.reverse = n

theorem natTextFuel_dec (fuel : ℕ) : ∀ n, n < fuel → natTextFuel fuel n = decText n := by
  induction fuel with
  | zero => intro n h; omega
  | succ fuel ih =>
    intro n h
    rw [natTextFuel]
    by_cases h10 : n < 10
    · rw [if_pos h10]
      by_cases h0 : n = 0
      · subst h0; rfl
      · rw [decText, if_neg h0, Nat.digits_of_lt 10 n h0 h10]; rfl
    · rw [if_neg h10, ih _ (by omega), decText, if_neg (by omega), decText, if_neg (by omega : n ≠ 0),
        Nat.digits_def' (by norm_num) (by omega : 0 < n), List.reverse_cons, List.map_append]
      rfl

theorem natText_dec (n : ℕ) : natText n = decText n := natTextFuel_dec _ _ (by omega)

theorem intText_dec (z : ℤ) : intText z = intDec z := by
  unfold intText intDec
  rw [natText_dec]
  split <;> rfl

theorem hexValue_digit {d : ℕ} (h : d < 16) : hexValue (hexDigit d) = some d := by
  interval_cases d <;> rfl

theorem hexText_spec (k : ℕ) : ∀ n, n < 16 ^ k → HexOf (hexText k n) k n := by
  induction k with
  | zero => intro n h; exact ⟨rfl, [], rfl, by rw [pow_zero] at h; simp; omega⟩
  | succ k ih =>
    intro n h
    obtain ⟨h1, ds, h2, h3⟩ := ih (n / 16) (by rw [pow_succ] at h; omega)
    refine ⟨by rw [hexText, List.length_append, h1]; rfl, ds ++ [n % 16], ?_, ?_⟩
    · rw [hexText, List.map_append, List.map_append, h2, List.map_singleton, hexValue_digit (by omega)]; rfl
    · rw [List.reverse_append, List.reverse_singleton, List.singleton_append, Nat.ofDigits_cons, h3]
      omega

/-- Two numbers with the same hexadecimal digits are equal. -/
theorem HexOf.inj {s : List (BitVec 8)} {k n m : ℕ} (h : HexOf s k n) (g : HexOf s k m) : n = m := by
  obtain ⟨-, ds, h1, h2⟩ := h
  obtain ⟨-, es, g1, g2⟩ := g
  have : ds = es := List.map_injective_iff.mpr (Option.some_injective _) (h1.symm.trans g1)
  rw [← h2, ← g2, this]

theorem decText_digit (n : ℕ) : ∀ c ∈ decText n, 48 ≤ c.toNat ∧ c.toNat ≤ 57 := by
  intro c hc
  rw [← natText_dec] at hc
  exact (natText_spec n).digit c hc

theorem decText_inj {n m : ℕ} (h : decText n = decText m) : n = m := by
  rw [← natText_dec, ← natText_dec] at h
  rw [← (natText_spec n).val, ← (natText_spec m).val, h]

theorem intDec_no_comma (n : ℤ) : 44#8 ∉ intDec n := by
  intro h
  rw [intDec, List.mem_append] at h
  rcases h with h | h
  · split at h <;> simp at h
  · have := decText_digit _ _ h
    simp at this

theorem decText_no_comma (n : ℕ) : 44#8 ∉ decText n := by
  intro h
  have := decText_digit _ _ h
  simp at this

theorem intDec_inj {n m : ℤ} (h : intDec n = intDec m) : n = m := by
  have key : ∀ a b : ℕ, 45#8 :: decText a ≠ decText b := by
    intro a b e
    have := decText_digit b 45#8 (by rw [← e]; exact List.mem_cons_self)
    simp at this
  unfold intDec at h
  by_cases hn : n < 0 <;> by_cases hm : m < 0
  · rw [if_pos hn, if_pos hm] at h
    have := decText_inj (List.append_cancel_left h)
    omega
  · rw [if_pos hn, if_neg hm] at h
    exact absurd h (key _ _)
  · rw [if_neg hn, if_pos hm] at h
    exact absurd h.symm (key _ _)
  · rw [if_neg hn, if_neg hm] at h
    have := decText_inj (List.append_cancel_left h)
    omega

/-- What stands before the first comma and what stands behind it -/
theorem split_comma : ∀ {a b x y : List (BitVec 8)}, 44#8 ∉ a → 44#8 ∉ b → a ++ 44#8 :: x = b ++ 44#8 :: y → a = b ∧ x = y
  | [], [], _, _, _, _, h => ⟨rfl, (List.cons.inj h).2⟩
  | [], c :: b, _, _, _, hb, h => absurd (List.cons.inj h).1 fun e => hb (by rw [e]; exact List.mem_cons_self)
  | c :: a, [], _, _, ha, _, h => absurd (List.cons.inj h).1 fun e => ha (by rw [← e]; exact List.mem_cons_self)
  | c :: a, d :: b, _, _, ha, hb, h => by
    obtain ⟨h1, h2⟩ := List.cons.inj h
    obtain ⟨h3, h4⟩ := split_comma (fun h => ha (List.mem_cons_of_mem _ h)) (fun h => hb (List.mem_cons_of_mem _ h)) h2
    exact ⟨by rw [h1, h3], h4⟩

theorem splitEnc_val {f : F256} (hf : IsFin f.pat) : ∃ (t : ℤ) (c : U256), f.splitEnc = (signBit f.pat, t, c) ∧ t ≠ (EXP_MAX : ℤ) ∧
    val f.pat = (-1) ^ signBit f.pat * (nat256 c : ℝ) * 2 ^ t := by
  by_cases h0 : IsZero f.pat
  · have hz := (isZero_iff _).mp h0
    refine ⟨0, U256.new 0 0, ?_, by decide, ?_⟩
    · have hfr := nat_fraction (absBits f)
      rw [nat_absBits, hz] at hfr
      have hfz : fraction (absBits f) = U256.new 0 0 := nat256_inj (by rw [hfr]; decide)
      have he : expBits (absBits f) = 0 := by rw [expBits_eq, nat_absBits, hz]; norm_num
      unfold F256.splitEnc
      dsimp only
      rw [if_pos ⟨he, hfz⟩, (C18_sign_predicates f).2.2]
    · have : significandOf f.pat = 0 := by
        unfold significandOf expField fracField
        rw [if_pos (by omega)]; omega
      rw [val, this, show nat256 (U256.new 0 0) = 0 by decide]
      simp
  · obtain ⟨c, h1, h2⟩ := Trig.splitEnc_parts f hf h0
    refine ⟨_, c, h1, ?_, by rw [val, h2]⟩
    have hE : expField f.pat < 2 ^ 19 := by unfold expField; exact Nat.mod_lt _ (by norm_num)
    unfold quantumExp
    split <;> simp only [EXP_MAX] <;> omega

theorem splitEnc_special {f : F256} (hf : ¬IsFin f.pat) : f.splitEnc.2.1 = (EXP_MAX : ℤ) := by
  have he : expField f.pat = EXP_MAX := by unfold IsFin at hf; exact not_not.mp hf
  unfold F256.splitEnc
  dsimp only
  rw [expField_pat, he, if_neg (fun h => absurd h.1 (by decide)), if_neg (by decide), if_pos rfl]

/-- `(S, T, (0xA, 0xB))` -/
def debugForm (S T A B : List (BitVec 8)) : List (BitVec 8) :=
  40#8 :: (S ++ 44#8 :: 32#8 :: (T ++ 44#8 :: 32#8 :: 40#8 :: 48#8 :: 120#8 :: (A ++ 44#8 :: 32#8 :: 48#8 :: 120#8 :: (B ++ [41#8, 41#8]))))

theorem debugForm_eq (S T A B : List (BitVec 8)) : [40#8] ++ S ++ [44#8, 32#8] ++ T ++ [44#8, 32#8] ++
    ([40#8, 48#8, 120#8] ++ A ++ [44#8, 32#8, 48#8, 120#8] ++ B ++ [41#8]) ++ [41#8] = debugForm S T A B := by
  simp only [debugForm, List.append_assoc, List.cons_append, List.nil_append]

theorem debugForm_inj {S T A B S' T' A' B' : List (BitVec 8)} (h : debugForm S T A B = debugForm S' T' A' B')
    (s1 : 44#8 ∉ S) (s2 : 44#8 ∉ S') (t1 : 44#8 ∉ T) (t2 : 44#8 ∉ T') (ha : A.length = A'.length) (hb : B.length = B'.length) :
    S = S' ∧ T = T' ∧ A = A' ∧ B = B' := by
  unfold debugForm at h
  obtain ⟨h1, h⟩ := split_comma s1 s2 (List.cons.inj h).2
  obtain ⟨h2, h⟩ := split_comma t1 t2 (List.cons.inj h).2
  obtain ⟨h3, h⟩ := List.append_inj (List.cons.inj (List.cons.inj (List.cons.inj (List.cons.inj h).2).2).2).2 ha
  obtain ⟨h4, -⟩ := List.append_inj (List.cons.inj (List.cons.inj (List.cons.inj (List.cons.inj h).2).2).2).2 hb
  exact ⟨h1, h2, h3, h4⟩

theorem debug_fin {f : F256} {t : ℤ} {c : U256} (h1 : f.splitEnc = (signBit f.pat, t, c)) (h2 : t ≠ (EXP_MAX : ℤ)) :
    f.debug = some (debugForm (decText (signBit f.pat)) (intDec t) (hexText 32 c.hi.toNat) (hexText 32 c.lo.toNat)) := by
  have e3 : f.debug = some ([40#8] ++ natText (signBit f.pat) ++ [44#8, 32#8] ++ intText t ++ [44#8, 32#8] ++ debugU256 c ++ [41#8]) := by
    unfold F256.debug
    rw [h1]
    dsimp only
    rw [if_neg h2]
  rw [e3, debugU256, debugForm_eq, natText_dec, intText_dec]

theorem sixteen : 2 ^ 128 ≤ 16 ^ 32 := by norm_num

/-- C79: for a finite number `{:?}` writes `(s, t, (0xhi, 0xlo))`: the sign bit, an exponent in decimal and the two halves of an integral
significand as 32 hexadecimal digits each; together they give the exact value. -/
theorem C79_debug {f : F256} (hf : IsFin f.pat) : ∃ (t : ℤ) (hi lo : ℕ) (a b : List (BitVec 8)),
    f.debug = some (debugForm (decText (signBit f.pat)) (intDec t) a b) ∧ HexOf a 32 hi ∧ HexOf b 32 lo ∧
    val f.pat = (-1) ^ signBit f.pat * ((hi * 2 ^ 128 + lo : ℕ) : ℝ) * 2 ^ t := by
  obtain ⟨t, c, h1, h2, h3⟩ := splitEnc_val hf
  have e1 := hexText_spec 32 c.hi.toNat (lt_of_lt_of_le c.hi.isLt sixteen)
  have e2 := hexText_spec 32 c.lo.toNat (lt_of_lt_of_le c.lo.isLt sixteen)
  have e3 := debug_fin h1 h2
  unfold nat256 at h3
  generalize hexText 32 c.hi.toNat = a at *
  generalize hexText 32 c.lo.toNat = b at *
  generalize c.hi.toNat = hi at *
  generalize c.lo.toNat = lo at *
  exact ⟨t, hi, lo, a, b, e3, e1, e2, h3⟩

/-- C79: infinities and NaNs are written as by `{}`, in quotes. -/
theorem C79_special {f : F256} (hf : ¬IsFin f.pat) : f.debug = some (34#8 ::
    (if IsNaN f.pat then [78#8, 97#8, 78#8] else (if signBit f.pat = 1 then [45#8] else []) ++ [105#8, 110#8, 102#8]) ++ [34#8]) := by
  have hlt := pat_lt f
  have hsp : f.isSpecial = true := by
    rw [isSpecial_iff]
    unfold IsFin expField at hf
    unfold INF
    omega
  have hz : f.eqZero = false := by
    rw [Bool.eq_false_iff, Ne, eqZero_iff]
    unfold IsFin expField at hf
    omega
  have hd : f.display = some (if IsNaN f.pat then [78#8, 97#8, 78#8] else (if signBit f.pat = 1 then [45#8] else []) ++ [105#8, 110#8, 102#8]) := by
    unfold F256.display
    rw [if_pos hsp, hz, if_neg (by simp)]
    by_cases hn : IsNaN f.pat
    · rw [if_pos ((nan_spec f).mpr hn), if_pos hn]
    · rw [if_neg (fun h => hn ((nan_spec f).mp h)), if_neg hn]
      have hsb : signBit f.pat = 0 ∨ signBit f.pat = 1 := by unfold signBit; omega
      rcases hsb with e | e
      · rw [if_pos ((C18_sign_predicates f).1.mpr e), if_neg (by omega)]
      · rw [if_neg (fun h => by rw [(C18_sign_predicates f).1.mp h] at e; omega), if_pos e]
  have := splitEnc_special hf
  unfold F256.debug
  rcases hq : f.splitEnc with ⟨s, e, c⟩
  rw [hq] at this
  dsimp only at this ⊢
  rw [if_pos this, hd]
  rfl

theorem sign_of_special {f : F256} (hf : ¬IsFin f.pat) (hn : ¬IsNaN f.pat) : f.pat = signBit f.pat * 2 ^ 255 + INF := by
  have hlt := pat_lt f
  unfold IsNaN at hn
  unfold IsFin at hf
  unfold expField fracField at *
  unfold signBit INF
  omega

theorem debug_inj_fin {f g : F256} (f1 : IsFin f.pat) (g1 : IsFin g.pat) (h : f.debug = g.debug) : f = g := by
  obtain ⟨t, hi, lo, a, b, e1, e2, e3, e4⟩ := C79_debug f1
  obtain ⟨t', hi', lo', a', b', g1', g2, g3, g4⟩ := C79_debug g1
  rw [e1, g1'] at h
  obtain ⟨hs, ht, ha, hb⟩ := debugForm_inj (Option.some.inj h) (decText_no_comma _) (decText_no_comma _) (intDec_no_comma _)
    (intDec_no_comma _) (e2.1.trans g2.1.symm) (e3.1.trans g3.1.symm)
  rw [ha] at e2
  rw [hb] at e3
  rw [e2.inj g2, e3.inj g3, decText_inj hs, intDec_inj ht] at e4
  rcases eq_of_val (pat_lt f) (pat_lt g) f1 g1 (e4.trans g4.symm) with e | ⟨z1, z2⟩
  · exact pat_inj e
  · apply pat_inj
    rw [isZero_iff] at z1 z2
    have p1 := pat_lt f
    have p2 := pat_lt g
    have hs := decText_inj hs
    clear * - z1 z2 p1 p2 hs
    unfold signBit at hs
    omega

/-- The first characters differ. -/
theorem debug_ne {f g : F256} (f1 : IsFin f.pat) (g1 : ¬IsFin g.pat) : f.debug ≠ g.debug := by
  obtain ⟨t, hi, lo, a, b, e1, -⟩ := C79_debug f1
  rw [e1, C79_special g1, debugForm]
  generalize (if IsNaN g.pat then _ else _ : List (BitVec 8)) = l
  intro h
  rw [Option.some.injEq, List.cons_append, List.cons.injEq] at h
  exact absurd h.1 (by decide)

theorem special_texts {p q : Prop} [Decidable p] [Decidable q] {a b : ℕ} (ha : a = 0 ∨ a = 1) (hb : b = 0 ∨ b = 1) (hp : ¬p)
    (h : (34#8 :: (if p then [78#8, 97#8, 78#8] else (if a = 1 then [45#8] else []) ++ [105#8, 110#8, 102#8]) ++ [34#8]) =
      (34#8 :: (if q then [78#8, 97#8, 78#8] else (if b = 1 then [45#8] else []) ++ [105#8, 110#8, 102#8]) ++ [34#8])) : ¬q ∧ a = b := by
  rw [if_neg hp] at h
  by_cases hq : q
  · rw [if_pos hq] at h
    rcases ha with rfl | rfl <;> exact absurd h (by decide)
  · rw [if_neg hq] at h
    refine ⟨hq, ?_⟩
    rcases ha with rfl | rfl <;> rcases hb with rfl | rfl <;> first | rfl | exact absurd h (by decide)

/-- C79: the text of `{:?}` identifies the number: numbers other than NaNs with the same text are the same, bit for bit. -/
theorem C79_debug_inj {f g : F256} (hf : ¬IsNaN f.pat) (h : f.debug = g.debug) : f = g := by
  by_cases f1 : IsFin f.pat <;> by_cases g1 : IsFin g.pat
  · exact debug_inj_fin f1 g1 h
  · exact absurd h (debug_ne f1 g1)
  · exact absurd h.symm (debug_ne g1 f1)
  · rw [C79_special f1, C79_special g1] at h
    obtain ⟨hg, hs⟩ := special_texts (signBit_cases _) (signBit_cases _) hf (Option.some.inj h)
    exact pat_inj (by rw [sign_of_special f1 hf, sign_of_special g1 hg, hs])

/-- The quantum exponent of 1 is -236; negative infinity is written as `"-inf"`. -/
example : IsFin F256.ONE.pat ∧ ¬IsNaN F256.ONE.pat ∧ F256.ONE.splitEnc.2.1 = -236 ∧
    F256.NEG_INFINITY.debug = some [34#8, 45#8, 105#8, 110#8, 102#8, 34#8] := by decide +kernel

end Verif.Props
