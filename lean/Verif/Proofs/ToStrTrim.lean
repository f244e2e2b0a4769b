import Verif.Proofs.ToStrMul

/-!
# Proofs about formatting, part 2: removing digits
-/

namespace Verif

open BigUInt LawfulBigUInt

theorem div10 (x : U256) : ∃ q r, divRemU64 x 10 = some (q, r) ∧ nat256 q = nat256 x / 10 ∧ r.toNat = nat256 x % 10 :=
  divRemU64_spec x 10 (by decide)

theorem div100 (x : U256) : ∃ q r, divRemU64 x 100 = some (q, r) ∧ nat256 q = nat256 x / 100 ∧ r.toNat = nat256 x % 100 :=
  divRemU64_spec x 100 (by decide)

theorem cmp_lt_iff (x y : U256) : (UInt.cmp x y == .lt) = decide (nat256 x < nat256 y) := by
  rw [cmp256, Bool.eq_iff_iff, beq_iff_eq, compare_lt_iff_lt, decide_eq_true_iff]

theorem cmp_gt_iff (x y : U256) : (UInt.cmp x y == .gt) = decide (nat256 y < nat256 x) := by
  rw [cmp256, Bool.eq_iff_iff, beq_iff_eq, compare_gt_iff_gt, decide_eq_true_iff]

theorem bv_beq_zero (r : BitVec 64) : (r == 0) = decide (r.toNat = 0) := by
  rw [Bool.eq_iff_iff, beq_iff_eq, decide_eq_true_iff, ← BitVec.toNat_inj]
  rfl

theorem div_div_pow (x n : ℕ) : x / 10 / 10 ^ n = x / 10 ^ (n + 1) := by
  rw [Nat.div_div_eq_div_mul, pow_succ, Nat.mul_comm]

theorem mod_pow_succ (x n : ℕ) : x % 10 ^ (n + 1) = 0 ↔ x % 10 = 0 ∧ x / 10 % 10 ^ n = 0 := by
  rw [pow_succ, Nat.mul_comm, Nat.mod_mul]
  omega

/-- What the loops do: `n` digits are removed. -/
structure Cut (t t' : Trim) (n : ℕ) : Prop where
  signif : nat256 t'.signif = nat256 t.signif / 10 ^ n
  lower : nat256 t'.lower = nat256 t.lower / 10 ^ n
  i : t'.i = t.i + n
  zero : n = 0 → t'.digit = t.digit ∧ t'.remZero = t.remZero
  pos : 0 < n → t'.digit.toNat = nat256 t.signif / 10 ^ (n - 1) % 10 ∧ (t'.digit.toNat ≠ 0 → t'.remZero = false)

theorem Cut.refl (t : Trim) : Cut t t 0 := by
  constructor <;> simp

theorem Cut.trans {t t' t'' : Trim} {n m : ℕ} (h : Cut t t' n) (g : Cut t' t'' m) : Cut t t'' (n + m) := by
  refine ⟨?_, ?_, ?_, fun h0 => ?_, fun h0 => ?_⟩
  · rw [g.signif, h.signif, Nat.div_div_eq_div_mul, pow_add]
  · rw [g.lower, h.lower, Nat.div_div_eq_div_mul, pow_add]
  · rw [g.i, h.i]; push_cast; ring
  · obtain ⟨a, b⟩ := g.zero (by omega)
    obtain ⟨c, d⟩ := h.zero (by omega)
    exact ⟨a.trans c, b.trans d⟩
  · rcases Nat.eq_zero_or_pos m with rfl | hm
    · obtain ⟨a, b⟩ := g.zero rfl
      obtain ⟨c, d⟩ := h.pos (by omega)
      rw [a, b]
      exact ⟨c, d⟩
    · obtain ⟨a, b⟩ := g.pos hm
      refine ⟨?_, b⟩
      rw [a, h.signif, Nat.div_div_eq_div_mul, ← pow_add, ← Nat.add_sub_assoc hm]

theorem Cut.step {t t' : Trim} (h1 : nat256 t'.signif = nat256 t.signif / 10) (h2 : nat256 t'.lower = nat256 t.lower / 10)
    (h3 : t'.i = t.i + 1) (h4 : t'.digit.toNat = nat256 t.signif % 10)
    (h5 : t'.remZero = (t.remZero && t'.digit == 0)) : Cut t t' 1 := by
  refine ⟨by rw [h1, pow_one], by rw [h2, pow_one], h3, fun h => absurd h (by omega), fun _ => ⟨by rw [h4]; simp, fun h => ?_⟩⟩
  rw [h5, bv_beq_zero, decide_eq_false h, Bool.and_false]

theorem trimExact_spec (fuel : ℕ) : ∀ t : Trim, 0 < fuel → nat256 t.upper < 10 ^ fuel → ∃ n t', trimExact fuel t = some t' ∧
    Cut t t' n ∧ nat256 t'.upper = nat256 t.upper / 10 ^ n ∧
    t'.lowerRemZero = (t.lowerRemZero && decide (nat256 t.lower % 10 ^ n = 0)) ∧
    (0 < n → nat256 t.lower / 10 ^ n < nat256 t.upper / 10 ^ n) ∧
    nat256 t.upper / 10 ^ (n + 1) ≤ nat256 t.lower / 10 ^ (n + 1) := by
  induction fuel with
  | zero => intro t h; exact absurd h (by omega)
  | succ fuel ih =>
    intro t _ h
    obtain ⟨lq, lr, h1, h2, h3⟩ := div10 t.lower
    obtain ⟨uq, ur, h4, h5, h6⟩ := div10 t.upper
    obtain ⟨sq, sr, h7, h8, h9⟩ := div10 t.signif
    have e : trimExact (fuel + 1) t = if UInt.cmp lq uq == .lt then
        trimExact fuel { t with
          signif := sq, digit := sr, remZero := t.remZero && sr == 0, lower := lq,
          lowerRemZero := t.lowerRemZero && lr == 0, upper := uq, i := t.i + 1 } else some t := by
      rw [trimExact, h1, h4, h7]; rfl
    rw [e, cmp_lt_iff, h2, h5]
    by_cases hlt : nat256 t.lower / 10 < nat256 t.upper / 10
    · rw [decide_eq_true hlt, if_pos rfl]
      have hu : nat256 t.upper / 10 < 10 ^ fuel := by
        rw [pow_succ] at h; omega
      have hf : 0 < fuel := by
        rcases Nat.eq_zero_or_pos fuel with rfl | hf
        · rw [pow_zero] at hu; omega
        · exact hf
      obtain ⟨n, t', g1, g2, g3, g4, g5, g6⟩ := ih { t with
          signif := sq, digit := sr, remZero := t.remZero && sr == 0, lower := lq,
          lowerRemZero := t.lowerRemZero && lr == 0, upper := uq, i := t.i + 1 } hf (h5 ▸ hu)
      refine ⟨n + 1, t', g1, ?_, ?_, ?_, fun _ => ?_, ?_⟩
      · rw [Nat.add_comm]
        refine Cut.trans (Cut.step ?_ ?_ ?_ ?_ ?_) g2
        · exact h8
        · exact h2
        · rfl
        · exact h9
        · rfl
      · rw [g3, h5, div_div_pow]
      · rw [g4]
        dsimp only
        rw [bv_beq_zero, h3, h2, Bool.and_assoc, ← Bool.decide_and]
        congr 2
        exact propext (mod_pow_succ _ _).symm
      · rcases Nat.eq_zero_or_pos n with rfl | hn
        · simpa using hlt
        · have := g5 hn
          rwa [h2, h5, div_div_pow, div_div_pow] at this
      · dsimp only at g6
        rwa [h2, h5, div_div_pow, div_div_pow] at g6
    · rw [decide_eq_false hlt, if_neg (by simp)]
      exact ⟨0, t, rfl, Cut.refl t, by simp, by simp [Nat.mod_one], fun h => absurd h (by omega), by simpa using hlt⟩

theorem trimLower_spec (fuel : ℕ) : ∀ t : Trim, 0 < fuel → nat256 t.lower < 10 ^ fuel → ∃ n t', trimLower fuel t = some t' ∧
    Cut t t' n ∧ nat256 t.lower % 10 ^ n = 0 := by
  induction fuel with
  | zero => intro t h; exact absurd h (by omega)
  | succ fuel ih =>
    intro t _ h
    obtain ⟨lq, lr, h1, h2, h3⟩ := div10 t.lower
    obtain ⟨sq, sr, h7, h8, h9⟩ := div10 t.signif
    have e : trimLower (fuel + 1) t = if lr == 0 && !U256.isZero t.lower then
        trimLower fuel { t with
          signif := sq, digit := sr, remZero := t.remZero && sr == 0, lower := lq, i := t.i + 1 } else some t := by
      rw [trimLower, h1, h7]; rfl
    rw [e, bv_beq_zero, h3, isZero256]
    by_cases hlt : nat256 t.lower % 10 = 0 ∧ nat256 t.lower ≠ 0
    · rw [decide_eq_true hlt.1, decide_eq_false hlt.2, if_pos (by rfl)]
      have hu : nat256 t.lower / 10 < 10 ^ fuel := by
        rw [pow_succ] at h; omega
      have hf : 0 < fuel := by
        rcases Nat.eq_zero_or_pos fuel with rfl | hf
        · rw [pow_zero] at hu; omega
        · exact hf
      obtain ⟨n, t', g1, g2, g3⟩ := ih { t with
          signif := sq, digit := sr, remZero := t.remZero && sr == 0, lower := lq, i := t.i + 1 } hf (h2 ▸ hu)
      refine ⟨n + 1, t', g1, ?_, ?_⟩
      · rw [Nat.add_comm]
        refine Cut.trans (Cut.step ?_ ?_ ?_ ?_ ?_) g2
        · exact h8
        · exact h2
        · rfl
        · exact h9
        · rfl
      · rw [h2] at g3
        exact (mod_pow_succ _ _).mpr ⟨hlt.1, g3⟩
    · rw [if_neg]
      · exact ⟨0, t, rfl, Cut.refl t, by simp [Nat.mod_one]⟩
      · simp only [Bool.and_eq_true, decide_eq_true_eq, Bool.not_eq_true', decide_eq_false_iff_not]
        exact hlt

/-- What the other loop does -/
structure Cut2 (t t' : Trim) (n : ℕ) : Prop where
  signif : nat256 t'.signif = nat256 t.signif / 10 ^ n
  lower : nat256 t'.lower = nat256 t.lower / 10 ^ n
  upper : nat256 t'.upper = nat256 t.upper / 10 ^ n
  i : t'.i = t.i + n
  zero : n = 0 → t'.roundUp = t.roundUp
  pos : 0 < n → t'.roundUp = decide (5 ≤ nat256 t.signif / 10 ^ (n - 1) % 10)
  lt : 0 < n → nat256 t.lower / 10 ^ n < nat256 t.upper / 10 ^ n

theorem Cut2.refl (t : Trim) : Cut2 t t 0 := by
  constructor <;> simp

theorem Cut2.trans {t t' t'' : Trim} {n m : ℕ} (h : Cut2 t t' n) (g : Cut2 t' t'' m) : Cut2 t t'' (n + m) := by
  refine ⟨?_, ?_, ?_, ?_, fun h0 => ?_, fun h0 => ?_, fun h0 => ?_⟩
  · rw [g.signif, h.signif, Nat.div_div_eq_div_mul, pow_add]
  · rw [g.lower, h.lower, Nat.div_div_eq_div_mul, pow_add]
  · rw [g.upper, h.upper, Nat.div_div_eq_div_mul, pow_add]
  · rw [g.i, h.i]; push_cast; ring
  · exact (g.zero (by omega)).trans (h.zero (by omega))
  · rcases Nat.eq_zero_or_pos m with rfl | hm
    · exact (g.zero rfl).trans (h.pos (by omega))
    · rw [g.pos hm, h.signif, Nat.div_div_eq_div_mul, ← pow_add, ← Nat.add_sub_assoc hm]
  · rcases Nat.eq_zero_or_pos m with rfl | hm
    · exact h.lt (by omega)
    · have := g.lt hm
      rwa [h.lower, h.upper, Nat.div_div_eq_div_mul, Nat.div_div_eq_div_mul, ← pow_add] at this

theorem trimCommon_spec (fuel : ℕ) : ∀ t : Trim, 0 < fuel → nat256 t.upper < 10 ^ fuel → ∃ n t', trimCommon fuel t = some t' ∧
    Cut2 t t' n ∧ nat256 t'.upper / 10 ≤ nat256 t'.lower / 10 := by
  induction fuel with
  | zero => intro t h; exact absurd h (by omega)
  | succ fuel ih =>
    intro t _ h
    obtain ⟨lq, lr, h1, h2, h3⟩ := div10 t.lower
    obtain ⟨uq, ur, h4, h5, h6⟩ := div10 t.upper
    obtain ⟨sq, sr, h7, h8, h9⟩ := div10 t.signif
    have e : trimCommon (fuel + 1) t = if UInt.cmp uq lq == .gt then
        trimCommon fuel { t with
          signif := sq, roundUp := decide (sr ≥ 5), lower := lq, upper := uq, i := t.i + 1 } else some t := by
      rw [trimCommon, h1, h4, h7]; rfl
    rw [e, cmp_gt_iff, h2, h5]
    by_cases hlt : nat256 t.lower / 10 < nat256 t.upper / 10
    · rw [decide_eq_true hlt, if_pos rfl]
      have hu : nat256 t.upper / 10 < 10 ^ fuel := by
        rw [pow_succ] at h; omega
      have hf : 0 < fuel := by
        rcases Nat.eq_zero_or_pos fuel with rfl | hf
        · rw [pow_zero] at hu; omega
        · exact hf
      obtain ⟨n, t', g1, g2, g3⟩ := ih { t with
          signif := sq, roundUp := decide (sr ≥ 5), lower := lq, upper := uq, i := t.i + 1 } hf (h5 ▸ hu)
      refine ⟨1 + n, t', g1, Cut2.trans (⟨?_, ?_, ?_, rfl, fun h => absurd h (by omega), fun _ => ?_, fun _ => ?_⟩) g2, g3⟩
      · rw [pow_one]; exact h8
      · rw [pow_one]; exact h2
      · rw [pow_one]; exact h5
      · dsimp only
        rw [decide_eq_decide, ge_iff_le, BitVec.le_def, h9]
        simp
      · simpa using hlt
    · rw [decide_eq_false hlt, if_neg (by simp)]
      exact ⟨0, t, rfl, Cut2.refl t, by omega⟩

/-- No more digits can be removed. -/
theorem cut_max {l u n : ℕ} (h : u / 10 ^ (n + 1) ≤ l / 10 ^ (n + 1)) : ∀ k, l / 10 ^ k < u / 10 ^ k → k ≤ n := by
  intro k hk
  by_contra hc
  obtain ⟨d, rfl⟩ := Nat.exists_eq_add_of_le (show n + 1 ≤ k by omega)
  rw [pow_add, ← Nat.div_div_eq_div_mul, ← Nat.div_div_eq_div_mul] at hk
  have := Nat.div_le_div_right (c := 10 ^ d) h
  omega

theorem trimTwo_spec (t : Trim) : ∃ n t', trimTwo t = some t' ∧ Cut2 t t' n := by
  obtain ⟨lq, lr, h1, h2, h3⟩ := div100 t.lower
  obtain ⟨uq, ur, h4, h5, h6⟩ := div100 t.upper
  obtain ⟨sq, sr, h7, h8, h9⟩ := div100 t.signif
  have e : trimTwo t = if UInt.cmp uq lq == .gt then
      some { t with
        signif := sq, roundUp := decide (sr ≥ 50), lower := lq, upper := uq, i := t.i + 2 } else some t := by
    rw [trimTwo, h1, h4, h7]; rfl
  rw [e, cmp_gt_iff, h2, h5]
  by_cases hlt : nat256 t.lower / 100 < nat256 t.upper / 100
  · rw [decide_eq_true hlt, if_pos rfl]
    refine ⟨2, _, rfl, ⟨h8, h2, h5, rfl, fun h => absurd h (by omega), fun _ => ?_, fun _ => hlt⟩⟩
    dsimp only
    rw [decide_eq_decide, ge_iff_le, BitVec.le_def, h9, show BitVec.toNat (50 : BitVec 64) = 50 by decide]
    norm_num
    omega
  · rw [decide_eq_false hlt, if_neg (by simp)]
    exact ⟨0, t, rfl, Cut2.refl t⟩

theorem half_iff (s n : ℕ) : (0 < n ∧ 5 ≤ s / 10 ^ (n - 1) % 10) ↔ 10 ^ n ≤ 2 * (s % 10 ^ n) := by
  cases n with
  | zero => simp [Nat.mod_one]
  | succ n =>
    rw [Nat.add_sub_cancel, pow_succ, Nat.mod_mul]
    have h1 := Nat.mod_lt s (show 0 < 10 ^ n by positivity)
    generalize s / 10 ^ n % 10 = d
    generalize s % 10 ^ n = r at *
    generalize 10 ^ n = T at *
    constructor
    · rintro ⟨-, h⟩
      nlinarith
    · intro h
      refine ⟨by omega, ?_⟩
      by_contra hc
      have : d ≤ 4 := by omega
      nlinarith

/-- The result of the first branch -/
theorem trim_exact {t : Trim} (h : (t.lowerRemZero || t.remZero) = true) (hd : t.digit = 0) (hi : t.i = 0)
    (hls : nat256 t.lower < 10 ^ 80) (hus : nat256 t.upper < 10 ^ 80) (hs : nat256 t.signif < 2 ^ 256 - 1) :
    ∃ (n : ℕ) (w : U256), trim t = some (w, (n : ℤ)) ∧
      nat256 w = nat256 t.signif / 10 ^ n + (if 10 ^ n ≤ 2 * (nat256 t.signif % 10 ^ n) then 1 else 0) ∧
      (n = 0 ∨ (t.lowerRemZero = true ∧ nat256 t.lower % 10 ^ n = 0) ∨
        nat256 t.lower / 10 ^ n < nat256 t.upper / 10 ^ n) ∧
      ∀ k, nat256 t.lower / 10 ^ k < nat256 t.upper / 10 ^ k → k ≤ n := by
  obtain ⟨n, t1, h1, h2, h3, h4, h5, h6⟩ := trimExact_spec 80 t (by norm_num) hus
  obtain ⟨m, t2, g1, g2, g3⟩ : ∃ m t2, (if t1.lowerRemZero then trimLower 80 t1 else some t1) = some t2 ∧ Cut t1 t2 m ∧
      (m = 0 ∨ (t.lowerRemZero = true ∧ nat256 t.lower % 10 ^ (n + m) = 0)) := by
    by_cases hz : t1.lowerRemZero = true
    · rw [if_pos hz]
      obtain ⟨m, t2, a, b, c⟩ := trimLower_spec 80 t1 (by norm_num) (by
        rw [h2.lower]; exact lt_of_le_of_lt (Nat.div_le_self _ _) hls)
      refine ⟨m, t2, a, b, Or.inr ?_⟩
      rw [h4, Bool.and_eq_true, decide_eq_true_iff] at hz
      refine ⟨hz.1, ?_⟩
      rw [h2.lower] at c
      rw [pow_add, Nat.mod_mul, hz.2, c, Nat.mul_zero]
    · rw [if_neg hz]
      exact ⟨0, t1, rfl, Cut.refl t1, Or.inl rfl⟩
  have hc := h2.trans g2
  have hcond : (t2.digit > 5 || (t2.digit == 5 && (!t2.remZero || BigUInt.isOdd t2.signif.lo))) =
      decide (10 ^ (n + m) ≤ 2 * (nat256 t.signif % 10 ^ (n + m))) := by
    rw [Bool.eq_iff_iff, decide_eq_true_iff, ← half_iff, Bool.or_eq_true, Bool.and_eq_true, decide_eq_true_iff, beq_iff_eq,
      gt_iff_lt, BitVec.lt_def, ← BitVec.toNat_inj, show BitVec.toNat (5 : BitVec 64) = 5 by decide]
    rcases Nat.eq_zero_or_pos (n + m) with h0 | h0
    · rw [(hc.zero h0).1, hd, h0]
      simp
    · obtain ⟨p1, p2⟩ := hc.pos h0
      rw [← p1]
      constructor
      · rintro (h | h)
        · exact ⟨h0, by omega⟩
        · exact ⟨h0, by omega⟩
      · rintro ⟨-, h⟩
        rcases Nat.lt_or_ge 5 t2.digit.toNat with h' | h'
        · exact Or.inl h'
        · refine Or.inr ⟨by omega, ?_⟩
          rw [p2 (by omega)]
          rfl
  have e : trim t = if (t2.digit > 5 || (t2.digit == 5 && (!t2.remZero || BigUInt.isOdd t2.signif.lo))) = true then
      some (UInt.incr t2.signif, t2.i) else some (t2.signif, t2.i) := by
    have e1 : trim t = (if t1.lowerRemZero then trimLower 80 t1 else some t1).bind (fun t2 =>
        if (t2.digit > 5 || (t2.digit == 5 && (!t2.remZero || BigUInt.isOdd t2.signif.lo))) = true then
        some (UInt.incr t2.signif, t2.i) else some (t2.signif, t2.i)) := by
      rw [trim, if_pos h, h1, Option.bind_eq_bind, Option.bind_some]
      dsimp only
      split <;> rfl
    rw [e1, g1, Option.bind_some]
  rw [e, hcond]
  have hi2 : t2.i = ((n + m : ℕ) : Int) := by rw [hc.i, hi]; simp
  have hS := hc.signif
  have hdiv : nat256 t.signif / 10 ^ (n + m) ≤ nat256 t.signif := Nat.div_le_self _ _
  refine ⟨n + m, if 10 ^ (n + m) ≤ 2 * (nat256 t.signif % 10 ^ (n + m)) then UInt.incr t2.signif else t2.signif, ?_, ?_, ?_, ?_⟩
  · rw [← hi2]
    split_ifs with h1 h2 h2
    · rfl
    · exact absurd (of_decide_eq_true h1) h2
    · exact absurd (decide_eq_true h2) h1
    · rfl
  · split_ifs with h1
    · rw [nat_incr256, hS, Nat.mod_eq_of_lt (by omega)]
    · rw [hS]; rfl
  · rcases g3 with rfl | g3
    · rcases Nat.eq_zero_or_pos n with rfl | hn
      · exact Or.inl rfl
      · exact Or.inr (Or.inr (h5 hn))
    · exact Or.inr (Or.inl g3)
  · intro k hk
    have := cut_max h6 k hk
    omega

/-- The result of the second branch -/
theorem trim_common {t : Trim} (h : (t.lowerRemZero || t.remZero) = false) (hd : t.roundUp = false) (hi : t.i = 0)
    (hus : nat256 t.upper < 10 ^ 80) (hs : nat256 t.signif < 2 ^ 256 - 1) :
    ∃ (n : ℕ) (w : U256), trim t = some (w, (n : ℤ)) ∧
      nat256 w = nat256 t.signif / 10 ^ n + (if 10 ^ n ≤ 2 * (nat256 t.signif % 10 ^ n) ∨
        nat256 t.signif / 10 ^ n = nat256 t.lower / 10 ^ n then 1 else 0) ∧
      (n = 0 ∨ nat256 t.lower / 10 ^ n < nat256 t.upper / 10 ^ n) ∧
      ∀ k, nat256 t.lower / 10 ^ k < nat256 t.upper / 10 ^ k → k ≤ n := by
  obtain ⟨n, t1, h1, h2⟩ := trimTwo_spec t
  obtain ⟨m, t2, g1, g2, g3⟩ := trimCommon_spec 80 t1 (by norm_num) (by
    rw [h2.upper]; exact lt_of_le_of_lt (Nat.div_le_self _ _) hus)
  have hc := h2.trans g2
  have hcond : (t2.roundUp || UInt.beq t2.signif t2.lower) =
      decide (10 ^ (n + m) ≤ 2 * (nat256 t.signif % 10 ^ (n + m)) ∨
        nat256 t.signif / 10 ^ (n + m) = nat256 t.lower / 10 ^ (n + m)) := by
    rw [Bool.decide_or]
    congr 1
    · rcases Nat.eq_zero_or_pos (n + m) with h0 | h0
      · rw [hc.zero h0, hd, h0]
        simp [Nat.mod_one]
      · rw [hc.pos h0, decide_eq_decide, ← half_iff]
        simp [h0]
    · rw [← hc.signif, ← hc.lower]
      exact UInt.beq_eq _ _
  have e : trim t = if (t2.roundUp || UInt.beq t2.signif t2.lower) = true then
      some (UInt.incr t2.signif, t2.i) else some (t2.signif, t2.i) := by
    rw [trim, if_neg (by rw [h]; simp), h1, Option.bind_eq_bind, Option.bind_some, g1, Option.bind_some]
    rfl
  rw [e, hcond]
  have hi2 : t2.i = ((n + m : ℕ) : Int) := by rw [hc.i, hi]; simp
  have hS := hc.signif
  have hdiv : nat256 t.signif / 10 ^ (n + m) ≤ nat256 t.signif := Nat.div_le_self _ _
  refine ⟨n + m, if 10 ^ (n + m) ≤ 2 * (nat256 t.signif % 10 ^ (n + m)) ∨
        nat256 t.signif / 10 ^ (n + m) = nat256 t.lower / 10 ^ (n + m) then UInt.incr t2.signif else t2.signif, ?_, ?_, ?_, ?_⟩
  · rw [← hi2]
    split_ifs with h1 h2 h2
    · rfl
    · exact absurd (of_decide_eq_true h1) h2
    · exact absurd (decide_eq_true h2) h1
    · rfl
  · split_ifs with h1
    · rw [nat_incr256, hS, Nat.mod_eq_of_lt (by omega)]
    · rw [hS]; rfl
  · rcases Nat.eq_zero_or_pos (n + m) with h0 | h0
    · exact Or.inl h0
    · exact Or.inr (hc.lt h0)
  · rw [hc.upper, hc.lower, Nat.div_div_eq_div_mul, Nat.div_div_eq_div_mul, ← pow_succ] at g3
    exact cut_max g3

end Verif
