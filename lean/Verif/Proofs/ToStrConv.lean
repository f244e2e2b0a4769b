import Verif.Proofs.ToStrRound
import Verif.Proofs.Parse2
import Mathlib.Tactic.IntervalCases

/-!
# Proofs about formatting, part 4: the significand and its neighbours as decimals
-/

namespace Verif

open BigUInt LawfulBigUInt

/-! ## Floors -/

theorem floor_le' (x P : ℕ) {Q : ℕ} (hQ : 0 < Q) : ((x * P / Q : ℕ) : ℝ) ≤ x * ((P : ℝ) / Q) := by
  have hQ' : (0 : ℝ) < Q := by exact_mod_cast hQ
  rw [mul_div_assoc', le_div_iff₀ hQ']
  exact_mod_cast Nat.div_mul_le_self (x * P) Q

theorem lt_floor' (x P : ℕ) {Q : ℕ} (hQ : 0 < Q) : (x : ℝ) * ((P : ℝ) / Q) < ((x * P / Q : ℕ) : ℝ) + 1 := by
  have hQ' : (0 : ℝ) < Q := by exact_mod_cast hQ
  rw [mul_div_assoc', div_lt_iff₀ hQ']
  have h : x * P < (x * P / Q + 1) * Q := by
    have := Nat.div_add_mod (x * P) Q
    have := Nat.mod_lt (x * P) hQ
    rw [Nat.add_mul, one_mul, Nat.mul_comm _ Q]
    omega
  exact_mod_cast h

theorem floor_eq' {x P Q : ℕ} (hQ : 0 < Q) (h : Q ∣ x * P) : ((x * P / Q : ℕ) : ℝ) = x * ((P : ℝ) / Q) := by
  have hQ' : (0 : ℝ) < Q := by exact_mod_cast hQ
  rw [mul_div_assoc', eq_div_iff hQ'.ne']
  exact_mod_cast Nat.div_mul_cancel h

theorem floor_lt' {x P Q : ℕ} (hQ : 0 < Q) (h : ¬Q ∣ x * P) : ((x * P / Q : ℕ) : ℝ) < x * ((P : ℝ) / Q) := by
  have hQ' : (0 : ℝ) < Q := by exact_mod_cast hQ
  rw [mul_div_assoc', lt_div_iff₀ hQ']
  have h1 := Nat.div_mul_le_self (x * P) Q
  have h2 : x * P / Q * Q ≠ x * P := fun hh => h ⟨x * P / Q, by rw [Nat.mul_comm Q]; exact hh.symm⟩
  exact_mod_cast lt_of_le_of_ne h1 h2

/-! ## Multiples of powers of five -/

theorem pow5_table : ∀ n : Fin 103, (getPowerOfFiveU256 n.val).map (fun p => p.hi.toNat * 2 ^ 128 + p.lo.toNat) = some (5 ^ n.val) := by
  decide +kernel

theorem pow5_get {n : ℕ} (h : n ≤ 102) : ∃ p, getPowerOfFiveU256 n = some p ∧ nat256 p = 5 ^ n := by
  have := pow5_table ⟨n, by omega⟩
  rw [Option.map_eq_some_iff] at this
  exact this

theorem isMultipleOfPow5_spec {x : U256} {e : ℕ} (hx : nat256 x < 2 ^ 255) (he : e ≤ 102) :
    ∃ m, isMultipleOfPow5 x e = some m ∧ (m = true → 5 ^ e ∣ nat256 x) ∧ (e ≤ 55 → 5 ^ e ∣ nat256 x → m = true) := by
  unfold isMultipleOfPow5
  by_cases h0 : e = 0
  · subst h0
    exact ⟨true, by simp, by simp, by simp⟩
  by_cases h1 : e = 1
  · subst h1
    obtain ⟨q, r, a, b, c⟩ := Wide.divRemU128_spec (n := 0) x (5 : U128) (by decide)
    have a' : UInt.divRemU128 x (5 : U128) = some (q, r) := a
    have c' : r.toNat = nat256 x % 5 := c
    refine ⟨r == 0, ?_, ?_, ?_⟩
    · rw [if_neg (by norm_num), if_pos rfl, a']; rfl
    · rw [beq_iff_eq, ← BitVec.toNat_inj, c', pow_one]
      exact fun h => Nat.dvd_of_mod_eq_zero h
    · intro _ h
      rw [beq_iff_eq, ← BitVec.toNat_inj, c']
      exact Nat.mod_eq_zero_of_dvd (by simpa using h)
  rw [if_neg h0, if_neg h1]
  obtain ⟨p, g1, g2⟩ := pow5_get he
  have hp0 : 0 < 5 ^ e := by positivity
  by_cases h55 : e ≤ 55
  · have hlt : 5 ^ e < 2 ^ 128 := lt_of_le_of_lt (Nat.pow_le_pow_right (by norm_num) h55) (by norm_num)
    have hlo : p.lo.toNat = 5 ^ e := by
      have e1 : nat256 p = p.hi.toNat * 2 ^ 128 + p.lo.toNat := rfl
      have := p.lo.isLt
      omega
    have hd := divRemSub256 x p.lo (by omega)
    have hx' : nat256 x % 5 ^ e < 2 ^ 128 := lt_trans (Nat.mod_lt _ hp0) hlt
    refine ⟨decide (nat256 x % 5 ^ e = 0), ?_, ?_, ?_⟩
    · rw [g1, Option.bind_eq_bind, Option.bind_some, if_pos h55, hd, hlo]
      refine congrArg some ?_
      rw [show BigUInt.isZero (BitVec.ofNat 128 (UInt.nat x % 5 ^ e)) =
        decide ((BitVec.ofNat 128 (UInt.nat x % 5 ^ e)).toNat = 0) from LawfulBigUInt.isZero_eq (α := U128) _,
        BitVec.toNat_ofNat, show UInt.nat x = nat256 x from rfl, Nat.mod_eq_of_lt hx']
    · rw [decide_eq_true_iff]; exact Nat.dvd_of_mod_eq_zero
    · intro _ h; rw [decide_eq_true_iff]; exact Nat.mod_eq_zero_of_dvd h
  · have hα : ∀ a b : U128, LawfulBigUInt.toNat b ≠ 0 → DivExact a b := fun a b h => U128.divRem_exact a b h
    have hp' : UInt.nat p ≠ 0 := by
      rw [show UInt.nat p = 5 ^ e from g2]; omega
    obtain ⟨q, r, hq⟩ := UInt.divRem_total hα x p hp' hx
    obtain ⟨k1, -, -⟩ := UInt.divRemFuel_partial hα _ x p q r hp' hq
    refine ⟨U256.isZero r, ?_, ?_, fun h => absurd h h55⟩
    · rw [g1, Option.bind_eq_bind, Option.bind_some, if_neg h55, hq]
      rfl
    · rw [isZero256, decide_eq_true_iff]
      intro hr
      have hr' : UInt.nat r = 0 := hr
      rw [hr', Nat.add_zero] at k1
      rw [← g2]
      exact ⟨UInt.nat q, by rw [Nat.mul_comm]; exact k1⟩

/-! ## Binary exponents from 0 to 365 -/

/-- Decimal exponent -/
def posG (e : ℕ) : ℕ := ((floorLog10Pow2 (BitVec.ofInt 32 (e : Int))).toInt - (if (e : Int) > 3 then 1 else 0)).toNat

/-- Shift -/
def posS (e : ℕ) : ℕ :=
  (BitVec.ofInt 32 ((e : Int) - posG e - ((floorLog2Pow5 (BitVec.ofInt 32 (posG e))).toInt + 501) + 510)).toNat

theorem pos_table : ∀ e : Fin 366,
    (floorLog10Pow2 (BitVec.ofInt 32 (e.val : Int))).toInt - (if (e.val : Int) > 3 then 1 else 0) = (posG e.val : Int) ∧
      posG e.val ≤ 109 ∧ posG e.val ≤ e.val ∧ posS e.val ≤ 16 ∧
      posS e.val + (Nat.log2 (5 ^ posG e.val) + 501) = (e.val - posG e.val) + 510 ∧
      5 ^ posG e.val ≤ 2 ^ (e.val - posG e.val) ∧ 2 ^ (e.val - posG e.val) < 100 * 5 ^ posG e.val := by
  decide +kernel

theorem table_lt {p : ℕ} (hp : 0 < p) : (2 ^ (Nat.log2 p + 501) / p + 1) * 4 < 2 ^ 512 := by
  have h := (Nat.log2_eq_iff hp.ne').mp rfl
  have : 2 ^ (Nat.log2 p + 501) / p ≤ 2 ^ 501 := by
    rw [pow_add]
    apply Nat.div_le_of_le_mul
    exact Nat.mul_le_mul_right _ h.1
  have e : (2 : ℕ) ^ 512 = 2 ^ 501 * 2048 := by rw [show (2048 : ℕ) = 2 ^ 11 by norm_num, ← pow_add]
  have e1 : 1 ≤ 2 ^ 501 := Nat.one_le_two_pow
  rw [e]
  generalize 2 ^ 501 = K at *
  omega

theorem pos_scaled {e : ℕ} (he : e ≤ 365) (x : U256) (hx : nat256 x < 2 ^ 240) :
    nat256 (u256TruncatingMulU512 (UInt.shl x (posS e)) (lookupPow2DivPow5 (posG e))) =
      nat256 x * 2 ^ (e - posG e) / 5 ^ posG e := by
  obtain ⟨-, h2, -, h4, h5, -, -⟩ := pos_table ⟨e, by omega⟩
  dsimp only at h2 h4 h5
  have hp : 0 < 5 ^ posG e := by positivity
  have hx' : nat256 x * 2 ^ posS e < 2 ^ 256 := by
    calc nat256 x * 2 ^ posS e ≤ nat256 x * 2 ^ 16 := Nat.mul_le_mul_left _ (Nat.pow_le_pow_right (by norm_num) h4)
      _ < 2 ^ 240 * 2 ^ 16 := Nat.mul_lt_mul_of_pos_right hx (by norm_num)
      _ = 2 ^ 256 := by norm_num
  have hp' : 5 ^ posG e ≤ 2 ^ 254 := le_trans (Nat.pow_le_pow_right (by norm_num) h2) (by norm_num)
  rw [lookupPow2DivPow5, scaled_spec x (by omega) hx' (table_lt hp), floor_pos hp hp' hx' h5]

/-- What is known of the three numbers -/
structure Scaled (t : Trim) (V A B ρ : ℝ) (odd : Prop) : Prop where
  digit : t.digit = 0
  roundUp : t.roundUp = false
  i : t.i = 0
  lower_lt : nat256 t.lower < 10 ^ 80
  upper_lt : nat256 t.upper < 10 ^ 80
  signif_lt : nat256 t.signif < 2 ^ 250
  sV : (nat256 t.signif : ℝ) ≤ V
  Vs : V ≤ nat256 t.signif + 1
  AV : A < V
  VA : V ≤ A + 2 * ρ
  lA : (nat256 t.lower : ℝ) ≤ A
  Al : A < nat256 t.lower + 1
  uB : (nat256 t.upper : ℝ) ≤ B
  Bu : B ≤ nat256 t.upper + 1
  ls : nat256 t.lower ≤ nat256 t.signif
  ρ : 1 ≤ ρ
  lrz : t.lowerRemZero = true → (nat256 t.lower : ℝ) = A
  odd : odd → t.lowerRemZero = false ∧ ∀ n, 0 < n → ¬10 ^ n ∣ nat256 t.upper ∨ (nat256 t.upper : ℝ) < B ∨
    (n = 1 ∧ nat256 t.signif % 10 = 9 ∧ V = nat256 t.signif + 1)

theorem Scaled.trim {t : Trim} {V A B ρ : ℝ} {odd : Prop} (h : Scaled t V A B ρ odd) (hB : B = V + 2 * ρ) :
    ∃ (n : ℕ) (w : U256), trim t = some (w, (n : ℤ)) ∧ nat256 w ≤ 2 ^ 250 ∧
      (∀ k c : ℕ, A < (c : ℝ) * 10 ^ k → (c : ℝ) * 10 ^ k < B → k ≤ n) ∧ |(nat256 w : ℝ) * 10 ^ n - V| ≤ 2 * ρ ∧
      (odd → |(nat256 w : ℝ) * 10 ^ n - V| < 2 * ρ) := by
  have hlt := h.signif_lt
  obtain ⟨n, w, h1, hw, hmax, h2, h3⟩ := trim_round h.digit h.roundUp h.i h.lower_lt h.upper_lt (hlt.trans (by norm_num)) h.sV h.Vs h.AV h.VA
    h.lA h.Al hB h.uB h.ls h.ρ h.lrz
  have hm : ∀ k c : ℕ, A < (c : ℝ) * 10 ^ k → (c : ℝ) * 10 ^ k < B → k ≤ n := by
    intro k c hc1 hc2
    apply hmax
    have p1 : nat256 t.lower < c * 10 ^ k := by
      have := h.lA.trans_lt hc1
      exact_mod_cast this
    have p2 : c * 10 ^ k ≤ nat256 t.upper := by
      have : c * 10 ^ k < nat256 t.upper + 1 := by
        have := hc2.trans_le h.Bu
        exact_mod_cast this
      omega
    have hT : 0 < 10 ^ k := by positivity
    have q1 := (Nat.div_lt_iff_lt_mul hT).mpr p1
    have q2 := (Nat.le_div_iff_mul_le hT).mpr p2
    omega
  exact ⟨n, w, h1, by omega, hm, h2, fun ho => h3 (h.odd ho).1 ((h.odd ho).2 n)⟩

theorem pos_code {ab : Bool} {e : ℕ} (he : e ≤ 365) {sig lo up S L U : U256}
    (eS : u256TruncatingMulU512 (UInt.shl sig (posS e)) (lookupPow2DivPow5 (posG e)) = S)
    (eL : u256TruncatingMulU512 (UInt.shl lo (posS e)) (lookupPow2DivPow5 (posG e)) = L)
    (eU : u256TruncatingMulU512 (UInt.shl up (posS e)) (lookupPow2DivPow5 (posG e)) = U) {t : Trim}
    (ht : t = { signif := S, lower := L, upper := U, remZero := false, lowerRemZero := false }) :
    toDec10Nonneg ab e sig lo up = if posG e ≤ 102 then
        (if nat256 sig % 5 = 0 then (isMultipleOfPow5 sig (posG e)).bind fun m => some ((posG e : ℤ), { t with remZero := m })
        else if ab then (isMultipleOfPow5 lo (posG e)).bind fun m => some ((posG e : ℤ), { t with lowerRemZero := m })
        else (isMultipleOfPow5 up (posG e)).bind fun m =>
          if m then some ((posG e : ℤ), { t with upper := UInt.decr t.upper }) else some ((posG e : ℤ), t))
      else some ((posG e : ℤ), t) := by
  obtain ⟨t1, -⟩ := pos_table ⟨e, by omega⟩
  dsimp only at t1
  subst ht
  unfold toDec10Nonneg
  rw [t1]
  have hs : (BitVec.ofInt 32 ((e : ℤ) - (posG e : ℤ) - ((floorLog2Pow5 (BitVec.ofInt 32 (posG e : ℤ))).toInt + 501) + 510)).toNat = posS e := rfl
  dsimp only
  rw [hs, Int.toNat_natCast, divRemSub256 sig (5 : U128) (by decide), eS, eL, eU]
  have hz : BigUInt.isZero (BitVec.ofNat 128 (UInt.nat sig % (5 : U128).toNat)) = decide (nat256 sig % 5 = 0) := by
    rw [show BigUInt.isZero (BitVec.ofNat 128 (UInt.nat sig % (5 : U128).toNat)) =
      decide ((BitVec.ofNat 128 (UInt.nat sig % (5 : U128).toNat)).toNat = 0) from LawfulBigUInt.isZero_eq (α := U128) _,
      BitVec.toNat_ofNat, show (5 : U128).toNat = 5 by decide]
    congr 2
    exact Nat.mod_eq_of_lt (lt_trans (Nat.mod_lt _ (by norm_num)) (by norm_num))
  generalize posG e = g at *
  clear eS eL eU hs t1 he
  simp only [Nat.cast_le_ofNat]
  by_cases hg : g ≤ 102
  · rw [if_pos hg, if_pos hg, Option.bind_eq_bind, Option.bind_some]
    dsimp only
    rw [hz]
    by_cases h5 : nat256 sig % 5 = 0
    · rw [if_pos h5, if_pos (decide_eq_true h5)]; rfl
    · rw [if_neg h5, if_neg (by rw [decide_eq_false h5]; simp)]
      rfl
  · rw [if_neg hg, if_neg hg]
    rfl

/-- The upper midpoint is a multiple of `5^56`. -/
def BadMid (N : ℕ) : Prop := 5 ^ 56 ∣ 2 * N + 1

theorem pos_spec {ab : Bool} {e : ℕ} (he : e ≤ 365) {sig lo up : U256} {N k : ℕ} (hN : N < 2 ^ 237) (hN0 : 0 < N)
    (h1 : nat256 sig = 4 * N) (h2 : nat256 lo = 4 * N - k) (hk : 1 ≤ k) (hk' : k ≤ 2) (h3 : nat256 up = 4 * N + 2)
    (hab : ab = true ↔ N % 2 = 0) :
    ∃ (t : Trim), toDec10Nonneg ab e sig lo up = some ((posG e : ℤ), t) ∧
      Scaled t ((4 * N : ℕ) * (((2 ^ (e - posG e) : ℕ) : ℝ) / ((5 ^ posG e : ℕ) : ℝ)))
        ((4 * N - k : ℕ) * (((2 ^ (e - posG e) : ℕ) : ℝ) / ((5 ^ posG e : ℕ) : ℝ)))
        ((4 * N + 2 : ℕ) * (((2 ^ (e - posG e) : ℕ) : ℝ) / ((5 ^ posG e : ℕ) : ℝ)))
        (((2 ^ (e - posG e) : ℕ) : ℝ) / ((5 ^ posG e : ℕ) : ℝ)) (N % 2 = 1 ∧ ¬BadMid N) := by
  have l1 : nat256 sig < 2 ^ 240 := by rw [h1]; omega
  have l2 : nat256 lo < 2 ^ 240 := by rw [h2]; omega
  have l3 : nat256 up < 2 ^ 240 := by rw [h3]; omega
  have l255 : (2 : ℕ) ^ 240 < 2 ^ 255 := by norm_num
  have hQ : 0 < 5 ^ posG e := by positivity
  have eS := pos_scaled he sig l1
  have eL := pos_scaled he lo l2
  have eU := pos_scaled he up l3
  have hcode := @pos_code ab e he sig lo up _ _ _ rfl rfl rfl _ rfl
  obtain ⟨-, t2, -, -, -, t6, t7⟩ := pos_table ⟨e, by omega⟩
  dsimp only at t2 t6 t7
  have hdv : ∀ x, 5 ^ posG e ∣ x * 2 ^ (e - posG e) → 5 ^ posG e ∣ x := fun x h =>
    Nat.Coprime.dvd_of_dvd_mul_right (Nat.Coprime.pow _ _ (by decide)) h
  rw [h1] at eS
  rw [h2] at eL
  rw [h3] at eU
  have hP5 : ∀ x, 5 ∣ x * 2 ^ (e - posG e) → 5 ∣ x := fun x h =>
    Nat.Coprime.dvd_of_dvd_mul_right (Nat.Coprime.pow_right _ (by decide)) h
  generalize u256TruncatingMulU512 (UInt.shl sig (posS e)) (lookupPow2DivPow5 (posG e)) = S at *
  generalize u256TruncatingMulU512 (UInt.shl lo (posS e)) (lookupPow2DivPow5 (posG e)) = L at *
  generalize u256TruncatingMulU512 (UInt.shl up (posS e)) (lookupPow2DivPow5 (posG e)) = U at *
  rw [hcode]
  clear hcode
  generalize posG e = g at *
  generalize 2 ^ (e - g) = P at *
  have hρ : (1 : ℝ) ≤ (P : ℝ) / ((5 ^ g : ℕ) : ℝ) := by
    rw [le_div_iff₀ (by exact_mod_cast hQ), one_mul]
    exact_mod_cast t6
  have bound : ∀ x, x < 2 ^ 240 → x * P / 5 ^ g < 2 ^ 247 := by
    intro x hx
    rw [Nat.div_lt_iff_lt_mul hQ]
    calc x * P ≤ 2 ^ 240 * (100 * 5 ^ g) := Nat.mul_le_mul hx.le t7.le
      _ < 2 ^ 247 * 5 ^ g := by omega
  have base : ∀ (rz lz : Bool) (u : U256), (nat256 u : ℝ) ≤ ((4 * N + 2 : ℕ) : ℝ) * ((P : ℝ) / ((5 ^ g : ℕ) : ℝ)) → nat256 u < 2 ^ 247 →
      ((4 * N + 2 : ℕ) : ℝ) * ((P : ℝ) / ((5 ^ g : ℕ) : ℝ)) ≤ nat256 u + 1 → (lz = true → 5 ^ g ∣ 4 * N - k) →
      (N % 2 = 1 → ¬BadMid N → lz = false ∧ ((∀ n, 0 < n → ¬10 ^ n ∣ nat256 u) ∨ (nat256 u : ℝ) < ((4 * N + 2 : ℕ) : ℝ) * ((P : ℝ) / ((5 ^ g : ℕ) : ℝ)))) →
      Scaled { signif := S, lower := L, upper := u, remZero := rz, lowerRemZero := lz } ((4 * N : ℕ) * ((P : ℝ) / ((5 ^ g : ℕ) : ℝ)))
        ((4 * N - k : ℕ) * ((P : ℝ) / ((5 ^ g : ℕ) : ℝ))) ((4 * N + 2 : ℕ) * ((P : ℝ) / ((5 ^ g : ℕ) : ℝ))) ((P : ℝ) / ((5 ^ g : ℕ) : ℝ)) (N % 2 = 1 ∧ ¬BadMid N) := by
    intro rz lz u hu hu' hu'' hl ho
    have b1 := bound (4 * N) (by omega)
    have b2 := bound (4 * N - k) (by omega)
    have hsub : ((4 * N - k : ℕ) : ℝ) = ((4 * N : ℕ) : ℝ) - k := by
      rw [Nat.cast_sub (by omega)]
    have hk1 : (1 : ℝ) ≤ k := by exact_mod_cast hk
    have hk2 : (k : ℝ) ≤ 2 := by exact_mod_cast hk'
    refine ⟨rfl, rfl, rfl, ?_, ?_, ?_, ?_, ?_, ?_, ?_, ?_, ?_, hu, hu'', ?_, hρ, ?_, ?_⟩
    · dsimp only; rw [eL]; omega
    · dsimp only; omega
    · dsimp only; rw [eS]; omega
    · dsimp only; rw [eS]; exact floor_le' _ _ hQ
    · dsimp only; rw [eS]; exact (lt_floor' _ _ hQ).le
    · rw [hsub]; nlinarith
    · rw [hsub]; nlinarith
    · dsimp only; rw [eL]; exact floor_le' _ _ hQ
    · dsimp only; rw [eL]; exact lt_floor' _ _ hQ
    · dsimp only; rw [eL, eS]; exact Nat.div_le_div_right (Nat.mul_le_mul_right _ (by omega))
    · intro h
      dsimp only
      rw [eL]
      exact floor_eq' hQ (Dvd.dvd.mul_right (hl h) P)
    · rintro ⟨h, hodd⟩
      obtain ⟨h, h'⟩ := ho h hodd
      refine ⟨h, fun n hn => ?_⟩
      rcases h' with h' | h'
      · exact Or.inl (h' n hn)
      · exact Or.inr (Or.inl h')
  have hU : (nat256 U : ℝ) ≤ ((4 * N + 2 : ℕ) : ℝ) * ((P : ℝ) / ((5 ^ g : ℕ) : ℝ)) := by rw [eU]; exact floor_le' _ _ hQ
  have hU2 : ((4 * N + 2 : ℕ) : ℝ) * ((P : ℝ) / ((5 ^ g : ℕ) : ℝ)) ≤ nat256 U + 1 := by rw [eU]; exact (lt_floor' _ _ hQ).le
  have hUb : nat256 U < 2 ^ 247 := by rw [eU]; exact bound _ (by omega)
  have hUn : ¬5 ^ g ∣ 4 * N + 2 → (nat256 U : ℝ) < ((4 * N + 2 : ℕ) : ℝ) * ((P : ℝ) / ((5 ^ g : ℕ) : ℝ)) := by
    intro h
    rw [eU]
    exact floor_lt' hQ (fun hh => h (hdv _ hh))
  have hU0 : 0 < nat256 U := by
    rw [eU]
    exact Nat.div_pos (le_trans t6 (Nat.le_mul_of_pos_left _ (by omega))) hQ
  by_cases hg : g ≤ 102
  · rw [if_pos hg]
    by_cases h5 : nat256 sig % 5 = 0
    · rw [if_pos h5]
      obtain ⟨m, a, -, -⟩ := isMultipleOfPow5_spec (x := sig) (l1.trans l255) hg
      rw [a, Option.bind_some]
      refine ⟨_, rfl, base m false U hU hUb hU2 (by simp) (fun ho hodd => ⟨rfl, ?_⟩)⟩
      clear hodd
      rw [h1] at h5
      have h5' : ¬5 ∣ 4 * N + 2 := by omega
      rcases Nat.eq_zero_or_pos g with rfl | hg0
      · left
        intro n hn hdvd
        rw [eU, pow_zero, Nat.div_one] at hdvd
        have : 5 ∣ (4 * N + 2) * P := dvd_trans (dvd_trans (by norm_num : 5 ∣ 10) (dvd_pow_self 10 (by omega))) hdvd
        exact h5' (hP5 _ this)
      · exact Or.inr (hUn (fun h => h5' (dvd_trans (dvd_pow_self 5 (by omega)) h)))
    · rw [if_neg h5]
      by_cases ha : ab = true
      · rw [if_pos ha]
        obtain ⟨m, a, b, -⟩ := isMultipleOfPow5_spec (x := lo) (l2.trans l255) hg
        rw [a, Option.bind_some]
        refine ⟨_, rfl, base false m U hU hUb hU2 (fun h => by rw [← h2]; exact b h) (fun ho hodd => ?_)⟩
        clear hodd
        have := hab.mp ha
        omega
      · rw [if_neg ha]
        obtain ⟨m, a, b, c⟩ := isMultipleOfPow5_spec (x := up) (l3.trans l255) hg
        rw [a, Option.bind_some]
        rw [h3] at b c
        have hN1 : N % 2 = 1 := by
          have := mt hab.mpr ha
          omega
        cases m with
        | true =>
          rw [if_pos rfl]
          have hd : nat256 (UInt.decr U) = nat256 U - 1 := by
            rw [show nat256 (UInt.decr U) = (nat256 U + 2 ^ 256 - 1) % 2 ^ 256 from UInt.nat_decr U]
            omega
          have hlt : (nat256 (UInt.decr U) : ℝ) < nat256 U := by
            rw [hd]; exact_mod_cast (by omega : nat256 U - 1 < nat256 U)
          exact ⟨_, rfl, base false false (UInt.decr U) (hlt.le.trans hU) (by omega) (by
              rw [hd, Nat.cast_sub (by omega), eU, floor_eq' hQ (Dvd.dvd.mul_right (b rfl) P)]
              push_cast
              linarith) (by simp)
            (fun _ _ => ⟨rfl, Or.inr (lt_of_lt_of_le hlt hU)⟩)⟩
        | false =>
          rw [if_neg (by simp)]
          refine ⟨_, rfl, base false false U hU hUb hU2 (by simp) (fun _ hodd => ⟨rfl, Or.inr (hUn ?_)⟩)⟩
          intro hdvd
          by_cases h55 : g ≤ 55
          · exact absurd (c h55 hdvd) (by simp)
          · apply hodd
            have : 5 ^ 56 ∣ 2 * (2 * N + 1) := dvd_trans (pow_dvd_pow 5 (show 56 ≤ g by clear hodd; omega)) (by
              rw [show 2 * (2 * N + 1) = 4 * N + 2 by ring]; exact hdvd)
            exact Nat.Coprime.dvd_of_dvd_mul_left (Nat.Coprime.pow_left _ (by decide)) this
  · rw [if_neg hg]
    refine ⟨_, rfl, base false false U hU hUb hU2 (by simp) (fun _ hodd => ⟨rfl, Or.inr (hUn ?_)⟩)⟩
    clear hodd
    intro hdvd
    have h := Nat.le_of_dvd (by omega) hdvd
    have : 5 ^ 103 ≤ 5 ^ g := Nat.pow_le_pow_right (by norm_num) (by omega)
    have : (4 * 2 ^ 237 + 2 : ℕ) < 5 ^ 103 := by norm_num
    omega

/-! ## Binary exponents from -709 to -1 -/

/-- Difference of the exponents -/
def negG (n : ℕ) : ℕ := ((floorLog10Pow5 (BitVec.ofInt 32 (n : Int))).toInt - (if n = 1 then 0 else 1)).toNat

/-- Shift -/
def negS (n : ℕ) : ℕ :=
  (BitVec.ofInt 32 (510 - (negG n : Int) + ((ceilLog2Pow5 (BitVec.ofInt 32 ((n - negG n : ℕ) : Int))).toInt - 501))).toNat

theorem neg_table : ∀ m : Fin 709,
    (floorLog10Pow5 (BitVec.ofInt 32 ((m.val + 1 : ℕ) : Int))).toInt - (if m.val + 1 = 1 then 0 else 1) = (negG (m.val + 1) : Int) ∧
      negG (m.val + 1) ≤ m.val + 1 ∧ negS (m.val + 1) ≤ 16 ∧ Nat.log2 (5 ^ (m.val + 1 - negG (m.val + 1))) ≤ 502 ∧
      negS (m.val + 1) + (502 - Nat.log2 (5 ^ (m.val + 1 - negG (m.val + 1)))) + negG (m.val + 1) = 512 ∧
      2 ^ negG (m.val + 1) ≤ 5 ^ (m.val + 1 - negG (m.val + 1)) ∧
      5 ^ (m.val + 1 - negG (m.val + 1)) < 100 * 2 ^ negG (m.val + 1) := by
  decide +kernel

theorem neg_small : ∀ m : Fin 705, 2 ≤ negG (m.val + 5) := by
  decide +kernel

theorem neg_scaled {n : ℕ} (hn0 : 0 < n) (hn : n ≤ 709) (x : U256) (hx : nat256 x < 2 ^ 240) :
    nat256 (u256TruncatingMulU512 (UInt.shl x (negS n)) (lookupPow5DivPow2 (n - negG n))) =
      nat256 x * 5 ^ (n - negG n) / 2 ^ negG n := by
  obtain ⟨m, rfl⟩ : ∃ m, n = m + 1 := ⟨n - 1, by omega⟩
  obtain ⟨-, -, h3, h4, h5, -, -⟩ := neg_table ⟨m, by omega⟩
  dsimp only at h3 h4 h5
  have hx' : nat256 x * 2 ^ negS (m + 1) < 2 ^ 256 := by
    calc nat256 x * 2 ^ negS (m + 1) ≤ nat256 x * 2 ^ 16 := Nat.mul_le_mul_left _ (Nat.pow_le_pow_right (by norm_num) h3)
      _ < 2 ^ 240 * 2 ^ 16 := Nat.mul_lt_mul_of_pos_right hx (by norm_num)
      _ = 2 ^ 256 := by norm_num
  have hT : 5 ^ (m + 1 - negG (m + 1)) * 2 ^ (502 - Nat.log2 (5 ^ (m + 1 - negG (m + 1)))) < 2 ^ 512 := by
    have hp : 0 < 5 ^ (m + 1 - negG (m + 1)) := by positivity
    generalize 5 ^ (m + 1 - negG (m + 1)) = p at *
    have h := (Nat.log2_eq_iff hp.ne').mp rfl
    calc p * 2 ^ (502 - p.log2) < 2 ^ (p.log2 + 1) * 2 ^ (502 - p.log2) := Nat.mul_lt_mul_of_pos_right h.2 (by positivity)
      _ = 2 ^ 503 := by rw [← pow_add]; congr 1; omega
      _ ≤ 2 ^ 512 := Nat.pow_le_pow_right (by norm_num) (by norm_num)
  rw [lookupPow5DivPow2, show Nat.log2 (5 ^ (m + 1 - negG (m + 1))) - 502 = 0 by omega, pow_zero, Nat.div_one,
    scaled_spec x (by omega) hx' hT, floor_neg h5]

theorem neg_code {ab ni : Bool} {n : ℕ} (hn0 : 0 < n) (hn : n ≤ 709) {sig lo up S L U : U256}
    (eS : u256TruncatingMulU512 (UInt.shl sig (negS n)) (lookupPow5DivPow2 (n - negG n)) = S)
    (eL : u256TruncatingMulU512 (UInt.shl lo (negS n)) (lookupPow5DivPow2 (n - negG n)) = L)
    (eU : u256TruncatingMulU512 (UInt.shl up (negS n)) (lookupPow5DivPow2 (n - negG n)) = U) {t : Trim}
    (ht : t = { signif := S, lower := L, upper := U, remZero := false, lowerRemZero := false }) :
    toDec10Neg ab ni (-(n : ℤ)) sig lo up = (-(n : ℤ) + negG n,
      if negG n ≤ 1 then
        if ab then { t with remZero := true, lowerRemZero := ni } else { t with remZero := true, signif := UInt.decr t.signif }
      else if negG n ≤ 238 then { t with remZero := decide (UInt.trailingZeros sig ≥ negG n) } else t) := by
  have h := neg_table ⟨n - 1, by omega⟩
  rw [show ((⟨n - 1, by omega⟩ : Fin 709).val + 1) = n from Nat.sub_add_cancel hn0] at h
  obtain ⟨t1, t2, -⟩ := h
  subst ht
  unfold toDec10Neg
  have e1 : (if (-(n : ℤ)) = -1 then (0 : ℤ) else 1) = if n = 1 then 0 else 1 := by
    by_cases h : n = 1
    · rw [if_pos h, if_pos (by rw [h]; rfl)]
    · rw [if_neg h, if_neg (by omega)]
  rw [neg_neg, e1, t1]
  have e2 : (n : ℤ) - (negG n : ℤ) = ((n - negG n : ℕ) : ℤ) := by omega
  have hs : (BitVec.ofInt 32 (510 - (negG n : ℤ) + ((ceilLog2Pow5 (BitVec.ofInt 32 ((n - negG n : ℕ) : ℤ))).toInt - 501))).toNat = negS n := rfl
  dsimp only
  rw [e2, hs, Int.toNat_natCast, eS, eL, eU, Int.toNat_natCast]
  simp only [Nat.cast_le_ofNat, Nat.cast_le_one]
  generalize negG n = g
  by_cases h1 : g ≤ 1
  · rw [if_pos h1, if_pos h1]
    cases ab <;> rfl
  · rw [if_neg h1, if_neg h1]
    by_cases h2 : g ≤ 238
    · rw [if_pos h2, if_pos h2]
    · rw [if_neg h2, if_neg h2]

theorem neg_small_cases {n : ℕ} (hn0 : 0 < n) (hn : n ≤ 709) (h : negG n ≤ 1) : n ≤ 4 := by
  by_contra hc
  have := neg_small ⟨n - 5, by omega⟩
  rw [show ((⟨n - 5, by omega⟩ : Fin 705).val + 5) = n from Nat.sub_add_cancel (by omega)] at this
  omega

theorem neg_spec {ab ni : Bool} {n : ℕ} (hn0 : 0 < n) (hn : n ≤ 709) {sig lo up : U256} {N k : ℕ} (hN : N < 2 ^ 237) (hN0 : 0 < N)
    (h1 : nat256 sig = 4 * N) (h2 : nat256 lo = 4 * N - k) (hk : 1 ≤ k) (hk' : k ≤ 2) (h3 : nat256 up = 4 * N + 2)
    (hab : ab = true ↔ N % 2 = 0) (hni : ni = true → k = 2) :
    ∃ (t : Trim), toDec10Neg ab ni (-(n : ℤ)) sig lo up = (-(n : ℤ) + negG n, t) ∧
      Scaled t ((4 * N : ℕ) * (((5 ^ (n - negG n) : ℕ) : ℝ) / ((2 ^ negG n : ℕ) : ℝ)))
        ((4 * N - k : ℕ) * (((5 ^ (n - negG n) : ℕ) : ℝ) / ((2 ^ negG n : ℕ) : ℝ)))
        ((4 * N + 2 : ℕ) * (((5 ^ (n - negG n) : ℕ) : ℝ) / ((2 ^ negG n : ℕ) : ℝ)))
        (((5 ^ (n - negG n) : ℕ) : ℝ) / ((2 ^ negG n : ℕ) : ℝ)) (N % 2 = 1) := by
  have l1 : nat256 sig < 2 ^ 240 := by rw [h1]; omega
  have l2 : nat256 lo < 2 ^ 240 := by rw [h2]; omega
  have l3 : nat256 up < 2 ^ 240 := by rw [h3]; omega
  have hQ : 0 < 2 ^ negG n := by positivity
  have eS := neg_scaled hn0 hn sig l1
  have eL := neg_scaled hn0 hn lo l2
  have eU := neg_scaled hn0 hn up l3
  have hcode := @neg_code ab ni n hn0 hn sig lo up _ _ _ rfl rfl rfl _ rfl
  have hP : ∀ x, 2 ^ negG n ∣ x * 5 ^ (n - negG n) → 2 ^ negG n ∣ x := fun x h =>
    Nat.Coprime.dvd_of_dvd_mul_right (Nat.Coprime.pow _ _ (by decide)) h
  have tab := neg_table ⟨n - 1, by omega⟩
  rw [show ((⟨n - 1, by omega⟩ : Fin 709).val + 1) = n from Nat.sub_add_cancel hn0] at tab
  obtain ⟨-, t2, -, -, -, t6, t7⟩ := tab
  rw [h1] at eS
  rw [h2] at eL
  rw [h3] at eU
  generalize u256TruncatingMulU512 (UInt.shl sig (negS n)) (lookupPow5DivPow2 (n - negG n)) = S at *
  generalize u256TruncatingMulU512 (UInt.shl lo (negS n)) (lookupPow5DivPow2 (n - negG n)) = L at *
  generalize u256TruncatingMulU512 (UInt.shl up (negS n)) (lookupPow5DivPow2 (n - negG n)) = U at *
  rw [hcode]
  clear hcode
  refine ⟨_, rfl, ?_⟩
  -- the special cases
  by_cases hsp : negG n ≤ 1 ∧ ab = false
  · obtain ⟨hg, ha⟩ := hsp
    have hodd : N % 2 = 1 := by
      have := mt hab.mpr (by rw [ha]; simp)
      omega
    have hn4 := neg_small_cases hn0 hn hg
    rw [if_pos hg, if_neg (by rw [ha]; simp)]
    clear t6 t7 hP hQ hg
    have lf := floor_le' (4 * N - k) (5 ^ (n - negG n)) (show 0 < 2 ^ negG n by positivity)
    have fl := lt_floor' (4 * N - k) (5 ^ (n - negG n)) (show 0 < 2 ^ negG n by positivity)
    rw [← eL] at lf fl
    have hsub : ((4 * N - k : ℕ) : ℝ) = ((4 * N : ℕ) : ℝ) - k := by
      rw [Nat.cast_sub (by omega)]
    have hk1 : (1 : ℝ) ≤ k := by exact_mod_cast hk
    have hk2 : (k : ℝ) ≤ 2 := by exact_mod_cast hk'
    obtain ⟨q, p, ρ, e1, e2, e3, e4, e5, e6, e7, e8⟩ : ∃ (q p : ℕ) (ρ : ℝ), ((5 ^ (n - negG n) : ℕ) : ℝ) / ((2 ^ negG n : ℕ) : ℝ) = ρ ∧
        nat256 S = 10 * q ∧ nat256 U = p ∧ p % 100 ≠ 0 ∧ ((4 * N : ℕ) : ℝ) * ρ = 10 * q ∧ ((4 * N + 2 : ℕ) : ℝ) * ρ = p ∧
          2 ≤ ρ ∧ (nat256 L < 2 ^ 250 ∧ p < 2 ^ 250 ∧ 0 < q) := by
      have c : n = 1 ∨ n = 2 ∨ n = 3 ∨ n = 4 := by omega
      rcases c with rfl | rfl | rfl | rfl
      · have g : negG 1 = 0 := by decide
        rw [g] at eS eU eL ⊢
        norm_num at eS eU eL
        refine ⟨2 * N, 20 * N + 10, 5, by norm_num, by omega, by omega, by omega, by push_cast; ring, by push_cast; ring, by norm_num, by omega, by omega, by omega⟩
      · have g : negG 2 = 0 := by decide
        rw [g] at eS eU eL ⊢
        norm_num at eS eU eL
        refine ⟨10 * N, 100 * N + 50, 25, by norm_num, by omega, by omega, by omega, by push_cast; ring, by push_cast; ring, by norm_num, by omega, by omega, by omega⟩
      · have g : negG 3 = 1 := by decide
        rw [g] at eS eU eL ⊢
        norm_num at eS eU eL
        refine ⟨5 * N, 50 * N + 25, 25 / 2, by norm_num, by omega, by omega, by omega, by push_cast; ring, by push_cast; ring, by norm_num, by omega, by omega, by omega⟩
      · have g : negG 4 = 1 := by decide
        rw [g] at eS eU eL ⊢
        norm_num at eS eU eL
        refine ⟨25 * N, 250 * N + 125, 125 / 2, by norm_num, by omega, by omega, by omega, by push_cast; ring, by push_cast; ring, by norm_num, by omega, by omega, by omega⟩
    rw [e1] at lf fl ⊢
    rw [hsub, sub_mul, e5] at lf fl ⊢
    rw [e6]
    have hd : nat256 (UInt.decr S) = 10 * q - 1 := by
      rw [show nat256 (UInt.decr S) = (nat256 S + 2 ^ 256 - 1) % 2 ^ 256 from UInt.nat_decr S]
      have := nat256_lt S
      omega
    have hd' : ((10 * q - 1 : ℕ) : ℝ) = 10 * q - 1 := by
      rw [Nat.cast_sub (by omega)]; push_cast; ring
    have hls : nat256 L ≤ 10 * q - 1 := by
      have : (nat256 L : ℝ) ≤ ((10 * q - 1 : ℕ) : ℝ) := by rw [hd']; nlinarith
      exact_mod_cast this
    push_cast at e6
    push_cast at e5
    have e9 : (p : ℝ) = 10 * q + 2 * ρ := by rw [← e5, ← e6]; ring
    have hqs : 10 * q < 2 ^ 250 := by
      have : ((10 * q : ℕ) : ℝ) ≤ p := by rw [e9]; push_cast; linarith
      have : 10 * q ≤ p := by exact_mod_cast this
      omega
    refine ⟨rfl, rfl, rfl, ?_, ?_, ?_, ?_, ?_, ?_, ?_, lf, fl, ?_, ?_, ?_, by linarith, ?_, ?_⟩
    · dsimp only; omega
    · dsimp only; omega
    · dsimp only; rw [hd]; omega
    · dsimp only; rw [hd, hd']; linarith
    · dsimp only; rw [hd, hd']; linarith
    · nlinarith
    · nlinarith
    · dsimp only; rw [e3]
    · dsimp only; rw [e3]; linarith
    · dsimp only; rw [hd]; exact hls
    · intro h; exact absurd h (by simp)
    · intro _
      refine ⟨rfl, fun m hm => ?_⟩
      by_cases hm1 : m = 1
      · refine Or.inr (Or.inr ⟨hm1, ?_, ?_⟩)
        · dsimp only; rw [hd]; omega
        · dsimp only; rw [hd, hd']; ring
      · left
        dsimp only
        rw [e3]
        intro hdvd
        exact e4 (Nat.mod_eq_zero_of_dvd (dvd_trans (pow_dvd_pow 10 (show 2 ≤ m by omega)) hdvd))
  · have hg1 : negG n ≤ 1 → ab = true := fun h => by
      by_contra hc
      exact hsp ⟨h, by simpa using hc⟩
    have dv2 : negG n ≤ 1 → k = 2 → 2 ^ negG n ∣ (4 * N - k) * 5 ^ (n - negG n) := by
      intro h h2
      apply Dvd.dvd.mul_right
      refine dvd_trans (pow_dvd_pow 2 h) ?_
      omega
    have dv3 : 2 ≤ negG n → N % 2 = 1 → ¬2 ^ negG n ∣ (4 * N + 2) * 5 ^ (n - negG n) := by
      intro h h2 hd
      have := dvd_trans (pow_dvd_pow 2 h) (hP _ hd)
      omega
    generalize negG n = g at *
    generalize 5 ^ (n - g) = P at *
    generalize 2 ^ g = Q at *
    have hρ : (1 : ℝ) ≤ (P : ℝ) / (Q : ℝ) := by
      rw [le_div_iff₀ (by exact_mod_cast hQ), one_mul]
      exact_mod_cast t6
    have bound : ∀ x, x < 2 ^ 240 → x * P / Q < 2 ^ 247 := by
      intro x hx
      rw [Nat.div_lt_iff_lt_mul hQ]
      calc x * P ≤ 2 ^ 240 * (100 * Q) := Nat.mul_le_mul hx.le t7.le
        _ < 2 ^ 247 * Q := by omega
    have base : ∀ (rz lz : Bool), (lz = true → g ≤ 1 ∧ ni = true) → (N % 2 = 1 → lz = false ∧ 2 ≤ g) →
        Scaled { signif := S, lower := L, upper := U, remZero := rz, lowerRemZero := lz } ((4 * N : ℕ) * ((P : ℝ) / (Q : ℝ)))
          ((4 * N - k : ℕ) * ((P : ℝ) / (Q : ℝ))) ((4 * N + 2 : ℕ) * ((P : ℝ) / (Q : ℝ))) ((P : ℝ) / (Q : ℝ)) (N % 2 = 1) := by
      intro rz lz hl ho
      have b1 := bound (4 * N) (by omega)
      have b2 := bound (4 * N - k) (by omega)
      have b3 := bound (4 * N + 2) (by omega)
      have hsub : ((4 * N - k : ℕ) : ℝ) = ((4 * N : ℕ) : ℝ) - k := by
        rw [Nat.cast_sub (by omega)]
      have hk1 : (1 : ℝ) ≤ k := by exact_mod_cast hk
      have hk2 : (k : ℝ) ≤ 2 := by exact_mod_cast hk'
      refine ⟨rfl, rfl, rfl, ?_, ?_, ?_, ?_, ?_, ?_, ?_, ?_, ?_, ?_, ?_, ?_, hρ, ?_, ?_⟩
      · dsimp only; rw [eL]; omega
      · dsimp only; rw [eU]; omega
      · dsimp only; rw [eS]; omega
      · dsimp only; rw [eS]; exact floor_le' _ _ hQ
      · dsimp only; rw [eS]; exact (lt_floor' _ _ hQ).le
      · rw [hsub]; nlinarith
      · rw [hsub]; nlinarith
      · dsimp only; rw [eL]; exact floor_le' _ _ hQ
      · dsimp only; rw [eL]; exact lt_floor' _ _ hQ
      · dsimp only; rw [eU]; exact floor_le' _ _ hQ
      · dsimp only; rw [eU]; exact (lt_floor' _ _ hQ).le
      · dsimp only; rw [eL, eS]; exact Nat.div_le_div_right (Nat.mul_le_mul_right _ (by omega))
      · intro h
        dsimp only
        rw [eL]
        exact floor_eq' hQ (dv2 (hl h).1 (hni (hl h).2))
      · intro h
        obtain ⟨h', h''⟩ := ho h
        refine ⟨h', fun n hn => Or.inr (Or.inl ?_)⟩
        dsimp only
        rw [eU]
        exact floor_lt' hQ (dv3 h'' h)
    by_cases hg : g ≤ 1
    · rw [if_pos hg, if_pos (hg1 hg)]
      exact base true ni (fun h => ⟨hg, h⟩) (fun ho => by
        have := hab.mp (hg1 hg)
        omega)
    · rw [if_neg hg]
      by_cases hg2 : g ≤ 238
      · rw [if_pos hg2]
        exact base _ false (by simp) (fun _ => ⟨rfl, by omega⟩)
      · rw [if_neg hg2]
        exact base false false (by simp) (fun _ => ⟨rfl, by omega⟩)

end Verif
