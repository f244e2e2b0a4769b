import Verif.Proofs.TrigRed

/-!
# The reduction of large arguments
-/

set_option exponentiation.threshold 2000

namespace Verif.Trig

open FP492 Spec BigUInt

theorem shl_byte {A B sh R lo hi b : ℕ} (hB : B = A / 256) (hsh : 0 < sh) (hsh8 : sh < 8)
    (hR : hi * 2 ^ 128 + lo = B % 2 ^ 256 * 2 ^ sh % 2 ^ 256) (hlo : lo < 2 ^ 128)
    (hb : b = A % 256 / 2 ^ (8 - sh)) (hRR : R = hi * 2 ^ 128 + (lo + b) % 2 ^ 128) :
    R = A / 2 ^ (8 - sh) % 2 ^ 256 := by
  have h : sh = 1 ∨ sh = 2 ∨ sh = 3 ∨ sh = 4 ∨ sh = 5 ∨ sh = 6 ∨ sh = 7 := by omega
  rcases h with rfl | rfl | rfl | rfl | rfl | rfl | rfl <;> norm_num at * <;> omega

theorem beWord_nat (idx : ℕ) : (beWord idx).toNat = TWO_OVER_PI / 2 ^ (8 * (32843 - idx)) % 2 ^ 128 := by
  unfold beWord L
  generalize TWO_OVER_PI = T
  rw [BitVec.toNat_ofNat, Nat.shiftRight_eq_div_pow]

theorem beWord_pair {idx : ℕ} (h : idx ≤ 32827) : nat256 (U256.new (beWord idx) (beWord (idx + 16))) =
    TWO_OVER_PI / 2 ^ (8 * (32827 - idx)) % 2 ^ 256 := by
  rw [nat256_new, beWord_nat, beWord_nat]
  generalize TWO_OVER_PI = T
  have e1 : 8 * (32843 - idx) = 8 * (32827 - idx) + 128 := by omega
  have e2 : 8 * (32843 - (idx + 16)) = 8 * (32827 - idx) := by omega
  rw [e1, e2, pow_add, ← Nat.div_div_eq_div_mul]
  generalize T / 2 ^ (8 * (32827 - idx)) = B
  omega

theorem get256_spec {o : ℕ} (h : o ≤ 262616) : ∃ r, get256Bits o = some r ∧
    nat256 r = TWO_OVER_PI / 2 ^ (262616 - o) % 2 ^ 256 := by
  have hp := beWord_pair (idx := o / 8) (by omega)
  unfold get256Bits
  dsimp only
  rw [if_neg (by unfold L; omega)]
  by_cases hs : 0 < o % 8
  · rw [if_pos hs, if_neg (by unfold L; omega)]
    refine ⟨_, rfl, ?_⟩
    have hsh := nat_shl256 (U256.new (beWord (o / 8)) (beWord (o / 8 + 16))) (n := o % 8) (by omega)
    rw [hp] at hsh
    have hl : L - 1 - (o / 8 + 32) = 32826 - o / 8 := by unfold L; omega
    rw [hl]
    obtain ⟨X, hX⟩ : ∃ X, UInt.shl (U256.new (beWord (o / 8)) (beWord (o / 8 + 16))) (o % 8) = X := ⟨_, rfl⟩
    rw [hX] at hsh ⊢
    clear hX hp hl
    generalize TWO_OVER_PI = T at *
    have e1 : 8 * (32827 - o / 8) = 8 * (32826 - o / 8) + 8 := by omega
    have e2 : 262616 - o = 8 * (32826 - o / 8) + (8 - o % 8) := by omega
    rw [e2, pow_add, ← Nat.div_div_eq_div_mul]
    rw [e1, pow_add, ← Nat.div_div_eq_div_mul] at hsh
    rw [Nat.shiftRight_eq_div_pow]
    generalize T / 2 ^ (8 * (32826 - o / 8)) = A at *
    refine shl_byte (B := A / 256) (lo := X.lo.toNat) (hi := X.hi.toNat) rfl hs (by omega) hsh X.lo.isLt rfl ?_
    show X.hi.toNat * 2 ^ 128 + _ = _
    rw [BitVec.toNat_add, BitVec.toNat_setWidth, BitVec.toNat_ushiftRight, BitVec.toNat_ofNat,
      Nat.shiftRight_eq_div_pow]
    congr 1
    have : A % 256 / 2 ^ (8 - o % 8) < 2 ^ 128 := by
      refine (Nat.div_le_self _ _).trans_lt ?_
      omega
    rw [show (2 : ℕ) ^ 8 = 256 by norm_num, Nat.mod_eq_of_lt this]
  · rw [if_neg hs]
    refine ⟨_, rfl, ?_⟩
    rw [hp]
    congr 3
    omega

/-- The three parts of the window -/
theorem window_parts {T : ℕ} {e : ℕ} (h1 : 241 ≤ e) (h2 : e ≤ 262143) :
    (T / 2 ^ (262616 - (e - 238)) % 2 ^ 256 / 2 ^ 18 * 2 ^ 512 + T / 2 ^ (262616 - (e - 238 + 238)) % 2 ^ 256 * 2 ^ 256 +
      T / 2 ^ (262616 - (e - 238 + 494)) % 2 ^ 256) = T / 2 ^ (262360 - e) % 2 ^ 750 := by
  have e1 : 262616 - (e - 238) = 262360 - e + 494 := by omega
  have e2 : 262616 - (e - 238 + 238) = 262360 - e + 256 := by omega
  have e3 : 262616 - (e - 238 + 494) = 262360 - e := by omega
  rw [e1, e2, e3, pow_add, pow_add, ← Nat.div_div_eq_div_mul, ← Nat.div_div_eq_div_mul]
  generalize T / 2 ^ (262360 - e) = A
  omega

/-- The product with the window, computed in three parts -/
theorem product_parts {m h mi lo R l1 h1 l2 h2 l3 h3 tl th : ℕ} (hR : h * 2 ^ 512 + mi * 2 ^ 256 + lo = R)
    (p1 : l1 + h1 * 2 ^ 256 = m * lo) (p2 : l2 + h2 * 2 ^ 256 = m * mi) (p3 : l3 + h3 * 2 ^ 256 = m * h)
    (b1 : l1 < 2 ^ 256) (b2 : l2 < 2 ^ 256) (b4 : h1 < 2 ^ 256) (b5 : h2 < 2 ^ 255)
    (htl : tl = (h1 + l2) % 2 ^ 256)
    (hth : th = ((h2 + (decide (2 ^ 256 ≤ h1 + l2)).toNat) % 2 ^ 256 + l3) % 2 ^ 256) :
    th * 2 ^ 256 + tl = m * R / 2 ^ 256 % 2 ^ 512 := by
  have e : m * R = (l3 + h3 * 2 ^ 256) * 2 ^ 512 + (l2 + h2 * 2 ^ 256) * 2 ^ 256 + (l1 + h1 * 2 ^ 256) := by
    rw [p1, p2, p3, ← hR]; ring
  rw [e]
  clear e p1 p2 p3 hR
  by_cases hc : 2 ^ 256 ≤ h1 + l2
  · rw [decide_eq_true hc, Bool.toNat_true] at hth
    omega
  · rw [decide_eq_false hc, Bool.toNat_false] at hth
    omega

theorem half_consts : sval FP492.ONE_HALF = 2 ^ 491 ∧ sval FP492.ONE = 2 ^ 492 ∧
    UInt.nat FP492.ONE_HALF = 2 ^ 491 := by decide +kernel

theorem split_core {a b c : ℕ} (hb : b < 2 ^ 128) (hc : c < 2 ^ 256) :
    (a % 2 ^ 108 * 2 ^ 128 + b) * 2 ^ 256 + c = ((a * 2 ^ 128 + b) * 2 ^ 256 + c) % 2 ^ 492 ∧
      a / 2 ^ 108 = ((a * 2 ^ 128 + b) * 2 ^ 256 + c) / 2 ^ 492 := by
  constructor <;> omega

/-- The fraction and the integer part of the product -/
theorem split_nat (th tl : U256) :
    UInt.nat (⟨⟨th.hi &&& ((1#128 <<< 108) - 1), th.lo⟩, tl⟩ : FP492) =
      (nat256 th * 2 ^ 256 + nat256 tl) % 2 ^ 492 ∧
    (th.hi >>> 108).toNat = (nat256 th * 2 ^ 256 + nat256 tl) / 2 ^ 492 := by
  have h1 : (th.hi &&& ((1#128 <<< 108) - 1)).toNat = th.hi.toNat % 2 ^ 108 := by
    rw [BitVec.toNat_and, show ((1#128 <<< 108) - 1).toNat = 2 ^ 108 - 1 by decide, Nat.and_two_pow_sub_one_eq_mod]
  have h2 : (th.hi >>> 108).toNat = th.hi.toNat / 2 ^ 108 := by
    rw [BitVec.toNat_ushiftRight, Nat.shiftRight_eq_div_pow]
  have h3 : UInt.nat (⟨⟨th.hi &&& ((1#128 <<< 108) - 1), th.lo⟩, tl⟩ : FP492) =
    ((th.hi &&& ((1#128 <<< 108) - 1)).toNat * 2 ^ 128 + th.lo.toNat) * 2 ^ 256 + nat256 tl := rfl
  have h4 := nat256_lt tl
  have h5 := th.lo.isLt
  rw [h3, h1, h2]
  exact split_core h5 h4

/-- The integer nearest to a fixed point number -/
theorem nearest_part {y : FP492} {k : ℕ} (hy : UInt.nat y < 2 ^ 492) :
    ∃ (Y0 : FP492) (u : ℕ), u ≤ 1 ∧
      (let up := FP492.cmp y FP492.ONE_HALF == .gt || (UInt.beq y FP492.ONE_HALF && decide (k % 2 = 1))
       (if up then FP492.sub y FP492.ONE else y) = Y0 ∧ (if up then k + 1 else k) = k + u) ∧
      sval Y0 = (UInt.nat y : ℤ) - u * 2 ^ 492 ∧ (sval Y0).natAbs ≤ 2 ^ 491 := by
  obtain ⟨c1, c2, c3⟩ := half_consts
  have hs : sval y = UInt.nat y := sval_of_lt (by omega)
  have hn : (sval y).natAbs ≤ 2 ^ 498 := by rw [hs]; omega
  have hd : sval (FP492.sub y FP492.ONE) = (UInt.nat y : ℤ) - 1 * 2 ^ 492 := by
    rw [sval_sub hn (by rw [c2]; decide), hs, c2]; ring
  obtain ⟨up, hup⟩ : ∃ up, (FP492.cmp y FP492.ONE_HALF == .gt || (UInt.beq y FP492.ONE_HALF && decide (k % 2 = 1))) = up :=
    ⟨_, rfl⟩
  dsimp only
  rw [hup]
  cases up with
  | true =>
    refine ⟨_, 1, le_rfl, ⟨if_pos rfl, if_pos rfl⟩, hd, ?_⟩
    have : 2 ^ 491 ≤ UInt.nat y := by
      by_contra hc
      have h1 : FP492.cmp y FP492.ONE_HALF = .lt := cmp_lt (by rw [hs, c1]; omega)
      have h2 : UInt.beq y FP492.ONE_HALF = false := by
        rw [Bool.eq_false_iff]
        intro hb
        rw [UInt.beq_eq, c3] at hb
        have := of_decide_eq_true hb
        omega
      rw [h1, h2] at hup
      exact absurd hup (by simp)
    rw [hd]
    omega
  | false =>
    refine ⟨_, 0, by norm_num, ⟨if_neg (by decide), if_neg (by decide)⟩, by rw [hs]; simp, ?_⟩
    have : UInt.nat y ≤ 2 ^ 491 := by
      by_contra hc
      have h1 : FP492.cmp y FP492.ONE_HALF = .gt := cmp_gt (by rw [hs, c1]; omega)
      rw [h1] at hup
      exact absurd hup (by simp)
    rw [hs]
    omega

/-- The steps of the reduction of large arguments -/
theorem large_eval {x : F256} {m e : ℕ} (h : Arg x m e) (h1 : 241 ≤ e) (h2 : e ≤ 262143) :
    ∃ (Y0 : FP492) (t u : ℕ), t = m * (TWO_OVER_PI / 2 ^ (262360 - e) % 2 ^ 750) / 2 ^ 256 % 2 ^ 512 ∧
      largeValReduce e x = some ((t / 2 ^ 492 + u) % 4, imulRound Y0 FP_FRAC_PI_2) ∧
      sval Y0 = ((t % 2 ^ 492 : ℕ) : ℤ) - u * 2 ^ 492 ∧ (sval Y0).natAbs ≤ 2 ^ 491 := by
  have hm := integralSignificand_eq x
  rw [h.2.2.2.1] at hm
  have hml := h.m_lt
  obtain ⟨r1, g1, n1⟩ := get256_spec (o := e - 238) (by omega)
  obtain ⟨r2, g2, n2⟩ := get256_spec (o := e - 238 + 238) (by omega)
  obtain ⟨r3, g3, n3⟩ := get256_spec (o := e - 238 + 494) (by omega)
  have hw := window_parts (T := TWO_OVER_PI) h1 h2
  rw [← n1, ← n2, ← n3] at hw
  generalize hRR : TWO_OVER_PI / 2 ^ (262360 - e) % 2 ^ 750 = R at *
  clear n1 n2 n3 hRR
  have hsh := nat_shr256 r1 (n := 18) (by norm_num)
  rw [← hsh] at hw
  unfold largeValReduce
  have he : (e : ℤ).toNat = e := Int.toNat_natCast e
  rw [he]
  dsimp only
  rw [g1, g2, g3]
  simp only [Option.bind_eq_bind, Option.bind_some]
  generalize hMM : x.integralSignificand = M at *
  generalize hHH : UInt.shr r1 18 = H at *
  have p1 : nat256 (UInt.wideningMul M r3).1 + nat256 (UInt.wideningMul M r3).2 * 2 ^ 256 = nat256 M * nat256 r3 :=
    UInt.wideningMul_spec M r3
  have p2 : nat256 (UInt.wideningMul M r2).1 + nat256 (UInt.wideningMul M r2).2 * 2 ^ 256 = nat256 M * nat256 r2 :=
    UInt.wideningMul_spec M r2
  have p3 : nat256 (UInt.wideningMul M H).1 + nat256 (UInt.wideningMul M H).2 * 2 ^ 256 = nat256 M * nat256 H :=
    UInt.wideningMul_spec M H
  generalize UInt.wideningMul M r3 = w1 at *
  generalize UInt.wideningMul M r2 = w2 at *
  generalize UInt.wideningMul M H = w3 at *
  have a1 : nat256 (UInt.overflowingAdd w1.2 w2.1).1 = (nat256 w1.2 + nat256 w2.1) % 2 ^ 256 :=
    UInt.nat_overflowingAdd w1.2 w2.1
  have a2 : (UInt.overflowingAdd w1.2 w2.1).2 = decide (2 ^ 256 ≤ nat256 w1.2 + nat256 w2.1) :=
    UInt.overflowingAdd_snd w1.2 w2.1
  generalize UInt.overflowingAdd w1.2 w2.1 = v1 at *
  have a3 := nat_incrIf256 w2.2 v1.2
  generalize BigUInt.incrIf w2.2 v1.2 = v2 at *
  have a4 : nat256 (UInt.overflowingAdd v2 w3.1).1 = (nat256 v2 + nat256 w3.1) % 2 ^ 256 :=
    UInt.nat_overflowingAdd v2 w3.1
  generalize UInt.overflowingAdd v2 w3.1 = v3 at *
  rw [a3, a2] at a4
  rw [hm] at p1 p2 p3
  have hb5 : nat256 w2.2 < 2 ^ 255 := by
    have := nat256_lt r2
    by_contra hc
    have t1 : 2 ^ 255 * 2 ^ 256 ≤ m * nat256 r2 := by
      rw [← p2]
      exact (Nat.mul_le_mul_right _ (not_lt.mp hc)).trans (Nat.le_add_left _ _)
    have t2 : m * nat256 r2 < 2 ^ 237 * 2 ^ 256 := Nat.mul_lt_mul'' hml this
    omega
  have key := product_parts hw p1 p2 p3 (nat256_lt _) (nat256_lt _) (nat256_lt _) hb5 a1 a4
  obtain ⟨s1, s2⟩ := split_nat v3.1 v1.1
  rw [key] at s1 s2
  obtain ⟨t, ht⟩ : ∃ t, m * R / 2 ^ 256 % 2 ^ 512 = t := ⟨_, rfl⟩
  rw [ht] at s1 s2 ⊢
  generalize (⟨⟨v3.1.hi &&& ((1#128 <<< 108) - 1), v3.1.lo⟩, v1.1⟩ : FP492) = y at *
  obtain ⟨Y0, u, u1, ⟨u2, u3⟩, u4, u5⟩ := nearest_part (y := y) (k := (v3.1.hi >>> 108).toNat) (by rw [s1]; omega)
  refine ⟨Y0, t, u, rfl, ?_, by rw [u4, s1], u5⟩
  rw [u2, u3, s2]
  rfl

theorem window_large {e : ℕ} (h2 : e ≤ 262143) :
    ((TWO_OVER_PI / 2 ^ (262360 - e) : ℕ) : ℝ) ≤ 2 ^ (e + 512) * (2 / Real.pi) ∧
      2 ^ (e + 512) * (2 / Real.pi) < ((TWO_OVER_PI / 2 ^ (262360 - e) : ℕ) : ℝ) + 1 := by
  obtain ⟨N, hN, w1, w2⟩ := TrigCert.table_two_over_pi
  have hN' : N = (262360 - e) + (e + 512) := by
    rw [← Nat.add_assoc, Nat.sub_add_cancel (h2.trans (by norm_num)), hN]
  clear hN
  rw [← Nat.shiftRight_eq_div_pow]
  generalize TWO_OVER_PI = T at *
  generalize 262360 - e = lo at *
  exact TrigCert.window_core hN' w1 w2

/-- The integer part of the product, in natural numbers -/
theorem product_split (m S : ℕ) : ∃ J r : ℕ, r < 2 ^ 256 ∧
    m * S = 2 ^ 748 * (4 * J) + 2 ^ 256 * (m * (S % 2 ^ 750) / 2 ^ 256 % 2 ^ 512) + r := by
  refine ⟨m * (S / 2 ^ 750) + 2 ^ 18 * (m * (S % 2 ^ 750) / 2 ^ 256 / 2 ^ 512), m * (S % 2 ^ 750) % 2 ^ 256,
    Nat.mod_lt _ (by norm_num), ?_⟩
  have e1 : m * S = m * (S / 2 ^ 750) * 2 ^ 750 + m * (S % 2 ^ 750) := by
    nth_rewrite 1 [← Nat.div_add_mod S (2 ^ 750)]
    ring
  rw [e1]
  generalize m * (S / 2 ^ 750) = a
  generalize m * (S % 2 ^ 750) = P
  have e2 := Nat.div_add_mod P (2 ^ 256)
  have e3 := Nat.div_add_mod (P / 2 ^ 256) (2 ^ 512)
  generalize P / 2 ^ 256 / 2 ^ 512 = j at *
  generalize P / 2 ^ 256 % 2 ^ 512 = t at *
  rw [← e3] at e2
  generalize P % 2 ^ 256 = r at *
  rw [← e2]
  ring

/-- The argument in quarters of the circle -/
theorem large_quarters {m e : ℕ} (h2 : e ≤ 262143) (hm : m < 2 ^ 237) :
    ∃ (J : ℕ) (d : ℝ), 0 ≤ d ∧ d ≤ 1 + 1 / 2 ^ 19 ∧
      (m : ℝ) / 2 ^ 236 * 2 ^ e * (2 / Real.pi) * 2 ^ 492 =
        4 * J * 2 ^ 492 + ((m * (TWO_OVER_PI / 2 ^ (262360 - e) % 2 ^ 750) / 2 ^ 256 % 2 ^ 512 : ℕ) : ℝ) + d := by
  obtain ⟨w1, w2⟩ := window_large h2
  generalize TWO_OVER_PI / 2 ^ (262360 - e) = S at *
  obtain ⟨J, r, hr, hS⟩ := product_split m S
  generalize m * (S % 2 ^ 750) / 2 ^ 256 % 2 ^ 512 = t at *
  rw [pow_add] at w1 w2
  refine ⟨J, (m : ℝ) / 2 ^ 236 * 2 ^ e * (2 / Real.pi) * 2 ^ 492 - (4 * J * 2 ^ 492 + t), ?_, ?_, by ring⟩
  all_goals
    have hS' : (m : ℝ) * S = 2 ^ 748 * (4 * J) + 2 ^ 256 * t + r := by exact_mod_cast hS
    have hr' : (r : ℝ) < 2 ^ 256 := by exact_mod_cast hr
    have hr0 : (0 : ℝ) ≤ r := by positivity
    have hm' : (m : ℝ) < 2 ^ 237 := by exact_mod_cast hm
    have hm0 : (0 : ℝ) ≤ m := by positivity
    have e1 : (2 : ℝ) ^ 512 = 2 ^ 236 * 2 ^ 276 := by rw [← pow_add]
    have e2 : (2 : ℝ) ^ 748 = 2 ^ 492 * 2 ^ 256 := by rw [← pow_add]
    have e3 : (2 : ℝ) ^ 492 * 2 ^ 256 = 2 ^ 236 * 2 ^ 512 := by rw [← pow_add, ← pow_add]
    have e4 : ((m : ℝ) / 2 ^ 236 * 2 ^ e * (2 / Real.pi) * 2 ^ 492) * 2 ^ 256 = m * (2 ^ e * 2 ^ 512 * (2 / Real.pi)) := by
      rw [mul_assoc _ ((2 : ℝ) ^ 492), e3]
      have : (2 : ℝ) ^ 236 ≠ 0 := by positivity
      generalize (2 : ℝ) ^ 236 = a at *
      generalize (2 : ℝ) ^ 512 = b at *
      generalize (2 : ℝ) ^ e = c at *
      generalize 2 / Real.pi = d at *
      field_simp
    have u1 := mul_le_mul_of_nonneg_left w1 hm0
    have u2 := mul_le_mul_of_nonneg_left w2.le hm0
    rw [← e4] at u1 u2
    clear e4 w1 w2 e1 e3 hS hr hm
    rw [e2] at hS'
    generalize (m : ℝ) / 2 ^ 236 * 2 ^ e * (2 / Real.pi) * 2 ^ 492 = Z at *
  · have : 0 ≤ (Z - (4 * J * 2 ^ 492 + t)) * 2 ^ 256 := by
      rw [sub_mul]
      linarith
    exact nonneg_of_mul_nonneg_left this (by positivity)
  · refine le_of_mul_le_mul_right (a := (2 : ℝ) ^ 256) ?_ (by positivity)
    have e5 : (1 + 1 / 2 ^ 19) * (2 : ℝ) ^ 256 = 2 ^ 256 + 2 ^ 237 := by norm_num
    rw [e5, sub_mul]
    linarith

theorem large_error {Y Y0 P d y pi : ℝ} (hpi1 : 3.14 < pi) (hpi2 : pi < 3.1416) (h1 : |Y - Y0 * P / 2 ^ 492| ≤ 1)
    (h2 : |P - 2 * (pi / 4) * 2 ^ 492| ≤ 1) (d0 : 0 ≤ d) (d1 : d ≤ 1 + 1 / 2 ^ 19)
    (hy : y * 2 ^ 492 = (Y0 + d) * (pi / 2)) : |Y - y * 2 ^ 492| ≤ 3 + |Y| / 2 ^ 245 := by
  have hW : (0 : ℝ) < 2 ^ 492 := by positivity
  rw [hy]
  have e : Y - (Y0 + d) * (pi / 2) = (Y - Y0 * P / 2 ^ 492) + Y0 * ((P - 2 * (pi / 4) * 2 ^ 492) / 2 ^ 492) - d * (pi / 2) := by
    field_simp
    ring
  have b1 : |Y0 * ((P - 2 * (pi / 4) * 2 ^ 492) / 2 ^ 492)| ≤ |Y0| / 2 ^ 492 := by
    rw [abs_mul, abs_div, abs_of_pos hW, div_eq_mul_one_div |Y0|]
    refine mul_le_mul_of_nonneg_left ?_ (abs_nonneg _)
    gcongr
  have b2 : |Y0| ≤ |Y| + 1 := by
    have c1 : 2 ^ 492 ≤ P := by
      rw [abs_le] at h2
      have : (1 : ℝ) ≤ 1 / 2 * 2 ^ 492 := by norm_num
      have : 3.14 / 2 * (2 : ℝ) ^ 492 ≤ 2 * (pi / 4) * 2 ^ 492 := mul_le_mul_of_nonneg_right (by linarith) hW.le
      linarith
    have c2 : |Y0| ≤ |Y0 * P / 2 ^ 492| := by
      rw [abs_div, abs_mul, abs_of_pos hW, le_div_iff₀ hW, abs_of_pos (lt_of_lt_of_le hW c1)]
      exact mul_le_mul_of_nonneg_left c1 (abs_nonneg _)
    have c3 := abs_sub_abs_le_abs_sub (Y0 * P / 2 ^ 492) Y
    rw [abs_sub_comm] at c3
    linarith
  have b3 : |Y0| / 2 ^ 492 ≤ |Y| / 2 ^ 245 + 1 / 1000 := by
    have : |Y0| / 2 ^ 492 ≤ (|Y| + 1) / 2 ^ 492 := by gcongr
    refine this.trans ?_
    rw [add_div]
    have f1 : |Y| / (2 : ℝ) ^ 492 ≤ |Y| / 2 ^ 245 := by gcongr <;> norm_num
    have f2 : (1 : ℝ) / 2 ^ 492 ≤ 1 / 1000 := by norm_num
    linarith
  have b4 : |d * (pi / 2)| ≤ 1.6 := by
    rw [abs_of_nonneg (by positivity)]
    have : d * (pi / 2) ≤ (1 + 1 / 2 ^ 19) * (3.1416 / 2) := mul_le_mul d1 (by linarith) (by linarith) (by norm_num)
    refine this.trans (by norm_num)
  rw [e]
  have g1 := abs_sub (a := (Y - Y0 * P / 2 ^ 492) + Y0 * ((P - 2 * (pi / 4) * 2 ^ 492) / 2 ^ 492)) (b := d * (pi / 2))
  have g2 := abs_add_le (Y - Y0 * P / 2 ^ 492) (Y0 * ((P - 2 * (pi / 4) * 2 ^ 492) / 2 ^ 492))
  linarith

theorem fpReduce_large {x : F256} {m e : ℕ} (h : Arg x m e) (h1 : 241 ≤ e) :
    ∃ q Y, fpReduce e x = some (q, Y) ∧ Reduced (val x.pat) q Y := by
  have h2 : e ≤ 262143 := by have := h.E_range; omega
  obtain ⟨Y0, t, u, ht, hr, hY0, hb⟩ := large_eval h h1 h2
  obtain ⟨J, d, d0, d1, hZ⟩ := large_quarters h2 h.m_lt
  rw [← ht] at hZ
  have hv : val x.pat = (m : ℝ) / 2 ^ 236 * 2 ^ e := by
    rw [h.val_eq, zpow_sub₀ (by norm_num), zpow_natCast]
    have e3 : ((2 : ℝ) ^ (236 : ℤ)) = 2 ^ 236 := rfl
    rw [e3, mul_div_assoc', div_mul_eq_mul_div]
  rw [← hv] at hZ
  have hfar := far h (by omega) (4 * J + (t / 2 ^ 492 : ℕ) + u)
  refine ⟨_, imulRound Y0 FP_FRAC_PI_2, ?_, reduced_of' (4 * J + (t / 2 ^ 492 : ℕ) + u) (q := (t / 2 ^ 492 + u) % 4)
    (by omega) ?_ ?_ hfar⟩
  · unfold fpReduce
    rw [if_neg (by omega), if_neg (by omega), if_neg (by omega), if_neg (by omega), if_neg (by omega)]
    exact hr
  all_goals
    clear hfar hr ht
    have hp1 := Real.pi_gt_d2
    have hp2 := Real.pi_lt_d4
    have hy : (val x.pat - ((4 * J + (t / 2 ^ 492 : ℕ) + u : ℤ) : ℝ) * (Real.pi / 2)) * 2 ^ 492 =
        ((sval Y0 : ℝ) + d) * (Real.pi / 2) := by
      have e1 : (t : ℝ) = 2 ^ 492 * ((t / 2 ^ 492 : ℕ) : ℝ) + ((t % 2 ^ 492 : ℕ) : ℝ) := by
        have := Nat.div_add_mod t (2 ^ 492)
        exact_mod_cast this.symm
      have e2 : (sval Y0 : ℝ) = ((t % 2 ^ 492 : ℕ) : ℝ) - u * 2 ^ 492 := by
        rw [hY0]
        rw [Int.cast_sub, Int.cast_mul, Int.cast_natCast, Int.cast_natCast, Int.cast_pow, Int.cast_ofNat]
      rw [Int.cast_add, Int.cast_add, Int.cast_mul, Int.cast_natCast, Int.cast_natCast, Int.cast_natCast, Int.cast_ofNat]
      generalize ((t / 2 ^ 492 : ℕ) : ℝ) = a at *
      generalize ((t % 2 ^ 492 : ℕ) : ℝ) = b at *
      have hx : val x.pat * 2 ^ 492 = (4 * J * 2 ^ 492 + t + d) * (Real.pi / 2) := by
        rw [← hZ]
        have := Real.pi_pos.ne'
        generalize (2 : ℝ) ^ 492 = W at *
        generalize val x.pat = v at *
        field_simp
      rw [sub_mul, hx, e1, e2]
      ring
  · have hm : (sval Y0).natAbs * (sval FP_FRAC_PI_2).natAbs < 2 ^ 1002 + 2 ^ 1001 :=
      (Nat.mul_le_mul hb consts_small.1).trans_lt (by norm_num)
    exact large_error hp1 hp2 (Ln.imulRound_real hm).1 consts_spec.2.1 d0 d1 hy
  · have hb' : |(sval Y0 : ℝ)| ≤ 2 ^ 491 := by
      have : |sval Y0| ≤ (2 : ℤ) ^ 491 := by rw [Int.abs_eq_natAbs]; exact_mod_cast hb
      exact_mod_cast this
    refine le_of_mul_le_mul_right (a := (2 : ℝ) ^ 492) ?_ (by positivity)
    rw [← abs_of_pos (by positivity : (0 : ℝ) < 2 ^ 492), ← abs_mul, abs_of_pos (by positivity : (0 : ℝ) < 2 ^ 492), hy,
      abs_mul, abs_of_pos (by positivity : 0 < Real.pi / 2)]
    have g1 : |(sval Y0 : ℝ) + d| ≤ 2 ^ 491 + 2 := by
      have := abs_add_le (sval Y0 : ℝ) d
      rw [abs_of_nonneg d0] at this
      have : (1 : ℝ) + 1 / 2 ^ 19 ≤ 2 := by norm_num
      linarith
    calc |(sval Y0 : ℝ) + d| * (Real.pi / 2) ≤ (2 ^ 491 + 2) * (3.1416 / 2) :=
          mul_le_mul g1 (by linarith) (by positivity) (by positivity)
      _ ≤ _ := by norm_num

end Verif.Trig
