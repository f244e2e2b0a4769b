import Verif.Model.ToFixed
import Verif.Proofs.ToStrMul
import Verif.Proofs.BigFloat
import Verif.Proofs.ToStrText

/-!
# Proofs about formatting with a precision, part 1: the digits of a fraction
-/

namespace Verif

open BigUInt LawfulBigUInt Spec

theorem mulShiftMod_spec (x : U256) (y : U512) {k : ℕ} (hk : 256 ≤ k) (hk' : k < 768) :
    mulShiftMod x y k = some (nat256 x * UInt.nat y / 2 ^ k % 10 ^ 19) := by
  unfold mulShiftMod
  dsimp only
  have a := wideningMul256 x y.hi
  have b := wideningMul256 x y.lo
  have hy : UInt.nat y = nat256 y.hi * 2 ^ 256 + nat256 y.lo := BigFloat.nat512 y
  have hyl := nat512_lt y
  have hx := nat256_lt x
  generalize UInt.wideningMul x y.hi = p at *
  generalize UInt.wideningMul x y.lo = q at *
  have c1 : nat256 (UInt.overflowingAdd p.1 q.2).1 = (nat256 p.1 + nat256 q.2) % 2 ^ 256 := UInt.nat_overflowingAdd p.1 q.2
  have c2 : (UInt.overflowingAdd p.1 q.2).2 = decide (2 ^ 256 ≤ nat256 p.1 + nat256 q.2) := UInt.overflowingAdd_snd p.1 q.2
  have p1 := nat256_lt p.1
  have p2 := nat256_lt p.2
  have q1 := nat256_lt q.1
  have q2 := nat256_lt q.2
  have hmul : nat256 x * UInt.nat y = (nat256 p.1 + nat256 p.2 * 2 ^ 256 + nat256 q.2) * 2 ^ 256 + nat256 q.1 := by
    rw [hy, Nat.mul_add, ← Nat.mul_assoc, ← a, ← b]
    ring
  have hlt : nat256 x * UInt.nat y < 2 ^ 256 * 2 ^ 512 := Nat.mul_lt_mul'' hx hyl
  have hp2 : nat256 p.1 + nat256 p.2 * 2 ^ 256 + nat256 q.2 < 2 ^ 512 := by
    rw [hmul] at hlt
    generalize nat256 p.1 + nat256 p.2 * 2 ^ 256 + nat256 q.2 = w at *
    omega
  have hres : ∀ r : U512, r = ⟨if (UInt.overflowingAdd p.1 q.2).2 = true then UInt.incr p.2 else p.2, (UInt.overflowingAdd p.1 q.2).1⟩ →
      UInt.nat r = nat256 x * UInt.nat y / 2 ^ 256 := by
    rintro r rfl
    rw [BigFloat.nat512, c1, hmul, show (nat256 p.1 + nat256 p.2 * 2 ^ 256 + nat256 q.2) * 2 ^ 256 + nat256 q.1 =
      2 ^ 256 * (nat256 p.1 + nat256 p.2 * 2 ^ 256 + nat256 q.2) + nat256 q.1 by ring,
      Nat.mul_add_div (by norm_num), Nat.div_eq_of_lt q1, Nat.add_zero]
    by_cases hc : 2 ^ 256 ≤ nat256 p.1 + nat256 q.2
    · rw [c2, decide_eq_true hc, if_pos rfl, nat_incr256]
      omega
    · rw [c2, decide_eq_false hc, if_neg (by simp)]
      dsimp only
      omega
  have hd : (BitVec.ofNat 128 (10 ^ CHUNK_SIZE)).toNat = 10 ^ 19 := by
    rw [BitVec.toNat_ofNat, CHUNK_SIZE, Nat.mod_eq_of_lt (by norm_num)]
  obtain ⟨Q, R, h1, -, h2⟩ := divRemU128_512 (UInt.shr ⟨if (UInt.overflowingAdd p.1 q.2).2 = true then UInt.incr p.2 else p.2,
    (UInt.overflowingAdd p.1 q.2).1⟩ (k - 256)) (BitVec.ofNat 128 (10 ^ CHUNK_SIZE)) (by rw [hd]; norm_num)
  rw [h1, Option.bind_eq_bind, Option.bind_some]
  rw [hd, BigFloat.nat_shr512 _ (by omega), hres _ rfl, Nat.div_div_eq_div_mul, ← pow_add, show 256 + (k - 256) = k by omega] at h2
  rw [← h2]
  rfl

/-- Reducing the table entry does not matter. -/
theorem mod_table (m T : ℕ) {k : ℕ} (hk : k ≤ 304) :
    m * (T % (10 ^ 19 * 2 ^ 304)) / 2 ^ k % 10 ^ 19 = m * T / 2 ^ k % 10 ^ 19 := by
  obtain ⟨d, hd⟩ : ∃ d, 304 = k + d := ⟨304 - k, by omega⟩
  have h := Nat.mod_add_div T (10 ^ 19 * 2 ^ 304)
  generalize T % (10 ^ 19 * 2 ^ 304) = r at *
  generalize T / (10 ^ 19 * 2 ^ 304) = q at *
  rw [← h, hd, pow_add, show m * (r + 10 ^ 19 * (2 ^ k * 2 ^ d) * q) = m * r + 2 ^ k * (10 ^ 19 * (m * 2 ^ d * q)) by ring,
    Nat.add_mul_div_left _ _ (Nat.two_pow_pos k), Nat.add_mul_mod_self_left]

/-- The chunk computed with the truncated table entry -/
theorem trunc_table {m P a b n k : ℕ} (hm : m < 2 ^ 237) (hk : 273 ≤ k) (hab : a = 0 ∨ b = 0) (hs : k + b = n + a)
    (h : 2 ^ b ∣ P ∨ (2 ^ n ≤ m * P → 2 ^ (n - 36) ≤ m * P % 2 ^ n)) :
    m * (P * 2 ^ a / 2 ^ b) / 2 ^ k = m * P / 2 ^ n := by
  rcases hab with rfl | rfl
  · rw [pow_zero, Nat.mul_one]
    have hn : n = b + k := by omega
    have hb := Nat.two_pow_pos b
    have hkp := Nat.two_pow_pos k
    have hdm := Nat.div_add_mod P (2 ^ b)
    have hmod := Nat.mod_lt P hb
    have key : m * (P / 2 ^ b) / 2 ^ k = (m * P - m * (P % 2 ^ b)) / 2 ^ n := by
      have e : m * P - m * (P % 2 ^ b) = 2 ^ b * (m * (P / 2 ^ b)) := by
        rw [← Nat.mul_sub, show P - P % 2 ^ b = 2 ^ b * (P / 2 ^ b) by omega]
        ring
      rw [e, hn, pow_add, Nat.mul_div_mul_left _ _ hb]
    rw [key]
    rcases h with h | h
    · rw [Nat.mod_eq_zero_of_dvd h, Nat.mul_zero, Nat.sub_zero]
    · rcases Nat.lt_or_ge (m * P) (2 ^ n) with hlt | hge
      · rw [Nat.div_eq_of_lt hlt, Nat.div_eq_of_lt (by omega)]
      · have hc := h hge
        have hle : m * (P % 2 ^ b) ≤ 2 ^ (n - 36) := by
          calc m * (P % 2 ^ b) ≤ 2 ^ 237 * 2 ^ b := Nat.mul_le_mul hm.le hmod.le
            _ = 2 ^ (237 + b) := (pow_add _ _ _).symm
            _ ≤ 2 ^ (n - 36) := Nat.pow_le_pow_right (by norm_num) (by omega)
        have hnp := Nat.two_pow_pos n
        have hdm2 := Nat.div_add_mod (m * P) (2 ^ n)
        have hmod2 := Nat.mod_lt (m * P) hnp
        generalize m * P = A at *
        generalize m * (P % 2 ^ b) = B at *
        have e : A - B = 2 ^ n * (A / 2 ^ n) + (A % 2 ^ n - B) := by omega
        rw [e, Nat.mul_add_div hnp, Nat.div_eq_of_lt (lt_of_le_of_lt (Nat.sub_le _ _) hmod2), Nat.add_zero]
  · rw [pow_zero, Nat.div_one, show k = n + a by omega, pow_add, ← Nat.mul_assoc, Nat.mul_div_mul_right _ _ (Nat.two_pow_pos a)]

/-- The digits of `m / 2^n` after the point are known well enough for the table, up to chunk `c`. -/
def Clear (m n C : ℕ) : Prop :=
  n < 320 ∨ ∀ c, c ≤ C → 2 ^ n ≤ m * 10 ^ (19 * c) → 2 ^ (n - 36) ≤ m * 10 ^ (19 * c) % 2 ^ n

set_option exponentiation.threshold 2000 in
theorem fixedTable_lt : 10 ^ CHUNK_SIZE * 2 ^ TABLE_BITS ≤ 2 ^ 512 := by
  unfold CHUNK_SIZE TABLE_BITS
  norm_num

/-- A chunk: the digits from `19 * (c - 1)` to `19 * c` -/
theorem chunk_spec {x : U256} {n C chunk : ℕ} (hx : nat256 x < 2 ^ 237) (hn : 237 ≤ n) (hC : Clear (nat256 x) n C)
    (hc : segmentZeroChunks (n / 32 - 7) + chunk + 1 ≤ C) :
    mulShiftMod x (pow10DivPow2 (n / 32 - 7) chunk) (segmentShift (n / 32 - 7) - (-(n : ℤ))).toNat =
      some (nat256 x * 10 ^ (19 * (segmentZeroChunks (n / 32 - 7) + chunk + 1)) / 2 ^ n % 10 ^ 19) := by
  have hsh : segmentShift (n / 32 - 7) = 273 - 32 * ((n / 32 : ℕ) : ℤ) := by
    unfold segmentShift segmentLower TABLE_BITS
    omega
  have hk : (segmentShift (n / 32 - 7) - (-(n : ℤ))).toNat = 273 + n % 32 := by rw [hsh]; omega
  rw [hk, mulShiftMod_spec _ _ (by omega) (by omega), pow10DivPow2]
  rw [nat_u512OfNat (lt_of_lt_of_le (Nat.mod_lt _ (by unfold CHUNK_SIZE; positivity)) fixedTable_lt)]
  rw [CHUNK_SIZE, TABLE_BITS, mod_table _ _ (by omega), Nat.mul_comm _ 19]
  suffices e : nat256 x * (10 ^ (19 * (segmentZeroChunks (n / 32 - 7) + chunk + 1)) * 2 ^ (segmentShift (n / 32 - 7)).toNat /
      2 ^ (-segmentShift (n / 32 - 7)).toNat) / 2 ^ (273 + n % 32) =
      nat256 x * 10 ^ (19 * (segmentZeroChunks (n / 32 - 7) + chunk + 1)) / 2 ^ n by rw [e]
  apply trunc_table hx (by omega) (by omega) (by rw [hsh]; omega)
  rcases hC with h | h
  · left
    rw [show (10 : ℕ) = 2 * 5 by norm_num, mul_pow]
    exact Dvd.dvd.mul_right (pow_dvd_pow 2 (by rw [hsh]; omega)) _
  · exact Or.inr (h _ hc)

/-- A text of digits of a given length -/
structure FixedText (s : List (BitVec 8)) (w n : ℕ) : Prop where
  digit : ∀ c ∈ s, IsDigit c.toNat
  len : s.length = w
  val : decVal (digs s) = n

theorem FixedText.append {s t : List (BitVec 8)} {v w a b : ℕ} (h : FixedText s v a) (g : FixedText t w b) :
    FixedText (s ++ t) (v + w) (a * 10 ^ w + b) := by
  refine ⟨?_, by rw [List.length_append, h.len, g.len], ?_⟩
  · intro c hc
    rcases List.mem_append.mp hc with hc | hc
    · exact h.digit c hc
    · exact g.digit c hc
  · rw [digs_append, decVal_append, h.val, g.val, digs_length, g.len]

theorem fixedText_nil : FixedText [] 0 0 := ⟨by simp, rfl, rfl⟩

theorem fixedText_zeroes (w : ℕ) : FixedText (List.replicate w 48#8) w 0 :=
  ⟨zero_digits w, List.length_replicate, by rw [digs_zeroes, decVal_replicate]⟩

theorem fixedText_pad {w n : ℕ} (h : n < 10 ^ w) : FixedText (if w > 0 then natTextPad w n else []) w n := by
  by_cases hw : 0 < w
  · rw [if_pos hw]
    obtain ⟨a, b⟩ := natTextPad_spec hw h
    exact ⟨a.digit, b, a.val⟩
  · rw [if_neg hw]
    obtain rfl : w = 0 := by omega
    obtain rfl : n = 0 := by rw [pow_zero] at h; omega
    exact fixedText_nil

/-- Cutting digits -/
theorem cut_digits (m n a b : ℕ) : m * 10 ^ (a + b) / 2 ^ n / 10 ^ b = m * 10 ^ a / 2 ^ n := by
  rw [Nat.div_div_eq_div_mul, pow_add, ← Nat.mul_assoc, Nat.mul_div_mul_right _ _ (by positivity)]

theorem fractChunks_spec {x : U256} {n C : ℕ} (hx : nat256 x < 2 ^ 237) (hn : 237 ≤ n) (hC : Clear (nat256 x) n C) :
    ∀ (j chunk : ℕ) (pre : List (BitVec 8)), segmentZeroChunks (n / 32 - 7) + chunk + j ≤ C →
    FixedText pre (19 * (segmentZeroChunks (n / 32 - 7) + chunk)) (nat256 x * 10 ^ (19 * (segmentZeroChunks (n / 32 - 7) + chunk)) / 2 ^ n) →
    ∃ s, fractChunks x (n / 32 - 7) (segmentShift (n / 32 - 7) - (-(n : ℤ))).toNat j chunk = some s ∧
      FixedText (pre ++ s) (19 * (segmentZeroChunks (n / 32 - 7) + chunk + j))
        (nat256 x * 10 ^ (19 * (segmentZeroChunks (n / 32 - 7) + chunk + j)) / 2 ^ n) := by
  intro j
  induction j with
  | zero => intro chunk pre _ h; exact ⟨[], rfl, by simpa using h⟩
  | succ j ih =>
    intro chunk pre hc h
    have e := chunk_spec (chunk := chunk) hx hn hC (by omega)
    generalize hz : segmentZeroChunks (n / 32 - 7) = z at *
    have hlt : nat256 x * 10 ^ (19 * (z + chunk + 1)) / 2 ^ n % 10 ^ 19 < 10 ^ 19 := Nat.mod_lt _ (by norm_num)
    have g := h.append (fixedText_pad hlt)
    rw [if_pos (by norm_num)] at g
    have hval : nat256 x * 10 ^ (19 * (z + chunk)) / 2 ^ n * 10 ^ 19 + nat256 x * 10 ^ (19 * (z + chunk + 1)) / 2 ^ n % 10 ^ 19 =
        nat256 x * 10 ^ (19 * (z + chunk + 1)) / 2 ^ n := by
      have := cut_digits (nat256 x) n (19 * (z + chunk)) 19
      rw [show 19 * (z + chunk) + 19 = 19 * (z + chunk + 1) by ring] at this
      rw [← this, Nat.mul_comm]
      exact Nat.div_add_mod _ _
    rw [hval, show 19 * (z + chunk) + 19 = 19 * (z + (chunk + 1)) by ring, show z + chunk + 1 = z + (chunk + 1) by ring] at g
    obtain ⟨s, g1, g2⟩ := ih (chunk + 1) _ (by omega) g
    refine ⟨_ ++ s, ?_, by rw [← List.append_assoc, show z + chunk + (j + 1) = z + (chunk + 1) + j by ring]; exact g2⟩
    rw [fractChunks, e, Option.bind_eq_bind, Option.bind_some, g1]
    rfl

/-- The chunks of zeroes -/
theorem zeroChunks_le {n j : ℕ} (hj : j ≤ 4) (h : j ≤ segmentZeroChunks (n / 32 - 7)) (hn : 237 ≤ n) :
    2 ^ 237 * 10 ^ (19 * j) ≤ 2 ^ n := by
  unfold segmentZeroChunks CHUNK_SIZE at h
  have key : ∀ a : ℕ, (j ≠ 0 → a + 237 ≤ n) → 10 ^ (19 * j) ≤ 2 ^ a → 2 ^ 237 * 10 ^ (19 * j) ≤ 2 ^ n := by
    intro a ha hle
    rcases Nat.eq_zero_or_pos j with rfl | h0
    · rw [Nat.mul_zero, pow_zero, Nat.mul_one]
      exact Nat.pow_le_pow_right (by norm_num) hn
    · calc 2 ^ 237 * 10 ^ (19 * j) ≤ 2 ^ 237 * 2 ^ a := Nat.mul_le_mul_left _ hle
        _ = 2 ^ (237 + a) := (pow_add _ _ _).symm
        _ ≤ 2 ^ n := Nat.pow_le_pow_right (by norm_num) (by have := ha (by omega); omega)
  interval_cases j
  · exact key 0 (by omega) (by norm_num)
  · exact key 64 (by omega) (by norm_num)
  · exact key 127 (by omega) (by norm_num)
  · exact key 190 (by omega) (by norm_num)
  · exact key 253 (by omega) (by norm_num)

/-- How the rest `R` of a division by `D` is to be rounded -/
def RoundingOf (r : Rounding) (R D : ℕ) : Prop :=
  (r = .up ↔ D < 2 * R) ∧ (r = .toEven ↔ 2 * R = D)

/-- The last chunk decides about the rounding. -/
theorem rounding_spec {m n p w tz : ℕ} (hw : 0 < w) (h0 : 0 < m) (htz : ∃ o, m = o * 2 ^ tz ∧ o % 2 = 1) :
    RoundingOf (if m * 10 ^ (p + w) / 2 ^ n % 10 ^ w > 10 ^ w / 2 then Rounding.up
      else if m * 10 ^ (p + w) / 2 ^ n % 10 ^ w = 10 ^ w / 2 then
        if (tz : ℤ) ≥ (n : ℤ) - p - 1 then Rounding.toEven else Rounding.up
      else Rounding.down) (m * 10 ^ p % 2 ^ n) (2 ^ n) := by
  have hD := Nat.two_pow_pos n
  have hE : 0 < 10 ^ w := by positivity
  have h2 : 2 ∣ 10 ^ w := dvd_pow (by norm_num) (by omega)
  -- the chunk is the quotient of the rest
  have e1 : m * 10 ^ (p + w) / 2 ^ n % 10 ^ w = m * 10 ^ p % 2 ^ n * 10 ^ w / 2 ^ n := by
    have hdm := Nat.div_add_mod (m * 10 ^ p) (2 ^ n)
    have hlt := Nat.mod_lt (m * 10 ^ p) hD
    generalize m * 10 ^ p / 2 ^ n = Q at *
    generalize m * 10 ^ p % 2 ^ n = R at *
    rw [pow_add, ← Nat.mul_assoc, ← hdm, Nat.add_mul, Nat.mul_assoc, Nat.mul_add_div hD, Nat.mul_comm Q, Nat.mul_add_mod]
    apply Nat.mod_eq_of_lt
    rw [Nat.div_lt_iff_lt_mul hD, Nat.mul_comm]
    exact Nat.mul_lt_mul_of_pos_left hlt hE
  -- being a tie
  have e2 : (tz : ℤ) ≥ (n : ℤ) - p - 1 ↔ 2 ^ n ∣ m * 10 ^ (p + 1) := by
    obtain ⟨o, rfl, ho⟩ := htz
    rw [show (10 : ℕ) = 2 * 5 by norm_num, mul_pow, show o * 2 ^ tz * (2 ^ (p + 1) * 5 ^ (p + 1)) =
      2 ^ (tz + (p + 1)) * (o * 5 ^ (p + 1)) by rw [pow_add 2 tz]; ring]
    constructor
    · intro h
      exact Dvd.dvd.mul_right (pow_dvd_pow 2 (by omega)) _
    · intro h
      have hco : Nat.Coprime (2 ^ n) (o * 5 ^ (p + 1)) := by
        refine Nat.Coprime.mul_right ?_ ?_
        · refine Nat.Coprime.pow_left _ ?_
          rw [Nat.Coprime, Nat.gcd_rec, ho]; rfl
        · exact Nat.Coprime.pow _ _ (by decide)
      have := hco.dvd_of_dvd_mul_right h
      have := (Nat.pow_dvd_pow_iff_le_right (by norm_num)).mp this
      omega
  have e3 : 2 * (m * 10 ^ p % 2 ^ n) = 2 ^ n → 2 ^ n ∣ m * 10 ^ (p + 1) := by
    intro h
    have hdm := Nat.div_add_mod (m * 10 ^ p) (2 ^ n)
    generalize m * 10 ^ p / 2 ^ n = Q at *
    generalize m * 10 ^ p % 2 ^ n = R at *
    rw [pow_succ, ← Nat.mul_assoc, ← hdm]
    exact ⟨10 * Q + 5, by rw [← h]; ring⟩
  have hlt := Nat.mod_lt (m * 10 ^ p) hD
  have e4 : 2 ^ n ∣ m * 10 ^ (p + 1) → 2 ^ n ∣ m * 10 ^ p % 2 ^ n * 10 ^ w := by
    intro h
    have h3 : 2 ^ n ∣ m * 10 ^ p * 10 ^ w := by
      obtain ⟨v, rfl⟩ : ∃ v, w = v + 1 := ⟨w - 1, by omega⟩
      rw [show m * 10 ^ p * 10 ^ (v + 1) = m * 10 ^ (p + 1) * 10 ^ v by rw [pow_succ 10 v, pow_succ 10 p]; ring]
      exact Dvd.dvd.mul_right h _
    rw [← Nat.div_add_mod (m * 10 ^ p) (2 ^ n), Nat.add_mul, Nat.mul_assoc] at h3
    exact (Nat.dvd_add_right (Dvd.intro _ rfl)).mp h3
  rw [e1]
  obtain ⟨H, hH⟩ := h2
  rw [hH] at e4 ⊢
  rw [Nat.mul_div_cancel_left _ (by norm_num)]
  generalize hR : m * 10 ^ p % 2 ^ n = R at *
  have hH0 : 0 < H := by omega
  have q1 : R * (2 * H) / 2 ^ n > H ↔ 2 ^ n * (H + 1) ≤ R * (2 * H) := by
    rw [gt_iff_lt, ← Nat.succ_le_iff, Nat.le_div_iff_mul_le hD, Nat.mul_comm (Nat.succ H)]
  have q2 : H ≤ R * (2 * H) / 2 ^ n ↔ 2 ^ n ≤ 2 * R := by
    rw [Nat.le_div_iff_mul_le hD, show R * (2 * H) = H * (2 * R) by ring]
    exact Nat.mul_le_mul_left_iff hH0
  unfold RoundingOf
  by_cases c1 : R * (2 * H) / 2 ^ n > H
  · rw [if_pos c1]
    have := q1.mp c1
    have h5 : 2 ^ n < 2 * R := by
      by_contra hc
      have : R * (2 * H) ≤ 2 ^ n * H := by
        rw [show R * (2 * H) = 2 * R * H by ring]
        exact Nat.mul_le_mul_right _ (not_lt.mp hc)
      rw [Nat.mul_add] at *
      omega
    refine ⟨by simp [h5], ?_⟩
    constructor
    · intro h; cases h
    · intro h; omega
  · rw [if_neg c1]
    by_cases c2 : R * (2 * H) / 2 ^ n = H
    · rw [if_pos c2]
      have h5 := q2.mp c2.ge
      by_cases c3 : (tz : ℤ) ≥ (n : ℤ) - p - 1
      · rw [if_pos c3]
        have h6 := e4 (e2.mp c3)
        have h7 := Nat.div_mul_cancel h6
        rw [c2] at h7
        have h8 : 2 ^ n = 2 * R := by
          apply Nat.eq_of_mul_eq_mul_left hH0
          rw [h7]; ring
        refine ⟨?_, by simp [h8]⟩
        constructor
        · intro h; cases h
        · intro h; omega
      · rw [if_neg c3]
        have h8 : 2 * R ≠ 2 ^ n := fun h => c3 (e2.mpr (e3 h))
        refine ⟨by simp; omega, ?_⟩
        constructor
        · intro h; cases h
        · intro h; exact absurd h h8
    · rw [if_neg c2]
      have h5 : ¬2 ^ n ≤ 2 * R := fun h => by have := q2.mpr h; omega
      constructor
      · constructor
        · intro h; cases h
        · intro h; omega
      · constructor
        · intro h; cases h
        · intro h; omega

/-- The digits of a fraction `m / 2^n` -/
theorem binFract_spec {x : U256} {n p : ℕ} (hx : nat256 x < 2 ^ 237) (h0 : 0 < nat256 x) (hn : 237 ≤ n) (hp : p ≤ 75)
    (hC : Clear (nat256 x) n (p / 19 + 1)) :
    ∃ s r, binFract2DecStr x (-(n : ℤ)) p = some (s, r) ∧ FixedText s p (nat256 x * 10 ^ p / 2 ^ n) ∧
      RoundingOf r (nat256 x * 10 ^ p % 2 ^ n) (2 ^ n) := by
  unfold binFract2DecStr pow10DivPow2Params
  dsimp only
  rw [neg_neg, Int.toNat_natCast, CHUNK_SIZE]
  by_cases hz : p / 19 + 1 ≤ segmentZeroChunks (n / 32 - 7)
  · rw [if_pos hz]
    have h1 := zeroChunks_le (j := p / 19 + 1) (by omega) hz hn
    have h2 : nat256 x * 10 ^ (p + 1) < 2 ^ n := by
      calc nat256 x * 10 ^ (p + 1) < 2 ^ 237 * 10 ^ (p + 1) := Nat.mul_lt_mul_of_pos_right hx (by positivity)
        _ ≤ 2 ^ 237 * 10 ^ (19 * (p / 19 + 1)) := Nat.mul_le_mul_left _ (Nat.pow_le_pow_right (by norm_num) (by omega))
        _ ≤ 2 ^ n := h1
    rw [pow_succ, ← Nat.mul_assoc] at h2
    refine ⟨_, _, rfl, ?_, ?_⟩
    · rw [Nat.div_eq_of_lt (by omega)]
      exact fixedText_zeroes p
    · rw [Nat.mod_eq_of_lt (by omega)]
      constructor
      · constructor
        · intro h; cases h
        · intro h; omega
      · constructor
        · intro h; cases h
        · intro h; omega
  · rw [if_neg hz]
    have hz0 := zeroChunks_le (j := segmentZeroChunks (n / 32 - 7)) (by omega) le_rfl hn
    have hpre : FixedText (List.replicate (segmentZeroChunks (n / 32 - 7) * 19) 48#8) (19 * (segmentZeroChunks (n / 32 - 7) + 0))
        (nat256 x * 10 ^ (19 * (segmentZeroChunks (n / 32 - 7) + 0)) / 2 ^ n) := by
      rw [Nat.add_zero, Nat.div_eq_of_lt (lt_of_lt_of_le (Nat.mul_lt_mul_of_pos_right hx (by positivity)) hz0), Nat.mul_comm]
      exact fixedText_zeroes _
    obtain ⟨s, g1, g2⟩ := fractChunks_spec hx hn hC (p / 19 + 1 - segmentZeroChunks (n / 32 - 7) - 1) 0 _ (by omega) hpre
    have g3 := chunk_spec (chunk := p / 19 + 1 - segmentZeroChunks (n / 32 - 7) - 1) hx hn hC (by omega)
    rw [g1, Option.bind_eq_bind, Option.bind_some, g3, Option.bind_eq_bind, Option.bind_some]
    generalize segmentZeroChunks (n / 32 - 7) = z at *
    rw [show z + 0 + (p / 19 + 1 - z - 1) = p / 19 by omega] at g2
    rw [show z + (p / 19 + 1 - z - 1) + 1 = p / 19 + 1 by omega, show p / 19 + 1 - 1 = p / 19 by omega]
    have hw : 19 * (p / 19 + 1) = p + (19 - (p - p / 19 * 19)) := by omega
    rw [hw]
    generalize hw' : 19 - (p - p / 19 * 19) = w at *
    have hdvd : 10 ^ 19 = 10 ^ w * 10 ^ (p - p / 19 * 19) := by
      rw [← pow_add, show w + (p - p / 19 * 19) = 19 by omega]
    have hmm : nat256 x * 10 ^ (p + w) / 2 ^ n % 10 ^ 19 % 10 ^ w = nat256 x * 10 ^ (p + w) / 2 ^ n % 10 ^ w := by
      rw [hdvd, Nat.mod_mul_right_mod]
    have hdd : nat256 x * 10 ^ (p + w) / 2 ^ n % 10 ^ 19 / 10 ^ w = nat256 x * 10 ^ p / 2 ^ n % 10 ^ (p - p / 19 * 19) := by
      rw [hdvd, Nat.mod_mul_right_div_self, cut_digits]
    rw [hmm, hdd]
    refine ⟨_, _, rfl, ?_, ?_⟩
    · have h3 := g2.append (fixedText_pad (w := p - p / 19 * 19) (Nat.mod_lt (nat256 x * 10 ^ p / 2 ^ n) (by positivity)))
      have h4 : nat256 x * 10 ^ (19 * (p / 19)) / 2 ^ n * 10 ^ (p - p / 19 * 19) +
          nat256 x * 10 ^ p / 2 ^ n % 10 ^ (p - p / 19 * 19) = nat256 x * 10 ^ p / 2 ^ n := by
        have := cut_digits (nat256 x) n (19 * (p / 19)) (p - p / 19 * 19)
        rw [show 19 * (p / 19) + (p - p / 19 * 19) = p by omega] at this
        rw [← this, Nat.mul_comm]
        exact Nat.div_add_mod _ _
      rw [h4, show 19 * (p / 19) + (p - p / 19 * 19) = p by omega] at h3
      exact h3
    · have htz : UInt.trailingZeros x = U128.ctz 256 (nat256 x) := trailingZeros256 x
      obtain ⟨o, o1, o2, -⟩ := ctz_spec 256 (nat256 x) (by omega) (nat256_lt x)
      rw [htz]
      exact rounding_spec (by omega) h0 ⟨o, o1, o2⟩

end Verif
