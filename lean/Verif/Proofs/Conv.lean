import Verif.Model.Conv
import Verif.Proofs.New
import Verif.Proofs.Codec

/-!
# Conversion from integers: the assembled pattern
-/

namespace Verif

open BigUInt LawfulBigUInt

/-- The pattern `new` assembles from an integer `j` shifted to the position of the hidden bit. -/
theorem new_int {s j m : ℕ} {c : U256} (hs : s ≤ 1) (hj : j ≠ 0) (hm : m = j.log2) (hm2 : m ≤ 236)
    (hc : nat256 c = j * 2 ^ (236 - m)) :
    ∃ A, (F256.new s m c).pat = s * 2 ^ 255 + A ∧ A < INF ∧ mag A = j * 2 ^ 262378 := by
  have h1 : 2 ^ m ≤ j := by rw [hm]; exact Nat.log2_self_le hj
  have h2 : j < 2 ^ (m + 1) := by rw [hm]; exact Nat.lt_log2_self
  have hc1 : 2 ^ 236 ≤ nat256 c := by
    rw [hc]
    calc 2 ^ 236 = 2 ^ m * 2 ^ (236 - m) := by rw [← Nat.pow_add]; congr 1; omega
      _ ≤ _ := Nat.mul_le_mul_right _ h1
  have hc2 : nat256 c < 2 ^ 237 := by
    rw [hc]
    calc j * 2 ^ (236 - m) < 2 ^ (m + 1) * 2 ^ (236 - m) :=
          Nat.mul_lt_mul_of_pos_right h2 (Nat.two_pow_pos _)
      _ = 2 ^ 237 := by rw [← Nat.pow_add]; congr 1; omega
  have hp := pat_new (s := s) (k := m + 262143) (e := (m : ℤ)) c hs (by omega) (by push_cast; ring)
  refine ⟨(m + 262142) * 2 ^ 236 + nat256 c, ?_, ?_, ?_⟩
  · rw [hp]; omega
  · unfold INF; omega
  · rw [mag_asm (Or.inr hc1) hc2.le (by unfold INF; omega), hc, Nat.mul_assoc, ← Nat.pow_add]
    have e : 236 - m + (m + 262142) = 262378 := by omega
    rw [e]

theorem lz128_msb {j : BitVec 128} (hj : j.toNat ≠ 0) : 127 - lz128 j = j.toNat.log2 := by
  have : j.toNat.log2 < 128 := (Nat.log2_lt hj).2 j.isLt
  unfold lz128 U128.leadingZeros
  rw [if_neg (by exact hj)]
  show 127 - (127 - j.toNat.log2) = _
  omega

theorem toNat_abs128 (x : BitVec 128) : x.abs.toNat = x.toInt.natAbs := by
  rw [BitVec.toNat_abs, BitVec.toInt_eq_msb_cond]
  split <;> omega

theorem msb_toNat (x : BitVec n) : x.msb.toNat = if x.toInt < 0 then 1 else 0 := by
  rw [BitVec.msb_eq_toInt]
  by_cases h : x.toInt < 0 <;> simp [h]

/-- Both 64-bit conversions shift within the high word. -/
theorem new_hi {s : ℕ} {j : BitVec 128} (hs : s ≤ 1) (hj : j.toNat ≠ 0) (hlt : j.toNat < 2 ^ 65) :
    ∃ A, (F256.new s (127 - lz128 j : ℕ)
      (U256.new (j <<< (HI_FRACTION_BITS - (127 - lz128 j))) 0)).pat = s * 2 ^ 255 + A ∧
      A < INF ∧ mag A = j.toNat * 2 ^ 262378 := by
  rw [lz128_msb hj]
  have hl : j.toNat.log2 < 65 := (Nat.log2_lt hj).2 hlt
  refine new_int hs hj rfl (by omega) ?_
  have h2 : j.toNat < 2 ^ (j.toNat.log2 + 1) := Nat.lt_log2_self
  have e : 2 ^ (236 - j.toNat.log2) = 2 ^ (108 - j.toNat.log2) * 2 ^ 128 := by
    rw [← Nat.pow_add]; congr 1; omega
  have hb : j.toNat * 2 ^ (108 - j.toNat.log2) < 2 ^ 128 := by
    calc j.toNat * 2 ^ (108 - j.toNat.log2) < 2 ^ (j.toNat.log2 + 1) * 2 ^ (108 - j.toNat.log2) :=
          Nat.mul_lt_mul_of_pos_right h2 (Nat.two_pow_pos _)
      _ = 2 ^ 109 := by rw [← Nat.pow_add]; congr 1; omega
      _ ≤ _ := by norm_num
  rw [nat256_new, BitVec.toNat_shiftLeft, Nat.shiftLeft_eq, HI_FRACTION_BITS, Nat.mod_eq_of_lt hb,
    e, ← Nat.mul_assoc, show (0 : BitVec 128).toNat = 0 by decide, Nat.add_zero]

/-- The wider conversions shift a 256-bit integer. -/
theorem new_shl {s m : ℕ} {c : U256} (hs : s ≤ 1) (hc : nat256 c ≠ 0) (hm : m = (nat256 c).log2)
    (hlt : nat256 c < 2 ^ 237) :
    ∃ A, (F256.new s m (U256.shiftLeft c (FRACTION_BITS - m))).pat = s * 2 ^ 255 + A ∧
      A < INF ∧ mag A = nat256 c * 2 ^ 262378 := by
  have hl : m < 237 := by rw [hm]; exact (Nat.log2_lt hc).2 hlt
  refine new_int hs hc hm (by omega) ?_
  have h2 : nat256 c < 2 ^ (m + 1) := by rw [hm]; exact Nat.lt_log2_self
  rw [FRACTION_BITS]
  apply nat_shiftLeft (by omega)
  calc nat256 c * 2 ^ (236 - m) < 2 ^ (m + 1) * 2 ^ (236 - m) :=
        Nat.mul_lt_mul_of_pos_right h2 (Nat.two_pow_pos _)
    _ = 2 ^ 237 := by rw [← Nat.pow_add]; congr 1; omega
    _ ≤ _ := by norm_num

end Verif
