import Verif.Proofs.TrigFma

/-!
# The reduction of arguments from 8 up to 2^241: the steps
-/

set_option exponentiation.threshold 2000

namespace Verif.Trig

open FP492 Spec BigFloat

theorem R_range : 63 / 100 ≤ bval R ∧ bval R ≤ 64 / 100 := by
  rw [bval_R]
  have h1 : 63 * 2 ^ 255 ≤ 100 * rs := by decide +kernel
  have h2 : 100 * rs ≤ 64 * 2 ^ 255 := by decide +kernel
  have h1' : (63 : ℝ) * 2 ^ 255 ≤ 100 * rs := by exact_mod_cast h1
  have h2' : (100 : ℝ) * rs ≤ 64 * 2 ^ 255 := by exact_mod_cast h2
  constructor
  · rw [le_div_iff₀ (by positivity)]; linarith
  · rw [div_le_iff₀ (by positivity)]; linarith

/-- The number of quarter turns -/
theorem quot_spec {xb : BigFloat} (hx : Norm xb) (he1 : 3 ≤ xb.exp) (he2 : xb.exp ≤ 240) (h1 : 8 ≤ bval xb)
    (h2 : bval xb < 2 ^ 241) : ∃ t z, mulAdd xb R D = some t ∧ BigFloat.sub t D = some z ∧ Norm z ∧
      ∃ n : ℕ, bval z = n ∧ |(n : ℝ) - bval xb * bval R| ≤ 5001 / 10000 := by
  obtain ⟨r1, r2⟩ := R_range
  obtain ⟨t, ht, hr⟩ := mulAdd_spec hx norm_R norm_D.weaken (by
    show -255 ≤ xb.exp + -1 - 254
    omega) (by
    show xb.exp + -1 - 254 < 511
    omega)
  rw [bval_D] at hr
  obtain ⟨Q, hQ⟩ : ∃ Q, bval xb * bval R = Q := ⟨_, rfl⟩
  rw [hQ] at hr ⊢
  have hQ1 : 5 ≤ Q := by rw [← hQ]; nlinarith
  have hQ2 : Q ≤ 2 ^ 241 := by
    rw [← hQ]
    have := mul_le_mul h2.le r2 (by linarith) (by positivity : (0 : ℝ) ≤ 2 ^ 241)
    refine this.trans ?_
    norm_num
  have hw : 0 < Q + 3 * 2 ^ 253 := by positivity
  obtain ⟨hn, hrel, -⟩ := hr.rel hw.ne'
  have hlow := hn.lower
  have hup := hn.upper
  have hexp : t.exp = 254 := by
    rcases lt_trichotomy t.exp 254 with h | h | h
    · exfalso
      have a1 : (2 : ℝ) ^ (t.exp + 1) ≤ 2 ^ (254 : ℤ) := pow_mono2 (by omega)
      have a2 : ((2 : ℝ) ^ (254 : ℤ)) = 2 ^ 254 := rfl
      rw [a2] at a1
      have a3 : |bval t| ≤ 2 ^ 254 := hup.trans a1
      have a4 : |bval t| / 2 ^ 254 ≤ 1 := by rw [div_le_one (by positivity)]; exact a3
      have a5 := abs_sub_abs_le_abs_sub (Q + 3 * 2 ^ 253) (bval t)
      rw [abs_sub_comm, abs_of_pos hw] at a5
      have a6 : (2 : ℝ) ^ 254 + 1 < 3 * 2 ^ 253 := by norm_num
      have a7 := a5.trans (hrel.trans a4)
      clear * - a7 a3 a6 hQ1
      generalize (3 : ℝ) * 2 ^ 253 = B at *
      generalize (2 : ℝ) ^ 254 = A at *
      linarith
    · exact h
    · exfalso
      have a1 : (2 : ℝ) ^ (255 : ℤ) ≤ 2 ^ t.exp := pow_mono2 (by omega)
      have a2 : ((2 : ℝ) ^ (255 : ℤ)) = 2 ^ 255 := rfl
      rw [a2] at a1
      have a3 := a1.trans hlow
      have a5 := abs_sub_abs_le_abs_sub (bval t) (Q + 3 * 2 ^ 253)
      rw [abs_of_pos hw] at a5
      have a6 : |bval t| / 2 ^ 254 ≤ |bval t| / 100 :=
        div_le_div_of_nonneg_left (abs_nonneg _) (by norm_num) (by norm_num)
      have a7 : (2 : ℝ) ^ 241 + 3 * 2 ^ 253 < 99 / 100 * 2 ^ 255 := by norm_num
      have a8 := a5.trans (hrel.trans a6)
      clear * - a8 a3 a7 hQ2
      generalize (3 : ℝ) * 2 ^ 253 = B at *
      generalize (2 : ℝ) ^ 255 = A at *
      generalize (2 : ℝ) ^ 241 = C at *
      linarith
  have hclose : |bval t - (Q + 3 * 2 ^ 253)| ≤ 5001 / 10000 := by
    rcases hr with ⟨-, h⟩ | ⟨-, -, h, -⟩
    · exact absurd h hw.ne'
    · have := h (by rw [hexp]; exact le_refl _)
      rw [hexp] at this
      simpa using this
  have hsg : t.signum = 1 := by
    rcases hn.1 with h | h
    · exact h
    · exfalso
      have : bval t ≤ 0 := by
        unfold bval
        rw [h]
        have a1 : (0 : ℝ) ≤ (nat256 t.signif : ℝ) * (2 : ℝ) ^ (t.exp - 254) :=
          mul_nonneg (Nat.cast_nonneg _) (two_zpow _).le
        push_cast
        linarith
      rw [abs_le] at hclose
      have a6 : (0 : ℝ) < 2 ^ 253 := by positivity
      linarith [hclose.1]
  have hT : bval t = nat256 t.signif := by
    unfold bval
    rw [hsg, hexp]
    norm_num
  have hne : t ≠ D := by
    intro h
    rw [h, bval_D, abs_le] at hclose
    linarith [hclose.1]
  have hsgn : t.signum ≠ (BigFloat.neg D).signum := by rw [hsg]; decide
  have hexp' : t.exp = (BigFloat.neg D).exp := by rw [hexp]; rfl
  obtain ⟨z, hz, hs, -, hb⟩ := both_close (y := BigFloat.neg D) hn norm_D.weaken.neg (by
    rw [← hexp', max_self]; omega) (by rw [← hexp', max_self]; omega) (fun h => hsgn h.2.2)
  have hb := hb hexp' hsgn
  rw [bval_neg, bval_D, ← sub_eq_add_neg] at hb
  have hge : 4 ≤ bval z := by
    rw [hb]
    rw [abs_le] at hclose
    linarith [hclose.1]
  refine ⟨t, z, ht, ?_, ?_, ?_⟩
  · unfold BigFloat.sub
    rw [if_neg hne, hz]
  · rcases hs with rfl | h
    · rw [bval_zero] at hge; norm_num at hge
    · exact h
  · have hle : 3 * 2 ^ 253 ≤ nat256 t.signif := by
      have : ((3 * 2 ^ 253 : ℕ) : ℝ) ≤ nat256 t.signif := by
        rw [← hT]; push_cast; linarith
      exact_mod_cast this
    refine ⟨nat256 t.signif - 3 * 2 ^ 253, ?_, ?_⟩
    · rw [Nat.cast_sub hle, hb, hT]
      push_cast
      ring
    · rw [Nat.cast_sub hle]
      rw [hT] at hclose
      have e : (nat256 t.signif : ℝ) - (Q + 3 * 2 ^ 253) = nat256 t.signif - ((3 * 2 ^ 253 : ℕ) : ℝ) - Q := by
        push_cast; ring
      rw [← e]
      exact hclose

/-- An integer as a normalised number -/
theorem int_parts {z : BigFloat} {n : ℕ} (hz : Norm z) (hn : bval z = n) (h0 : 0 < n) (hlt : n < 2 ^ 241) :
    ∃ k : ℕ, k ≤ 240 ∧ z.exp = k ∧ z.signum = 1 ∧ nat256 z.signif = n * 2 ^ (254 - k) ∧ 2 ^ k ≤ n ∧ n < 2 ^ (k + 1) := by
  have hnr : (0 : ℝ) < n := by exact_mod_cast h0
  have hsg : z.signum = 1 := by
    rcases hz.1 with h | h
    · exact h
    · exfalso
      have : bval z ≤ 0 := by
        unfold bval
        rw [h]
        have a1 : (0 : ℝ) ≤ (nat256 z.signif : ℝ) * (2 : ℝ) ^ (z.exp - 254) :=
          mul_nonneg (Nat.cast_nonneg _) (two_zpow _).le
        push_cast
        linarith
      rw [hn] at this
      linarith
  have h1 := hz.weaken.lower
  have h2 := hz.upper
  rw [hn, abs_of_pos hnr] at h1 h2
  have he0 : 0 ≤ z.exp := by
    by_contra hc
    have a1 : (2 : ℝ) ^ (z.exp + 1) ≤ 2 ^ (0 : ℤ) := pow_mono2 (by omega)
    rw [zpow_zero] at a1
    have a2 : (1 : ℝ) ≤ n := by exact_mod_cast h0
    linarith
  obtain ⟨k, hk⟩ := Int.eq_ofNat_of_zero_le he0
  rw [hk] at h1 h2
  have h1' : 2 ^ k ≤ n := by
    rw [zpow_natCast] at h1
    exact_mod_cast h1
  have h2' : n < 2 ^ (k + 1) := by
    have e : (2 : ℝ) ^ (((k : ℕ) : ℤ) + 1) = 2 ^ (k + 1) := by
      rw [← zpow_natCast]; push_cast; rfl
    rw [e] at h2
    exact_mod_cast h2
  have hk2 : k ≤ 240 := by
    by_contra hc
    have : 2 ^ 241 ≤ 2 ^ k := Nat.pow_le_pow_right (by norm_num) (by omega)
    exact absurd (this.trans h1') (not_le.mpr hlt)
  refine ⟨k, hk2, hk, hsg, ?_, h1', h2'⟩
  have hb : (nat256 z.signif : ℝ) * (2 : ℝ) ^ (z.exp - 254) = n := by
    rw [← hn]; unfold bval; rw [hsg]; push_cast; ring
  rw [hk, show (k : ℤ) - 254 = -((254 - k : ℕ) : ℤ) by omega, zpow_neg, zpow_natCast] at hb
  have hp : (0 : ℝ) < 2 ^ (254 - k) := by positivity
  have : (nat256 z.signif : ℝ) = n * 2 ^ (254 - k) := by
    rw [← hb]; field_simp
  exact_mod_cast this

/-- The integer as computed by the code -/
theorem quarter_eq {z : BigFloat} {n k : ℕ} (hk : k ≤ 240) (he : z.exp = k) (hs : nat256 z.signif = n * 2 ^ (254 - k)) :
    ((UInt.shr z.signif (z.exp - 254).natAbs).lo &&& 3#128).toNat = n % 4 := by
  have h1 : (z.exp - 254).natAbs = 254 - k := by rw [he]; omega
  rw [h1]
  have h2 : nat256 (UInt.shr z.signif (254 - k)) = n := by
    rw [nat_shr256 _ (by omega), hs, Nat.mul_div_cancel _ (Nat.two_pow_pos _)]
  have := lo_and_3 (UInt.shr z.signif (254 - k))
  rw [h2] at this
  exact this

/-- The first step of the reduction is exact -/
theorem first_exact {xb z : BigFloat} {n m k : ℕ} {E : ℤ} (hx : Norm xb) (hxe : xb.exp = E) (hz : Norm z)
    (hzn : bval z = n) (hk : z.exp = k) (hk1 : E - 1 ≤ k) (hk2 : (k : ℤ) ≤ E) (hE0 : 3 ≤ E) (hE1 : E ≤ 240)
    (hm0 : 0 < m) (hm : m < 2 ^ 237) (hX : bval xb = m * (2 : ℝ) ^ (E - 236))
    (hs : |bval xb - n * bval C1| ≤ 9 / 10) :
    ∃ u, mulAdd (BigFloat.neg z) C1 xb = some u ∧ Norm u ∧ bval u = bval xb - n * bval C1 ∧
      u.exp ≤ -1 ∧ -250 ≤ u.exp := by
  obtain ⟨u, hu, hr⟩ := mulAdd_spec hz.neg norm_C1 hx.weaken (by
    show -255 ≤ z.exp + 0 - xb.exp
    omega) (by
    show z.exp + 0 - xb.exp < 511
    omega)
  have hw : bval (BigFloat.neg z) * bval C1 + bval xb = bval xb - n * bval C1 := by
    rw [bval_neg, hzn]; ring
  rw [hw] at hr
  obtain ⟨o, ho⟩ : ∃ o, c1 / 16 = o := ⟨_, rfl⟩
  have ho1 : c1 = 16 * o := by rw [← ho]; decide +kernel
  have ho2 : o % 2 = 1 := by rw [← ho]; decide +kernel
  have ho3 : 2 ^ 250 ≤ o := by rw [← ho]; decide +kernel
  obtain ⟨e, hEe⟩ := Int.eq_ofNat_of_zero_le (show 0 ≤ E by omega)
  -- the difference as a multiple of a power of two
  have hW : bval xb - n * bval C1 = (((m * 2 ^ (e + 14) : ℕ) : ℤ) - ((n * o : ℕ) : ℤ) : ℤ) / (2 : ℝ) ^ 250 := by
    rw [hX, bval_C1, ho1, hEe]
    have e1 : (2 : ℝ) ^ ((e : ℤ) - 236) = 2 ^ (e + 14) / 2 ^ 250 := by
      rw [show (e : ℤ) - 236 = ((e + 14 : ℕ) : ℤ) - ((250 : ℕ) : ℤ) by push_cast; ring,
        zpow_sub₀ (by norm_num), zpow_natCast, zpow_natCast]
    rw [e1]
    have e2 : (2 : ℝ) ^ 254 = 16 * 2 ^ 250 := by norm_num
    rw [e2]
    have e3 : (0 : ℝ) < 2 ^ 250 := by positivity
    push_cast
    generalize (2 : ℝ) ^ 250 = B at *
    field_simp
  obtain ⟨W, hWd⟩ : ∃ W : ℤ, ((m * 2 ^ (e + 14) : ℕ) : ℤ) - ((n * o : ℕ) : ℤ) = W := ⟨_, rfl⟩
  have hW0 : W ≠ 0 := by
    intro h
    rw [h] at hWd
    have h1 : m * 2 ^ (e + 14) = n * o := by omega
    have h2 : o ∣ m * 2 ^ (e + 14) := h1 ▸ Dvd.intro_left n rfl
    have h3 : Nat.Coprime o (2 ^ (e + 14)) := by
      apply Nat.Coprime.pow_right
      exact (Nat.odd_iff.mpr ho2).coprime_two_right
    have h4 := Nat.le_of_dvd hm0 (h3.dvd_of_dvd_mul_right h2)
    have h5 : (2 : ℕ) ^ 237 ≤ 2 ^ 250 := by norm_num
    exact absurd (h5.trans (ho3.trans h4)) (not_le.mpr hm)
  rw [hWd] at hW
  obtain ⟨w, hwd⟩ : ∃ w, bval xb - n * bval C1 = w := ⟨_, rfl⟩
  rw [hwd] at hr hs hW ⊢
  have hpB : (0 : ℝ) < 2 ^ 250 := by positivity
  have hw0 : w ≠ 0 := by
    rw [hW]
    exact div_ne_zero (by exact_mod_cast hW0) hpB.ne'
  obtain ⟨hn, -, hrel⟩ := hr.rel hw0
  have hlow := hn.lower
  have hexp : u.exp ≤ -1 := by
    by_contra hc
    have a1 : (2 : ℝ) ^ (0 : ℤ) ≤ 2 ^ u.exp := pow_mono2 (by omega)
    rw [zpow_zero] at a1
    have a2 : |w| / 2 ^ 253 ≤ |w| / 100 :=
      div_le_div_of_nonneg_left (abs_nonneg _) (by norm_num) (by norm_num)
    have a3 := abs_sub_abs_le_abs_sub (bval u) w
    have a4 := a3.trans (hrel.trans a2)
    have a5 := a1.trans hlow
    clear * - a4 a5 hs
    linarith
  rcases hr with ⟨-, h⟩ | ⟨-, herr, -, hcl⟩
  · exact absurd h hw0
  obtain ⟨f, hf⟩ := Int.eq_ofNat_of_zero_le (show 0 ≤ -(u.exp - 254) - 250 by omega)
  have hq : (2 : ℝ) ^ (u.exp - 254) = 1 / (2 ^ 250 * 2 ^ f) := by
    rw [show u.exp - 254 = -((250 + f : ℕ) : ℤ) by push_cast; omega, zpow_neg, zpow_natCast, pow_add, one_div]
  have hpf : (0 : ℝ) < 2 ^ f := by positivity
  have hex : bval u = w := by
    have e1 : bval u - w = ((u.signum * (nat256 u.signif : ℤ) - W * 2 ^ f : ℤ) : ℝ) * (1 / (2 ^ 250 * 2 ^ f)) := by
      unfold bval
      rw [hq, hW]
      push_cast
      generalize (2 : ℝ) ^ 250 = B at *
      generalize (2 : ℝ) ^ f = F at *
      field_simp
    rw [hq, e1, abs_mul] at herr
    have hp : (0 : ℝ) < 1 / (2 ^ 250 * 2 ^ f) := by positivity
    rw [abs_of_pos hp] at herr
    have h1 := le_of_mul_le_mul_right herr hp
    have h2 : |u.signum * (nat256 u.signif : ℤ) - W * 2 ^ f| < 1 := by
      have : ((|u.signum * (nat256 u.signif : ℤ) - W * 2 ^ f| : ℤ) : ℝ) < 1 := by
        rw [Int.cast_abs]
        exact h1.trans_lt (by norm_num)
      exact_mod_cast this
    have h3 := Int.abs_lt_one_iff.mp h2
    rw [h3] at e1
    have : bval u - w = 0 := by rw [e1]; push_cast; ring
    linarith
  have hnorm : Norm u := by
    refine ⟨hn.1, hn.2.1, lt_of_le_of_ne hn.2.2 ?_⟩
    intro h
    have h1 := hcl h
    have h2 := bval_abs hn.1
    rw [hex, h] at h2
    rw [h2] at h1
    have : ((2 ^ 255 : ℕ) : ℝ) * (2 : ℝ) ^ (u.exp - 254) = 2 ^ (u.exp + 1) := by
      generalize hA : u.exp - 254 = A
      rw [show u.exp + 1 = A + 255 by omega, zpow_add₀ (by norm_num)]
      rw [Nat.cast_pow, mul_comm]
      rfl
    rw [this] at h1
    exact lt_irrefl _ h1
  refine ⟨u, hu, hnorm, hex, hexp, ?_⟩
  have hup := hnorm.upper
  rw [hex] at hup
  have h1 : (1 : ℝ) / 2 ^ 250 ≤ |w| := by
    rw [hW, abs_div, abs_of_pos hpB]
    apply div_le_div_of_nonneg_right _ hpB.le
    have : (1 : ℤ) ≤ |W| := Int.one_le_abs hW0
    exact_mod_cast this
  by_contra hc
  have h2 : (2 : ℝ) ^ (u.exp + 1) ≤ 2 ^ (-250 : ℤ) := pow_mono2 (by omega)
  have h3 : (2 : ℝ) ^ (-250 : ℤ) = 1 / 2 ^ 250 := by
    rw [zpow_neg, one_div]; rfl
  rw [h3] at h2
  linarith

/-- The errors of the two parts together -/
theorem tail_close {U P v1 v2 y : ℝ} (h1 : |v1 - (U - P)| ≤ 2 * (|U| / 2 ^ 253)) (h2 : |v2| ≤ 30 * (|U| / 2 ^ 253))
    (h3 : |y - (U - P)| ≤ 3 * (|U| / 2 ^ 253)) (hP : |P| ≤ |U| / 5) (hU : |U| ≤ 1) :
    |v1 + v2 - y| ≤ |y| / 2 ^ 247 ∧ |v1| ≤ 4 ∧ |v2| ≤ 4 := by
  have hD : |U| / 2 ^ 253 ≤ |U| / 1000 :=
    div_le_div_of_nonneg_left (abs_nonneg _) (by norm_num) (by norm_num)
  have hU0 := abs_nonneg U
  have e1 : |y| / 2 ^ 247 = 64 * (|y| / 2 ^ 253) := by
    rw [show (2 : ℝ) ^ 253 = 64 * 2 ^ 247 by norm_num]
    have : (0 : ℝ) < 2 ^ 247 := by positivity
    generalize (2 : ℝ) ^ 247 = B at *
    field_simp
  have e2 : 70 / 100 * (|U| / 2 ^ 253) ≤ |y| / 2 ^ 253 := by
    rw [← mul_div_assoc]
    apply div_le_div_of_nonneg_right _ (by positivity)
    have a1 := abs_sub_abs_le_abs_sub (U - P) y
    have a2 := abs_sub_abs_le_abs_sub U P
    rw [abs_sub_comm (U - P) y] at a1
    have a3 := a1.trans h3
    clear * - a2 a3 hP hD hU0
    linarith
  rw [e1]
  have a1 := abs_sub_abs_le_abs_sub v1 (U - P)
  have a2 : |U - P| ≤ |U| + |P| := abs_sub _ _
  have a3 := a1.trans h1
  have hD0 : 0 ≤ |U| / 2 ^ 253 := by positivity
  generalize |U| / 2 ^ 253 = D at *
  generalize |y| / 2 ^ 253 = F at *
  refine ⟨?_, by linarith, by linarith⟩
  have e : v1 + v2 - y = (v1 - (U - P)) + v2 + -(y - (U - P)) := by ring
  rw [e]
  have b1 := abs_add_le (v1 - (U - P) + v2) (-(y - (U - P)))
  have b2 := abs_add_le (v1 - (U - P)) v2
  rw [abs_neg] at b1
  linarith

/-- The second and the third constant -/
theorem C_bounds : 0 ≤ bval C2 ∧ bval C2 ≤ 116 / 100 / 2 ^ 254 ∧ 0 ≤ bval C3 ∧ bval C3 ≤ 2 / 2 ^ 509 := by
  have h2 : 100 * c2 ≤ 116 * 2 ^ 254 := by decide +kernel
  have h3 : c3 ≤ 2 ^ 255 := by decide +kernel
  have h2' : (100 : ℝ) * c2 ≤ 116 * 2 ^ 254 := by exact_mod_cast h2
  have h3' : (c3 : ℝ) ≤ 2 ^ 255 := by exact_mod_cast h3
  rw [bval_C2, bval_C3]
  refine ⟨by positivity, ?_, by positivity, ?_⟩
  · rw [div_le_div_iff₀ (by positivity) (by positivity), show (2 : ℝ) ^ 508 = 2 ^ 254 * 2 ^ 254 by norm_num, ← mul_assoc]
    exact mul_le_mul_of_nonneg_right (by linarith) (by positivity)
  · rw [div_le_div_iff₀ (by positivity) (by positivity), show (2 : ℝ) ^ 763 = 2 ^ 254 * 2 ^ 509 by norm_num, ← mul_assoc]
    exact mul_le_mul_of_nonneg_right (by linarith) (by positivity)

/-- The product of an integer and a constant -/
theorem mul_int {z c : BigFloat} {n k : ℕ} (hz : Norm z) (hc : Norm c) (hcar : noCarry (nat256 c.signif) = true)
    (h0 : 0 < n) (hn : n < 2 ^ 241) (hs : nat256 z.signif = n * 2 ^ (254 - k)) :
    Norm (mul z c) ∧ |bval (mul z c) - bval z * bval c| ≤ |bval z * bval c| / 2 ^ 253 ∧
      ((mul z c).exp = z.exp + c.exp ∨ (mul z c).exp = z.exp + c.exp + 1) := by
  refine mul_spec hz hc fun a _ h => ?_
  rw [hs] at h ⊢
  exact noCarry_spec hcar hc.2.1 hc.2.2 h0 hn h

/-- Few bits are lost by the first step: one more step is enough -/
theorem path_one {X : ℝ} {z u : BigFloat} {n k : ℕ} {E : ℤ} (hz : Norm z) (hzn : bval z = n) (hk : z.exp = k)
    (hk2 : (k : ℤ) ≤ E) (h0 : 0 < n) (hn : n < 2 ^ 241)
    (hs : nat256 z.signif = n * 2 ^ (254 - k)) (hnE : (n : ℝ) ≤ 672 / 1000 * 2 ^ (E + 1)) (hu : Norm u)
    (hub : bval u = X - n * bval C1) (hu1 : u.exp ≤ -1) (hu2 : -250 ≤ u.exp) (hpath : E - 251 ≤ u.exp) :
    ∃ v1 v2, fmaTail z C2 u = some (v1, v2) ∧ Norm' v1 ∧ (v2 = BigFloat.ZERO ∨ Norm' v2) ∧
      |bval v1 + bval v2 - (X - n * (Real.pi / 2))| ≤ |X - n * (Real.pi / 2)| / 2 ^ 247 ∧
      |bval v1| ≤ 4 ∧ |bval v2| ≤ 4 := by
  obtain ⟨m1, m2, m3⟩ := mul_int hz norm_C2 carry_c2 h0 hn hs
  obtain ⟨b1, b2, -, -⟩ := C_bounds
  obtain ⟨-, k2, -⟩ := consts_fma
  have hn0 : (0 : ℝ) ≤ n := Nat.cast_nonneg _
  have hUlow : (2 : ℝ) ^ (E + 1) / 2 ^ 252 ≤ |bval u| := by
    refine le_trans ?_ hu.weaken.lower
    rw [show (2 : ℝ) ^ 252 = 2 ^ (252 : ℤ) from rfl, ← zpow_sub₀ (by norm_num)]
    exact pow_mono2 (by omega)
  have hU : |bval u| ≤ 1 := by
    have a1 : (2 : ℝ) ^ (u.exp + 1) ≤ 2 ^ (0 : ℤ) := pow_mono2 (by omega)
    rw [zpow_zero] at a1
    exact hu.upper.le.trans a1
  have hT : (0 : ℝ) < 2 ^ (E + 1) := two_zpow _
  have hP : |bval z * bval C2| ≤ |bval u| / 5 := by
    rw [hzn, abs_of_nonneg (mul_nonneg hn0 b1)]
    have a1 := mul_le_mul hnE b2 b1 (by positivity)
    generalize (2 : ℝ) ^ (E + 1) = T at *
    have a2 : 672 / 1000 * T * (116 / 100 / 2 ^ 254) ≤ (T / 2 ^ 252) / 5 := by
      rw [show (2 : ℝ) ^ 254 = 4 * 2 ^ 252 by norm_num]
      have : (0 : ℝ) < 2 ^ 252 := by positivity
      have a3 : 672 / 1000 * T * (116 / 100 / (4 * 2 ^ 252)) = (672 / 1000 * (116 / 100) / 4) * (T / 2 ^ 252) := by
        generalize (2 : ℝ) ^ 252 = B at *
        field_simp
      rw [a3]
      have a4 : 0 ≤ T / 2 ^ 252 := by positivity
      linarith
    linarith
  obtain ⟨v1, v2, hv, n1, n2, e1, e2⟩ := fmaTail_spec hz norm_C2 hu.weaken hP (by
    show z.exp + -254 - u.exp < 511
    omega) m1 m2 m3
  have e3 : |(X - n * (Real.pi / 2)) - (bval u - bval z * bval C2)| ≤ 3 * (|bval u| / 2 ^ 253) := by
    rw [hub, hzn]
    have a1 : (X - n * (Real.pi / 2)) - (X - n * bval C1 - n * bval C2) = -(n * (Real.pi / 2 - bval C1 - bval C2)) := by
      ring
    rw [a1, abs_neg, abs_mul, abs_of_nonneg hn0, ← hub]
    have a2 := mul_le_mul hnE k2 (abs_nonneg _) (by positivity)
    refine a2.trans ?_
    have a3 := div_le_div_of_nonneg_right hUlow (by positivity : (0 : ℝ) ≤ 2 ^ 253)
    generalize (2 : ℝ) ^ (E + 1) = T at *
    generalize |bval u| / 2 ^ 253 = D at *
    have a4 : 672 / 1000 * T * (2 / 2 ^ 508) ≤ 3 * (T / 2 ^ 252 / 2 ^ 253) := by
      have a5 : 672 / 1000 * T * (2 / 2 ^ 508) = 168 / 1000 * (T / 2 ^ 252 / 2 ^ 253) := by
        rw [show (2 : ℝ) ^ 508 = 8 * (2 ^ 252 * 2 ^ 253) by norm_num, div_div]
        have : (0 : ℝ) < 2 ^ 252 * 2 ^ 253 := by positivity
        generalize (2 : ℝ) ^ 252 * 2 ^ 253 = B at *
        field_simp
        norm_num
      rw [a5]
      have : 0 ≤ T / 2 ^ 252 / 2 ^ 253 := by positivity
      linarith
    linarith
  obtain ⟨t1, t2, t3⟩ := tail_close e1 e2 e3 hP hU
  exact ⟨v1, v2, hv, n1, n2, t1, t2, t3⟩

/-- Many bits are lost by the first step: two more steps are taken -/
theorem path_two {X : ℝ} {z u : BigFloat} {n k : ℕ} {E : ℤ} (hz : Norm z) (hzn : bval z = n) (hk : z.exp = k)
    (hk1 : E - 1 ≤ k) (hk2 : (k : ℤ) ≤ E) (hE1 : E ≤ 240) (h0 : 0 < n) (hn : n < 2 ^ 241)
    (hs : nat256 z.signif = n * 2 ^ (254 - k)) (hu : Norm u) (hub : bval u = X - n * bval C1)
    (hu2 : -250 ≤ u.exp) (hpath : u.exp ≤ E - 252)
    (hfar : 3 / 2 ^ 255 * (Real.pi / 2) ≤ |X - n * (Real.pi / 2)|) (hnear : |X - n * (Real.pi / 2)| ≤ 79 / 100) :
    ∃ u2 v1 v2, mulAdd (BigFloat.neg z) C2 u = some u2 ∧ fmaTail z C3 u2 = some (v1, v2) ∧ Norm' v1 ∧
      (v2 = BigFloat.ZERO ∨ Norm' v2) ∧
      |bval v1 + bval v2 - (X - n * (Real.pi / 2))| ≤ |X - n * (Real.pi / 2)| / 2 ^ 247 ∧
      |bval v1| ≤ 4 ∧ |bval v2| ≤ 4 := by
  obtain ⟨m1, m2, m3⟩ := mul_int hz norm_C3 carry_c3 h0 hn hs
  obtain ⟨-, -, b3, b4⟩ := C_bounds
  obtain ⟨-, k2, k3⟩ := consts_fma
  have hpi := Real.pi_gt_d2
  have hn0 : (0 : ℝ) ≤ n := Nat.cast_nonneg _
  have hn1 : (n : ℝ) ≤ 2 ^ 241 := by exact_mod_cast hn.le
  obtain ⟨u2, hmul, hr⟩ := mulAdd_spec hz.neg norm_C2 hu.weaken (by
    show -255 ≤ z.exp + -254 - u.exp
    omega) (by
    show z.exp + -254 - u.exp < 511
    omega)
  have hw : bval (BigFloat.neg z) * bval C2 + bval u = X - n * bval C1 - n * bval C2 := by
    rw [bval_neg, hzn, hub]; ring
  rw [hw] at hr
  obtain ⟨y, hy⟩ : ∃ y, X - n * (Real.pi / 2) = y := ⟨_, rfl⟩
  obtain ⟨w, hwd⟩ : ∃ w, X - n * bval C1 - n * bval C2 = w := ⟨_, rfl⟩
  have hyw : |y - w| ≤ 1 / 2 ^ 266 := by
    have a1 : y - w = -(n * (Real.pi / 2 - bval C1 - bval C2)) := by rw [← hy, ← hwd]; ring
    rw [a1, abs_neg, abs_mul, abs_of_nonneg hn0]
    refine (mul_le_mul hn1 k2 (abs_nonneg _) (by positivity)).trans ?_
    norm_num
  have hyw' : |y - (w - n * bval C3)| ≤ 1 / 2 ^ 521 := by
    have a1 : y - (w - n * bval C3) = -(n * (Real.pi / 2 - bval C1 - bval C2 - bval C3)) := by rw [← hy, ← hwd]; ring
    rw [a1, abs_neg, abs_mul, abs_of_nonneg hn0]
    refine (mul_le_mul hn1 k3 (abs_nonneg _) (by positivity)).trans ?_
    norm_num
  rw [hwd] at hr
  rw [hy] at hfar hnear ⊢
  have hf : 471 / 100 / 2 ^ 255 ≤ |y| := by
    refine le_trans ?_ hfar
    rw [div_mul_eq_mul_div]
    apply div_le_div_of_nonneg_right _ (by positivity)
    linarith
  have hwl : 47 / 10 / 2 ^ 255 ≤ |w| := by
    have a1 := abs_sub_abs_le_abs_sub y w
    have a2 : (471 / 100 / 2 ^ 255 : ℝ) - 1 / 2 ^ 266 ≥ 47 / 10 / 2 ^ 255 := by norm_num
    linarith
  have hw0 : w ≠ 0 := by
    rw [← abs_pos]
    exact lt_of_lt_of_le (by positivity) hwl
  obtain ⟨n2, -, hrel⟩ := hr.rel hw0
  have hc1 : |w| / 2 ^ 253 ≤ |w| / 1000 :=
    div_le_div_of_nonneg_left (abs_nonneg _) (by norm_num) (by norm_num)
  have hUw : 999 / 1000 * |w| ≤ |bval u2| := by
    have a1 := abs_sub_abs_le_abs_sub w (bval u2)
    rw [abs_sub_comm] at a1
    have a2 := a1.trans (hrel.trans hc1)
    clear * - a2
    linarith
  have hUu : |bval u2| ≤ 1001 / 1000 * |w| := by
    have a1 := abs_sub_abs_le_abs_sub (bval u2) w
    have a2 := a1.trans (hrel.trans hc1)
    clear * - a2
    linarith
  have hUl : 4 / 2 ^ 255 ≤ |bval u2| := by
    refine le_trans ?_ hUw
    have a1 : (999 / 1000 : ℝ) * (47 / 10 / 2 ^ 255) ≥ 4 / 2 ^ 255 := by norm_num
    have a2 := mul_le_mul_of_nonneg_left hwl (by norm_num : (0 : ℝ) ≤ 999 / 1000)
    exact le_trans a1 a2
  have hU : |bval u2| ≤ 1 := by
    have a1 := abs_sub_abs_le_abs_sub w y
    rw [abs_sub_comm] at a1
    have a2 : (1 : ℝ) / 2 ^ 266 ≤ 1 / 100 := by norm_num
    have a3 := a1.trans (hyw.trans a2)
    clear * - a3 hnear hUu
    linarith
  have hexp : -254 ≤ u2.exp := by
    by_contra hc
    have a1 : (2 : ℝ) ^ (u2.exp + 1) ≤ 2 ^ (-254 : ℤ) := pow_mono2 (by omega)
    have a2 : (2 : ℝ) ^ (-254 : ℤ) < 4 / 2 ^ 255 := by norm_num
    exact absurd (hUl.trans (n2.upper.trans a1)) (not_le.mpr a2)
  have hP0 : |bval z * bval C3| ≤ 1 / 2 ^ 267 := by
    rw [hzn, abs_of_nonneg (mul_nonneg hn0 b3)]
    refine (mul_le_mul hn1 b4 b3 (by positivity)).trans ?_
    norm_num
  have hP : |bval z * bval C3| ≤ |bval u2| / 5 := by
    have a1 := div_le_div_of_nonneg_right hUl (by norm_num : (0 : ℝ) ≤ 5)
    have a2 : (1 : ℝ) / 2 ^ 267 ≤ 4 / 2 ^ 255 / 5 := by norm_num
    exact hP0.trans (a2.trans a1)
  obtain ⟨v1, v2, hv, s1, s2, e1, e2⟩ := fmaTail_spec hz norm_C3 n2 hP (by
    show z.exp + -509 - u2.exp < 511
    omega) m1 m2 m3
  have e3 : |y - (bval u2 - bval z * bval C3)| ≤ 3 * (|bval u2| / 2 ^ 253) := by
    have a1 : y - (bval u2 - bval z * bval C3) = (y - (w - n * bval C3)) + -(bval u2 - w) := by rw [hzn]; ring
    have a2 := abs_add_le (y - (w - n * bval C3)) (-(bval u2 - w))
    rw [abs_neg] at a2
    rw [a1]
    refine a2.trans ?_
    have a3 : |w| / 2 ^ 253 ≤ 2 * (|bval u2| / 2 ^ 253) := by
      rw [← mul_div_assoc]
      apply div_le_div_of_nonneg_right _ (by positivity)
      linarith [abs_nonneg w]
    have a4 : (1 : ℝ) / 2 ^ 521 ≤ |bval u2| / 2 ^ 253 := by
      refine le_trans ?_ (div_le_div_of_nonneg_right hUl (by positivity : (0 : ℝ) ≤ 2 ^ 253))
      norm_num
    have a5 := hyw'.trans a4
    have a6 := hrel.trans a3
    clear * - a5 a6
    linarith
  obtain ⟨t1, t2, t3⟩ := tail_close e1 e2 e3 hP hU
  exact ⟨u2, v1, v2, hmul, hv, s1, s2, t1, t2, t3⟩

/-- The sum of the two converted parts -/
theorem sum_parts {v1 v2 : BigFloat} {y : ℝ} (n1 : Norm' v1) (n2 : v2 = BigFloat.ZERO ∨ Norm' v2)
    (h1 : |bval v1 + bval v2 - y| ≤ |y| / 2 ^ 247) (b1 : |bval v1| ≤ 4) (b2 : |bval v2| ≤ 4) :
    |(sval (FP492.add (fromBigFloat v1) (fromBigFloat v2)) : ℝ) - y * 2 ^ 492| ≤
      3 + |(sval (FP492.add (fromBigFloat v1) (fromBigFloat v2)) : ℝ)| / 2 ^ 245 := by
  have f1 := fromBigFloat_spec (Or.inr n1) b1
  have f2 := fromBigFloat_spec n2 b2
  have hsz : ∀ (s : ℤ) (v : ℝ), |(s : ℝ) - v * 2 ^ 492| ≤ 1 → |v| ≤ 4 → s.natAbs ≤ 2 ^ 498 := by
    intro s v a1 a2
    have a3 := abs_sub_abs_le_abs_sub (s : ℝ) (v * 2 ^ 492)
    rw [abs_mul, abs_of_pos (by positivity : (0 : ℝ) < 2 ^ 492)] at a3
    have a4 : |v| * 2 ^ 492 ≤ 4 * 2 ^ 492 := mul_le_mul_of_nonneg_right a2 (by positivity)
    have a5 : (4 : ℝ) * 2 ^ 492 + 1 ≤ 2 ^ 498 := by norm_num
    have a6 : |(s : ℝ)| ≤ 2 ^ 498 := by
      refine le_trans ?_ a5
      have a7 := a3.trans a1
      clear * - a7 a4
      generalize (2 : ℝ) ^ 492 = B at *
      generalize |v| * B = C at *
      linarith
    have a7 : ((s.natAbs : ℕ) : ℝ) ≤ ((2 ^ 498 : ℕ) : ℝ) := by
      rw [Nat.cast_natAbs, Int.cast_abs, Nat.cast_pow]
      exact a6
    exact_mod_cast a7
  rw [sval_add' (hsz _ _ f1 b1) (hsz _ _ f2 b2)]
  generalize sval (fromBigFloat v1) = s1 at *
  generalize sval (fromBigFloat v2) = s2 at *
  rw [Int.cast_add]
  generalize (s1 : ℝ) = r1 at *
  generalize (s2 : ℝ) = r2 at *
  have hB : (0 : ℝ) < 2 ^ 492 := by positivity
  have g1 : |r1 + r2 - y * 2 ^ 492| ≤ 2 + |y * 2 ^ 492| / 2 ^ 247 := by
    have e : r1 + r2 - y * 2 ^ 492 = (r1 - bval v1 * 2 ^ 492) + (r2 - bval v2 * 2 ^ 492) +
        (bval v1 + bval v2 - y) * 2 ^ 492 := by ring
    rw [e]
    have c1 := abs_add_le ((r1 - bval v1 * 2 ^ 492) + (r2 - bval v2 * 2 ^ 492)) ((bval v1 + bval v2 - y) * 2 ^ 492)
    have c2 := abs_add_le (r1 - bval v1 * 2 ^ 492) (r2 - bval v2 * 2 ^ 492)
    rw [abs_mul _ ((2 : ℝ) ^ 492), abs_of_pos hB] at c1
    have c3 := mul_le_mul_of_nonneg_right h1 hB.le
    have c4 : |y| / 2 ^ 247 * 2 ^ 492 = |y * 2 ^ 492| / 2 ^ 247 := by
      rw [abs_mul, abs_of_pos hB]; ring
    rw [c4] at c3
    refine c1.trans ((add_le_add (c2.trans (add_le_add f1 f2)) c3).trans (le_of_eq ?_))
    generalize |y * 2 ^ 492| / 2 ^ 247 = A
    ring
  clear * - g1
  generalize y * 2 ^ 492 = Y at *
  generalize r1 + r2 = S at *
  have d1 := abs_sub_abs_le_abs_sub Y S
  rw [abs_sub_comm] at d1
  have d2 : |Y| / 2 ^ 247 ≤ |Y| / 2 := div_le_div_of_nonneg_left (abs_nonneg _) (by norm_num) (by norm_num)
  have d3 : |Y| ≤ 2 * |S| + 4 := by
    have := d1.trans g1
    clear * - this d2
    generalize |Y| / 2 ^ 247 = A at *
    linarith
  have d4 : |Y| / 2 ^ 247 ≤ |S| / 2 ^ 245 + 1 := by
    have : |Y| / 2 ^ 247 ≤ (2 * |S| + 4) / 2 ^ 247 := div_le_div_of_nonneg_right d3 (by positivity)
    refine this.trans ?_
    have e : (2 * |S| + 4) / 2 ^ 247 = |S| / 2 ^ 245 * (1 / 2) + 4 / 2 ^ 247 := by
      rw [show (2 : ℝ) ^ 247 = 4 * 2 ^ 245 by norm_num]
      have : (0 : ℝ) < 2 ^ 245 := by positivity
      generalize (2 : ℝ) ^ 245 = B at *
      field_simp
      ring
    rw [e]
    have p1 : (4 : ℝ) / 2 ^ 247 ≤ 1 := by norm_num
    have p2 : 0 ≤ |S| / 2 ^ 245 := by positivity
    clear * - p1 p2
    generalize |S| / 2 ^ 245 = B at *
    linarith
  generalize |Y| / 2 ^ 247 = A at *
  generalize |S| / 2 ^ 245 = B at *
  linarith

theorem fmaReduce_one {f : F256} {t z u v1 v2 : BigFloat} (ht : mulAdd (BigFloat.fromF256 f) R D = some t)
    (hz : BigFloat.sub t D = some z) (hu : mulAdd (BigFloat.neg z) C1 (BigFloat.fromF256 f) = some u)
    (hc : 1 - u.exp + 254 + (BigFloat.fromF256 f).exp ≤ 506) (hv : fmaTail z C2 u = some (v1, v2)) :
    fmaReduce f = some (((UInt.shr z.signif (z.exp - 254).natAbs).lo &&& 3#128).toNat,
      FP492.add (FP492.fromBigFloat v1) (FP492.fromBigFloat v2)) := by
  unfold fmaReduce
  dsimp only
  rw [ht, Option.bind_eq_bind, Option.bind_some, hz, Option.bind_some, hu, Option.bind_some, if_pos hc, hv]
  rfl

theorem fmaReduce_two {f : F256} {t z u u2 v1 v2 : BigFloat} (ht : mulAdd (BigFloat.fromF256 f) R D = some t)
    (hz : BigFloat.sub t D = some z) (hu : mulAdd (BigFloat.neg z) C1 (BigFloat.fromF256 f) = some u)
    (hc : ¬ 1 - u.exp + 254 + (BigFloat.fromF256 f).exp ≤ 506) (hu2 : mulAdd (BigFloat.neg z) C2 u = some u2)
    (hv : fmaTail z C3 u2 = some (v1, v2)) :
    fmaReduce f = some (((UInt.shr z.signif (z.exp - 254).natAbs).lo &&& 3#128).toNat,
      FP492.add (FP492.fromBigFloat v1) (FP492.fromBigFloat v2)) := by
  unfold fmaReduce
  dsimp only
  rw [ht, Option.bind_eq_bind, Option.bind_some, hz, Option.bind_some, hu, Option.bind_some, if_neg hc, hu2,
    Option.bind_eq_bind, Option.bind_some, hv]
  rfl

/-- The reduction of arguments from 8 up to 2^241 -/
theorem fmaReduce_spec {x : F256} {m : ℕ} {E : ℤ} (h : Arg x m E) (hE0 : 3 ≤ E) (hE1 : E ≤ 240) :
    ∃ q Y, fmaReduce x = some (q, Y) ∧ Reduced (val x.pat) q Y := by
  obtain ⟨hx, hxe, hxb⟩ := fromF256_spec h (by omega)
  obtain ⟨x1, x2⟩ := h.range (by omega)
  have hX8 : 8 ≤ bval (BigFloat.fromF256 x) := by
    rw [hxb]
    have : (2 : ℝ) ^ (3 : ℤ) ≤ 2 ^ E := pow_mono2 hE0
    have e : (2 : ℝ) ^ (3 : ℤ) = 8 := by norm_num
    linarith
  have hTT : (2 : ℝ) * 2 ^ E = 2 ^ (E + 1) := by rw [zpow_add₀ (by norm_num), zpow_one, mul_comm]
  rw [hTT] at x2
  have hT16 : (16 : ℝ) ≤ 2 ^ (E + 1) := by
    have : (2 : ℝ) ^ (4 : ℤ) ≤ 2 ^ (E + 1) := pow_mono2 (by omega)
    have e : (2 : ℝ) ^ (4 : ℤ) = 16 := by norm_num
    linarith
  have hT241 : (2 : ℝ) ^ (E + 1) ≤ 2 ^ 241 := by
    have : (2 : ℝ) ^ (E + 1) ≤ 2 ^ (241 : ℤ) := pow_mono2 (by omega)
    exact this
  have hX241 : bval (BigFloat.fromF256 x) < 2 ^ 241 := by
    rw [hxb]; exact x2.trans_le hT241
  obtain ⟨t, z, ht, hz, hzn, n, hbz, hnQ⟩ := quot_spec hx (by omega) (by omega) hX8 hX241
  obtain ⟨r1, r2⟩ := R_range
  have hX0 : 0 < val x.pat := by rw [← hxb]; linarith
  rw [hxb] at hnQ hX8 hX241
  obtain ⟨kR, k2, -⟩ := consts_fma
  have hnQ' := abs_le.mp hnQ
  have hnE : (n : ℝ) ≤ 672 / 1000 * 2 ^ (E + 1) := by
    have a1 := mul_le_mul x2.le r2 (by linarith) (by linarith)
    linarith [hnQ'.2]
  have hnLow : (2 : ℝ) ^ (E - 1) ≤ n := by
    have a1 : (2 : ℝ) ^ E = 2 * 2 ^ (E - 1) := by
      rw [← zpow_one_add₀ (by norm_num)]; congr 1; ring
    have a2 := mul_le_mul x1 r1 (by norm_num) hX0.le
    have a3 : (4 : ℝ) ≤ 2 ^ (E - 1) := by
      have : (2 : ℝ) ^ (2 : ℤ) ≤ 2 ^ (E - 1) := pow_mono2 (by omega)
      have e : (2 : ℝ) ^ (2 : ℤ) = 4 := by norm_num
      linarith
    rw [a1] at a2
    linarith [hnQ'.1]
  have hn0 : 0 < n := by
    have : (0 : ℝ) < n := lt_of_lt_of_le (two_zpow _) hnLow
    exact_mod_cast this
  have hnlt : n < 2 ^ 241 := by
    have : (n : ℝ) < ((2 ^ 241 : ℕ) : ℝ) := by
      rw [Nat.cast_pow]
      refine lt_of_le_of_lt hnE (lt_of_lt_of_le ?_ hT241)
      linarith
    exact_mod_cast this
  obtain ⟨k, hk240, hk, hzs, hsig, hk1, hk2⟩ := int_parts hzn hbz hn0 hnlt
  have hkE1 : E - 1 ≤ k := by
    by_contra hc
    have a1 : (n : ℝ) < 2 ^ (k + 1) := by exact_mod_cast hk2
    have a2 : (2 : ℝ) ^ (k + 1) = 2 ^ ((k : ℤ) + 1) := by rw [← zpow_natCast]; push_cast; rfl
    have a3 : (2 : ℝ) ^ ((k : ℤ) + 1) ≤ 2 ^ (E - 1) := pow_mono2 (by omega)
    rw [a2] at a1
    linarith
  have hkE2 : (k : ℤ) ≤ E := by
    by_contra hc
    have a1 : (2 : ℝ) ^ k ≤ n := by exact_mod_cast hk1
    have a3 : (2 : ℝ) ^ (E + 1) ≤ 2 ^ (k : ℤ) := pow_mono2 (by omega)
    rw [zpow_natCast] at a3
    linarith
  have hpi1 := Real.pi_gt_d2
  have hpi2 := Real.pi_lt_d2
  -- the reduced argument
  have hnear : |val x.pat - n * (Real.pi / 2)| ≤ 79 / 100 := by
    have e : val x.pat - n * (Real.pi / 2) =
        ((val x.pat * bval R - n) - val x.pat * (bval R - 2 / Real.pi)) * (Real.pi / 2) := by
      field_simp
      ring
    rw [e, abs_mul, abs_of_pos (by positivity : 0 < Real.pi / 2)]
    have a1 : |val x.pat * (bval R - 2 / Real.pi)| ≤ 1 / 10000 := by
      rw [abs_mul, abs_of_pos hX0]
      refine (mul_le_mul hX241.le kR (abs_nonneg _) (by positivity)).trans ?_
      norm_num
    have a2 := abs_sub (val x.pat * bval R - n) (val x.pat * (bval R - 2 / Real.pi))
    rw [abs_sub_comm (val x.pat * bval R)] at a2
    have a3 : |val x.pat * bval R - n - val x.pat * (bval R - 2 / Real.pi)| ≤ 5002 / 10000 := by linarith
    have a4 := mul_le_mul a3 (by linarith : Real.pi / 2 ≤ 1575 / 1000) (by positivity) (by norm_num)
    refine a4.trans ?_
    norm_num
  have hfar := far h (by omega) (n : ℤ)
  rw [Int.cast_natCast] at hfar
  obtain ⟨b1, b2, -, -⟩ := C_bounds
  have hs : |bval (BigFloat.fromF256 x) - n * bval C1| ≤ 9 / 10 := by
    rw [hxb]
    have e : val x.pat - n * bval C1 = (val x.pat - n * (Real.pi / 2)) + n * (Real.pi / 2 - bval C1 - bval C2) + n * bval C2 := by
      ring
    have hn241 : (n : ℝ) ≤ 2 ^ 241 := by exact_mod_cast hnlt.le
    have a1 : |(n : ℝ) * (Real.pi / 2 - bval C1 - bval C2)| ≤ 1 / 100 := by
      rw [abs_mul, abs_of_nonneg (Nat.cast_nonneg n : (0 : ℝ) ≤ n)]
      refine (mul_le_mul hn241 k2 (abs_nonneg _) (by positivity)).trans ?_
      norm_num
    have a2 : |(n : ℝ) * bval C2| ≤ 1 / 100 := by
      rw [abs_of_nonneg (mul_nonneg (Nat.cast_nonneg n) b1)]
      refine (mul_le_mul hn241 b2 b1 (by positivity)).trans ?_
      norm_num
    rw [e]
    have a3 := abs_add_le (val x.pat - n * (Real.pi / 2) + n * (Real.pi / 2 - bval C1 - bval C2)) (n * bval C2)
    have a4 := abs_add_le (val x.pat - n * (Real.pi / 2)) (n * (Real.pi / 2 - bval C1 - bval C2))
    linarith
  obtain ⟨u, hu, hun, hub, hu1, hu2⟩ := first_exact hx hxe hzn hbz hk hkE1 hkE2 hE0 hE1 h.m_pos h.m_lt
    (by rw [hxb, h.val_eq]) hs
  rw [hxb] at hub
  have hq := quarter_eq (n := n) hk240 hk hsig
  have hfin : ∀ v1 v2 : BigFloat, Norm' v1 → (v2 = BigFloat.ZERO ∨ Norm' v2) →
      |bval v1 + bval v2 - (val x.pat - n * (Real.pi / 2))| ≤ |val x.pat - n * (Real.pi / 2)| / 2 ^ 247 →
      |bval v1| ≤ 4 → |bval v2| ≤ 4 →
      Reduced (val x.pat) (n % 4) (FP492.add (FP492.fromBigFloat v1) (FP492.fromBigFloat v2)) := by
    intro v1 v2 n1 n2 c1 c2 c3
    refine reduced_of' (n : ℤ) (by push_cast; rfl) ?_ ?_ ?_
    · rw [Int.cast_natCast]; exact sum_parts n1 n2 c1 c2 c3
    · rw [Int.cast_natCast]; exact hnear
    · rw [Int.cast_natCast]; exact hfar
  by_cases hc : 1 - u.exp + 254 + (BigFloat.fromF256 x).exp ≤ 506
  · obtain ⟨v1, v2, hv, n1, n2, c1, c2, c3⟩ := path_one hzn hbz hk hkE2 hn0 hnlt hsig hnE hun hub hu1 hu2
      (by rw [hxe] at hc; omega)
    have := fmaReduce_one ht hz hu hc hv
    rw [hq] at this
    exact ⟨_, _, this, hfin v1 v2 n1 n2 c1 c2 c3⟩
  · obtain ⟨u2, v1, v2, hm, hv, n1, n2, c1, c2, c3⟩ := path_two hzn hbz hk hkE1 hkE2 hE1 hn0 hnlt hsig hun hub hu2
      (by rw [hxe] at hc; omega) hfar hnear
    have := fmaReduce_two ht hz hu hc hm hv
    rw [hq] at this
    exact ⟨_, _, this, hfin v1 v2 n1 n2 c1 c2 c3⟩

end Verif.Trig
