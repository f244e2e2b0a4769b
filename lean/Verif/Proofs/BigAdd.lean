import Verif.Proofs.BigFma

/-!
# Values and errors of the sum and the product of `BigFloat`
-/

set_option exponentiation.threshold 2000

namespace Verif.BigFloat

open BigUInt LawfulBigUInt

/-- The last part of `add` -/
def addTail (gx gy e : ℤ) (sx sy : U256) : Option BigFloat := do
  let op := if gx ≠ gy then subSignifs else addSignifs
  let swap := BigUInt.lt sx sy
  let signum := if swap then gy else gx
  let (s, adj) ← if swap then op sy sx else op sx sy
  if BigUInt.isZero s then return ⟨0, 0, s⟩ else return ⟨signum, e + adj, s⟩

theorem add_eq_tail {x y : BigFloat} (hx : Sgn x.signum) (hy : Sgn y.signum) (h1 : max x.exp y.exp - x.exp ≤ 254)
    (h2 : max x.exp y.exp - y.exp ≤ 254) : add x y = addTail x.signum y.signum (max x.exp y.exp)
      (UInt.wideningShr x.signif (max x.exp y.exp - x.exp).toNat).1
      (UInt.wideningShr y.signif (max x.exp y.exp - y.exp).toNat).1 := by
  unfold add
  dsimp only
  rw [isZero_false hx, isZero_false hy, if_neg (by simp; omega), if_neg (by simp; omega)]
  rfl

theorem lz_hi {z : U256} (h : 2 ^ 254 ≤ nat256 z) :
    BigUInt.leadingZeros z.hi = 0 ↔ 2 ^ 255 ≤ nat256 z := by
  have hz : nat256 z = z.hi.toNat * 2 ^ 128 + z.lo.toNat := rfl
  have h1 := z.hi.isLt
  have h2 := z.lo.isLt
  have hl := LawfulBigUInt.leadingZeros_eq (α := U128) z.hi
  have e : LawfulBigUInt.toNat z.hi = z.hi.toNat := rfl
  rw [e, if_neg (by omega)] at hl
  have hb : BITS U128 = 128 := rfl
  rw [hl, hb]
  constructor
  · intro h0
    by_contra hc
    rw [log2_of (k := 126) (by omega) (by omega)] at h0
    omega
  · intro hc
    rw [log2_of (k := 127) (by omega) (by omega)]

theorem addSignifs_spec {a b : U256} (hlt : nat256 a + nat256 b < 2 ^ 256) (hge : 2 ^ 254 ≤ nat256 a + nat256 b) :
    ∃ (s : U256) (j : ℕ), addSignifs a b = some (s, (j : ℤ)) ∧ 2 ^ 254 ≤ nat256 s ∧ nat256 s < 2 ^ 255 ∧
      nat256 s * 2 ^ j ≤ nat256 a + nat256 b ∧ nat256 a + nat256 b ≤ nat256 s * 2 ^ j + 1 := by
  obtain ⟨z, hz, hn⟩ := UInt.add_some (x := a) (y := b) hlt
  have hn' : nat256 z = nat256 a + nat256 b := hn
  clear hn
  unfold addSignifs
  rw [hz, Option.bind_eq_bind, Option.bind_some]
  clear hz
  rw [← hn'] at hlt hge ⊢
  by_cases h : 2 ^ 255 ≤ nat256 z
  · rw [if_pos ((lz_hi hge).mpr h)]
    have hs : nat256 (UInt.shr z 1) = nat256 z / 2 := by rw [nat_shr256 _ (by norm_num), pow_one]
    refine ⟨UInt.shr z 1, 1, rfl, ?_, ?_, ?_, ?_⟩ <;> rw [hs] <;> omega
  · rw [if_neg (fun hc => h ((lz_hi hge).mp hc))]
    refine ⟨z, 0, rfl, hge, by omega, ?_, ?_⟩ <;> omega

theorem subSignifs_spec {a b : U256} {X : ℕ} (h : nat256 a = nat256 b + X) (hX : X < 2 ^ 255) :
    ∃ (s : U256) (j : ℕ), subSignifs a b = some (s, -(j : ℤ)) ∧ nat256 s = X * 2 ^ j ∧
      (X ≠ 0 → 2 ^ 254 ≤ nat256 s ∧ nat256 s < 2 ^ 255) := by
  obtain ⟨z, hz, hn⟩ := UInt.sub_some (x := a) (y := b) (by show nat256 b ≤ nat256 a; omega)
  have hn' : nat256 z = X := by
    have : nat256 z = nat256 a - nat256 b := hn
    omega
  unfold subSignifs
  rw [hz, Option.bind_eq_bind, Option.bind_some]
  clear hz hn h
  by_cases h0 : X = 0
  · have hl : UInt.leadingZeros z = 256 := by
      have := UInt.leadingZeros_eq z
      rw [if_pos (show UInt.nat z = 0 from hn'.trans h0)] at this
      exact this
    have hs : u32Sub (UInt.leadingZeros z) 1 = 255 := by
      rw [hl, u32Sub_eq (by norm_num) (by norm_num)]
    rw [hs]
    refine ⟨UInt.shl z 255, 255, rfl, ?_, fun h => absurd h0 h⟩
    rw [nat_shl256_of_lt _ (by norm_num), hn']
    rw [hn', h0]
    norm_num
  · obtain ⟨k, hk, k1, k2⟩ := exists_log h0 hX
    have hl := lz256_of (z := z) (k := k) (by rw [hn']; exact k1) (by rw [hn']; exact k2)
    have hs : u32Sub (UInt.leadingZeros z) 1 = 254 - k := by
      rw [hl, u32Sub_eq (by clear k1 k2 hl hX; omega) (by clear k1 k2 hl hX; omega)]
      clear k1 k2 hl hX
      omega
    rw [hs]
    have hlt : X * 2 ^ (254 - k) < 2 ^ 255 := by
      rw [← pow_split (a := k + 1) (b := 254 - k) (c := 255) (by clear k1 k2 hX; omega)]
      exact Nat.mul_lt_mul_of_pos_right k2 (Nat.two_pow_pos _)
    have hsh : nat256 (UInt.shl z (254 - k)) = X * 2 ^ (254 - k) := by
      rw [nat_shl256_of_lt _ (by clear k1 k2 hX hlt; omega), hn']
      rw [hn']
      exact lt_trans hlt (by norm_num)
    refine ⟨UInt.shl z (254 - k), 254 - k, rfl, hsh, fun _ => ?_⟩
    rw [hsh]
    refine ⟨?_, hlt⟩
    rw [← pow_split (a := k) (b := 254 - k) (c := 254) (by clear k1 k2 hX hlt hsh; omega)]
    exact Nat.mul_le_mul_right _ k1

theorem lt256 (x y : U256) : BigUInt.lt x y = decide (nat256 x < nat256 y) := lt_eq (α := U256) x y

theorem isZero256' (x : U256) : BigUInt.isZero x = decide (nat256 x = 0) := LawfulBigUInt.isZero_eq (α := U256) x

theorem nat256_zero {s : U256} (h : nat256 s = 0) : s = UInt.zero :=
  nat256_inj (h.trans zero256.symm)

theorem addTail_spec {gx gy e : ℤ} {sx sy : U256} (hx : Sgn gx) (hy : Sgn gy) (hx0 : 0 < nat256 sx)
    (hy0 : 0 < nat256 sy) (hxl : nat256 sx ≤ 2 ^ 255) (hyl : nat256 sy ≤ 2 ^ 255)
    (hge : 2 ^ 254 ≤ nat256 sx ∨ 2 ^ 254 ≤ nat256 sy) (hov : gx = gy → nat256 sx + nat256 sy < 2 ^ 256) :
    ∃ r, addTail gx gy e sx sy = some r ∧ (r = ZERO ∨ Norm r) ∧
      |bval r - (gx * (nat256 sx : ℝ) + gy * (nat256 sy : ℝ)) * (2 : ℝ) ^ (e - 254)| ≤ (2 : ℝ) ^ (e - 254) ∧
      (gx ≠ gy → bval r = (gx * (nat256 sx : ℝ) + gy * (nat256 sy : ℝ)) * (2 : ℝ) ^ (e - 254)) := by
  unfold addTail
  dsimp only
  rw [lt256]
  have hF := two_zpow (e - 254)
  by_cases hg : gx = gy
  · -- both orders
    have key : ∀ a b : U256, nat256 a + nat256 b = nat256 sx + nat256 sy → ∃ s j, addSignifs a b = some (s, j) ∧
        BigUInt.isZero s = false ∧ Norm ⟨gx, e + j, s⟩ ∧
        |bval ⟨gx, e + j, s⟩ - (gx * (nat256 sx : ℝ) + gx * (nat256 sy : ℝ)) * (2 : ℝ) ^ (e - 254)| ≤ (2 : ℝ) ^ (e - 254) := by
      intro a b hab
      obtain ⟨s, j, h1, h2, h3, h4, h5⟩ := addSignifs_spec (a := a) (b := b) (by rw [hab]; exact hov hg) (by
        rw [hab]; clear * - hge; omega)
      refine ⟨s, j, h1, ?_, ⟨hx, h2, h3⟩, ?_⟩
      · rw [isZero256', decide_eq_false]
        clear * - h2; omega
      · rw [hab] at h4 h5
        have h4' : (nat256 s : ℝ) * 2 ^ j ≤ nat256 sx + nat256 sy := by exact_mod_cast h4
        have h5' : (nat256 sx : ℝ) + nat256 sy ≤ (nat256 s : ℝ) * 2 ^ j + 1 := by exact_mod_cast h5
        unfold bval
        dsimp only
        rw [show e + j - 254 = e - 254 + (j : ℤ) by ring, zpow_add_nat]
        rw [show (gx : ℝ) * (nat256 s : ℝ) * ((2 : ℝ) ^ (e - 254) * 2 ^ j) - (gx * (nat256 sx : ℝ) + gx * (nat256 sy : ℝ)) *
          (2 : ℝ) ^ (e - 254) = gx * ((nat256 s : ℝ) * 2 ^ j - (nat256 sx + nat256 sy)) * (2 : ℝ) ^ (e - 254) by ring]
        rw [abs_mul, abs_mul, sgn_abs hx, one_mul, abs_of_pos hF]
        refine mul_le_of_le_one_left hF.le ?_
        rw [abs_le]
        constructor <;> linarith
    rw [← hg]
    have hop : (if gx ≠ gx then subSignifs else addSignifs) = addSignifs := if_neg (fun h => h rfl)
    rw [hop]
    by_cases hs : nat256 sx < nat256 sy
    · obtain ⟨s, j, h1, h2, h3, h4⟩ := key sy sx (Nat.add_comm _ _)
      rw [decide_eq_true hs]
      simp only [if_true]
      rw [h1, Option.bind_eq_bind, Option.bind_some]
      dsimp only
      rw [h2]
      exact ⟨_, rfl, Or.inr h3, h4, fun h => absurd rfl h⟩
    · obtain ⟨s, j, h1, h2, h3, h4⟩ := key sx sy rfl
      rw [decide_eq_false hs]
      simp only [if_false, Bool.false_eq_true]
      rw [h1, Option.bind_eq_bind, Option.bind_some]
      dsimp only
      rw [h2]
      exact ⟨_, rfl, Or.inr h3, h4, fun h => absurd rfl h⟩
  · have key : ∀ (a b : U256) (g : ℤ), Sgn g → nat256 b ≤ nat256 a → 0 < nat256 b → nat256 a ≤ 2 ^ 255 →
        ∃ s j, subSignifs a b = some (s, j) ∧
        (BigUInt.isZero s = true ∧ s = UInt.zero ∧ nat256 a = nat256 b ∨ BigUInt.isZero s = false ∧ Norm ⟨g, e + j, s⟩ ∧
        bval ⟨g, e + j, s⟩ = g * ((nat256 a : ℝ) - (nat256 b : ℝ)) * (2 : ℝ) ^ (e - 254)) := by
      intro a b g hg1 hab hb0 hal
      obtain ⟨X, hX⟩ := Nat.exists_eq_add_of_le hab
      obtain ⟨s, j, h1, h2, h3⟩ := subSignifs_spec hX (by clear * - hX hb0 hal; omega)
      refine ⟨s, _, h1, ?_⟩
      by_cases h0 : X = 0
      · left
        have hs0 : nat256 s = 0 := by rw [h2, h0, Nat.zero_mul]
        exact ⟨by rw [isZero256', decide_eq_true hs0], nat256_zero hs0, by rw [hX, h0, Nat.add_zero]⟩
      · right
        obtain ⟨h4, h5⟩ := h3 h0
        refine ⟨?_, ⟨hg1, h4, h5⟩, ?_⟩
        · rw [isZero256', decide_eq_false]
          clear * - h4; omega
        · unfold bval
          dsimp only
          have hXr : (nat256 a : ℝ) - nat256 b = X := by rw [hX]; push_cast; ring
          rw [hXr, h2, show e - 254 = e + -(j : ℤ) - 254 + (j : ℤ) by ring, zpow_add_nat]
          push_cast
          ring
    have hop : (if gx ≠ gy then subSignifs else addSignifs) = subSignifs := if_pos hg
    rw [hop]
    have hgy : (gy : ℝ) = - gx := by
      rcases hx with rfl | rfl <;> rcases hy with rfl | rfl <;> first | exact absurd rfl hg | norm_num
    by_cases hs : nat256 sx < nat256 sy
    · obtain ⟨s, j, h1, h2⟩ := key sy sx gy hy hs.le hx0 hyl
      rw [decide_eq_true hs]
      simp only [if_true]
      rw [h1, Option.bind_eq_bind, Option.bind_some]
      dsimp only
      rcases h2 with ⟨h2, h3, h4⟩ | ⟨h2, h3, h4⟩
      · exact absurd h4 hs.ne'
      · rw [h2]
        refine ⟨_, rfl, Or.inr h3, ?_, fun _ => ?_⟩
        · rw [h4, hgy, show -(gx : ℝ) * ((nat256 sy : ℝ) - nat256 sx) * (2 : ℝ) ^ (e - 254) -
            (gx * (nat256 sx : ℝ) + -(gx : ℝ) * nat256 sy) * (2 : ℝ) ^ (e - 254) = 0 by ring, abs_zero]
          exact hF.le
        · rw [h4, hgy]; ring
    · obtain ⟨s, j, h1, h2⟩ := key sx sy gx hx (not_lt.mp hs) hy0 hxl
      rw [decide_eq_false hs]
      simp only [if_false, Bool.false_eq_true]
      rw [h1, Option.bind_eq_bind, Option.bind_some]
      dsimp only
      rcases h2 with ⟨h2, h3, h4⟩ | ⟨h2, h3, h4⟩
      · rw [h2, h3]
        refine ⟨ZERO, rfl, Or.inl rfl, ?_, fun _ => ?_⟩
        · rw [h4, hgy, show bval ZERO - (gx * (nat256 sy : ℝ) + -(gx : ℝ) * nat256 sy) * (2 : ℝ) ^ (e - 254) = 0 by
            simp [bval, ZERO], abs_zero]
          exact hF.le
        · rw [h4, hgy]; simp [bval, ZERO]
      · rw [h2]
        refine ⟨_, rfl, Or.inr h3, ?_, fun _ => ?_⟩
        · rw [h4, hgy, show (gx : ℝ) * ((nat256 sx : ℝ) - nat256 sy) * (2 : ℝ) ^ (e - 254) -
            (gx * (nat256 sx : ℝ) + -(gx : ℝ) * nat256 sy) * (2 : ℝ) ^ (e - 254) = 0 by ring, abs_zero]
          exact hF.le
        · rw [h4, hgy]; ring

/-! ## Sizes -/

theorem isZero_zero : ZERO.isZero = true := by decide

theorem bval_zero : bval ZERO = 0 := by simp [bval, ZERO]

theorem bval_abs {x : BigFloat} (h : Sgn x.signum) : |bval x| = (nat256 x.signif : ℝ) * (2 : ℝ) ^ (x.exp - 254) := by
  unfold bval
  rw [abs_mul, abs_mul, sgn_abs h, one_mul, abs_of_pos (two_zpow _), abs_of_nonneg (Nat.cast_nonneg _)]

theorem Norm'.lower {x : BigFloat} (h : Norm' x) : (2 : ℝ) ^ x.exp ≤ |bval x| := by
  rw [bval_abs h.1, show x.exp = x.exp - 254 + ((254 : ℕ) : ℤ) by push_cast; ring, zpow_add_nat,
    show x.exp - 254 + ((254 : ℕ) : ℤ) - 254 = x.exp - 254 by push_cast; ring, mul_comm]
  refine mul_le_mul_of_nonneg_right ?_ (two_zpow _).le
  have := h.2.1
  exact_mod_cast this

theorem Norm'.upper {x : BigFloat} (h : Norm' x) : |bval x| ≤ (2 : ℝ) ^ (x.exp + 1) := by
  rw [bval_abs h.1, show x.exp + 1 = x.exp - 254 + ((255 : ℕ) : ℤ) by push_cast; ring, zpow_add_nat, mul_comm]
  refine mul_le_mul_of_nonneg_left ?_ (two_zpow _).le
  have := h.2.2
  exact_mod_cast this

theorem Norm.upper {x : BigFloat} (h : Norm x) : |bval x| < (2 : ℝ) ^ (x.exp + 1) := by
  rw [bval_abs h.1, show x.exp + 1 = x.exp - 254 + ((255 : ℕ) : ℤ) by push_cast; ring, zpow_add_nat, mul_comm]
  refine mul_lt_mul_of_pos_left ?_ (two_zpow _)
  have := h.2.2
  exact_mod_cast this

theorem Norm'.ne_zero {x : BigFloat} (h : Norm' x) : bval x ≠ 0 :=
  abs_pos.mp (lt_of_lt_of_le (two_zpow _) h.lower)

/-- What is shifted out -/
theorem wide_trunc (s : U256) (g : ℕ) (hg : g ≤ 254) (h1 : 2 ^ 254 ≤ nat256 s) (h2 : nat256 s ≤ 2 ^ 255) :
    0 < nat256 (UInt.wideningShr s g).1 ∧ nat256 (UInt.wideningShr s g).1 ≤ 2 ^ 255 ∧
    (1 ≤ g → nat256 (UInt.wideningShr s g).1 ≤ 2 ^ 254) ∧ (g = 0 → nat256 (UInt.wideningShr s g).1 = nat256 s) ∧
    ∃ θ : ℝ, 0 ≤ θ ∧ θ ≤ 1 ∧ (g = 0 → θ = 0) ∧ (nat256 s : ℝ) = ((nat256 (UInt.wideningShr s g).1 : ℝ) + θ) * 2 ^ g := by
  have hn : nat256 (UInt.wideningShr s g).1 = nat256 s / 2 ^ g := by
    cases g with
    | zero => simp [UInt.wideningShr]
    | succ k =>
      have : (UInt.wideningShr s (k + 1)).1 = UInt.shr s (k + 1) := rfl
      rw [this, nat_shr256 _ (by omega)]
  have hp := Nat.two_pow_pos g
  have hp' : (0 : ℝ) < 2 ^ g := by positivity
  rw [hn]
  refine ⟨Nat.div_pos ((Nat.pow_le_pow_right (by norm_num) hg).trans h1) hp, (Nat.div_le_self _ _).trans h2, ?_, ?_, ?_⟩
  · intro h
    refine Nat.div_le_of_le_mul ?_
    refine h2.trans ?_
    have : 2 ^ 1 ≤ 2 ^ g := Nat.pow_le_pow_right (by norm_num) h
    rw [← pow_split (a := 1) (b := 254) (c := 255) rfl]
    exact Nat.mul_le_mul_right _ this
  · intro h; rw [h, pow_zero, Nat.div_one]
  · refine ⟨((nat256 s % 2 ^ g : ℕ) : ℝ) / 2 ^ g, by positivity, ?_, ?_, ?_⟩
    · rw [div_le_one hp']
      have := (Nat.mod_lt (nat256 s) hp).le
      exact_mod_cast this
    · intro h
      rw [h, pow_zero, Nat.mod_one]; simp
    · rw [add_mul, div_mul_cancel₀ _ hp'.ne']
      have := Nat.div_add_mod (nat256 s) (2 ^ g)
      rw [mul_comm] at this
      exact_mod_cast this.symm

/-- One of the operands carries no weight. -/
theorem drop_bound {x y : BigFloat} (hx : Norm' x) (hy : Norm' y) (h : max x.exp y.exp - x.exp > 254) :
    |bval x| ≤ |bval y| / 2 ^ 253 := by
  have h1 := hx.upper
  have h2 := hy.lower
  have h3 : (2 : ℝ) ^ (x.exp + 1) ≤ 2 ^ (y.exp - 253) := pow_mono2 (by omega)
  rw [zpow_sub₀ (by norm_num)] at h3
  refine h1.trans (h3.trans ?_)
  rw [show ((2 : ℝ) ^ (253 : ℤ)) = 2 ^ 253 from rfl]
  exact div_le_div_of_nonneg_right h2 (by positivity)

theorem both_close {x y : BigFloat} (hx : Norm' x) (hy : Norm' y)
    (h1 : max x.exp y.exp - x.exp ≤ 254) (h2 : max x.exp y.exp - y.exp ≤ 254)
    (hno : ¬ (nat256 x.signif = 2 ^ 255 ∧ nat256 y.signif = 2 ^ 255 ∧ x.signum = y.signum)) :
    ∃ r, add x y = some r ∧ (r = ZERO ∨ Norm r) ∧
      |bval r - (bval x + bval y)| ≤ (|bval x| + |bval y|) / 2 ^ 253 ∧
      (x.exp = y.exp → x.signum ≠ y.signum → bval r = bval x + bval y) := by
  rw [add_eq_tail hx.1 hy.1 h1 h2]
  obtain ⟨e, he⟩ : ∃ e, max x.exp y.exp = e := ⟨_, rfl⟩
  rw [he] at h1 h2 ⊢
  obtain ⟨gx, hgx⟩ : ∃ g : ℕ, e - x.exp = g := ⟨(e - x.exp).toNat, by omega⟩
  obtain ⟨gy, hgy⟩ : ∃ g : ℕ, e - y.exp = g := ⟨(e - y.exp).toNat, by omega⟩
  rw [hgx, hgy, Int.toNat_natCast, Int.toNat_natCast]
  have hg : gx = 0 ∨ gy = 0 := by omega
  obtain ⟨x1, x2, x3, x4, θ, x5, x6, x7, x8⟩ := wide_trunc x.signif gx (by omega) hx.2.1 hx.2.2
  obtain ⟨y1, y2, y3, y4, η, y5, y6, y7, y8⟩ := wide_trunc y.signif gy (by omega) hy.2.1 hy.2.2
  have hvx : bval x = x.signum * ((nat256 (UInt.wideningShr x.signif gx).1 : ℝ) + θ) * (2 : ℝ) ^ (e - 254) := by
    unfold bval
    rw [x8, show e - 254 = x.exp - 254 + (gx : ℤ) by omega, zpow_add_nat]
    ring
  have hvy : bval y = y.signum * ((nat256 (UInt.wideningShr y.signif gy).1 : ℝ) + η) * (2 : ℝ) ^ (e - 254) := by
    unfold bval
    rw [y8, show e - 254 = y.exp - 254 + (gy : ℤ) by omega, zpow_add_nat]
    ring
  have hmax : (2 : ℝ) ^ e ≤ |bval x| + |bval y| := by
    have a1 := hx.lower
    have a2 := hy.lower
    have a3 := abs_nonneg (bval x)
    have a4 := abs_nonneg (bval y)
    rcases max_choice x.exp y.exp with h | h
    · rw [← he, h]; linarith
    · rw [← he, h]; linarith
  have hx9 := hx.2.1
  have hy9 := hy.2.1
  have hx10 := hx.2.2
  have hy10 := hy.2.2
  generalize (UInt.wideningShr x.signif gx).1 = sx at *
  generalize (UInt.wideningShr y.signif gy).1 = sy at *
  obtain ⟨r, hr, hs, hb, hex⟩ := addTail_spec (e := e) (sx := sx) (sy := sy) hx.1 hy.1 x1 y1 x2 y2 (by
    rcases hg with h | h
    · left; rw [x4 h]; exact hx9
    · right; rw [y4 h]; exact hy9) (by
    intro hs
    clear hvx hvy hmax x8 y8
    rcases Nat.eq_zero_or_pos gx with h | h
    · rcases Nat.eq_zero_or_pos gy with h' | h'
      · rw [x4 h, y4 h'] at *
        by_contra hc
        exact hno ⟨by clear * - hc hx10 hy10; omega, by clear * - hc hx10 hy10; omega, hs⟩
      · have := y3 h'
        clear * - this x2
        omega
    · have := x3 h
      clear * - this y2
      omega)
  refine ⟨r, hr, hs, ?_, ?_⟩
  · have hF := two_zpow (e - 254)
    have hu : (2 : ℝ) ^ (e - 254) * 2 = (2 : ℝ) ^ e / 2 ^ 253 := by
      rw [zpow_sub₀ (by norm_num), show ((2 : ℝ) ^ (254 : ℤ)) = 2 ^ 254 from rfl]
      ring
    refine le_trans ?_ (div_le_div_of_nonneg_right hmax (by positivity))
    rw [← hu]
    have e1 : bval r - (bval x + bval y) = (bval r - ((x.signum : ℝ) * (nat256 sx : ℝ) + y.signum * (nat256 sy : ℝ)) *
        (2 : ℝ) ^ (e - 254)) - (x.signum * θ + y.signum * η) * (2 : ℝ) ^ (e - 254) := by
      rw [hvx, hvy]; ring
    have e2 : |(x.signum * θ + y.signum * η) * (2 : ℝ) ^ (e - 254)| ≤ (2 : ℝ) ^ (e - 254) := by
      rw [abs_mul, abs_of_pos hF]
      refine mul_le_of_le_one_left hF.le ?_
      rcases hg with h | h
      · rw [x7 h, mul_zero, zero_add, abs_mul, sgn_abs hy.1, one_mul, abs_of_nonneg y5]; exact y6
      · rw [y7 h, mul_zero, add_zero, abs_mul, sgn_abs hx.1, one_mul, abs_of_nonneg x5]; exact x6
    rw [e1]
    refine (abs_sub _ _).trans ?_
    rw [mul_two]
    exact add_le_add hb e2
  · intro hxy hsgn
    rw [hex hsgn, hvx, hvy, x7 (by omega), y7 (by omega)]
    ring

/-- Sums -/
theorem add_core {x y : BigFloat} (hx : x = ZERO ∨ Norm' x) (hy : y = ZERO ∨ Norm' y)
    (hno : ¬ (nat256 x.signif = 2 ^ 255 ∧ nat256 y.signif = 2 ^ 255 ∧ x.signum = y.signum)) :
    ∃ r, add x y = some r ∧ (r = ZERO ∨ Norm r ∨ r = x ∨ r = y) ∧
      |bval r| ≤ |bval x + bval y| + (|bval x| + |bval y|) / 2 ^ 253 ∧
      (bval x ≠ 0 → bval y ≠ 0 → |bval r - (bval x + bval y)| ≤ (|bval x| + |bval y|) / 2 ^ 253) := by
  have hpos : 0 ≤ (|bval x| + |bval y|) / 2 ^ 253 := by positivity
  have fin : ∀ r, |bval r - (bval x + bval y)| ≤ (|bval x| + |bval y|) / 2 ^ 253 →
      |bval r| ≤ |bval x + bval y| + (|bval x| + |bval y|) / 2 ^ 253 := by
    intro r h
    have := abs_sub_abs_le_abs_sub (bval r) (bval x + bval y)
    linarith
  rcases hx with rfl | hx
  · refine ⟨y, ?_, Or.inr (Or.inr (Or.inr rfl)), ?_, ?_⟩
    · unfold add
      dsimp only
      rw [if_pos (Or.inl isZero_zero)]
    · rw [bval_zero, zero_add] at *; linarith
    · intro h; exact absurd bval_zero h
  · by_cases h1 : max x.exp y.exp - x.exp > 254
    · refine ⟨y, ?_, Or.inr (Or.inr (Or.inr rfl)), ?_⟩
      · unfold add
        dsimp only
        rw [if_pos (Or.inr h1)]
      · rcases hy with rfl | hy
        · refine ⟨?_, fun _ h => absurd bval_zero h⟩
          rw [bval_zero, abs_zero]
          rw [bval_zero, abs_zero] at hpos
          exact add_nonneg (abs_nonneg _) hpos
        · have hd := drop_bound hx hy h1
          have hc : |bval y - (bval x + bval y)| ≤ (|bval x| + |bval y|) / 2 ^ 253 := by
            rw [show bval y - (bval x + bval y) = - bval x by ring, abs_neg, add_div]
            have : 0 ≤ |bval x| / 2 ^ 253 := by positivity
            linarith
          exact ⟨fin y hc, fun _ _ => hc⟩
    · rcases hy with rfl | hy
      · refine ⟨x, ?_, Or.inr (Or.inr (Or.inl rfl)), ?_, fun _ h => absurd bval_zero h⟩
        · unfold add
          dsimp only
          rw [isZero_false hx.1, if_neg (by rintro (h | h); exact absurd h (by decide); exact h1 h), if_pos (Or.inl isZero_zero)]
        · rw [bval_zero, add_zero] at *; linarith
      · by_cases h2 : max x.exp y.exp - y.exp > 254
        · refine ⟨x, ?_, Or.inr (Or.inr (Or.inl rfl)), ?_⟩
          · unfold add
            dsimp only
            rw [isZero_false hx.1, if_neg (by rintro (h | h); exact absurd h (by decide); exact h1 h), if_pos (Or.inr h2)]
          · have hd := drop_bound hy hx (by rw [max_comm]; exact h2)
            have hc : |bval x - (bval x + bval y)| ≤ (|bval x| + |bval y|) / 2 ^ 253 := by
              rw [show bval x - (bval x + bval y) = - bval y by ring, abs_neg, add_div]
              have : 0 ≤ |bval y| / 2 ^ 253 := by positivity
              linarith
            exact ⟨fin x hc, fun _ _ => hc⟩
        · obtain ⟨r, hr, hs, hb, -⟩ := both_close hx hy (not_lt.mp h1) (not_lt.mp h2) hno
          refine ⟨r, hr, ?_, fin r hb, fun _ _ => hb⟩
          rcases hs with h | h
          · exact Or.inl h
          · exact Or.inr (Or.inl h)

end Verif.BigFloat
