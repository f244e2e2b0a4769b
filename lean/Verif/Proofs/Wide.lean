import Verif.Model.Wide
import Verif.Proofs.DivRem
import Verif.Proofs.RemPow2

/-!
# Wide integers as lists of words, division by words, decimal helpers
-/

namespace Verif

open BigUInt LawfulBigUInt

/-- The number denoted by a list of 128-bit words, most significant first. -/
def wordsVal : List (BitVec 128) → ℕ
  | [] => 0
  | w :: ws => w.toNat * 2 ^ (128 * ws.length) + wordsVal ws

theorem wordsVal_append (l m : List (BitVec 128)) :
    wordsVal (l ++ m) = wordsVal l * 2 ^ (128 * m.length) + wordsVal m := by
  induction l with
  | nil => simp [wordsVal]
  | cons w ws ih =>
    rw [List.cons_append, wordsVal, wordsVal, ih, List.length_append, Nat.mul_add, pow_add]
    ring

theorem wordsVal_lt (l : List (BitVec 128)) : wordsVal l < 2 ^ (128 * l.length) := by
  induction l with
  | nil => simp [wordsVal]
  | cons w ws ih =>
    rw [wordsVal, List.length_cons, Nat.mul_add, Nat.mul_one, pow_add, Nat.mul_comm (2 ^ _) (2 ^ 128)]
    exact UInt.base_lt w.isLt ih

/-- All the laws, at each width. -/
@[instance_reducible] def Wide.lawful : (n : ℕ) → LawfulBigUInt (Wide n)
  | 0 => inferInstanceAs (LawfulBigUInt U128)
  | n + 1 => @UInt.instLawfulBigUInt (Wide n) _ (Wide.lawful n)

instance (n : ℕ) : LawfulBigUInt (Wide n) := Wide.lawful n

theorem Wide.bits : (n : ℕ) → BITS (Wide n) = 128 * 2 ^ n
  | 0 => rfl
  | n + 1 => by
    show 2 * BITS (Wide n) = _
    rw [Wide.bits n, pow_succ]; ring

theorem Wide.toVec_length : (n : ℕ) → (x : Wide n) → (toVec x).length = 2 ^ n
  | 0, _ => rfl
  | n + 1, x => by
    show (toVec (UInt.hi x) ++ toVec (UInt.lo x)).length = _
    rw [List.length_append, Wide.toVec_length n, Wide.toVec_length n, pow_succ]; ring

theorem Wide.toNat_eq : (n : ℕ) → (x : Wide n) → toNat x = wordsVal (toVec x)
  | 0, x => by
    show BitVec.toNat x = wordsVal [x]
    simp [wordsVal]
  | n + 1, x => by
    show toNat (UInt.hi x) * 2 ^ BITS (Wide n) + toNat (UInt.lo x) =
      wordsVal (toVec (UInt.hi x) ++ toVec (UInt.lo x))
    rw [Wide.toNat_eq n, Wide.toNat_eq n, wordsVal_append, Wide.toVec_length, Wide.bits]

theorem Wide.toVec_ofVec : (n : ℕ) → (l : List (BitVec 128)) → l.length = 2 ^ n →
    toVec (ofVec l : Wide n) = l
  | 0, l, h => by
    obtain ⟨a, rfl⟩ := List.length_eq_one_iff.mp h
    rfl
  | n + 1, l, h => by
    show toVec (ofVec (l.take (l.length / 2)) : Wide n) ++ toVec (ofVec (l.drop (l.length / 2)) : Wide n) = l
    rw [pow_succ] at h
    rw [Wide.toVec_ofVec n _ (by rw [List.length_take]; omega),
      Wide.toVec_ofVec n _ (by rw [List.length_drop]; omega), List.take_append_drop]

theorem Wide.ofVec_toVec (n : ℕ) (x : Wide n) : ofVec (toVec x) = x := by
  apply LawfulBigUInt.toNat_inj
  rw [Wide.toNat_eq, Wide.toVec_ofVec _ _ (Wide.toVec_length n x), ← Wide.toNat_eq]

theorem divRemSub256 (x : U256) (d : U128) (h : d.toNat ≠ 0) : UInt.divRemSub x d =
    some (UInt.mkNat (UInt.nat x / d.toNat), BitVec.ofNat 128 (UInt.nat x % d.toNat)) :=
  UInt.divRemSub_spec x d h (fun _ => U128.divRem_exact _ _ h) (fun _ => U128.divRem_exact _ _ h)

theorem U128.divRem_eq (x d : U128) (h : d.toNat ≠ 0) : U128.divRem x d =
    some (BitVec.ofNat 128 (x.toNat / d.toNat), BitVec.ofNat 128 (x.toNat % d.toNat)) :=
  U128.divRem_exact x d h

theorem divChunks_spec (d : U128) (hd : d.toNat ≠ 0) : ∀ (cs : List U128) (rem : U128),
    rem.toNat < d.toNat → ∃ qs r, divChunks d rem cs = some (qs, r) ∧ qs.length = cs.length ∧
      r.toNat < d.toNat ∧
      rem.toNat * 2 ^ (128 * cs.length) + wordsVal cs = wordsVal qs * d.toNat + r.toNat
  | [], rem, h => ⟨[], rem, rfl, rfl, h, by simp [wordsVal]⟩
  | c :: cs, rem, h => by
    have hd0 : 0 < d.toNat := Nat.pos_of_ne_zero hd
    have hn : UInt.nat (⟨rem, c⟩ : U256) = rem.toNat * 2 ^ 128 + c.toNat := rfl
    have hq : (rem.toNat * 2 ^ 128 + c.toNat) / d.toNat < 2 ^ 128 := by
      rw [Nat.div_lt_iff_lt_mul hd0, Nat.mul_comm (2 ^ 128)]
      exact UInt.base_lt h c.isLt
    have hr : (rem.toNat * 2 ^ 128 + c.toNat) % d.toNat < d.toNat := Nat.mod_lt _ hd0
    have hr2 : (BitVec.ofNat 128 ((rem.toNat * 2 ^ 128 + c.toNat) % d.toNat)).toNat =
        (rem.toNat * 2 ^ 128 + c.toNat) % d.toNat := by
      rw [BitVec.toNat_ofNat, Nat.mod_eq_of_lt (lt_trans hr d.isLt)]
    obtain ⟨qs, r, h1, h2, h3, h4⟩ := divChunks_spec d hd cs
      (BitVec.ofNat 128 ((rem.toNat * 2 ^ 128 + c.toNat) % d.toNat)) (by rw [hr2]; exact hr)
    refine ⟨BitVec.ofNat 128 ((rem.toNat * 2 ^ 128 + c.toNat) / d.toNat) :: qs, r, ?_, ?_, h3, ?_⟩
    · rw [divChunks, divRemSub256 _ _ hd, hn]
      simp only [Option.bind_eq_bind, Option.bind_some, h1]
      rfl
    · simp [h2]
    · rw [hr2] at h4
      rw [wordsVal, wordsVal, BitVec.toNat_ofNat, Nat.mod_eq_of_lt hq, h2, List.length_cons,
        Nat.mul_add, Nat.mul_one, pow_add]
      have hdm := Nat.div_add_mod (rem.toNat * 2 ^ 128 + c.toNat) d.toNat
      generalize (rem.toNat * 2 ^ 128 + c.toNat) / d.toNat = a at *
      generalize (rem.toNat * 2 ^ 128 + c.toNat) % d.toNat = b at *
      calc rem.toNat * (2 ^ (128 * cs.length) * 2 ^ 128) + (c.toNat * 2 ^ (128 * cs.length) + wordsVal cs)
          = (rem.toNat * 2 ^ 128 + c.toNat) * 2 ^ (128 * cs.length) + wordsVal cs := by ring
        _ = d.toNat * a * 2 ^ (128 * cs.length) + (b * 2 ^ (128 * cs.length) + wordsVal cs) := by
            rw [← hdm]; ring
        _ = _ := by rw [h4]; ring

/-- Division of a wide integer by a word is exact. -/
theorem Wide.divRemU128_spec {n : ℕ} (x : Wide (n + 1)) (d : U128) (hd : d.toNat ≠ 0) :
    ∃ q r, UInt.divRemU128 (α := Wide n) x d = some (q, r) ∧
      toNat (α := Wide (n + 1)) q = toNat x / d.toNat ∧ r.toNat = toNat x % d.toNat := by
  have hd0 : 0 < d.toNat := Nat.pos_of_ne_zero hd
  have hlen := Wide.toVec_length (n + 1) x
  have hx := Wide.toNat_eq (n + 1) x
  have hdef : ∀ l, toVec x = l → UInt.divRemU128 (α := Wide n) x d = (match l with
    | [] => none
    | c :: cs => do
      let (q0, rem) ← U128.divRem c d
      let (qs, rem) ← divChunks d rem cs
      return ((ofVec (q0 :: qs) : Wide (n + 1)), rem)) := by
    intro l h; subst h; rfl
  generalize toVec x = l at *
  replace hdef := hdef l rfl
  match l with
  | [] => exact absurd hlen.symm (Nat.two_pow_pos _).ne'
  | c :: cs =>
    have hm : c.toNat % d.toNat < d.toNat := Nat.mod_lt _ hd0
    have hr2 : (BitVec.ofNat 128 (c.toNat % d.toNat)).toNat = c.toNat % d.toNat := by
      rw [BitVec.toNat_ofNat, Nat.mod_eq_of_lt (lt_trans hm d.isLt)]
    obtain ⟨qs, r, h1, h2, h3, h4⟩ := divChunks_spec d hd cs
      (BitVec.ofNat 128 (c.toNat % d.toNat)) (by rw [hr2]; exact hm)
    refine ⟨(ofVec (BitVec.ofNat 128 (c.toNat / d.toNat) :: qs) : Wide (n + 1)), r, ?_, ?_⟩
    · rw [hdef]
      simp only [U128.divRem_eq _ _ hd, Option.bind_eq_bind, Option.bind_some, h1]
      rfl
    · have hq : toNat (ofVec (BitVec.ofNat 128 (c.toNat / d.toNat) :: qs) : Wide (n + 1)) =
          c.toNat / d.toNat * 2 ^ (128 * cs.length) + wordsVal qs := by
        rw [Wide.toNat_eq, Wide.toVec_ofVec _ _ (by rw [← hlen]; simp [h2]), wordsVal, h2,
          BitVec.toNat_ofNat, Nat.mod_eq_of_lt (lt_of_le_of_lt (Nat.div_le_self _ _) c.isLt)]
      have key : toNat x = d.toNat * (c.toNat / d.toNat * 2 ^ (128 * cs.length) + wordsVal qs) +
          r.toNat := by
        rw [hr2] at h4
        rw [hx, wordsVal]
        have hdm := Nat.div_add_mod c.toNat d.toNat
        generalize c.toNat / d.toNat = a at *
        generalize c.toNat % d.toNat = b at *
        calc c.toNat * 2 ^ (128 * cs.length) + wordsVal cs
            = d.toNat * a * 2 ^ (128 * cs.length) + (b * 2 ^ (128 * cs.length) + wordsVal cs) := by
              rw [← hdm]; ring
          _ = _ := by rw [h4]; ring
      rw [hq]
      constructor
      · rw [key, Nat.mul_add_div hd0, Nat.div_eq_of_lt h3, Nat.add_zero]
      · rw [key, Nat.mul_add_mod, Nat.mod_eq_of_lt h3]

/-- The same at 512 bits. -/
theorem divRemU128_512 (x : U512) (d : U128) (hd : d.toNat ≠ 0) :
    ∃ (q : U512) (r : U128), UInt.divRemU128 x d = some (q, r) ∧
      UInt.nat q = UInt.nat x / d.toNat ∧ r.toNat = UInt.nat x % d.toNat :=
  Wide.divRemU128_spec (n := 1) x d hd

/-- Division of a 256-bit integer by a 64-bit word is exact. -/
theorem divRemU64_spec (x : U256) (d : BitVec 64) (hd : d.toNat ≠ 0) :
    ∃ q r, divRemU64 x d = some (q, r) ∧ UInt.nat q = UInt.nat x / d.toNat ∧
      r.toNat = UInt.nat x % d.toNat := by
  have hd0 : 0 < d.toNat := Nat.pos_of_ne_zero hd
  have hdl : (d.setWidth 128).toNat = d.toNat := by
    rw [BitVec.toNat_setWidth, Nat.mod_eq_of_lt (lt_trans d.isLt (by norm_num))]
  have hd' : (d.setWidth 128).toNat ≠ 0 := by rw [hdl]; exact hd
  have hm : x.hi.toNat % d.toNat < d.toNat := Nat.mod_lt _ hd0
  have hm2 : x.hi.toNat % d.toNat < 2 ^ 128 := lt_of_le_of_lt (Nat.mod_le _ _) x.hi.isLt
  obtain ⟨q, r, h1, h2, h3⟩ := Wide.divRemU128_spec (n := 0)
    (⟨BitVec.ofNat 128 (x.hi.toNat % d.toNat), x.lo⟩ : U256) (d.setWidth 128) hd'
  have hnat : toNat (α := Wide 1) (⟨BitVec.ofNat 128 (x.hi.toNat % d.toNat), x.lo⟩ : U256) =
      x.hi.toNat % d.toNat * 2 ^ 128 + x.lo.toNat := by
    show (BitVec.ofNat 128 (x.hi.toNat % d.toNat)).toNat * 2 ^ 128 + x.lo.toNat = _
    rw [BitVec.toNat_ofNat, Nat.mod_eq_of_lt hm2]
  rw [hnat, hdl] at h2 h3
  have hqlo : q.lo.toNat = (x.hi.toNat % d.toNat * 2 ^ 128 + x.lo.toNat) / d.toNat := by
    rw [← h2]
    have h4 : (x.hi.toNat % d.toNat * 2 ^ 128 + x.lo.toNat) / d.toNat < 2 ^ 128 := by
      rw [Nat.div_lt_iff_lt_mul hd0, Nat.mul_comm (2 ^ 128)]
      exact UInt.base_lt hm x.lo.isLt
    rw [← h2] at h4
    have h5 : toNat (α := Wide 1) q = q.hi.toNat * 2 ^ 128 + q.lo.toNat := rfl
    rw [h5] at h4 ⊢
    omega
  have hx : UInt.nat x = d.toNat * (x.hi.toNat / d.toNat * 2 ^ 128) +
      (x.hi.toNat % d.toNat * 2 ^ 128 + x.lo.toNat) := by
    show x.hi.toNat * 2 ^ 128 + x.lo.toNat = _
    conv_lhs => rw [← Nat.div_add_mod x.hi.toNat d.toNat]
    ring
  refine ⟨⟨BitVec.ofNat 128 (x.hi.toNat / d.toNat), q.lo⟩, r.setWidth 64, ?_, ?_, ?_⟩
  · unfold divRemU64
    rw [U128.divRem_eq _ _ hd', hdl]
    simp only [Option.bind_eq_bind, Option.bind_some]
    erw [h1]
    rfl
  · show (BitVec.ofNat 128 (x.hi.toNat / d.toNat)).toNat * 2 ^ 128 + q.lo.toNat = _
    rw [BitVec.toNat_ofNat, Nat.mod_eq_of_lt (lt_of_le_of_lt (Nat.div_le_self _ _) x.hi.isLt), hqlo,
      hx, Nat.mul_add_div hd0]
  · rw [BitVec.toNat_setWidth, h3, hx, Nat.mul_add_mod]
    exact Nat.mod_eq_of_lt (lt_trans (Nat.mod_lt _ hd0) d.isLt)

/-- `x * 10 + d` as long as it fits. -/
theorem imul10Add_spec (x : U256) (d : BitVec 8) (h : UInt.nat x * 10 + d.toNat < 2 ^ 256) :
    UInt.nat (imul10Add x d) = UInt.nat x * 10 + d.toNat := by
  have hx : UInt.nat x = x.hi.toNat * 2 ^ 128 + x.lo.toNat := rfl
  rw [hx] at h ⊢
  show (imul10Add x d).hi.toNat * 2 ^ 128 + (imul10Add x d).lo.toNat = _
  unfold imul10Add
  dsimp only
  have e1 : (d.setWidth 128).toNat = d.toNat := by
    rw [BitVec.toNat_setWidth, Nat.mod_eq_of_lt (lt_trans d.isLt (by norm_num))]
  have hd := d.isLt
  have e10 : (10 : BitVec 128).toNat = 10 := rfl
  have hH := x.hi.isLt
  have hL := x.lo.isLt
  obtain ⟨t0, ht0⟩ : ∃ t, t = U128.lo64 x.lo * 10 + d.setWidth 128 := ⟨_, rfl⟩
  obtain ⟨t1, ht1⟩ : ∃ t, t = U128.hi64 x.lo * 10 + U128.hi64 t0 := ⟨_, rfl⟩
  obtain ⟨t2, ht2⟩ : ∃ t, t = U128.lo64 x.hi * 10 + U128.hi64 t1 := ⟨_, rfl⟩
  obtain ⟨t3, ht3⟩ : ∃ t, t = U128.hi64 x.hi * 10 + U128.hi64 t2 := ⟨_, rfl⟩
  rw [← ht0, ← ht1, ← ht2, ← ht3]
  have n0 : t0.toNat = x.lo.toNat % 2 ^ 64 * 10 + d.toNat := by
    rw [ht0, BitVec.toNat_add, BitVec.toNat_mul, U128.toNat_lo64, e1, e10]; omega
  have n1 : t1.toNat = x.lo.toNat / 2 ^ 64 * 10 + t0.toNat / 2 ^ 64 := by
    rw [ht1, BitVec.toNat_add, BitVec.toNat_mul, U128.toNat_hi64, U128.toNat_hi64, e10]; omega
  have n2 : t2.toNat = x.hi.toNat % 2 ^ 64 * 10 + t1.toNat / 2 ^ 64 := by
    rw [ht2, BitVec.toNat_add, BitVec.toNat_mul, U128.toNat_lo64, U128.toNat_hi64, e10]; omega
  have n3 : t3.toNat = x.hi.toNat / 2 ^ 64 * 10 + t2.toNat / 2 ^ 64 := by
    rw [ht3, BitVec.toNat_add, BitVec.toNat_mul, U128.toNat_hi64, U128.toNat_hi64, e10]; omega
  clear ht0 ht1 ht2 ht3
  simp only [BitVec.toNat_add, BitVec.toNat_shiftLeft, U128.toNat_lo64, Nat.shiftLeft_eq]
  generalize x.hi.toNat = H at *
  generalize x.lo.toNat = L at *
  generalize d.toNat = D at *
  clear hx e10 e1
  generalize t0.toNat = T0 at *
  generalize t1.toNat = T1 at *
  generalize t2.toNat = T2 at *
  generalize t3.toNat = T3 at *
  clear * - h hd hH hL n0 n1 n2 n3
  have q0 := Nat.div_add_mod T0 (2 ^ 64)
  have q1 := Nat.div_add_mod T1 (2 ^ 64)
  have q2 := Nat.div_add_mod T2 (2 ^ 64)
  have qH := Nat.div_add_mod H (2 ^ 64)
  have qL := Nat.div_add_mod L (2 ^ 64)
  have r0 : T0 % 2 ^ 64 < 2 ^ 64 := Nat.mod_lt _ (by norm_num)
  have r1 : T1 % 2 ^ 64 < 2 ^ 64 := Nat.mod_lt _ (by norm_num)
  have r2 : T2 % 2 ^ 64 < 2 ^ 64 := Nat.mod_lt _ (by norm_num)
  have k1 : T1 * 2 ^ 64 % 2 ^ 128 = T1 % 2 ^ 64 * 2 ^ 64 := by
    rw [show (2 : ℕ) ^ 128 = 2 ^ 64 * 2 ^ 64 by norm_num, Nat.mul_mod_mul_right]
  have key : (T2 % 2 ^ 64 + T3 * 2 ^ 64) * 2 ^ 128 + (T0 % 2 ^ 64 + T1 % 2 ^ 64 * 2 ^ 64) =
      (H * 2 ^ 128 + L) * 10 + D := by
    linarith
  rw [← key] at h
  have k2 : T3 < 2 ^ 64 := by
    by_contra hc
    have := Nat.mul_le_mul_right (2 ^ 64) (not_lt.mp hc)
    omega
  have k3 : T3 * 2 ^ 64 % 2 ^ 128 = T3 * 2 ^ 64 := by
    rw [show (2 : ℕ) ^ 128 = 2 ^ 64 * 2 ^ 64 by norm_num, Nat.mul_mod_mul_right, Nat.mod_eq_of_lt k2]
  rw [k1, k3, ← key]
  have k4 : T2 % 2 ^ 64 + T3 * 2 ^ 64 < 2 ^ 128 := by omega
  have k5 : T0 % 2 ^ 64 + T1 % 2 ^ 64 * 2 ^ 64 < 2 ^ 128 := by omega
  rw [Nat.mod_eq_of_lt k4, Nat.mod_eq_of_lt k5]

/-! ### Rounding division -/

theorem rne_nearest (n : ℕ) {d : ℕ} (hd : 0 < d) : Spec.NearestEven n d (Spec.rne n d) := by
  have hdm := Nat.div_add_mod n d
  have hm := Nat.mod_lt n hd
  unfold Spec.rne
  generalize n / d = q at *
  generalize n % d = r at *
  have e1 : (q + 1) * d = d * q + d := by ring
  have e2 : q * d = d * q := Nat.mul_comm _ _
  split_ifs with h
  · exact ⟨by omega, by omega, by omega⟩
  · exact ⟨by omega, by omega, by omega⟩

/-- The nearest-even quotient is unique. -/
theorem NearestEven.unique {n d p q : ℕ} (hd : 0 < d) (hp : Spec.NearestEven n d p)
    (hq : Spec.NearestEven n d q) : p = q := by
  obtain ⟨p1, p2, p3⟩ := hp
  obtain ⟨q1, q2, q3⟩ := hq
  have key : ∀ {a b : ℕ}, 2 * (a * d) ≤ 2 * n + d → 2 * n ≤ 2 * (b * d) + d → a ≤ b + 1 := by
    intro a b h1 h2
    by_contra h
    have : (b + 2) * d ≤ a * d := Nat.mul_le_mul_right d (by omega)
    have e : (b + 2) * d = b * d + 2 * d := by ring
    omega
  have k1 := key p1 q2
  have k2 := key q1 p2
  by_contra hne
  rcases Nat.lt_or_gt_of_ne hne with h | h
  · obtain rfl : q = p + 1 := by omega
    have e : (p + 1) * d = p * d + d := by ring
    have := p3 (by omega)
    have := q3 (by omega)
    omega
  · obtain rfl : p = q + 1 := by omega
    have e : (q + 1) * d = q * d + d := by ring
    have := p3 (by omega)
    have := q3 (by omega)
    omega

theorem divPow10Chunks_spec : ∀ (k : ℕ) (q : U512) (z : Bool), ∃ q' z',
    divPow10Chunks k q z = some (q', z') ∧ UInt.nat q' = UInt.nat q / (10 ^ 38) ^ k ∧
      (z' = true ↔ z = true ∧ UInt.nat q % (10 ^ 38) ^ k = 0)
  | 0, q, z => ⟨q, z, rfl, by simp, by simp [Nat.mod_one]⟩
  | k + 1, q, z => by
    have hd : (BitVec.ofNat 128 (10 ^ 38)).toNat = 10 ^ 38 := by decide
    obtain ⟨q1, r1, h1, h2, h3⟩ := divRemU128_512 q (BitVec.ofNat 128 (10 ^ 38))
      (by rw [hd]; norm_num)
    rw [hd] at h2 h3
    have h2' : UInt.nat q1 = UInt.nat q / 10 ^ 38 := h2
    have h3' : r1.toNat = UInt.nat q % 10 ^ 38 := h3
    obtain ⟨q2, z2, g1, g2, g3⟩ := divPow10Chunks_spec k q1 (z && r1 == 0)
    refine ⟨q2, z2, ?_, ?_, ?_⟩
    · rw [divPow10Chunks]
      erw [h1]
      exact g1
    · rw [g2, h2', Nat.div_div_eq_div_mul, ← pow_succ']
    · rw [g3, h2', Bool.and_eq_true, and_assoc]
      apply and_congr_right
      intro _
      have hr : (r1 == 0) = true ↔ UInt.nat q % 10 ^ 38 = 0 := by
        rw [beq_iff_eq, BitVec.toNat_eq, h3']; rfl
      rw [hr]
      have hP : 0 < (10 : ℕ) ^ 38 := by norm_num
      generalize (10 : ℕ) ^ 38 = P at *
      rw [pow_succ', Nat.mod_mul]
      constructor
      · rintro ⟨a, b⟩; rw [a, b, Nat.mul_zero]
      · intro h
        obtain ⟨a, b⟩ := Nat.add_eq_zero_iff.mp h
        exact ⟨a, (Nat.mul_eq_zero.mp b).resolve_left hP.ne'⟩

theorem rne_two_step (N P d : ℕ) (hP : 0 < P) (hd : 0 < d) (hd2 : d % 2 = 0) :
    Spec.rne N (P * d) =
      if d / 2 < N / P % d ∨ (N / P % d = d / 2 ∧ (N / P / d % 2 = 1 ∨ N % P ≠ 0)) then
        N / P / d + 1 else N / P / d := by
  unfold Spec.rne
  rw [← Nat.div_div_eq_div_mul, Nat.mod_mul]
  have hs : N % P < P := Nat.mod_lt _ hP
  have hr : N / P % d < d := Nat.mod_lt _ hd
  generalize N / P / d = Q
  generalize N % P = s at *
  generalize N / P % d = r at *
  obtain ⟨e, rfl⟩ : ∃ e, d = 2 * e := ⟨d / 2, by omega⟩
  have he : 2 * e / 2 = e := by omega
  rw [he]
  have hc : (P * (2 * e) < 2 * (s + P * r) ∨ 2 * (s + P * r) = P * (2 * e) ∧ Q % 2 = 1) ↔
      (e < r ∨ r = e ∧ (Q % 2 = 1 ∨ s ≠ 0)) := by
    have e0 : P * (2 * e) = 2 * (P * e) := by ring
    rw [e0]
    rcases Nat.lt_trichotomy r e with h | h | h
    · have : P * (r + 1) ≤ P * e := Nat.mul_le_mul_left _ h
      rw [Nat.mul_add, Nat.mul_one] at this
      omega
    · subst h; omega
    · have : P * (e + 1) ≤ P * r := Nat.mul_le_mul_left _ h
      rw [Nat.mul_add, Nat.mul_one] at this
      omega
  simp only [hc]

theorem ten_pow_even {k : ℕ} (hk : 1 ≤ k) : 10 ^ k % 2 = 0 := by
  obtain ⟨j, rfl⟩ : ∃ j, k = j + 1 := ⟨k - 1, by omega⟩
  rw [pow_succ]; omega

theorem roundingDivPow10_spec (x : U512) {n : ℕ} (hn : 1 ≤ n) :
    ∃ q, roundingDivPow10 x n = some q ∧ UInt.nat q = Spec.rne (UInt.nat x) (10 ^ n) := by
  have hxl : UInt.nat x < 2 ^ 512 := UInt.nat_lt x
  -- the last step
  have step : ∀ (q : U512) (k : ℕ) (z : Bool), 1 ≤ k → k ≤ 38 → ∃ q2,
      (do
        let d : U128 := BitVec.ofNat 128 (10 ^ k)
        let (q, r) ← UInt.divRemU128 q d
        let tie := d >>> 1
        if r > tie || (r == tie && (UInt.isOdd q || !z)) then return UInt.incr q
        return q : Option U512) = some q2 ∧
      UInt.nat q2 = if 10 ^ k / 2 < UInt.nat q % 10 ^ k ∨ (UInt.nat q % 10 ^ k = 10 ^ k / 2 ∧
        (UInt.nat q / 10 ^ k % 2 = 1 ∨ z = false)) then UInt.nat q / 10 ^ k + 1
        else UInt.nat q / 10 ^ k := by
    intro q k z h1 h38
    have hql : UInt.nat q < 2 ^ 512 := UInt.nat_lt q
    have hlt : 10 ^ k < 2 ^ 128 := lt_of_le_of_lt (Nat.pow_le_pow_right (by norm_num) h38) (by norm_num)
    have hd : (BitVec.ofNat 128 (10 ^ k)).toNat = 10 ^ k := by
      rw [BitVec.toNat_ofNat, Nat.mod_eq_of_lt hlt]
    have hd0 : 0 < 10 ^ k := Nat.pow_pos (by norm_num)
    obtain ⟨q1, r1, g1, g2, g3⟩ := divRemU128_512 q (BitVec.ofNat 128 (10 ^ k))
      (by rw [hd]; exact hd0.ne')
    rw [hd] at g2 g3
    have g2' : UInt.nat q1 = UInt.nat q / 10 ^ k := g2
    have g3' : r1.toNat = UInt.nat q % 10 ^ k := g3
    have htie : (BitVec.ofNat 128 (10 ^ k) >>> 1).toNat = 10 ^ k / 2 := by
      rw [BitVec.toNat_ushiftRight, hd, Nat.shiftRight_eq_div_pow, pow_one]
    have hodd : UInt.isOdd q1 = decide (UInt.nat q / 10 ^ k % 2 = 1) := by
      rw [← g2']; exact LawfulBigUInt.isOdd_eq (α := U512) q1
    have hcond : (decide (r1 > BitVec.ofNat 128 (10 ^ k) >>> 1) ||
        (r1 == BitVec.ofNat 128 (10 ^ k) >>> 1 && (UInt.isOdd q1 || !z))) = true ↔
        (10 ^ k / 2 < UInt.nat q % 10 ^ k ∨ (UInt.nat q % 10 ^ k = 10 ^ k / 2 ∧
        (UInt.nat q / 10 ^ k % 2 = 1 ∨ z = false))) := by
      rw [Bool.or_eq_true, Bool.and_eq_true, Bool.or_eq_true, decide_eq_true_iff, beq_iff_eq, hodd,
        decide_eq_true_iff, gt_iff_lt, BitVec.lt_def, BitVec.toNat_eq, htie, g3']
      simp
    have hdef : (do
        let d : U128 := BitVec.ofNat 128 (10 ^ k)
        let (q, r) ← UInt.divRemU128 q d
        let tie := d >>> 1
        if r > tie || (r == tie && (UInt.isOdd q || !z)) then return UInt.incr q
        return q : Option U512) =
        if (decide (r1 > BitVec.ofNat 128 (10 ^ k) >>> 1) ||
        (r1 == BitVec.ofNat 128 (10 ^ k) >>> 1 && (UInt.isOdd q1 || !z))) = true then
          some (UInt.incr q1) else some q1 := by
      dsimp only
      erw [g1]
      rfl
    rw [hdef]
    by_cases hc : (decide (r1 > BitVec.ofNat 128 (10 ^ k) >>> 1) ||
        (r1 == BitVec.ofNat 128 (10 ^ k) >>> 1 && (UInt.isOdd q1 || !z))) = true
    · rw [if_pos hc, if_pos (hcond.mp hc)]
      refine ⟨_, rfl, ?_⟩
      rw [UInt.nat_incr, g2', Nat.mod_eq_of_lt]
      have h10 : 10 ≤ 10 ^ k := Nat.le_self_pow (by omega) 10
      have : UInt.nat q / 10 ^ k ≤ UInt.nat q / 10 := Nat.div_le_div_left h10 (by norm_num)
      show _ < 2 ^ 512
      omega
    · rw [if_neg hc, if_neg (fun h => hc (hcond.mpr h))]
      exact ⟨_, rfl, g2'⟩
  unfold roundingDivPow10
  by_cases h38 : n ≤ 38
  · rw [if_pos h38]
    obtain ⟨q2, h1, h2⟩ := step x n true hn h38
    refine ⟨q2, ?_, ?_⟩
    · simpa using h1
    · have := rne_two_step (UInt.nat x) 1 (10 ^ n) one_pos (Nat.pow_pos (by norm_num)) (ten_pow_even hn)
      rw [Nat.one_mul, Nat.div_one] at this
      rw [h2, this]
      simp [Nat.mod_one]
  · rw [if_neg h38]
    have hk1 : 1 ≤ n - (n - 1) / 38 * 38 := by omega
    have hk2 : n - (n - 1) / 38 * 38 ≤ 38 := by omega
    have hpow : (10 : ℕ) ^ n = (10 ^ 38) ^ ((n - 1) / 38) * 10 ^ (n - (n - 1) / 38 * 38) := by
      rw [← pow_mul, ← pow_add]; congr 1; omega
    generalize (n - 1) / 38 = c at *
    obtain ⟨k, hk⟩ : ∃ k, k = n - c * 38 := ⟨_, rfl⟩
    rw [← hk] at hk1 hk2 hpow
    dsimp only
    rw [← hk]
    obtain ⟨q1, z1, g1, g2, g3⟩ := divPow10Chunks_spec c x true
    obtain ⟨q2, h1, h2⟩ := step q1 k z1 hk1 hk2
    refine ⟨q2, ?_, ?_⟩
    · rw [g1]
      exact h1
    · rw [h2, hpow, rne_two_step _ _ _ (Nat.pow_pos (by norm_num)) (Nat.pow_pos (by norm_num))
        (ten_pow_even hk1), g2]
      have hz : z1 = false ↔ UInt.nat x % (10 ^ 38) ^ c ≠ 0 := by
        rw [← Bool.not_eq_true, g3]; simp
      simp only [hz]

end Verif
