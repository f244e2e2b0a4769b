import Verif.Model.Chunk
import Verif.Spec.Decimal
import Verif.Proofs.F256Nat
import Mathlib.Tactic.Set
import Mathlib.Tactic.IntervalCases
import Mathlib.Data.Nat.Bitwise
import Mathlib.Tactic.Ring
import Mathlib.Tactic.NormNum

/-!
# The word-parallel digit functions
-/

namespace Verif

/-- The number with the given base-256 digits, the least significant first. -/
def leVal : List ℕ → ℕ
  | [] => 0
  | b :: bs => b + 256 * leVal bs

theorem leVal_lt : ∀ {bs : List ℕ}, (∀ b ∈ bs, b < 256) → leVal bs < 256 ^ bs.length
  | [], _ => by simp [leVal]
  | b :: bs, h => by
    have h1 := leVal_lt (bs := bs) (fun c hc => h c (List.mem_cons_of_mem _ hc))
    have h2 := h b List.mem_cons_self
    rw [leVal, List.length_cons, pow_succ]
    omega

/-- the bits `8 i + 7`, `i < n`, are zero -/
def HighClear (n M : ℕ) : Prop := ∀ i < n, M / 2 ^ (8 * i + 7) % 2 = 0

theorem highClear_succ (n M : ℕ) : HighClear (n + 1) M ↔ M / 128 % 2 = 0 ∧ HighClear n (M / 256) := by
  have key (i : ℕ) : M / 2 ^ (8 * (i + 1) + 7) = M / 256 / 2 ^ (8 * i + 7) := by
    rw [Nat.div_div_eq_div_mul, show (256 : ℕ) = 2 ^ 8 by norm_num, ← pow_add]
    congr 2; ring
  constructor
  · intro h
    refine ⟨by simpa using h 0 (by omega), fun i hi => ?_⟩
    rw [← key]; exact h (i + 1) (by omega)
  · rintro ⟨h0, h⟩ i hi
    rcases i with _ | i
    · simpa using h0
    · rw [key]; exact h i (by omega)

/-- The test for digits, for any number of bytes. -/
theorem digits_test : ∀ (bs : List ℕ), (∀ b ∈ bs, b < 256) →
    (HighClear bs.length ((leVal bs + 256 ^ bs.length - leVal (List.replicate bs.length 0x30)) %
        256 ^ bs.length) ∧
      HighClear bs.length ((leVal bs + leVal (List.replicate bs.length 0x46)) % 256 ^ bs.length) ↔
      ∀ b ∈ bs, 48 ≤ b ∧ b ≤ 57)
  | [], _ => by simp [HighClear]
  | b :: bs, h => by
    have ih := digits_test bs (fun c hc => h c (List.mem_cons_of_mem _ hc))
    have hb := h b List.mem_cons_self
    have hR : leVal (List.replicate bs.length 0x30) < 256 ^ bs.length := by
      have := leVal_lt (bs := List.replicate bs.length 0x30)
        (fun c hc => by rw [List.eq_of_mem_replicate hc]; norm_num)
      rwa [List.length_replicate] at this
    rw [List.length_cons, highClear_succ, highClear_succ, List.forall_mem_cons, ← ih]
    rw [List.replicate_succ, List.replicate_succ]
    simp only [leVal]
    rw [pow_succ, mul_comm (256 ^ bs.length)]
    generalize leVal (List.replicate bs.length 0x30) = R at *
    generalize leVal (List.replicate bs.length 0x46) = S at *
    generalize 256 ^ bs.length = P at *
    generalize leVal bs = N at *
    have e1 : b + 256 * N + 256 * P - (48 + 256 * R) =
        (b + 256 - 48) + 256 * (N + P - R - 1) := by omega
    have low1 (M : ℕ) : M % (256 * P) / 128 % 2 = M / 128 % 2 := by
      have : M % (256 * P) % 256 = M % 256 := Nat.mod_mul_right_mod _ _ _
      omega
    rw [low1, low1, Nat.mod_mul_right_div_self, Nat.mod_mul_right_div_self]
    constructor
    · rintro ⟨⟨h1, h2⟩, h3, h4⟩
      have hb2 : 48 ≤ b ∧ b ≤ 57 := by omega
      have e2 : (b + 256 * N + 256 * P - (48 + 256 * R)) / 256 = N + P - R := by omega
      have e3 : (b + 256 * N + (70 + 256 * S)) / 256 = N + S := by omega
      rw [e2] at h2
      rw [e3] at h4
      exact ⟨hb2, h2, h4⟩
    · rintro ⟨hb2, h2, h4⟩
      have e2 : (b + 256 * N + 256 * P - (48 + 256 * R)) / 256 = N + P - R := by omega
      have e3 : (b + 256 * N + (70 + 256 * S)) / 256 = N + S := by omega
      rw [e2, e3]
      refine ⟨⟨?_, h2⟩, ?_, h4⟩
      · omega
      · omega

/-! ## Words as lists of bytes -/

/-- The 8 bytes of a word, the lowest first. -/
def bytes8 (c : BitVec 64) : List ℕ := (List.range 8).map fun i => c.toNat / 256 ^ i % 256

theorem length_bytes8 (c : BitVec 64) : (bytes8 c).length = 8 := by simp [bytes8]

theorem bytes8_eq (c : BitVec 64) : bytes8 c = [c.toNat % 256, c.toNat / 256 % 256,
    c.toNat / 256 ^ 2 % 256, c.toNat / 256 ^ 3 % 256, c.toNat / 256 ^ 4 % 256,
    c.toNat / 256 ^ 5 % 256, c.toNat / 256 ^ 6 % 256, c.toNat / 256 ^ 7 % 256] := by
  simp [bytes8, List.range_succ]

theorem bytes8_lt (c : BitVec 64) : ∀ b ∈ bytes8 c, b < 256 := by
  intro b hb
  obtain ⟨i, -, rfl⟩ := List.mem_map.mp hb
  exact Nat.mod_lt _ (by norm_num)

theorem leVal_bytes8 (c : BitVec 64) : leVal (bytes8 c) = c.toNat := by
  have := c.isLt
  rw [bytes8_eq]
  simp only [leVal]
  omega

/-- A word is given by its bytes. -/
theorem bytes8_of {c : BitVec 64} {bs : List ℕ} (hl : bs.length = 8) (hb : ∀ b ∈ bs, b < 256)
    (h : c.toNat = leVal bs) : bytes8 c = bs := by
  match bs, hl with
  | [b0, b1, b2, b3, b4, b5, b6, b7], _ =>
    simp only [List.mem_cons, List.not_mem_nil, or_false, forall_eq_or_imp, forall_eq] at hb
    obtain ⟨h0, h1, h2, h3, h4, h5, h6, h7⟩ := hb
    simp only [leVal] at h
    rw [bytes8_eq, h]
    simp only [List.cons.injEq, and_true]
    refine ⟨?_, ?_, ?_, ?_, ?_, ?_, ?_, ?_⟩ <;> omega

theorem highClear_iff (x : BitVec 64) :
    HighClear 8 x.toNat ↔ ∀ i < 8, x.getLsbD (8 * i + 7) = false := by
  unfold HighClear
  refine forall_congr' fun i => imp_congr_right fun _ => ?_
  rw [BitVec.getLsbD, Nat.testBit_eq_decide_div_mod_eq, decide_eq_false_iff_not]
  omega

theorem mask80 : ∀ i < 64, (0x8080808080808080 : BitVec 64).getLsbD i = decide (i % 8 = 7) := by
  decide

theorem and80_eq_zero (w : BitVec 64) :
    w &&& 0x8080808080808080 = 0 ↔ ∀ i < 8, w.getLsbD (8 * i + 7) = false := by
  constructor
  · intro h i hi
    have := congrArg (fun v => v.getLsbD (8 * i + 7)) h
    simp only [BitVec.getLsbD_and] at this
    rw [mask80 _ (by omega)] at this
    simpa [show (8 * i + 7) % 8 = 7 by omega] using this
  · intro h
    refine BitVec.eq_of_getLsbD_eq fun j hj => ?_
    rw [BitVec.getLsbD_and, mask80 j hj]
    by_cases h7 : j % 8 = 7
    · have := h (j / 8) (by omega)
      rw [show 8 * (j / 8) + 7 = j by omega] at this
      rw [this]; simp
    · simp [h7]

theorem chunkContains8Digits_iff (c : BitVec 64) :
    chunkContains8Digits c = true ↔ ∀ b ∈ bytes8 c, Spec.IsDigit b := by
  have hlen : (bytes8 c).length = 8 := by simp [bytes8]
  rw [← digits_test (bytes8 c) (bytes8_lt c), hlen, leVal_bytes8]
  unfold chunkContains8Digits
  dsimp only
  rw [decide_eq_true_eq, and80_eq_zero]
  have e1 : (c.toNat + 256 ^ 8 - leVal (List.replicate 8 0x30)) % 256 ^ 8 =
      (c - 0x3030303030303030).toNat := by
    rw [BitVec.toNat_sub]
    simp only [List.replicate, leVal]
    have : (0x3030303030303030 : BitVec 64).toNat = 0x3030303030303030 := by decide
    rw [this]
    have := c.isLt
    omega
  have e2 : (c.toNat + leVal (List.replicate 8 0x46)) % 256 ^ 8 =
      (c + 0x4646464646464646).toNat := by
    rw [BitVec.toNat_add]
    simp only [List.replicate, leVal]
    have : (0x4646464646464646 : BitVec 64).toNat = 0x4646464646464646 := by decide
    rw [this]
    have := c.isLt
    omega
  rw [e1, e2, highClear_iff, highClear_iff]
  constructor
  · intro h
    refine ⟨fun i hi => ?_, fun i hi => ?_⟩
    · have := h i hi
      rw [BitVec.getLsbD_or, Bool.or_eq_false_iff] at this
      exact this.1
    · have := h i hi
      rw [BitVec.getLsbD_or, Bool.or_eq_false_iff] at this
      exact this.2
  · rintro ⟨h1, h2⟩ i hi
    rw [BitVec.getLsbD_or, h1 i hi, h2 i hi]; rfl

/-! ## Reading 8 digits -/

theorem and_split {k a m : ℕ} (b n : ℕ) (ha : a < 2 ^ k) (hm : m < 2 ^ k) :
    (a + 2 ^ k * b) &&& (m + 2 ^ k * n) = (a &&& m) + 2 ^ k * (b &&& n) := by
  have ham : a &&& m < 2 ^ k := lt_of_le_of_lt Nat.and_le_left ha
  refine Nat.eq_of_testBit_eq fun i => ?_
  rw [Nat.testBit_and, add_comm a, add_comm m, add_comm (a &&& m),
    Nat.testBit_two_pow_mul_add _ ha, Nat.testBit_two_pow_mul_add _ hm,
    Nat.testBit_two_pow_mul_add _ ham]
  split <;> rw [Nat.testBit_and]

theorem xor_split {k a m : ℕ} (b n : ℕ) (ha : a < 2 ^ k) (hm : m < 2 ^ k) :
    (a + 2 ^ k * b) ^^^ (m + 2 ^ k * n) = (a ^^^ m) + 2 ^ k * (b ^^^ n) := by
  have ham : a ^^^ m < 2 ^ k := Nat.xor_lt_two_pow ha hm
  refine Nat.eq_of_testBit_eq fun i => ?_
  rw [Nat.testBit_xor, add_comm a, add_comm m, add_comm (a ^^^ m),
    Nat.testBit_two_pow_mul_add _ ha, Nat.testBit_two_pow_mul_add _ hm,
    Nat.testBit_two_pow_mul_add _ ham]
  split <;> rw [Nat.testBit_xor]

theorem and8 {b m : ℕ} (bs ms : ℕ) (hb : b < 256) (hm : m < 256) :
    (b + 256 * bs) &&& (m + 256 * ms) = (b &&& m) + 256 * (bs &&& ms) :=
  and_split (k := 8) bs ms hb hm

theorem and16 {b m : ℕ} (bs ms : ℕ) (hb : b < 65536) (hm : m < 65536) :
    (b + 65536 * bs) &&& (m + 65536 * ms) = (b &&& m) + 65536 * (bs &&& ms) :=
  and_split (k := 16) bs ms hb hm

theorem xor8 {b m : ℕ} (bs ms : ℕ) (hb : b < 256) (hm : m < 256) :
    (b + 256 * bs) ^^^ (m + 256 * ms) = (b ^^^ m) + 256 * (bs ^^^ ms) :=
  xor_split (k := 8) bs ms hb hm

theorem and_mask {a : ℕ} (k : ℕ) : a &&& (2 ^ k - 1) = a % 2 ^ k :=
  Nat.and_two_pow_sub_one_eq_mod a k

theorem and15_lt (b : ℕ) : b &&& 15 < 16 := by
  have := Nat.and_le_right (n := b) (m := 15)
  omega

theorem chunk_step1 {b0 b1 b2 b3 b4 b5 b6 b7 : ℕ} (h0 : b0 < 256) (h1 : b1 < 256) (h2 : b2 < 256)
    (h3 : b3 < 256) (h4 : b4 < 256) (h5 : b5 < 256) (h6 : b6 < 256) (h7 : b7 < 256) :
    leVal [b0, b1, b2, b3, b4, b5, b6, b7] &&& 0x0f0f0f0f0f0f0f0f =
      leVal [b0 &&& 15, b1 &&& 15, b2 &&& 15, b3 &&& 15, b4 &&& 15, b5 &&& 15, b6 &&& 15,
        b7 &&& 15] := by
  rw [show 0x0f0f0f0f0f0f0f0f = leVal [15, 15, 15, 15, 15, 15, 15, 15] by simp [leVal]]
  simp only [leVal]
  rw [and8 _ _ (by omega) (by norm_num), and8 _ _ (by omega) (by norm_num),
    and8 _ _ (by omega) (by norm_num), and8 _ _ (by omega) (by norm_num),
    and8 _ _ (by omega) (by norm_num), and8 _ _ (by omega) (by norm_num),
    and8 _ _ (by omega) (by norm_num), and8 _ _ (by omega) (by norm_num), Nat.and_self]

theorem e16 : ∀ d < 10, d &&& 15 = d := by decide

theorem and_even {d0 d1 d2 d3 d4 d5 d6 d7 : ℕ} (h0 : d0 < 10) (h1 : d1 < 10) (h2 : d2 < 10)
    (h3 : d3 < 10) (h4 : d4 < 10) (h5 : d5 < 10) (h6 : d6 < 10) (h7 : d7 < 10) :
    leVal [d0, d1, d2, d3, d4, d5, d6, d7] &&& 0x000f000f000f000f =
      d0 + 65536 * (d2 + 65536 * (d4 + 65536 * d6)) := by
  rw [show 0x000f000f000f000f = leVal [15, 0, 15, 0, 15, 0, 15, 0] by simp [leVal]]
  simp only [leVal]
  rw [and8 _ _ (by omega) (by norm_num), and8 _ _ (by omega) (by norm_num),
    and8 _ _ (by omega) (by norm_num), and8 _ _ (by omega) (by norm_num),
    and8 _ _ (by omega) (by norm_num), and8 _ _ (by omega) (by norm_num),
    and8 _ _ (by omega) (by norm_num), and8 _ _ (by omega) (by norm_num),
    e16 d0 h0, e16 d2 h2, e16 d4 h4, e16 d6 h6]
  simp only [Nat.and_zero]
  ring

theorem e127 {p : ℕ} (hp : p < 100) : p &&& 127 = p := by
  rw [show 127 = 2 ^ 7 - 1 by norm_num, and_mask, Nat.mod_eq_of_lt (by omega)]

theorem and_even16 {p0 p1 p2 p3 : ℕ} (h0 : p0 < 100) (h1 : p1 < 100) (h2 : p2 < 100)
    (_h3 : p3 < 100) :
    (p0 + 65536 * (p1 + 65536 * (p2 + 65536 * p3))) &&& 0x0000007f0000007f =
      p0 + 4294967296 * p2 := by
  rw [show 0x0000007f0000007f = 127 + 65536 * (0 + 65536 * (127 + 65536 * 0)) by norm_num]
  rw [and16 _ _ (by omega) (by norm_num), and16 _ _ (by omega) (by norm_num),
      and16 _ _ (by omega) (by norm_num), e127 h0, e127 h2]
  simp only [Nat.and_zero]
  ring

theorem leVal_tail {d : ℕ} (bs : List ℕ) (h : d < 256) : leVal (d :: bs) / 256 = leVal bs := by
  rw [leVal]; omega

theorem madd_toNat {a b : BitVec 64} {m A B : ℕ} (M : BitVec 64) (hM : M.toNat = m)
    (ha : a.toNat = A) (hb : b.toNat = B) (h : A * m + B < 2 ^ 64) :
    (a * M + b).toNat = A * m + B := by
  rw [BitVec.toNat_add, BitVec.toNat_mul, ha, hb, hM, Nat.mod_eq_of_lt (a := A * m) (by omega),
    Nat.mod_eq_of_lt h]

/-- The first step of the conversion: pairs of digits. -/
theorem chunk_pairs {c : BitVec 64} {d0 d1 d2 d3 d4 d5 d6 d7 : ℕ} (h0 : d0 < 10)
    (h1 : d1 < 10) (h2 : d2 < 10) (h3 : d3 < 10) (h4 : d4 < 10) (h5 : d5 < 10) (h6 : d6 < 10)
    (h7 : d7 < 10) (hc : c.toNat = leVal [d0, d1, d2, d3, d4, d5, d6, d7]) :
    ((c &&& 0x000f000f000f000f#64) * 10#64 + ((c >>> 8) &&& 0x000f000f000f000f#64)).toNat =
      (d0 * 10 + d1) + 65536 * ((d2 * 10 + d3) + 65536 * ((d4 * 10 + d5) + 65536 *
        (d6 * 10 + d7))) := by
  have m : (0x000f000f000f000f#64).toNat = 0x000f000f000f000f := by decide
  have a1 : (c &&& 0x000f000f000f000f#64).toNat =
      d0 + 65536 * (d2 + 65536 * (d4 + 65536 * d6)) := by
    rw [BitVec.toNat_and, m, hc, and_even h0 h1 h2 h3 h4 h5 h6 h7]
  have a2 : ((c >>> 8) &&& 0x000f000f000f000f#64).toNat =
      d1 + 65536 * (d3 + 65536 * (d5 + 65536 * d7)) := by
    rw [BitVec.toNat_and, m, BitVec.toNat_ushiftRight, Nat.shiftRight_eq_div_pow, hc,
      show 2 ^ 8 = 256 by norm_num, leVal_tail _ (by omega),
      show leVal [d1, d2, d3, d4, d5, d6, d7] = leVal [d1, d2, d3, d4, d5, d6, d7, 0] from rfl,
      and_even h1 h2 h3 h4 h5 h6 h7 (by norm_num)]
  rw [madd_toNat 10#64 (m := 10) (by decide) a1 a2 (by omega)]
  ring

/-- The second step of the conversion: groups of four digits. -/
theorem chunk_quads {c : BitVec 64} {p0 p1 p2 p3 : ℕ} (h0 : p0 < 100) (h1 : p1 < 100)
    (h2 : p2 < 100) (h3 : p3 < 100)
    (hc : c.toNat = p0 + 65536 * (p1 + 65536 * (p2 + 65536 * p3))) :
    ((c &&& 0x0000007f0000007f#64) * 100#64 + ((c >>> 16) &&& 0x0000007f0000007f#64)).toNat =
      (p0 * 100 + p1) + 4294967296 * (p2 * 100 + p3) := by
  have m : (0x0000007f0000007f#64).toNat = 0x0000007f0000007f := by decide
  have a1 : (c &&& 0x0000007f0000007f#64).toNat = p0 + 4294967296 * p2 := by
    rw [BitVec.toNat_and, m, hc, and_even16 h0 h1 h2 h3]
  have a2 : ((c >>> 16) &&& 0x0000007f0000007f#64).toNat = p1 + 4294967296 * p3 := by
    rw [BitVec.toNat_and, m, BitVec.toNat_ushiftRight, Nat.shiftRight_eq_div_pow, hc,
      show (p0 + 65536 * (p1 + 65536 * (p2 + 65536 * p3))) / 2 ^ 16 =
        p1 + 65536 * (p2 + 65536 * (p3 + 65536 * 0)) by omega,
      and_even16 h1 h2 h3 (by norm_num)]
  rw [madd_toNat 100#64 (m := 100) (by decide) a1 a2 (by omega)]
  ring

/-- The last step of the conversion. -/
theorem chunk_last {c : BitVec 64} {p0 p1 : ℕ} (h0 : p0 < 10000) (h1 : p1 < 10000)
    (hc : c.toNat = p0 + 4294967296 * p1) :
    ((c &&& 0x3fff#64) * 10000#64 + ((c >>> 32) &&& 0x3fff#64)).toNat = p0 * 10000 + p1 := by
  have m : (0x3fff#64).toNat = 2 ^ 14 - 1 := by decide
  have a1 : (c &&& 0x3fff#64).toNat = p0 := by
    rw [BitVec.toNat_and, m, and_mask, hc]; omega
  have a2 : ((c >>> 32) &&& 0x3fff#64).toNat = p1 := by
    rw [BitVec.toNat_and, m, and_mask, BitVec.toNat_ushiftRight, Nat.shiftRight_eq_div_pow, hc]
    omega
  rw [madd_toNat 10000#64 (m := 10000) (by decide) a1 a2 (by omega)]

/-- The decimal value of the low halves of eight bytes. -/
theorem chunkToU64_list {c : BitVec 64} {bs : List ℕ} (hl : bs.length = 8)
    (hb : ∀ b ∈ bs, b < 256 ∧ b &&& 15 < 10) (hc : c.toNat = leVal bs) :
    (chunkToU64 c).toNat = Spec.decVal (bs.map (· &&& 15)) := by
  match bs, hl with
  | [b0, b1, b2, b3, b4, b5, b6, b7], _ =>
  simp only [List.forall_mem_cons] at hb
  obtain ⟨h0, h1, h2, h3, h4, h5, h6, h7, -⟩ := hb
  have s1 : (c &&& 0x0f0f0f0f0f0f0f0f#64).toNat = leVal [b0 &&& 15, b1 &&& 15, b2 &&& 15,
      b3 &&& 15, b4 &&& 15, b5 &&& 15, b6 &&& 15, b7 &&& 15] := by
    rw [BitVec.toNat_and, hc, show (0x0f0f0f0f0f0f0f0f#64).toNat = 0x0f0f0f0f0f0f0f0f by decide,
      chunk_step1 h0.1 h1.1 h2.1 h3.1 h4.1 h5.1 h6.1 h7.1]
  have g0 := h0.2
  have g1 := h1.2
  have g2 := h2.2
  have g3 := h3.2
  have g4 := h4.2
  have g5 := h5.2
  have g6 := h6.2
  have g7 := h7.2
  clear h0 h1 h2 h3 h4 h5 h6 h7 hc
  simp only [List.map_cons, List.map_nil]
  generalize b0 &&& 15 = d0 at *
  generalize b1 &&& 15 = d1 at *
  generalize b2 &&& 15 = d2 at *
  generalize b3 &&& 15 = d3 at *
  generalize b4 &&& 15 = d4 at *
  generalize b5 &&& 15 = d5 at *
  generalize b6 &&& 15 = d6 at *
  generalize b7 &&& 15 = d7 at *
  have s2 := chunk_pairs g0 g1 g2 g3 g4 g5 g6 g7 s1
  have s3 := chunk_quads (by omega) (by omega) (by omega) (by omega) s2
  have s4 := chunk_last (by omega) (by omega) s3
  refine s4.trans ?_
  simp only [Spec.decVal, List.foldl_cons, List.foldl_nil]
  ring

theorem digit_and15 : ∀ b ∈ List.range' 48 10, b &&& 15 = b - 48 := by decide

theorem IsDigit.and15 {b : ℕ} (h : Spec.IsDigit b) : b &&& 15 = b - 48 :=
  digit_and15 b (List.mem_range'_1.mpr ⟨h.1, by have := h.2; omega⟩)

theorem chunkToU64_digits {c : BitVec 64} (h : ∀ b ∈ bytes8 c, Spec.IsDigit b) :
    (chunkToU64 c).toNat = Spec.strVal (bytes8 c) := by
  rw [chunkToU64_list (length_bytes8 c) (fun b hb => ⟨bytes8_lt c b hb, ?_⟩) (leVal_bytes8 c).symm,
    Spec.strVal, List.map_congr_left (fun b hb => IsDigit.and15 (h b hb))]
  rw [IsDigit.and15 (h b hb)]
  have := (h b hb).2
  omega

set_option maxRecDepth 4000 in
theorem xor_dot : ∀ b < 256, b ^^^ 46 < 256 ∧ (b ^^^ 46 = 0 ↔ b = 46) ∧
    (48 ≤ b → b ≤ 57 → 22 ≤ b ^^^ 46 ∧ b ^^^ 46 ≤ 31) := by decide

/-- a word with exactly one bit set -/
theorem popcount_one {z : BitVec 64} (h : popcount64 z = 1) :
    ∃ j < 64, z.toNat = 2 ^ j ∧ ∀ k < 64, z.getLsbD k = decide (k = j) := by
  unfold popcount64 at h
  obtain ⟨j, hj⟩ := List.length_eq_one_iff.mp h
  have hmem (k : ℕ) : k < 64 ∧ z.getLsbD k = true ↔ k = j := by
    have : k ∈ (List.range 64).filter (fun i => z.getLsbD i) ↔ k ∈ [j] := by rw [hj]
    rw [List.mem_filter, List.mem_range, List.mem_singleton] at this
    exact this
  obtain ⟨hj1, hj2⟩ := (hmem j).mpr rfl
  have hb : ∀ k < 64, z.getLsbD k = decide (k = j) := by
    intro k hk
    by_cases hkj : k = j
    · rw [hkj, hj2]; simp
    · rw [decide_eq_false hkj, ← Bool.not_eq_true]
      exact fun hc => hkj ((hmem k).mp ⟨hk, hc⟩)
  refine ⟨j, hj1, ?_, hb⟩
  refine Nat.eq_of_testBit_eq fun k => ?_
  rw [Nat.testBit_two_pow]
  by_cases hk : k < 64
  · have := hb k hk
    rw [BitVec.getLsbD] at this
    rw [this, decide_eq_decide]; exact eq_comm
  · rw [Nat.testBit_lt_two_pow (lt_of_lt_of_le z.isLt (Nat.pow_le_pow_right (by norm_num) (by omega)))]
    rw [eq_comm, decide_eq_false_iff_not]; omega

theorem popcount_pow {z : BitVec 64} {j : ℕ} (hj : j < 64)
    (h : ∀ k < 64, z.getLsbD k = decide (k = j)) : popcount64 z = 1 ∧ z.toNat = 2 ^ j := by
  have hn : z.toNat = 2 ^ j := by
    refine Nat.eq_of_testBit_eq fun k => ?_
    rw [Nat.testBit_two_pow]
    by_cases hk : k < 64
    · have := h k hk
      rw [BitVec.getLsbD] at this
      rw [this, decide_eq_decide]; exact eq_comm
    · rw [Nat.testBit_lt_two_pow (lt_of_lt_of_le z.isLt (Nat.pow_le_pow_right (by norm_num) (by omega)))]
      rw [eq_comm, decide_eq_false_iff_not]; omega
  refine ⟨?_, hn⟩
  have hz : z = BitVec.ofNat 64 (2 ^ j) := by
    rw [← hn, BitVec.ofNat_toNat, BitVec.setWidth_eq]
  rw [hz]
  have : ∀ j < 64, popcount64 (BitVec.ofNat 64 (2 ^ j)) = 1 := by decide
  exact this j hj

theorem lz64_pow {z : BitVec 64} {j : ℕ} (h : z.toNat = 2 ^ j) : lz64 z = 63 - j := by
  unfold lz64
  rw [h, if_neg (by positivity), Nat.log2_two_pow]

/-- the word of flags for radix points -/
def dotFlags (c : BitVec 64) : BitVec 64 :=
  let x := c ^^^ 0x2e2e2e2e2e2e2e2e
  let y := x - 0x0101010101010101
  y &&& (~~~x &&& 0x8080808080808080)

theorem dotFlags_bit (c : BitVec 64) {k : ℕ} (hk : k < 64) : (dotFlags c).getLsbD k =
    (decide (k % 8 = 7) && ((c ^^^ 0x2e2e2e2e2e2e2e2e) - 0x0101010101010101).getLsbD k &&
      !(c ^^^ 0x2e2e2e2e2e2e2e2e).getLsbD k) := by
  unfold dotFlags
  dsimp only
  rw [BitVec.getLsbD_and, BitVec.getLsbD_and, mask80 k hk, BitVec.getLsbD_not]
  simp only [hk, decide_true, Bool.true_and]
  cases decide (k % 8 = 7) <;> cases BitVec.getLsbD _ k <;> simp

/-- The flags of the bytes `xs`, if there is a borrow `β` from below. -/
def dotList : ℕ → List ℕ → List Bool
  | _, [] => []
  | β, x :: xs => decide (x < 128 ∧ 128 ≤ (x + 255 - β) % 256) ::
      dotList (if x < 1 + β then 1 else 0) xs

theorem bit7_div (M i : ℕ) : M / 2 ^ (8 * (i + 1) + 7) = M / 256 / 2 ^ (8 * i + 7) := by
  rw [Nat.div_div_eq_div_mul, show (256 : ℕ) = 2 ^ 8 by norm_num, ← pow_add]
  congr 2; ring

theorem dotList_spec : ∀ (xs : List ℕ) (β : ℕ), (∀ x ∈ xs, x < 256) → β ≤ 1 → ∀ i, i < xs.length →
    ∃ b, (dotList β xs)[i]? = some b ∧ (b = true ↔ (leVal xs / 2 ^ (8 * i + 7) % 2 = 0 ∧
      ((leVal xs + 256 ^ xs.length - leVal (List.replicate xs.length 1) - β) % 256 ^ xs.length) /
        2 ^ (8 * i + 7) % 2 = 1))
  | [], _, _, _, i, hi => absurd hi (by simp)
  | x :: xs, β, h, hβ, i, hi => by
    have hx := h x List.mem_cons_self
    have hxs := fun c hc => h c (List.mem_cons_of_mem x hc)
    have hR : leVal (List.replicate xs.length 1) + 1 ≤ 256 ^ xs.length := by
      have := leVal_lt (bs := List.replicate xs.length 1)
        (fun c hc => by rw [List.eq_of_mem_replicate hc]; norm_num)
      rwa [List.length_replicate] at this
    have ih := dotList_spec xs (if x < 1 + β then 1 else 0) hxs (by split <;> omega)
    rw [List.length_cons] at hi ⊢
    rw [dotList, List.replicate_succ, leVal, leVal,
      pow_succ 256 xs.length, mul_comm (256 ^ xs.length)]
    rcases i with _ | i
    · refine ⟨_, List.getElem?_cons_zero, ?_⟩
      rw [decide_eq_true_eq]
      generalize leVal (List.replicate xs.length 1) = R at *
      generalize 256 ^ xs.length = P at *
      generalize leVal xs = N at *
      have low (M : ℕ) : M % (256 * P) / 2 ^ (8 * 0 + 7) % 2 = M / 128 % 2 := by
        have : M % (256 * P) % 256 = M % 256 := Nat.mod_mul_right_mod _ _ _
        omega
      rw [low]
      have e : x + 256 * N + 256 * P - (1 + 256 * R) - β =
        (x + 255 - β) + 256 * (N + P - R - 1) := by omega
      rw [e]
      omega
    · obtain ⟨b, hb, hiff⟩ := ih i (by omega)
      refine ⟨b, by rw [List.getElem?_cons_succ, hb], ?_⟩
      rw [hiff, bit7_div, bit7_div, Nat.mod_mul_right_div_self]
      generalize leVal (List.replicate xs.length 1) = R at *
      generalize 256 ^ xs.length = P at *
      generalize leVal xs = N at *
      have e1 : (x + 256 * N) / 256 = N := by omega
      have e2 : (x + 256 * N + 256 * P - (1 + 256 * R) - β) / 256 =
          N + P - R - (if x < 1 + β then 1 else 0) := by split <;> omega
      rw [e1, e2]

/-- `x` may come from a digit -/
abbrev DigitX (x : ℕ) : Prop := 22 ≤ x ∧ x ≤ 31

theorem dotList_digits : ∀ (xs : List ℕ) (β : ℕ), β ≤ 1 → (∀ x ∈ xs, DigitX x) →
    dotList β xs = List.replicate xs.length false
  | [], _, _, _ => rfl
  | x :: xs, β, hβ, h => by
    have hx := h x List.mem_cons_self
    rw [dotList, if_neg (by omega), dotList_digits xs 0 (by omega)
      (fun c hc => h c (List.mem_cons_of_mem _ hc)), decide_eq_false (by omega)]
    rfl

theorem dotList_append : ∀ (xs ys : List ℕ) (_ : ∀ x ∈ xs, DigitX x),
    dotList 0 (xs ++ ys) = List.replicate xs.length false ++ dotList 0 ys
  | [], _, _ => rfl
  | x :: xs, ys, h => by
    have hx := h x List.mem_cons_self
    rw [List.cons_append, dotList, if_neg (by omega), dotList_append xs ys
      (fun c hc => h c (List.mem_cons_of_mem _ hc)), decide_eq_false (by omega)]
    rfl

theorem leVal_append : ∀ (xs ys : List ℕ), leVal (xs ++ ys) = leVal xs + 256 ^ xs.length * leVal ys
  | [], ys => by simp [leVal]
  | x :: xs, ys => by
    rw [List.cons_append, leVal, leVal_append xs ys, leVal, List.length_cons, pow_succ]
    ring

theorem leVal_xor : ∀ (bs : List ℕ) (_ : ∀ b ∈ bs, b < 256),
    leVal bs ^^^ leVal (List.replicate bs.length 46) = leVal (bs.map (· ^^^ 46))
  | [], _ => rfl
  | b :: bs, h => by
    rw [List.length_cons, List.replicate_succ, List.map_cons, leVal, leVal, leVal,
      xor8 _ _ (h b List.mem_cons_self) (by norm_num),
      leVal_xor bs (fun c hc => h c (List.mem_cons_of_mem _ hc))]

theorem dot_aux (a P d N : ℕ) (h : 2 ≤ d) :
    a + P * (d + 256 * N) = a + P * (d - 2 + 256 * N) + 2 * P := by
  obtain ⟨t, rfl⟩ := Nat.exists_eq_add_of_le' h
  rw [Nat.add_sub_cancel]
  ring

theorem sub_aux (w v P : ℕ) (h : v ≤ P) : w + P - v - 0 = P - v + w := by omega

theorem dotFlags_spec (c : BitVec 64) {i : ℕ} (hi : i < 8) :
    some ((dotFlags c).getLsbD (8 * i + 7)) = (dotList 0 ((bytes8 c).map (· ^^^ 46)))[i]? := by
  have hlt : ∀ x ∈ (bytes8 c).map (· ^^^ 46), x < 256 := by
    intro x hx
    obtain ⟨b, hb, rfl⟩ := List.mem_map.mp hx
    exact (xor_dot b (bytes8_lt c b hb)).1
  have hlen : ((bytes8 c).map (· ^^^ 46)).length = 8 := by rw [List.length_map, length_bytes8]
  obtain ⟨b, hb, hiff⟩ := dotList_spec _ 0 hlt (by omega) i (by omega)
  have hx : leVal ((bytes8 c).map (· ^^^ 46)) = (c ^^^ 0x2e2e2e2e2e2e2e2e).toNat := by
    rw [← leVal_xor _ (bytes8_lt c), leVal_bytes8, length_bytes8, BitVec.toNat_xor,
      show leVal (List.replicate 8 46) = (0x2e2e2e2e2e2e2e2e : BitVec 64).toNat by decide]
  have hy : (leVal ((bytes8 c).map (· ^^^ 46)) + 256 ^ 8 - leVal (List.replicate 8 1) - 0) % 256 ^ 8
      = ((c ^^^ 0x2e2e2e2e2e2e2e2e) - 0x0101010101010101).toNat := by
    rw [hx, BitVec.toNat_sub, show leVal (List.replicate 8 1) =
      (0x0101010101010101 : BitVec 64).toNat by decide, show 256 ^ 8 = 2 ^ 64 by norm_num]
    have h1 := (0x0101010101010101 : BitVec 64).isLt
    exact congrArg (· % 2 ^ 64) (sub_aux _ _ _ h1.le)
  rw [hlen, hy, hx] at hiff
  rw [hb, Option.some.injEq, Bool.eq_iff_iff, hiff, dotFlags_bit c (by omega), BitVec.getLsbD,
    BitVec.getLsbD, Nat.testBit_eq_decide_div_mod_eq, Nat.testBit_eq_decide_div_mod_eq,
    decide_eq_true (show (8 * i + 7) % 8 = 7 by omega), Bool.true_and]
  generalize (c ^^^ 0x2e2e2e2e2e2e2e2e).toNat / 2 ^ (8 * i + 7) = a
  generalize ((c ^^^ 0x2e2e2e2e2e2e2e2e) - 0x0101010101010101).toNat / 2 ^ (8 * i + 7) = b
  rcases Nat.mod_two_eq_zero_or_one a with ha | ha <;>
    rcases Nat.mod_two_eq_zero_or_one b with hb | hb <;> simp [ha, hb]

theorem digitX_of {bs : List ℕ} (h : ∀ b ∈ bs, Spec.IsDigit b) : ∀ x ∈ bs.map (· ^^^ 46), DigitX x := by
  intro x hx
  obtain ⟨b, hb, rfl⟩ := List.mem_map.mp hx
  have := h b hb
  exact (xor_dot b (by omega)).2.2 this.1 this.2

theorem dot_iff (c : BitVec 64) (p : ℕ) : chunkContains7DigitsAndADotAt c = some p ↔
    ∃ A B, bytes8 c = A ++ 46 :: B ∧ (∀ b ∈ A, Spec.IsDigit b) ∧ (∀ b ∈ B, Spec.IsDigit b) ∧ p = B.length := by
  have hunf : chunkContains7DigitsAndADotAt c = if popcount64 (dotFlags c) = 1 then
      if chunkContains8Digits (c + ((2 : BitVec 64) <<< (64 - 8 - lz64 (dotFlags c)))) then
        some (lz64 (dotFlags c) / 8) else none else none := rfl
  rw [hunf]
  have hsh (i : ℕ) (hi : i < 8) : ((2 : BitVec 64) <<< (8 * i)).toNat = 2 * 256 ^ i := by
    revert i; decide
  constructor
  · intro h
    split at h
    · rename_i hp
      split at h
      · rename_i hd
        obtain ⟨j, hj, hz, hbits⟩ := popcount_one hp
        have hz1 := hbits j hj
        rw [dotFlags_bit c hj, decide_eq_true rfl, Bool.and_eq_true, Bool.and_eq_true,
          decide_eq_true_eq] at hz1
        have hj7 := hz1.1.1
        obtain ⟨i, rfl⟩ : ∃ i, j = 8 * i + 7 := ⟨j / 8, by omega⟩
        have hi : i < 8 := by omega
        rw [lz64_pow hz] at h hd
        rw [show 64 - 8 - (63 - (8 * i + 7)) = 8 * i by omega] at hd
        rw [show (63 - (8 * i + 7)) / 8 = 7 - i by omega] at h
        rw [chunkContains8Digits_iff] at hd
        set c' := c + ((2 : BitVec 64) <<< (8 * i)) with hc'
        have hlen := length_bytes8 c'
        have hsplit : bytes8 c' = (bytes8 c').take i ++ (bytes8 c')[i]'(hlen.symm ▸ hi) :: (bytes8 c').drop (i + 1) := by
          rw [List.getElem_cons_drop, List.take_append_drop]
        set A := (bytes8 c').take i with hA
        set d := (bytes8 c')[i]'(hlen.symm ▸ hi) with hdd
        set B := (bytes8 c').drop (i + 1) with hB
        have hAl : A.length = i := by rw [hA, List.length_take, hlen]; omega
        have hBl : B.length = 7 - i := by rw [hB, List.length_drop, hlen]; omega
        rw [hsplit] at hd
        have hdA : ∀ b ∈ A, Spec.IsDigit b := fun b hb => hd b (by simp [hb])
        have hdB : ∀ b ∈ B, Spec.IsDigit b := fun b hb => hd b (by simp [hb])
        have hdd' : Spec.IsDigit d := hd d (by simp)
        have hval : leVal (A ++ d :: B) = c'.toNat := by rw [← hsplit, leVal_bytes8]
        have hc : c.toNat = leVal (A ++ (d - 2) :: B) := by
          have e1 : leVal (A ++ d :: B) = leVal (A ++ (d - 2) :: B) + 2 * 256 ^ i := by
            rw [leVal_append, leVal_append, leVal, leVal, hAl]
            exact dot_aux _ _ _ _ (by omega)
          have e2 : c'.toNat = (c.toNat + 2 * 256 ^ i) % 2 ^ 64 := by
            rw [hc', BitVec.toNat_add, hsh i hi]
          have e3 : leVal (A ++ (d - 2) :: B) < 2 ^ 64 := by
            have := c'.isLt; omega
          have e4 := c.isLt
          have e5 : 2 * 256 ^ i < 2 ^ 64 := by
            have := Nat.pow_le_pow_right (n := 256) (by norm_num) (show i ≤ 7 by omega)
            omega
          generalize 2 * 256 ^ i = w at *
          generalize leVal (A ++ (d - 2) :: B) = v at *
          omega
        have hb8 : bytes8 c = A ++ (d - 2) :: B := by
          refine bytes8_of ?_ ?_ hc
          · rw [List.length_append, List.length_cons, hAl, hBl]; omega
          · intro b hb
            rw [List.mem_append, List.mem_cons] at hb
            rcases hb with hb | hb | hb
            · have := hdA b hb; omega
            · omega
            · have := hdB b hb; omega
        have hflag := dotFlags_spec c hi
        rw [hbits _ (by omega), hb8, List.map_append, dotList_append _ _ (digitX_of hdA),
          List.getElem?_append_right (by simp [hAl])] at hflag
        simp only [List.length_replicate, List.length_map, hAl, Nat.sub_self, List.map_cons, dotList,
          List.getElem?_cons_zero, Option.some.injEq, decide_true] at hflag
        have hflag := hflag.symm
        rw [decide_eq_true_eq] at hflag
        have hx := xor_dot (d - 2) (by omega)
        have h46 : d - 2 = 46 := hx.2.1.mp (by omega)
        refine ⟨A, B, by rw [hb8, h46], hdA, hdB, ?_⟩
        rw [hBl]
        exact (Option.some.inj h).symm
      · exact absurd h (by simp)
    · exact absurd h (by simp)
  · rintro ⟨A, B, hb8, hdA, hdB, rfl⟩
    have hlen := length_bytes8 c
    rw [hb8, List.length_append, List.length_cons] at hlen
    set i := A.length with hi
    have hbits : ∀ k < 64, (dotFlags c).getLsbD k = decide (k = 8 * i + 7) := by
      intro k hk
      by_cases h7 : k % 8 = 7
      · obtain ⟨m, rfl⟩ : ∃ m, k = 8 * m + 7 := ⟨k / 8, by omega⟩
        have hm : m < 8 := by omega
        have hflag := dotFlags_spec c hm
        rw [hb8, List.map_append, dotList_append _ _ (digitX_of hdA), List.map_cons,
          show 46 ^^^ 46 = 0 by decide, dotList, if_pos (by omega),
          dotList_digits _ 1 (by omega) (digitX_of hdB), decide_eq_true (by omega)] at hflag
        refine Option.some.inj (hflag.trans ?_)
        simp only [List.length_map, ← hi]
        by_cases hmi : m < i
        · rw [List.getElem?_append_left (by simpa using hmi), List.getElem?_replicate, if_pos hmi]
          congr 1; symm; rw [decide_eq_false_iff_not]; omega
        · rw [List.getElem?_append_right (by simpa using hmi), List.length_replicate]
          rcases Nat.lt_or_ge i m with hmi2 | hmi2
          · obtain ⟨t, ht⟩ : ∃ t, m - i = t + 1 := ⟨m - i - 1, by omega⟩
            rw [ht, List.getElem?_cons_succ, List.getElem?_replicate, if_pos (by omega)]
            congr 1; symm; rw [decide_eq_false_iff_not]; omega
          · rw [show m - i = 0 by omega, List.getElem?_cons_zero]
            congr 1; symm; rw [decide_eq_true_eq]; omega
      · rw [dotFlags_bit c hk, decide_eq_false h7, Bool.false_and, Bool.false_and]
        symm; rw [decide_eq_false_iff_not]; omega
    obtain ⟨hp, hz⟩ := popcount_pow (by omega) hbits
    rw [if_pos hp, lz64_pow hz, show 64 - 8 - (63 - (8 * i + 7)) = 8 * i by omega, if_pos,
      show (63 - (8 * i + 7)) / 8 = B.length by omega]
    rw [chunkContains8Digits_iff]
    have hc : c.toNat = leVal (A ++ 46 :: B) := by rw [← hb8, leVal_bytes8]
    have hall : ∀ b ∈ A ++ 48 :: B, Spec.IsDigit b := by
      intro b hb
      rw [List.mem_append, List.mem_cons] at hb
      rcases hb with hb | hb | hb
      · exact hdA b hb
      · omega
      · exact hdB b hb
    have hl8 : (A ++ 48 :: B).length = 8 := by rw [List.length_append, List.length_cons]; omega
    have : bytes8 (c + ((2 : BitVec 64) <<< (8 * i))) = A ++ 48 :: B := by
      refine bytes8_of hl8 (fun b hb => by have := hall b hb; omega) ?_
      have e1 : leVal (A ++ 48 :: B) = leVal (A ++ 46 :: B) + 2 * 256 ^ i := by
        rw [leVal_append, leVal_append, leVal, leVal, ← hi]
        ring
      have e2 : leVal (A ++ 48 :: B) < 256 ^ 8 := by
        rw [← hl8]
        exact leVal_lt (fun b hb => by have := hall b hb; omega)
      rw [BitVec.toNat_add, hsh i (by omega), hc, ← e1]
      exact Nat.mod_eq_of_lt (by omega)
    rw [this]
    exact hall

theorem elim_masks : ∀ p, 1 ≤ p → p ≤ 6 →
    (0xffffffffffffffff >>> (8 * (p + 1)) : BitVec 64).toNat = 2 ^ (8 * (7 - p)) - 1 ∧
    (0xffffffffffffffff <<< (8 * (8 - p)) : BitVec 64).toNat =
      (2 ^ (8 * p) - 1) * 2 ^ (8 * (8 - p)) := by
  intro p h1 h2
  interval_cases p <;> decide

theorem elim_aux {k i a x b : ℕ} (hk : k = a + 256 ^ i * (x + 256 * b)) (ha : a < 256 ^ i)
    (hx : x < 256) : k % 256 ^ i = a ∧ k / 256 ^ (i + 1) = b := by
  constructor
  · rw [hk, Nat.add_mul_mod_self_left, Nat.mod_eq_of_lt ha]
  · rw [pow_succ, ← Nat.div_div_eq_div_mul, hk, Nat.add_mul_div_left _ _ (by positivity),
      Nat.div_eq_of_lt ha]
    omega

theorem or_add {a b : ℕ} (hb : b < 2 ^ 8) : a * 2 ^ 8 + b = a * 2 ^ 8 ||| b := by
  rw [mul_comm, Nat.two_pow_add_eq_or_of_lt hb]

/-- Removing byte `p`, counted from the end of the chunk. -/
theorem eliminateByte_toNat {k : BitVec 64} {A B : List ℕ} {x : ℕ} (h : bytes8 k = A ++ x :: B) :
    (eliminateByteFromChunk k B.length).toNat = leVal (A ++ B) := by
  have hlen := length_bytes8 k
  rw [h, List.length_append, List.length_cons] at hlen
  have hlt := bytes8_lt k
  rw [h] at hlt
  have hA : leVal A < 256 ^ A.length := leVal_lt fun b hb => hlt b (by simp [hb])
  have hB : leVal B < 256 ^ B.length := leVal_lt fun b hb => hlt b (by simp [hb])
  have hx : x < 256 := hlt x (by simp)
  have hk : k.toNat = leVal A + 256 ^ A.length * (x + 256 * leVal B) := by
    rw [← leVal_bytes8, h, leVal_append, leVal]
  obtain ⟨e1, e2⟩ := elim_aux hk hA hx
  rw [leVal_append, eliminateByteFromChunk]
  by_cases h0 : B.length = 0
  · rw [if_pos h0, BitVec.toNat_ushiftRight, BitVec.toNat_shiftLeft, Nat.shiftLeft_eq,
      Nat.shiftRight_eq_div_pow, show (2 : ℕ) ^ 64 = 2 ^ 56 * 2 ^ 8 by norm_num,
      Nat.mul_mod_mul_right, Nat.mul_div_cancel _ (by norm_num)]
    rw [show A.length = 7 by omega] at e1 ⊢
    have : B = [] := List.length_eq_zero_iff.mp h0
    rw [this, leVal, show 2 ^ 56 = 256 ^ 7 by norm_num, e1, Nat.mul_zero, Nat.add_zero]
  · rw [if_neg h0]
    by_cases h6 : B.length ≤ 6
    · rw [if_pos h6]
      obtain ⟨m1, m2⟩ := elim_masks B.length (by omega) h6
      rw [BitVec.toNat_or, BitVec.toNat_ushiftRight, BitVec.toNat_and, BitVec.toNat_and, m1, m2,
        and_mask, and_high, Nat.shiftRight_eq_div_pow]
      have p1 : 2 ^ (8 * (7 - B.length)) = 256 ^ A.length := by
        rw [show 7 - B.length = A.length by omega, pow_mul]; norm_num
      have p2 : 2 ^ (8 * (8 - B.length)) = 256 ^ (A.length + 1) := by
        rw [show 8 - B.length = A.length + 1 by omega, pow_mul]; norm_num
      have p3 : 2 ^ (8 * B.length) = 256 ^ B.length := by rw [pow_mul]; norm_num
      rw [p1, p2, p3, e1, e2, Nat.mod_eq_of_lt hB, pow_succ, ← mul_assoc,
        show 2 ^ 8 = 256 by norm_num, Nat.mul_div_cancel _ (by norm_num), Nat.or_comm,
        mul_comm (leVal B), ← p1, ← Nat.two_pow_add_eq_or_of_lt (by rw [p1]; exact hA), add_comm]
    · rw [if_neg h6, BitVec.toNat_ushiftRight, Nat.shiftRight_eq_div_pow]
      rw [show A.length = 0 by omega] at e2 ⊢
      have : A = [] := List.length_eq_zero_iff.mp (by omega)
      rw [this, leVal, show 2 ^ 8 = 256 ^ (0 + 1) by norm_num, e2]
      simp

/-- The 8-digit chunk assembled from 7 digits around a dot and the next digit. -/
theorem assemble8 {k : BitVec 64} {A B : List ℕ} {x : ℕ} (h : bytes8 k = A ++ x :: B)
    (d : BitVec 8) :
    (eliminateByteFromChunk k B.length ||| (d.setWidth 64 <<< 56)).toNat =
      leVal (A ++ B ++ [d.toNat]) := by
  have hlen := length_bytes8 k
  rw [h, List.length_append, List.length_cons] at hlen
  have hlt := bytes8_lt k
  rw [h] at hlt
  have hd := d.isLt
  have hl : (A ++ B).length = 7 := by rw [List.length_append]; omega
  have hAB : leVal (A ++ B) < 256 ^ (A ++ B).length := leVal_lt fun b hb => hlt b (by
    rw [List.mem_append] at hb; rcases hb with hb | hb <;> simp [hb])
  rw [leVal_append, hl, leVal, leVal, BitVec.toNat_or, eliminateByte_toNat h,
    BitVec.toNat_shiftLeft, BitVec.toNat_setWidth, Nat.shiftLeft_eq,
    Nat.mod_eq_of_lt (a := d.toNat) (by omega), Nat.mod_eq_of_lt (by omega), Nat.or_comm,
    mul_comm d.toNat, ← Nat.two_pow_add_eq_or_of_lt (by rw [hl] at hAB; omega)]
  omega

/-- The chunk for 7 digits around a dot if no digit follows. -/
theorem assemble7 {k : BitVec 64} {A B : List ℕ} {x : ℕ} (h : bytes8 k = A ++ x :: B) :
    (eliminateByteFromChunk k B.length <<< 8).toNat = leVal (0 :: (A ++ B)) := by
  have hlen := length_bytes8 k
  rw [h, List.length_append, List.length_cons] at hlen
  have hlt := bytes8_lt k
  rw [h] at hlt
  have hl : (A ++ B).length = 7 := by rw [List.length_append]; omega
  have hAB : leVal (A ++ B) < 256 ^ (A ++ B).length := leVal_lt fun b hb => hlt b (by
    rw [List.mem_append] at hb; rcases hb with hb | hb <;> simp [hb])
  rw [hl] at hAB
  rw [leVal, BitVec.toNat_shiftLeft, eliminateByte_toNat h, Nat.shiftLeft_eq]
  omega

theorem readU64_spec (s : List (BitVec 8)) {k : BitVec 64} (h : readU64 s = some k) :
    8 ≤ s.length ∧ bytes8 k = (s.take 8).map BitVec.toNat := by
  unfold readU64 at h
  split at h
  · rename_i b0 b1 b2 b3 b4 b5 b6 b7 s'
    obtain rfl := Option.some.inj h
    refine ⟨by simp, ?_⟩
    apply bytes8_of
    · simp
    · intro b hb
      obtain ⟨c, -, rfl⟩ := List.mem_map.mp hb
      exact c.isLt
    · have l0 := b0.isLt
      have l1 := b1.isLt
      have l2 := b2.isLt
      have l3 := b3.isLt
      have l4 := b4.isLt
      have l5 := b5.isLt
      have l6 := b6.isLt
      have l7 := b7.isLt
      simp only [List.take_succ_cons, List.take_zero, List.map_cons, List.map_nil, leVal]
      simp only [BitVec.toNat_append, Nat.shiftLeft_eq]
      rw [← or_add l6, ← or_add l5, ← or_add l4, ← or_add l3, ← or_add l2, ← or_add l1,
        ← or_add l0]
      ring
  · exact absurd h (by simp)

theorem readU64_none (s : List (BitVec 8)) : readU64 s = none ↔ s.length < 8 := by
  unfold readU64
  split
  · simp
  · rename_i h
    refine ⟨fun _ => ?_, fun _ => rfl⟩
    by_contra hl
    match s, hl with
    | b0 :: b1 :: b2 :: b3 :: b4 :: b5 :: b6 :: b7 :: s', _ => exact h _ _ _ _ _ _ _ _ _ rfl
    | [], hl | [_], hl | [_, _], hl | [_, _, _], hl | [_, _, _, _], hl | [_, _, _, _, _], hl
    | [_, _, _, _, _, _], hl | [_, _, _, _, _, _, _], hl => simp at hl

end Verif
