import Verif.Proofs.ScientificText
import Verif.Props.Log

/-!
# The digits of the scientific notation, chunk by chunk (src/conv/to_str/to_fixed_prec.rs:336-552)
-/

namespace Verif

open BigUInt LawfulBigUInt Spec

/-- `look` is a table for the sequence `W`: the number `W c` consists of the digits of the first chunks up to chunk `c`. -/
structure TableFor (look : ℕ → U512) (x : U256) (sh : ℕ) (W : ℕ → ℕ) (N : ℕ) : Prop where
  chunk : ∀ c, c ≤ N → mulShiftMod x (look c) sh = some (W c % 10 ^ 19)
  step : ∀ c, W (c + 1) / 10 ^ 19 = W c

theorem table_val {W : ℕ → ℕ} (h : ∀ c, W (c + 1) / 10 ^ 19 = W c) (c : ℕ) :
    W c * 10 ^ 19 + W (c + 1) % 10 ^ 19 = W (c + 1) := by
  rw [← h c, Nat.mul_comm]
  exact Nat.div_add_mod _ _

theorem sciChunks_spec {look : ℕ → U512} {x : U256} {sh N : ℕ} {W : ℕ → ℕ} (h : TableFor look x sh W N) :
    ∀ (k c w : ℕ) (pre : List (BitVec 8)), c + k ≤ N → FixedText pre w (W c) →
      ∃ s, sciChunks look x sh k (c + 1) = some s ∧ FixedText (pre ++ s) (w + 19 * k) (W (c + k)) := by
  intro k
  induction k with
  | zero => intro c w pre _ g; exact ⟨[], rfl, by simpa using g⟩
  | succ k ih =>
    intro c w pre hc g
    have e := h.chunk (c + 1) (by omega)
    have hlt : W (c + 1) % 10 ^ 19 < 10 ^ 19 := Nat.mod_lt _ (by norm_num)
    have g1 := g.append (fixedText_pad hlt)
    rw [if_pos (by norm_num), table_val h.step] at g1
    obtain ⟨s, s1, s2⟩ := ih (c + 1) _ _ (by omega) g1
    refine ⟨natTextPad 19 (W (c + 1) % 10 ^ 19) ++ s, ?_, ?_⟩
    · rw [sciChunks, e, Option.bind_eq_bind, Option.bind_some, s1]
      rfl
    · rw [← List.append_assoc, show w + 19 * (k + 1) = w + 19 + 19 * k by ring, show c + (k + 1) = c + 1 + k by ring]
      exact s2

/-- What `sciDigits` returns: `p + 1` digits with the value `D`, behind which `W i` has `w` more digits with the value `rem` -/
structure SciDigitsOf (W : ℕ → ℕ) (p : ℕ) (r : SciDigits) (idx i w D : ℕ) : Prop where
  text : ∃ c b, r.text = c :: (if p > 0 then 46#8 :: b else []) ∧ FixedText (c :: b) (p + 1) D ∧ c ≠ 48#8 ∧ b.length = p
  skip : r.skipped = idx
  lead : 10 ^ r.nDigits ≤ W idx ∧ W idx < 10 ^ (r.nDigits + 1)
  first : idx ≤ 1 ∧ (0 < idx → W 0 = 0)
  digits : r.nDigits ≤ 18
  pos : 0 < w
  place : 19 * i + r.nDigits = 19 * idx + p + w
  value : D * 10 ^ w + r.rem = W i
  rem_lt : r.rem < 10 ^ w
  tie : 2 * r.tie = 10 ^ w

theorem half_pow10 {w : ℕ} (h : 0 < w) : 2 * (10 ^ w / 2) = 10 ^ w := by
  obtain ⟨v, rfl⟩ : ∃ v, w = v + 1 := ⟨w - 1, by omega⟩
  rw [pow_succ]
  omega

/-- The case that the first chunk is sufficient -/
theorem sci_first {ch q p : ℕ} (h1 : 10 ^ q ≤ ch) (h2 : ch < 10 ^ (q + 1)) (hp : p < q) :
    ∃ c b, natText (ch / 10 ^ q) ++ (if p > 0 then 46#8 :: natTextPad p (ch % 10 ^ q / 10 ^ (q - p)) else []) =
        c :: (if p > 0 then 46#8 :: b else []) ∧ FixedText (c :: b) (p + 1) (ch / 10 ^ (q - p)) ∧ c ≠ 48#8 ∧ b.length = p ∧
      ch % 10 ^ q % 10 ^ (q - p) = ch % 10 ^ (q - p) := by
  obtain ⟨w, rfl⟩ : ∃ w, q = p + w := ⟨q - p, by omega⟩
  rw [Nat.add_sub_cancel_left]
  have hq0 : 0 < 10 ^ (p + w) := by positivity
  have hd : 1 ≤ ch / 10 ^ (p + w) := (Nat.le_div_iff_mul_le hq0).mpr (by omega)
  have hd9 : ch / 10 ^ (p + w) < 10 := (Nat.div_lt_iff_lt_mul hq0).mpr (by rw [pow_succ] at h2; omega)
  have hl : (natText (ch / 10 ^ (p + w))).length = 0 + 1 :=
    natText_len (n := ch / 10 ^ (p + w)) (k := 0) (by rw [pow_zero]; exact hd) (by rw [Nat.zero_add, pow_one]; exact hd9)
  have hs := natText_spec (ch / 10 ^ (p + w))
  generalize natText (ch / 10 ^ (p + w)) = s at *
  have hlt : ch % 10 ^ (p + w) / 10 ^ w < 10 ^ p := by
    rw [Nat.div_lt_iff_lt_mul (by positivity), ← pow_add]
    exact Nat.mod_lt _ hq0
  have g := (⟨hs.digit, hl, hs.val⟩ : FixedText s (0 + 1) _).append (fixedText_pad hlt)
  have hv : ch / 10 ^ (p + w) * 10 ^ p + ch % 10 ^ (p + w) / 10 ^ w = ch / 10 ^ w := by
    have e1 : ch / 10 ^ (p + w) = ch / 10 ^ w / 10 ^ p := by rw [Nat.div_div_eq_div_mul, ← pow_add, Nat.add_comm]
    have e2 : ch % 10 ^ (p + w) / 10 ^ w = ch / 10 ^ w % 10 ^ p := by
      rw [Nat.add_comm p w, pow_add]
      exact Nat.mod_mul_right_div_self _ _ _
    rw [e1, e2, Nat.mul_comm]
    exact Nat.div_add_mod _ _
  rw [hv, show 0 + 1 + p = p + 1 by ring] at g
  have hD : 10 ^ p ≤ ch / 10 ^ w := (Nat.le_div_iff_mul_le (by positivity)).mpr (by rw [← pow_add]; exact h1)
  obtain ⟨c, b, e, hc, hb⟩ := sci_split g hD
  obtain ⟨c', rfl⟩ := List.length_eq_one_iff.mp hl
  rw [List.singleton_append, List.cons.injEq] at e
  obtain ⟨rfl, e⟩ := e
  refine ⟨c', b, ?_, by rw [← e]; exact g, hc, hb, ?_⟩
  · rw [List.singleton_append, ← e]
    by_cases hp0 : p > 0
    · rw [if_pos hp0, if_pos hp0, if_pos hp0]
    · rw [if_neg hp0, if_neg hp0]
  · rw [Nat.add_comm p w, pow_add]
    exact Nat.mod_mul_right_mod _ _ _

theorem sci_append {s t : List (BitVec 8)} {p q D : ℕ} (h : FixedText (s ++ t) (p + 1) D) (hD : 10 ^ p ≤ D)
    (hs : s.length = q + 1) :
    ∃ c b, (if p > 0 then splitText s else s) ++ t = c :: (if p > 0 then 46#8 :: b else []) ∧ FixedText (c :: b) (p + 1) D ∧ c ≠ 48#8 ∧
      b.length = p := by
  obtain ⟨c, b, e, hc, hb⟩ := sci_split h hD
  refine ⟨c, b, ?_, by rw [← e]; exact h, hc, hb⟩
  cases s with
  | nil => simp at hs
  | cons d s =>
    rw [List.cons_append, List.cons.injEq] at e
    obtain ⟨rfl, e⟩ := e
    by_cases hp0 : p > 0
    · rw [if_pos hp0, if_pos hp0, ← e]
      rfl
    · rw [if_neg hp0, if_neg hp0]
      have : b = [] := List.length_eq_zero_iff.mp (by omega)
      rw [List.cons_append, e, this]

theorem sciDigits_rest0 {look : ℕ → U512} {x : U256} {sh p ch : ℕ} (h : mulShiftMod x (look 0) sh = some ch) (h0 : ch ≠ 0) :
    sciDigits look x sh p = sciDigitsFrom look x sh p 0 ch := by
  unfold sciDigits
  rw [h, Option.bind_some, if_neg h0]

theorem sciDigits_rest1 {look : ℕ → U512} {x : U256} {sh p ch : ℕ} (h : mulShiftMod x (look 0) sh = some 0)
    (h1 : mulShiftMod x (look 1) sh = some ch) : sciDigits look x sh p = sciDigitsFrom look x sh p 1 ch := by
  unfold sciDigits
  rw [h, Option.bind_some, if_pos rfl, h1, Option.bind_some]

/-- The chunks -/
theorem sciDigits_from {look : ℕ → U512} {x : U256} {sh p idx : ℕ} {W : ℕ → ℕ} (h : TableFor look x sh W 5) (hp : p ≤ 75)
    (hi : idx ≤ 1) (h0 : 0 < W idx) (h1 : W idx < 10 ^ 19) (hz : 0 < idx → W 0 = 0)
    (hsel : sciDigits look x sh p = sciDigitsFrom look x sh p idx (W idx)) :
    ∃ r i w D, i ≤ 5 ∧ sciDigits look x sh p = some r ∧ SciDigitsOf W p r idx i w D := by
  have hch : (BitVec.ofNat 64 (W idx)).toNat = W idx := by
    rw [BitVec.toNat_ofNat, Nat.mod_eq_of_lt (by omega)]
  obtain ⟨q1, q2⟩ := Props.C46_floor_log10 (BitVec.ofNat 64 (W idx)) (by
    intro hc
    have := congrArg BitVec.toNat hc
    rw [hch] at this
    simp at this
    omega)
  rw [hch] at q1 q2
  have q18 : (floorLog10 (BitVec.ofNat 64 (W idx))).toNat ≤ 18 := by
    have := lt_of_le_of_lt q1 h1
    have := (Nat.pow_lt_pow_iff_right (by norm_num : 1 < 10)).mp this
    omega
  rw [hsel]
  unfold sciDigitsFrom
  dsimp only
  generalize (floorLog10 (BitVec.ofNat 64 (W idx))).toNat = q at *
  by_cases hq : q > p
  · rw [if_pos hq]
    obtain ⟨c, b, t1, t2, t3, t4, t5⟩ := sci_first q1 q2 hq
    refine ⟨_, idx, q - p, W idx / 10 ^ (q - p), by omega, rfl, ⟨c, b, t1, t2, t3, t4⟩, rfl, ⟨q1, q2⟩, ⟨hi, hz⟩, q18, by omega, ?_, ?_, ?_, ?_⟩
    · dsimp only; omega
    · dsimp only
      rw [t5, Nat.mul_comm]
      exact Nat.div_add_mod _ _
    · exact Nat.mod_lt _ (by positivity)
    · exact half_pow10 (by omega)
  · rw [if_neg hq]
    have hl := natText_len q1 q2
    have hs := natText_spec (W idx)
    generalize natText (W idx) = s at *
    have hN : idx + 1 + (p - q) / 19 ≤ 5 := by omega
    obtain ⟨full, f1, f2⟩ :=
      sciChunks_spec h ((p - q) / 19) idx (q + 1) s (by omega) ⟨hs.digit, hl, hs.val⟩
    have hw : (p - q) % 19 < 19 := Nat.mod_lt _ (by norm_num)
    obtain ⟨n, hn⟩ : ∃ n, n = (p - q) % 19 := ⟨_, rfl⟩
    obtain ⟨a, ha⟩ : ∃ a, a = (p - q) / 19 := ⟨_, rfl⟩
    have hpq : p = q + 19 * a + n := by omega
    rw [← ha] at hN f1 f2
    rw [← hn] at hw
    rw [show CHUNK_SIZE = 19 from rfl, ← hn, ← ha]
    clear hn ha
    rw [f1, Option.bind_eq_bind, Option.bind_some, h.chunk _ hN, Option.bind_eq_bind,
      Option.bind_some]
    obtain ⟨w, hw'⟩ : ∃ w, 19 = n + w := ⟨19 - n, by omega⟩
    have hw0 : 19 - n = w := by omega
    rw [hw0]
    have hlt : W (idx + 1 + a) % 10 ^ 19 / 10 ^ w < 10 ^ n := by
      rw [Nat.div_lt_iff_lt_mul (by positivity), ← pow_add, ← hw']
      exact Nat.mod_lt _ (by norm_num)
    have g := f2.append (fixedText_pad hlt)
    have hv : W (idx + a) * 10 ^ n + W (idx + 1 + a) % 10 ^ 19 / 10 ^ w = W (idx + 1 + a) / 10 ^ w := by
      have hst := h.step (idx + a)
      rw [show idx + a + 1 = idx + 1 + a by ring] at hst
      rw [← hst, hw', pow_add]
      have e1 : W (idx + 1 + a) / (10 ^ n * 10 ^ w) = W (idx + 1 + a) / 10 ^ w / 10 ^ n := by
        rw [Nat.div_div_eq_div_mul, Nat.mul_comm]
      have e2 : W (idx + 1 + a) % (10 ^ n * 10 ^ w) / 10 ^ w = W (idx + 1 + a) / 10 ^ w % 10 ^ n := by
        rw [Nat.mul_comm]
        exact Nat.mod_mul_right_div_self _ _ _
      rw [e1, e2, Nat.mul_comm]
      exact Nat.div_add_mod _ _
    rw [hv, show q + 1 + 19 * a + n = p + 1 by omega, List.append_assoc] at g
    -- the value has `p + 1` digits
    have hiter : ∀ j, W (idx + j) / 10 ^ (19 * j) = W idx := by
      intro j
      induction j with
      | zero => simp
      | succ j ih =>
        rw [← ih, ← h.step (idx + j), Nat.div_div_eq_div_mul, ← pow_add, show idx + j + 1 = idx + (j + 1) by ring,
          show 19 + 19 * j = 19 * (j + 1) by ring]
    have hD : 10 ^ p ≤ W (idx + 1 + a) / 10 ^ w := by
      rw [Nat.le_div_iff_mul_le (by positivity), ← pow_add]
      have := hiter (a + 1)
      rw [show idx + (a + 1) = idx + 1 + a by ring] at this
      rw [← this, Nat.le_div_iff_mul_le (by positivity), ← pow_add] at q1
      rw [show p + w = q + 19 * (a + 1) by omega]
      exact q1
    obtain ⟨c, b, t1, t2, t3, t4⟩ := sci_append g hD hl
    refine ⟨_, idx + 1 + a, w, _, hN, rfl, ⟨c, b, ?_, t2, t3, t4⟩, rfl, ⟨q1, q2⟩, ⟨hi, hz⟩, q18, by omega, ?_, ?_, ?_, ?_⟩
    · dsimp only
      rw [List.append_assoc]
      exact t1
    · dsimp only; omega
    · dsimp only
      have : W (idx + 1 + a) % 10 ^ 19 % 10 ^ w = W (idx + 1 + a) % 10 ^ w := by
        rw [hw', Nat.add_comm n w, pow_add]
        exact Nat.mod_mul_right_mod _ _ _
      rw [this, Nat.mul_comm]
      exact Nat.div_add_mod _ _
    · exact Nat.mod_lt _ (by positivity)
    · exact half_pow10 (by omega)

theorem sciDigits_spec {look : ℕ → U512} {x : U256} {sh p : ℕ} {W : ℕ → ℕ} (h : TableFor look x sh W 5) (hp : p ≤ 75)
    (h0 : W 0 < 10 ^ 19) (h1 : 0 < W 1) :
    ∃ r idx i w D, i ≤ 5 ∧ sciDigits look x sh p = some r ∧ SciDigitsOf W p r idx i w D := by
  have hm := Nat.mod_eq_of_lt h0
  by_cases hz : W 0 = 0
  · have h19 : W 1 < 10 ^ 19 := by
      have := h.step 0
      rw [hz] at this
      exact (Nat.div_eq_zero_iff_lt (by norm_num)).mp this
    obtain ⟨r, i, w, D, g⟩ := sciDigits_from (idx := 1) h hp (by omega) h1 h19 (fun _ => hz)
      (sciDigits_rest1 (by rw [h.chunk 0 (by omega), hz]; rfl) (by rw [h.chunk 1 (by omega), Nat.mod_eq_of_lt h19]))
    exact ⟨r, 1, i, w, D, g⟩
  · obtain ⟨r, i, w, D, g⟩ := sciDigits_from (idx := 0) h hp (by omega) (by omega) h0 (fun hc => absurd hc (by omega))
      (sciDigits_rest0 (by rw [h.chunk 0 (by omega), hm]) hz)
    exact ⟨r, 0, i, w, D, g⟩

/-! ## Rounding up -/

theorem roundUpSci_digits (rest : List (BitVec 8)) (hrest : rest ≠ []) : ∀ (r : List (BitVec 8)), (∀ c ∈ r, IsDigit c.toNat) →
    (∃ r' : List (BitVec 8), roundUpSciRev (r ++ rest) = some (r' ++ rest, 0) ∧
      FixedText r'.reverse r.length (decVal (digs r.reverse) + 1)) ∨
    (decVal (digs r.reverse) + 1 = 10 ^ r.length ∧
      roundUpSciRev (r ++ rest) = (roundUpSciRev rest).map fun t => (List.replicate r.length 48#8 ++ t.1, t.2)) := by
  intro r
  induction r with
  | nil => intro _; right; exact ⟨rfl, by cases h : roundUpSciRev rest <;> simp [h]⟩
  | cons c r ih =>
    intro hd
    have hc := hd c (by simp)
    have hr : ∀ c ∈ r, IsDigit c.toNat := fun x hx => hd x (by simp [hx])
    have hv : decVal (digs (c :: r).reverse) = decVal (digs r.reverse) * 10 + (c.toNat - 48) := by
      rw [List.reverse_cons, digs_append, show digs [c] = [c.toNat - 48] from rfl, decVal_concat]
    unfold IsDigit at hc
    obtain ⟨d, t, hdt⟩ : ∃ d t, r ++ rest = d :: t := List.exists_cons_of_ne_nil (by simp [hrest])
    rw [hv, List.cons_append]
    by_cases h9 : c = 57#8
    · have hstep : roundUpSciRev (c :: (r ++ rest)) = (roundUpSciRev (r ++ rest)).map fun (s, carry) => (48#8 :: s, carry) := by
        rw [hdt, roundUpSciRev, if_pos h9]
        simp
      rw [hstep]
      have h9' := nine_iff.mp h9
      rw [h9']
      rcases ih hr with ⟨r', a, b⟩ | ⟨a, b⟩
      · left
        refine ⟨48#8 :: r', by rw [a]; rfl, ?_⟩
        have := b.append (fixedText_zeroes 1)
        rw [List.reverse_cons, List.length_cons]
        convert this using 1
        · rfl
        · rw [pow_one]; omega
      · right
        refine ⟨?_, ?_⟩
        · rw [List.length_cons, pow_succ, ← a]; omega
        · rw [b, List.length_cons, List.replicate_succ]
          cases roundUpSciRev rest <;> rfl
    · have h9' : c.toNat ≠ 57 := fun h => h9 (nine_iff.mpr h)
      have hdot : c ≠ 46#8 := by
        intro h
        rw [h] at hc
        exact absurd hc.1 (by decide)
      have hstep : roundUpSciRev (c :: (r ++ rest)) = some ((c + 1) :: (r ++ rest), 0) := by
        rw [hdt, roundUpSciRev, if_neg h9, if_neg hdot]
        simp
      rw [hstep]
      left
      refine ⟨(c + 1) :: r, rfl, ?_⟩
      have hc1 : (c + 1).toNat = c.toNat + 1 := by
        rw [BitVec.toNat_add]
        show (c.toNat + 1) % 2 ^ 8 = _
        omega
      refine ⟨?_, by simp, ?_⟩
      · intro x hx
        rw [List.mem_reverse, List.mem_cons] at hx
        rcases hx with rfl | hx
        · unfold IsDigit; omega
        · exact hr x hx
      · rw [List.reverse_cons, digs_append, show digs [c + 1] = [(c + 1).toNat - 48] from rfl, decVal_concat, hc1]
        omega

/-- The leading digit -/
theorem roundUpSci_lead {c : BitVec 8} (hc : IsDigit c.toNat) :
    roundUpSciRev [c] = if c = 57#8 then some ([49#8], 1) else some ([c + 1], 0) := by
  have hdot : c ≠ 46#8 := by
    intro h
    rw [h] at hc
    exact absurd hc.1 (by decide)
  rw [roundUpSciRev]
  by_cases h9 : c = 57#8
  · rw [if_pos h9, if_pos h9]
  · rw [if_neg h9, if_neg h9, if_neg hdot]

theorem roundUpScientific_spec {c : BitVec 8} {b : List (BitVec 8)} {p D : ℕ} (h : FixedText (c :: b) (p + 1) D) (hc : c ≠ 48#8)
    (hb : b.length = p) :
    ∃ c' b' D' cr, roundUpScientific (c :: (if p > 0 then 46#8 :: b else [])) = some (c' :: (if p > 0 then 46#8 :: b' else []), cr) ∧
      FixedText (c' :: b') (p + 1) D' ∧ c' ≠ 48#8 ∧ b'.length = p ∧
      ((D + 1 < 10 ^ (p + 1) ∧ D' = D + 1 ∧ cr = 0) ∨ (10 ^ (p + 1) ≤ D + 1 ∧ D' = (D + 1) / 10 ∧ cr = 1)) := by
  have hdc := h.digit c (by simp)
  have hdb : ∀ x ∈ b, IsDigit x.toNat := fun x hx => h.digit x (by simp [hx])
  have hV : D = (c.toNat - 48) * 10 ^ p + decVal (digs b) := by
    have := h.val
    rw [digs, List.map_cons, decVal_cons] at this
    rw [← this, ← hb, ← digs, digs_length]
  have hB : decVal (digs b) < 10 ^ p := by
    have := decVal_lt (digs_lt hdb)
    rwa [digs_length, hb] at this
  have hc0 : c.toNat ≠ 48 := fun hh => hc (BitVec.toNat_inj.mp hh)
  have hc1 : c.toNat ≠ 57 → (c + 1).toNat = c.toNat + 1 := by
    intro _
    unfold IsDigit at hdc
    rw [BitVec.toNat_add]
    show (c.toNat + 1) % 2 ^ 8 = _
    omega
  have hpp : 10 ^ (p + 1) = 10 * 10 ^ p := by rw [pow_succ]; ring
  have hP : 0 < 10 ^ p := by positivity
  -- what remains once all digits behind the point are nines
  have key : decVal (digs b) + 1 = 10 ^ p →
      (∃ c' cr, roundUpSciRev [c] = some ([c'], cr) ∧ FixedText (c' :: List.replicate p 48#8) (p + 1) (if cr = 1 then 10 ^ p else D + 1) ∧
        c' ≠ 48#8 ∧ ((D + 1 < 10 ^ (p + 1) ∧ cr = 0) ∨ (D + 1 = 10 ^ (p + 1) ∧ cr = 1))) := by
    intro hn
    rw [roundUpSci_lead hdc]
    by_cases h9 : c = 57#8
    · refine ⟨49#8, 1, by rw [if_pos h9], ?_, by decide, Or.inr ⟨?_, rfl⟩⟩
      · rw [if_pos rfl]
        have := (⟨by intro x hx; rw [List.mem_singleton] at hx; subst hx; unfold IsDigit; decide, rfl, rfl⟩ :
          FixedText [49#8] 1 1).append (fixedText_zeroes p)
        rw [Nat.one_mul, Nat.add_zero, Nat.add_comm] at this
        exact this
      · have h9' := nine_iff.mp h9
        rw [hV, h9', hpp]
        omega
    · have h9' : c.toNat ≠ 57 := fun h => h9 (nine_iff.mpr h)
      have e1 := hc1 h9'
      unfold IsDigit at hdc
      refine ⟨c + 1, 0, by rw [if_neg h9], ?_, ?_, Or.inl ⟨?_, rfl⟩⟩
      · rw [if_neg (by norm_num)]
        have := (⟨by intro x hx; rw [List.mem_singleton] at hx; subst hx; unfold IsDigit; omega, rfl, rfl⟩ :
          FixedText [c + 1] 1 (decVal (digs [c + 1]))).append (fixedText_zeroes p)
        have e : decVal (digs [c + 1]) * 10 ^ p + 0 = D + 1 := by
          rw [show digs [c + 1] = [(c + 1).toNat - 48] from rfl, e1, hV, Nat.add_assoc, hn]
          show (0 * 10 + (c.toNat + 1 - 48)) * 10 ^ p + 0 = _
          rw [show 0 * 10 + (c.toNat + 1 - 48) = c.toNat - 48 + 1 by omega]
          ring
        rw [e, Nat.add_comm] at this
        exact this
      · intro hh
        have := congrArg BitVec.toNat hh
        rw [e1] at this
        have : c.toNat + 1 = 48 := this
        omega
      · rw [hV, hpp]
        have : (c.toNat - 48) * 10 ^ p ≤ 8 * 10 ^ p := Nat.mul_le_mul_right _ (by omega)
        omega
  have hskip : ∀ l : List (BitVec 8), roundUpSciRev (46#8 :: c :: l) = (roundUpSciRev (c :: l)).map fun (s, carry) => (46#8 :: s, carry) := by
    intro l
    rw [roundUpSciRev, if_neg (by decide), if_pos rfl]
    simp
  unfold roundUpScientific
  rcases Nat.eq_zero_or_pos p with hp | hp
  · have hbn : b = [] := List.length_eq_zero_iff.mp (by omega)
    subst hbn hp
    obtain ⟨c', cr, k1, k2, k3, k4⟩ := key rfl
    refine ⟨c', [], if cr = 1 then 10 ^ 0 else D + 1, cr, ?_, k2, k3, rfl, ?_⟩
    · rw [if_neg (by omega), List.reverse_singleton, k1]
      rfl
    · rcases k4 with ⟨a, rfl⟩ | ⟨a, rfl⟩
      · exact Or.inl ⟨a, rfl, rfl⟩
      · right; refine ⟨a.ge, ?_, rfl⟩
        rw [if_pos rfl, a]
        norm_num
  · rw [if_pos hp]
    have hrev : (c :: 46#8 :: b).reverse = b.reverse ++ [46#8, c] := by simp
    rw [hrev]
    rcases roundUpSci_digits [46#8, c] (by simp) b.reverse (fun x hx => hdb x (List.mem_reverse.mp hx)) with ⟨s', e1, e2⟩ | ⟨e1, e2⟩
    · rw [List.reverse_reverse, List.length_reverse, hb] at e2
      refine ⟨c, s'.reverse, D + 1, 0, ?_, ?_, hc, e2.len, Or.inl ⟨?_, rfl, rfl⟩⟩
      · rw [e1, if_pos hp]
        simp
      · have := (⟨by intro x hx; rw [List.mem_singleton] at hx; subst hx; exact hdc, rfl, rfl⟩ :
          FixedText [c] 1 (decVal (digs [c]))).append e2
        have e : decVal (digs [c]) * 10 ^ p + (decVal (digs b) + 1) = D + 1 := by
          rw [hV, show digs [c] = [c.toNat - 48] from rfl]
          show (0 * 10 + (c.toNat - 48)) * 10 ^ p + _ = _
          rw [show 0 * 10 + (c.toNat - 48) = c.toNat - 48 by omega]
          ring
        rw [e, Nat.add_comm 1 p] at this
        exact this
      · have := e2.lt
        have h8 : (c.toNat - 48) * 10 ^ p ≤ 9 * 10 ^ p := Nat.mul_le_mul_right _ (by unfold IsDigit at hdc; omega)
        rw [hV, hpp]
        omega
    · rw [List.reverse_reverse, List.length_reverse, hb] at e1
      rw [List.length_reverse, hb] at e2
      obtain ⟨c', cr, k1, k2, k3, k4⟩ := key e1
      refine ⟨c', List.replicate p 48#8, if cr = 1 then 10 ^ p else D + 1, cr, ?_, k2, k3, by simp, ?_⟩
      · rw [e2, hskip, k1, if_pos hp]
        simp
      · rcases k4 with ⟨a, rfl⟩ | ⟨a, rfl⟩
        · exact Or.inl ⟨a, rfl, rfl⟩
        · right
          refine ⟨a.ge, ?_, rfl⟩
          rw [if_pos rfl, a, pow_succ, Nat.mul_div_cancel _ (by norm_num)]

/-! ## The number behind the chunks -/

/-- The digits of `x` up to the place `10^(-κ - 19c)` -/
noncomputable def chunkOf (x : ℝ) (κ : ℤ) (c : ℕ) : ℕ := ⌊x * (10 : ℝ) ^ (19 * (c : ℤ) + κ)⌋₊

theorem chunkOf_step (x : ℝ) (κ : ℤ) (c : ℕ) : chunkOf x κ (c + 1) / 10 ^ 19 = chunkOf x κ c := by
  unfold chunkOf
  rw [← Nat.floor_div_natCast (x * (10 : ℝ) ^ (19 * ((c + 1 : ℕ) : ℤ) + κ)) (10 ^ 19)]
  congr 1
  rw [show 19 * ((c + 1 : ℕ) : ℤ) + κ = 19 * (c : ℤ) + κ + 19 by push_cast; ring, zpow_add₀ (by norm_num), zpow_ofNat]
  rw [Nat.cast_pow, Nat.cast_ofNat, ← mul_assoc]
  exact mul_div_cancel_right₀ _ (show (10 : ℝ) ^ 19 ≠ 0 by norm_num)

theorem chunkOf_bounds {x : ℝ} (hx : 0 < x) (κ : ℤ) (c : ℕ) :
    (chunkOf x κ c : ℝ) ≤ x * (10 : ℝ) ^ (19 * (c : ℤ) + κ) ∧ x * (10 : ℝ) ^ (19 * (c : ℤ) + κ) < chunkOf x κ c + 1 :=
  ⟨Nat.floor_le (by positivity), Nat.lt_floor_add_one _⟩

/-- What the digits mean for the number -/
theorem sci_round {x : ℝ} (hx : 0 < x) {κ e : ℤ} {p : ℕ} {r : SciDigits} {idx i w D : ℕ}
    (h : SciDigitsOf (chunkOf x κ) p r idx i w D) (he : e = r.nDigits - 19 * idx - κ) :
    (10 : ℝ) ^ e ≤ x ∧ x < (10 : ℝ) ^ (e + 1) ∧
    (r.rem > r.tie → (D : ℝ) + 1 / 2 < x * (10 : ℝ) ^ ((p : ℤ) - e) ∧ x * (10 : ℝ) ^ ((p : ℤ) - e) < D + 1) ∧
    (r.rem < r.tie → (D : ℝ) ≤ x * (10 : ℝ) ^ ((p : ℤ) - e) ∧ x * (10 : ℝ) ^ ((p : ℤ) - e) < D + 1 / 2) ∧
    (r.rem = r.tie → (D : ℝ) + 1 / 2 ≤ x * (10 : ℝ) ^ ((p : ℤ) - e) ∧ x * (10 : ℝ) ^ ((p : ℤ) - e) < D + 1 ∧
      ((∃ Y : ℕ, x * (10 : ℝ) ^ ((p : ℤ) - e) * 10 = Y) → x * (10 : ℝ) ^ ((p : ℤ) - e) = D + 1 / 2)) := by
  have h10 : (10 : ℝ) ≠ 0 := by norm_num
  obtain ⟨b1, b2⟩ := chunkOf_bounds hx κ idx
  obtain ⟨l1, l2⟩ := h.lead
  have l1' : (10 : ℝ) ^ r.nDigits ≤ chunkOf x κ idx := by exact_mod_cast l1
  have l2' : (chunkOf x κ idx : ℝ) + 1 ≤ (10 : ℝ) ^ (r.nDigits + 1) := by exact_mod_cast l2
  have sc : ∀ j : ℤ, (10 : ℝ) ^ j * 10 ^ (19 * (idx : ℤ) + κ) = 10 ^ (j + 19 * idx + κ) := by
    intro j
    rw [← zpow_add₀ h10]
    congr 1
    ring
  have hpos : (0 : ℝ) < (10 : ℝ) ^ (19 * (idx : ℤ) + κ) := by positivity
  refine ⟨?_, ?_, ?_⟩
  · rw [← mul_le_mul_iff_left₀ hpos, sc, show e + 19 * (idx : ℤ) + κ = ((r.nDigits : ℕ) : ℤ) by rw [he]; ring, zpow_natCast]
    linarith
  · rw [← mul_lt_mul_iff_left₀ hpos, sc, show e + 1 + 19 * (idx : ℤ) + κ = ((r.nDigits + 1 : ℕ) : ℤ) by rw [he]; push_cast; ring, zpow_natCast]
    linarith
  obtain ⟨c1, c2⟩ := chunkOf_bounds hx κ i
  have hpl : (19 * (i : ℤ) + κ) = (p : ℤ) - e + w := by
    have := h.place
    have : (19 * i + r.nDigits : ℤ) = 19 * idx + p + w := by exact_mod_cast this
    rw [he]
    linarith
  rw [hpl, zpow_add₀ h10, zpow_natCast, ← mul_assoc, ← h.value] at c1 c2
  have hT : (2 : ℝ) * r.tie = (10 : ℝ) ^ w := by exact_mod_cast h.tie
  have hr : (r.rem : ℝ) + 1 ≤ (10 : ℝ) ^ w := by exact_mod_cast h.rem_lt
  have hw : (0 : ℝ) < (10 : ℝ) ^ w := by positivity
  have hY : (∃ Y : ℕ, x * (10 : ℝ) ^ ((p : ℤ) - e) * 10 = Y) → x * (10 : ℝ) ^ ((p : ℤ) - e) * 10 ^ w = ((D * 10 ^ w + r.rem : ℕ) : ℝ) := by
    rintro ⟨Y, hY⟩
    obtain ⟨v, rfl⟩ : ∃ v, w = v + 1 := ⟨w - 1, by have := h.pos; omega⟩
    have e1 : x * (10 : ℝ) ^ ((p : ℤ) - e) * 10 ^ (v + 1) = ((Y * 10 ^ v : ℕ) : ℝ) := by
      rw [pow_succ', ← mul_assoc, hY]
      push_cast
      rfl
    rw [e1] at c1 c2 ⊢
    have a1 : D * 10 ^ (v + 1) + r.rem ≤ Y * 10 ^ v := by exact_mod_cast c1
    have a2 : Y * 10 ^ v < D * 10 ^ (v + 1) + r.rem + 1 := by exact_mod_cast c2
    have : Y * 10 ^ v = D * 10 ^ (v + 1) + r.rem := by omega
    rw [this]
  push_cast at c1 c2 hY
  generalize x * (10 : ℝ) ^ ((p : ℤ) - e) = y at *
  generalize (10 : ℝ) ^ w = T at *
  have up : y < D + 1 := by
    rw [← mul_lt_mul_iff_left₀ hw]
    linarith
  refine ⟨fun hh => ⟨?_, up⟩, fun hh => ⟨?_, ?_⟩, fun hh => ⟨?_, up, fun hy => ?_⟩⟩
  · have : (r.tie : ℝ) + 1 ≤ r.rem := by exact_mod_cast hh
    rw [← mul_lt_mul_iff_left₀ hw]
    linarith
  · have : (0 : ℝ) ≤ r.rem := Nat.cast_nonneg _
    rw [← mul_le_mul_iff_left₀ hw]
    linarith
  · have : (r.rem : ℝ) + 1 ≤ r.tie := by exact_mod_cast hh
    rw [← mul_lt_mul_iff_left₀ hw]
    linarith
  · have : (r.rem : ℝ) = r.tie := by exact_mod_cast hh
    rw [← mul_le_mul_iff_left₀ hw]
    linarith
  · have : (r.rem : ℝ) = r.tie := by exact_mod_cast hh
    have h3 := hY hy
    apply mul_right_cancel₀ hw.ne'
    linarith

/-- The estimate of the logarithm used for the tables -/
theorem table_log {n : ℕ} (hn : n ≤ 325147) :
    10 ^ (n * 169464822037455 / 2 ^ 49) ≤ 2 ^ n ∧ 2 ^ n < 10 ^ (n * 169464822037455 / 2 ^ 49 + 1) :=
  Props.log_exact (A := 2) (B := 10) (a := 97879) (b := 325147) (a' := 1153242) (b' := 3830987) (by norm_num) (by norm_num)
    (by norm_num) (by norm_num) (by norm_num) Props.ten_lt.le Props.ten_gt (by norm_num) (by norm_num) (by omega)

/-- The result of the functions that work with chunks: `p + 1` digits, an exponent, and how to round -/
structure SciParts (x : ℝ) (p : ℕ) (t : List (BitVec 8)) (R : Rounding) (e : ℤ) (D : ℕ) : Prop where
  text : ∃ c b, t = c :: (if p > 0 then 46#8 :: b else []) ∧ FixedText (c :: b) (p + 1) D ∧ c ≠ 48#8 ∧ b.length = p
  lower : (10 : ℝ) ^ e ≤ x
  upper : x < (10 : ℝ) ^ (e + 1)
  up : R = .up → (D : ℝ) + 1 / 2 ≤ x * (10 : ℝ) ^ ((p : ℤ) - e) ∧ x * (10 : ℝ) ^ ((p : ℤ) - e) < D + 1
  down : R = .down → (D : ℝ) ≤ x * (10 : ℝ) ^ ((p : ℤ) - e) ∧ x * (10 : ℝ) ^ ((p : ℤ) - e) < D + 1 / 2
  toEven : R = .toEven → x * (10 : ℝ) ^ ((p : ℤ) - e) = D + 1 / 2

/-- The chunks that are left out are zero. -/
theorem zero_chunks {m n : ℕ} (h1 : m < 2 ^ 237) (hn : 237 ≤ n) (hn' : n ≤ 262378) :
    m * 10 ^ (19 * segmentZeroChunks (n / 32 - 7)) < 2 ^ n := by
  obtain ⟨a, ha⟩ : ∃ a, a = n / 32 * 32 - 237 := ⟨_, rfl⟩
  obtain ⟨Z, hZ⟩ : ∃ Z, Z = segmentZeroChunks (n / 32 - 7) := ⟨_, rfl⟩
  have hZL : Z = a * 169464822037455 / 2 ^ 49 / 19 := by
    rw [hZ, ha]
    unfold segmentZeroChunks CHUNK_SIZE
    rw [show n / 32 - 7 + 7 = n / 32 by omega]
  rw [← hZ]
  have t1 := (table_log (n := a) (by omega)).1
  have e1 : 10 ^ (19 * Z) ≤ 2 ^ a := le_trans (Nat.pow_le_pow_right (by norm_num) (by omega)) t1
  calc m * 10 ^ (19 * Z) < 2 ^ 237 * 10 ^ (19 * Z) := Nat.mul_lt_mul_of_pos_right h1 (by positivity)
    _ ≤ 2 ^ 237 * 2 ^ (n - 237) := by
      refine Nat.mul_le_mul_left _ (le_trans e1 (Nat.pow_le_pow_right (by norm_num) ?_))
      omega
    _ = 2 ^ n := by rw [← pow_add, Nat.add_sub_of_le hn]

/-- The digits of a number below one, with the chunks of the table -/
theorem fract2Scientific_of {x : U256} {n p : ℕ} (h0 : 2 ^ 236 ≤ nat256 x) (hn : 237 ≤ n) (hn' : n ≤ 262615) (hp : p ≤ 75)
    (hzero : nat256 x * 10 ^ (19 * segmentZeroChunks (n / 32 - 7)) < 2 ^ n)
    (hchunk : ∀ c, c ≤ 5 → mulShiftMod x (pow10DivPow2 (n / 32 - 7) c) (segmentShift (n / 32 - 7) - (-(n : ℤ))).toNat =
      some (nat256 x * 10 ^ (19 * (segmentZeroChunks (n / 32 - 7) + c + 1)) / 2 ^ n % 10 ^ 19)) :
    ∃ t R e D, fract2Scientific x (-(n : ℤ)) p = some (t, R, e) ∧ SciParts ((nat256 x : ℝ) / 2 ^ n) p t R e D := by
  obtain ⟨Z, hZ⟩ : ∃ Z, Z = segmentZeroChunks (n / 32 - 7) := ⟨_, rfl⟩
  have hx0 : (0 : ℝ) < (nat256 x : ℝ) / 2 ^ n := by
    have : (0 : ℝ) < nat256 x := by exact_mod_cast (by omega : 0 < nat256 x)
    positivity
  have hval : ∀ k : ℕ, ⌊(nat256 x : ℝ) / 2 ^ n * (10 : ℝ) ^ (k : ℤ)⌋₊ = nat256 x * 10 ^ k / 2 ^ n := by
    intro k
    rw [← Nat.floor_div_eq_div (K := ℝ)]
    congr 1
    rw [zpow_natCast]
    push_cast
    ring
  have hW : ∀ c : ℕ, chunkOf ((nat256 x : ℝ) / 2 ^ n) (19 * (Z + 1)) c = nat256 x * 10 ^ (19 * (Z + c + 1)) / 2 ^ n := by
    intro c
    rw [← hval]
    unfold chunkOf
    congr 3
    push_cast
    ring
  have htab : TableFor (pow10DivPow2 (n / 32 - 7)) x (segmentShift (n / 32 - 7) - (-(n : ℤ))).toNat
      (chunkOf ((nat256 x : ℝ) / 2 ^ n) (19 * (Z + 1))) 5 := by
    refine ⟨fun c hc => ?_, chunkOf_step _ _⟩
    rw [hchunk c hc, hW, hZ]
  -- the zero chunks
  obtain ⟨a, ha⟩ : ∃ a, a = n / 32 * 32 - 237 := ⟨_, rfl⟩
  obtain ⟨L, hL⟩ : ∃ L, L = a * 169464822037455 / 2 ^ 49 := ⟨_, rfl⟩
  have hZL : Z = L / 19 := by
    rw [hZ, hL, ha]
    unfold segmentZeroChunks CHUNK_SIZE
    rw [show n / 32 - 7 + 7 = n / 32 by omega]
  obtain ⟨t1, t2⟩ := table_log (n := a) (by omega)
  rw [← hL] at t1 t2
  have hn2 : 0 < 2 ^ n := Nat.two_pow_pos n
  have hfirst : chunkOf ((nat256 x : ℝ) / 2 ^ n) (19 * (Z + 1)) 0 < 10 ^ 19 := by
    rw [hW, Nat.div_lt_iff_lt_mul hn2, show 19 * (Z + 0 + 1) = 19 * Z + 19 by ring, pow_add]
    have e2 : nat256 x * 10 ^ (19 * Z) < 2 ^ n := by
      rw [hZ]
      exact hzero
    calc nat256 x * (10 ^ (19 * Z) * 10 ^ 19) = nat256 x * 10 ^ (19 * Z) * 10 ^ 19 := by ring
      _ < 2 ^ n * 10 ^ 19 := Nat.mul_lt_mul_of_pos_right e2 (by norm_num)
      _ = _ := by ring
  have hsecond : 0 < chunkOf ((nat256 x : ℝ) / 2 ^ n) (19 * (Z + 1)) 1 := by
    rw [hW]
    refine Nat.div_pos ?_ hn2
    have e1 : 2 ^ a * 2 ^ 63 ≤ 10 ^ (19 * (Z + 1 + 1)) := by
      calc 2 ^ a * 2 ^ 63 ≤ 10 ^ (L + 1) * 10 ^ 19 := Nat.mul_le_mul t2.le (by norm_num)
        _ = 10 ^ (L + 1 + 19) := (pow_add _ _ _).symm
        _ ≤ _ := Nat.pow_le_pow_right (by norm_num) (by omega)
    calc 2 ^ n ≤ 2 ^ (236 + (a + 63)) := Nat.pow_le_pow_right (by norm_num) (by omega)
      _ = 2 ^ 236 * (2 ^ a * 2 ^ 63) := by rw [pow_add, pow_add]
      _ ≤ _ := Nat.mul_le_mul h0 e1
  obtain ⟨r, idx, i, w, D, hi, hr, hs⟩ := sciDigits_spec htab hp hfirst hsecond
  obtain ⟨e, he⟩ : ∃ e : ℤ, e = r.nDigits - 19 * idx - 19 * (Z + 1) := ⟨_, rfl⟩
  obtain ⟨s1, s2, s3, s4, s5⟩ := sci_round hx0 hs he
  have hd := hs.digits
  have hexp : -((Z * 19 : ℕ) : ℤ) - ((r.skipped * 19 : ℕ) : ℤ) - ((19 - r.nDigits : ℕ) : ℤ) = e := by
    rw [he, hs.skip]
    push_cast [Nat.cast_sub (show r.nDigits ≤ 19 by omega)]
    ring
  have key : ∀ R, (R = if r.rem > r.tie then Rounding.up else if r.rem = r.tie then
        if ((UInt.trailingZeros x + p + 1 : ℕ) : ℤ) ≥ -(-(n : ℤ)) then Rounding.toEven else Rounding.up else Rounding.down) →
      SciParts ((nat256 x : ℝ) / 2 ^ n) p r.text R e D := by
    intro R hR
    refine ⟨hs.text, s1, s2, ?_, ?_, ?_⟩
    · rintro rfl
      split at hR
      · rename_i g; exact ⟨(s3 g).1.le, (s3 g).2⟩
      · split at hR
        · rename_i g; exact ⟨(s5 g).1, (s5 g).2.1⟩
        · cases hR
    · rintro rfl
      split at hR
      · cases hR
      · split at hR
        · split at hR <;> cases hR
        · exact s4 (by omega)
    · rintro rfl
      split at hR
      · cases hR
      · split at hR
        · rename_i g
          split at hR
          · rename_i gz
            apply (s5 g).2.2
            -- the digits end
            have htz : UInt.trailingZeros x = U128.ctz 256 (nat256 x) := trailingZeros256 x
            obtain ⟨o, o1, -, -⟩ := ctz_spec 256 (nat256 x) (by omega) (nat256_lt x)
            rw [← htz] at o1
            generalize UInt.trailingZeros x = z at *
            generalize nat256 x = m at *
            obtain ⟨k, hk⟩ : ∃ k : ℕ, (p : ℤ) - e = k := ⟨((p : ℤ) - e).toNat, by omega⟩
            have hdvd : 2 ^ n ∣ m * 10 ^ (k + 1) := by
              rw [o1, show (10 : ℕ) = 2 * 5 by norm_num, mul_pow, show o * 2 ^ z * (2 ^ (k + 1) * 5 ^ (k + 1)) =
                2 ^ (z + (k + 1)) * (o * 5 ^ (k + 1)) by rw [pow_add 2 z]; ring]
              exact Dvd.dvd.mul_right (pow_dvd_pow 2 (by omega)) _
            obtain ⟨Y, hY⟩ := hdvd
            refine ⟨Y, ?_⟩
            have hY' : (m : ℝ) * 10 ^ (k + 1) = 2 ^ n * Y := by exact_mod_cast hY
            rw [hk, zpow_natCast, mul_assoc, ← pow_succ, div_mul_eq_mul_div, hY']
            exact mul_div_cancel_left₀ _ (by positivity)
          · cases hR
        · cases hR
  refine ⟨r.text, _, e, D, ?_, key _ rfl⟩
  unfold fract2Scientific pow10DivPow2Params
  rw [neg_neg, Int.toNat_natCast]
  dsimp only
  rw [hr, Option.bind_eq_bind, Option.bind_some, show CHUNK_SIZE = 19 from rfl, ← hZ, hexp]
  simp only [Option.pure_def]

theorem fract2Scientific_spec {x : U256} {n p : ℕ} (h0 : 2 ^ 236 ≤ nat256 x) (h1 : nat256 x < 2 ^ 237) (hn : 237 ≤ n) (hn' : n ≤ 262378)
    (hp : p ≤ 75) (hC : Clear (nat256 x) n (segmentZeroChunks (n / 32 - 7) + 6)) :
    ∃ t R e D, fract2Scientific x (-(n : ℤ)) p = some (t, R, e) ∧ SciParts ((nat256 x : ℝ) / 2 ^ n) p t R e D :=
  fract2Scientific_of h0 hn (by omega) hp (zero_chunks h1 hn hn') fun _ _ => chunk_spec h1 hn hC (by omega)

/-! ### Subnormal numbers, whose significand is shifted to 238 bits -/

theorem trunc_table238 {m P b n k : ℕ} (hm : m < 2 ^ 238) (hk : 273 ≤ k) (hn : n = b + k)
    (h : 2 ^ n ≤ m * P → 2 ^ (n - 35) ≤ m * P % 2 ^ n) : m * (P / 2 ^ b) / 2 ^ k = m * P / 2 ^ n := by
  have hb := Nat.two_pow_pos b
  have hkp := Nat.two_pow_pos k
  have hdm := Nat.div_add_mod P (2 ^ b)
  have hmod := Nat.mod_lt P hb
  have key : m * (P / 2 ^ b) / 2 ^ k = (m * P - m * (P % 2 ^ b)) / 2 ^ n := by
    have e : m * P - m * (P % 2 ^ b) = 2 ^ b * (m * (P / 2 ^ b)) := by
      rw [← Nat.mul_sub, show P - P % 2 ^ b = 2 ^ b * (P / 2 ^ b) by omega]
      ring
    rw [e, hn, pow_add, Nat.mul_div_mul_left _ _ hb]
  rw [key]
  rcases Nat.lt_or_ge (m * P) (2 ^ n) with hlt | hge
  · rw [Nat.div_eq_of_lt hlt, Nat.div_eq_of_lt (by omega)]
  · have hc := h hge
    have hle : m * (P % 2 ^ b) ≤ 2 ^ (n - 35) := by
      calc m * (P % 2 ^ b) ≤ 2 ^ 238 * 2 ^ b := Nat.mul_le_mul hm.le hmod.le
        _ = 2 ^ (238 + b) := (pow_add _ _ _).symm
        _ ≤ 2 ^ (n - 35) := Nat.pow_le_pow_right (by norm_num) (by omega)
    have hnp := Nat.two_pow_pos n
    have hdm2 := Nat.div_add_mod (m * P) (2 ^ n)
    have hmod2 := Nat.mod_lt (m * P) hnp
    generalize m * P = A at *
    generalize m * (P % 2 ^ b) = B at *
    have e : A - B = 2 ^ n * (A / 2 ^ n) + (A % 2 ^ n - B) := by omega
    rw [e, Nat.mul_add_div hnp, Nat.div_eq_of_lt (lt_of_le_of_lt (Nat.sub_le _ _) hmod2), Nat.add_zero]

/-- A chunk of a subnormal number -/
theorem chunk_spec238 {x : U256} {n C chunk : ℕ} (hx : nat256 x < 2 ^ 238) (hn : 320 ≤ n)
    (hC : ∀ c, c ≤ C → 2 ^ n ≤ nat256 x * 10 ^ (19 * c) → 2 ^ (n - 35) ≤ nat256 x * 10 ^ (19 * c) % 2 ^ n)
    (hc : segmentZeroChunks (n / 32 - 7) + chunk + 1 ≤ C) :
    mulShiftMod x (pow10DivPow2 (n / 32 - 7) chunk) (segmentShift (n / 32 - 7) - (-(n : ℤ))).toNat =
      some (nat256 x * 10 ^ (19 * (segmentZeroChunks (n / 32 - 7) + chunk + 1)) / 2 ^ n % 10 ^ 19) := by
  have hsh : segmentShift (n / 32 - 7) = 273 - 32 * ((n / 32 : ℕ) : ℤ) := by
    unfold segmentShift segmentLower TABLE_BITS
    omega
  have hk : (segmentShift (n / 32 - 7) - (-(n : ℤ))).toNat = 273 + n % 32 := by rw [hsh]; omega
  rw [hk, mulShiftMod_spec _ _ (by omega) (by omega), pow10DivPow2]
  rw [nat_u512OfNat (lt_of_lt_of_le (Nat.mod_lt _ (by unfold CHUNK_SIZE; positivity)) fixedTable_lt)]
  rw [CHUNK_SIZE, TABLE_BITS, mod_table _ _ (by omega), Nat.mul_comm _ 19]
  have e0 : (segmentShift (n / 32 - 7)).toNat = 0 := by rw [hsh]; omega
  rw [e0, pow_zero, Nat.mul_one, trunc_table238 hx (by omega) (by rw [hsh]; omega) (hC _ hc)]

theorem zero_chunks238 {m n : ℕ} (h1 : m < 2 ^ 238) (hn : 262143 ≤ n) (hn' : n ≤ 262615) :
    m * 10 ^ (19 * segmentZeroChunks (n / 32 - 7)) < 2 ^ n := by
  obtain ⟨a, ha⟩ : ∃ a, a = n / 32 * 32 - 237 := ⟨_, rfl⟩
  obtain ⟨Z, hZ⟩ : ∃ Z, Z = segmentZeroChunks (n / 32 - 7) := ⟨_, rfl⟩
  obtain ⟨L, hL⟩ : ∃ L, L = a * 169464822037455 / 2 ^ 49 := ⟨_, rfl⟩
  have hZL : Z = L / 19 := by
    rw [hZ, hL, ha]
    unfold segmentZeroChunks CHUNK_SIZE
    rw [show n / 32 - 7 + 7 = n / 32 by omega]
  rw [← hZ]
  have t1 := (table_log (n := a) (by omega)).1
  rw [← hL] at t1
  -- no segment begins with a full chunk
  have hne : 19 * Z + 1 ≤ L := by
    have key : ∀ s, s < 16 → 19 * (((8191 + s) * 32 - 237) * 169464822037455 / 2 ^ 49 / 19) + 1 ≤
        ((8191 + s) * 32 - 237) * 169464822037455 / 2 ^ 49 := by decide +kernel
    have := key (n / 32 - 8191) (by omega)
    rw [show 8191 + (n / 32 - 8191) = n / 32 by omega, ← ha, ← hL, ← hZL] at this
    exact this
  have e1 : 10 ^ (19 * Z) * 2 ≤ 2 ^ a := by
    calc 10 ^ (19 * Z) * 2 ≤ 10 ^ (19 * Z) * 10 := Nat.mul_le_mul_left _ (by norm_num)
      _ = 10 ^ (19 * Z + 1) := (pow_succ _ _).symm
      _ ≤ 10 ^ L := Nat.pow_le_pow_right (by norm_num) hne
      _ ≤ _ := t1
  calc m * 10 ^ (19 * Z) < 2 ^ 238 * 10 ^ (19 * Z) := Nat.mul_lt_mul_of_pos_right h1 (by positivity)
    _ = 2 ^ 237 * (10 ^ (19 * Z) * 2) := by ring
    _ ≤ 2 ^ 237 * 2 ^ (n - 237) := by
      refine Nat.mul_le_mul_left _ (le_trans e1 (Nat.pow_le_pow_right (by norm_num) ?_))
      omega
    _ = 2 ^ n := by rw [← pow_add, Nat.add_sub_of_le (by omega)]

theorem fract2Scientific_subnormal {x : U256} {n p : ℕ} (h0 : 2 ^ 237 ≤ nat256 x) (h1 : nat256 x < 2 ^ 238) (hn : 262143 ≤ n)
    (hn' : n ≤ 262615) (hp : p ≤ 75)
    (hC : ∀ c, c ≤ segmentZeroChunks (n / 32 - 7) + 6 → 2 ^ n ≤ nat256 x * 10 ^ (19 * c) →
      2 ^ (n - 35) ≤ nat256 x * 10 ^ (19 * c) % 2 ^ n) :
    ∃ t R e D, fract2Scientific x (-(n : ℤ)) p = some (t, R, e) ∧ SciParts ((nat256 x : ℝ) / 2 ^ n) p t R e D :=
  fract2Scientific_of (le_trans (by norm_num) h0) (by omega) hn' hp (zero_chunks238 h1 hn hn') fun _ _ => chunk_spec238 h1 (by omega) hC (by omega)

/-- The digits of `m * 2^e` are known well enough for the table, for the `C` chunks below `10^(19F)`. -/
def ClearInt (m e F C : ℕ) : Prop :=
  ∀ c, c ≤ C → m * 2 ^ e % 10 ^ (19 * (F - c)) * 2 ^ 36 + 10 ^ (19 * (F - c)) ≤ 10 ^ (19 * (F - c)) * 2 ^ 36

/-- The chunk computed with the table entry, which is rounded up -/
theorem trunc_table_up {m P e l k : ℕ} (hm : m < 2 ^ 237) (hP : 0 < P) (hk : 273 ≤ k) (hl : l = k + e)
    (h : m * 2 ^ e % P * 2 ^ 36 + P ≤ P * 2 ^ 36) : m * (2 ^ l / P + 1) / 2 ^ k = m * 2 ^ e / P := by
  have hk0 := Nat.two_pow_pos k
  have hdm := Nat.div_add_mod (2 ^ l) P
  have hlt := Nat.mod_lt (2 ^ l) hP
  have hdm2 := Nat.div_add_mod (m * 2 ^ e) P
  have hl2 : m * 2 ^ l = m * 2 ^ e * 2 ^ k := by rw [hl, pow_add]; ring
  have hk2 : 2 ^ k = 2 ^ (k - 36) * 2 ^ 36 := by rw [← pow_add, Nat.sub_add_cancel (by omega)]
  have hmk : m ≤ 2 ^ (k - 36) := le_trans hm.le (Nat.pow_le_pow_right (by norm_num) (by omega))
  have hmk1 : m < 2 ^ (k - 36) ∨ m = 0 := Or.inl (lt_of_lt_of_le hm (Nat.pow_le_pow_right (by norm_num) (by omega)))
  generalize 2 ^ l / P = T at *
  generalize 2 ^ l % P = R at *
  generalize m * 2 ^ e / P = Q at *
  generalize m * 2 ^ e % P = S at *
  generalize 2 ^ (k - 36) = K at *
  have hmul : m * (P * T + R) = (P * Q + S) * 2 ^ k := by rw [hdm, hdm2, hl2]
  rw [Nat.div_eq_iff hk0]
  constructor
  · -- lower bound
    have : P * (Q * 2 ^ k) ≤ P * (m * (T + 1)) := by
      calc P * (Q * 2 ^ k) ≤ (P * Q + S) * 2 ^ k := by nlinarith [Nat.zero_le (S * 2 ^ k)]
        _ = m * (P * T + R) := hmul.symm
        _ ≤ m * (P * T + P) := Nat.mul_le_mul_left _ (by omega)
        _ = _ := by ring
    exact Nat.le_of_mul_le_mul_left this hP
  · have hS : S * 2 ^ k + K * P ≤ P * 2 ^ k := by
      rw [hk2]
      nlinarith [Nat.mul_le_mul_left K h]
    have : P * (m * (T + 1)) < P * ((Q + 1) * 2 ^ k) := by
      calc P * (m * (T + 1)) = m * (P * T) + m * P := by ring
        _ ≤ m * (P * T + R) + m * P := by nlinarith [Nat.zero_le (m * R)]
        _ = (P * Q + S) * 2 ^ k + m * P := by rw [hmul]
        _ < (P * Q + S) * 2 ^ k + K * P := by
          have : m < K := by
            rcases hmk1 with h | h
            · exact h
            · omega
          have := Nat.mul_lt_mul_of_pos_right this hP
          omega
        _ ≤ _ := by nlinarith
    have := Nat.lt_of_mul_lt_mul_left this
    rw [Nat.add_mul, Nat.one_mul] at this
    omega

/-- The first chunk of the table is the first chunk of the number. -/
theorem first_chunk {m n : ℕ} (h1 : m < 2 ^ 237) (hn : 276 ≤ n) (hn' : n ≤ 261907) :
    8 ≤ posFirstChunk (n / 32 - 8) ∧ m * 2 ^ n < 10 ^ (19 * (posFirstChunk (n / 32 - 8) + 1)) := by
  obtain ⟨F, hF⟩ : ∃ F, F = posFirstChunk (n / 32 - 8) := ⟨_, rfl⟩
  obtain ⟨a, ha⟩ : ∃ a, a = n / 32 * 32 + 31 + 236 := ⟨_, rfl⟩
  obtain ⟨L, hL⟩ : ∃ L, L = a * 169464822037455 / 2 ^ 49 := ⟨_, rfl⟩
  have hFL : F = (L + 2) / 19 := by
    rw [hF, hL, ha]
    unfold posFirstChunk CHUNK_SIZE posSegmentLower
    rw [show n / 32 - 8 + 8 = n / 32 by omega]
  rw [← hF]
  have t2 := (table_log (n := a) (by omega)).2
  rw [← hL] at t2
  refine ⟨by omega, ?_⟩
  calc m * 2 ^ n < 2 ^ 237 * 2 ^ n := Nat.mul_lt_mul_of_pos_right h1 (Nat.two_pow_pos n)
    _ = 2 ^ (237 + n) := (pow_add _ _ _).symm
    _ ≤ 2 ^ (a + 1) := Nat.pow_le_pow_right (by norm_num) (by omega)
    _ = 2 ^ a * 2 := pow_succ _ _
    _ ≤ 10 ^ (L + 1) * 10 := Nat.mul_le_mul t2.le (by norm_num)
    _ = 10 ^ (L + 2) := (pow_succ _ _).symm
    _ ≤ _ := Nat.pow_le_pow_right (by norm_num) (by omega)

/-- The digits of an integer from `2^512` on, with the chunks of the table -/
theorem largeInt2Scientific_spec {x : U256} {n p : ℕ} (h0 : 2 ^ 236 ≤ nat256 x) (h1 : nat256 x < 2 ^ 237) (hn : 276 ≤ n) (hn' : n ≤ 261907)
    (hp : p ≤ 75) (hC : ClearInt (nat256 x) n (posFirstChunk (n / 32 - 8)) 5) :
    ∃ t R e D, largeInt2Scientific x n p = some (t, R, e) ∧ SciParts ((nat256 x : ℝ) * 2 ^ n) p t R e D ∧ 75 ≤ e := by
  obtain ⟨F, hF⟩ : ∃ F, F = posFirstChunk (n / 32 - 8) := ⟨_, rfl⟩
  rw [← hF] at hC
  have hlow : posSegmentLower (n / 32 - 8) = n / 32 * 32 := by
    unfold posSegmentLower
    rw [show n / 32 - 8 + 8 = n / 32 by omega]
  obtain ⟨a, ha⟩ : ∃ a, a = n / 32 * 32 + 31 + 236 := ⟨_, rfl⟩
  obtain ⟨L, hL⟩ : ∃ L, L = a * 169464822037455 / 2 ^ 49 := ⟨_, rfl⟩
  have hFL : F = (L + 2) / 19 := by
    rw [hF, hL, ha]
    unfold posFirstChunk CHUNK_SIZE
    rw [hlow]
  have hL157 : 157 ≤ L := by omega
  have hF8 : 8 ≤ F := by omega
  have hx0 : (0 : ℝ) < (nat256 x : ℝ) * 2 ^ n := by
    have : (0 : ℝ) < nat256 x := by exact_mod_cast (by omega : 0 < nat256 x)
    positivity
  have hW : ∀ c : ℕ, c ≤ F → chunkOf ((nat256 x : ℝ) * 2 ^ n) (-(19 * F)) c = nat256 x * 2 ^ n / 10 ^ (19 * (F - c)) := by
    intro c hc
    rw [← Nat.floor_div_eq_div (K := ℝ)]
    unfold chunkOf
    congr 1
    rw [show 19 * (c : ℤ) + -(19 * (F : ℤ)) = -((19 * (F - c) : ℕ) : ℤ) by push_cast [Nat.cast_sub hc]; ring, zpow_neg, zpow_natCast]
    push_cast
    rw [div_eq_mul_inv]
  have htab : TableFor (pow2DivPow10 (n / 32 - 8)) x (posSegmentLower (n / 32 - 8) + TABLE_BITS - n)
      (chunkOf ((nat256 x : ℝ) * 2 ^ n) (-(19 * F))) 5 := by
    refine ⟨fun c hc => ?_, chunkOf_step _ _⟩
    rw [hW c (by omega), hlow, mulShiftMod_spec _ _ (by unfold TABLE_BITS; omega) (by unfold TABLE_BITS; omega), pow2DivPow10,
      nat_u512OfNat (lt_of_lt_of_le (Nat.mod_lt _ (by unfold CHUNK_SIZE; positivity)) fixedTable_lt), hlow, ← hF, CHUNK_SIZE, TABLE_BITS,
      mod_table _ _ (by omega), Nat.mul_comm (F - c) 19, trunc_table_up h1 (by positivity) (by omega) (by omega) (hC c hc)]
  obtain ⟨t1, t2⟩ := table_log (n := a) (by omega)
  rw [← hL] at t1 t2
  have hfirst : chunkOf ((nat256 x : ℝ) * 2 ^ n) (-(19 * F)) 0 < 10 ^ 19 := by
    rw [hW 0 (by omega), Nat.div_lt_iff_lt_mul (by positivity), ← pow_add]
    have := (first_chunk h1 hn hn').2
    rw [← hF] at this
    rw [show 19 + 19 * (F - 0) = 19 * (F + 1) by omega]
    exact this
  have hsecond : 0 < chunkOf ((nat256 x : ℝ) * 2 ^ n) (-(19 * F)) 1 := by
    rw [hW 1 (by omega)]
    refine Nat.div_pos ?_ (by positivity)
    have e1 : 10 ^ (19 * (F - 1)) * 2 ^ 31 ≤ 2 ^ a := by
      calc 10 ^ (19 * (F - 1)) * 2 ^ 31 ≤ 10 ^ (19 * (F - 1)) * 10 ^ 10 := Nat.mul_le_mul_left _ (by norm_num)
        _ = 10 ^ (19 * (F - 1) + 10) := (pow_add _ _ _).symm
        _ ≤ 10 ^ L := Nat.pow_le_pow_right (by norm_num) (by omega)
        _ ≤ _ := t1
    have e2 : 2 ^ a ≤ nat256 x * 2 ^ n * 2 ^ 31 := by
      calc 2 ^ a ≤ 2 ^ (236 + (n + 31)) := Nat.pow_le_pow_right (by norm_num) (by omega)
        _ = 2 ^ 236 * 2 ^ (n + 31) := pow_add _ _ _
        _ ≤ nat256 x * 2 ^ (n + 31) := Nat.mul_le_mul_right _ h0
        _ = _ := by rw [pow_add, Nat.mul_assoc]
    exact Nat.le_of_mul_le_mul_right (e1.trans e2) (by norm_num)
  obtain ⟨r, idx, i, w, D, hi, hr, hs⟩ := sciDigits_spec htab hp hfirst hsecond
  have hidx := hs.first.1
  obtain ⟨E, hE⟩ : ∃ E : ℕ, E = r.nDigits + (F - idx) * 19 := ⟨_, rfl⟩
  have he : ((E : ℕ) : ℤ) = r.nDigits - 19 * idx - -(19 * F) := by
    rw [hE]
    push_cast [Nat.cast_sub (show idx ≤ F by omega)]
    ring
  obtain ⟨s1, s2, s3, s4, s5⟩ := sci_round hx0 hs he
  have hE' : r.nDigits + (F + 1 - r.skipped - 1) * 19 = E := by
    rw [hE, hs.skip, show F + 1 - idx - 1 = F - idx by omega]
  have hEp : 77 ≤ E := by omega
  -- the rounding
  have hround : ∃ R, (if r.rem > r.tie then some Rounding.up
      else if r.rem = r.tie then
        if E - p - 1 < 103 then (isMultipleOfPow5 x (E - p - 1)).bind fun b => some (if b then Rounding.toEven else Rounding.up)
        else some Rounding.up
      else some Rounding.down) = some R ∧ SciParts ((nat256 x : ℝ) * 2 ^ n) p r.text R E D := by
    by_cases g1 : r.rem > r.tie
    · refine ⟨.up, by rw [if_pos g1], hs.text, s1, s2, fun _ => ⟨(s3 g1).1.le, (s3 g1).2⟩, ?_, ?_⟩ <;> intro hh <;> cases hh
    · rw [if_neg g1]
      by_cases g2 : r.rem = r.tie
      · rw [if_pos g2]
        have hup : SciParts ((nat256 x : ℝ) * 2 ^ n) p r.text .up E D :=
          ⟨hs.text, s1, s2, fun _ => ⟨(s5 g2).1, (s5 g2).2.1⟩, fun hh => (by cases hh), fun hh => (by cases hh)⟩
        by_cases g3 : E - p - 1 < 103
        · rw [if_pos g3]
          obtain ⟨b, b1, b2, -⟩ := isMultipleOfPow5_spec (x := x) (lt_trans h1 (by norm_num)) (show E - p - 1 ≤ 102 by omega)
          rw [b1, Option.bind_some]
          cases b with
          | false => exact ⟨.up, rfl, hup⟩
          | true =>
            refine ⟨.toEven, rfl, hs.text, s1, s2, fun hh => (by cases hh), fun hh => (by cases hh), fun _ => (s5 g2).2.2 ?_⟩
            obtain ⟨o, ho⟩ := b2 rfl
            obtain ⟨k, hk⟩ : ∃ k, k = E - p - 1 := ⟨_, rfl⟩
            rw [← hk] at ho
            refine ⟨o * 2 ^ (n - k), ?_⟩
            rw [show (p : ℤ) - (E : ℤ) = -((k + 1 : ℕ) : ℤ) by omega, ho, zpow_neg, zpow_natCast,
              show n = (n - k) + k by omega, pow_add]
            have h5 : ((10 : ℝ) ^ (k + 1)) = 5 ^ k * 2 ^ k * 10 := by
              rw [pow_succ, ← mul_pow]; norm_num
            rw [h5, Nat.add_sub_cancel]
            push_cast
            have q5 : (5 : ℝ) ^ k ≠ 0 := by positivity
            have q2 : (2 : ℝ) ^ k ≠ 0 := by positivity
            generalize (5 : ℝ) ^ k = u at *
            generalize (2 : ℝ) ^ k = v at *
            generalize (2 : ℝ) ^ (n - k) = w at *
            field_simp
        · rw [if_neg g3]
          exact ⟨.up, rfl, hup⟩
      · rw [if_neg g2]
        refine ⟨.down, rfl, hs.text, s1, s2, fun hh => (by cases hh), fun _ => s4 (by omega), fun hh => (by cases hh)⟩
  obtain ⟨R, R1, R2⟩ := hround
  refine ⟨r.text, R, E, D, ?_, R2, by omega⟩
  unfold largeInt2Scientific pow2DivPow10Params
  dsimp only
  rw [hr, Option.bind_eq_bind, Option.bind_some, show CHUNK_SIZE = 19 from rfl, ← hF, hE']
  by_cases g1 : r.rem > r.tie
  · rw [if_pos g1] at R1 ⊢
    cases R1
    rfl
  · rw [if_neg g1] at R1 ⊢
    by_cases g2 : r.rem = r.tie
    · rw [if_pos g2] at R1 ⊢
      by_cases g3 : E - p - 1 < 103
      · rw [if_pos g3] at R1 ⊢
        obtain ⟨b, b1, b2⟩ := Option.bind_eq_some_iff.mp R1
        rw [b1, Option.bind_eq_bind, Option.bind_some]
        cases b2
        rfl
      · rw [if_neg g3] at R1 ⊢
        cases R1
        rfl
    · rw [if_neg g2] at R1 ⊢
      cases R1
      rfl

end Verif
