import Verif.Proofs.ToFixed
import Verif.Proofs.ToStrExact

/-!
# Proofs about formatting with a precision, part 2: the text
-/

namespace Verif

open BigUInt LawfulBigUInt Spec

/-! ## No leading zeroes -/

theorem natText_min {n : ℕ} (h : 0 < n) : 10 ^ ((natText n).length - 1) ≤ n := by
  by_contra hc
  rcases Nat.eq_zero_or_pos ((natText n).length - 1) with h0 | h0
  · rw [h0, pow_zero] at hc; omega
  · have := natText_length h0 (not_le.mp hc)
    omega

theorem segments_last (fuel : ℕ) : ∀ (x : U256) (rs : List U128), segments fuel x = some rs →
    (nat256 x ≠ 0 → rs ≠ []) ∧ ∀ r, rs.getLast? = some r → 0 < r.toNat := by
  induction fuel with
  | zero => intro x rs h; cases h
  | succ fuel ih =>
    intro x rs h
    by_cases h0 : nat256 x = 0
    · rw [segments, isZero256, decide_eq_true h0, if_pos rfl] at h
      cases h
      exact ⟨fun h => absurd h0 h, fun r h => by cases h⟩
    · have hc : (BitVec.ofNat 128 (10 ^ 38)).toNat = 10 ^ 38 := by
        rw [BitVec.toNat_ofNat, Nat.mod_eq_of_lt (by norm_num)]
      obtain ⟨q, r, a', b', c'⟩ : ∃ (q : U256) (r : U128), UInt.divRemU128 x (BitVec.ofNat 128 (10 ^ 38)) = some (q, r) ∧
          nat256 q = nat256 x / (BitVec.ofNat 128 (10 ^ 38)).toNat ∧ r.toNat = nat256 x % (BitVec.ofNat 128 (10 ^ 38)).toNat :=
        Wide.divRemU128_spec (n := 0) x (BitVec.ofNat 128 (10 ^ 38)) (by rw [hc]; norm_num)
      rw [hc] at b' c'
      rw [segments, isZero256, decide_eq_false h0, if_neg (by simp), a', Option.bind_eq_bind, Option.bind_some] at h
      dsimp only at h
      cases hs : segments fuel q with
      | none => rw [hs] at h; cases h
      | some t =>
        rw [hs] at h
        cases h
        obtain ⟨i1, i2⟩ := ih q t hs
        refine ⟨fun _ => by simp, fun r' hr' => ?_⟩
        cases t with
        | nil =>
          have hq : nat256 q = 0 := by
            by_contra hne
            exact i1 hne rfl
          rw [List.getLast?_singleton] at hr'
          cases hr'
          rw [c']
          rw [hq] at b'
          omega
        | cons a t =>
          rw [List.getLast?_cons_cons] at hr'
          exact i2 r' hr'

theorem foldl_min (l : List U128) : ∀ n, n * 10 ^ (38 * l.length) ≤ l.foldl (fun a r => a * 10 ^ 38 + r.toNat) n := by
  induction l with
  | nil => intro n; simp
  | cons r l ih =>
    intro n
    rw [List.foldl_cons, List.length_cons]
    refine le_trans ?_ (ih _)
    rw [Nat.mul_add, Nat.mul_one, pow_add, Nat.mul_comm (10 ^ (38 * l.length)), ← Nat.mul_assoc]
    exact Nat.mul_le_mul_right _ (Nat.le_add_right _ _)

/-- The text of a significand has no leading zeroes. -/
theorem u256Text_min {x : U256} (h0 : 0 < nat256 x) {s : List (BitVec 8)} (h : u256Text x = some s) :
    10 ^ (s.length - 1) ≤ nat256 x := by
  unfold u256Text at h
  by_cases hz : BigUInt.isZero x.hi = true
  · rw [if_pos hz] at h
    have hz' : x.hi.toNat = 0 := by
      rw [show BigUInt.isZero x.hi = decide (x.hi.toNat = 0) from LawfulBigUInt.isZero_eq (α := U128) _] at hz
      exact of_decide_eq_true hz
    have hx : nat256 x = x.lo.toNat := by
      rw [show nat256 x = x.hi.toNat * 2 ^ 128 + x.lo.toNat from rfl, hz', Nat.zero_mul, Nat.zero_add]
    cases h
    rw [hx] at h0 ⊢
    exact natText_min h0
  · rw [if_neg hz] at h
    obtain ⟨rs, g1, g2, g3, g4, g5⟩ := segments_spec 3 x (lt_trans (nat256_lt x) (by norm_num))
    have hl := (segments_last 4 x rs g1).2
    rw [g1, Option.bind_eq_bind, Option.bind_some] at h
    rw [← List.foldl_reverse] at g3
    have g2' : ∀ r ∈ rs.reverse, r.toNat < 10 ^ 38 := fun r h => g2 r (List.mem_reverse.mp h)
    rw [← List.head?_reverse] at hl
    generalize rs.reverse = l at *
    cases l with
    | nil => cases h
    | cons r l =>
      cases h
      have hr := hl r rfl
      obtain ⟨h1, h2⟩ := pads_spec l (natText r.toNat) r.toNat (natText_spec _) (fun s hs => g2' s (by simp [hs]))
      rw [List.foldl_cons, Nat.zero_mul, Nat.zero_add] at g3
      rw [h2, ← g3]
      have hlen : 0 < (natText r.toNat).length := List.length_pos_iff.mpr (natText_spec r.toNat).ne
      refine le_trans ?_ (foldl_min l r.toNat)
      rw [show (natText r.toNat).length + 38 * l.length - 1 = ((natText r.toNat).length - 1) + 38 * l.length by omega, pow_add]
      exact Nat.mul_le_mul_right _ (natText_min hr)

/-- The text of an integer with its sign -/
theorem display_signed {d : DecRepr} (hj : 0 ≤ d.exp10) (h0 : 0 < nat256 d.signif10) :
    ∃ s k, d.fmt {} = some ((if (d.sign == 1) = true then [45#8] else []) ++ s) ∧ 0 < k ∧ FixedText s k (nat256 d.signif10 * 10 ^ d.exp10.toNat) ∧
      10 ^ (k - 1) ≤ nat256 d.signif10 * 10 ^ d.exp10.toNat := by
  obtain ⟨ds, h1, h2, h3⟩ := u256Text_spec d.signif10
  have hmin := u256Text_min h0 h1
  have hpos : 0 < ds.length := List.length_pos_iff.mpr h2.ne
  obtain ⟨m, hm⟩ : ∃ m : ℕ, d.exp10 = (m : ℤ) := ⟨d.exp10.toNat, by omega⟩
  have e1 : (max 0 (-d.exp10)).toNat = 0 := by omega
  have e2 : (max 0 ((ds.length : ℤ) + d.exp10)).toNat = ds.length + m := by omega
  refine ⟨ds ++ List.replicate m 48#8, ds.length + m, ?_, by omega, ?_, ?_⟩
  · have code : ∃ parts, d.displayParts = some parts ∧ 0 < partsLen parts ∧ writeParts parts = ds ++ List.replicate m 48#8 := by
      rcases Nat.eq_zero_or_pos m with rfl | hm0
      · refine ⟨[Part.digits ds], ?_, ?_, ?_⟩
        · rw [DecRepr.displayParts, h1, Option.bind_eq_bind, Option.bind_some]
          dsimp only
          rw [e1, e2, if_neg (by omega), if_pos (by omega), if_neg (by omega), Nat.add_zero, List.take_length]
          rfl
        · simpa [partsLen, Part.len] using hpos
        · simp [writeParts, Part.write]
      · refine ⟨[Part.digits ds, Part.zeroes m], ?_, ?_, ?_⟩
        · rw [DecRepr.displayParts, h1, Option.bind_eq_bind, Option.bind_some]
          dsimp only
          rw [e1, e2, if_pos (by omega), if_neg (by omega), Nat.add_sub_cancel_left]
          rfl
        · simp [partsLen, Part.len]; omega
        · simp [writeParts, Part.write]
    obtain ⟨parts, c1, c2, c3⟩ := code
    rw [DecRepr.fmt, c1, Option.bind_eq_bind, Option.bind_some, pad_none c2, c3]
    rfl
  · have g : FixedText ds ds.length (nat256 d.signif10) := ⟨h2.digit, rfl, h2.val⟩
    have := g.append (fixedText_zeroes m)
    rw [Nat.add_zero] at this
    rw [hm, Int.toNat_natCast]
    exact this
  · rw [hm, Int.toNat_natCast, show ds.length + m - 1 = (ds.length - 1) + m by omega, pow_add]
    exact Nat.mul_le_mul_right _ hmin

/-- The text of an integer -/
theorem display_int {d : DecRepr} (hs : (d.sign == 1) = false) (hj : 0 ≤ d.exp10) (h0 : 0 < nat256 d.signif10) :
    ∃ s k, d.fmt {} = some s ∧ 0 < k ∧ FixedText s k (nat256 d.signif10 * 10 ^ d.exp10.toNat) ∧
      10 ^ (k - 1) ≤ nat256 d.signif10 * 10 ^ d.exp10.toNat := by
  have := display_signed hj h0
  rwa [hs] at this

/-! ## Rounding up -/

theorem nine_iff {c : BitVec 8} : c = 57#8 ↔ c.toNat = 57 := by
  rw [← BitVec.toNat_inj]; rfl

theorem roundUpRev_digits (rest : List (BitVec 8)) : ∀ (r : List (BitVec 8)), (∀ c ∈ r, IsDigit c.toNat) →
    (∃ r' : List (BitVec 8), roundUpRev (r ++ rest) = some (r' ++ rest) ∧
      FixedText r'.reverse r.length (decVal (digs r.reverse) + 1)) ∨
    (decVal (digs r.reverse) + 1 = 10 ^ r.length ∧
      roundUpRev (r ++ rest) = (roundUpRev rest).map (List.replicate r.length 48#8 ++ ·)) := by
  intro r
  induction r with
  | nil => intro _; right; exact ⟨rfl, by cases h : roundUpRev rest <;> simp [h]⟩
  | cons c r ih =>
    intro hd
    have hc := hd c (by simp)
    have hr : ∀ c ∈ r, IsDigit c.toNat := fun x hx => hd x (by simp [hx])
    have hv : decVal (digs (c :: r).reverse) = decVal (digs r.reverse) * 10 + (c.toNat - 48) := by
      rw [List.reverse_cons, digs_append, show digs [c] = [c.toNat - 48] from rfl, decVal_concat]
    unfold IsDigit at hc
    rw [hv, List.cons_append, roundUpRev]
    by_cases h9 : c = 57#8
    · rw [if_pos h9]
      have h9' := nine_iff.mp h9
      rw [h9']
      rcases ih hr with ⟨r', a, b⟩ | ⟨a, b⟩
      · left
        refine ⟨48#8 :: r', by rw [a]; rfl, ?_⟩
        have := b.append (fixedText_zeroes 1)
        rw [List.reverse_cons, List.length_cons]
        convert this using 1
        · rfl
        · rw [pow_one]; omega
      · right
        refine ⟨?_, ?_⟩
        · rw [List.length_cons, pow_succ, ← a]; omega
        · rw [b, List.length_cons, List.replicate_succ]
          cases roundUpRev rest <;> rfl
    · rw [if_neg h9]
      have h9' : c.toNat ≠ 57 := fun h => h9 (nine_iff.mpr h)
      have hdot : c ≠ 46#8 := by
        intro h
        rw [h] at hc
        exact absurd hc.1 (by decide)
      rw [if_neg hdot]
      left
      refine ⟨(c + 1) :: r, rfl, ?_⟩
      have hc1 : (c + 1).toNat = c.toNat + 1 := by
        rw [BitVec.toNat_add]
        show (c.toNat + 1) % 2 ^ 8 = _
        omega
      have g : FixedText r.reverse r.length (decVal (digs r.reverse)) :=
        ⟨fun x hx => hr x (List.mem_reverse.mp hx), List.length_reverse, rfl⟩
      have g1 : FixedText [c + 1] 1 (c.toNat - 48 + 1) := by
        refine ⟨?_, rfl, ?_⟩
        · intro x hx
          rw [List.mem_singleton] at hx
          rw [hx, hc1]
          unfold IsDigit
          omega
        · rw [show digs [c + 1] = [(c + 1).toNat - 48] from rfl, decVal_single, hc1]
          omega
      have := g.append g1
      rw [List.reverse_cons, List.length_cons]
      convert this using 1
      rw [pow_one]; omega

theorem FixedText.lt {s : List (BitVec 8)} {w n : ℕ} (h : FixedText s w n) : n < 10 ^ w := by
  rw [← h.val, ← h.len, ← digs_length]
  exact decVal_lt (digs_lt h.digit)

/-- A text without superfluous leading zeroes -/
def Canon (a : List (BitVec 8)) : Prop := a ≠ [] ∧ (a.head? = some 48#8 → a.length = 1)

theorem head_zero {s : List (BitVec 8)} {w n : ℕ} (h : FixedText s w n) (hz : s.head? = some 48#8) :
    n < 10 ^ (w - 1) ∧ FixedText (s.drop 1) (w - 1) n := by
  cases s with
  | nil => cases hz
  | cons c s =>
    cases hz
    have g : FixedText s (w - 1) n := by
      refine ⟨fun c hc => h.digit c (by simp [hc]), by rw [← h.len]; rfl, ?_⟩
      rw [← h.val, show digs (48#8 :: s) = 0 :: digs s from rfl, decVal_cons, Nat.zero_mul, Nat.zero_add]
    exact ⟨g.lt, g⟩

/-- Removal of the leading zero -/
theorem strip_zero {a rest : List (BitVec 8)} {k A B : ℕ} (h : FixedText a (k + 1) A) (hk : 0 < k) (hcan : k = 1 ∨ 10 ^ (k - 1) ≤ B)
    (hBA : B ≤ A) : ∃ a' k', (if (a ++ rest).head? = some 48#8 then (a ++ rest).drop 1 else a ++ rest) = a' ++ rest ∧
      FixedText a' k' A ∧ Canon a' := by
  have hne : a ≠ [] := by rintro rfl; have := h.len; simp at this
  have hh : (a ++ rest).head? = a.head? := by
    cases a with
    | nil => exact absurd rfl hne
    | cons c a => rfl
  rw [hh]
  by_cases hz : a.head? = some 48#8
  · obtain ⟨-, g⟩ := head_zero h hz
    rw [Nat.add_sub_cancel] at g
    refine ⟨a.drop 1, k, ?_, g, ?_, ?_⟩
    · rw [if_pos hz]
      cases a with
      | nil => exact absurd rfl hne
      | cons c a => rfl
    · intro hc
      have := g.len
      rw [hc] at this
      simp at this
      omega
    · intro hz'
      rw [g.len]
      rcases hcan with h1 | h1
      · exact h1
      · have := (head_zero g hz').1
        omega
  · refine ⟨a, k + 1, by rw [if_neg hz], h, hne, fun hc => absurd hc hz⟩

theorem endsOdd_digits {x s : List (BitVec 8)} {w n : ℕ} (h : FixedText s w n) (hw : 0 < w) :
    endsOdd (x ++ s) = true ↔ n % 2 = 1 := by
  have hne : s ≠ [] := by rintro rfl; have := h.len; simp at this; omega
  obtain ⟨t, c, rfl⟩ : ∃ t c, s = t ++ [c] := ⟨s.dropLast, s.getLast hne, (List.dropLast_append_getLast hne).symm⟩
  have hc := h.digit c (by simp)
  have hv := h.val
  rw [digs_append, show digs [c] = [c.toNat - 48] from rfl, decVal_concat] at hv
  unfold endsOdd
  rw [← List.append_assoc, List.getLast?_append]
  simp only [List.getLast?_singleton, Option.some_or]
  unfold IsDigit at hc
  have : ∀ k : ℕ, k < 256 → ((c == BitVec.ofNat 8 k) = true ↔ c.toNat = k) := by
    intro k hk
    rw [beq_iff_eq, ← BitVec.toNat_inj, BitVec.toNat_ofNat, Nat.mod_eq_of_lt (by omega)]
  simp only [Bool.or_eq_true]
  rw [this 49 (by omega), this 51 (by omega), this 53 (by omega), this 55 (by omega), this 57 (by omega)]
  omega

/-- The text with the digits rounded -/
theorem fixed_text {int s : List (BitVec 8)} {k p A B : ℕ} (r : Rounding) (hA : FixedText int k A) (hk : 0 < k)
    (hcan : k = 1 ∨ 10 ^ (k - 1) ≤ A) (hB : FixedText s p B) :
    ∃ t a b A' B' k', (if r = .up ∨ (r = .toEven ∧ endsOdd (48#8 :: int ++ (if p > 0 then [46#8] else []) ++ s)) then
        roundUpFixedPoint (48#8 :: int ++ (if p > 0 then [46#8] else []) ++ s)
      else some (48#8 :: int ++ (if p > 0 then [46#8] else []) ++ s)) = some t ∧
    (if t.head? = some 48#8 then t.drop 1 else t) = a ++ ((if p > 0 then [46#8] else []) ++ b) ∧
    FixedText a k' A' ∧ Canon a ∧ FixedText b p B' ∧
    A' * 10 ^ p + B' = A * 10 ^ p + B + (if r = .up ∨ (r = .toEven ∧ (A * 10 ^ p + B) % 2 = 1) then 1 else 0) := by
  generalize hdot : (if p > 0 then [46#8] else [] : List (BitVec 8)) = dot
  have hA0 : FixedText (48#8 :: int) (k + 1) A := by
    have := (fixedText_zeroes 1).append hA
    rw [Nat.zero_mul, Nat.zero_add, Nat.add_comm] at this
    exact this
  have hodd : endsOdd (48#8 :: int ++ dot ++ s) = true ↔ (A * 10 ^ p + B) % 2 = 1 := by
    rcases Nat.eq_zero_or_pos p with rfl | hp
    · have hs : s = [] := List.length_eq_zero_iff.mp hB.len
      have hB0 : B = 0 := by have := hB.lt; rw [pow_zero] at this; omega
      rw [if_neg (by omega)] at hdot
      rw [← hdot, hs, hB0, List.append_nil, List.append_nil, pow_zero, Nat.mul_one, Nat.add_zero]
      exact endsOdd_digits (x := []) hA0 (by omega)
    · rw [endsOdd_digits hB hp]
      obtain ⟨q, rfl⟩ : ∃ q, p = q + 1 := ⟨p - 1, by omega⟩
      rw [pow_succ, ← Nat.mul_assoc]
      omega
  have hP : (if r = .up ∨ (r = .toEven ∧ endsOdd (48#8 :: int ++ dot ++ s)) then
        roundUpFixedPoint (48#8 :: int ++ dot ++ s) else some (48#8 :: int ++ dot ++ s)) =
      if r = .up ∨ (r = .toEven ∧ (A * 10 ^ p + B) % 2 = 1) then
        roundUpFixedPoint (48#8 :: int ++ dot ++ s) else some (48#8 :: int ++ dot ++ s) := by
    by_cases hc : r = .up ∨ (r = .toEven ∧ (A * 10 ^ p + B) % 2 = 1)
    · rw [if_pos hc, if_pos (by rw [hodd]; exact hc)]
    · rw [if_neg hc, if_neg (by rw [hodd]; exact hc)]
  rw [hP]
  by_cases hup : r = .up ∨ (r = .toEven ∧ (A * 10 ^ p + B) % 2 = 1)
  · rw [if_pos hup, if_pos hup]
    have hrev : (48#8 :: int ++ dot ++ s).reverse = s.reverse ++ (dot.reverse ++ (48#8 :: int).reverse) := by
      rw [List.reverse_append, List.reverse_append]
    have hdrev : dot.reverse = dot := by rw [← hdot]; split <;> rfl
    have hskip : ∀ l, roundUpRev (dot ++ l) = (roundUpRev l).map (dot ++ ·) := by
      intro l
      rw [← hdot]
      split
      · show roundUpRev (46#8 :: l) = _
        rw [roundUpRev, if_neg (by decide), if_pos rfl]
        rfl
      · cases h : roundUpRev l <;> simp [h]
    unfold roundUpFixedPoint
    rw [hrev, hdrev]
    rcases roundUpRev_digits (dot ++ (48#8 :: int).reverse) s.reverse (fun c hc => hB.digit c (List.mem_reverse.mp hc)) with
      ⟨s', e1, e2⟩ | ⟨e1, e2⟩
    · rw [List.reverse_reverse, List.length_reverse, hB.val, hB.len] at e2
      obtain ⟨a', k', h1, h2, h3⟩ := strip_zero (rest := dot ++ s'.reverse) hA0 hk hcan le_rfl
      refine ⟨_, a', s'.reverse, A, B + 1, k', by rw [e1]; rfl, ?_, h2, h3, e2, by ring⟩
      rw [show (s' ++ (dot ++ (48#8 :: int).reverse)).reverse = (48#8 :: int) ++ (dot ++ s'.reverse) by
        rw [List.reverse_append, List.reverse_append, List.reverse_reverse, hdrev, List.append_assoc]]
      exact h1
    · rw [List.reverse_reverse, List.length_reverse, hB.val, hB.len] at e1
      rw [List.length_reverse, hB.len] at e2
      have e3 := roundUpRev_digits [] (48#8 :: int).reverse (fun c hc => hA0.digit c (List.mem_reverse.mp hc))
      rw [List.reverse_reverse, List.length_reverse, hA0.val, hA0.len, List.append_nil] at e3
      rcases e3 with ⟨a0, e4, e5⟩ | ⟨e4, -⟩
      · rw [List.append_nil] at e4
        obtain ⟨a', k', h1, h2, h3⟩ := strip_zero (rest := dot ++ List.replicate p 48#8) e5 hk hcan (Nat.le_succ _)
        refine ⟨_, a', List.replicate p 48#8, A + 1, 0, k', by rw [e2, hskip, e4]; rfl, ?_, h2, h3, fixedText_zeroes p, ?_⟩
        · rw [show (List.replicate p 48#8 ++ (dot ++ a0)).reverse = a0.reverse ++ (dot ++ List.replicate p 48#8) by
            rw [List.reverse_append, List.reverse_append, List.reverse_replicate, hdrev, List.append_assoc]]
          exact h1
        · rw [Nat.add_assoc, e1]; ring
      · have := hA.lt
        rw [pow_succ] at e4
        omega
  · rw [if_neg hup, if_neg hup]
    obtain ⟨a', k', h1, h2, h3⟩ := strip_zero (rest := dot ++ s) hA0 hk hcan le_rfl
    refine ⟨_, a', s, A, B, k', rfl, ?_, h2, h3, hB, by ring⟩
    rw [show 48#8 :: int ++ dot ++ s = (48#8 :: int) ++ (dot ++ s) by rw [List.append_assoc]]
    exact h1

end Verif
