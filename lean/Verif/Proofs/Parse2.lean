import Verif.Proofs.Parse
import Verif.Proofs.F256Nat
import Verif.Proofs.DivRem

/-!
# Reading a literal: normalization, leading zeroes, exponent, and the whole
-/

namespace Verif

open Spec

/-! ### Normalizing -/

/-- The number held -/
def PartialSignif.value (p : PartialSignif) : ℕ := chunkVal p.chunks * 10 ^ p.nRem + p.rem.toNat

theorem chunkVal_cons (c : BitVec 64) (cs : List (BitVec 64)) :
    chunkVal (c :: cs) = chunkVal cs * 10 ^ 8 + c.toNat := by
  unfold chunkVal
  rw [List.foldr_cons]

theorem popZeroes_spec : ∀ cs : List (BitVec 64),
    chunkVal cs = chunkVal (PartialSignif.popZeroes cs).1 * 10 ^ (PartialSignif.popZeroes cs).2 ∧
    (∀ c ∈ (PartialSignif.popZeroes cs).1, c ∈ cs) ∧
    ((PartialSignif.popZeroes cs).1 = [] → cs = []) ∧
    (∀ c r, (PartialSignif.popZeroes cs).1 = c :: r → c ≠ 0 ∨ r = [])
  | [] => by simp [PartialSignif.popZeroes]
  | [c] => by simp only [PartialSignif.popZeroes]; simp
  | c1 :: c2 :: cs => by
    rw [PartialSignif.popZeroes]
    by_cases h : c1 = 0
    · rw [if_pos h]
      obtain ⟨i1, i2, i3, i4⟩ := popZeroes_spec (c2 :: cs)
      subst h
      refine ⟨?_, ?_, ?_, i4⟩
      · rw [chunkVal_cons, i1, show (0 : BitVec 64).toNat = 0 from rfl, Nat.add_zero, pow_add,
          mul_assoc]
      · intro c hc
        exact List.mem_cons_of_mem _ (i2 c hc)
      · intro hh
        have := i3 hh
        simp at this
    · rw [if_neg h]
      refine ⟨by simp, fun c hc => hc, fun hh => ?_, ?_⟩
      · simp at hh
      · rintro c r hh
        simp only [List.cons.injEq] at hh
        rw [← hh.1]
        exact Or.inl h

theorem stripRem_spec : ∀ (n : ℕ) (rem : BitVec 64), rem.toNat < 10 ^ n →
    ∃ r m t, PartialSignif.stripRem rem n = (r, m, t) ∧ rem.toNat = r.toNat * 10 ^ t ∧ n = m + t ∧
      r.toNat < 10 ^ m ∧ (rem ≠ 0 → r.toNat % 10 ≠ 0)
  | 0, rem, h => by
    refine ⟨rem, 0, 0, rfl, by simp, rfl, h, ?_⟩
    intro h0
    exfalso
    apply h0
    apply BitVec.eq_of_toNat_eq
    simpa using h
  | n + 1, rem, h => by
    rw [PartialSignif.stripRem]
    have hmod : (rem % 10#64).toNat = rem.toNat % 10 := by
      rw [BitVec.toNat_umod]; rfl
    have hdiv : (rem / 10#64).toNat = rem.toNat / 10 := by
      rw [BitVec.toNat_udiv]; rfl
    split_ifs with h0
    · have hz : rem.toNat % 10 = 0 := by
        rw [← hmod, h0]; rfl
      rw [pow_succ] at h
      obtain ⟨r, m, t, h1, h2, h3, h4, h5⟩ := stripRem_spec n (rem / 10#64) (by rw [hdiv]; omega)
      rw [h1]
      refine ⟨r, m, t + 1, rfl, ?_, by omega, h4, ?_⟩
      · rw [pow_succ, ← mul_assoc, ← h2, hdiv]
        omega
      · intro hne
        refine h5 ?_
        intro hzero
        apply hne
        have : (rem / 10#64).toNat = 0 := by rw [hzero]; rfl
        apply BitVec.eq_of_toNat_eq
        rw [hdiv] at this
        have : rem.toNat = 0 := by omega
        rw [this]; rfl
    · refine ⟨rem, n + 1, 0, rfl, by simp, rfl, h, ?_⟩
      intro _ hz
      apply h0
      apply BitVec.eq_of_toNat_eq
      rw [hmod, hz]
      rfl

/-- Normalizing removes the trailing zeroes. -/
theorem normalize_spec {p : PartialSignif} {ds : List ℕ} (h : p.Holds ds) (h8 : p.nRem ≤ 8) :
    ∃ q tz, p.normalize = (q, tz) ∧ decVal ds = q.value * 10 ^ tz ∧ q.nRem ≤ 8 ∧
      (q.value = 0 ∨ q.value % 10 ≠ 0) := by
  have hval : decVal ds = p.value := h.val
  have hrem := h.rem_lt
  -- the second half of the function
  have strip (q : PartialSignif) (tz : ℕ) (hq : q.rem.toNat < 10 ^ q.nRem) (hq8 : q.nRem ≤ 8)
      (hv : p.value = q.value * 10 ^ tz) (hz : q.rem ≠ 0 ∨ q.value = 0) :
      ∃ q' tz', (PartialSignif.mk q.chunks (PartialSignif.stripRem q.rem q.nRem).1
            (PartialSignif.stripRem q.rem q.nRem).2.1,
          tz + (PartialSignif.stripRem q.rem q.nRem).2.2) = (q', tz') ∧
        p.value = q'.value * 10 ^ tz' ∧ q'.nRem ≤ 8 ∧ (q'.value = 0 ∨ q'.value % 10 ≠ 0) := by
    obtain ⟨r, m, t, h1, h2, h3, h4, h5⟩ := stripRem_spec q.nRem q.rem hq
    rw [h1]
    have hv2 : q.value = (chunkVal q.chunks * 10 ^ m + r.toNat) * 10 ^ t := by
      unfold PartialSignif.value
      rw [h2, h3, pow_add]
      ring
    refine ⟨_, _, rfl, ?_, ?_, ?_⟩
    · rw [hv, hv2]
      simp only [PartialSignif.value]
      rw [pow_add]
      ring
    · simp only; omega
    · simp only [PartialSignif.value]
      rcases hz with hz | hz
      · right
        have h6 := h5 hz
        have hm : m ≠ 0 := by
          rintro rfl
          simp only [pow_zero] at h4
          omega
        obtain ⟨m', rfl⟩ := Nat.exists_eq_succ_of_ne_zero hm
        rw [pow_succ, ← mul_assoc]
        omega
      · left
        rw [hv2] at hz
        have : (10 : ℕ) ^ t ≠ 0 := by positivity
        rcases Nat.mul_eq_zero.mp hz with h7 | h7
        · exact h7
        · exact absurd h7 this
  unfold PartialSignif.normalize
  rw [hval]
  by_cases h0 : p.rem = 0
  · have hr0 : p.rem.toNat = 0 := by rw [h0]; rfl
    obtain ⟨i1, i2, i3, i4⟩ := popZeroes_spec p.chunks
    rw [if_pos h0]
    generalize hpop : PartialSignif.popZeroes p.chunks = pz at i1 i2 i3 i4
    obtain ⟨cs, n⟩ := pz
    cases cs with
    | nil =>
      have hch : p.chunks = [] := i3 rfl
      refine strip p 0 hrem h8 (by simp) (Or.inr ?_)
      simp [PartialSignif.value, hch, hr0, chunkVal]
    | cons c cs =>
      dsimp only at i1 i2 i4 ⊢
      refine strip { chunks := cs, rem := c, nRem := 8 } (p.nRem + n) ?_ (le_refl _) ?_ ?_
      · exact h.chunk_lt c (i2 c List.mem_cons_self)
      · simp only [PartialSignif.value, i1, hr0, Nat.add_zero]
        simp only [chunkVal, List.foldr_cons]
        rw [pow_add]
        ring
      · rcases i4 c cs rfl with hc | hc
        · exact Or.inl hc
        · subst hc
          by_cases hc0 : c = 0
          · right
            simp [PartialSignif.value, chunkVal, hc0]
          · exact Or.inl hc0
  · rw [if_neg h0]
    exact strip p 0 hrem h8 (by simp) (Or.inl h0)

/-! ### The significand as an integer -/

theorem add256 {x y : U256} (h : nat256 x + nat256 y < 2 ^ 256) :
    ∃ z, UInt.add x y = some z ∧ nat256 z = nat256 x + nat256 y :=
  UInt.add_some (α := U128) (x := x) (y := y) h

theorem mul256 {x y : U256} (h : nat256 x * nat256 y < 2 ^ 256) :
    ∃ z, UInt.mul x y = some z ∧ nat256 z = nat256 x * nat256 y :=
  UInt.mul_some (α := U128) (x := x) (y := y) h

theorem nat256_base : nat256 (U256.new 0 100000000) = 10 ^ 8 := by
  rw [nat256_new]; decide +kernel

theorem toNat_setWidth128 (c : BitVec 64) : (c.setWidth 128).toNat = c.toNat := by
  have := c.isLt
  rw [BitVec.toNat_setWidth, Nat.mod_eq_of_lt (by omega)]

theorem sumChunks_spec : ∀ cs : List (BitVec 64), chunkVal cs < 2 ^ 256 →
    ∃ z, PartialSignif.sumChunks cs = some z ∧ nat256 z = chunkVal cs
  | [], _ => ⟨U256.new 0 0, rfl, by decide +kernel⟩
  | c :: cs, h => by
    have hc := chunkVal_cons c cs
    rw [hc] at h
    obtain ⟨z, hz, hzn⟩ := sumChunks_spec cs (by omega)
    have hb := nat256_base
    have hlt : chunkVal cs * 10 ^ 8 < 2 ^ 256 := Nat.lt_of_le_of_lt (Nat.le_add_right _ _) h
    obtain ⟨y, hy, hyn⟩ := mul256 (x := z) (y := U256.new 0 100000000)
      (by simpa only [hzn, hb] using hlt)
    rw [hzn, hb] at hyn
    have hcn : nat256 (U256.new 0 (c.setWidth 128)) = c.toNat := by
      rw [nat256_new, toNat_setWidth128]; simp
    obtain ⟨x, hx, hxn⟩ := add256 (x := y) (y := U256.new 0 (c.setWidth 128)) (by rw [hyn, hcn]; exact h)
    refine ⟨x, ?_, by rw [hxn, hyn, hcn, hc]⟩
    unfold PartialSignif.sumChunks at hz ⊢
    rw [List.foldr_cons, hz]
    simp only [Option.bind_eq_bind, Option.bind_some, hy, hx]

theorem partSignificand_spec (p : PartialSignif) (h8 : p.nRem ≤ 8) (h : p.value < 2 ^ 256) :
    ∃ z, p.significand = some z ∧ nat256 z = p.value := by
  unfold PartialSignif.value at h
  have hp : 0 < 10 ^ p.nRem := by positivity
  have hp8 : 10 ^ p.nRem ≤ 10 ^ 8 := Nat.pow_le_pow_right (by norm_num) h8
  have hle : chunkVal p.chunks ≤ chunkVal p.chunks * 10 ^ p.nRem := Nat.le_mul_of_pos_right _ hp
  obtain ⟨z, hz, hzn⟩ := sumChunks_spec p.chunks (by omega)
  have hb : nat256 (U256.new 0 (BitVec.ofNat 128 (10 ^ p.nRem))) = 10 ^ p.nRem := by
    rw [nat256_new, BitVec.toNat_ofNat, Nat.mod_eq_of_lt (by omega)]; simp
  obtain ⟨y, hy, hyn⟩ := mul256 (x := z) (y := U256.new 0 (BitVec.ofNat 128 (10 ^ p.nRem)))
    (by rw [hzn, hb]; omega)
  rw [hzn, hb] at hyn
  have hcn : nat256 (U256.new 0 (p.rem.setWidth 128)) = p.rem.toNat := by
    rw [nat256_new, toNat_setWidth128]; simp
  obtain ⟨x, hx, hxn⟩ := add256 (x := y) (y := U256.new 0 (p.rem.setWidth 128))
    (by rw [hyn, hcn]; exact h)
  refine ⟨x, ?_, by rw [hxn, hyn, hcn]; rfl⟩
  unfold PartialSignif.significand
  rw [hz]
  simp only [Option.bind_eq_bind, Option.bind_some, hy, hx]

/-! ### Leading zeroes -/

theorem digs_zeroes (z : ℕ) : digs (List.replicate z 48#8) = List.replicate z 0 := by
  simp [digs]

theorem zero_digits (z : ℕ) : ∀ c ∈ List.replicate z 48#8, IsDigit c.toNat := by
  intro c hc
  rw [List.eq_of_mem_replicate hc]
  decide

theorem decVal_zero : ∀ {ds : List ℕ}, decVal ds = 0 → ∀ d ∈ ds, d = 0 := by
  intro ds
  induction ds using List.reverseRecOn with
  | nil => simp
  | append_singleton ds d ih =>
    intro h
    rw [decVal_append] at h
    have h1 : decVal [d] = d := by simp [decVal]
    simp only [List.length_singleton, pow_one] at h
    intro x hx
    rcases List.mem_append.mp hx with hx | hx
    · exact ih (by omega) x hx
    · rw [List.mem_singleton] at hx
      omega

theorem skipZeroChunks_spec : ∀ (fuel : ℕ) (s : List (BitVec 8)),
    ∃ z, s = List.replicate z 48#8 ++ Lit.skipZeroChunks fuel s
  | 0, s => ⟨0, rfl⟩
  | fuel + 1, s => by
    rw [Lit.skipZeroChunks]
    cases hk : readU64 s with
    | none => exact ⟨0, rfl⟩
    | some k =>
      dsimp only
      split_ifs with h1 h2
      · obtain ⟨h8, hb⟩ := readU64_spec s hk
        have hv := chunkToU64_digits ((chunkContains8Digits_iff k).mp h1)
        rw [h2, hb] at hv
        have hz : decVal (digs (s.take 8)) = 0 := by
          rw [← strVal_codes]
          exact hv.symm
        have hall := (take_digits hk).mp h1
        have ht : s.take 8 = List.replicate 8 48#8 := by
          rw [List.eq_replicate_iff]
          refine ⟨by rw [List.length_take]; omega, fun c hc => ?_⟩
          have := decVal_zero hz (c.toNat - 48) (List.mem_map.mpr ⟨c, hc, rfl⟩)
          have := (hall c hc).1
          apply BitVec.eq_of_toNat_eq
          show c.toNat = 48
          omega
        obtain ⟨z, hz2⟩ := skipZeroChunks_spec fuel (s.drop 8)
        refine ⟨8 + z, ?_⟩
        rw [List.replicate_add, List.append_assoc, ← hz2, ← ht, List.take_append_drop]
      · exact ⟨0, rfl⟩
      · exact ⟨0, rfl⟩

theorem dropWhile_zero : ∀ s : List (BitVec 8), ∃ z,
    s = List.replicate z 48#8 ++ s.dropWhile (· == 48#8) ∧ (s.dropWhile (· == 48#8)).head? ≠ some 48#8
  | [] => ⟨0, by simp⟩
  | c :: t => by
    rw [List.dropWhile_cons]
    split_ifs with h
    · obtain ⟨z, h1, h2⟩ := dropWhile_zero t
      have : c = 48#8 := by simpa using h
      subst this
      refine ⟨z + 1, ?_, h2⟩
      rw [List.replicate_succ, List.cons_append, ← h1]
    · refine ⟨0, rfl, ?_⟩
      simpa using h

theorem skipZeroes_spec (l : Lit) : ∃ z, l.bytes = List.replicate z 48#8 ++ l.skipZeroes.bytes ∧
    l.skipZeroes.bytes.head? ≠ some 48#8 ∧ l.skipZeroes.state = l.state := by
  obtain ⟨z, hz⟩ := skipZeroChunks_spec l.len l.bytes
  obtain ⟨y, hy, hh⟩ := dropWhile_zero (Lit.skipZeroChunks l.len l.bytes)
  refine ⟨z + y, ?_, hh, rfl⟩
  rw [List.replicate_add, List.append_assoc]
  conv_lhs => rw [hz, hy]
  rfl

theorem firstEq_iff (l : Lit) (b : BitVec 8) : l.firstEq b = true ↔ l.bytes.head? = some b := by
  simp [Lit.firstEq, Lit.first]

/-- **Leading zeroes**: `z` zeroes and possibly the radix point are skipped. -/
theorem skipLeadingZeroes_spec (l : Lit) (hp : l.state.posRadixPoint = none)
    (hi : l.state.invalid = false) : ∃ z l', l.skipLeadingZeroes = l' ∧
    (∀ n, scan l.bytes (z + (n + 1)) none =
      pre (List.replicate z 0) (scan l'.bytes (n + 1) l'.state.posRadixPoint)) ∧
    l'.bytes.head? ≠ some 48#8 ∧
    l'.state = { l.state with posRadixPoint := l'.state.posRadixPoint, invalid := l'.state.invalid } ∧
    (l'.state.invalid = true → ∀ n, scan l'.bytes (n + 1) l'.state.posRadixPoint = none) ∧
    (l'.state.invalid = false → l'.bytes.head? ≠ some 46#8) ∧
    l'.bytes.length ≤ l.bytes.length ∧
    (∀ p, l'.state.posRadixPoint = some p → l'.bytes.length < p) := by
  obtain ⟨z, h1, h2, h3⟩ := skipZeroes_spec l
  unfold Lit.skipLeadingZeroes
  dsimp only
  have hlen := congrArg List.length h1
  rw [List.length_append, List.length_replicate] at hlen
  by_cases hdot : l.skipZeroes.firstEq 46#8 = true
  · rw [if_pos hdot, if_neg (by rw [h3, hp]; simp)]
    rw [firstEq_iff] at hdot
    obtain ⟨t, ht⟩ : ∃ t, l.skipZeroes.bytes = 46#8 :: t := by
      cases hb : l.skipZeroes.bytes with
      | nil => rw [hb] at hdot; cases hdot
      | cons c t =>
        rw [hb] at hdot
        simp only [List.head?_cons, Option.some.injEq] at hdot
        exact ⟨t, by rw [hdot]⟩
    generalize hm : (({ l.skipZeroes with state := { l.skipZeroes.state with
        posRadixPoint := some l.skipZeroes.len } } : Lit).skip 1) = lm
    have hmb : lm.bytes = t := by
      rw [← hm]
      simp [Lit.skip, ht]
    have hms : lm.state = { l.state with posRadixPoint := some (t.length + 1) } := by
      rw [← hm]
      simp [Lit.skip, h3, Lit.len, ht]
    obtain ⟨y, g1, g2, g3⟩ := skipZeroes_spec lm
    rw [hmb] at g1
    have glen := congrArg List.length g1
    rw [List.length_append, List.length_replicate] at glen
    rw [ht, List.length_cons] at hlen
    have hscan (n : ℕ) : scan l.bytes (z + y + (n + 1)) none =
        pre (List.replicate (z + y) 0) (scan lm.skipZeroes.bytes (n + 1) (some (t.length + 1))) := by
      have e1 := scan_digits (zero_digits z) (46#8 :: t) (y + (n + 1)) none
      rw [List.length_replicate, ← ht, ← h1, ht, digs_zeroes, show y + (n + 1) = (y + n) + 1 by omega,
        scan_dot] at e1
      have e2 := scan_digits (zero_digits y) lm.skipZeroes.bytes (n + 1) (some (t.length + 1))
      rw [List.length_replicate, ← g1, digs_zeroes] at e2
      rw [show z + y + (n + 1) = z + (y + n + 1) by omega, e1, show y + n + 1 = y + (n + 1) by omega, e2,
        pre_pre, List.replicate_add]
    unfold Lit.skipLeadingZeroesFalse
    dsimp only
    rw [g3, hms]
    by_cases hd2 : lm.skipZeroes.firstEq 46#8 = true
    · rw [if_pos hd2, if_pos (by rfl)]
      rw [firstEq_iff] at hd2
      refine ⟨z + y, _, rfl, hscan, g2, rfl, ?_, ?_, ?_, ?_⟩
      · intro _ n
        dsimp only
        cases hb : lm.skipZeroes.bytes with
        | nil => rw [hb] at hd2; cases hd2
        | cons c t' =>
          rw [hb] at hd2
          simp only [List.head?_cons, Option.some.injEq] at hd2
          rw [hd2, scan_dot_some]
      · intro h; cases h
      · dsimp only; omega
      · intro p hp
        simp only [Option.some.injEq] at hp
        dsimp only
        omega
    · rw [if_neg hd2]
      rw [firstEq_iff] at hd2
      refine ⟨z + y, _, rfl, ?_, g2, ?_, ?_, ?_, ?_, ?_⟩
      · rw [g3, hms]; exact hscan
      · rw [g3, hms]
      · intro h
        rw [g3, hms] at h
        simp only [hi] at h
        cases h
      · intro _; exact hd2
      · omega
      · intro p hp
        rw [g3, hms] at hp
        simp only [Option.some.injEq] at hp
        omega
  · rw [if_neg hdot]
    rw [firstEq_iff] at hdot
    refine ⟨z, _, rfl, ?_, h2, ?_, ?_, ?_, ?_, ?_⟩
    · intro n
      have e1 := scan_digits (zero_digits z) l.skipZeroes.bytes (n + 1) none
      rw [List.length_replicate, ← h1, digs_zeroes] at e1
      rw [e1, h3, hp]
    · rw [h3]
    · intro h
      rw [h3, hi] at h
      cases h
    · intro _; exact hdot
    · omega
    · intro p hp'
      rw [h3, hp] at hp'
      cases hp'

/-! ### Positions -/

theorem scan_pos {s : List (BitVec 8)} {n pos ds r p} (h : scan s n pos = some (ds, r, p)) :
    (p = pos ∧ s.length = ds.length + r.length) ∨
    (pos = none ∧ ∃ q, p = some q ∧ r.length < q ∧ q ≤ s.length ∧
      s.length = ds.length + r.length + 1) := by
  induction s generalizing n pos ds with
  | nil =>
    rw [scan_nil] at h
    simp only [Option.some.injEq, Prod.mk.injEq] at h
    obtain ⟨rfl, rfl, rfl⟩ := h
    simp
  | cons c t ih =>
    rw [scan] at h
    split_ifs at h with h1 h2 h3 h4
    · simp only [Option.some.injEq, Prod.mk.injEq] at h
      obtain ⟨rfl, rfl, rfl⟩ := h
      simp
    · cases hs : scan t (n - 1) pos with
      | none => rw [hs] at h; cases h
      | some q =>
        rw [hs] at h
        obtain ⟨q1, q2, q3⟩ := q
        simp only [Option.map_some, Option.some.injEq, Prod.mk.injEq] at h
        obtain ⟨rfl, rfl, rfl⟩ := h
        simp only [List.length_cons]
        rcases ih hs with ⟨i1, i2⟩ | ⟨i1, q, i2, i3, i4, i5⟩
        · exact Or.inl ⟨i1, by omega⟩
        · exact Or.inr ⟨i1, q, i2, i3, by omega, by omega⟩
    · simp only [List.length_cons]
      rcases ih h with ⟨i1, i2⟩ | ⟨i1, -⟩
      · exact Or.inr ⟨by cases pos <;> simp_all, _, i1, by omega, by omega, by omega⟩
      · cases i1
    · simp only [Option.some.injEq, Prod.mk.injEq] at h
      obtain ⟨rfl, rfl, rfl⟩ := h
      simp

theorem scan_suffix {s : List (BitVec 8)} {n pos ds r p} (h : scan s n pos = some (ds, r, p)) :
    ∃ u, s = u ++ r := by
  induction s generalizing n pos ds with
  | nil =>
    rw [scan_nil] at h
    simp only [Option.some.injEq, Prod.mk.injEq] at h
    obtain ⟨rfl, rfl, rfl⟩ := h
    exact ⟨[], rfl⟩
  | cons c t ih =>
    rw [scan] at h
    split_ifs at h with h1 h2 h3 h4
    · simp only [Option.some.injEq, Prod.mk.injEq] at h
      exact ⟨[], h.2.1⟩
    · cases hs : scan t (n - 1) pos with
      | none => rw [hs] at h; cases h
      | some q =>
        rw [hs] at h
        obtain ⟨q1, q2, q3⟩ := q
        simp only [Option.map_some, Option.some.injEq, Prod.mk.injEq] at h
        obtain ⟨rfl, rfl, rfl⟩ := h
        obtain ⟨u, hu⟩ := ih hs
        exact ⟨c :: u, by rw [hu]; rfl⟩
    · obtain ⟨u, hu⟩ := ih h
      exact ⟨c :: u, by rw [hu]; rfl⟩
    · simp only [Option.some.injEq, Prod.mk.injEq] at h
      exact ⟨[], h.2.1⟩

/-- The shape of what has been read -/
theorem scan_form {s : List (BitVec 8)} {n pos ds r p} (h : scan s n pos = some (ds, r, p)) :
    (p = pos ∧ ∃ a, s = a ++ r ∧ (∀ c ∈ a, IsDigit c.toNat) ∧ ds = digs a) ∨
    (pos = none ∧ ∃ a b, s = a ++ 46#8 :: b ++ r ∧ (∀ c ∈ a, IsDigit c.toNat) ∧
      (∀ c ∈ b, IsDigit c.toNat) ∧ ds = digs (a ++ b) ∧ p = some (b.length + r.length + 1)) := by
  induction s generalizing n pos ds with
  | nil =>
    rw [scan_nil] at h
    simp only [Option.some.injEq, Prod.mk.injEq] at h
    obtain ⟨rfl, rfl, rfl⟩ := h
    exact Or.inl ⟨rfl, [], rfl, by simp, rfl⟩
  | cons c t ih =>
    rw [scan] at h
    split_ifs at h with h1 h2 h3 h4
    · simp only [Option.some.injEq, Prod.mk.injEq] at h
      obtain ⟨rfl, rfl, rfl⟩ := h
      exact Or.inl ⟨rfl, [], rfl, by simp, rfl⟩
    · cases hs : scan t (n - 1) pos with
      | none => rw [hs] at h; cases h
      | some q =>
        rw [hs] at h
        obtain ⟨q1, q2, q3⟩ := q
        simp only [Option.map_some, Option.some.injEq, Prod.mk.injEq] at h
        obtain ⟨rfl, rfl, rfl⟩ := h
        have hc := (isDig_iff c).mp h2
        rcases ih hs with ⟨i1, a, i2, i3, i4⟩ | ⟨i1, a, b, i2, i3, i4, i5, i6⟩
        · refine Or.inl ⟨i1, c :: a, by rw [i2]; rfl, ?_, by rw [i4]; rfl⟩
          intro x hx
          rcases List.mem_cons.mp hx with rfl | hx
          exacts [hc, i3 x hx]
        · refine Or.inr ⟨i1, c :: a, b, by rw [i2]; rfl, ?_, i4, by rw [i5]; rfl, i6⟩
          intro x hx
          rcases List.mem_cons.mp hx with rfl | hx
          exacts [hc, i3 x hx]
    · subst h3
      rcases ih h with ⟨i1, a, i2, i3, i4⟩ | ⟨i1, -⟩
      · refine Or.inr ⟨by cases pos <;> simp_all, [], a, by rw [i2]; rfl, by simp, i3, i4, ?_⟩
        rw [i1, i2, List.length_append]
      · cases i1
    · simp only [Option.some.injEq, Prod.mk.injEq] at h
      obtain ⟨rfl, rfl, rfl⟩ := h
      exact Or.inl ⟨rfl, [], rfl, by simp, rfl⟩

/-! ### Exponents -/

theorem satPush_spec (N d : ℕ) :
    satPush (min (N : ℤ) (2 ^ 31 - 1)) d = min ((10 * N + d : ℕ) : ℤ) (2 ^ 31 - 1) := by
  unfold satPush
  omega

theorem expDigits_spec : ∀ (s : List (BitVec 8)) (N : ℕ), ∃ a r, s = a ++ r ∧
    (∀ c ∈ a, IsDigit c.toNat) ∧ (∀ c ∈ r.head?, ¬ IsDigit c.toNat) ∧
    expDigits (min (N : ℤ) (2 ^ 31 - 1)) s =
      (min ((N * 10 ^ a.length + decVal (digs a) : ℕ) : ℤ) (2 ^ 31 - 1), r)
  | [], N => ⟨[], [], rfl, by simp, by simp, by simp [expDigits, digs, decVal]⟩
  | c :: t, N => by
    rw [expDigits]
    by_cases hd : IsDigit c.toNat
    · rw [if_pos ((isDig_iff c).mpr hd), satPush_spec]
      obtain ⟨a, r, h1, h2, h3, h4⟩ := expDigits_spec t (10 * N + (c - 48#8).toNat)
      refine ⟨c :: a, r, by rw [h1]; rfl, ?_, h3, ?_⟩
      · intro x hx
        rcases List.mem_cons.mp hx with rfl | hx
        exacts [hd, h2 x hx]
      · rw [h4, dig_val hd]
        have : decVal (digs (c :: a)) = (c.toNat - 48) * 10 ^ a.length + decVal (digs a) := by
          rw [show digs (c :: a) = [c.toNat - 48] ++ digs a from rfl, decVal_append, digs_length]
          simp [decVal]
        rw [this, List.length_cons, pow_succ]
        congr 3
        ring
    · rw [if_neg (by rw [isDig_iff]; exact hd)]
      refine ⟨[], c :: t, rfl, by simp, ?_, by simp [digs, decVal]⟩
      intro x hx
      simp only [List.head?_cons, Option.mem_def, Option.some.injEq] at hx
      rw [← hx]
      exact hd

/-- An exponent part as the parser reads it: nothing, or `e`, a sign, digits — a sign without digits is
accepted. `e` is the exponent it denotes (before clamping), `neg` its sign. -/
def ExpForm (x : List (BitVec 8)) (neg : Bool) (ds : List (BitVec 8)) : Prop :=
  (x = [] ∧ neg = false ∧ ds = []) ∨
  (∃ c sg, x = c :: (sg ++ ds) ∧ (c = 101#8 ∨ c = 69#8) ∧ (∀ c ∈ ds, IsDigit c.toNat) ∧
    ((sg = [] ∧ neg = false ∧ ds ≠ []) ∨ (sg = [43#8] ∧ neg = false) ∨ (sg = [45#8] ∧ neg = true)))

/-- The exponent the parser computes -/
def expVal (neg : Bool) (ds : List (BitVec 8)) : ℤ :=
  if neg then -(min (decVal (digs ds) : ℤ) (2 ^ 31 - 1)) else min (decVal (digs ds) : ℤ) (2 ^ 31 - 1)

/-- Digits up to the end of the string, after the sign -/
theorem exp_tail (l : Lit) (neg : Bool) :
    let r : Option (Int × Lit) :=
      match l.first with
      | some c => if Lit.isDig c then some (((c - 48#8).toNat : Int), l.skip 1) else none
      | none => some (0, l)
    let res : Option (Int × Lit) :=
      match r with
      | none => none
      | some (e, l) =>
        let (e, rest) := expDigits e l.bytes
        some (if neg then -e else e, { l with bytes := rest })
    (∀ e l', res = some (e, l') → l'.state = l.state ∧
      (l'.bytes = [] → (∀ c ∈ l.bytes, IsDigit c.toNat) ∧ e = expVal neg l.bytes)) ∧
    ((∀ c ∈ l.bytes, IsDigit c.toNat) → ∃ e l', res = some (e, l') ∧ l'.bytes = []) := by
  intro r res
  cases hb : l.bytes with
  | nil =>
    have hr : r = some (0, l) := by
      simp only [r, Lit.first, hb, List.head?_nil]
    have hres : res = some (if neg then -0 else 0, { l with bytes := [] }) := by
      simp only [res, hr, hb, expDigits]
    refine ⟨?_, fun _ => ⟨_, _, hres, rfl⟩⟩
    rintro e l' he
    rw [hres] at he
    simp only [Option.some.injEq, Prod.mk.injEq] at he
    obtain ⟨rfl, rfl⟩ := he
    refine ⟨rfl, fun _ => ⟨by simp, ?_⟩⟩
    cases neg <;> simp [expVal, digs, decVal]
  | cons c t =>
    by_cases hd : IsDigit c.toNat
    · have hr : r = some (((c - 48#8).toNat : ℤ), l.skip 1) := by
        simp only [r, Lit.first, hb, List.head?_cons]
        rw [if_pos ((isDig_iff c).mpr hd)]
      have hmin : (((c - 48#8).toNat : ℕ) : ℤ) = min (((c - 48#8).toNat : ℕ) : ℤ) (2 ^ 31 - 1) := by
        have := (c - 48#8).isLt
        omega
      obtain ⟨a, q, h1, h2, h3, h4⟩ := expDigits_spec t (c - 48#8).toNat
      have hres : res = some (if neg then
          -(min (((c - 48#8).toNat * 10 ^ a.length + decVal (digs a) : ℕ) : ℤ) (2 ^ 31 - 1)) else
          min (((c - 48#8).toNat * 10 ^ a.length + decVal (digs a) : ℕ) : ℤ) (2 ^ 31 - 1),
          { l.skip 1 with bytes := q }) := by
        simp only [res, hr, Lit.skip, hb, List.drop_one, List.tail_cons]
        rw [hmin, h4]
      have hval : (c - 48#8).toNat * 10 ^ a.length + decVal (digs a) = decVal (digs (c :: a)) := by
        rw [show digs (c :: a) = [c.toNat - 48] ++ digs a from rfl, decVal_append, digs_length, dig_val hd]
        simp [decVal]
      constructor
      · intro e l' he
        rw [hres] at he
        simp only [Option.some.injEq, Prod.mk.injEq] at he
        obtain ⟨rfl, rfl⟩ := he
        refine ⟨rfl, fun hq => ?_⟩
        have hq' : q = [] := hq
        rw [hq', List.append_nil] at h1
        subst h1
        refine ⟨?_, ?_⟩
        · intro x hx
          rcases List.mem_cons.mp hx with rfl | hx
          exacts [hd, h2 x hx]
        · rw [hval]; rfl
      · intro hall
        refine ⟨_, _, hres, ?_⟩
        cases q with
        | nil => rfl
        | cons x q =>
          exfalso
          refine h3 x (by simp) (hall x ?_)
          rw [h1]
          simp
    · have hr : r = none := by
        simp only [r, Lit.first, hb, List.head?_cons]
        rw [if_neg (by rw [isDig_iff]; exact hd)]
      have hres : res = none := by simp only [res, hr]
      refine ⟨fun e l' he => (by rw [hres] at he; cases he), fun hall => ?_⟩
      exact absurd (hall c List.mem_cons_self) hd

theorem not_digit_sign {c : BitVec 8} (h : c = 45#8 ∨ c = 43#8) : ¬ IsDigit c.toNat := by
  rcases h with rfl | rfl <;> decide

/-- **Exponent**: the rest of the string is consumed exactly if it is an exponent part. -/
theorem parseExponent_spec (l : Lit) :
    (∀ e l', l.parseExponent = some (e, l') → l'.state = l.state ∧
      (l'.bytes = [] → ∃ neg ds, ExpForm l.bytes neg ds ∧ e = expVal neg ds)) ∧
    (∀ neg ds, ExpForm l.bytes neg ds → ∃ e l', l.parseExponent = some (e, l') ∧ l'.bytes = []) := by
  unfold Lit.parseExponent
  cases hb : l.bytes with
  | nil =>
    have hf : l.first = none := by simp [Lit.first, hb]
    rw [hf]
    refine ⟨?_, fun _ _ _ => ⟨_, _, rfl, hb⟩⟩
    rintro e l' he
    simp only [Option.some.injEq, Prod.mk.injEq] at he
    obtain ⟨rfl, rfl⟩ := he
    exact ⟨rfl, fun _ => ⟨false, [], Or.inl ⟨rfl, rfl, rfl⟩, by simp [expVal, digs, decVal]⟩⟩
  | cons c t =>
    have hf : l.first = some c := by simp [Lit.first, hb]
    rw [hf]
    dsimp only
    by_cases hc : c = 101#8 ∨ c = 69#8
    · rw [if_pos hc]
      cases ht : t with
      | nil =>
        have hf2 : (l.skip 1).first = none := by simp [Lit.first, Lit.skip, hb, ht]
        rw [hf2]
        refine ⟨fun e l' he => (by cases he), ?_⟩
        rintro neg ds (⟨h, -⟩ | ⟨c', sg, h, -, -, h2⟩)
        · cases h
        · simp only [List.cons.injEq] at h
          have h3 := h.2.symm
          rw [List.append_eq_nil_iff] at h3
          obtain ⟨rfl, rfl⟩ := h3
          simp at h2
      | cons c2 t2 =>
        have hf2 : (l.skip 1).first = some c2 := by simp [Lit.first, Lit.skip, hb, ht]
        rw [hf2]
        dsimp only
        -- which sign
        obtain ⟨neg, sg, l2, hl2, hbytes, hstate, hsg, hnosign⟩ : ∃ neg sg l2,
            (if c2 = 45#8 then (true, (l.skip 1).skip 1) else if c2 = 43#8 then (false, (l.skip 1).skip 1)
              else (false, l.skip 1)) = (neg, l2) ∧ c2 :: t2 = sg ++ l2.bytes ∧ l2.state = l.state ∧
            ((sg = [] ∧ neg = false ∧ l2.bytes ≠ []) ∨ (sg = [43#8] ∧ neg = false) ∨
              (sg = [45#8] ∧ neg = true)) ∧ (sg = [] → c2 ≠ 45#8 ∧ c2 ≠ 43#8) := by
          have hskip2 : ((l.skip 1).skip 1).bytes = t2 := by simp [Lit.skip, hb, ht]
          have hskip1 : (l.skip 1).bytes = c2 :: t2 := by simp [Lit.skip, hb, ht]
          by_cases h45 : c2 = 45#8
          · refine ⟨true, [45#8], (l.skip 1).skip 1, by rw [if_pos h45], ?_, rfl, by simp, by simp⟩
            rw [hskip2, h45]; rfl
          · by_cases h43 : c2 = 43#8
            · refine ⟨false, [43#8], (l.skip 1).skip 1, by rw [if_neg h45, if_pos h43], ?_, rfl, by simp, by simp⟩
              rw [hskip2, h43]; rfl
            · refine ⟨false, [], l.skip 1, by rw [if_neg h45, if_neg h43], ?_, rfl, ?_, fun _ => ⟨h45, h43⟩⟩
              · rw [hskip1]; rfl
              · left
                exact ⟨rfl, rfl, by rw [hskip1]; simp⟩
        rw [hl2]
        dsimp only
        obtain ⟨e1, e2⟩ := exp_tail l2 neg
        constructor
        · intro e l' he
          obtain ⟨f1, f2⟩ := e1 e l' he
          refine ⟨by rw [f1, hstate], fun hnil => ?_⟩
          obtain ⟨f3, f4⟩ := f2 hnil
          exact ⟨neg, l2.bytes, Or.inr ⟨c, sg, by rw [hbytes], hc, f3, hsg⟩, f4⟩
        · intro neg' ds hform
          refine e2 ?_
          rcases hform with ⟨h, -⟩ | ⟨c', sg', h, -, hds, h2⟩
          · cases h
          · simp only [List.cons.injEq] at h
            have h3 := h.2
            -- the signs agree
            have : l2.bytes = ds := by
              rcases h2 with ⟨rfl, -, hne⟩ | ⟨rfl, -⟩ | ⟨rfl, -⟩
              · rw [List.nil_append] at h3
                have hd2 : IsDigit c2.toNat := hds c2 (by rw [← h3]; simp)
                rcases hsg with ⟨rfl, -⟩ | ⟨rfl, -⟩ | ⟨rfl, -⟩
                · rw [hbytes] at h3; exact h3
                · simp only [List.singleton_append, List.cons.injEq] at hbytes
                  exact absurd hd2 (not_digit_sign (Or.inr hbytes.1))
                · simp only [List.singleton_append, List.cons.injEq] at hbytes
                  exact absurd hd2 (not_digit_sign (Or.inl hbytes.1))
              · simp only [List.singleton_append, List.cons.injEq] at h3
                rcases hsg with ⟨rfl, -⟩ | ⟨rfl, -⟩ | ⟨rfl, -⟩
                · exact absurd h3.1 (hnosign rfl).2
                · simp only [List.singleton_append, List.cons.injEq] at hbytes
                  rw [← hbytes.2, h3.2]
                · simp only [List.singleton_append, List.cons.injEq] at hbytes
                  rw [← hbytes.2, h3.2]
              · simp only [List.singleton_append, List.cons.injEq] at h3
                rcases hsg with ⟨rfl, -⟩ | ⟨rfl, -⟩ | ⟨rfl, -⟩
                · exact absurd h3.1 (hnosign rfl).1
                · simp only [List.singleton_append, List.cons.injEq] at hbytes
                  rw [← hbytes.2, h3.2]
                · simp only [List.singleton_append, List.cons.injEq] at hbytes
                  rw [← hbytes.2, h3.2]
            rw [this]
            exact hds
    · rw [if_neg hc]
      constructor
      · intro e l' he
        simp only [Option.some.injEq, Prod.mk.injEq] at he
        obtain ⟨rfl, rfl⟩ := he
        refine ⟨rfl, fun hn => ?_⟩
        rw [hb] at hn
        cases hn
      · rintro neg ds (⟨h, -⟩ | ⟨c', sg, h, h2, -⟩)
        · cases h
        · simp only [List.cons.injEq] at h
          rw [← h.1] at h2
          exact absurd h2 hc

end Verif
