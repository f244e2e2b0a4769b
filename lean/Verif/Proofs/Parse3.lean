import Verif.Proofs.Parse2

/-!
# Reading a literal: the whole
-/

namespace Verif

open Spec

theorem wrapI32_id {x : ℤ} (h1 : -2 ^ 31 ≤ x) (h2 : x < 2 ^ 31) : wrapI32 x = x := by
  unfold wrapI32
  rw [Int.bmod_eq_of_le] <;> omega

theorem wrap_add (a b : ℤ) : wrapI32 (a + wrapI32 b) = wrapI32 (a + b) := by
  unfold wrapI32
  exact Int.add_bmod_bmod

theorem wrap_add' (a b : ℤ) : wrapI32 (wrapI32 a + b) = wrapI32 (a + b) := by
  unfold wrapI32
  exact Int.bmod_add_bmod

theorem wrap_sub (a b : ℤ) : wrapI32 (a - wrapI32 b) = wrapI32 (a - b) := by
  unfold wrapI32
  exact Int.sub_bmod_bmod

theorem wrap_sub' (a b : ℤ) : wrapI32 (wrapI32 a - b) = wrapI32 (a - b) := by
  unfold wrapI32
  exact Int.bmod_sub_bmod

theorem wrap_chain (e a b c : ℤ) : wrapI32 (wrapI32 (wrapI32 (e + wrapI32 a) - wrapI32 b) + wrapI32 c) =
    wrapI32 (e + a - b + c) := by
  rw [wrap_add, wrap_sub, wrap_add, wrap_sub', wrap_add']

theorem pow77 : (10 : ℕ) ^ 77 < 2 ^ 256 := by norm_num

/-- The number of digits behind the radix point -/
def fracLen (rest : List (BitVec 8)) (pos : Option ℕ) : ℕ := pos.getD 0 - (rest.length + 1)

/-- Behind the significand. `k` digits are held, `τ` digits follow. -/
theorem finishNumber_spec (sign : ℕ) (ps : PartialSignif) (l : Lit) (ds ts : List ℕ)
    (hH : ps.Holds ds) (h8 : ps.nRem ≤ 8) (hlt : ∀ d ∈ ds, d < 10) (h77 : ds.length ≤ 77)
    (hadj : ((l.state.startPosSignif - l.state.posRadixPoint.getD l.len - 77 : ℕ) : ℤ) -
      ((l.state.posRadixPoint.getD l.len - (l.state.endPosSignif + 1) : ℕ) : ℤ) =
        (ts.length : ℤ) - fracLen l.bytes l.state.posRadixPoint) :
    ((∀ neg xs, ¬ ExpForm l.bytes neg xs) ∧ finishNumber sign ps l = some .invalid) ∨
    (∃ (neg : Bool) (xs : List (BitVec 8)) (w : U256) (tz : ℕ), ExpForm l.bytes neg xs ∧ nat256 w * 10 ^ tz = decVal ds ∧
      (nat256 w = 0 ∨ nat256 w % 10 ≠ 0) ∧ finishNumber sign ps l = some (.number {
        sign := sign
        exponent := wrapI32 (expVal neg xs + ts.length - fracLen l.bytes l.state.posRadixPoint + tz)
        significand := w
        signifTruncated := l.state.signifTruncated })) := by
  obtain ⟨e1, e2⟩ := parseExponent_spec l
  unfold finishNumber
  dsimp only
  cases hp : l.parseExponent with
  | none =>
    left
    refine ⟨fun neg xs hx => ?_, rfl⟩
    obtain ⟨e, l', h, -⟩ := e2 neg xs hx
    rw [hp] at h
    cases h
  | some r =>
    obtain ⟨e, l'⟩ := r
    dsimp only
    obtain ⟨hst, hnil⟩ := e1 e l' hp
    cases hb : l'.bytes with
    | cons c t =>
      left
      refine ⟨fun neg xs hx => ?_, by simp⟩
      obtain ⟨e', l'', h, hn⟩ := e2 neg xs hx
      rw [hp] at h
      simp only [Option.some.injEq, Prod.mk.injEq] at h
      rw [← h.2, hb] at hn
      cases hn
    | nil =>
      right
      obtain ⟨neg, xs, hform, rfl⟩ := hnil hb
      obtain ⟨q, tz, hn, hval, hq8, hq0⟩ := normalize_spec hH h8
      have hle : q.value ≤ decVal ds := by
        rw [hval]
        exact Nat.le_mul_of_pos_right _ (by positivity)
      have hlt77 : decVal ds < 10 ^ 77 :=
        lt_of_lt_of_le (decVal_lt hlt) (Nat.pow_le_pow_right (by norm_num) h77)
      obtain ⟨w, hw, hwn⟩ := partSignificand_spec q hq8 (lt_of_le_of_lt hle (lt_trans hlt77 pow77))
      refine ⟨neg, xs, w, tz, hform, by rw [hwn, hval], by rw [hwn]; exact hq0, ?_⟩
      rw [if_neg (by simp), hn]
      dsimp only
      rw [hw]
      dsimp only
      rw [wrap_chain, hst]
      congr 3
      rw [show PartialSignif.maxNDigits = 77 from rfl]
      congr 1
      omega

/-- The digits from the first non-zero one on -/
def sigDigits (ds : List ℕ) : List ℕ := ds.dropWhile (· == 0)

theorem dropWhile_zeroes {z : ℕ} {sd : List ℕ} (h : sd.head? ≠ some 0) :
    sigDigits (List.replicate z 0 ++ sd) = sd := by
  unfold sigDigits
  induction z with
  | zero =>
    cases sd with
    | nil => rfl
    | cons d sd =>
      have : d ≠ 0 := by simpa using h
      simp [this]
  | succ z ih =>
    rw [List.replicate_succ, List.cons_append, List.dropWhile_cons_of_pos (by simp), ih]

theorem head_of_pre {s : List (BitVec 8)} {n pos ds r p} (h : scan s n pos = some (ds, r, p))
    (h0 : s.head? ≠ some 48#8) (hd : s.head? ≠ some 46#8) : ds.head? ≠ some 0 := by
  cases s with
  | nil =>
    rw [scan_nil] at h
    simp only [Option.some.injEq, Prod.mk.injEq] at h
    rw [← h.1]; simp
  | cons c t =>
    rw [scan] at h
    split_ifs at h with h1 h2 h3 h4
    · simp only [Option.some.injEq, Prod.mk.injEq] at h
      rw [← h.1]; simp
    · cases hs : scan t (n - 1) pos with
      | none => rw [hs] at h; cases h
      | some q =>
        rw [hs] at h
        simp only [Option.map_some, Option.some.injEq, Prod.mk.injEq] at h
        rw [← h.1]
        have := ((isDig_iff c).mp h2).1
        simp only [List.head?_cons, ne_eq, Option.some.injEq]
        intro hc
        apply h0
        rw [List.head?_cons]
        congr 1
        apply BitVec.eq_of_toNat_eq
        show c.toNat = 48
        omega
    · subst h3
      exact absurd rfl hd
    · simp only [Option.some.injEq, Prod.mk.injEq] at h
      rw [← h.1]; simp

/-- **What the parser returns for a string behind its sign**, in terms of reading it character by
character: `ds` are the digits of the mantissa, `rest` is what follows, `pos` the position of the
radix point. -/
theorem parseUnsigned_spec (sign : ℕ) (t : List (BitVec 8)) (ht : t ≠ []) :
    (scan t (t.length + 1) none = none → parseUnsigned sign { bytes := t } = some .invalid) ∧
    (∀ ds rest pos, scan t (t.length + 1) none = some (ds, rest, pos) →
      (rest = t → parseUnsigned sign { bytes := t } = some (parseSpecial { bytes := t } sign)) ∧
      (rest ≠ t → rest = [] → (∀ d ∈ ds, d = 0) → parseUnsigned sign { bytes := t } =
        some (.number { sign := 0, exponent := 0, significand := U256.new 0 0,
                        signifTruncated := false })) ∧
      (rest ≠ t → ¬ (rest = [] ∧ ∀ d ∈ ds, d = 0) →
        ((∀ neg xs, ¬ ExpForm rest neg xs) ∧ parseUnsigned sign { bytes := t } = some .invalid) ∨
        (∃ (neg : Bool) (xs : List (BitVec 8)) (w : U256) (tz : ℕ), ExpForm rest neg xs ∧
          nat256 w * 10 ^ tz = decVal ((sigDigits ds).take 77) ∧
          (nat256 w = 0 ∨ nat256 w % 10 ≠ 0) ∧ parseUnsigned sign { bytes := t } = some (.number {
            sign := sign
            exponent := wrapI32 (expVal neg xs + ((sigDigits ds).drop 77).length -
              fracLen rest pos + tz)
            significand := w
            signifTruncated := decide (∃ d ∈ (sigDigits ds).drop 77, d ≠ 0) })))) := by
  obtain ⟨z, l, hl, hscan, hn0, hstate, hinv, hninv, hlen, hposlt⟩ :=
    skipLeadingZeroes_spec { bytes := t } rfl rfl
  unfold parseUnsigned
  dsimp only
  rw [hl]
  have hlen' : l.bytes.length ≤ t.length := hlen
  -- reading everything
  have hfull : scan t (t.length + 1) none = pre (List.replicate z 0)
      (scan l.bytes (77 + (t.length + 1)) l.state.posRadixPoint) := by
    have := hscan (77 + t.length)
    dsimp only at this
    rw [← show 77 + (t.length + 1) = 77 + t.length + 1 by omega] at this
    rw [← this]
    exact scan_large t (by omega) (by omega) none
  have htr : l.state.signifTruncated = false := by rw [hstate]
  cases hb : l.bytes with
  | nil =>
    rw [if_pos (by simp)]
    rw [hb, scan_nil, pre_some, List.append_nil] at hfull
    refine ⟨fun h => ?_, ?_⟩
    · rw [hfull] at h; cases h
    · intro ds rest pos h
      rw [hfull] at h
      simp only [Option.some.injEq, Prod.mk.injEq] at h
      obtain ⟨rfl, rfl, -⟩ := h
      refine ⟨fun h => absurd h.symm ht, fun _ _ _ => rfl, fun _ h => ?_⟩
      exact absurd ⟨rfl, fun d hd => List.eq_of_mem_replicate hd⟩ h
  | cons c0 t0 =>
    rw [if_neg (by simp)]
    rcases readSignificand_spec l htr (t.length + 1) (by omega) with
      ⟨ps, l', hr, hi, hnone⟩ | ⟨ps, l', ds, mid, pm, ts, hr, hH, h8, hs77, hst, hfin⟩
    · rw [hr]
      dsimp only
      rw [if_pos hi]
      rw [hnone, pre_none] at hfull
      exact ⟨fun _ => rfl, fun ds rest pos h => by rw [hfull] at h; cases h⟩
    · rw [hr]
      dsimp only
      rw [scan_add l.bytes, hs77] at hfull
      simp only [Option.bind_some, hst, pre_some] at hfull
      cases hival : l.state.invalid with
      | true =>
        have := hinv hival 76
        rw [hs77] at this
        cases this
      | false =>
        rw [if_neg (by rw [hfin]; simp [hival])]
        refine ⟨fun h => (by rw [hfull] at h; cases h), ?_⟩
        intro es rest pos h
        rw [hfull] at h
        simp only [Option.some.injEq, Prod.mk.injEq] at h
        obtain ⟨rfl, rfl, rfl⟩ := h
        -- sizes
        have hk := scan_len hs77
        have hpos1 := scan_pos hs77
        have hpos2 := scan_pos hst
        have hstop : ds.length < 77 → ts = [] ∧ l'.bytes = mid ∧ l'.state.posRadixPoint = pm := by
          intro h7
          have := scan_rest hs77 h7
          rw [scan_stop this] at hst
          simp only [Option.some.injEq, Prod.mk.injEq] at hst
          exact ⟨hst.1.symm, hst.2.1.symm, hst.2.2.symm⟩
        have hhead : (ds ++ ts).head? ≠ some 0 := by
          have h2 : scan l.bytes (77 + (t.length + 1)) l.state.posRadixPoint =
              some (ds ++ ts, l'.bytes, l'.state.posRadixPoint) := by
            rw [scan_add, hs77]
            simp only [Option.bind_some, hst, pre_some]
          exact head_of_pre h2 hn0 (hninv hival)
        have hsd : sigDigits (List.replicate z 0 ++ (ds ++ ts)) = ds ++ ts :=
          dropWhile_zeroes hhead
        have htake : (ds ++ ts).take 77 = ds := by
          by_cases h7 : ds.length < 77
          · rw [(hstop h7).1, List.append_nil, List.take_of_length_le (by omega)]
          · rw [List.take_append_of_le_length (by omega), List.take_of_length_le (by omega)]
        have hdrop : (ds ++ ts).drop 77 = ts := by
          by_cases h7 : ds.length < 77
          · rw [(hstop h7).1, List.append_nil, List.drop_eq_nil_of_le (by omega)]
          · rw [List.drop_append_of_le_length (by omega), List.drop_eq_nil_of_le (by omega)]
            rfl
        have heq : Lit.len { bytes := t } = l'.len ↔ l'.bytes = t := by
          obtain ⟨u, hu⟩ := scan_suffix hfull
          constructor
          · intro h
            have := congrArg List.length hu
            rw [List.length_append] at this
            have hu0 : u = [] := List.length_eq_zero_iff.mp (by rw [Lit.len, Lit.len] at h; dsimp only at h; omega)
            rw [hu0, List.nil_append] at hu
            exact hu.symm
          · intro h
            rw [Lit.len, Lit.len, h]
        refine ⟨?_, ?_, ?_⟩
        · intro hrest
          have := heq.mpr hrest
          rw [if_pos this]
          simp only [parseSpecial, hrest]
        · intro hrest hnil hzero
          exfalso
          -- then there would be no digits after the leading zeroes
          have hz : ds ++ ts = [] := by
            cases hds : ds ++ ts with
            | nil => rfl
            | cons d r =>
              rw [hds] at hhead
              have := hzero d (by rw [hds]; simp)
              rw [this] at hhead
              exact absurd rfl hhead
          rw [List.append_eq_nil_iff] at hz
          obtain ⟨rfl, rfl⟩ := hz
          have hdot := hninv hival
          rw [hb] at hdot
          -- the first character is consumed but it is neither digit nor dot
          have hform := scan_form hs77
          rw [hb] at hform
          rw [hb] at hn0
          have hmid := (hstop (by simp)).2.1
          rw [hnil] at hmid
          rw [← hmid] at hform
          rcases hform with ⟨-, a, ha, -, h3⟩ | ⟨-, a, b, ha, -, -, h3, -⟩
          · have : a = [] := List.map_eq_nil_iff.mp h3.symm
            rw [this] at ha
            cases ha
          · have : a ++ b = [] := List.map_eq_nil_iff.mp h3.symm
            rw [List.append_eq_nil_iff] at this
            rw [this.1, this.2] at ha
            simp only [List.nil_append, List.append_nil, List.cons.injEq] at ha
            rw [ha.1] at hdot
            exact absurd rfl hdot
        · intro hrest _
          rw [if_neg (fun h => hrest (heq.mp h)), hsd, htake, hdrop]
          have := finishNumber_spec sign ps l' ds ts hH h8 (scan_lt hs77) hk.1 ?_
          · rcases this with h | ⟨neg, xs, w, tz, g1, g2, g3, g4⟩
            · exact Or.inl h
            · refine Or.inr ⟨neg, xs, w, tz, g1, g2, g3, ?_⟩
              rw [g4, hfin]
          · have hs1 : l'.state.startPosSignif = l.bytes.length := by rw [hfin]
            have hs2 : l'.state.endPosSignif = mid.length := by rw [hfin]
            rw [hs1, hs2]
            unfold fracLen Lit.len
            by_cases h7 : ds.length < 77
            · obtain ⟨q1, q2, q3⟩ := hstop h7
              rw [q1, q2, q3]
              simp only [List.length_nil]
              rcases hpos1 with ⟨p1, p2⟩ | ⟨p1, q, p2, p3, p4, p5⟩
              · cases hlp : l.state.posRadixPoint with
                | none =>
                  rw [p1, hlp]
                  simp only [Option.getD_none]
                  omega
                | some p0 =>
                  have := hposlt p0 hlp
                  rw [p1, hlp]
                  simp only [Option.getD_some]
                  omega
              · rw [p2]
                simp only [Option.getD_some]
                omega
            · rcases hpos1 with ⟨p1, p2⟩ | ⟨p1, q, p2, p3, p4, p5⟩
              · cases hlp : l.state.posRadixPoint with
                | none =>
                  rw [hlp] at p1
                  rcases hpos2 with ⟨r1, r2⟩ | ⟨r1, q, r2, r3, r4, r5⟩
                  · rw [r1, p1]
                    simp only [Option.getD_none]
                    omega
                  · rw [r2]
                    simp only [Option.getD_some]
                    omega
                | some p0 =>
                  have := hposlt p0 hlp
                  rw [hlp] at p1
                  rcases hpos2 with ⟨r1, r2⟩ | ⟨r1, -⟩
                  · rw [r1, p1]
                    simp only [Option.getD_some]
                    omega
                  · rw [r1] at p1; cases p1
              · rcases hpos2 with ⟨r1, r2⟩ | ⟨r1, -⟩
                · rw [r1, p2]
                  simp only [Option.getD_some]
                  omega
                · rw [r1] at p2; cases p2

end Verif
