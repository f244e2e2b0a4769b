import Verif.Props.Parse
import Verif.Proofs.SlowExact

/-!
# The literal as high precision decimal (`parse_decimal`)
-/

namespace Verif

open Spec Props

theorem decDigits_scan : ∀ (s : List (BitVec 8)) (n : ℕ) (pos : Option ℕ) (ds : List ℕ)
    (r : List (BitVec 8)) (p : Option ℕ), scan s n pos = some (ds, r, p) → s.length < n →
    decDigits s pos = (ds, p, r) := by
  intro s
  induction s with
  | nil =>
    intro n pos ds r p h _
    rw [scan_nil] at h
    simp only [Option.some.injEq, Prod.mk.injEq] at h
    obtain ⟨rfl, rfl, rfl⟩ := h
    rfl
  | cons c t ih =>
    intro n pos ds r p h hn
    rw [List.length_cons] at hn
    rw [scan] at h
    rw [decDigits]
    split_ifs at h with h1 h2 h3 h4
    · omega
    · rw [if_pos h2]
      cases hs : scan t (n - 1) pos with
      | none => rw [hs] at h; cases h
      | some q =>
        obtain ⟨ds', r', p'⟩ := q
        rw [hs] at h
        simp only [Option.map_some, Option.some.injEq, Prod.mk.injEq] at h
        obtain ⟨rfl, rfl, rfl⟩ := h
        rw [ih _ _ _ _ _ hs (by omega)]
        simp only [dig_val ((isDig_iff c).mp h2)]
    · rw [if_neg h2, if_pos h3]
      exact ih _ _ _ _ _ h (by omega)
    · rw [if_neg h2, if_neg h3]
      simp only [Option.some.injEq, Prod.mk.injEq] at h
      obtain ⟨rfl, rfl, rfl⟩ := h
      rfl

theorem ExpForm.unique {x neg neg' ds ds'} (h : ExpForm x neg ds) (h' : ExpForm x neg' ds') :
    neg = neg' ∧ ds = ds' := by
  have key : ∀ {c : BitVec 8} {u v : List (BitVec 8)}, (∀ c ∈ v, IsDigit c.toNat) → ¬ IsDigit c.toNat →
      v ≠ c :: u := by
    rintro c u v hv hc rfl
    exact hc (hv c List.mem_cons_self)
  have h43 : ¬ IsDigit (43#8).toNat := by decide
  have h45 : ¬ IsDigit (45#8).toNat := by decide
  rcases h with ⟨rfl, rfl, rfl⟩ | ⟨c, sg, rfl, -, hd, hs⟩
  · rcases h' with ⟨-, rfl, rfl⟩ | ⟨c, sg, hx, -⟩
    · exact ⟨rfl, rfl⟩
    · cases hx
  · rcases h' with ⟨hx, -⟩ | ⟨c', sg', hx, -, hd', hs'⟩
    · cases hx
    · obtain ⟨-, hx⟩ := List.cons.inj hx
      rcases hs with ⟨rfl, rfl, -⟩ | ⟨rfl, rfl⟩ | ⟨rfl, rfl⟩ <;>
      rcases hs' with ⟨rfl, rfl, -⟩ | ⟨rfl, rfl⟩ | ⟨rfl, rfl⟩ <;>
      simp only [List.nil_append, List.cons_append, List.cons.injEq] at hx <;>
      first
        | exact ⟨rfl, hx⟩
        | exact ⟨rfl, hx.2⟩
        | exact absurd hx (key hd h43)
        | exact absurd hx (key hd h45)
        | exact absurd hx.symm (key hd' h43)
        | exact absurd hx.symm (key hd' h45)
        | exact absurd hx.1 (by decide)

theorem getSign_eq {sg t : List (BitVec 8)} {sign : ℕ}
    (h : (sg = [] ∧ sign = 0 ∧ t.head? ≠ some 45#8 ∧ t.head? ≠ some 43#8) ∨
      (sg = [43#8] ∧ sign = 0) ∨ (sg = [45#8] ∧ sign = 1)) :
    Lit.getSign { bytes := sg ++ t } = (sign, { bytes := t }) := by
  unfold Lit.getSign Lit.first
  rcases h with ⟨rfl, rfl, h1, h2⟩ | ⟨rfl, rfl⟩ | ⟨rfl, rfl⟩
  · cases t with
    | nil => rfl
    | cons c t =>
      simp only [List.head?_cons, ne_eq, Option.some.injEq] at h1 h2
      simp [h1, h2]
  · rfl
  · rfl

theorem sigDigits_zeroes (ds : List ℕ) : ∃ z, ds = List.replicate z 0 ++ sigDigits ds ∧
    (sigDigits ds).head? ≠ some 0 := by
  unfold sigDigits
  induction ds with
  | nil => exact ⟨0, by simp⟩
  | cons d ds ih =>
    rw [List.dropWhile_cons]
    split_ifs with h
    · obtain ⟨z, h1, h2⟩ := ih
      have : d = 0 := by simpa using h
      subst this
      refine ⟨z + 1, ?_, h2⟩
      rw [List.replicate_succ, List.cons_append, ← h1]
    · exact ⟨0, by simp, by simpa using h⟩

theorem decVal_replicate (z : ℕ) : decVal (List.replicate z 0) = 0 := by
  unfold decVal
  induction z with
  | zero => rfl
  | succ z ih => rw [List.replicate_succ, List.foldl_cons]; exact ih

theorem decVal_sigDigits (ds : List ℕ) : decVal (sigDigits ds) = decVal ds := by
  obtain ⟨z, h, -⟩ := sigDigits_zeroes ds
  conv_rhs => rw [h, decVal_append, decVal_replicate, Nat.zero_mul, Nat.zero_add]

theorem sigDigits_mem {ds : List ℕ} {d : ℕ} (h : d ∈ sigDigits ds) : d ∈ ds :=
  (List.dropWhile_sublist _).mem h

/-- No leading zero -/
theorem sigDigits_lead {ds : List ℕ} (h : decVal ds ≠ 0) :
    10 ^ (sigDigits ds).length ≤ 10 * decVal (sigDigits ds) := by
  obtain ⟨-, -, h0⟩ := sigDigits_zeroes ds
  have hv := decVal_sigDigits ds
  cases hs : sigDigits ds with
  | nil => rw [hs] at hv; exact absurd hv.symm h
  | cons d es =>
    rw [hs] at h0
    have hd : d ≠ 0 := by simpa using h0
    rw [show d :: es = [d] ++ es from rfl, decVal_append, List.length_append, List.length_singleton,
      Nat.add_comm 1, pow_succ, show decVal [d] = d by simp [decVal]]
    have : 10 ^ es.length ≤ d * 10 ^ es.length := Nat.le_mul_of_pos_left _ (by omega)
    omega

/-- What `parse_decimal` returns for a literal -/
theorem parseDecimal_spec {sg t a b x dot neg xs} {sign : ℕ} (h : Body t a b x dot neg xs)
    (hsg : (sg = [] ∧ sign = 0 ∧ t.head? ≠ some 45#8 ∧ t.head? ≠ some 43#8) ∨
      (sg = [43#8] ∧ sign = 0) ∨ (sg = [45#8] ∧ sign = 1)) :
    ∃ d, parseDecimal (sg ++ t) = some d ∧ d.sign = sign ∧
      d.buf = (sigDigits (digs (a ++ b))).take MAX_DIGITS ∧
      d.nDigits = Decimal.trim d.buf (min (sigDigits (digs (a ++ b))).length MAX_DIGITS) ∧
      d.dp = wrapI32 ((sigDigits (digs (a ++ b))).length - b.length + expVal neg xs) := by
  obtain ⟨z, l, hl, hscan, hn0, hstate, hinv, hninv, hlen, hposlt⟩ :=
    skipLeadingZeroes_spec { bytes := t } rfl rfl
  have hlen' : l.bytes.length ≤ t.length := hlen
  obtain ⟨hs, -, -⟩ := h.scan
  have hfull : scan t (t.length + 1) none = pre (List.replicate z 0)
      (scan l.bytes (t.length + 1) l.state.posRadixPoint) := by
    have := hscan t.length
    dsimp only at this
    rw [← this]
    exact scan_large t (by omega) (by omega) none
  rw [hs] at hfull
  cases hsl : scan l.bytes (t.length + 1) l.state.posRadixPoint with
  | none => rw [hsl, pre_none] at hfull; cases hfull
  | some q =>
    obtain ⟨ds, r, p⟩ := q
    rw [hsl, pre_some] at hfull
    simp only [Option.some.injEq, Prod.mk.injEq] at hfull
    obtain ⟨hds, rfl, hp⟩ := hfull
    have hival : l.state.invalid = false := by
      cases hi : l.state.invalid with
      | false => rfl
      | true =>
        have := hinv hi t.length
        rw [hsl] at this
        cases this
    have hhead := head_of_pre hsl hn0 (hninv hival)
    have hsd : sigDigits (digs (a ++ b)) = ds := by rw [hds]; exact dropWhile_zeroes hhead
    rw [hsd]
    have hdec := decDigits_scan _ _ _ _ _ _ hsl (by omega)
    have hpos := scan_pos hsl
    -- the exponent
    have hex : ∀ l' : Lit, l'.bytes = x → ∃ l'', l'.parseExponent = some (expVal neg xs, l'') := by
      intro l' hl'
      obtain ⟨e1, e2⟩ := parseExponent_spec l'
      rw [hl'] at e1 e2
      obtain ⟨e, l'', g1, g2⟩ := e2 _ _ h.hexp
      obtain ⟨neg', ds', g3, g4⟩ := (e1 _ _ g1).2 g2
      obtain ⟨rfl, rfl⟩ := ExpForm.unique h.hexp g3
      exact ⟨l'', by rw [g1, g4]⟩
    obtain ⟨l'', hpe⟩ := hex { l with bytes := x } rfl
    unfold parseDecimal
    rw [getSign_eq hsg]
    dsimp only
    rw [hl, hdec]
    dsimp only
    rw [hpe]
    dsimp only
    refine ⟨_, rfl, rfl, rfl, rfl, ?_⟩
    dsimp only
    cases hd : dot with
    | false =>
      rw [hd] at hp
      simp only [Bool.false_eq_true, if_false] at hp
      subst hp
      rw [h.hdot hd]
      rcases hpos with ⟨p1, p2⟩ | ⟨-, q, p1, -⟩
      · dsimp only
        rw [wrap_sub, wrap_sub', wrap_add', Lit.len]
        congr 1
        simp only [List.length_nil]
        omega
      · cases p1
    | true =>
      rw [hd] at hp
      simp only [if_true] at hp
      subst hp
      dsimp only
      rw [wrap_sub, wrap_sub', wrap_add', Lit.len]
      congr 1
      rcases hpos with ⟨p1, p2⟩ | ⟨-, q, p1, p2, p3, p4⟩
      · have := hposlt _ p1.symm
        rw [if_neg (by omega)]
        push_cast
        omega
      · simp only [Option.some.injEq] at p1
        subst p1
        split_ifs with hlt
        · push_cast
          omega
        · exfalso
          rcases scan_form hsl with ⟨q1, -⟩ | ⟨-, a', b', q1, -, -, -, q2⟩
          · have := hposlt _ q1.symm
            omega
          · simp only [Option.some.injEq] at q2
            have q3 := congrArg List.length q1
            simp only [List.length_append, List.length_cons] at q3
            have : a' = [] := List.length_eq_zero_iff.mp (by omega)
            subst this
            refine hninv hival ?_
            rw [q1]; rfl

end Verif
