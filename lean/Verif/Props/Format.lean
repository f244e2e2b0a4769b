import Verif.Model.Format
import Verif.Props.ToStr
import Verif.Proofs.ToStrExact

/-!
# Width, fill, alignment, `+` and `0` (C66)
-/

namespace Verif.Props

open Verif.Spec

/-! ## Specification -/

/-- `n` times the character `c` -/
def times (n : ℕ) (c : List (BitVec 8)) : List (BitVec 8) := (List.replicate n c).flatten

/-- `out` consists of `sign` and `body`, padded to `o.width` characters (at least): with the zero flag by zeros between the
two, without by the fill character in front, behind, or evenly on both sides, in front by default. -/
def Padded (o : FormatOptions) (sign body out : List (BitVec 8)) : Prop :=
  ∃ a z b : ℕ, out = times a o.fill ++ sign ++ times z [48#8] ++ body ++ times b o.fill ∧
    a + z + b = o.width.getD 0 - (sign.length + body.length) ∧
    (o.zeroPad = true → a = 0 ∧ b = 0) ∧
    (o.zeroPad = false → z = 0 ∧ (o.align = some .left → a = 0) ∧ (o.align = some .center → b = a ∨ b = a + 1) ∧
      (o.align = some .right ∨ o.align = none → b = 0))

/-- The sign of a number, without and with `+` -/
def signText (N : ℕ) (plus : Bool) : List (BitVec 8) :=
  if signBit N = 1 then [45#8] else if plus then [43#8] else []

/-- What padding makes of a plain text: the same number of panics, and otherwise sign and absolute value are the same,
with padding. -/
def PaddedOf (N : ℕ) (o : FormatOptions) (plain out : Option (List (BitVec 8))) : Prop :=
  plain = none ∧ out = none ∨
    ∃ body s, plain = some (signText N false ++ body) ∧ out = some s ∧ Padded o (signText N o.signPlus) body s

/-! ## Proofs -/

theorem signPos (f : F256) : f.isSignPositive = !decide (signBit f.pat = 1) := by
  have h1 := (C18_sign_predicates f).1
  have hsb : signBit f.pat = 0 ∨ signBit f.pat = 1 := by
    have := pat_lt f
    unfold signBit
    omega
  rcases hsb with h | h
  · rw [h1.mpr h, h]; rfl
  · have : f.isSignPositive = false := by
      rw [Bool.eq_false_iff]; intro hc; have := h1.mp hc; omega
    rw [this, h]; rfl

theorem times_zero (c : List (BitVec 8)) : times 0 c = [] := rfl

theorem times_single (n : ℕ) : times n [48#8] = List.replicate n 48#8 := by
  unfold times
  induction n with
  | zero => rfl
  | succ n ih => rw [List.replicate_succ, List.flatten_cons, ih]; rfl

theorem padded_id {o : FormatOptions} {sign body : List (BitVec 8)} (h : o.width.getD 0 ≤ sign.length + body.length) :
    Padded o sign body (sign ++ body) :=
  ⟨0, 0, 0, by simp [times_zero], by omega, fun _ => ⟨rfl, rfl⟩, fun _ => ⟨rfl, fun _ => rfl, fun _ => Or.inl rfl, fun _ => rfl⟩⟩

theorem signText_eq {N : ℕ} {pos : Bool} (h : pos = !decide (signBit N = 1)) (plus : Bool) :
    (if pos = true then (if plus then [43#8] else []) else [45#8]) = signText N plus := by
  unfold signText
  rw [h]
  by_cases h : signBit N = 1
  · rw [if_pos h, if_neg (by simp [h])]
  · rw [if_neg h, if_pos (by simp [h])]

theorem padIntegral_padded {N : ℕ} {pos : Bool} (h : pos = !decide (signBit N = 1)) (body : List (BitVec 8)) (o : FormatOptions) :
    Padded o (signText N o.signPlus) body (padIntegral pos body o) := by
  unfold padIntegral
  dsimp only
  rw [signText_eq h]
  generalize signText N o.signPlus = sg
  cases hw : o.width with
  | none => exact padded_id (by rw [hw]; exact Nat.zero_le _)
  | some m =>
    dsimp only
    by_cases h1 : body.length + sg.length ≥ m
    · rw [if_pos h1]
      exact padded_id (by rw [hw]; simp only [Option.getD_some]; omega)
    · rw [if_neg h1]
      have hn : o.width.getD 0 - (sg.length + body.length) = m - (body.length + sg.length) := by
        rw [hw]; simp only [Option.getD_some]; omega
      cases hz : o.zeroPad with
      | true =>
        rw [if_pos rfl]
        exact ⟨0, m - (body.length + sg.length), 0, by simp [times_zero, times_single], by rw [hn]; omega,
          fun _ => ⟨rfl, rfl⟩, fun h => by rw [hz] at h; exact absurd h (by decide)⟩
      | false =>
        rw [if_neg (by decide)]
        rcases ha : o.align with _ | (_ | _ | _)
        · exact ⟨m - (body.length + sg.length), 0, 0, by simp [times], by rw [hn]; omega,
            fun h => by rw [hz] at h; exact absurd h (by decide), fun _ => ⟨rfl, by simp [ha], by simp [ha], by simp⟩⟩
        · exact ⟨0, 0, m - (body.length + sg.length), by simp [times], by rw [hn]; omega,
            fun h => by rw [hz] at h; exact absurd h (by decide), fun _ => ⟨rfl, by simp, by simp [ha], by simp [ha]⟩⟩
        · exact ⟨m - (body.length + sg.length), 0, 0, by simp [times], by rw [hn]; omega,
            fun h => by rw [hz] at h; exact absurd h (by decide), fun _ => ⟨rfl, by simp [ha], by simp [ha], by simp⟩⟩
        · exact ⟨(m - (body.length + sg.length)) / 2, 0, (m - (body.length + sg.length) + 1) / 2, by simp [times],
            by rw [hn]; omega, fun h => by rw [hz] at h; exact absurd h (by decide),
            fun _ => ⟨rfl, by simp [ha], fun _ => by omega, by simp [ha]⟩⟩

theorem partsLen_write (parts : List Part) (h : ∀ p ∈ parts, ∀ n c, p ≠ Part.padding n c) :
    (writeParts parts).length = partsLen parts := by
  unfold writeParts partsLen
  induction parts with
  | nil => rfl
  | cons p ps ih =>
    rw [List.map_cons, List.flatten_cons, List.length_append, ih (fun q hq => h q (List.mem_cons_of_mem _ hq)), List.map_cons,
      List.sum_cons]
    congr 1
    cases p with
    | char c => rfl
    | digits s => rfl
    | zeroes n => exact List.length_replicate
    | padding n c => exact absurd rfl (h _ (List.mem_cons_self ..) n c)

theorem padParts_padded (N : ℕ) (parts : List Part) (h : ∀ p ∈ parts, ∀ n c, p ≠ Part.padding n c) (hpos : 0 < partsLen parts)
    (o : FormatOptions) : Padded o (signText N o.signPlus) (writeParts parts) (padParts parts (decide (signBit N = 1)) o) := by
  have hs : (if decide (signBit N = 1) = true then [45#8] else if o.signPlus = true then [43#8] else []) = signText N o.signPlus := by
    unfold signText
    by_cases h : signBit N = 1 <;> simp [h]
  unfold padParts
  dsimp only
  rw [hs, ← partsLen_write parts h]
  rw [← partsLen_write parts h] at hpos
  generalize signText N o.signPlus = sg
  generalize writeParts parts = body at *
  by_cases h1 : body.length + sg.length < o.width.getD 1
  · rw [if_pos h1]
    obtain ⟨m, hw⟩ : ∃ m, o.width = some m := by
      cases hw : o.width with
      | none => rw [hw] at h1; simp only [Option.getD_none] at h1; omega
      | some m => exact ⟨m, rfl⟩
    have hm : o.width.getD 1 = m := by rw [hw]; rfl
    rw [hm] at h1 ⊢
    have hn : o.width.getD 0 - (sg.length + body.length) = m - (body.length + sg.length) := by
      rw [hw]; simp only [Option.getD_some]; omega
    cases hz : o.zeroPad with
    | true =>
      rw [if_pos rfl]
      exact ⟨0, m - (body.length + sg.length), 0, by simp [times, Part.write], by rw [hn]; omega,
        fun _ => ⟨rfl, rfl⟩, fun h => by rw [hz] at h; exact absurd h (by decide)⟩
    | false =>
      rw [if_neg (by decide)]
      rcases ha : o.align with _ | (_ | _ | _)
      · exact ⟨m - (body.length + sg.length), 0, 0, by simp [times, Part.write], by rw [hn]; omega,
          fun h => by rw [hz] at h; exact absurd h (by decide), fun _ => ⟨rfl, by simp [ha], by simp [ha], by simp⟩⟩
      · exact ⟨0, 0, m - (body.length + sg.length), by simp [times, Part.write], by rw [hn]; omega,
          fun h => by rw [hz] at h; exact absurd h (by decide), fun _ => ⟨rfl, by simp, by simp [ha], by simp [ha]⟩⟩
      · exact ⟨m - (body.length + sg.length), 0, 0, by simp [times, Part.write], by rw [hn]; omega,
          fun h => by rw [hz] at h; exact absurd h (by decide), fun _ => ⟨rfl, by simp [ha], by simp [ha], by simp⟩⟩
      · exact ⟨(m - (body.length + sg.length)) / 2, 0, m - (body.length + sg.length) - (m - (body.length + sg.length)) / 2,
          by simp [times, Part.write], by rw [hn]; omega, fun h => by rw [hz] at h; exact absurd h (by decide),
          fun _ => ⟨rfl, by simp [ha], fun _ => by omega, by simp [ha]⟩⟩
  · rw [if_neg h1]
    refine padded_id ?_
    cases hw : o.width with
    | none => exact Nat.zero_le _
    | some m => rw [hw] at h1; simp only [Option.getD_some] at h1 ⊢; omega

theorem padIntegral_plain {N : ℕ} {pos : Bool} (h : pos = !decide (signBit N = 1)) (body : List (BitVec 8)) :
    padIntegral pos body {} = signText N false ++ body := by
  rw [← signText_eq h]
  rfl

theorem padParts_plain (N : ℕ) {parts : List Part} (hpos : 0 < partsLen parts) :
    padParts parts (decide (signBit N = 1)) {} = signText N false ++ writeParts parts := by
  rw [pad_none hpos]
  unfold signText
  by_cases h : signBit N = 1 <;> simp [h]

theorem integral_paddedOf (f : F256) (o : FormatOptions) (body : List (BitVec 8)) :
    PaddedOf f.pat o (some (padIntegral f.isSignPositive body {})) (some (padIntegral f.isSignPositive body o)) :=
  Or.inr ⟨body, _, by rw [padIntegral_plain (signPos f)], rfl, padIntegral_padded (signPos f) body o⟩

theorem parts_paddedOf (N : ℕ) (o : FormatOptions) {parts : List Part} (h : ∀ p ∈ parts, ∀ n c, p ≠ Part.padding n c)
    (hpos : 0 < partsLen parts) :
    PaddedOf N o (some (padParts parts (decide (signBit N = 1)) {})) (some (padParts parts (decide (signBit N = 1)) o)) :=
  Or.inr ⟨writeParts parts, _, by rw [padParts_plain N hpos], rfl, padParts_padded N parts h hpos o⟩

theorem displayParts_ok {d : DecRepr} {parts : List Part} (h : d.displayParts = some parts) :
    (∀ p ∈ parts, ∀ n c, p ≠ Part.padding n c) ∧ 0 < partsLen parts := by
  obtain ⟨ds, h1, h2, h3⟩ := u256Text_spec d.signif10
  have hpos : 0 < ds.length := List.length_pos_iff.mpr h2.ne
  unfold DecRepr.displayParts at h
  rw [h1, Option.bind_eq_bind, Option.bind_some] at h
  dsimp only at h
  generalize (max 0 ((ds.length : Int) + d.exp10)).toNat = ni at h
  generalize (max 0 (-d.exp10)).toNat = nf at h
  have h' := Option.some_inj.mp h
  rw [← h']
  constructor
  · intro p hp n c
    split_ifs at hp <;> simp at hp <;> rcases hp with hp | hp | hp | hp | hp <;> simp_all
  · unfold partsLen
    split_ifs <;> simp [Part.len] <;> omega

theorem scientificParts_ok {d : DecRepr} {m : BitVec 8} {parts : List Part} (h : d.scientificParts m = some parts) :
    (∀ p ∈ parts, ∀ n c, p ≠ Part.padding n c) ∧ 0 < partsLen parts := by
  obtain ⟨ds, h1, h2, h3⟩ := u256Text_spec d.signif10
  unfold DecRepr.scientificParts at h
  rw [h1, Option.bind_eq_bind, Option.bind_some] at h
  dsimp only at h
  have h' := Option.some_inj.mp h
  rw [← h']
  constructor
  · intro p hp n c
    split_ifs at hp <;> simp at hp <;> rcases hp with hp | hp | hp | hp | hp <;> simp_all
  · unfold partsLen
    split_ifs <;> simp [Part.len]

theorem shortest_sign {f : F256} {d : DecRepr} (hd : DecRepr.shortestFromF256 f = some d) : d.sign = f.sign := by
  unfold DecRepr.shortestFromF256 at hd
  cases hb : shortestFromBinRepr f.integralSignificand f.quantumExponent with
  | none => rw [hb] at hd; exact absurd hd (by simp)
  | some p =>
    rw [hb, Option.bind_eq_bind, Option.bind_some] at hd
    rw [← Option.some_inj.mp hd]

theorem shortest_paddedOf (f : F256) (o : FormatOptions) : PaddedOf f.pat o (f.formatShortest {}) (f.formatShortest o) := by
  unfold F256.formatShortest
  cases hd : DecRepr.shortestFromF256 f with
  | none => exact Or.inl ⟨rfl, rfl⟩
  | some d =>
    have hsg : d.sign = f.sign := shortest_sign hd
    rw [Option.bind_eq_bind, Option.bind_some, Option.bind_some]
    unfold DecRepr.fmt
    cases hp : d.displayParts with
    | none => exact Or.inl ⟨rfl, rfl⟩
    | some parts =>
      rw [Option.bind_eq_bind, Option.bind_some, Option.bind_some, hsg, sign_beq]
      exact parts_paddedOf _ _ (displayParts_ok hp).1 (displayParts_ok hp).2

theorem scientificShortest_paddedOf (f : F256) (m : BitVec 8) (o : FormatOptions) :
    PaddedOf f.pat o (f.formatScientificShortest m {}) (f.formatScientificShortest m o) := by
  unfold F256.formatScientificShortest
  cases hd : DecRepr.shortestFromF256 f with
  | none => exact Or.inl ⟨rfl, rfl⟩
  | some d =>
    have hsg : d.sign = f.sign := shortest_sign hd
    rw [Option.bind_eq_bind, Option.bind_some, Option.bind_some]
    unfold DecRepr.fmtScientific
    cases hp : d.scientificParts m with
    | none => exact Or.inl ⟨rfl, rfl⟩
    | some parts =>
      rw [Option.bind_eq_bind, Option.bind_some, Option.bind_some, hsg, sign_beq]
      exact parts_paddedOf _ _ (scientificParts_ok hp).1 (scientificParts_ok hp).2

theorem exact_paddedOf (f : F256) (p : ℕ) (o : FormatOptions) : PaddedOf f.pat o (f.formatExactWith p {}) (f.formatExactWith p o) := by
  unfold F256.formatExactWith
  by_cases hp : p ≤ 75
  · rw [if_pos hp, if_pos hp]
    cases F256.bin2DecFixedPoint (F256.abs f) p with
    | none => exact Or.inl ⟨rfl, rfl⟩
    | some s => exact integral_paddedOf f o _
  · rw [if_neg hp, if_neg hp]
    exact Or.inl ⟨rfl, rfl⟩

/-! ## The plain texts are those of the other properties -/

theorem displayWith_plain (f : F256) : f.displayWith none {} = f.display := by
  unfold F256.displayWith F256.display F256.formatSpecial
  by_cases h : f.isSpecial = true
  · rw [if_pos h, if_pos h]
    split_ifs <;> simp_all [padIntegral, formatNan]
  · rw [if_neg h, if_neg h]

theorem displayWith_prec (f : F256) (p : ℕ) : f.displayWith (some p) {} = f.displayPrec p := by
  unfold F256.displayWith F256.displayPrec F256.formatSpecial F256.formatExactWith F256.formatExact
  by_cases h : f.isSpecial = true
  · rw [if_pos h, if_pos h]
    split_ifs <;> simp_all [padIntegral, formatNan]
  · rw [if_neg h, if_neg h]
    dsimp only
    by_cases hp : p ≤ 75
    · rw [if_pos hp, if_pos hp]
      cases F256.bin2DecFixedPoint (F256.abs f) p with
      | none => rfl
      | some s =>
        simp only [Option.bind_eq_bind, Option.bind_some, padIntegral]
        rfl
    · rw [if_neg hp, if_neg hp]

theorem scientificWith_plain (f : F256) (m : BitVec 8) : f.scientificWith m {} = f.scientific m := by
  unfold F256.scientificWith F256.scientific
  by_cases h : f.isSpecial = true
  · rw [if_pos h, if_pos h]
    split_ifs <;> simp_all [padIntegral, formatNan]
  · rw [if_neg h, if_neg h]

/-! ## The property -/

theorem isNan_false {f : F256} (h : ¬IsNaN f.pat) : f.isNan = false := by
  rw [Bool.eq_false_iff]
  intro hc
  exact h ((nan_spec f).mp hc)

/-- `{}` with or without precision: the options add nothing but the padding asked for.

Missing: NaNs, which are padded with spaces whatever the fill character (`C66_nan`, `C66_counterexample_fill`). -/
theorem C66_display_partial {f : F256} (h : ¬IsNaN f.pat) (prec : Option ℕ) (o : FormatOptions) :
    PaddedOf f.pat o (f.displayWith prec {}) (f.displayWith prec o) := by
  unfold F256.displayWith F256.formatSpecial
  by_cases hs : f.isSpecial = true
  · rw [if_pos hs, if_pos hs, isNan_false h]
    by_cases hz : f.eqZero = true
    · rw [if_pos hz, if_pos hz]
      exact integral_paddedOf f o _
    · rw [if_neg hz, if_neg hz, if_neg (by decide), if_neg (by decide)]
      exact integral_paddedOf f o _
  · rw [if_neg hs, if_neg hs]
    cases prec with
    | none => exact shortest_paddedOf f o
    | some p => exact exact_paddedOf f p o

/-- `{:e}` and `{:E}` without precision. Missing: as for `C66_display_partial`. With precision see
`C66_exp_prec_partial` -/
theorem C66_exp_partial {f : F256} (h : ¬IsNaN f.pat) (m : BitVec 8) (o : FormatOptions) :
    PaddedOf f.pat o (f.scientificWith m {}) (f.scientificWith m o) := by
  unfold F256.scientificWith
  by_cases hs : f.isSpecial = true
  · rw [if_pos hs, if_pos hs, isNan_false h]
    by_cases hz : f.eqZero = true
    · rw [if_pos hz, if_pos hz]
      exact integral_paddedOf f o _
    · rw [if_neg hz, if_neg hz, if_neg (by decide), if_neg (by decide)]
      exact integral_paddedOf f o _
  · rw [if_neg hs, if_neg hs]
    exact scientificShortest_paddedOf f m o

/-- NaNs: the padding consists of spaces, the flags `+` and `0` have no effect. -/
theorem C66_nan {f : F256} (h : IsNaN f.pat) (prec : Option ℕ) (m : BitVec 8) (o : FormatOptions) :
    ∃ s, f.displayWith prec o = some s ∧ f.scientificWith m o = some s ∧
      Padded { o with fill := [32#8], zeroPad := false } [] [78#8, 97#8, 78#8] s := by
  have hn := (nan_spec f).mpr h
  have hs : f.isSpecial = true := by
    rw [isSpecial_iff]
    have := pat_lt f
    unfold IsNaN expField fracField at h
    unfold INF
    omega
  have hz : f.eqZero = false := by
    rw [Bool.eq_false_iff, Ne, eqZero_iff]
    unfold IsNaN expField at h
    omega
  refine ⟨formatNan o, ?_, ?_, ?_⟩
  · unfold F256.displayWith F256.formatSpecial
    rw [if_pos hs, hz, if_neg (by decide), if_pos hn]
  · unfold F256.scientificWith
    rw [if_pos hs, hz, if_neg (by decide), if_pos hn]
  · unfold formatNan
    dsimp only
    have hr : ∀ n, List.replicate n 32#8 = times n [32#8] := by
      intro n
      unfold times
      induction n with
      | zero => rfl
      | succ n ih => rw [List.replicate_succ, List.replicate_succ, List.flatten_cons, ih]; rfl
    cases hw : o.width with
    | none => exact padded_id (by simp)
    | some w =>
      rcases ha : o.align with _ | (_ | _ | _)
      · exact ⟨w - 3, 0, 0, by simp [hr, times_zero], by simp, by simp, by simp⟩
      · exact ⟨0, 0, w - 3, by simp [hr, times_zero], by simp, by simp, by simp⟩
      · exact ⟨w - 3, 0, 0, by simp [hr, times_zero], by simp, by simp, by simp⟩
      · refine ⟨(w - 3) / 2, 0, (w - 3 + 1) / 2, by simp [hr, times_zero], ?_, by simp, ?_⟩
        · simp only [Option.getD_some, List.length_nil, List.length_cons]
          omega
        · simp only [true_and, forall_const]
          refine ⟨by simp, by omega, by simp⟩

/-- The zero flag and the flag `+` do not change what is denoted: if the plain text is a decimal literal, the padded text
is one, with the same sign and value. -/
theorem C66_value {N : ℕ} {o : FormatOptions} {body out : List (BitVec 8)} (hP : Padded o (signText N o.signPlus) body out)
    {L : DecLit} (hL : L.Proper) (ht : L.text = codes (signText N false ++ body))
    (hs : L.sign = codes (signText N false)) (h0 : o.zeroPad = true ∨ o.width = none) :
    ∃ L' : DecLit, L'.Proper ∧ L'.text = codes out ∧ L'.neg = L.neg ∧ L'.absVal = L.absVal := by
  obtain ⟨a, z, b, rfl, h1, h2, h3⟩ := hP
  obtain ⟨rfl, rfl⟩ : a = 0 ∧ b = 0 := by
    rcases h0 with h0 | h0
    · exact h2 h0
    · rw [h0] at h1
      simp only [Option.getD_none] at h1
      omega
  rw [codes_append, DecLit.text, hs] at ht
  have hb := List.append_cancel_left ht
  refine ⟨{ L with sign := codes (signText N o.signPlus), ip := codes (times z [48#8]) ++ L.ip }, ?_, ?_, ?_, ?_⟩
  · refine ⟨⟨?_, ?_, hL.fp, hL.dot, hL.exp⟩, ?_, hL.expDigits⟩
    · unfold signText IsSign
      split_ifs <;> simp [codes]
    · intro c hc
      rcases List.mem_append.mp hc with hc | hc
      · rw [times_single] at hc
        unfold codes at hc
        rw [List.map_replicate] at hc
        rw [List.eq_of_mem_replicate hc]
        decide
      · exact hL.ip c hc
    · rcases hL.mant with h | h
      · exact Or.inl (by simp [h])
      · exact Or.inr h
  · unfold DecLit.text
    dsimp only
    rw [times_zero, List.nil_append, List.append_nil, codes_append, codes_append, ← hb]
    simp only [List.append_assoc]
  · unfold DecLit.neg
    dsimp only
    rw [hs]
    unfold signText
    split_ifs <;> simp [codes]
  · unfold DecLit.absVal
    dsimp only
    rw [List.append_assoc]
    have : strVal (codes (times z [48#8]) ++ (L.ip ++ L.fp)) = strVal (L.ip ++ L.fp) := by
      rw [times_single]
      unfold strVal codes
      rw [List.map_replicate, List.map_append, List.map_replicate, decVal_append]
      rw [show ((48#8).toNat - 48) = 0 from rfl, decVal_replicate, zero_mul, zero_add]
    rw [this]
    rfl

/-- `{}` with the flags `0` and `+` and a width: the text denotes a number whose correctly rounded conversion is `f`.

Missing: the numbers which are not `Printable` (see C44); infinities with the zero flag are no longer readable
(`C66_counterexample_inf`). -/
theorem C66_display_value_partial {f : F256} (h : Printable f.pat) {o : FormatOptions} (h0 : o.zeroPad = true ∨ o.width = none) :
    ∃ s L, f.displayWith none o = some s ∧ L.Proper ∧ L.text = codes s ∧ IsRNE (value L) f.pat := by
  obtain ⟨d, h1, h2⟩ := readBack h.fin h.frac h.lower h.upper h.mid
  obtain ⟨s, L, h3, h4⟩ := display_text d
  obtain ⟨h5, -⟩ := h2 s L h4
  have hpl : f.displayWith none {} = some s := by
    unfold F256.displayWith F256.formatShortest
    rw [h.notSpecial, if_neg (by simp), h1]
    exact h3
  have hnn : ¬IsNaN f.pat := fun hc => by
    have := h.fin
    unfold IsFin at this
    unfold IsNaN at hc
    omega
  rcases C66_display_partial hnn none o with ⟨k, -⟩ | ⟨body, out, k1, k2, k3⟩
  · rw [hpl] at k; exact absurd k (by simp)
  · rw [hpl, Option.some_inj] at k1
    have hsg : d.sign = f.sign := shortest_sign h1
    have hs : L.sign = codes (signText f.pat false) := by
      rw [h4.sign, hsg, sign_beq]
      unfold signText
      by_cases hc : signBit f.pat = 1
      · rw [if_pos hc, if_pos (decide_eq_true hc)]; rfl
      · rw [if_neg hc, if_neg (by simp [hc])]; rfl
    obtain ⟨L', g1, g2, g3, g4⟩ := C66_value k3 h4.proper (by rw [← k1]; exact h4.text) hs h0
    refine ⟨out, L', k2, g1, g2, ?_⟩
    have : value L' = value L := by
      unfold value
      rw [g3, g4]
    rw [this]
    exact h5

/-! ## Where the property fails -/

/-- `{:*>5}` of a NaN gives two spaces and `NaN`. -/
theorem C66_counterexample_fill :
    F256.NAN.displayWith none { width := some 5, fill := [42#8], align := some .right } = some [32#8, 32#8, 78#8, 97#8, 78#8] := by
  decide +kernel

/-- `{:05}` of infinity gives `00inf`, which cannot be read. -/
theorem C66_counterexample_inf :
    F256.INFINITY.displayWith none { width := some 5, zeroPad := true } = some [48#8, 48#8, 105#8, 110#8, 102#8] ∧
      ∃ e, F256.fromStr [48#8, 48#8, 105#8, 110#8, 102#8] = some (.error e) := by
  refine ⟨by decide +kernel, ?_⟩
  exact ⟨_, rfl⟩

/-! ## Examples -/

/-- `{:+08}` of 0.1 -/
example : tenth.displayWith none { width := some 8, signPlus := true, zeroPad := true } =
    some [43#8, 48#8, 48#8, 48#8, 48#8, 48#8, 46#8, 49#8] := by decide +kernel
/-- `{:é^8}` of 0.1: two characters in front, three behind -/
example : tenth.displayWith none { width := some 8, fill := [0xc3#8, 0xa9#8], align := some .center } =
    some [0xc3#8, 0xa9#8, 0xc3#8, 0xa9#8, 48#8, 46#8, 49#8, 0xc3#8, 0xa9#8, 0xc3#8, 0xa9#8, 0xc3#8, 0xa9#8] := by decide +kernel
/-- `{:<8.2}` of -0.1 -/
example : tenth.negated.displayWith (some 2) { width := some 8, align := some .left } =
    some [45#8, 48#8, 46#8, 49#8, 48#8, 32#8, 32#8, 32#8] := by decide +kernel
/-- `{:8e}` of 0.1 -/
example : tenth.scientificWith 101#8 { width := some 8 } =
    some [32#8, 32#8, 32#8, 32#8, 49#8, 101#8, 45#8, 49#8] := by decide +kernel

end Verif.Props
