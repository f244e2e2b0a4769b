import Verif.Model.ToStr
import Verif.Props.FromStr

/-!
# Proofs about formatting, part 6: the text denotes the decimal number
-/

namespace Verif

open BigUInt LawfulBigUInt Spec

/-- `s` consists of digits, at least one, and denotes `n` -/
structure TextOf (s : List (BitVec 8)) (n : ℕ) : Prop where
  ne : s ≠ []
  digit : ∀ c ∈ s, IsDigit c.toNat
  val : decVal (digs s) = n

theorem digit_code {d : ℕ} (h : d < 10) : (BitVec.ofNat 8 (48 + d)).toNat = 48 + d := by
  rw [BitVec.toNat_ofNat, Nat.mod_eq_of_lt (by omega)]

theorem natTextFuel_spec (fuel : ℕ) : ∀ n, n < fuel → TextOf (natTextFuel fuel n) n ∧
    ∀ k, 0 < k → n < 10 ^ k → (natTextFuel fuel n).length ≤ k := by
  induction fuel with
  | zero => intro n h; omega
  | succ fuel ih =>
    intro n h
    rw [natTextFuel]
    by_cases h10 : n < 10
    · rw [if_pos h10]
      refine ⟨⟨by simp, ?_, ?_⟩, fun k hk _ => by rw [List.length_singleton]; omega⟩
      · intro c hc
        rw [List.mem_singleton] at hc
        subst hc
        rw [digit_code h10]
        exact ⟨by omega, by omega⟩
      · rw [digs, List.map_singleton, digit_code h10, decVal_single]
        omega
    · rw [if_neg h10]
      obtain ⟨g, gl⟩ := ih (n / 10) (by omega)
      have hd : n % 10 < 10 := Nat.mod_lt _ (by norm_num)
      refine ⟨⟨by simp, ?_, ?_⟩, ?_⟩
      · intro c hc
        rw [List.mem_append, List.mem_singleton] at hc
        rcases hc with hc | rfl
        · exact g.digit c hc
        · rw [digit_code hd]
          exact ⟨by omega, by omega⟩
      · rw [digs_append, show digs [BitVec.ofNat 8 (48 + n % 10)] = [n % 10] by
          rw [digs, List.map_singleton, digit_code hd]; simp, decVal_concat, g.val]
        omega
      · intro k hk hn
        obtain ⟨k, rfl⟩ : ∃ j, k = j + 1 := ⟨k - 1, by omega⟩
        rw [List.length_append, List.length_singleton]
        have hn' : n / 10 < 10 ^ k := by rw [pow_succ] at hn; omega
        rcases Nat.eq_zero_or_pos k with rfl | hk'
        · rw [pow_zero] at hn'; omega
        · have := gl k hk' hn'
          omega

theorem natText_spec (n : ℕ) : TextOf (natText n) n := (natTextFuel_spec (n + 1) n (by omega)).1

theorem natText_length {n k : ℕ} (hk : 0 < k) (h : n < 10 ^ k) : (natText n).length ≤ k :=
  (natTextFuel_spec (n + 1) n (by omega)).2 k hk h

theorem natTextPad_spec {w n : ℕ} (hw : 0 < w) (h : n < 10 ^ w) :
    TextOf (natTextPad w n) n ∧ (natTextPad w n).length = w := by
  have g := natText_spec n
  have gl := natText_length hw h
  unfold natTextPad
  refine ⟨⟨by simp [g.ne], ?_, ?_⟩, ?_⟩
  · intro c hc
    rw [List.mem_append] at hc
    rcases hc with hc | hc
    · exact zero_digits _ c hc
    · exact g.digit c hc
  · rw [digs_append, digs_zeroes, decVal_append, decVal_replicate, g.val]
    omega
  · rw [List.length_append, List.length_replicate]
    omega

theorem pads_spec (l : List U128) : ∀ pre n, TextOf pre n → (∀ r ∈ l, r.toNat < 10 ^ 38) →
    TextOf (pre ++ (l.map fun (r : U128) => natTextPad 38 r.toNat).flatten) (l.foldl (fun a r => a * 10 ^ 38 + r.toNat) n) ∧
    (pre ++ (l.map fun (r : U128) => natTextPad 38 r.toNat).flatten).length = pre.length + 38 * l.length := by
  induction l with
  | nil => intro pre n h _; simpa using h
  | cons r l ih =>
    intro pre n h hl
    obtain ⟨g, gl⟩ := natTextPad_spec (w := 38) (by norm_num) (hl r (by simp))
    have := ih (pre ++ natTextPad 38 r.toNat) (n * 10 ^ 38 + r.toNat) ⟨by simp [h.ne], ?_, ?_⟩ (fun r hr => hl r (by simp [hr]))
    · rw [List.map_cons, List.flatten_cons, ← List.append_assoc, List.foldl_cons]
      refine ⟨this.1, ?_⟩
      rw [this.2, List.length_append, gl, List.length_cons]
      ring
    · intro c hc
      rw [List.mem_append] at hc
      rcases hc with hc | hc
      · exact h.digit c hc
      · exact g.digit c hc
    · rw [digs_append, decVal_append, h.val, g.val, digs_length, gl]

theorem segments_spec (fuel : ℕ) : ∀ x : U256, nat256 x < 10 ^ (38 * fuel) → ∃ rs, segments (fuel + 1) x = some rs ∧
    (∀ r ∈ rs, r.toNat < 10 ^ 38) ∧ rs.foldr (fun r a => a * 10 ^ 38 + r.toNat) 0 = nat256 x ∧ rs.length ≤ fuel ∧
    (nat256 x ≠ 0 → rs ≠ []) := by
  induction fuel with
  | zero =>
    intro x h
    have h0 : nat256 x = 0 := by rw [Nat.mul_zero, pow_zero] at h; omega
    refine ⟨[], ?_, by simp, by simp [h0], by simp, fun h => absurd h0 h⟩
    rw [segments, isZero256, decide_eq_true h0, if_pos rfl]
  | succ fuel ih =>
    intro x h
    by_cases h0 : nat256 x = 0
    · refine ⟨[], ?_, by simp, by simp [h0], by simp, fun h => absurd h0 h⟩
      rw [segments, isZero256, decide_eq_true h0, if_pos rfl]
    · have hc : (BitVec.ofNat 128 (10 ^ 38)).toNat = 10 ^ 38 := by
        rw [BitVec.toNat_ofNat, Nat.mod_eq_of_lt (by norm_num)]
      obtain ⟨q, r, a', b', c'⟩ : ∃ (q : U256) (r : U128), UInt.divRemU128 x (BitVec.ofNat 128 (10 ^ 38)) = some (q, r) ∧
          nat256 q = nat256 x / (BitVec.ofNat 128 (10 ^ 38)).toNat ∧ r.toNat = nat256 x % (BitVec.ofNat 128 (10 ^ 38)).toNat :=
        Wide.divRemU128_spec (n := 0) x (BitVec.ofNat 128 (10 ^ 38)) (by rw [hc]; norm_num)
      rw [hc] at b' c'
      obtain ⟨rs, g1, g2, g3, g4, g5⟩ := ih q (by
        rw [b', Nat.div_lt_iff_lt_mul (by norm_num), ← pow_add]
        exact h)
      refine ⟨r :: rs, ?_, ?_, ?_, ?_, by simp⟩
      · rw [segments, isZero256, decide_eq_false h0, if_neg (by simp), a', Option.bind_eq_bind, Option.bind_some]
        dsimp only
        rw [g1]
        rfl
      · intro s hs
        rw [List.mem_cons] at hs
        rcases hs with rfl | hs
        · rw [c']; exact Nat.mod_lt _ (by norm_num)
        · exact g2 s hs
      · rw [List.foldr_cons, g3, b', c', Nat.mul_comm]
        exact Nat.div_add_mod _ _
      · rw [List.length_cons]; omega

/-- The digits of a significand -/
theorem u256Text_spec (x : U256) : ∃ s, u256Text x = some s ∧ TextOf s (nat256 x) ∧ s.length ≤ 114 := by
  unfold u256Text
  by_cases hz : BigUInt.isZero x.hi = true
  · rw [if_pos hz]
    have hz' : x.hi.toNat = 0 := by
      rw [show BigUInt.isZero x.hi = decide (x.hi.toNat = 0) from LawfulBigUInt.isZero_eq (α := U128) _] at hz
      exact of_decide_eq_true hz
    have hx : nat256 x = x.lo.toNat := by
      rw [show nat256 x = x.hi.toNat * 2 ^ 128 + x.lo.toNat from rfl, hz', Nat.zero_mul, Nat.zero_add]
    refine ⟨_, rfl, by rw [hx]; exact natText_spec _, ?_⟩
    exact natText_length (by norm_num) (lt_trans x.lo.isLt (by norm_num))
  · rw [if_neg hz]
    have hz' : x.hi.toNat ≠ 0 := by
      rw [show BigUInt.isZero x.hi = decide (x.hi.toNat = 0) from LawfulBigUInt.isZero_eq (α := U128) _] at hz
      exact fun h => hz (decide_eq_true h)
    have hx : nat256 x ≠ 0 := by
      rw [show nat256 x = x.hi.toNat * 2 ^ 128 + x.lo.toNat from rfl]
      omega
    obtain ⟨rs, g1, g2, g3, g4, g5⟩ := segments_spec 3 x (lt_trans (nat256_lt x) (by norm_num))
    rw [g1, Option.bind_eq_bind, Option.bind_some]
    have hr := g5 hx
    rw [← List.foldl_reverse] at g3
    have g2' : ∀ r ∈ rs.reverse, r.toNat < 10 ^ 38 := fun r h => g2 r (List.mem_reverse.mp h)
    have g4' : rs.reverse.length ≤ 3 := by rw [List.length_reverse]; exact g4
    have hr' : rs.reverse ≠ [] := by simpa using hr
    generalize rs.reverse = l at *
    cases l with
    | nil => exact absurd rfl hr'
    | cons r l =>
      obtain ⟨h1, h2⟩ := pads_spec l (natText r.toNat) r.toNat (natText_spec _) (fun s hs => g2' s (by simp [hs]))
      refine ⟨_, rfl, ?_, ?_⟩
      · rw [List.foldl_cons, Nat.zero_mul, Nat.zero_add] at g3
        rw [g3] at h1
        exact h1
      · rw [h2]
        have := natText_length (n := r.toNat) (k := 38) (by norm_num) (g2' r (by simp))
        rw [List.length_cons] at g4'
        omega

/-! ## The literals -/

open Props (codes codes_append codes_cons codes_length codes_nil_iff digits_codes)

/-- The literal with these parts -/
def mkLit (neg : Bool) (a b : List (BitVec 8)) (exp : Option (ℕ × List ℕ × List ℕ)) : DecLit :=
  { sign := if neg then [45] else [], ip := codes a, dot := !b.isEmpty, fp := codes b, exp }

theorem mkLit_proper {neg : Bool} {a b : List (BitVec 8)} {exp : Option (ℕ × List ℕ × List ℕ)} (ha : a ≠ [])
    (hda : ∀ c ∈ a, IsDigit c.toNat) (hdb : ∀ c ∈ b, IsDigit c.toNat)
    (he : ∀ c sg ds, exp = some (c, sg, ds) → (c = 101 ∨ c = 69) ∧ IsSign sg ∧ Digits ds ∧ ds ≠ []) :
    (mkLit neg a b exp).Proper := by
  refine ⟨⟨?_, digits_codes.mpr hda, digits_codes.mpr hdb, ?_, ?_⟩, ?_, ?_⟩
  · unfold mkLit IsSign
    cases neg <;> simp
  · intro h
    unfold mkLit at h ⊢
    dsimp only at h ⊢
    cases b with
    | nil => rfl
    | cons c b => simp at h
  · intro c sg ds h
    obtain ⟨h1, h2, h3, -⟩ := he c sg ds h
    exact ⟨h1, h2, h3⟩
  · left
    exact fun h => ha (codes_nil_iff.mp h)
  · intro c sg ds h
    exact (he c sg ds h).2.2.2

theorem mkLit_neg (neg : Bool) (a b : List (BitVec 8)) (exp : Option (ℕ × List ℕ × List ℕ)) :
    (mkLit neg a b exp).neg = neg := by
  unfold mkLit DecLit.neg
  cases neg <;> simp

theorem mkLit_text (neg : Bool) (a b : List (BitVec 8)) (exp : Option (ℕ × List ℕ × List ℕ)) (x : List (BitVec 8))
    (hx : codes x = DecLit.expText exp) :
    (mkLit neg a b exp).text = codes ((if neg then [45#8] else []) ++ (a ++ (if b = [] then [] else 46#8 :: b) ++ x)) := by
  unfold mkLit DecLit.text
  rw [codes_append, codes_append, codes_append, hx]
  congr 1
  · cases neg <;> rfl
  · congr 2
    cases b with
    | nil => rfl
    | cons c b => rfl

theorem pad_none {parts : List Part} (h : 0 < partsLen parts) (neg : Bool) :
    padParts parts neg {} = (if neg then [45#8] else []) ++ writeParts parts := by
  unfold padParts
  dsimp only
  rw [if_neg]
  · cases neg <;> rfl
  · simp only [Option.getD_none]
    omega

/-- What is known of a text -/
structure IsText (s : List (BitVec 8)) (L : DecLit) (d : DecRepr) : Prop where
  text : L.text = codes s
  proper : L.Proper
  neg : L.neg = (d.sign == 1)
  val : L.absVal = (nat256 d.signif10 : ℝ) * 10 ^ d.exp10
  wrap : L.expo.natAbs + L.ip.length + L.fp.length ≤ 342 + d.exp10.natAbs
  sign : L.sign = if d.sign == 1 then [45] else []

theorem display_text (d : DecRepr) : ∃ s L, d.fmt {} = some s ∧ IsText s L d := by
  obtain ⟨ds, h1, h2, h3⟩ := u256Text_spec d.signif10
  have key : ∀ (parts : List Part) (a b : List (BitVec 8)), d.displayParts = some parts → 0 < partsLen parts →
      writeParts parts = a ++ (if b = [] then [] else 46#8 :: b) → a ≠ [] → (∀ c ∈ a, IsDigit c.toNat) →
      (∀ c ∈ b, IsDigit c.toNat) → (decVal (digs (a ++ b)) : ℝ) * 10 ^ (-(b.length : ℤ)) = (nat256 d.signif10 : ℝ) * 10 ^ d.exp10 →
      a.length + b.length ≤ 228 + d.exp10.natAbs → ∃ s L, d.fmt {} = some s ∧ IsText s L d := by
    intro parts a b e1 e2 e3 e4 e5 e6 e7 e8
    refine ⟨_, mkLit (d.sign == 1) a b none, by rw [DecRepr.fmt, e1]; rfl, ?_, mkLit_proper e4 e5 e6 (by simp), mkLit_neg _ _ _ _, ?_, ?_, rfl⟩
    · rw [mkLit_text _ a b none [] rfl, pad_none e2, e3, List.append_nil]
    · rw [← e7, DecLit.absVal]
      rw [show (mkLit (d.sign == 1) a b none).ip = codes a from rfl, show (mkLit (d.sign == 1) a b none).fp = codes b from rfl,
        show (mkLit (d.sign == 1) a b none).expo = 0 from rfl, ← codes_append, strVal_codes, codes_length, zero_sub]
    · rw [show (mkLit (d.sign == 1) a b none).ip = codes a from rfl, show (mkLit (d.sign == 1) a b none).fp = codes b from rfl,
        show (mkLit (d.sign == 1) a b none).expo = 0 from rfl, codes_length, codes_length]
      simp only [Int.natAbs_zero]
      omega
  have hpos : 0 < ds.length := List.length_pos_iff.mpr h2.ne
  have code : ∀ parts, parts = (let nDigits := ds.length
      let nIntDigits := (max 0 ((nDigits : Int) + d.exp10)).toNat
      let nFracDigits := (max 0 (-d.exp10)).toNat
      let int : List Part :=
        if nIntDigits > nDigits then [Part.digits ds, Part.zeroes (nIntDigits - nDigits)]
        else if nIntDigits > 0 then [Part.digits (ds.take nIntDigits)]
        else [Part.char 48#8]
      let frac : List Part :=
        if nFracDigits > 0 then
          if nFracDigits > nDigits then [Part.char 46#8, Part.zeroes (nFracDigits - nDigits), Part.digits ds]
          else [Part.char 46#8, Part.digits (ds.drop nIntDigits)]
        else []
      int ++ frac) → d.displayParts = some parts := by
    rintro parts rfl
    rw [DecRepr.displayParts, h1]
    rfl
  dsimp only at code
  rcases lt_trichotomy d.exp10 0 with hj | hj | hj
  · obtain ⟨m, hm⟩ : ∃ m : ℕ, d.exp10 = -(m : ℤ) := ⟨(-d.exp10).toNat, by omega⟩
    have hm0 : 0 < m := by omega
    have e1 : (max 0 (-d.exp10)).toNat = m := by omega
    rw [e1, if_pos hm0] at code
    rcases Nat.lt_or_ge m ds.length with hlt | hge
    · have e2 : (max 0 ((ds.length : ℤ) + d.exp10)).toNat = ds.length - m := by omega
      rw [e2, if_neg (by omega), if_pos (by omega), if_neg (by omega)] at code
      have hb : (ds.drop (ds.length - m)).length = m := by rw [List.length_drop]; omega
      have ha : (ds.take (ds.length - m)).length = ds.length - m := by rw [List.length_take]; omega
      refine key _ (ds.take (ds.length - m)) (ds.drop (ds.length - m)) (code _ rfl) ?_ ?_ ?_ ?_ ?_ ?_ ?_
      · simp [partsLen, Part.len]
      · rw [if_neg (fun h => by rw [h] at hb; simp at hb; omega)]
        simp [writeParts, Part.write]
      · intro h
        rw [h] at ha
        simp at ha
        omega
      · exact fun c hc => h2.digit c (List.mem_of_mem_take hc)
      · exact fun c hc => h2.digit c (List.mem_of_mem_drop hc)
      · rw [List.take_append_drop, h2.val, hb, hm]
      · rw [ha, hb]; omega
    · have e2 : (max 0 ((ds.length : ℤ) + d.exp10)).toNat = 0 := by omega
      rw [e2, if_neg (by omega), if_neg (by omega)] at code
      have hparts : d.displayParts = some (if m > ds.length then [Part.char 48#8, Part.char 46#8, Part.zeroes (m - ds.length), Part.digits ds]
          else [Part.char 48#8, Part.char 46#8, Part.digits ds]) := by
        rw [code _ rfl]
        split <;> rfl
      refine key _ [48#8] (List.replicate (m - ds.length) 48#8 ++ ds) hparts ?_ ?_ (by simp) ?_ ?_ ?_ ?_
      · split <;> simp [partsLen, Part.len]
      · have hb : List.replicate (m - ds.length) 48#8 ++ ds ≠ [] := by simp [h2.ne]
        rw [if_neg hb]
        split
        · simp [writeParts, Part.write]
        · rw [show m - ds.length = 0 by omega]
          simp [writeParts, Part.write]
      · intro c hc
        rw [List.mem_singleton] at hc
        subst hc
        decide
      · intro c hc
        rw [List.mem_append] at hc
        rcases hc with hc | hc
        · exact zero_digits _ c hc
        · exact h2.digit c hc
      · rw [← List.append_assoc, show [48#8] ++ List.replicate (m - ds.length) 48#8 = List.replicate (m - ds.length + 1) 48#8 by
          rw [List.replicate_succ]; rfl, digs_append, digs_zeroes, decVal_append, decVal_replicate, h2.val, hm]
        rw [Nat.zero_mul, Nat.zero_add, List.length_append, List.length_replicate, Nat.sub_add_cancel hge]
      · rw [List.length_append, List.length_replicate, List.length_singleton]
        omega
  · have e1 : (max 0 (-d.exp10)).toNat = 0 := by omega
    have e2 : (max 0 ((ds.length : ℤ) + d.exp10)).toNat = ds.length := by omega
    rw [e1, e2, if_neg (by omega), if_pos (by omega), if_neg (by omega), List.take_length] at code
    refine key _ ds [] (code _ rfl) ?_ ?_ h2.ne h2.digit (by simp) ?_ ?_
    · simpa [partsLen, Part.len] using hpos
    · simp [writeParts, Part.write]
    · rw [List.append_nil, h2.val, hj]; simp
    · simp; omega
  · obtain ⟨m, hm⟩ : ∃ m : ℕ, d.exp10 = (m : ℤ) := ⟨d.exp10.toNat, by omega⟩
    have e1 : (max 0 (-d.exp10)).toNat = 0 := by omega
    have e2 : (max 0 ((ds.length : ℤ) + d.exp10)).toNat = ds.length + m := by omega
    rw [e1, e2, if_pos (by omega), if_neg (by omega), Nat.add_sub_cancel_left] at code
    refine key _ (ds ++ List.replicate m 48#8) [] (code _ rfl) ?_ ?_ ?_ ?_ (by simp) ?_ ?_
    · simp [partsLen, Part.len]; omega
    · simp [writeParts, Part.write]
    · simp [h2.ne]
    · intro c hc
      rw [List.mem_append] at hc
      rcases hc with hc | hc
      · exact h2.digit c hc
      · exact zero_digits _ c hc
    · rw [List.append_nil, digs_append, digs_zeroes, decVal_append, decVal_replicate, h2.val, hm, List.length_replicate]
      push_cast
      simp
    · rw [List.length_append, List.length_replicate]
      simp
      omega

/-- `e` or `E` -/
theorem scientific_text (d : DecRepr) {m : BitVec 8} (hm : m = 101#8 ∨ m = 69#8) : ∃ s L, d.fmtScientific m {} = some s ∧ IsText s L d := by
  obtain ⟨ds, h1, h2, h3⟩ := u256Text_spec d.signif10
  have hpos : 0 < ds.length := List.length_pos_iff.mpr h2.ne
  obtain ⟨c, t, rfl⟩ : ∃ c t, ds = c :: t := by
    cases ds with
    | nil => exact absurd rfl h2.ne
    | cons c t => exact ⟨c, t, rfl⟩
  generalize hE : d.exp10 + ((c :: t).length : ℕ) - 1 = E
  have hE' : E = d.exp10 + t.length := by
    rw [← hE, List.length_cons]; push_cast; ring
  have hEt := natText_spec E.natAbs
  have code : d.scientificParts m = some ([Part.digits [c]] ++ (if (c :: t).length > 1 then [Part.char 46#8, Part.digits t] else []) ++
      [Part.char m, Part.digits (intText E)]) := by
    rw [DecRepr.scientificParts, h1, ← hE]
    rfl
  have hw : writeParts ([Part.digits [c]] ++ (if (c :: t).length > 1 then [Part.char 46#8, Part.digits t] else []) ++
      [Part.char m, Part.digits (intText E)]) = [c] ++ (if t = [] then [] else 46#8 :: t) ++ (m :: intText E) := by
    cases t with
    | nil => simp [writeParts, Part.write]
    | cons e t => simp [writeParts, Part.write]
  have hl : 0 < partsLen ([Part.digits [c]] ++ (if (c :: t).length > 1 then [Part.char 46#8, Part.digits t] else []) ++
      [Part.char m, Part.digits (intText E)]) := by
    simp [partsLen, Part.len]
  have hmc : m.toNat = 101 ∨ m.toNat = 69 := by
    rcases hm with rfl | rfl
    · exact Or.inl rfl
    · exact Or.inr rfl
  generalize hL : mkLit (d.sign == 1) [c] t (some (m.toNat, if E < 0 then [45] else [], codes (natText E.natAbs))) = L
  have hexpo : L.expo = E := by
    rw [← hL]
    unfold mkLit DecLit.expo
    dsimp only
    rw [strVal_codes, hEt.val]
    by_cases h0 : E < 0
    · rw [if_pos h0, if_pos rfl]; omega
    · rw [if_neg h0, if_neg (by simp)]; omega
  refine ⟨_, L, by rw [DecRepr.fmtScientific, code]; rfl, ?_, ?_, ?_, ?_, ?_, by rw [← hL]; rfl⟩
  · rw [← hL, mkLit_text _ [c] t _ (m :: intText E) ?_, pad_none hl, hw]
    rw [codes_cons]
    unfold DecLit.expText intText
    dsimp only
    by_cases h0 : E < 0
    · rw [if_pos h0, if_pos h0]; rfl
    · rw [if_neg h0, if_neg h0]; rfl
  · rw [← hL]
    refine mkLit_proper (by simp) ?_ ?_ ?_
    · exact fun x hx => h2.digit x (by rw [List.mem_singleton] at hx; subst hx; simp)
    · exact fun x hx => h2.digit x (by simp [hx])
    · intro c sg ds he
      rw [Option.some_inj, Prod.mk.injEq, Prod.mk.injEq] at he
      obtain ⟨rfl, rfl, rfl⟩ := he
      refine ⟨hmc, ?_, digits_codes.mpr hEt.digit, fun h => hEt.ne (codes_nil_iff.mp h)⟩
      unfold IsSign
      split <;> simp
  · rw [← hL]; exact mkLit_neg _ _ _ _
  · rw [DecLit.absVal, hexpo, ← hL, show (mkLit (d.sign == 1) [c] t (some (m.toNat, if E < 0 then [45] else [], codes (natText E.natAbs)))).ip = codes [c] from rfl,
      show (mkLit (d.sign == 1) [c] t (some (m.toNat, if E < 0 then [45] else [], codes (natText E.natAbs)))).fp = codes t from rfl,
      ← codes_append, strVal_codes, codes_length, show [c] ++ t = c :: t from rfl, h2.val, hE', add_sub_cancel_right]
  · rw [hexpo, ← hL, show (mkLit (d.sign == 1) [c] t (some (m.toNat, if E < 0 then [45] else [], codes (natText E.natAbs)))).ip = codes [c] from rfl,
      show (mkLit (d.sign == 1) [c] t (some (m.toNat, if E < 0 then [45] else [], codes (natText E.natAbs)))).fp = codes t from rfl,
      codes_length, codes_length, hE', List.length_singleton]
    rw [List.length_cons] at h3
    omega

end Verif
