import Verif.Proofs.Parse3
import Verif.Spec.Literal

/-!
# Parsing: the accepted language (C41)

`FloatRepr.fromStr s = none` would be a panic. The specification is in `Spec/Literal.lean`; `codes s`
are the ASCII codes of the bytes of `s`.
-/

namespace Verif.Props

open Verif Verif.Spec

/-! ### From bytes to ASCII codes -/

theorem codes_append (a b : List (BitVec 8)) : codes (a ++ b) = codes a ++ codes b := by
  simp [codes]

theorem codes_cons (c : BitVec 8) (b : List (BitVec 8)) : codes (c :: b) = c.toNat :: codes b := rfl

theorem codes_length (a : List (BitVec 8)) : (codes a).length = a.length := by simp [codes]

theorem codes_nil_iff {a : List (BitVec 8)} : codes a = [] ↔ a = [] := by simp [codes]

theorem digits_codes {a : List (BitVec 8)} : Digits (codes a) ↔ ∀ c ∈ a, IsDigit c.toNat := by
  unfold Digits codes
  exact List.forall_mem_map

theorem strVal_codes (a : List (BitVec 8)) : strVal (codes a) = decVal (digs a) :=
  Verif.strVal_codes a

theorem codes_inj {a b : List (BitVec 8)} (h : codes a = codes b) : a = b :=
  List.map_injective_iff.mpr (fun _ _ h => BitVec.eq_of_toNat_eq h) h

theorem codes_singleton {a : List (BitVec 8)} {n : ℕ} (hn : n < 256) (h : codes a = [n]) :
    a = [BitVec.ofNat 8 n] := by
  apply codes_inj
  rw [h]
  simp [codes, Nat.mod_eq_of_lt hn]

/-- The mantissa and exponent part of a literal, as bytes -/
structure Body (t : List (BitVec 8)) (a b x : List (BitVec 8)) (dot : Bool) (neg : Bool)
    (xs : List (BitVec 8)) : Prop where
  eq : t = a ++ (if dot then 46#8 :: b else []) ++ x
  ha : ∀ c ∈ a, IsDigit c.toNat
  hb : ∀ c ∈ b, IsDigit c.toNat
  hdot : dot = false → b = []
  hexp : ExpForm x neg xs
  mant : a ≠ [] ∨ dot = true

theorem ExpForm.stop {x neg xs} (h : ExpForm x neg xs) : Stop x := by
  intro c hc
  rcases h with ⟨rfl, -⟩ | ⟨c', sg, rfl, h, -⟩
  · cases hc
  · simp only [List.head?_cons, Option.mem_def, Option.some.injEq] at hc
    subst hc
    rcases h with rfl | rfl <;> decide

theorem Body.scan {t a b x dot neg xs} (h : Body t a b x dot neg xs) :
    scan t (t.length + 1) none = some (digs (a ++ b), x,
      if dot then some (b.length + x.length + 1) else none) ∧ x ≠ t ∧ t ≠ [] := by
  have hstop := ExpForm.stop h.hexp
  have heq := h.eq
  have hlen := congrArg List.length heq
  rw [List.length_append, List.length_append] at hlen
  have hmant : a.length + (if dot = true then 46#8 :: b else ([] : List (BitVec 8))).length ≠ 0 := by
    rcases h.mant with ha | hd
    · have := List.length_pos_iff.mpr ha
      omega
    · rw [if_pos hd, List.length_cons]; omega
  refine ⟨?_, ?_, ?_⟩
  · cases dot with
    | false =>
      have hb := h.hdot rfl
      subst hb
      simp only [Bool.false_eq_true, if_false, List.append_nil] at heq ⊢
      subst heq
      rw [List.length_append, show a.length + x.length + 1 = a.length + (x.length + 1) by omega,
        scan_digits h.ha, scan_stop hstop, pre_some, List.append_nil]
    | true =>
      simp only [if_true] at heq ⊢
      subst heq
      rw [List.append_assoc, List.length_append, List.cons_append, List.length_cons, List.length_append,
        show a.length + (b.length + x.length + 1) + 1 = a.length + (b.length + (x.length + 1) + 1) by omega,
        scan_digits h.ha, scan_dot, show b.length + (x.length + 1) + 1 = b.length + (x.length + 2) by omega,
        scan_digits h.hb, scan_stop hstop, pre_pre, pre_some, List.append_nil, digs_append,
        List.length_append]
  · intro hx
    have := congrArg List.length hx
    omega
  · intro ht
    rw [ht, List.length_nil] at hlen
    omega

/-- What the parser returns for a literal (behind its sign) -/
theorem Body.parse {t a b x dot neg xs} (h : Body t a b x dot neg xs) (sign : ℕ) :
    (x = [] → (∀ d ∈ digs (a ++ b), d = 0) → parseUnsigned sign { bytes := t } =
        some (.number { sign := 0, exponent := 0, significand := U256.new 0 0,
                        signifTruncated := false })) ∧
    (¬ (x = [] ∧ ∀ d ∈ digs (a ++ b), d = 0) → ∃ (neg : Bool) (xs : List (BitVec 8)) (w : U256) (tz : ℕ),
        ExpForm x neg xs ∧ nat256 w * 10 ^ tz = decVal ((sigDigits (digs (a ++ b))).take 77) ∧
        (nat256 w = 0 ∨ nat256 w % 10 ≠ 0) ∧ parseUnsigned sign { bytes := t } = some (.number {
          sign := sign
          exponent := wrapI32 (expVal neg xs + ((sigDigits (digs (a ++ b))).drop 77).length -
            b.length + tz)
          significand := w
          signifTruncated := decide (∃ d ∈ (sigDigits (digs (a ++ b))).drop 77, d ≠ 0) })) := by
  obtain ⟨hs, hx, ht⟩ := h.scan
  obtain ⟨-, h2, h3⟩ := (parseUnsigned_spec sign t ht).2 _ _ _ hs
  refine ⟨h2 hx, fun hz => ?_⟩
  rcases h3 hx hz with ⟨hno, -⟩ | ⟨neg', xs', w, tz, g1, g2, g3, g4⟩
  · exact absurd h.hexp (hno _ _)
  · refine ⟨neg', xs', w, tz, g1, g2, g3, ?_⟩
    rw [g4]
    congr 4
    cases hd : dot with
    | false => rw [h.hdot hd]; simp [fracLen]
    | true => simp only [if_true, fracLen, Option.getD_some]; congr 2; omega

/-- Conversely, only literals give numbers. -/
theorem body_of_number {t : List (BitVec 8)} {sign : ℕ} {r : DecNumRepr} (ht : t ≠ [])
    (h : parseUnsigned sign { bytes := t } = some (.number r)) :
    ∃ a b x dot neg xs, Body t a b x dot neg xs := by
  obtain ⟨h1, h2⟩ := parseUnsigned_spec sign t ht
  cases hs : scan t (t.length + 1) none with
  | none => rw [h1 hs] at h; cases h
  | some q =>
    obtain ⟨ds, rest, pos⟩ := q
    obtain ⟨k1, k2, k3⟩ := h2 ds rest pos hs
    by_cases hrest : rest = t
    · rw [k1 hrest] at h
      unfold parseSpecial at h
      split_ifs at h <;> simp at h
    · have hexp : ∃ neg xs, ExpForm rest neg xs := by
        by_cases hz : rest = [] ∧ ∀ d ∈ ds, d = 0
        · exact ⟨false, [], Or.inl ⟨hz.1, rfl, rfl⟩⟩
        · rcases k3 hrest hz with ⟨-, hi⟩ | ⟨neg, xs, -, -, hx, -⟩
          · rw [hi] at h; simp at h
          · exact ⟨neg, xs, hx⟩
      obtain ⟨neg, xs, hx⟩ := hexp
      rcases scan_form hs with ⟨-, a, ha, hda, -⟩ | ⟨-, a, b, ha, hda, hdb, -, -⟩
      · refine ⟨a, [], rest, false, neg, xs, ⟨by simpa using ha, hda, by simp, fun _ => rfl, hx, Or.inl ?_⟩⟩
        rintro rfl
        exact hrest ha.symm
      · exact ⟨a, b, rest, true, neg, xs, ⟨by simpa using ha, hda, hdb, by simp, hx, Or.inr rfl⟩⟩

/-- The sign and what follows -/
theorem getSign_spec (s : List (BitVec 8)) : ∃ sg t sign, Lit.getSign { bytes := s } = (sign, { bytes := t }) ∧
    s = sg ++ t ∧ ((sg = [] ∧ sign = 0 ∧ t.head? ≠ some 45#8 ∧ t.head? ≠ some 43#8) ∨
      (sg = [43#8] ∧ sign = 0) ∨ (sg = [45#8] ∧ sign = 1)) := by
  unfold Lit.getSign Lit.first
  cases s with
  | nil => exact ⟨[], [], 0, rfl, rfl, by simp⟩
  | cons c t =>
    simp only [List.head?_cons]
    by_cases h45 : c = 45#8
    · exact ⟨[45#8], t, 1, by rw [if_pos h45]; rfl, by rw [h45]; rfl, by simp⟩
    · by_cases h43 : c = 43#8
      · exact ⟨[43#8], t, 0, by rw [if_neg h45, if_pos h43]; rfl, by rw [h43]; rfl, by simp⟩
      · exact ⟨[], c :: t, 0, by rw [if_neg h45, if_neg h43], rfl, by simp [h45, h43]⟩

theorem fromStr_eq {s sg t : List (BitVec 8)} {sign : ℕ} (hs : s = sg ++ t) (ht : t ≠ [])
    (h : (sg = [] ∧ sign = 0 ∧ t.head? ≠ some 45#8 ∧ t.head? ≠ some 43#8) ∨
      (sg = [43#8] ∧ sign = 0) ∨ (sg = [45#8] ∧ sign = 1)) :
    FloatRepr.fromStr s = parseUnsigned sign { bytes := t } := by
  have hne : s ≠ [] := by
    rw [hs]; intro hh
    exact ht (List.append_eq_nil_iff.mp hh).2
  unfold FloatRepr.fromStr
  dsimp only
  rw [if_neg (by simpa using hne)]
  have hg : Lit.getSign { bytes := s } = (sign, { bytes := t }) := by
    unfold Lit.getSign Lit.first
    rcases h with ⟨rfl, rfl, h45, h43⟩ | ⟨rfl, rfl⟩ | ⟨rfl, rfl⟩
    · rw [List.nil_append] at hs
      subst hs
      cases s with
      | nil => exact absurd rfl ht
      | cons c t =>
        simp only [List.head?_cons, ne_eq, Option.some.injEq] at h45 h43 ⊢
        rw [if_neg h45, if_neg h43]
    · rw [hs]; rfl
    · rw [hs]; rfl
  rw [hg]
  dsimp only
  rw [if_neg (by simpa using ht)]

theorem fromStr_nil : FloatRepr.fromStr [] = some .empty := rfl

theorem fromStr_sign {sg : List (BitVec 8)} (h : sg = [43#8] ∨ sg = [45#8]) :
    FloatRepr.fromStr sg = some .invalid := by
  rcases h with rfl | rfl <;> rfl

/-- The byte of an ASCII code -/
theorem codes_split {s : List (BitVec 8)} {A B : List ℕ} (h : codes s = A ++ B) :
    ∃ a b, s = a ++ b ∧ codes a = A ∧ codes b = B := by
  unfold codes at h ⊢
  obtain ⟨a, b, h1, h2, h3⟩ := List.map_eq_append_iff.mp h
  exact ⟨a, b, h1, h2, h3⟩

theorem codes_split_cons {s : List (BitVec 8)} {n : ℕ} {B : List ℕ} (h : codes s = n :: B) :
    ∃ c b, s = c :: b ∧ c = BitVec.ofNat 8 n ∧ codes b = B := by
  cases s with
  | nil => simp [codes] at h
  | cons c b =>
    rw [codes_cons, List.cons.injEq] at h
    exact ⟨c, b, rfl, by rw [← h.1, BitVec.ofNat_toNat, BitVec.setWidth_eq], h.2⟩

/-- The literal of a body -/
def litOf (sg a b x : List (BitVec 8)) (dot : Bool) (xs : List (BitVec 8)) : DecLit where
  sign := codes sg
  ip := codes a
  dot := dot
  fp := codes b
  exp := match x with
    | [] => none
    | c :: y => some (c.toNat, codes (y.take (y.length - xs.length)), codes xs)

theorem litOf_exp {sg a b dot neg} {c : BitVec 8} {g xs : List (BitVec 8)}
    (_ : ExpForm (c :: (g ++ xs)) neg xs) :
    (litOf sg a b (c :: (g ++ xs)) dot xs).exp = some (c.toNat, codes g, codes xs) := by
  unfold litOf
  dsimp only
  rw [List.length_append, Nat.add_sub_cancel, List.take_left']
  rfl

theorem isSign_codes {sg : List (BitVec 8)} (h : sg = [] ∨ sg = [43#8] ∨ sg = [45#8]) :
    IsSign (codes sg) := by
  rcases h with rfl | rfl | rfl
  · exact Or.inl rfl
  · exact Or.inr (Or.inl rfl)
  · exact Or.inr (Or.inr rfl)

theorem Body.lenient {t a b x dot neg xs sg} (h : Body t a b x dot neg xs)
    (hsg : sg = [] ∨ sg = [43#8] ∨ sg = [45#8]) :
    (litOf sg a b x dot xs).Lenient ∧ (litOf sg a b x dot xs).text = codes (sg ++ t) := by
  have hexp : ∀ c g ds, (litOf sg a b x dot xs).exp = some (c, g, ds) →
      ((c = 101 ∨ c = 69) ∧ IsSign g ∧ Digits ds) ∧ (g ≠ [] ∨ ds ≠ []) := by
    intro c g ds he
    rcases h.hexp with ⟨rfl, -⟩ | ⟨c', g', rfl, hc, hd, hg⟩
    · cases he
    · rw [litOf_exp h.hexp] at he
      simp only [Option.some.injEq, Prod.mk.injEq] at he
      obtain ⟨rfl, rfl, rfl⟩ := he
      refine ⟨⟨?_, ?_, digits_codes.mpr hd⟩, ?_⟩
      · rcases hc with rfl | rfl
        · exact Or.inl rfl
        · exact Or.inr rfl
      · apply isSign_codes
        rcases hg with ⟨rfl, -⟩ | ⟨rfl, -⟩ | ⟨rfl, -⟩ <;> simp
      · rcases hg with ⟨rfl, -, h⟩ | ⟨rfl, -⟩ | ⟨rfl, -⟩
        · exact Or.inr (fun hh => h (codes_nil_iff.mp hh))
        · left; decide
        · left; decide
  refine ⟨⟨⟨isSign_codes hsg, digits_codes.mpr h.ha, digits_codes.mpr h.hb, fun hd => ?_,
    fun c g ds he => (hexp c g ds he).1⟩, ?_, fun c g ds he => (hexp c g ds he).2⟩, ?_⟩
  · exact codes_nil_iff.mpr (h.hdot hd)
  · rcases h.mant with ha | hd
    · exact Or.inl (fun hh => ha (codes_nil_iff.mp hh))
    · exact Or.inr hd
  · unfold DecLit.text
    have hx : DecLit.expText (litOf sg a b x dot xs).exp = codes x := by
      rcases h.hexp with ⟨rfl, -⟩ | ⟨c', g', rfl, hc, hd, hg⟩
      · rfl
      · rw [litOf_exp h.hexp]
        simp only [DecLit.expText, codes_cons, codes_append]
    rw [hx, codes_append, h.eq, codes_append, codes_append]
    congr 2
    unfold litOf
    dsimp only
    congr 1
    cases dot <;> rfl

/-- A literal as bytes -/
theorem body_of_lenient {s : List (BitVec 8)} {L : DecLit} (hL : L.Lenient) (hs : L.text = codes s) :
    ∃ sg t a b x neg xs, s = sg ++ t ∧ (sg = [] ∨ sg = [43#8] ∨ sg = [45#8]) ∧ codes sg = L.sign ∧
      Body t a b x L.dot neg xs ∧ codes a = L.ip ∧ codes b = L.fp ∧
      ((L.exp = none ∧ x = []) ∨ ∃ c g, L.exp = some (c, g, codes xs) ∧ x ≠ [] ∧
        (neg = true ↔ g = [45])) := by
  unfold DecLit.text at hs
  obtain ⟨sg, t, rfl, hsg, ht⟩ := codes_split hs.symm
  obtain ⟨m, x, rfl, hm, hx⟩ := codes_split ht
  obtain ⟨a, m', rfl, ha, hm'⟩ := codes_split hm
  have hsg' : sg = [] ∨ sg = [43#8] ∨ sg = [45#8] := by
    rcases hL.sign with h | h | h
    · exact Or.inl (codes_nil_iff.mp (hsg.trans h))
    · exact Or.inr (Or.inl (codes_singleton (by norm_num) (hsg.trans h)))
    · exact Or.inr (Or.inr (codes_singleton (by norm_num) (hsg.trans h)))
  have hb : ∃ b, m' = (if L.dot then 46#8 :: b else []) ∧ codes b = L.fp := by
    cases hd : L.dot with
    | false =>
      rw [hd, if_neg (by simp)] at hm'
      exact ⟨[], by simpa using codes_nil_iff.mp hm', by rw [hL.dot hd]; rfl⟩
    | true =>
      rw [hd, if_pos rfl] at hm'
      obtain ⟨c, b, rfl, hc, hb⟩ := codes_split_cons hm'
      exact ⟨b, by rw [hc]; rfl, hb⟩
  obtain ⟨b, rfl, hb⟩ := hb
  have hexp : ∃ neg xs, ExpForm x neg xs ∧ ((L.exp = none ∧ x = []) ∨ ∃ c g,
      L.exp = some (c, g, codes xs) ∧ x ≠ [] ∧ (neg = true ↔ g = [45])) := by
    cases he : L.exp with
    | none =>
      rw [he] at hx
      have hx' := codes_nil_iff.mp hx
      exact ⟨false, [], Or.inl ⟨hx', rfl, rfl⟩, Or.inl ⟨rfl, hx'⟩⟩
    | some e =>
      obtain ⟨c, g, ds⟩ := e
      rw [he] at hx
      dsimp only [DecLit.expText] at hx
      obtain ⟨h1, h2, h3⟩ := hL.exp _ _ _ he
      have h4 := hL.expDigits _ _ _ he
      obtain ⟨c', y, rfl, hc, hy⟩ := codes_split_cons hx
      obtain ⟨g', xs, rfl, hg, hxs⟩ := codes_split hy
      subst hxs
      subst hg
      have hc' : c' = 101#8 ∨ c' = 69#8 := by
        rcases h1 with rfl | rfl
        · exact Or.inl hc
        · exact Or.inr hc
      have hd := digits_codes.mp h3
      rcases h2 with h | h | h
      · have hg' := codes_nil_iff.mp h
        subst hg'
        refine ⟨false, xs, Or.inr ⟨c', [], rfl, hc', hd, Or.inl ⟨rfl, rfl, fun hh => ?_⟩⟩,
          Or.inr ⟨c, _, rfl, by simp, by simp [codes]⟩⟩
        rcases h4 with h4 | h4
        · exact h4 rfl
        · exact h4 (codes_nil_iff.mpr hh)
      · have hg' := codes_singleton (by norm_num) h
        subst hg'
        exact ⟨false, xs, Or.inr ⟨c', _, rfl, hc', hd, Or.inr (Or.inl ⟨rfl, rfl⟩)⟩,
          Or.inr ⟨c, _, rfl, by simp, by simp [codes]⟩⟩
      · have hg' := codes_singleton (by norm_num) h
        subst hg'
        exact ⟨true, xs, Or.inr ⟨c', _, rfl, hc', hd, Or.inr (Or.inr ⟨rfl, rfl⟩)⟩,
          Or.inr ⟨c, _, rfl, by simp, by simp [codes]⟩⟩
  obtain ⟨neg, xs, hform, hexp⟩ := hexp
  refine ⟨sg, _, a, b, x, neg, xs, rfl, hsg', hsg, ⟨rfl, digits_codes.mp (ha ▸ hL.ip),
    digits_codes.mp (hb ▸ hL.fp), fun hd => ?_, hform, ?_⟩, ha, hb, hexp⟩
  · exact codes_nil_iff.mp (hb.trans (hL.dot hd))
  · rcases hL.mant with h | h
    · exact Or.inl (fun hh => h (by rw [← ha, hh]; rfl))
    · exact Or.inr h

theorem Body.head {t a b x dot neg xs} (h : Body t a b x dot neg xs) :
    t.head? ≠ some 45#8 ∧ t.head? ≠ some 43#8 := by
  have key : ∃ c, t.head? = some c ∧ (IsDigit c.toNat ∨ c = 46#8) := by
    cases a with
    | cons c a =>
      exact ⟨c, by rw [h.eq]; rfl, Or.inl (h.ha c List.mem_cons_self)⟩
    | nil =>
      rcases h.mant with hh | hh
      · exact absurd rfl hh
      · exact ⟨46#8, by rw [h.eq, if_pos hh]; rfl, Or.inr rfl⟩
  obtain ⟨c, hc, h1⟩ := key
  rw [hc]
  simp only [ne_eq, Option.some.injEq]
  constructor <;> rintro rfl <;> rcases h1 with h1 | h1 <;> revert h1 <;> decide

theorem Body.sign_cases {t a b x dot neg xs sg} (h : Body t a b x dot neg xs)
    (hsg : sg = [] ∨ sg = [43#8] ∨ sg = [45#8]) :
    (sg = [] ∧ (if sg = [45#8] then 1 else 0) = 0 ∧ t.head? ≠ some 45#8 ∧ t.head? ≠ some 43#8) ∨
      (sg = [43#8] ∧ (if sg = [45#8] then 1 else 0) = 0) ∨
      (sg = [45#8] ∧ (if sg = [45#8] then 1 else 0) = 1) := by
  rcases hsg with rfl | rfl | rfl
  · exact Or.inl ⟨rfl, rfl, h.head⟩
  · exact Or.inr (Or.inl ⟨rfl, rfl⟩)
  · exact Or.inr (Or.inr ⟨rfl, rfl⟩)

/-- The accepted numbers are exactly the lenient literals. -/
theorem C41_number (s : List (BitVec 8)) :
    (∃ r, FloatRepr.fromStr s = some (.number r)) ↔ ∃ L : DecLit, L.Lenient ∧ L.text = codes s := by
  constructor
  · rintro ⟨r, hr⟩
    obtain ⟨sg, t, sign, -, hs, h⟩ := getSign_spec s
    have hsg : sg = [] ∨ sg = [43#8] ∨ sg = [45#8] := by
      rcases h with ⟨h, -⟩ | ⟨h, -⟩ | ⟨h, -⟩ <;> simp [h]
    by_cases ht : t = []
    · exfalso
      subst ht
      rw [List.append_nil] at hs
      subst hs
      rcases hsg with rfl | h | h
      · rw [fromStr_nil] at hr; cases hr
      · rw [fromStr_sign (Or.inl h)] at hr; cases hr
      · rw [fromStr_sign (Or.inr h)] at hr; cases hr
    · rw [fromStr_eq hs ht h] at hr
      obtain ⟨a, b, x, dot, neg, xs, hB⟩ := body_of_number ht hr
      obtain ⟨h1, h2⟩ := hB.lenient hsg
      exact ⟨_, h1, by rw [h2, hs]⟩
  · rintro ⟨L, hL, hs⟩
    obtain ⟨sg, t, a, b, x, neg, xs, rfl, hsg, -, hB, -⟩ := body_of_lenient hL hs
    rw [fromStr_eq rfl hB.scan.2.2 (hB.sign_cases hsg)]
    obtain ⟨h1, h2⟩ := hB.parse (if sg = [45#8] then 1 else 0)
    by_cases hz : x = [] ∧ ∀ d ∈ digs (a ++ b), d = 0
    · exact ⟨_, h1 hz.1 hz.2⟩
    · obtain ⟨_, _, _, _, -, -, -, h⟩ := h2 hz
      exact ⟨_, h⟩

/-- The parser never panics, and says `Empty` for the empty string only. -/
theorem C41_total (s : List (BitVec 8)) :
    FloatRepr.fromStr s ≠ none ∧ (FloatRepr.fromStr s = some .empty ↔ s = []) := by
  obtain ⟨sg, t, sign, -, hs, h⟩ := getSign_spec s
  have hsg : sg = [] ∨ sg = [43#8] ∨ sg = [45#8] := by
    rcases h with ⟨h, -⟩ | ⟨h, -⟩ | ⟨h, -⟩ <;> simp [h]
  by_cases ht : t = []
  · subst ht
    rw [List.append_nil] at hs
    subst hs
    rcases hsg with rfl | rfl | rfl
    · exact ⟨by rw [fromStr_nil]; simp, by rw [fromStr_nil]; simp⟩
    · exact ⟨by rw [fromStr_sign (Or.inl rfl)]; simp, by rw [fromStr_sign (Or.inl rfl)]; simp⟩
    · exact ⟨by rw [fromStr_sign (Or.inr rfl)]; simp, by rw [fromStr_sign (Or.inr rfl)]; simp⟩
  · have hne : s ≠ [] := by
      rw [hs]; intro hh
      exact ht (List.append_eq_nil_iff.mp hh).2
    rw [fromStr_eq hs ht h]
    have key : ∃ r, parseUnsigned sign { bytes := t } = some r ∧ r ≠ .empty := by
      obtain ⟨h1, h2⟩ := parseUnsigned_spec sign t ht
      cases hsc : scan t (t.length + 1) none with
      | none => exact ⟨_, h1 hsc, by simp⟩
      | some q =>
        obtain ⟨ds, rest, pos⟩ := q
        obtain ⟨k1, k2, k3⟩ := h2 ds rest pos hsc
        by_cases hrest : rest = t
        · refine ⟨_, k1 hrest, ?_⟩
          unfold parseSpecial
          split_ifs <;> simp
        · by_cases hz : rest = [] ∧ ∀ d ∈ ds, d = 0
          · exact ⟨_, k2 hrest hz.1 hz.2, by simp⟩
          · rcases k3 hrest hz with ⟨-, hi⟩ | ⟨_, _, _, _, -, -, -, hi⟩
            · exact ⟨_, hi, by simp⟩
            · exact ⟨_, hi, by simp⟩
    obtain ⟨r, hr, hr'⟩ := key
    rw [hr]
    exact ⟨by simp, by simp [hr', hne]⟩

theorem lower_codes (w : List (BitVec 8)) : (codes w).map lower = codes (w.map asciiLower) := by
  unfold codes
  rw [List.map_map, List.map_map]
  apply List.map_congr_left
  intro c _
  simp only [Function.comp, lower, asciiLower]
  split_ifs with h
  · rw [BitVec.toNat_add]
    have := c.isLt
    have h32 : (32#8 : BitVec 8).toNat = 32 := rfl
    rw [h32]
    omega
  · rfl

theorem eqIgnore_iff (w l : List (BitVec 8)) (hl : l.map asciiLower = l) :
    eqIgnoreAsciiCase w l = true ↔ (codes w).map lower = codes l := by
  unfold eqIgnoreAsciiCase
  rw [beq_iff_eq, hl, lower_codes]
  exact ⟨fun h => by rw [h], codes_inj⟩

/-- Words starting with a letter: no digit or radix point is read. -/
theorem special_of_word {t : List (BitVec 8)} {sign : ℕ} {c : BitVec 8} (hc : t.head? = some c)
    (h : (asciiLower c).toNat = 110 ∨ (asciiLower c).toNat = 105) :
    parseUnsigned sign { bytes := t } = some (parseSpecial { bytes := t } sign) := by
  have ht : t ≠ [] := by rintro rfl; cases hc
  have hstop : Stop t := by
    intro d hd
    rw [hc, Option.mem_def, Option.some.injEq] at hd
    subst hd
    clear hc
    revert h
    unfold asciiLower
    revert c
    decide
  exact ((parseUnsigned_spec sign t ht).2 _ _ _ (scan_stop hstop _ _)).1 rfl

/-- One of the words `nan`, `inf`, `infinity` behind a sign -/
theorem fromStr_word {s : List (BitVec 8)} {sg w W : List ℕ} (hsg : IsSign sg) (hs : codes s = sg ++ w)
    (hw : w.map lower = W) (hW : W.head? = some 110 ∨ W.head? = some 105) :
    ∃ t, codes t = w ∧
      FloatRepr.fromStr s = some (parseSpecial { bytes := t } (if sg = [45] then 1 else 0)) := by
  obtain ⟨g, t, rfl, hg, ht⟩ := codes_split hs
  subst ht hw
  rw [lower_codes] at hW
  cases t with
  | nil => simp [codes] at hW
  | cons c t =>
    simp only [List.map_cons, codes_cons, List.head?_cons, Option.some.injEq] at hW
    have hhead : c ≠ 45#8 ∧ c ≠ 43#8 := by
      clear hs; revert hW; unfold asciiLower; revert c; decide
    refine ⟨_, rfl, ?_⟩
    rcases hsg with rfl | rfl | rfl
    · have := codes_nil_iff.mp hg
      subst this
      rw [fromStr_eq (sg := []) (sign := 0) rfl (by simp) (Or.inl ⟨rfl, rfl, by simpa using hhead⟩),
        special_of_word rfl hW]
      rfl
    · have := codes_singleton (by norm_num) hg
      subst this
      rw [fromStr_eq (sg := [43#8]) (sign := 0) rfl (by simp) (Or.inr (Or.inl ⟨rfl, rfl⟩)),
        special_of_word rfl hW]
      rfl
    · have := codes_singleton (by norm_num) hg
      subst this
      rw [fromStr_eq (sg := [45#8]) (sign := 1) rfl (by simp) (Or.inr (Or.inr ⟨rfl, rfl⟩)),
        special_of_word rfl hW]
      rfl

/-- Results other than numbers come from the words. -/
theorem word_of_fromStr {s : List (BitVec 8)} {r : FloatRepr} (h : FloatRepr.fromStr s = some r)
    (hr : r = .nan ∨ ∃ g, r = .inf g) : ∃ sg t, s = sg ++ t ∧ IsSign (codes sg) ∧
      parseSpecial { bytes := t } (if codes sg = [45] then 1 else 0) = r := by
  obtain ⟨sg, t, sign, -, hs, hsign⟩ := getSign_spec s
  have hsg : sg = [] ∨ sg = [43#8] ∨ sg = [45#8] := by
    rcases hsign with ⟨h, -⟩ | ⟨h, -⟩ | ⟨h, -⟩ <;> simp [h]
  have hne : ∀ x, r = x → x ≠ .empty ∧ x ≠ .invalid ∧ ∀ q, x ≠ .number q := by
    rintro x rfl
    rcases hr with rfl | ⟨g, rfl⟩ <;> simp
  obtain ⟨n1, n2, n3⟩ := hne r rfl
  by_cases ht : t = []
  · exfalso
    subst ht
    rw [List.append_nil] at hs
    subst hs
    rcases hsg with rfl | rfl | rfl
    · rw [fromStr_nil, Option.some.injEq] at h; exact n1 h.symm
    · rw [fromStr_sign (Or.inl rfl), Option.some.injEq] at h; exact n2 h.symm
    · rw [fromStr_sign (Or.inr rfl), Option.some.injEq] at h; exact n2 h.symm
  · rw [fromStr_eq hs ht hsign] at h
    refine ⟨sg, t, hs, isSign_codes hsg, ?_⟩
    have hsign' : (if codes sg = [45] then 1 else 0) = sign := by
      rcases hsign with ⟨rfl, rfl, -⟩ | ⟨rfl, rfl⟩ | ⟨rfl, rfl⟩ <;> simp [codes]
    rw [hsign']
    obtain ⟨h1, h2⟩ := parseUnsigned_spec sign t ht
    cases hsc : scan t (t.length + 1) none with
    | none => rw [h1 hsc, Option.some.injEq] at h; exact absurd h.symm n2
    | some q =>
      obtain ⟨ds, rest, pos⟩ := q
      obtain ⟨k1, k2, k3⟩ := h2 ds rest pos hsc
      by_cases hrest : rest = t
      · rw [k1 hrest, Option.some.injEq] at h; exact h
      · by_cases hz : rest = [] ∧ ∀ d ∈ ds, d = 0
        · rw [k2 hrest hz.1 hz.2, Option.some.injEq] at h
          exact absurd h.symm (n3 _)
        · rcases k3 hrest hz with ⟨-, hi⟩ | ⟨_, _, _, _, -, -, -, hi⟩
          · rw [hi, Option.some.injEq] at h; exact absurd h.symm n2
          · rw [hi, Option.some.injEq] at h; exact absurd h.symm (n3 _)

/-- `nan`, in any mixture of cases, behind an optional sign -/
theorem C41_nan (s : List (BitVec 8)) :
    FloatRepr.fromStr s = some .nan ↔ ∃ sg, SignedWord (codes s) sg wNan := by
  constructor
  · intro h
    obtain ⟨sg, t, rfl, hsg, hp⟩ := word_of_fromStr h (Or.inl rfl)
    refine ⟨_, hsg, _, codes_append _ _, ?_⟩
    unfold parseSpecial at hp
    split_ifs at hp with h1
    exact (eqIgnore_iff t [110, 97, 110] (by decide)).mp h1
  · rintro ⟨sg, hsg, w, hs, hw⟩
    obtain ⟨t, ht, h⟩ := fromStr_word hsg hs hw (Or.inl rfl)
    rw [h]
    unfold parseSpecial
    rw [if_pos ((eqIgnore_iff t [110, 97, 110] (by decide)).mpr (by rw [ht, hw]; rfl))]

/-- `inf` or `infinity`, in any mixture of cases, behind an optional sign, which is kept -/
theorem C41_inf (s : List (BitVec 8)) (sign : ℕ) :
    FloatRepr.fromStr s = some (.inf sign) ↔ ∃ sg, sign = (if sg = [45] then 1 else 0) ∧
      (SignedWord (codes s) sg wInf ∨ SignedWord (codes s) sg wInfinity) := by
  constructor
  · intro h
    obtain ⟨sg, t, rfl, hsg, hp⟩ := word_of_fromStr h (Or.inr ⟨_, rfl⟩)
    generalize hg : (if codes sg = [45] then 1 else 0) = g at hp
    unfold parseSpecial at hp
    split_ifs at hp with h1 h2
    rw [FloatRepr.inf.inj hp] at hg
    refine ⟨codes sg, hg.symm, ?_⟩
    rcases h2 with h2 | h2
    · exact Or.inl ⟨hsg, _, codes_append _ _, (eqIgnore_iff t [105, 110, 102] (by decide)).mp h2⟩
    · exact Or.inr ⟨hsg, _, codes_append _ _,
        (eqIgnore_iff t [105, 110, 102, 105, 110, 105, 116, 121] (by decide)).mp h2⟩
  · rintro ⟨sg, rfl, ⟨hsg, w, hs, hw⟩ | ⟨hsg, w, hs, hw⟩⟩
    · obtain ⟨t, ht, h⟩ := fromStr_word hsg hs hw (Or.inr rfl)
      rw [h]
      unfold parseSpecial
      have h1 : ¬ eqIgnoreAsciiCase t [110, 97, 110] = true := by
        rw [eqIgnore_iff t _ (by decide), ht, hw]; decide
      have h2 := (eqIgnore_iff t [105, 110, 102] (by decide)).mpr (by rw [ht, hw]; rfl)
      rw [if_neg h1, if_pos (Or.inl h2)]
    · obtain ⟨t, ht, h⟩ := fromStr_word hsg hs hw (Or.inr rfl)
      rw [h]
      unfold parseSpecial
      have h1 : ¬ eqIgnoreAsciiCase t [110, 97, 110] = true := by
        rw [eqIgnore_iff t _ (by decide), ht, hw]; decide
      have h2 := (eqIgnore_iff t [105, 110, 102, 105, 110, 105, 116, 121] (by decide)).mpr
        (by rw [ht, hw]; rfl)
      rw [if_neg h1, if_pos (Or.inr h2)]

/-- Is the string accepted? -/
def Accepted (s : List (BitVec 8)) : Prop :=
  ∃ r, FloatRepr.fromStr s = some r ∧ r ≠ .empty ∧ r ≠ .invalid

/-- `[+-] (inf | infinity | nan)` in any case -/
def SpecialWord (s : List ℕ) : Prop :=
  ∃ sg, SignedWord s sg wNan ∨ SignedWord s sg wInf ∨ SignedWord s sg wInfinity

theorem accepted_iff (s : List (BitVec 8)) :
    Accepted s ↔ (∃ L : DecLit, L.Lenient ∧ L.text = codes s) ∨ SpecialWord (codes s) := by
  unfold Accepted SpecialWord
  constructor
  · rintro ⟨r, hr, h1, h2⟩
    cases r with
    | empty => exact absurd rfl h1
    | invalid => exact absurd rfl h2
    | nan => obtain ⟨sg, h⟩ := (C41_nan s).mp hr; exact Or.inr ⟨sg, Or.inl h⟩
    | inf g => obtain ⟨sg, -, h⟩ := (C41_inf s g).mp hr; exact Or.inr ⟨sg, Or.inr h⟩
    | number r => exact Or.inl ((C41_number s).mp ⟨r, hr⟩)
  · rintro (h | ⟨sg, h | h⟩)
    · obtain ⟨r, hr⟩ := (C41_number s).mpr h
      exact ⟨_, hr, by simp, by simp⟩
    · exact ⟨_, (C41_nan s).mpr ⟨sg, h⟩, by simp, by simp⟩
    · exact ⟨_, (C41_inf s _).mpr ⟨sg, rfl, h⟩, by simp, by simp⟩

theorem Lenient.of_proper {L : DecLit} (h : L.Proper) : L.Lenient := by
  refine ⟨h.toWf, ?_, fun c sg ds he => Or.inr (h.expDigits c sg ds he)⟩
  rcases h.mant with hm | hm
  · exact Or.inl hm
  · right
    cases hd : L.dot with
    | true => rfl
    | false => exact absurd (h.dot hd) hm

/-- What is left of C41. Every string of the grammar is accepted, and every other accepted string is a
literal with a mantissa without digits or an exponent with a sign but without digits.

Missing: the strings of the second kind should be rejected; they are not (`C41_counterexample`). -/
theorem C41_partial (s : List (BitVec 8)) :
    ((∃ L : DecLit, L.Proper ∧ L.text = codes s) ∨ SpecialWord (codes s) → Accepted s) ∧
    (Accepted s → (∃ L : DecLit, L.Proper ∧ L.text = codes s) ∨ SpecialWord (codes s) ∨
      ∃ L : DecLit, L.Lenient ∧ L.text = codes s ∧
        ((L.ip = [] ∧ L.dot = true ∧ L.fp = []) ∨ ∃ c sg, L.exp = some (c, sg, []) ∧ sg ≠ [])) := by
  rw [accepted_iff]
  refine ⟨?_, ?_⟩
  · rintro (⟨L, hL, hs⟩ | h)
    · exact Or.inl ⟨L, Lenient.of_proper hL, hs⟩
    · exact Or.inr h
  · rintro (⟨L, hL, hs⟩ | h)
    · by_cases hm : L.ip ≠ [] ∨ L.fp ≠ []
      · by_cases he : ∀ c sg ds, L.exp = some (c, sg, ds) → ds ≠ []
        · exact Or.inl ⟨L, ⟨hL.toWf, hm, he⟩, hs⟩
        · push Not at he
          obtain ⟨c, sg, ds, he, rfl⟩ := he
          refine Or.inr (Or.inr ⟨L, hL, hs, Or.inr ⟨c, sg, he, ?_⟩⟩)
          rcases hL.expDigits _ _ _ he with h | h
          · exact h
          · exact absurd rfl h
      · push Not at hm
        refine Or.inr (Or.inr ⟨L, hL, hs, Or.inl ⟨hm.1, ?_, hm.2⟩⟩)
        rcases hL.mant with h | h
        · exact absurd hm.1 h
        · exact h
    · exact Or.inr (Or.inl h)

/-- No proper literal has a text consisting of the radix point alone. -/
theorem not_proper_dot (L : DecLit) (h : L.Proper) : L.text ≠ [46] := by
  intro ht
  have hlen := congrArg List.length ht
  unfold DecLit.text at ht hlen
  simp only [List.length_append, List.length_cons, List.length_nil] at hlen
  rcases h.mant with hm | hm
  · cases hip : L.ip with
    | nil => exact hm hip
    | cons d l =>
      rw [hip] at hlen ht
      have hs : L.sign = [] := by
        apply List.length_eq_zero_iff.mp
        rw [List.length_cons] at hlen; omega
      rw [hs] at ht
      simp only [List.nil_append, List.cons_append, List.cons.injEq] at ht
      have := h.ip d (by rw [hip]; exact List.mem_cons_self)
      rw [ht.1] at this
      revert this; decide
  · have hd : L.dot = true := by
      cases hd : L.dot with
      | true => rfl
      | false => exact absurd (h.dot hd) hm
    rw [hd, if_pos rfl, List.length_cons] at hlen
    have := List.length_pos_iff.mpr hm
    omega

/-- `"."` is accepted (as zero), as are `"+."`, `".e5"` and `"1e+"`; the first is not in the grammar. -/
theorem C41_counterexample :
    (∃ s, Accepted s ∧ ¬ ((∃ L : DecLit, L.Proper ∧ L.text = codes s) ∨ SpecialWord (codes s))) ∧
    Accepted [43#8, 46#8] ∧ Accepted [46#8, 101#8, 53#8] ∧ Accepted [49#8, 101#8, 43#8] := by
  refine ⟨⟨[46#8], ⟨_, rfl, by simp, by simp⟩, ?_⟩, ⟨_, rfl, by simp, by simp⟩,
    ⟨_, rfl, by simp, by simp⟩, ⟨_, rfl, by simp, by simp⟩⟩
  rintro (⟨L, hL, hs⟩ | ⟨sg, h⟩)
  · exact not_proper_dot L hL hs
  · have key : ∀ W : List ℕ, 2 ≤ W.length → ¬ SignedWord (codes [46#8]) sg W := by
      rintro W hW ⟨-, w, hs, rfl⟩
      have := congrArg List.length hs
      simp only [codes_length, List.length_append, List.length_cons, List.length_nil] at this
      rw [List.length_map] at hW
      omega
    rcases h with h | h | h
    · exact key _ (by decide) h
    · exact key _ (by decide) h
    · exact key _ (by decide) h

/-- Non-vacuity: `-12.5e+3` is a proper literal; `+InF` a special word; `1x` is rejected. -/
example : ∃ L : DecLit, L.Proper ∧
    L.text = codes [45#8, 49#8, 50#8, 46#8, 53#8, 101#8, 43#8, 51#8] ∧ L.neg = true ∧ L.expo = 3 := by
  refine ⟨⟨[45], [49, 50], true, [53], some (101, [43], [51])⟩, ⟨⟨by unfold IsSign; simp, ?_, ?_, by simp, ?_⟩,
    by simp, ?_⟩, rfl, rfl, rfl⟩
  · unfold Digits; decide
  · unfold Digits; decide
  · rintro c sg ds h
    simp only [Option.some.injEq, Prod.mk.injEq] at h
    obtain ⟨rfl, rfl, rfl⟩ := h
    refine ⟨Or.inl rfl, by unfold IsSign; simp, by unfold Digits; decide⟩
  · rintro c sg ds h
    simp only [Option.some.injEq, Prod.mk.injEq] at h
    obtain ⟨rfl, rfl, rfl⟩ := h
    simp

example : SpecialWord (codes [43#8, 73#8, 110#8, 70#8]) :=
  ⟨[43], Or.inr (Or.inl ⟨Or.inr (Or.inl rfl), [73, 110, 70], rfl, rfl⟩)⟩

example : ¬ Accepted [49#8, 120#8] := by
  rintro ⟨r, h, -, h2⟩
  have : FloatRepr.fromStr [49#8, 120#8] = some .invalid := rfl
  rw [this, Option.some.injEq] at h
  exact h2 h.symm

end Verif.Props
