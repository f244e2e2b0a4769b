import Verif.Model.Parse
import Verif.Props.Chunk
import Verif.Props.Wide
import Mathlib.Tactic.Ring

/-!
# Reading a literal: the chunk-wise reader agrees with reading character by character
-/

namespace Verif

open Spec

theorem isDig_iff (c : BitVec 8) : Lit.isDig c = true ↔ IsDigit c.toNat := by
  unfold Lit.isDig IsDigit
  have := c.isLt
  rw [decide_eq_true_eq, BitVec.toNat_sub]
  simp only [BitVec.toNat_ofNat]
  omega

theorem dig_val {c : BitVec 8} (h : IsDigit c.toNat) : (c - 48#8).toNat = c.toNat - 48 := by
  have h1 := h.1
  have h2 := h.2
  rw [BitVec.toNat_sub]
  simp only [BitVec.toNat_ofNat]
  omega

theorem isDig_dot : Lit.isDig 46#8 = false := by decide

/-- Reading at most `n` digits and at most one radix point, character by character: the digits, what
is left, and the position of the radix point. `none`: a second radix point. -/
def scan : List (BitVec 8) → ℕ → Option ℕ → Option (List ℕ × List (BitVec 8) × Option ℕ)
  | [], _, pos => some ([], [], pos)
  | c :: t, n, pos =>
    if n = 0 then some ([], c :: t, pos)
    else if Lit.isDig c then (scan t (n - 1) pos).map fun r => ((c.toNat - 48) :: r.1, r.2)
    else if c = 46#8 then
      if pos.isSome then none else scan t n (some (t.length + 1))
    else some ([], c :: t, pos)

/-- Put digits in front. -/
def pre (ds : List ℕ) (r : Option (List ℕ × List (BitVec 8) × Option ℕ)) :
    Option (List ℕ × List (BitVec 8) × Option ℕ) := r.map fun r => (ds ++ r.1, r.2)

theorem pre_nil (r) : pre [] r = r := by
  cases r <;> rfl

theorem pre_pre (a b : List ℕ) (r) : pre a (pre b r) = pre (a ++ b) r := by
  cases r <;> simp [pre]

theorem pre_none (a : List ℕ) : pre a none = none := rfl

theorem pre_some (a : List ℕ) (r) : pre a (some r) = some (a ++ r.1, r.2) := rfl

theorem scan_zero (s : List (BitVec 8)) (pos) : scan s 0 pos = some ([], s, pos) := by
  cases s <;> simp [scan]

theorem scan_nil (n pos) : scan [] n pos = some ([], [], pos) := by simp [scan]

/-- The values of a string of digits -/
def digs (s : List (BitVec 8)) : List ℕ := s.map fun c => c.toNat - 48

theorem digs_append (a b) : digs (a ++ b) = digs a ++ digs b := by simp [digs]

theorem digs_append_single (a b : List (BitVec 8)) (d : BitVec 8) :
    digs (a ++ b ++ [d]) = digs (a ++ b) ++ [d.toNat - 48] := by simp [digs]

theorem digs_length (a) : (digs a).length = a.length := by simp [digs]

theorem scan_digit {c : BitVec 8} (hc : IsDigit c.toNat) (t : List (BitVec 8)) (n : ℕ) (pos) :
    scan (c :: t) (n + 1) pos = pre [c.toNat - 48] (scan t n pos) := by
  rw [scan, if_neg (by omega), if_pos ((isDig_iff c).mpr hc), Nat.add_sub_cancel]
  rfl

theorem scan_digits {a : List (BitVec 8)} (ha : ∀ c ∈ a, IsDigit c.toNat) (t : List (BitVec 8))
    (n : ℕ) (pos) : scan (a ++ t) (a.length + n) pos = pre (digs a) (scan t n pos) := by
  induction a with
  | nil => simp [digs, pre_nil]
  | cons c a ih =>
    rw [List.cons_append, List.length_cons, show a.length + 1 + n = (a.length + n) + 1 by omega,
      scan_digit (ha c List.mem_cons_self), ih fun x hx => ha x (List.mem_cons_of_mem _ hx), pre_pre]
    rfl

theorem scan_dot (t : List (BitVec 8)) (n : ℕ) :
    scan (46#8 :: t) (n + 1) none = scan t (n + 1) (some (t.length + 1)) := by
  rw [scan, if_neg (by omega), isDig_dot]
  simp

theorem scan_dot_some (t : List (BitVec 8)) (n p : ℕ) :
    scan (46#8 :: t) (n + 1) (some p) = none := by
  rw [scan, if_neg (by omega), isDig_dot]
  simp

/-- The first character is neither a digit nor a dot. -/
def Stop (s : List (BitVec 8)) : Prop := ∀ c ∈ s.head?, ¬ IsDigit c.toNat ∧ c ≠ 46#8

theorem scan_stop {s : List (BitVec 8)} (h : Stop s) (n pos) : scan s n pos = some ([], s, pos) := by
  cases s with
  | nil => exact scan_nil n pos
  | cons c t =>
    have := h c (by simp)
    rw [scan]
    rw [if_neg (c := Lit.isDig c = true) (by rw [isDig_iff]; exact this.1), if_neg this.2]
    simp

theorem scan_add (s : List (BitVec 8)) (a b : ℕ) (pos) :
    scan s (a + b) pos = (scan s a pos).bind fun r => pre r.1 (scan r.2.1 b r.2.2) := by
  induction s generalizing a pos with
  | nil => simp [scan, pre]
  | cons c t ih =>
    rcases Nat.eq_zero_or_pos a with rfl | ha
    · rw [scan_zero, Nat.zero_add]
      simp [pre_nil]
    obtain ⟨a, rfl⟩ := Nat.exists_eq_add_of_le' ha
    by_cases hd : IsDigit c.toNat
    · rw [show a + 1 + b = (a + b) + 1 by omega, scan_digit hd, scan_digit hd, ih]
      cases scan t a pos with
      | none => rfl
      | some r => simp [pre_pre, pre_some]
    · by_cases hdot : c = 46#8
      · subst hdot
        cases pos with
        | some p => rw [show a + 1 + b = (a + b) + 1 by omega, scan_dot_some, scan_dot_some]; rfl
        | none =>
          rw [show a + 1 + b = (a + b) + 1 by omega, scan_dot, scan_dot,
            show a + b + 1 = (a + 1) + b by omega, ih]
      · have hs : Stop (c :: t) := by
          intro x hx
          simp only [List.head?_cons, Option.mem_def, Option.some.injEq] at hx
          subst hx
          exact ⟨hd, hdot⟩
        rw [scan_stop hs, scan_stop hs]
        simp [scan_stop hs, pre_nil]

theorem scan_len {s : List (BitVec 8)} {n pos ds r p} (h : scan s n pos = some (ds, r, p)) :
    ds.length ≤ n ∧ r.length + ds.length ≤ s.length := by
  induction s generalizing n pos ds with
  | nil =>
    rw [scan_nil] at h
    simp only [Option.some.injEq, Prod.mk.injEq] at h
    obtain ⟨rfl, rfl, -⟩ := h
    simp
  | cons c t ih =>
    rw [scan] at h
    split_ifs at h with h1 h2 h3 h4
    · simp only [Option.some.injEq, Prod.mk.injEq] at h
      obtain ⟨rfl, rfl, -⟩ := h
      simp
    · cases hs : scan t (n - 1) pos with
      | none => rw [hs] at h; cases h
      | some q =>
        rw [hs] at h
        obtain ⟨q1, q2, q3⟩ := q
        simp only [Option.map_some, Option.some.injEq, Prod.mk.injEq] at h
        obtain ⟨rfl, rfl, rfl⟩ := h
        have := ih hs
        simp only [List.length_cons]
        omega
    · have := ih h
      simp only [List.length_cons]
      omega
    · simp only [Option.some.injEq, Prod.mk.injEq] at h
      obtain ⟨rfl, rfl, -⟩ := h
      simp

/-- Digits read are values of digits. -/
theorem scan_lt {s : List (BitVec 8)} {n pos ds r p} (h : scan s n pos = some (ds, r, p)) :
    ∀ d ∈ ds, d < 10 := by
  induction s generalizing n pos ds with
  | nil =>
    rw [scan_nil] at h
    simp only [Option.some.injEq, Prod.mk.injEq] at h
    obtain ⟨rfl, rfl, -⟩ := h
    simp
  | cons c t ih =>
    rw [scan] at h
    split_ifs at h with h1 h2 h3 h4
    · simp only [Option.some.injEq, Prod.mk.injEq] at h
      obtain ⟨rfl, rfl, -⟩ := h
      simp
    · cases hs : scan t (n - 1) pos with
      | none => rw [hs] at h; cases h
      | some q =>
        rw [hs] at h
        obtain ⟨q1, q2, q3⟩ := q
        simp only [Option.map_some, Option.some.injEq, Prod.mk.injEq] at h
        obtain ⟨rfl, rfl, rfl⟩ := h
        have := (isDig_iff c).mp h2
        intro d hd
        rcases List.mem_cons.mp hd with rfl | hd
        · have := this.2
          omega
        · exact ih hs d hd
    · exact ih h
    · simp only [Option.some.injEq, Prod.mk.injEq] at h
      obtain ⟨rfl, rfl, -⟩ := h
      simp

/-- With room for more digits than there are characters, reading stops at a character which is
neither digit nor dot. -/
theorem scan_rest {s : List (BitVec 8)} {n pos ds r p} (h : scan s n pos = some (ds, r, p))
    (hn : ds.length < n) : Stop r := by
  induction s generalizing n pos ds with
  | nil =>
    rw [scan_nil] at h
    simp only [Option.some.injEq, Prod.mk.injEq] at h
    obtain ⟨rfl, rfl, -⟩ := h
    simp [Stop]
  | cons c t ih =>
    rw [scan] at h
    split_ifs at h with h1 h2 h3 h4
    · omega
    · cases hs : scan t (n - 1) pos with
      | none => rw [hs] at h; cases h
      | some q =>
        rw [hs] at h
        obtain ⟨q1, q2, q3⟩ := q
        simp only [Option.map_some, Option.some.injEq, Prod.mk.injEq] at h
        obtain ⟨rfl, rfl, rfl⟩ := h
        refine ih hs ?_
        simp only [List.length_cons] at hn
        omega
    · exact ih h hn
    · simp only [Option.some.injEq, Prod.mk.injEq] at h
      obtain ⟨rfl, rfl, -⟩ := h
      intro x hx
      simp only [List.head?_cons, Option.mem_def, Option.some.injEq] at hx
      subst hx
      exact ⟨fun hd => h2 ((isDig_iff c).mpr hd), h3⟩

/-- Any limit above the length gives the same. -/
theorem scan_large (s : List (BitVec 8)) {n m : ℕ} (hn : s.length < n) (hm : s.length < m) (pos) :
    scan s n pos = scan s m pos := by
  wlog h : n ≤ m generalizing n m
  · exact (this hm hn (by omega)).symm
  obtain ⟨k, rfl⟩ := Nat.exists_eq_add_of_le h
  rw [scan_add]
  cases hs : scan s n pos with
  | none => rfl
  | some r =>
    obtain ⟨ds, r, p⟩ := r
    have hl := scan_len hs
    have := scan_rest hs (by omega)
    simp [scan_stop this, pre_some]

/-- If at least `k` digits are read, the first `k` characters are digits, or digits and one dot. -/
theorem scan_prefix {s : List (BitVec 8)} {n pos ds r p} (h : scan s n pos = some (ds, r, p))
    {k : ℕ} (hk : k ≤ ds.length) : (∀ c ∈ s.take k, IsDigit c.toNat) ∨
      (pos = none ∧ ∃ a b, s.take k = a ++ 46#8 :: b ∧ (∀ c ∈ a, IsDigit c.toNat) ∧
        ∀ c ∈ b, IsDigit c.toNat) := by
  induction s generalizing n pos ds k with
  | nil => left; simp
  | cons c t ih =>
    rcases Nat.eq_zero_or_pos k with rfl | hk0
    · left; simp
    obtain ⟨k, rfl⟩ := Nat.exists_eq_add_of_le' hk0
    rw [scan] at h
    split_ifs at h with h1 h2 h3 h4
    · simp only [Option.some.injEq, Prod.mk.injEq] at h
      obtain ⟨rfl, rfl, -⟩ := h
      simp at hk
    · cases hs : scan t (n - 1) pos with
      | none => rw [hs] at h; cases h
      | some q =>
        rw [hs] at h
        obtain ⟨q1, q2, q3⟩ := q
        simp only [Option.map_some, Option.some.injEq, Prod.mk.injEq] at h
        obtain ⟨rfl, rfl, rfl⟩ := h
        have hc := (isDig_iff c).mp h2
        rw [List.take_succ_cons]
        rcases ih hs (k := k) (by simpa using hk) with hh | ⟨hp, a, b, he, ha, hb⟩
        · left
          intro x hx
          rcases List.mem_cons.mp hx with rfl | hx
          exacts [hc, hh x hx]
        · right
          refine ⟨hp, c :: a, b, by rw [he]; rfl, ?_, hb⟩
          intro x hx
          rcases List.mem_cons.mp hx with rfl | hx
          exacts [hc, ha x hx]
    · subst h3
      right
      refine ⟨by cases pos <;> simp_all, [], t.take k, by rw [List.take_succ_cons]; rfl, by simp, ?_⟩
      rcases ih h (k := k) (by omega) with hh | ⟨hp, -⟩
      · exact hh
      · cases hp
    · simp only [Option.some.injEq, Prod.mk.injEq] at h
      obtain ⟨rfl, rfl, -⟩ := h
      simp at hk

/-! ### Decimal numbers -/

theorem decVal_append (a b : List ℕ) : decVal (a ++ b) = decVal a * 10 ^ b.length + decVal b := by
  unfold decVal
  rw [List.foldl_append]
  generalize List.foldl (fun a d => 10 * a + d) 0 a = x
  have key : ∀ (b : List ℕ) (x y : ℕ), List.foldl (fun a d => 10 * a + d) (x + y) b =
      x * 10 ^ b.length + List.foldl (fun a d => 10 * a + d) y b := by
    intro b
    induction b with
    | nil => intro x y; simp
    | cons d b ih =>
      intro x y
      rw [List.foldl_cons, List.foldl_cons, show 10 * (x + y) + d = 10 * x + (10 * y + d) by ring, ih,
        List.length_cons, pow_succ]
      ring
  have := key b x 0
  rwa [Nat.add_zero] at this

theorem decVal_lt {ds : List ℕ} (h : ∀ d ∈ ds, d < 10) : decVal ds < 10 ^ ds.length := by
  induction ds using List.reverseRecOn with
  | nil => simp [decVal]
  | append_singleton ds d ih =>
    rw [decVal_append]
    have h1 := ih fun x hx => h x (List.mem_append_left _ hx)
    have h2 := h d (by simp)
    simp only [List.length_singleton, List.length_append, pow_succ, pow_zero]
    have : decVal [d] = d := by simp [decVal]
    omega

theorem strVal_codes (a : List (BitVec 8)) : strVal (Props.codes a) = decVal (digs a) := by
  simp only [strVal, Props.codes, digs, List.map_map]
  rfl

theorem digs_lt {a : List (BitVec 8)} (ha : ∀ c ∈ a, IsDigit c.toNat) : ∀ d ∈ digs a, d < 10 := by
  intro d hd
  obtain ⟨c, hc, rfl⟩ := List.mem_map.mp hd
  have := (ha c hc).2
  omega

/-- The number held in chunks of eight digits, the last one first -/
def chunkVal (cs : List (BitVec 64)) : ℕ := cs.foldr (fun c acc => acc * 10 ^ 8 + c.toNat) 0

/-- `p` holds the digits `ds`. -/
structure PartialSignif.Holds (p : PartialSignif) (ds : List ℕ) : Prop where
  len : ds.length = 8 * p.chunks.length + p.nRem
  val : decVal ds = chunkVal p.chunks * 10 ^ p.nRem + p.rem.toNat
  rem_lt : p.rem.toNat < 10 ^ p.nRem
  chunk_lt : ∀ c ∈ p.chunks, c.toNat < 10 ^ 8

theorem holds_empty : PartialSignif.Holds {} [] := ⟨rfl, rfl, by decide, by simp⟩

theorem Holds.addChunk {p : PartialSignif} {ds es : List ℕ} (h : p.Holds ds) (h0 : p.nRem = 0)
    (hlen : ds.length ≤ 69) (he : es.length = 8) (hlt : ∀ d ∈ es, d < 10) {v : BitVec 64}
    (hv : v.toNat = decVal es) : ∃ p', p.addChunk v = some p' ∧ p'.Holds (ds ++ es) ∧ p'.nRem = 0 := by
  have hl := h.len
  have hr := h.rem_lt
  rw [h0] at hl hr
  have hes := decVal_lt hlt
  rw [he] at hes
  refine ⟨{ p with chunks := v :: p.chunks }, by rw [PartialSignif.addChunk, if_pos (by omega)],
    ⟨?_, ?_, ?_, ?_⟩, h0⟩
  · simp only [List.length_append, List.length_cons]; omega
  · have := h.val
    rw [h0] at this
    rw [decVal_append, he, this, ← hv]
    simp only [chunkVal, List.foldr_cons, h0, pow_zero]
    simp only [pow_zero] at hr
    have : p.rem.toNat = 0 := by omega
    rw [this]
    simp
  · exact h.rem_lt
  · intro c hc
    rcases List.mem_cons.mp hc with rfl | hc
    · omega
    · exact h.chunk_lt c hc

theorem Holds.setRem {p : PartialSignif} {ds es : List ℕ} (h : p.Holds ds) (h0 : p.nRem = 0)
    (hlt : ∀ d ∈ es, d < 10) {v : BitVec 64} (hv : v.toNat = decVal es) :
    PartialSignif.Holds { p with rem := v, nRem := es.length } (ds ++ es) := by
  have hl := h.len
  have hr := h.rem_lt
  rw [h0] at hl hr
  have hes := decVal_lt hlt
  refine ⟨?_, ?_, ?_, h.chunk_lt⟩
  · simp only [List.length_append]; omega
  · have := h.val
    rw [h0] at this
    rw [decVal_append, this, ← hv]
    simp only [pow_zero] at hr
    have : p.rem.toNat = 0 := by omega
    rw [this]
    simp
  · simp only [hv, hes]

theorem Holds.push {p : PartialSignif} {ds : List ℕ} (h : p.Holds ds) (h7 : p.nRem ≤ 8) {d : ℕ}
    (hd : d < 10) {v : BitVec 64} (hv : v.toNat = d) :
    PartialSignif.Holds { p with rem := p.rem * 10#64 + v, nRem := p.nRem + 1 } (ds ++ [d]) := by
  have hr := h.rem_lt
  have hp : 10 ^ p.nRem ≤ 10 ^ 8 := Nat.pow_le_pow_right (by norm_num) h7
  have hval : (p.rem * 10#64 + v).toNat = p.rem.toNat * 10 + d := by
    rw [BitVec.toNat_add, BitVec.toNat_mul, hv]
    simp only [BitVec.toNat_ofNat]
    omega
  refine ⟨?_, ?_, ?_, h.chunk_lt⟩
  · simp only [List.length_append, List.length_singleton, h.len]; omega
  · rw [decVal_append, h.val, hval]
    simp only [List.length_singleton, decVal, List.foldl_cons, List.foldl_nil, pow_succ]
    ring
  · simp only [hval, pow_succ]
    omega

/-! ### The chunk loop -/

theorem setPos_self (st : ParsingState) : { st with posRadixPoint := st.posRadixPoint } = st := rfl

/-- Invariant of the reading loops: the digits `ds` are held, and reading on character by character
gives what reading the whole character by character would give. -/
structure ReadInv (s : List (BitVec 8)) (st : ParsingState) (r : ReadState) (ds : List ℕ) : Prop where
  holds : r.ps.Holds ds
  n : r.nDigits = ds.length
  le : ds.length ≤ 77
  scan : scan s 77 st.posRadixPoint = pre ds (scan r.lit.bytes (77 - ds.length) r.lit.state.posRadixPoint)
  state : r.lit.state = { st with posRadixPoint := r.lit.state.posRadixPoint }
  done : r.done = false

theorem take_digits {s : List (BitVec 8)} {k : BitVec 64} (hk : readU64 s = some k) :
    (chunkContains8Digits k = true ↔ ∀ c ∈ s.take 8, IsDigit c.toNat) := by
  rw [chunkContains8Digits_iff, (readU64_spec s hk).2]
  exact List.forall_mem_map

theorem take_dot {s : List (BitVec 8)} {k : BitVec 64} (hk : readU64 s = some k) (p : ℕ) :
    (chunkContains7DigitsAndADotAt k = some p ↔ ∃ a b, s.take 8 = a ++ 46#8 :: b ∧
      (∀ c ∈ a, IsDigit c.toNat) ∧ (∀ c ∈ b, IsDigit c.toNat) ∧ p = b.length) := by
  rw [dot_iff, (readU64_spec s hk).2]
  constructor
  · rintro ⟨A, B, h, hA, hB, hp⟩
    obtain ⟨a, b', h1, h2, h3⟩ := List.map_eq_append_iff.mp h
    obtain ⟨c, b, rfl, h4, h5⟩ := List.map_eq_cons_iff.mp h3
    have hc : c = 46#8 := BitVec.eq_of_toNat_eq h4
    subst hc h2 h5
    refine ⟨a, b, h1, ?_, ?_, by simpa using hp⟩
    · intro c hc; exact hA _ (List.mem_map_of_mem hc)
    · intro c hc; exact hB _ (List.mem_map_of_mem hc)
  · rintro ⟨a, b, h, ha, hb, hp⟩
    refine ⟨a.map BitVec.toNat, b.map BitVec.toNat, by rw [h]; simp, ?_, ?_, by simpa using hp⟩
    · intro c hc
      obtain ⟨x, hx, rfl⟩ := List.mem_map.mp hc
      exact ha x hx
    · intro c hc
      obtain ⟨x, hx, rfl⟩ := List.mem_map.mp hc
      exact hb x hx

/-- Reading on over eight characters with a dot among them -/
theorem scan_dot8 {a b : List (BitVec 8)} (ha : ∀ c ∈ a, IsDigit c.toNat)
    (hb : ∀ c ∈ b, IsDigit c.toNat) (hl : a.length + b.length = 7) (t : List (BitVec 8)) (m : ℕ) :
    scan (a ++ 46#8 :: b ++ t) (m + 8) none =
      pre (digs (a ++ b)) (scan t (m + 1) (some (b.length + t.length + 1))) := by
  rw [List.append_assoc, show m + 8 = a.length + (b.length + m + 1) by omega, scan_digits ha,
    List.cons_append, scan_dot, show b.length + m + 1 = b.length + (m + 1) by omega, scan_digits hb,
    pre_pre, digs_append, List.length_append]

theorem scan_dot8_some {a b : List (BitVec 8)} (ha : ∀ c ∈ a, IsDigit c.toNat)
    (hl : a.length + b.length = 7) (t : List (BitVec 8)) (m p : ℕ) :
    scan (a ++ 46#8 :: b ++ t) (m + 8) (some p) = none := by
  rw [List.append_assoc, show m + 8 = a.length + (b.length + m + 1) by omega, scan_digits ha,
    List.cons_append, scan_dot_some, pre_none]

theorem first_eq (l : Lit) : l.first = l.bytes.head? := rfl

theorem first_notdigit {l : List (BitVec 8)} (h : ∀ c ∈ l.head?, ¬ IsDigit c.toNat)
    (hl : 8 ≤ l.length) : ¬ ∀ c ∈ l.take 8, IsDigit c.toNat := by
  cases l with
  | nil => simp at hl
  | cons c t =>
    intro hh
    exact h c (by simp) (hh c (by simp))

/-- What the chunk loop leaves: either the invariant, with at most 7 more digits to come, or a second
radix point. -/
theorem readChunks_spec (s : List (BitVec 8)) (st : ParsingState) : ∀ (fuel : ℕ) (r : ReadState)
    (ds : List ℕ), ReadInv s st r ds → r.lit.bytes.length ≤ fuel →
    (r.ps.nRem = 0 ∨ (r.ps.nRem = 7 ∧ r.lit.state.posRadixPoint.isSome ∧
      ∀ c ∈ r.lit.bytes.head?, ¬ IsDigit c.toNat)) →
    ∃ r', readChunks fuel r = some r' ∧
      ((r'.done = true ∧ r'.lit.state.invalid = true ∧ scan s 77 st.posRadixPoint = none) ∨
       (∃ es, ReadInv s st r' es ∧ ∀ ms q p, scan r'.lit.bytes (77 - es.length)
          r'.lit.state.posRadixPoint = some (ms, q, p) → r'.ps.nRem + ms.length ≤ 7)) := by
  intro fuel
  induction fuel with
  | zero =>
    intro r ds h hf hrem
    refine ⟨r, rfl, Or.inr ⟨ds, h, ?_⟩⟩
    intro ms q p hs
    have := (scan_len hs).2
    have : ms.length = 0 := by omega
    rcases hrem with h0 | h0 <;> omega
  | succ fuel ih =>
    intro r ds h hf hrem
    -- leaving the loop
    have hstop : (r.ps.nRem = 0 → ∀ ms q p, scan r.lit.bytes (77 - ds.length)
        r.lit.state.posRadixPoint = some (ms, q, p) → ms.length ≤ 7) →
        ∀ ms q p, scan r.lit.bytes (77 - ds.length)
          r.lit.state.posRadixPoint = some (ms, q, p) → r.ps.nRem + ms.length ≤ 7 := by
      intro hh ms q p hs
      rcases hrem with h0 | ⟨h7, hp, hd⟩
      · have := hh h0 ms q p hs
        omega
      · obtain ⟨p0, hp0⟩ := Option.isSome_iff_exists.mp hp
        have : ms = [] := by
          cases hb : r.lit.bytes with
          | nil =>
            rw [hb, scan_nil] at hs
            simp only [Option.some.injEq, Prod.mk.injEq] at hs
            exact hs.1.symm
          | cons c t =>
            rw [hb] at hs hd
            have hc := hd c (by simp)
            by_cases hdot : c = 46#8
            · subst hdot
              cases hm : 77 - ds.length with
              | zero =>
                rw [hm, scan_zero] at hs
                simp only [Option.some.injEq, Prod.mk.injEq] at hs
                exact hs.1.symm
              | succ m =>
                rw [hm, hp0, scan_dot_some] at hs
                cases hs
            · rw [scan_stop] at hs
              · simp only [Option.some.injEq, Prod.mk.injEq] at hs
                exact hs.1.symm
              · intro x hx
                simp only [List.head?_cons, Option.mem_def, Option.some.injEq] at hx
                subst hx
                exact ⟨hc, hdot⟩
        subst this
        simp only [List.length_nil]
        omega
    rw [readChunks]
    have hn := h.n
    by_cases hlim : r.nDigits ≤ PartialSignif.maxNDigits - 8
    · rw [if_pos hlim]
      have h69 : ds.length ≤ 69 := by
        rw [hn] at hlim
        exact hlim
      obtain ⟨m, hm⟩ : ∃ m, 77 - ds.length = m + 8 := ⟨77 - ds.length - 8, by omega⟩
      have hscan := h.scan
      cases hk : readU64 r.lit.bytes with
      | none =>
        refine ⟨r, rfl, Or.inr ⟨ds, h, hstop ?_⟩⟩
        intro _ ms q p hs
        have h8 := (readU64_none _).mp hk
        have := (scan_len hs).2
        omega
      | some k =>
        dsimp only
        obtain ⟨h8, hb8⟩ := readU64_spec _ hk
        have hsplit := List.take_append_drop 8 r.lit.bytes
        have hdroplen : (r.lit.bytes.drop 8).length ≤ fuel := by
          rw [List.length_drop]; omega
        by_cases hdig : chunkContains8Digits k = true
        · rw [if_pos hdig]
          have hall := (take_digits hk).mp hdig
          have h0 : r.ps.nRem = 0 := by
            rcases hrem with h0 | ⟨-, -, hd⟩
            · exact h0
            · exact absurd hall (first_notdigit hd h8)
          have hlen8 : (r.lit.bytes.take 8).length = 8 := by rw [List.length_take]; omega
          have hv : (chunkToU64 k).toNat = decVal (digs (r.lit.bytes.take 8)) := by
            rw [chunkToU64_digits ((chunkContains8Digits_iff k).mp hdig), hb8]
            exact strVal_codes _
          obtain ⟨p', hp', hH, hn0⟩ := Holds.addChunk h.holds h0 h69
            (by rw [digs_length]; exact hlen8) (digs_lt hall) hv
          rw [hp']
          refine ih _ (ds ++ digs (r.lit.bytes.take 8)) ⟨hH, ?_, ?_, ?_, ?_, h.done⟩ hdroplen (Or.inl hn0)
          · simp only [List.length_append, digs_length, hlen8, hn]
          · simp only [List.length_append, digs_length, hlen8]; omega
          · rw [hscan]
            simp only [List.length_append, digs_length, hlen8, Lit.skip]
            conv_lhs => rw [← hsplit]
            rw [← pre_pre, show 77 - ds.length = (r.lit.bytes.take 8).length + (77 - (ds.length + 8)) by
              omega, scan_digits hall]
          · exact h.state
        · rw [if_neg hdig]
          cases hp : chunkContains7DigitsAndADotAt k with
          | none =>
            refine ⟨r, rfl, Or.inr ⟨ds, h, hstop ?_⟩⟩
            intro _ ms q p hs
            by_contra hlt
            rcases scan_prefix hs (k := 8) (by omega) with hh | ⟨-, a, b, he, ha, hb⟩
            · exact hdig ((take_digits hk).mpr hh)
            · rw [(take_dot hk b.length).mpr ⟨a, b, he, ha, hb, rfl⟩] at hp
              cases hp
          | some p =>
            dsimp only
            obtain ⟨a, b, he, ha, hb, rfl⟩ := (take_dot hk p).mp hp
            have hlen : a.length + b.length = 7 := by
              have := congrArg List.length he
              rw [List.length_take, List.length_append, List.length_cons] at this
              omega
            rw [he] at hsplit
            cases hpos : r.lit.state.posRadixPoint with
            | some p0 =>
              rw [if_pos (by rfl)]
              refine ⟨_, rfl, Or.inl ⟨rfl, rfl, ?_⟩⟩
              rw [hscan, hpos, ← hsplit, hm, scan_dot8_some ha hlen, pre_none]
            | none =>
              rw [if_neg (by simp)]
              have h0 : r.ps.nRem = 0 := by
                rcases hrem with h0 | ⟨-, hd, -⟩
                · exact h0
                · rw [hpos] at hd; cases hd
              have hposval : r.lit.len - (7 - b.length) =
                  b.length + (r.lit.bytes.drop 8).length + 1 := by
                rw [Lit.len, List.length_drop]; omega
              have hcodes : Props.codes (r.lit.bytes.take 8) =
                  Props.codes a ++ 46 :: Props.codes b := by
                rw [he]; simp [Props.codes]
              have hda : ∀ c ∈ Props.codes a, IsDigit c := by
                intro c hc
                obtain ⟨x, hx, rfl⟩ := List.mem_map.mp hc
                exact ha x hx
              have hdb : ∀ c ∈ Props.codes b, IsDigit c := by
                intro c hc
                obtain ⟨x, hx, rfl⟩ := List.mem_map.mp hc
                exact hb x hx
              have hcl : (Props.codes b).length = b.length := by simp [Props.codes]
              have hab : ∀ c ∈ a ++ b, IsDigit c.toNat := by
                intro c hc
                rcases List.mem_append.mp hc with hc | hc
                exacts [ha c hc, hb c hc]
              -- no digit behind: seven digits
              have seven : (∀ c ∈ (r.lit.bytes.drop 8).head?, ¬ IsDigit c.toNat) →
                  ∃ r', readChunks fuel { r with
                      ps := { r.ps with rem := chunkToU64 (eliminateByteFromChunk k b.length <<< 8), nRem := 7 },
                      nDigits := r.nDigits + 7,
                      lit := (setRadixPoint r.lit (r.lit.len - (7 - b.length))).skip 8 } = some r' ∧
                  ((r'.done = true ∧ r'.lit.state.invalid = true ∧ scan s 77 st.posRadixPoint = none) ∨
                   (∃ es, ReadInv s st r' es ∧ ∀ ms q p, scan r'.lit.bytes (77 - es.length)
                      r'.lit.state.posRadixPoint = some (ms, q, p) → r'.ps.nRem + ms.length ≤ 7)) := by
                intro hnd
                obtain ⟨k', hk', hv⟩ := Props.C43_dot_value7 r.lit.bytes _ _ h8 hcodes hda hdb
                rw [hk] at hk'
                cases hk'
                rw [hcl] at hv
                have hv' : (chunkToU64 (eliminateByteFromChunk k b.length <<< 8)).toNat =
                    decVal (digs (a ++ b)) := by
                  rw [hv, ← strVal_codes]; simp [Props.codes]
                have hl7 : (digs (a ++ b)).length = 7 := by
                  rw [digs_length, List.length_append, hlen]
                have hH := Holds.setRem h.holds h0 (digs_lt hab) hv'
                rw [hl7] at hH
                refine ih _ (ds ++ digs (a ++ b)) ⟨hH, ?_, ?_, ?_, ?_, h.done⟩ hdroplen
                  (Or.inr ⟨rfl, rfl, hnd⟩)
                · simp only [List.length_append, hl7, hn]
                · simp only [List.length_append, hl7]; omega
                · rw [hscan, hpos, ← pre_pre]
                  simp only [List.length_append, hl7, Lit.skip, setRadixPoint]
                  conv_lhs => rw [← hsplit]
                  rw [hm, scan_dot8 ha hb hlen, hposval]
                  congr 3
                  omega
                · simp only [Lit.skip, setRadixPoint]
                  rw [h.state]
              cases hfirst : ((setRadixPoint r.lit (r.lit.len - (7 - b.length))).skip 8).first with
              | none =>
                dsimp only
                refine seven ?_
                intro c hc
                rw [first_eq] at hfirst
                simp only [Lit.skip, setRadixPoint] at hfirst
                rw [hfirst] at hc
                cases hc
              | some d =>
                rw [first_eq] at hfirst
                simp only [Lit.skip, setRadixPoint] at hfirst
                dsimp only
                by_cases hd : IsDigit d.toNat
                · rw [if_pos ((isDig_iff d).mpr hd)]
                  obtain ⟨k', hk', hv⟩ := Props.C43_dot_value r.lit.bytes _ _ h8 hcodes hda hdb d hd
                  rw [hk] at hk'
                  cases hk'
                  rw [hcl] at hv
                  have hv' : (chunkToU64 (eliminateByteFromChunk k b.length |||
                      (d.setWidth 64 <<< 56))).toNat = decVal (digs (a ++ b ++ [d])) := by
                    rw [hv, ← strVal_codes]; simp [Props.codes]
                  have hl8 : (digs (a ++ b ++ [d])).length = 8 := by
                    rw [digs_length, List.length_append, List.length_append, List.length_singleton]
                    omega
                  have habd : ∀ c ∈ a ++ b ++ [d], IsDigit c.toNat := by
                    intro c hc
                    rcases List.mem_append.mp hc with hc | hc
                    · exact hab c hc
                    · rw [List.mem_singleton] at hc
                      rw [hc]; exact hd
                  obtain ⟨p', hp', hH, hn0⟩ := Holds.addChunk h.holds h0 h69 hl8 (digs_lt habd) hv'
                  rw [hp']
                  obtain ⟨t, ht⟩ : ∃ t, r.lit.bytes.drop 8 = d :: t := by
                    cases hdd : r.lit.bytes.drop 8 with
                    | nil => rw [hdd] at hfirst; cases hfirst
                    | cons x t =>
                      rw [hdd] at hfirst
                      simp only [List.head?_cons, Option.some.injEq] at hfirst
                      exact ⟨t, by rw [hfirst]⟩
                  refine ih _ (ds ++ digs (a ++ b ++ [d])) ⟨hH, ?_, ?_, ?_, ?_, h.done⟩ ?_ (Or.inl hn0)
                  · simp only [List.length_append, hl8, hn]
                  · simp only [List.length_append, hl8]; omega
                  · rw [hscan, hpos, ← pre_pre]
                    simp only [List.length_append, hl8, Lit.skip, setRadixPoint]
                    conv_lhs => rw [← hsplit]
                    rw [hm, scan_dot8 ha hb hlen, hposval, ht, scan_digit hd, digs_append_single,
                      ← pre_pre (digs (a ++ b)), List.drop_one, List.tail_cons,
                      show 77 - (ds.length + 8) = m by omega]
                  · simp only [Lit.skip, setRadixPoint]
                    rw [h.state]
                  · simp only [Lit.skip, setRadixPoint, List.length_drop] at hdroplen ⊢
                    omega
                · rw [if_neg (by rw [isDig_iff]; exact hd)]
                  refine seven ?_
                  intro c hc
                  rw [hfirst] at hc
                  simp only [Option.mem_def, Option.some.injEq] at hc
                  rw [← hc]
                  exact hd
    · rw [if_neg hlim]
      refine ⟨r, rfl, Or.inr ⟨ds, h, hstop ?_⟩⟩
      intro _ ms q p hs
      have := (scan_len hs).1
      have : ¬ ds.length ≤ 69 := by rw [← hn]; exact hlim
      omega

/-! ### Single digits -/

/-- A second radix point ends the loop. -/
theorem readSingles_none : ∀ (fuel : ℕ) (r : ReadState), r.lit.bytes.length ≤ fuel →
    ∀ n, r.nDigits = n → n ≤ 77 → scan r.lit.bytes (77 - n) r.lit.state.posRadixPoint = none →
    (readSingles fuel r).done = true ∧ (readSingles fuel r).lit.state.invalid = true := by
  intro fuel
  induction fuel with
  | zero =>
    intro r hf n hn h77 hs
    have hb : r.lit.bytes = [] := List.length_eq_zero_iff.mp (by omega)
    rw [hb, scan_nil] at hs
    cases hs
  | succ fuel ih =>
    intro r hf n hn h77 hs
    rw [readSingles, first_eq]
    cases hb : r.lit.bytes with
    | nil => rw [hb, scan_nil] at hs; cases hs
    | cons c t =>
      rw [hb] at hs hf
      simp only [List.length_cons] at hf
      simp only [List.head?_cons]
      by_cases hlim : n < 77
      · rw [if_pos (by rw [hn]; exact hlim)]
        obtain ⟨m, hm⟩ : ∃ m, 77 - n = m + 1 := ⟨77 - n - 1, by omega⟩
        have hm' : 77 - (n + 1) = m := by omega
        by_cases hd : IsDigit c.toNat
        · rw [if_pos ((isDig_iff c).mpr hd)]
          rw [hm, scan_digit hd] at hs
          refine ih _ ?_ (n + 1) (by simp only [hn]) (by omega) ?_
          · simp only [Lit.skip, hb, List.drop_one, List.tail_cons]; omega
          · simp only [Lit.skip, hb, List.drop_one, List.tail_cons, hm']
            cases hx : scan t m r.lit.state.posRadixPoint with
            | none => rfl
            | some x => rw [hx, pre_some] at hs; cases hs
        · rw [if_neg (by rw [isDig_iff]; exact hd)]
          by_cases hdot : c = 46#8
          · rw [if_pos hdot]
            subst hdot
            cases hpos : r.lit.state.posRadixPoint with
            | some p0 =>
              rw [if_pos (by rfl)]
              exact ⟨rfl, rfl⟩
            | none =>
              rw [if_neg (by simp)]
              rw [hpos, hm, scan_dot] at hs
              have hlen : r.lit.len = t.length + 1 := by rw [Lit.len, hb]; rfl
              refine ih _ ?_ n hn h77 ?_
              · simp only [Lit.skip, setRadixPoint, hb, List.drop_one, List.tail_cons]; omega
              · rw [← hs, hm]
                simp [Lit.skip, setRadixPoint, hb, hlen]
          · have hstop : Stop (c :: t) := by
              intro x hx
              simp only [List.head?_cons, Option.mem_def, Option.some.injEq] at hx
              subst hx
              exact ⟨hd, hdot⟩
            rw [scan_stop hstop] at hs
            cases hs
      · rw [show 77 - n = 0 by omega, scan_zero] at hs
        cases hs

theorem readSingles_chunks : ∀ (fuel : ℕ) (r : ReadState),
    (readSingles fuel r).ps.chunks = r.ps.chunks := by
  intro fuel
  induction fuel with
  | zero => intro r; rfl
  | succ fuel ih =>
    intro r
    rw [readSingles]
    split
    · rfl
    · split_ifs
      · rw [ih]
      · rfl
      · rw [ih]
      · rfl
      · rfl

theorem readSingles_spec (s : List (BitVec 8)) (st : ParsingState) : ∀ (fuel : ℕ) (r : ReadState)
    (ds : List ℕ), ReadInv s st r ds → r.lit.bytes.length ≤ fuel →
    (∀ ms q p, scan r.lit.bytes (77 - ds.length) r.lit.state.posRadixPoint = some (ms, q, p) →
      r.ps.nRem + ms.length ≤ 7) → r.ps.nRem ≤ 8 →
    ((readSingles fuel r).done = true ∧ (readSingles fuel r).lit.state.invalid = true ∧
        scan s 77 st.posRadixPoint = none) ∨
       (∃ es, ReadInv s st (readSingles fuel r) es ∧ scan s 77 st.posRadixPoint =
          some (es, (readSingles fuel r).lit.bytes, (readSingles fuel r).lit.state.posRadixPoint)) := by
  intro fuel
  induction fuel with
  | zero =>
    intro r ds h hf hrem _
    right
    refine ⟨ds, h, ?_⟩
    have hb : r.lit.bytes = [] := List.length_eq_zero_iff.mp (by omega)
    rw [h.scan]
    simp only [readSingles, hb, scan_nil, pre_some, List.append_nil]
  | succ fuel ih =>
    intro r ds h hf hrem h8
    have hn := h.n
    have hscan := h.scan
    rw [readSingles, first_eq]
    cases hb : r.lit.bytes with
    | nil =>
      simp only [List.head?_nil]
      right
      refine ⟨ds, h, ?_⟩
      rw [hscan]
      simp only [hb, scan_nil, pre_some, List.append_nil]
    | cons c t =>
      rw [hb] at hscan hrem hf
      simp only [List.head?_cons]
      by_cases hlim : r.nDigits < PartialSignif.maxNDigits
      · rw [if_pos hlim]
        have h77 : ds.length < 77 := by rw [← hn]; exact hlim
        obtain ⟨m, hm⟩ : ∃ m, 77 - ds.length = m + 1 := ⟨77 - ds.length - 1, by omega⟩
        have hm' : 77 - (ds.length + 1) = m := by omega
        by_cases hd : IsDigit c.toNat
        · rw [if_pos ((isDig_iff c).mpr hd)]
          rw [hm, scan_digit hd] at hrem hscan
          have hskip : (r.lit.skip 1).bytes = t := by simp [Lit.skip, hb]
          -- a second radix point may follow, then nothing is known about the number of digits;
          -- the held digits stay below the limit in any case
          by_cases hnone : scan t m r.lit.state.posRadixPoint = none
          · -- the remaining characters contain a second radix point
            have key := readSingles_none fuel { r with
                ps := { r.ps with rem := r.ps.rem * 10#64 + (c - 48#8).setWidth 64,
                                  nRem := r.ps.nRem + 1 },
                nDigits := r.nDigits + 1, lit := r.lit.skip 1 }
              (by simp only [hskip]; simp only [List.length_cons] at hf; omega) (ds.length + 1)
              (by simp only [hn]) (by omega) (by simp only [hskip, hm']; exact hnone)
            left
            refine ⟨key.1, key.2, ?_⟩
            rw [hscan, hnone, pre_none, pre_none]
          · obtain ⟨⟨ms, q, p⟩, hs⟩ := Option.ne_none_iff_exists'.mp hnone
            have hlen := hrem _ _ _ (by rw [hs, pre_some])
            simp only [List.length_append, List.length_singleton] at hlen
            have hdv : ((c - 48#8).setWidth 64).toNat = c.toNat - 48 := by
              have := (c - 48#8).isLt
              rw [BitVec.toNat_setWidth, Nat.mod_eq_of_lt (by omega), dig_val hd]
            have hd2 := hd.2
            have hH := Holds.push h.holds h8 (d := c.toNat - 48) (by omega) hdv
            refine ih _ (ds ++ [c.toNat - 48]) ⟨hH, ?_, ?_, ?_, ?_, h.done⟩ ?_ ?_ ?_
            · simp only [List.length_append, List.length_singleton, hn]
            · simp only [List.length_append, List.length_singleton]; omega
            · rw [hscan, pre_pre]
              simp only [List.length_append, List.length_singleton, hskip, hm']
              rfl
            · exact h.state
            · simp only [hskip]
              simp only [List.length_cons] at hf
              omega
            · intro ms' q' p' hs'
              simp only [List.length_append, List.length_singleton, hskip, hm'] at hs'
              rw [show (r.lit.skip 1).state = r.lit.state from rfl, hs] at hs'
              simp only [Option.some.injEq, Prod.mk.injEq] at hs'
              rw [← hs'.1]
              simp only
              omega
            · simp only; omega
        · rw [if_neg (by rw [isDig_iff]; exact hd)]
          by_cases hdot : c = 46#8
          · rw [if_pos hdot]
            subst hdot
            cases hpos : r.lit.state.posRadixPoint with
            | some p0 =>
              rw [if_pos (by rfl)]
              left
              refine ⟨rfl, rfl, ?_⟩
              rw [hscan, hpos, hm, scan_dot_some, pre_none]
            | none =>
              rw [if_neg (by simp)]
              rw [hpos, hm, scan_dot] at hrem hscan
              have hlen : r.lit.len = t.length + 1 := by rw [Lit.len, hb]; rfl
              refine ih _ ds ⟨h.holds, hn, h.le, ?_, ?_, h.done⟩ ?_ ?_ h8
              · rw [hscan, hm]
                simp [Lit.skip, setRadixPoint, hb, hlen]
              · simp only [Lit.skip, setRadixPoint]
                rw [h.state]
              · simp only [Lit.skip, setRadixPoint, hb]
                simp only [List.length_cons] at hf
                simp only [List.drop_one, List.tail_cons]
                omega
              · intro ms q p hs
                refine hrem ms q p ?_
                rw [← hs, hm]
                simp [Lit.skip, setRadixPoint, hb, hlen]
          · rw [if_neg hdot]
            right
            refine ⟨ds, h, ?_⟩
            have hstop : Stop (c :: t) := by
              intro x hx
              simp only [List.head?_cons, Option.mem_def, Option.some.injEq] at hx
              subst hx
              exact ⟨hd, hdot⟩
            rw [hscan, scan_stop hstop, pre_some, List.append_nil, hb]
      · rw [if_neg hlim]
        right
        refine ⟨ds, h, ?_⟩
        have : 77 - ds.length = 0 := by
          have : ¬ ds.length < 77 := by rw [← hn]; exact hlim
          omega
        rw [hscan, this, scan_zero, pre_some, List.append_nil, hb]

/-! ### The digits that do not fit -/

theorem readTail_spec : ∀ (fuel n : ℕ) (l : Lit) (m : ℕ), l.bytes.length ≤ fuel →
    l.bytes.length < m →
    ((readTail fuel n l).2.2 = true ∧ (readTail fuel n l).2.1.state.invalid = true ∧
        scan l.bytes m l.state.posRadixPoint = none) ∨
    ((readTail fuel n l).2.2 = false ∧ ∃ ts, scan l.bytes m l.state.posRadixPoint =
        some (ts, (readTail fuel n l).2.1.bytes, (readTail fuel n l).2.1.state.posRadixPoint) ∧
      (readTail fuel n l).1 = n + (ts.filter (· ≠ 0)).length ∧
      (readTail fuel n l).2.1.state =
        { l.state with posRadixPoint := (readTail fuel n l).2.1.state.posRadixPoint }) := by
  intro fuel
  induction fuel with
  | zero =>
    intro n l m hf hm
    have hb : l.bytes = [] := List.length_eq_zero_iff.mp (by omega)
    right
    refine ⟨rfl, [], ?_, by simp [readTail], rfl⟩
    rw [hb, scan_nil, readTail, hb]
  | succ fuel ih =>
    intro n l m hf hm
    rw [readTail, first_eq]
    cases hb : l.bytes with
    | nil =>
      right
      refine ⟨rfl, [], ?_, by simp, rfl⟩
      rw [scan_nil]
      simp only [List.head?_nil, hb]
    | cons c t =>
      rw [hb] at hf hm
      simp only [List.length_cons] at hf hm
      obtain ⟨m, rfl⟩ : ∃ k, m = k + 1 := ⟨m - 1, by omega⟩
      have hskip : (l.skip 1).bytes = t := by simp [Lit.skip, hb]
      simp only [List.head?_cons]
      by_cases h1 : 49 ≤ c.toNat ∧ c.toNat ≤ 57
      · rw [if_pos h1]
        have hd : IsDigit c.toNat := ⟨by omega, h1.2⟩
        rw [scan_digit hd]
        rcases ih (n + 1) (l.skip 1) m (by rw [hskip]; omega) (by rw [hskip]; omega) with
          ⟨i1, i2, i3⟩ | ⟨i1, ts, i2, i3, i4⟩
        · left
          rw [hskip] at i3
          exact ⟨i1, i2, by rw [show l.state = (l.skip 1).state from rfl, i3, pre_none]⟩
        · right
          rw [hskip] at i2
          refine ⟨i1, (c.toNat - 48) :: ts, ?_, ?_, i4⟩
          · rw [show l.state = (l.skip 1).state from rfl, i2, pre_some]
            rfl
          · rw [i3, List.filter_cons_of_pos (by simp; omega), List.length_cons]
            omega
      · rw [if_neg h1]
        by_cases hdot : c = 46#8
        · rw [if_pos hdot]
          subst hdot
          cases hpos : l.state.posRadixPoint with
          | some p0 =>
            rw [if_pos (by rfl)]
            left
            exact ⟨rfl, rfl, scan_dot_some _ _ _⟩
          | none =>
            rw [if_neg (by simp), scan_dot]
            have hlen : l.len = t.length + 1 := by rw [Lit.len, hb]; rfl
            have hb2 : ((setRadixPoint l l.len).skip 1).bytes = t := by
              simp [Lit.skip, setRadixPoint, hb]
            have hp2 : ((setRadixPoint l l.len).skip 1).state.posRadixPoint = some (t.length + 1) := by
              simp [Lit.skip, setRadixPoint, hlen]
            rcases ih n ((setRadixPoint l l.len).skip 1) (m + 1) (by rw [hb2]; omega)
              (by rw [hb2]; omega) with ⟨i1, i2, i3⟩ | ⟨i1, ts, i2, i3, i4⟩
            · left
              rw [hb2, hp2] at i3
              exact ⟨i1, i2, i3⟩
            · right
              rw [hb2, hp2] at i2
              exact ⟨i1, ts, i2, i3, i4⟩
        · rw [if_neg hdot]
          by_cases h0 : c ≠ 48#8
          · rw [if_pos h0]
            right
            have hstop : Stop (c :: t) := by
              intro x hx
              simp only [List.head?_cons, Option.mem_def, Option.some.injEq] at hx
              subst hx
              refine ⟨?_, hdot⟩
              rintro ⟨h48, h57⟩
              have : c.toNat = 48 := by omega
              exact h0 (BitVec.eq_of_toNat_eq this)
            refine ⟨rfl, [], ?_, by simp, rfl⟩
            rw [scan_stop hstop, hb]
          · rw [if_neg h0]
            have hc : c = 48#8 := by simpa using h0
            subst hc
            have hd : IsDigit (48#8 : BitVec 8).toNat := by decide
            rw [scan_digit hd]
            rcases ih n (l.skip 1) m (by rw [hskip]; omega) (by rw [hskip]; omega) with
              ⟨i1, i2, i3⟩ | ⟨i1, ts, i2, i3, i4⟩
            · left
              rw [hskip] at i3
              exact ⟨i1, i2, by rw [show l.state = (l.skip 1).state from rfl, i3, pre_none]⟩
            · right
              rw [hskip] at i2
              refine ⟨i1, 0 :: ts, ?_, ?_, i4⟩
              · rw [show l.state = (l.skip 1).state from rfl, i2, pre_some]
                rfl
              · rw [i3]
                simp

theorem Stop.of_nil : Stop [] := by simp [Stop]

/-- **The significand reader.** Either there is a second radix point, or the first 77 digits are held
and the rest of the state is as if read character by character. -/
theorem readSignificand_spec (l : Lit) (htr : l.state.signifTruncated = false) (m : ℕ)
    (hm : l.bytes.length < m) :
    (∃ ps l', readSignificand l = some (ps, l') ∧ l'.state.invalid = true ∧
      scan l.bytes (77 + m) l.state.posRadixPoint = none) ∨
    (∃ ps l' ds mid pm ts, readSignificand l = some (ps, l') ∧ ps.Holds ds ∧ ps.nRem ≤ 8 ∧
      scan l.bytes 77 l.state.posRadixPoint = some (ds, mid, pm) ∧
      scan mid m pm = some (ts, l'.bytes, l'.state.posRadixPoint) ∧
      l'.state = { startPosSignif := l.bytes.length, endPosSignif := mid.length,
                   signifTruncated := decide (∃ t ∈ ts, t ≠ 0),
                   posRadixPoint := l'.state.posRadixPoint, invalid := l.state.invalid }) := by
  have hinit : ReadInv l.bytes { l.state with startPosSignif := l.len }
      { ps := {}, lit := { l with state := { l.state with startPosSignif := l.len } }, nDigits := 0 } [] :=
    ⟨holds_empty, rfl, by simp, by rw [pre_nil]; rfl, rfl, rfl⟩
  obtain ⟨r, hr, hcase⟩ := readChunks_spec l.bytes _ l.len _ [] hinit (by exact le_refl _) (Or.inl rfl)
  unfold readSignificand
  dsimp only
  rw [show (Lit.len { l with state := { l.state with startPosSignif := l.len } }) = l.len from rfl, hr]
  dsimp only
  rcases hcase with ⟨hd, hi, hnone⟩ | ⟨es, hinv, hlim⟩
  · rw [if_pos hd]
    left
    refine ⟨_, _, rfl, hi, ?_⟩
    rw [scan_add, show scan l.bytes 77 l.state.posRadixPoint = none from hnone]
    rfl
  · rw [if_neg (by rw [hinv.done]; simp)]
    have hsing : ((readSingles r.lit.len r).done = true ∧
          (readSingles r.lit.len r).lit.state.invalid = true ∧
          scan l.bytes 77 l.state.posRadixPoint = none) ∨
        (∃ es, ReadInv l.bytes { l.state with startPosSignif := l.len } (readSingles r.lit.len r) es ∧
          (readSingles r.lit.len r).ps.nRem ≤ 8 ∧ scan l.bytes 77 l.state.posRadixPoint =
          some (es, (readSingles r.lit.len r).lit.bytes,
            (readSingles r.lit.len r).lit.state.posRadixPoint)) := by
      cases hs : scan r.lit.bytes (77 - es.length) r.lit.state.posRadixPoint with
      | none =>
        left
        have := readSingles_none r.lit.len r (le_refl _) es.length hinv.n hinv.le hs
        refine ⟨this.1, this.2, ?_⟩
        have h2 := hinv.scan
        rw [hs, pre_none] at h2
        exact h2
      | some q =>
        have h7 := hlim _ _ _ hs
        rcases readSingles_spec l.bytes _ r.lit.len r es hinv (le_refl _) hlim (by omega) with h | ⟨fs, hf, hf2⟩
        · exact Or.inl h
        · refine Or.inr ⟨fs, hf, ?_, hf2⟩
          have h2 := hinv.scan
          rw [hs, pre_some] at h2
          have h3 : scan l.bytes 77 l.state.posRadixPoint = some (es ++ q.1, q.2) := h2
          have h4 : scan l.bytes 77 l.state.posRadixPoint = some (fs, _) := hf2
          rw [h3] at h4
          simp only [Option.some.injEq, Prod.mk.injEq] at h4
          have e1 := hf.holds.len
          have e2 := hinv.holds.len
          have e3 := readSingles_chunks r.lit.len r
          rw [← h4.1, List.length_append, e3] at e1
          omega
    rcases hsing with ⟨hd, hi, hnone⟩ | ⟨ds, hinv2, hn8, hs77⟩
    · rw [if_pos hd]
      left
      refine ⟨_, _, rfl, hi, ?_⟩
      rw [scan_add, hnone]
      rfl
    · rw [if_neg (by rw [hinv2.done]; simp)]
      generalize readSingles r.lit.len r = r2 at hinv2 hs77 hn8
      have hlen2 : r2.lit.bytes.length < m := by
        have := (scan_len hs77).2
        omega
      have htail := readTail_spec r2.lit.len 0
        { r2.lit with state := { r2.lit.state with endPosSignif := r2.lit.len } } m (le_refl _) hlen2
      generalize hrt : readTail r2.lit.len 0
        { r2.lit with state := { r2.lit.state with endPosSignif := r2.lit.len } } = rt at htail
      obtain ⟨n, l2, dn⟩ := rt
      rw [show (Lit.len { r2.lit with state := { r2.lit.state with endPosSignif := r2.lit.len } }) =
        r2.lit.len from rfl, hrt]
      dsimp only at htail ⊢
      have hst := hinv2.state
      rcases htail with ⟨hd, hi, hnone⟩ | ⟨hd, ts, hs, hn, hstate⟩
      · rw [if_pos hd]
        left
        refine ⟨_, _, rfl, hi, ?_⟩
        rw [scan_add, hs77]
        simp only [Option.bind_some, hnone, pre_none]
      · rw [if_neg (by rw [hd]; simp)]
        right
        rw [hst] at hstate
        by_cases hpos : n > 0
        · rw [if_pos hpos]
          refine ⟨_, _, ds, r2.lit.bytes, r2.lit.state.posRadixPoint, ts, rfl, hinv2.holds, hn8, hs77, hs, ?_⟩
          have : ∃ t ∈ ts, t ≠ 0 := by
            rw [hn, Nat.zero_add] at hpos
            obtain ⟨t, ht⟩ := List.exists_mem_of_length_pos hpos
            rw [List.mem_filter] at ht
            exact ⟨t, ht.1, by simpa using ht.2⟩
          rw [hstate]
          simp only [this, decide_true]
          rfl
        · rw [if_neg hpos]
          refine ⟨_, _, ds, r2.lit.bytes, r2.lit.state.posRadixPoint, ts, rfl, hinv2.holds, hn8, hs77, hs, ?_⟩
          have : ¬ ∃ t ∈ ts, t ≠ 0 := by
            rintro ⟨t, ht, h0⟩
            have : t ∈ ts.filter (· ≠ 0) := List.mem_filter.mpr ⟨ht, by simpa using h0⟩
            have := List.length_pos_of_mem this
            omega
          rw [hstate, htr]
          simp only [this, decide_false]
          rfl

end Verif
