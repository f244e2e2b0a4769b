import Mathlib.Data.Nat.Digits.Defs
import Verif.Proofs.ToFixedReal
import Verif.Props.Conv
import Verif.Props.ToStrExact

/-!
# C78: the texts of integers
-/

namespace Verif.Props

open Verif Spec

/-- The decimal digits of `n`, most significant one first -/
def decText (n : ℕ) : List (BitVec 8) :=
  if n = 0 then [48#8] else (Nat.digits 10 n).reverse.map fun d => BitVec.ofNat 8 (48 + d)

theorem decVal_ofDigits (l : List ℕ) : decVal l = Nat.ofDigits 10 l.reverse := by
  induction l using List.reverseRecOn with
  | nil => rfl
  | append_singleton l d ih =>
    rw [decVal_append, ih, List.reverse_append, List.reverse_singleton, List.singleton_append, Nat.ofDigits_cons]
    simp [decVal]
    ring

/-- Digits without a leading zero are those of the number they denote. -/
theorem fixed_unique {s : List (BitVec 8)} {k Z : ℕ} (h : FixedText s k Z) (hk : 0 < k) (hZ : 10 ^ (k - 1) ≤ Z) : s = decText Z := by
  have hp : 0 < Z := lt_of_lt_of_le (by positivity) hZ
  have hd : ∀ d ∈ digs s, d < 10 := by
    intro d hd
    obtain ⟨c, hc, rfl⟩ := List.mem_map.mp hd
    have := h.digit c hc
    unfold IsDigit at this
    omega
  have e : Nat.digits 10 Z = (digs s).reverse := by
    rw [← h.val, decVal_ofDigits]
    refine Nat.digits_ofDigits 10 (by norm_num) _ (fun l hl => hd l (List.mem_reverse.mp hl)) fun hne => ?_
    rw [List.getLast_reverse]
    obtain ⟨c, l, hs⟩ := List.exists_cons_of_ne_nil (l := digs s) fun e => hne (by rw [e]; rfl)
    · intro hc
      simp only [hs, List.head_cons] at hc
      have hv := h.val
      have hl : (digs s).length = k := by rw [← h.len]; simp [digs]
      rw [hs, List.length_cons] at hl
      rw [hs, decVal_cons, hc, Nat.zero_mul, Nat.zero_add] at hv
      have hlt := decVal_lt (ds := l) fun d hm => hd d (by rw [hs]; exact List.mem_cons_of_mem _ hm)
      rw [hv, show l.length = k - 1 by omega] at hlt
      omega
  rw [decText, if_neg hp.ne', e, List.reverse_reverse, digs, List.map_map]
  conv_lhs => rw [← List.map_id s]
  refine List.map_congr_left fun c hc => ?_
  have hc1 := h.digit c hc
  unfold IsDigit at hc1
  rw [Function.comp_apply, id_eq]
  apply BitVec.eq_of_toNat_eq
  rw [BitVec.toNat_ofNat]
  have := c.isLt
  omega

/-- The text of an integer: the decimal digits of its absolute value, after `-` if it is negative -/
def intDec (n : ℤ) : List (BitVec 8) :=
  (if n < 0 then [45#8] else []) ++ decText n.natAbs

/-- C78: an integer below `2^237` in absolute value is printed by `{}` with exactly its decimal digits (and `-` if it is negative), and this
text is read as the same number again, bit for bit. -/
theorem C78_int_text {f : F256} {n : ℤ} (h : Denotes f n) (hn : n.natAbs < 2 ^ 237) :
    f.display = some (intDec n) ∧ F256.fromStr (intDec n) = some (.ok f) := by
  obtain ⟨hf, hv, h0⟩ := h
  rcases Nat.eq_zero_or_pos n.natAbs with h | hp
  · obtain rfl : n = 0 := Int.natAbs_eq_zero.mp h
    obtain rfl : f = F256.ZERO := pat_inj ((h0 rfl).trans (by decide))
    exact ⟨by decide, by decide⟩
  · have habs : |val f.pat| = (n.natAbs : ℝ) := by rw [hv, Nat.cast_natAbs, Int.cast_abs]
    have hpos : (0 : ℝ) < n.natAbs := by exact_mod_cast hp
    obtain ⟨d, h1, h2, h3, h4, -⟩ := int_exact hf hp hn habs
    have hsp : f.isSpecial = false := by
      rw [Bool.eq_false_iff, Ne, isSpecial_iff]
      have hne : f.pat ≠ 0 ∧ f.pat ≠ 2 ^ 255 := by
        rw [← habs] at hpos
        constructor <;> intro h <;> rw [h] at hpos <;> simp [val, significandOf, fracField, expField] at hpos
      have := pat_lt f
      unfold IsFin expField at hf
      unfold INF
      omega
    have hsg : (d.sign == 1) = true ↔ n < 0 := by
      rw [h2, sign_beq, decide_eq_true_iff, ← Int.cast_lt_zero (R := ℝ), ← hv, val_ite]
      rw [← habs] at hpos
      by_cases hs : signBit f.pat = 1
      · simp only [hs, decide_true, if_true, true_iff]; linarith
      · simp only [hs, decide_false, Bool.false_eq_true, if_false, false_iff]; linarith
    have hw : 0 < nat256 d.signif10 := by
      rcases Nat.eq_zero_or_pos (nat256 d.signif10) with h | h
      · rw [h, Nat.zero_mul] at h4; omega
      · exact h
    obtain ⟨s, k, g1, g2, g3, g4⟩ := display_signed h3 hw
    rw [h4] at g3 g4
    obtain rfl := fixed_unique g3 g2 g4
    have e : f.display = some (intDec n) := by
      unfold F256.display F256.formatShortest intDec
      rw [hsp, if_neg (by simp), h1, Option.bind_eq_bind, Option.bind_some, g1]
      simp only [hsg]
    obtain ⟨-, -, -, h5⟩ := C44_int hf hp hn habs
    obtain ⟨L, -, -, -, h6⟩ := h5 _ (Or.inl e)
    exact ⟨e, h6⟩

/-- C78: for every `u128`, `f256::from(n)` is printed as `n` is, and the text of `n` is parsed as `f256::from(n)`. -/
theorem C78_u128 (n : BitVec 128) : (F256.fromU128 n).display = some (intDec n.toNat) ∧
    F256.fromStr (intDec n.toNat) = some (.ok (F256.fromU128 n)) :=
  C78_int_text (C28_u128 n) (lt_trans n.isLt (by norm_num))

/-- C78: for every `i128`, `f256::from(n)` is printed as `n` is, and the text of `n` is parsed as `f256::from(n)`. -/
theorem C78_i128 (n : BitVec 128) : (F256.fromI128 n).display = some (intDec n.toInt) ∧
    F256.fromStr (intDec n.toInt) = some (.ok (F256.fromI128 n)) := by
  refine C78_int_text (C28_i128 n) ?_
  have h1 := BitVec.toInt_lt (x := n)
  have h2 := BitVec.le_toInt n
  norm_num at h1 h2 ⊢
  omega

/-- -1024 is printed as "-1024". -/
example : Denotes (F256.fromI128 (-1024)) (-1024) ∧ (F256.fromI128 (-1024)).display = some [45#8, 49#8, 48#8, 50#8, 52#8] := by
  have h : intDec (-1024) = [45#8, 49#8, 48#8, 50#8, 52#8] := by simp [intDec, decText]
  exact ⟨C28_i128 (-1024), h ▸ (C78_i128 (-1024)).1⟩

end Verif.Props
