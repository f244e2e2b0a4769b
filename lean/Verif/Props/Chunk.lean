import Verif.Proofs.Chunk

/-!
# Reading digits eight at a time (C43)

`s : List (BitVec 8)` are the characters still to be read, as bytes. The specification only uses
`Spec.IsDigit` and `Spec.strVal` (the decimal number a string of digits denotes).
-/

namespace Verif.Props

open Verif Verif.Spec

/-- The characters of a string as numbers. -/
def codes (s : List (BitVec 8)) : List ℕ := s.map BitVec.toNat

theorem readU64_some {s : List (BitVec 8)} (h : 8 ≤ s.length) :
    ∃ k, readU64 s = some k ∧ bytes8 k = codes (s.take 8) := by
  cases hr : readU64 s with
  | none => rw [readU64_none] at hr; omega
  | some k => exact ⟨k, rfl, (readU64_spec s hr).2⟩

/-- **C43**: for every string with at least 8 characters, the word-parallel test on its first 8
characters succeeds exactly if all of them are digits. -/
theorem C43_test (s : List (BitVec 8)) (h : 8 ≤ s.length) :
    ∃ k, readU64 s = some k ∧
      (chunkContains8Digits k = true ↔ ∀ c ∈ codes (s.take 8), IsDigit c) := by
  obtain ⟨k, hk, hb⟩ := readU64_some h
  exact ⟨k, hk, by rw [chunkContains8Digits_iff, hb]⟩

/-- **C43**: if they are digits, the word-parallel conversion returns the number they denote. -/
theorem C43_value (s : List (BitVec 8)) (h : 8 ≤ s.length)
    (hd : ∀ c ∈ codes (s.take 8), IsDigit c) :
    ∃ k, readU64 s = some k ∧ (chunkToU64 k).toNat = strVal (codes (s.take 8)) := by
  obtain ⟨k, hk, hb⟩ := readU64_some h
  exact ⟨k, hk, by rw [chunkToU64_digits (by rw [hb]; exact hd), hb]⟩

/-- **C43**: all 2^64 words. -/
theorem C43_words (k : BitVec 64) :
    (chunkContains8Digits k = true ↔ ∀ i < 8, IsDigit (k.toNat / 256 ^ i % 256)) ∧
    (chunkContains8Digits k = true →
      (chunkToU64 k).toNat = strVal ((List.range 8).map fun i => k.toNat / 256 ^ i % 256)) := by
  rw [chunkContains8Digits_iff]
  refine ⟨?_, chunkToU64_digits⟩
  simp [bytes8]

/-- **C43**, the test for seven digits around a dot: it succeeds exactly if the first 8 characters
are digits except for exactly one dot, and reports the number of characters behind the dot. -/
theorem C43_dot (s : List (BitVec 8)) (h : 8 ≤ s.length) (p : ℕ) :
    ∃ k, readU64 s = some k ∧ (chunkContains7DigitsAndADotAt k = some p ↔
      ∃ a b, codes (s.take 8) = a ++ 46 :: b ∧ (∀ c ∈ a, IsDigit c) ∧ (∀ c ∈ b, IsDigit c) ∧
        p = b.length) := by
  obtain ⟨k, hk, hb⟩ := readU64_some h
  exact ⟨k, hk, by rw [dot_iff, hb]⟩

theorem digit_bound {c : ℕ} (h : IsDigit c) : c < 256 ∧ c &&& 15 < 10 := by
  rw [IsDigit.and15 h]
  have := h.2
  have := h.1
  omega

/-- **C43**: in that case removing the dot and appending the next digit gives the number denoted by
the eight digits. -/
theorem C43_dot_value (s : List (BitVec 8)) (a b : List ℕ) (h : 8 ≤ s.length)
    (hs : codes (s.take 8) = a ++ 46 :: b) (ha : ∀ c ∈ a, IsDigit c) (hb : ∀ c ∈ b, IsDigit c)
    (d : BitVec 8) (hd : IsDigit d.toNat) :
    ∃ k, readU64 s = some k ∧
      (chunkToU64 (eliminateByteFromChunk k b.length ||| (d.setWidth 64 <<< 56))).toNat =
        strVal (a ++ b ++ [d.toNat]) := by
  obtain ⟨k, hk, hb8⟩ := readU64_some h
  refine ⟨k, hk, ?_⟩
  rw [hs] at hb8
  have hlen := length_bytes8 k
  rw [hb8, List.length_append, List.length_cons] at hlen
  have hall : ∀ c ∈ a ++ b ++ [d.toNat], IsDigit c := by
    intro c hc
    rw [List.mem_append, List.mem_append, List.mem_singleton] at hc
    rcases hc with (hc | hc) | rfl
    exacts [ha c hc, hb c hc, hd]
  rw [chunkToU64_list (by rw [List.length_append, List.length_append, List.length_singleton]; omega)
    (fun c hc => digit_bound (hall c hc)) (assemble8 hb8 d), strVal,
    List.map_congr_left (fun c hc => IsDigit.and15 (hall c hc))]

/-- **C43**: if no digit follows, removing the dot gives the number denoted by the seven digits. -/
theorem C43_dot_value7 (s : List (BitVec 8)) (a b : List ℕ) (h : 8 ≤ s.length)
    (hs : codes (s.take 8) = a ++ 46 :: b) (ha : ∀ c ∈ a, IsDigit c) (hb : ∀ c ∈ b, IsDigit c) :
    ∃ k, readU64 s = some k ∧
      (chunkToU64 (eliminateByteFromChunk k b.length <<< 8)).toNat = strVal (a ++ b) := by
  obtain ⟨k, hk, hb8⟩ := readU64_some h
  refine ⟨k, hk, ?_⟩
  rw [hs] at hb8
  have hlen := length_bytes8 k
  rw [hb8, List.length_append, List.length_cons] at hlen
  have hall : ∀ c ∈ a ++ b, IsDigit c := by
    intro c hc
    rw [List.mem_append] at hc
    rcases hc with hc | hc
    exacts [ha c hc, hb c hc]
  rw [chunkToU64_list (by rw [List.length_cons, List.length_append]; omega) (fun c hc => ?_)
    (assemble7 hb8), List.map_cons, show 0 &&& 15 = 0 by decide, strVal,
    List.map_congr_left (fun c hc => IsDigit.and15 (hall c hc))]
  · simp [decVal]
  · rw [List.mem_cons] at hc
    rcases hc with rfl | hc
    · simp
    · exact digit_bound (hall c hc)

/-! Strings the theorems apply to: `"90817263e5"` and `"12.34567"`. -/

example : (∀ c ∈ codes (([57, 48, 56, 49, 55, 50, 54, 51, 101, 53] : List (BitVec 8)).take 8),
    IsDigit c) ∧ strVal [57, 48, 56, 49, 55, 50, 54, 51] = 90817263 := by decide

example : chunkContains8Digits 0x3336323731383039 = true ∧
    chunkToU64 0x3336323731383039 = 90817263 := by decide

example : codes (([49, 50, 46, 51, 52, 53, 54, 55] : List (BitVec 8)).take 8) =
    [49, 50] ++ 46 :: [51, 52, 53, 54, 55] := by decide

example : readU64 [49, 50, 46, 51, 52, 53, 54, 55] = some 0x37363534332e3231 ∧
    chunkContains7DigitsAndADotAt 0x37363534332e3231 = some 5 ∧
    chunkContains7DigitsAndADotAt 0x3736352e332e3231 = none ∧
    chunkToU64 (eliminateByteFromChunk 0x37363534332e3231 5 <<< 8) = 1234567 := by decide

/-- Words one byte away from all digits are refused: `'/'` and `':'`, next to the digits. -/
example : chunkContains8Digits 0x2f36323731383039 = false ∧
    chunkContains8Digits 0x3336323a31383039 = false := by decide

end Verif.Props
