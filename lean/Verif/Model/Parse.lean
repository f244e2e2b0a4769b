import Verif.Model.Chunk

/-!
# Model of `src/conv/from_str/common.rs` (part 2) and `src/conv/from_str/float_repr.rs`

Reading a literal into sign, decimal significand and decimal exponent.

Strings are lists of bytes. `usize` values (positions = number of bytes still to be read, counters)
are natural numbers; `i32` arithmetic wraps as in a release build. `get_unchecked` is modelled by
`List.drop`; each call is behind a test that there are enough bytes, as in the code.
-/

namespace Verif

/-- src/conv/from_str/common.rs:72-79 -/
structure ParsingState where
  startPosSignif : Nat := 0
  endPosSignif : Nat := 0
  signifTruncated : Bool := false
  posRadixPoint : Option Nat := none
  invalid : Bool := false
deriving DecidableEq, Repr

/-- src/conv/from_str/common.rs:82-85 -/
structure Lit where
  bytes : List (BitVec 8)
  state : ParsingState := {}
deriving DecidableEq, Repr

namespace Lit

/-- src/conv/from_str/common.rs:102-104 -/
def len (l : Lit) : Nat := l.bytes.length

/-- src/conv/from_str/common.rs:107-120 -/
def skip (n : Nat) (l : Lit) : Lit := { l with bytes := l.bytes.drop n }

/-- src/conv/from_str/common.rs:122-125 -/
def first (l : Lit) : Option (BitVec 8) := l.bytes.head?

/-- src/conv/from_str/common.rs:127-130 -/
def firstEq (l : Lit) (b : BitVec 8) : Bool := l.first == some b

/-- `c.wrapping_sub(b'0') < 10` -/
def isDig (c : BitVec 8) : Bool := decide ((c - 48#8).toNat < 10)

/-- src/conv/from_str/common.rs:132-135 -/
def firstIsDigit (l : Lit) : Bool :=
  match l.first with
  | some c => isDig c
  | none => false

/-- src/conv/from_str/common.rs:142-157: sign and what is left -/
def getSign (l : Lit) : Nat × Lit :=
  match l.first with
  | some c => if c = 45#8 then (1, l.skip 1) else if c = 43#8 then (0, l.skip 1) else (0, l)
  | none => (0, l)

/-- Loop of src/conv/from_str/common.rs:185-198; each round consumes 8 bytes, so the number of bytes
is enough fuel. -/
def skipZeroChunks : Nat → List (BitVec 8) → List (BitVec 8)
  | 0, s => s
  | fuel + 1, s =>
    match readU64 s with
    | some k =>
      if chunkContains8Digits k then
        if chunkToU64 k = 0 then skipZeroChunks fuel (s.drop 8) else s
      else s
    | none => s

/-- src/conv/from_str/common.rs:185-205: the two loops skipping zeroes -/
def skipZeroes (l : Lit) : Lit :=
  { l with bytes := (skipZeroChunks l.len l.bytes).dropWhile (· == 48#8) }

/-- src/conv/from_str/common.rs:183-221 called with `skip_radix_point = false` -/
def skipLeadingZeroesFalse (l : Lit) : Lit :=
  let l := l.skipZeroes
  if l.firstEq 46#8 then
    if l.state.posRadixPoint.isSome then { l with state := { l.state with invalid := true } } else l
  else l

/-- src/conv/from_str/common.rs:183-221 called with `skip_radix_point = true` -/
def skipLeadingZeroes (l : Lit) : Lit :=
  let l := l.skipZeroes
  if l.firstEq 46#8 then
    if l.state.posRadixPoint.isSome then { l with state := { l.state with invalid := true } }
    else skipLeadingZeroesFalse
      (({ l with state := { l.state with posRadixPoint := some l.len } } : Lit).skip 1)
  else l

end Lit

/-- `i32` arithmetic and `as i32` casts of a release build: reduction modulo `2^32`. -/
def wrapI32 (x : Int) : Int := Int.bmod x (2 ^ 32)

/-- `saturating_mul(10).saturating_add(d)` on a non-negative `i32`;
src/conv/from_str/common.rs:262-264 -/
def satPush (e : Int) (d : Nat) : Int := min (min (e * 10) (2 ^ 31 - 1) + d) (2 ^ 31 - 1)

/-- Loop of src/conv/from_str/common.rs:259-272 -/
def expDigits : Int → List (BitVec 8) → Int × List (BitVec 8)
  | e, [] => (e, [])
  | e, c :: t => if Lit.isDig c then expDigits (satPush e (c - 48#8).toNat) t else (e, c :: t)

/-- src/conv/from_str/common.rs:223-279. `none` is the code's `None`. -/
def Lit.parseExponent (l : Lit) : Option (Int × Lit) :=
  match l.first with
  | none => some (0, l)
  | some c =>
    if c = 101#8 ∨ c = 69#8 then
      let l := l.skip 1
      match l.first with
      | none => none
      | some c =>
        let (neg, l) := if c = 45#8 then (true, l.skip 1) else if c = 43#8 then (false, l.skip 1)
          else (false, l)
        -- "Need atleast one digit."
        let r : Option (Int × Lit) :=
          match l.first with
          | some c => if Lit.isDig c then some (((c - 48#8).toNat : Int), l.skip 1) else none
          | none => some (0, l)
        match r with
        | none => none
        | some (e, l) =>
          let (e, rest) := expDigits e l.bytes
          some (if neg then -e else e, { l with bytes := rest })
    else some (0, l)

/-- src/conv/from_str/float_repr.rs:60-65. The array `chunks` and the counter `n_chunks` are the list
of the first `n_chunks` array elements, the last one first. -/
structure PartialSignif where
  chunks : List (BitVec 64) := []
  rem : BitVec 64 := 0
  nRem : Nat := 0
deriving DecidableEq, Repr

namespace PartialSignif

/-- src/conv/from_str/float_repr.rs:74-77; `none`: index out of bounds, the code panics -/
def addChunk (p : PartialSignif) (v : BitVec 64) : Option PartialSignif :=
  if p.chunks.length < 9 then some { p with chunks := v :: p.chunks } else none

/-- Loop of src/conv/from_str/float_repr.rs:87-90 -/
def popZeroes : List (BitVec 64) → List (BitVec 64) × Nat
  | c1 :: c2 :: cs =>
    if c1 = 0 then let (r, n) := popZeroes (c2 :: cs); (r, n + 8) else (c1 :: c2 :: cs, 0)
  | cs => (cs, 0)

/-- Loop of src/conv/from_str/float_repr.rs:95-99; every round decrements `n_rem_digits`. -/
def stripRem : BitVec 64 → Nat → BitVec 64 × Nat × Nat
  | rem, 0 => (rem, 0, 0)
  | rem, n + 1 =>
    if rem % 10#64 = 0 then let (r, m, t) := stripRem (rem / 10#64) n; (r, m, t + 1)
    else (rem, n + 1, 0)

/-- src/conv/from_str/float_repr.rs:83-101: the normalized value and the number of trailing zeroes
removed -/
def normalize (p : PartialSignif) : PartialSignif × Nat :=
  let (p, tz) : PartialSignif × Nat :=
    if p.rem = 0 then
      match popZeroes p.chunks with
      | (c :: cs, n) => ({ chunks := cs, rem := c, nRem := 8 }, p.nRem + n)
      | ([], _) => (p, 0)
    else (p, 0)
  let (r, m, t) := stripRem p.rem p.nRem
  ({ p with rem := r, nRem := m }, tz + t)

/-- src/conv/from_str/float_repr.rs:107-110; `none`: the checked operators overflow -/
def sumChunks (cs : List (BitVec 64)) : Option U256 :=
  cs.foldr (fun c acc => do
    let s ← acc
    let s ← UInt.mul s (U256.new 0 100000000)
    UInt.add s (U256.new 0 (c.setWidth 128))) (some (U256.new 0 0))

/-- src/conv/from_str/float_repr.rs:104-114 (`10_u128.pow` wraps) -/
def significand (p : PartialSignif) : Option U256 := do
  let s ← sumChunks p.chunks
  let s ← UInt.mul s (U256.new 0 (BitVec.ofNat 128 (10 ^ p.nRem)))
  UInt.add s (U256.new 0 (p.rem.setWidth 128))

/-- `PartialSignif::MAX_N_DIGITS`, src/conv/from_str/float_repr.rs:68 -/
def maxNDigits : Nat := 77

end PartialSignif

/-- Result of the chunk loop: `done` is `return` inside the loop (state invalid). -/
structure ReadState where
  ps : PartialSignif
  lit : Lit
  nDigits : Nat
  done : Bool := false
deriving DecidableEq, Repr

def setInvalid (l : Lit) : Lit := { l with state := { l.state with invalid := true } }

def setRadixPoint (l : Lit) (pos : Nat) : Lit :=
  { l with state := { l.state with posRadixPoint := some pos } }

/-- Loop of src/conv/from_str/float_repr.rs:130-186; each round consumes at least 8 bytes, so the
number of bytes is enough fuel. -/
def readChunks : Nat → ReadState → Option ReadState
  | 0, r => some r
  | fuel + 1, r =>
    if r.nDigits ≤ PartialSignif.maxNDigits - 8 then
      match readU64 r.lit.bytes with
      | none => some r
      | some k =>
        if chunkContains8Digits k then do
          let ps ← r.ps.addChunk (chunkToU64 k)
          readChunks fuel { r with ps := ps, nDigits := r.nDigits + 8, lit := r.lit.skip 8 }
        else
          match chunkContains7DigitsAndADotAt k with
          | none => some r
          | some p =>
            if r.lit.state.posRadixPoint.isSome then
              some { r with lit := setInvalid r.lit, done := true }
            else
              let lit := (setRadixPoint r.lit (r.lit.len - (7 - p))).skip 8
              match lit.first with
              | some d =>
                if Lit.isDig d then do
                  let k := eliminateByteFromChunk k p ||| (d.setWidth 64 <<< 56)
                  let ps ← r.ps.addChunk (chunkToU64 k)
                  readChunks fuel { r with ps := ps, nDigits := r.nDigits + 8, lit := lit.skip 1 }
                else
                  let k := eliminateByteFromChunk k p <<< 8
                  readChunks fuel { r with ps := { r.ps with rem := chunkToU64 k, nRem := 7 },
                                           nDigits := r.nDigits + 7, lit := lit }
              | none =>
                let k := eliminateByteFromChunk k p <<< 8
                readChunks fuel { r with ps := { r.ps with rem := chunkToU64 k, nRem := 7 },
                                         nDigits := r.nDigits + 7, lit := lit }
    else some r

/-- Loop of src/conv/from_str/float_repr.rs:188-213; each round consumes one byte. -/
def readSingles : Nat → ReadState → ReadState
  | 0, r => r
  | fuel + 1, r =>
    match r.lit.first with
    | none => r
    | some c =>
      if r.nDigits < PartialSignif.maxNDigits then
        if Lit.isDig c then
          readSingles fuel { r with ps := { r.ps with rem := r.ps.rem * 10#64 + (c - 48#8).setWidth 64,
                                                      nRem := r.ps.nRem + 1 },
                                    nDigits := r.nDigits + 1, lit := r.lit.skip 1 }
        else if c = 46#8 then
          if r.lit.state.posRadixPoint.isSome then { r with lit := setInvalid r.lit, done := true }
          else readSingles fuel { r with lit := (setRadixPoint r.lit r.lit.len).skip 1 }
        else r
      else r

/-- Loop of src/conv/from_str/float_repr.rs:217-234; each round consumes one byte. `n` is the number
of non-zero digits; the last component is `return` inside the loop. -/
def readTail : Nat → Nat → Lit → Nat × Lit × Bool
  | 0, n, l => (n, l, false)
  | fuel + 1, n, l =>
    match l.first with
    | none => (n, l, false)
    | some c =>
      if 49 ≤ c.toNat ∧ c.toNat ≤ 57 then readTail fuel (n + 1) (l.skip 1)
      else if c = 46#8 then
        if l.state.posRadixPoint.isSome then (n, setInvalid l, true)
        else readTail fuel n ((setRadixPoint l l.len).skip 1)
      else if c ≠ 48#8 then (n, l, false)
      else readTail fuel n (l.skip 1)

/-- src/conv/from_str/float_repr.rs:123-239; `none`: panic -/
def readSignificand (l : Lit) : Option (PartialSignif × Lit) :=
  let l := { l with state := { l.state with startPosSignif := l.len } }
  match readChunks l.len { ps := {}, lit := l, nDigits := 0 } with
  | none => none
  | some r =>
    if r.done then some (r.ps, r.lit)
    else
      let r := readSingles r.lit.len r
      if r.done then some (r.ps, r.lit)
      else
        let l := { r.lit with state := { r.lit.state with endPosSignif := r.lit.len } }
        let (n, l, done) := readTail l.len 0 l
        if done then some (r.ps, l)
        else if n > 0 then some (r.ps, { l with state := { l.state with signifTruncated := true } })
        else some (r.ps, l)

/-- src/conv/from_str/float_repr.rs:39-45 -/
structure DecNumRepr where
  sign : Nat
  exponent : Int
  significand : U256
  signifTruncated : Bool
deriving DecidableEq, Repr

/-- src/conv/from_str/float_repr.rs:48-55 -/
inductive FloatRepr where
  | empty
  | invalid
  | nan
  | inf (sign : Nat)
  | number (repr : DecNumRepr)
deriving DecidableEq, Repr

/-- `u8::to_ascii_lowercase` -/
def asciiLower (c : BitVec 8) : BitVec 8 := if 65 ≤ c.toNat ∧ c.toNat ≤ 90 then c + 32#8 else c

/-- `<[u8]>::eq_ignore_ascii_case`, used in src/conv/from_str/common.rs:137-140 -/
def eqIgnoreAsciiCase (a b : List (BitVec 8)) : Bool := a.map asciiLower == b.map asciiLower

/-- src/conv/from_str/float_repr.rs:240-250; "nan", "inf", "infinity" -/
def parseSpecial (l : Lit) (sign : Nat) : FloatRepr :=
  if eqIgnoreAsciiCase l.bytes [110, 97, 110] then .nan
  else if eqIgnoreAsciiCase l.bytes [105, 110, 102] ∨
      eqIgnoreAsciiCase l.bytes [105, 110, 102, 105, 110, 105, 116, 121] then .inf sign
  else .invalid

/-- src/conv/from_str/float_repr.rs:290-330: everything behind the significand. `none`: panic -/
def finishNumber (sign : Nat) (ps : PartialSignif) (lit : Lit) : Option FloatRepr :=
  let pos := lit.state.posRadixPoint.getD lit.len
  match lit.parseExponent with
  | none => some .invalid
  | some (exponent, lit) =>
    if ¬ lit.bytes.isEmpty then some .invalid
    else
      let nInt := lit.state.startPosSignif - pos
      let nTruncInt := nInt - PartialSignif.maxNDigits
      let exponent := wrapI32 (exponent + wrapI32 nTruncInt)
      let nFrac := pos - (lit.state.endPosSignif + 1)
      let exponent := wrapI32 (exponent - wrapI32 nFrac)
      let (ps, tz) := ps.normalize
      let exponent := wrapI32 (exponent + wrapI32 tz)
      match ps.significand with
      | none => none
      | some significand =>
        some (.number { sign := sign, exponent := exponent, significand := significand,
                        signifTruncated := lit.state.signifTruncated })

/-- src/conv/from_str/float_repr.rs:269-330: the literal behind its sign; `none`: panic -/
def parseUnsigned (sign : Nat) (lit : Lit) : Option FloatRepr :=
  let startPos := lit.len
  let lit := lit.skipLeadingZeroes
  if lit.bytes.isEmpty then
    some (.number { sign := 0, exponent := 0, significand := U256.new 0 0, signifTruncated := false })
  else
    match readSignificand lit with
    | none => none
    | some (ps, lit) =>
      if lit.state.invalid then some .invalid
      else if startPos = lit.len then some (parseSpecial lit sign)
      else finishNumber sign ps lit

/-- src/conv/from_str/float_repr.rs:257-331; `none`: panic -/
def FloatRepr.fromStr (s : List (BitVec 8)) : Option FloatRepr :=
  let lit : Lit := { bytes := s }
  if lit.bytes.isEmpty then some .empty
  else
    let (sign, lit) := lit.getSign
    if lit.bytes.isEmpty then some .invalid
    else parseUnsigned sign lit

end Verif
