import Verif.Model.ToStr

/-!
# Model of `Debug`: src/conv/to_str/mod.rs, src/big_uint/uint_generic/mod.rs
-/

namespace Verif

/-- Lower-case hexadecimal digit of the standard library -/
def hexDigit (d : Nat) : BitVec 8 := BitVec.ofNat 8 (if d < 10 then 48 + d else 87 + d)

/-- `{:0width$x}` of an unsigned integer that has at most `width` hexadecimal digits -/
def hexText : Nat → Nat → List (BitVec 8)
  | 0, _ => []
  | width + 1, n => hexText width (n / 16) ++ [hexDigit (n % 16)]

/-- `Debug` of `U256`, src/big_uint/uint_generic/mod.rs:352-364: `(0x…, 0x…)`; the two chunks of `as_vec_u128` are the upper and the lower
half, and a `u128` has at most 32 hexadecimal digits -/
def debugU256 (c : U256) : List (BitVec 8) :=
  [40#8, 48#8, 120#8] ++ hexText 32 c.hi.toNat ++ [44#8, 32#8, 48#8, 120#8] ++ hexText 32 c.lo.toNat ++ [41#8]

/-- The text written by `{:?}`, src/conv/to_str/mod.rs:99-109. `Debug` of a tuple of the standard library writes the elements separated by
`, ` in parentheses. `Debug` of a string encloses it in quotes and escapes some characters, none of which occurs here. The options of the
formatter, which the standard library hands on to the elements, are not modelled. -/
def F256.debug (f : F256) : Option (List (BitVec 8)) :=
  let (sign, exp, signif) := f.splitEnc
  if exp = EXP_MAX then do
    let s ← f.display
    pure (34#8 :: s ++ [34#8])
  else
    some ([40#8] ++ natText sign ++ [44#8, 32#8] ++ intText exp ++ [44#8, 32#8] ++ debugU256 signif ++ [41#8])

end Verif
