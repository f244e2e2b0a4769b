import Verif.Model.ToFixed

/-!
# Model of formatting with width, fill, alignment, sign and zero flag (src/conv/to_str/mod.rs)

Texts are lists of bytes. `none` is a panic. The flag `#` is ignored by the code and left out. For `{:e}` with a
precision see `Verif.Model.Scientific`.
-/

namespace Verif

/-- `Formatter::pad_integral` of the standard library, called with an empty prefix. All texts it is called with consist of
ASCII characters. -/
def padIntegral (nonneg : Bool) (buf : List (BitVec 8)) (form : FormatOptions) : List (BitVec 8) :=
  let sign : List (BitVec 8) := if nonneg then (if form.signPlus then [43#8] else []) else [45#8]
  match form.width with
  | none => sign ++ buf
  | some min =>
    let width := buf.length + sign.length
    if width ≥ min then sign ++ buf
    else
      let n := min - width
      if form.zeroPad then sign ++ List.replicate n 48#8 ++ buf
      else
        let (pre, post) :=
          match form.align with
          | some .left => (0, n)
          | some .center => (n / 2, (n + 1) / 2)
          | _ => (n, 0)
        (List.replicate pre form.fill).flatten ++ sign ++ buf ++ (List.replicate post form.fill).flatten

/-- src/conv/to_str/mod.rs:32-44. `format!("{:^width$}", nan)` of the standard library fills up with spaces. -/
def formatNan (form : FormatOptions) : List (BitVec 8) :=
  let nan := [78#8, 97#8, 78#8]
  match form.width with
  | none => nan
  | some width =>
    let n := width - nan.length
    match form.align with
    | some .center => List.replicate (n / 2) 32#8 ++ nan ++ List.replicate ((n + 1) / 2) 32#8
    | some .left => nan ++ List.replicate n 32#8
    | _ => List.replicate n 32#8 ++ nan

namespace F256

/-- src/conv/to_str/mod.rs:46-57; `format!("{:.*}", prec, 0.)` of the standard library -/
def formatSpecial (f : F256) (prec : Option Nat) (form : FormatOptions) : List (BitVec 8) :=
  if f.eqZero then
    let p := Nat.min (prec.getD 0) 75
    padIntegral f.isSignPositive (48#8 :: (if p > 0 then 46#8 :: List.replicate p 48#8 else [])) form
  else if f.isNan then formatNan form
  else padIntegral f.isSignPositive [105#8, 110#8, 102#8] form

/-- src/conv/to_str/mod.rs:59-72 -/
def formatExactWith (f : F256) (prec : Nat) (form : FormatOptions) : Option (List (BitVec 8)) :=
  if prec ≤ 75 then do
    let s ← bin2DecFixedPoint (abs f) prec
    let s := if s.head? = some 48#8 then s.drop 1 else s
    return padIntegral f.isSignPositive s form
  else none

/-- `Display`, src/conv/to_str/mod.rs:81-97 -/
def displayWith (f : F256) (prec : Option Nat) (form : FormatOptions) : Option (List (BitVec 8)) :=
  if f.isSpecial then some (f.formatSpecial prec form)
  else
    match prec with
    | some prec => f.formatExactWith prec form
    | none => f.formatShortest form

/-- `LowerExp` and `UpperExp` without precision, src/conv/to_str/mod.rs:111-145, 163-172;
`format!("{:.*e}", 0, 0.)` of the standard library is `0e0` -/
def scientificWith (f : F256) (expMark : BitVec 8) (form : FormatOptions) : Option (List (BitVec 8)) :=
  if f.isSpecial then
    if f.eqZero then some (padIntegral f.isSignPositive [48#8, expMark, 48#8] form)
    else if f.isNan then some (formatNan form)
    else some (padIntegral f.isSignPositive [105#8, 110#8, 102#8] form)
  else f.formatScientificShortest expMark form

end F256

end Verif
