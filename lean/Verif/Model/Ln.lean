import Verif.Model.FP492
import Verif.Model.FeynmanLut

/-!
# Model of the logarithms (src/math/log.rs, src/math/feynman.rs)

Not modelled: `log` and `ln_1p`, which are `unimplemented!()`.
-/

namespace Verif

namespace Ln

/-- src/math/log.rs:17-22 -/
def LN_2 : FP492 := FP492.new 0x00000b17217f7d1cf79abc9e3b39803f 0x2f6af40f343267298b62d8a0d175b8ba
  0xafa2be7b876206debac98559552fb4af 0xa1b10ed2eae35c138214427573b29117

/-- src/math/log.rs:37-42 -/
def LOG2_E : FP492 := FP492.new 0x0000171547652b82fe1777d0ffda0d23 0xa7d11d6aef551bad2b4b1164a2cd9a34
  0x2648fbc3887eeaa2ed9ac49b25eeb82d 0x7c167d52173cc1895213f897f5e06a7c

/-- src/math/log.rs:47-52 -/
def LOG10_E : FP492 := FP492.new 0x000006f2dec549b9438ca9aadd557d69 0x9ee191f71a30122e4d1011d1f96a27bc
  0x7529e3aa1277d0a0179f94911aac9632 0x3250a8c671decfe9c6e5e37d15c69646

/-- src/math/feynman.rs:17-7890 -/
def LUT : List (FP492 × FP492) :=
  feynmanLut.map fun r => (FP492.new r.1.1 r.1.2.1 r.1.2.2.1 r.1.2.2.2, FP492.new r.2.1 r.2.2.1 r.2.2.2.1 r.2.2.2.2)

/-- The loop of src/math/feynman.rs:7904-7918, with the product `p` and the sum `ln` as accumulators -/
def feynmanLoop (x : FP492) : List (FP492 × FP492) → FP492 → FP492 → FP492
  | [], _, ln => ln
  | (f, l) :: rest, p, ln =>
    let t := FP492.imulRound p f
    match FP492.cmp t x with
    | .lt => feynmanLoop x rest t (FP492.add ln l)
    | .eq => FP492.add ln l
    | .gt => feynmanLoop x rest p ln

/-- src/math/feynman.rs:7897-7920 -/
def feynman (x : FP492) : FP492 :=
  if UInt.beq x FP492.ONE then FP492.ZERO
  else feynmanLoop x LUT FP492.ONE FP492.ZERO

/-- src/math/log.rs:54-69 -/
def lnFP (x : F256) : FP492 :=
  let r := normSignif x.bits
  let e := exp x.bits - (r.2 : Int)
  let m : FP492 := ⟨r.1, UInt.zero⟩
  let lnM := feynman m
  FP492.add (FP492.imulRound LN_2 (FP492.ofInt e)) lnM

end Ln

namespace F256

/-- src/math/log.rs:82-88 -/
def ln (x : F256) : F256 :=
  if x.isSpecial || x.isSignNegative then NAN else FP492.toF256 (Ln.lnFP x)

/-- src/math/log.rs:97-106 -/
def log2 (x : F256) : F256 :=
  if x.isSpecial || x.isSignNegative then NAN
  else FP492.toF256 (FP492.imulRound (Ln.lnFP x) Ln.LOG2_E)

/-- src/math/log.rs:109-118 -/
def log10 (x : F256) : F256 :=
  if x.isSpecial || x.isSignNegative then NAN
  else FP492.toF256 (FP492.imulRound (Ln.lnFP x) Ln.LOG10_E)

end F256

end Verif
