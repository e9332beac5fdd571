/-
Binary64 ("f64") model used by every other module.

The Rust code works on `f64`.  We model a double by its sign bit and its 63 remaining bits
(`mag`), i.e. exactly the bit pattern.  Magnitudes below `infMag` are finite, `infMag` is
infinity, larger magnitudes are NaN.  On non-NaN values the numeric order of `mag` is the order
of the absolute values, which keeps comparisons integer comparisons.

Arithmetic follows IEEE 754 with round-to-nearest-even: the exact rational result is computed and
rounded (`roundMag`).  NaN results are the canonical NaN: Rust leaves NaN payloads unspecified. -/
namespace GS

/-- A binary64 bit pattern: sign bit and the 63 exponent/mantissa bits. -/
structure F64 where
  neg : Bool
  mag : Nat
  h : mag < 2 ^ 63
deriving DecidableEq

namespace F64

/-- Magnitude bits of infinity, `0x7ff0_0000_0000_0000`. -/
def infMag : Nat := 2047 * 2 ^ 52

/-- Value of a finite magnitude in units of the least subnormal `2^-1074`
(continued beyond the finite range by the same formula). -/
def uval (m : Nat) : Nat :=
  if m < 2 ^ 53 then m else (2 ^ 52 + m % 2 ^ 52) * 2 ^ (m / 2 ^ 52 - 1)

/-- Number of least-subnormal units in `1.0`: IEEE 754 binary64 as used by Rust `f64`, under every
operation of /repo on `f64`. -/
@[irreducible] def scale : Nat := 2 ^ 1074

/-- Round half to even of `p / d`: IEEE 754 binary64 as used by Rust `f64`, under every operation of /repo
on `f64`. -/
def rne (p d : Nat) : Nat :=
  let t := p / d
  let r := p % d
  if 2 * r < d then t else if d < 2 * r then t + 1 else t + t % 2

/-- Exponent shift of a number of least-subnormal units `n`: number of low bits dropped: IEEE 754 binary64
as used by Rust `f64`, under every operation of /repo on `f64`. -/
def shift (n : Nat) : Nat := if n < 2 ^ 53 then 0 else Nat.log2 n - 52

/-- Magnitude of the rational `p / q` (in units of `2^-1074`) rounded to nearest even, before
the overflow check. -/
def roundMag (p q : Nat) : Nat :=
  let s := shift (p / q)
  s * 2 ^ 52 + rne p (q * 2 ^ s)

/-- Attach a sign to a rounded magnitude, overflowing to infinity: IEEE 754 binary64 as used by Rust
`f64`, under every operation of /repo on `f64`. -/
def mkRound (neg : Bool) (k : Nat) : F64 :=
  ⟨neg, min k infMag, by
    have h1 : min k infMag ≤ infMag := Nat.min_le_right _ _
    have h2 : infMag < 2 ^ 63 := by decide
    omega⟩

/-- Rust `f64` classification; no separate code in /repo. -/
def isNaN (x : F64) : Bool := decide (infMag < x.mag)
/-- Rust `f64` classification; no separate code in /repo. -/
def isInf (x : F64) : Bool := decide (x.mag = infMag)
/-- Rust `f64` classification; no separate code in /repo. -/
def isFinite (x : F64) : Bool := decide (x.mag < infMag)

/-- Canonical quiet NaN: result of invalid operations in Rust, e.g. src/scatter_search.rs 706. -/
def nan : F64 := ⟨false, infMag + 2 ^ 51, by decide⟩
/-- `f64::INFINITY`. -/
def inf : F64 := ⟨false, infMag, by decide⟩
/-- `f64::NEG_INFINITY`. -/
def negInf : F64 := ⟨true, infMag, by decide⟩
/-- `f64` literals, e.g. src/oqnlp.rs 446, 1624, src/scatter_search.rs 326-345. -/
def zero : F64 := ⟨false, 0, by decide⟩
/-- `f64` literals, e.g. src/oqnlp.rs 446, 1624, src/scatter_search.rs 326-345. -/
def negZero : F64 := ⟨true, 0, by decide⟩
/-- `f64` literals, e.g. src/oqnlp.rs 446, 1624, src/scatter_search.rs 326-345. -/
def one : F64 := ⟨false, 1023 * 2 ^ 52, by decide⟩
/-- `f64` literals, e.g. src/oqnlp.rs 446, 1624, src/scatter_search.rs 326-345. -/
def two : F64 := ⟨false, 1024 * 2 ^ 52, by decide⟩
/-- `f64::MAX`. -/
def maxFinite : F64 := ⟨false, infMag - 1, by decide⟩

/-- Exact value of a finite double in units of `2^-1074`. -/
def toInt (x : F64) : Int := if x.neg then -(uval x.mag : Int) else (uval x.mag : Int)

/-- Comparison key: ordered like the numeric value on non-NaN values (`-0 = +0`): Rust
`PartialOrd`/`PartialEq` on `f64`, e.g. src/oqnlp.rs 446, 1041-1110, src/filters.rs 138, 227-233. -/
def key (x : F64) : Int := if x.neg then -(x.mag : Int) else (x.mag : Int)

/-- Comparison key of `f64::total_cmp`: the bits of a negative number are inverted. -/
def tkey (x : F64) : Int := if x.neg then -1 - (x.mag : Int) else (x.mag : Int)

/-- `x < y` (false if either is NaN): Rust `PartialOrd`/`PartialEq` on `f64`, e.g. src/oqnlp.rs 446,
1041-1110, src/filters.rs 138, 227-233. -/
def lt (x y : F64) : Bool := !x.isNaN && !y.isNaN && decide (x.key < y.key)
/-- `x <= y` (false if either is NaN): Rust `PartialOrd`/`PartialEq` on `f64`, e.g. src/oqnlp.rs 446,
1041-1110, src/filters.rs 138, 227-233. -/
def le (x y : F64) : Bool := !x.isNaN && !y.isNaN && decide (x.key ≤ y.key)
/-- `x == y` (false if either is NaN, `-0.0 == 0.0`): Rust `PartialOrd`/`PartialEq` on `f64`, e.g.
src/oqnlp.rs 446, 1041-1110, src/filters.rs 138, 227-233. -/
def feq (x y : F64) : Bool := !x.isNaN && !y.isNaN && decide (x.key = y.key)
/-- `x > y`: Rust `PartialOrd`/`PartialEq` on `f64`, e.g. src/oqnlp.rs 446, 1041-1110, src/filters.rs 138,
227-233. -/
def gt (x y : F64) : Bool := lt y x
/-- `x >= y`: Rust `PartialOrd`/`PartialEq` on `f64`, e.g. src/oqnlp.rs 446, 1041-1110, src/filters.rs
138, 227-233. -/
def ge (x y : F64) : Bool := le y x

/-- `x.total_cmp(&y) == Less`: src/types.rs 303, src/scatter_search.rs 414, 487-501, 835-841, 858-875,
src/oqnlp.rs 756-760. -/
def tlt (x y : F64) : Bool := decide (x.tkey < y.tkey)
/-- `x.total_cmp(&y) != Greater`: src/types.rs 303, src/scatter_search.rs 414, 487-501, 835-841, 858-875,
src/oqnlp.rs 756-760. -/
def tle (x y : F64) : Bool := decide (x.tkey ≤ y.tkey)

/-- Unary minus: flips the sign bit (also of NaN): negative literals, e.g. src/scatter_search.rs 706. -/
def fneg (x : F64) : F64 := ⟨!x.neg, x.mag, x.h⟩
/-- `f64::abs`: clears the sign bit. -/
def abs (x : F64) : F64 := ⟨false, x.mag, x.h⟩

/-- Round the exact rational `z / d` units, with `z` non-zero deciding the sign: IEEE 754 binary64 as used
by Rust `f64`, under every operation of /repo on `f64`. -/
def roundZ (z : Int) (d : Nat) : F64 := mkRound (decide (z < 0)) (roundMag z.natAbs d)

/-- `x + y`: Rust `f64` arithmetic, e.g. src/oqnlp.rs 1171-1180, 1622-1626, src/scatter_search.rs 690-712,
891-907. -/
def add (x y : F64) : F64 :=
  if x.isNaN || y.isNaN then nan
  else if x.isInf then
    if y.isInf && (x.neg != y.neg) then nan else x
  else if y.isInf then y
  else
    let z := x.toInt + y.toInt
    if z = 0 then (if x.neg && y.neg then negZero else zero) else roundZ z 1

/-- `x - y`: Rust `f64` arithmetic, e.g. src/oqnlp.rs 1171-1180, 1622-1626, src/scatter_search.rs 690-712,
891-907. -/
def sub (x y : F64) : F64 := add x (fneg y)

/-- `x * y`: Rust `f64` arithmetic, e.g. src/oqnlp.rs 1171-1180, 1622-1626, src/scatter_search.rs 690-712,
891-907. -/
def mul (x y : F64) : F64 :=
  let s := x.neg != y.neg
  if x.isNaN || y.isNaN then nan
  else if x.isInf || y.isInf then
    if x.mag = 0 || y.mag = 0 then nan else mkRound s infMag
  else mkRound s (roundMag (uval x.mag * uval y.mag) scale)

/-- `x / y`: Rust `f64` arithmetic, e.g. src/oqnlp.rs 1171-1180, 1622-1626, src/scatter_search.rs 690-712,
891-907. -/
def div (x y : F64) : F64 :=
  let s := x.neg != y.neg
  if x.isNaN || y.isNaN then nan
  else if x.isInf then
    if y.isInf then nan else mkRound s infMag
  else if y.isInf then mkRound s 0
  else if y.mag = 0 then
    if x.mag = 0 then nan else mkRound s infMag
  else mkRound s (roundMag (uval x.mag * scale) (uval y.mag))

/-- `f64::min`: ignores a NaN argument (which of two zeros is returned is unspecified in Rust). -/
def min (x y : F64) : F64 :=
  if x.isNaN then y else if y.isNaN then x else if lt y x then y else x
/-- `f64::max`: ignores a NaN argument (which of two zeros is returned is unspecified in Rust). -/
def max (x y : F64) : F64 :=
  if x.isNaN then y else if y.isNaN then x else if lt x y then y else x

/-- `f64::clamp`: `none` is the panic of `assert!(min <= max)`; a NaN `self` is returned as is. -/
def clamp (x lo hi : F64) : Option F64 :=
  if le lo hi then
    let y := if lt x lo then lo else x
    some (if lt hi y then hi else y)
  else none

/-- The decimal literal with value `p / q` (Rust rounds literals to nearest even): e.g. src/types.rs
113-124, src/oqnlp.rs 498-499, src/local_solver/builders.rs 1147-1160. -/
def lit (p q : Nat) : F64 := mkRound false (roundMag (p * scale) q)

/-- `n as f64` for an unsigned integer. -/
def ofNat (n : Nat) : F64 := lit n 1

/-- `f64::to_bits`. -/
def toBits (x : F64) : Nat := (if x.neg then 2 ^ 63 else 0) + x.mag

/-- `f64::from_bits` on 64-bit values. -/
def ofBits (b : Nat) : F64 :=
  ⟨decide (2 ^ 63 ≤ b % 2 ^ 64), b % 2 ^ 63, Nat.mod_lt _ (by decide)⟩

end F64
end GS
