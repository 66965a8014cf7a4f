import Verif.Float.Ieee
/-!
# Numbers in the text of JSON

Both programs write and read JSON with `serde_json` 1.0 without the feature `float_roundtrip` (/repo/ssbh_lib_json/Cargo.toml:9,
/repo/ssbh_data_json/Cargo.toml:8). The crate is not part of /repo: its float reader is modelled from its published source (`de.rs`,
`f64_from_parts`), like the IEEE operations.
-/

namespace Verif.Json
open Verif.Ieee

/-- An entry of the table `POW10`: the `f64` nearest to the power of ten. -/
def pow10 (n : Nat) : Fl double := Fl.ofNat (10 ^ n)

/-- The part of the loop of `f64_from_parts` for negative exponents `-n`: powers of ten that are not in the table are divided off in
steps of `1e308`. The first argument bounds the number of steps; `n` is enough. -/
def divPow : Nat → Fl double → Nat → Fl double
  | 0, f, n => f.div (pow10 n)
  | fuel + 1, f, n =>
    if n ≤ 308 then f.div (pow10 n)
    else if f.mag = 0 then f
    else divPow fuel (f.div (pow10 308)) (n - 308)

/-- `f64_from_parts`: the `f64` read for `significand * 10 ^ exponent`; `none` is the error `NumberOutOfRange`. -/
def fromParts (significand : Nat) : Int → Option (Fl double)
  | .ofNat n =>
    let f : Fl double := Fl.ofNat significand
    if n ≤ 308 then
      let p := f.mul (pow10 n)
      if p.isInf then none else some p
    else if f.mag = 0 then some f
    else none
  | .negSucc n => some (divPow (n + 1) (Fl.ofNat significand) (n + 1))

/-- The `f32` read: `visit_f64` of the implementation of `Deserialize` for `f32` is `v as f32`. The sign is applied before. -/
def readFloat (neg : Bool) (significand : Nat) (exponent : Int) : Option (Fl single) :=
  (fromParts significand exponent).map fun f => (if neg then f.neg' else f).convert single

end Verif.Json
