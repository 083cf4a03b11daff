import Verif.Model.Float

/-!
# Square roots of numbers (`base.c`)

`ctr_number_sqrt` hands the number to `sqrt` of the C library. As IEEE 754 demands it, the answer of `sqrt` is taken to be the
`double` nearest to the root. Two neighbouring doubles cannot be equally near: the number halfway between them has 54 binary
digits, the last of them 1, so its square has more than 53.
-/

namespace Verif.Model.Float

/-- The whole part of the root of `n < 4^digits`, digit by digit; part of `sqrt`, `base.c:1427`. -/
def isqrt : Nat → Nat → Nat
  | 0, _ => 0
  | f + 1, n =>
    let r := 2 * isqrt f (n / 4)
    if (r + 1) * (r + 1) ≤ n then r + 1 else r

/-- The whole number nearest to the root of `a / d`; part of `sqrt`, `base.c:1427`. -/
def rootNear (a d : Nat) : Nat :=
  let r := isqrt ((a / d).log2 + 1) (a / d)
  if (2 * r + 1) * (2 * r + 1) * d < 4 * a then r + 1 else r

/-- How many binary places the root of `m / 2^k` gets for 53 binary digits; negative ones are `places - drop`. Part of `sqrt`,
`base.c:1427`. -/
def rootPlaces (m k : Nat) : Nat × Nat :=
  if 2 ^ k ≤ m then
    let l := (m / 2 ^ k).log2 / 2
    (52 - l, l - 52)
  else (53 + ((2 ^ k - 1) / m).log2 / 2, 0)

/-- `ctr_number_sqrt`, `base.c:1426-1428`: `sqrt`, rounded to the nearest double. -/
def sqrt : F → F
  | .nan => .nan
  | .inf n => if n then .nan else .inf false
  | .fin n m k =>
    if m = 0 then .fin n m k
    else if n then .nan
    else
      let p := rootPlaces m k
      .fin false (rootNear (m * 4 ^ p.1) (2 ^ k * 4 ^ p.2) * 2 ^ p.2) p.1

end Verif.Model.Float
