import Verif.Bike.Gf2x

/-
Specification for BIKE, in terms of bits: multiplication modulo x^R - 1 over GF(2) is cyclic
convolution, the decoder is a bit-flipping decoder that counts unsatisfied parity checks.
Nothing here refers to words, slices or masks; of `Par` only the constants of the parameter sets
are used.
-/
namespace LC.Bike.Spec

/-- Cyclic convolution of two vectors of `R` bits. -/
def cyc (R : Nat) (a b : Nat → Bool) (i : Nat) : Bool :=
  ((List.range R).filter fun j => a j && b ((i + (R - j)) % R)).length % 2 == 1

/-- Number of ones. -/
def wt (R : Nat) (a : Nat → Bool) : Nat := ((List.range R).filter a).length

/-- The vector with ones exactly at the listed positions. -/
def ind (wl : List Nat) (i : Nat) : Bool := decide (i ∈ wl)

/-- Number of unsatisfied parity checks that position `b` takes part in: the ones of the syndrome
at the distances of the key polynomial. -/
def upc (R : Nat) (s : Nat → Bool) (wl : List Nat) (b : Nat) : Nat :=
  (wl.filter fun w => s ((b + w) % R)).length

/-- The threshold of the BIKE specification: the maximum of the affine function of the syndrome
weight (coefficients in units of `10^-8`, rounded down) and the minimal threshold. -/
def thr (p : Par) (w : Nat) : Nat := max p.thrMin ((p.coeff0 + p.coeff1 * w) / 10 ^ 8)

/-- The syndrome `h0 (c0 + e0) + h1 e1`. -/
def synd (R : Nat) (wl0 wl1 : List Nat) (c0 : Nat → Bool) (e : (Nat → Bool) × (Nat → Bool))
    (b : Nat) : Bool :=
  cyc R (ind wl0) c0 b ^^ cyc R (ind wl0) e.1 b ^^ cyc R (ind wl1) e.2 b

/-- Flip every position with at least `t` unsatisfied checks. -/
def flip (R : Nat) (s : Nat → Bool) (wl : List Nat) (t : Nat) (e : Nat → Bool) (b : Nat) : Bool :=
  e b ^^ decide (t ≤ upc R s wl b)

/-- Gray positions: at most three checks below the threshold. -/
def gray (R : Nat) (s : Nat → Bool) (wl : List Nat) (t b : Nat) : Bool :=
  decide (upc R s wl b < t) && decide (t ≤ upc R s wl b + 3)

/-- Flip the marked positions with at least `t` unsatisfied checks. -/
def flipIn (R : Nat) (m : Nat → Bool) (s : Nat → Bool) (wl : List Nat) (t : Nat) (e : Nat → Bool)
    (b : Nat) : Bool :=
  e b ^^ (m b && decide (t ≤ upc R s wl b))

/-- One iteration: flip by the threshold, then flip the gray positions by the majority. -/
def iter (p : Par) (wl0 wl1 : List Nat) (c0 : Nat → Bool) (e : (Nat → Bool) × (Nat → Bool)) :
    (Nat → Bool) × (Nat → Bool) :=
  let s := synd p.R wl0 wl1 c0 e
  let t := thr p (wt p.R s)
  let e' := (flip p.R s wl0 t e.1, flip p.R s wl1 t e.2)
  let s' := synd p.R wl0 wl1 c0 e'
  (flipIn p.R (gray p.R s wl0 t) s' wl0 ((p.D + 1) / 2 + 1) e'.1,
    flipIn p.R (gray p.R s wl1 t) s' wl1 ((p.D + 1) / 2 + 1) e'.2)

/-- `n` iterations from the zero error. -/
def run (p : Par) (wl0 wl1 : List Nat) (c0 : Nat → Bool) : Nat → (Nat → Bool) × (Nat → Bool)
  | 0 => (fun _ => false, fun _ => false)
  | n + 1 => iter p wl0 wl1 c0 (run p wl0 wl1 c0 n)

end LC.Bike.Spec
