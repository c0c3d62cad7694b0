import Verif.Curve.Model
/-!
# Ed25519: representations of points

The structures of `/repo/curve25519/src/ed25519_ref10.h:62-108`.
-/
namespace LC.Curve

/-- `ge25519_p2`, `ed25519_ref10.h`: projective coordinates. -/
structure P2 where
  X : Fe
  Y : Fe
  Z : Fe
deriving DecidableEq, Repr

/-- `ge25519_p3`: extended coordinates, `X Y = Z T`. -/
structure P3 where
  X : Fe
  Y : Fe
  Z : Fe
  T : Fe
deriving DecidableEq, Repr

/-- `ge25519_p1p1`: completed coordinates, the point is `(X / Z, Y / T)`. -/
structure P11 where
  X : Fe
  Y : Fe
  Z : Fe
  T : Fe
deriving DecidableEq, Repr

/-- `ge25519_precomp`. -/
structure Precomp where
  yplusx : Fe
  yminusx : Fe
  xy2d : Fe
deriving DecidableEq, Repr

/-- `ge25519_cached`. -/
structure Cached where
  YplusX : Fe
  YminusX : Fe
  Z : Fe
  T2d : Fe
deriving DecidableEq, Repr

end LC.Curve
