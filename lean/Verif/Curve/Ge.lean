import Verif.Curve.GeTable
/-!
# Ed25519: point arithmetic

Model of the `ge25519_*` functions of `/repo/curve25519/src/ed25519_ref10.c` and of
`crypto_scalarmult_curve25519_base` (`/repo/curve25519/src/x25519_scalarmult_c.c`).  A C function
that writes its result through a pointer returns it here; where a function uses the members of the
result as temporaries, the temporaries are local names.
-/
namespace LC.Curve

/-- `fe25519_sqrtm1`, `fe_51/constants.h:2-4`. -/
def feSqrtm1 : Fe := ⟨1718705420411056, 234908883556509, 2233514472574048, 2117202627021982, 765476049583133⟩
/-- `ed25519_d`, `fe_51/constants.h:12-14`. -/
def feD : Fe := ⟨929955233495203, 466365720129213, 1662059464998953, 2033849074728123, 1442794654840575⟩
/-- `ed25519_d2`, `fe_51/constants.h:19-21`. -/
def feD2 : Fe := ⟨1859910466990425, 932731440258426, 1072319116312658, 1815898335770999, 633789495995903⟩

/-- `ge25519_add_cached`, `ed25519_ref10.c:272-288`. -/
def addCached (p : P3) (q : Cached) : P11 :=
  let X := feAdd p.Y p.X
  let Y := feSub p.Y p.X
  let Z := feMul X q.YplusX
  let Y := feMul Y q.YminusX
  let T := feMul q.T2d p.T
  let X := feMul p.Z q.Z
  let t0 := feAdd X X
  ⟨feSub Z Y, feAdd Z Y, feAdd t0 T, feSub t0 T⟩

/-- `ge25519_sub_cached`, `ed25519_ref10.c:711-728`. -/
def subCached (p : P3) (q : Cached) : P11 :=
  let X := feAdd p.Y p.X
  let Y := feSub p.Y p.X
  let Z := feMul X q.YminusX
  let Y := feMul Y q.YplusX
  let T := feMul q.T2d p.T
  let X := feMul p.Z q.Z
  let t0 := feAdd X X
  ⟨feSub Z Y, feAdd Z Y, feSub t0 T, feAdd t0 T⟩

/-- `ge25519_add_precomp`, `ed25519_ref10.c:417-432`. -/
def addPrecomp (p : P3) (q : Precomp) : P11 :=
  let X := feAdd p.Y p.X
  let Y := feSub p.Y p.X
  let Z := feMul X q.yplusx
  let Y := feMul Y q.yminusx
  let T := feMul q.xy2d p.T
  let t0 := feAdd p.Z p.Z
  ⟨feSub Z Y, feAdd Z Y, feAdd t0 T, feSub t0 T⟩

/-- `ge25519_sub_precomp`, `ed25519_ref10.c:438-453`. -/
def subPrecomp (p : P3) (q : Precomp) : P11 :=
  let X := feAdd p.Y p.X
  let Y := feSub p.Y p.X
  let Z := feMul X q.yminusx
  let Y := feMul Y q.yplusx
  let T := feMul q.xy2d p.T
  let t0 := feAdd p.Z p.Z
  ⟨feSub Z Y, feAdd Z Y, feSub t0 T, feAdd t0 T⟩

/-- `ge25519_p1p1_to_p2`, `ed25519_ref10.c:459-464`. -/
def P11.toP2 (p : P11) : P2 := ⟨feMul p.X p.T, feMul p.Y p.Z, feMul p.Z p.T⟩

/-- `ge25519_p1p1_to_p3`, `ed25519_ref10.c:470-476`. -/
def P11.toP3 (p : P11) : P3 := ⟨feMul p.X p.T, feMul p.Y p.Z, feMul p.Z p.T, feMul p.X p.Y⟩

/-- `ge25519_p2_to_p3`, `ed25519_ref10.c:481-487`.  The code multiplies `X` and `Y`, which is `T` only if `Z` is 1. -/
def P2.toP3 (p : P2) : P3 := ⟨p.X, p.Y, p.Z, feMul p.X p.Y⟩

/-- `ge25519_p2_0`, `ed25519_ref10.c:489-494`. -/
def p2zero : P2 := ⟨feZero, feOne, feOne⟩

/-- `ge25519_p2_dbl`, `ed25519_ref10.c:500-513`. -/
def P2.dbl (p : P2) : P11 :=
  let X := feSq p.X
  let Z := feSq p.Y
  let T := feSq2 p.Z
  let Y := feAdd p.X p.Y
  let t0 := feSq Y
  let Y := feAdd Z X
  let Z := feSub Z X
  ⟨feSub t0 Y, Y, Z, feSub T Z⟩

/-- `ge25519_p3_0`, `ed25519_ref10.c:515-521`. -/
def p3zero : P3 := ⟨feZero, feOne, feOne, feZero⟩

/-- `ge25519_cached_0`, `ed25519_ref10.c:523-529`. -/
def cachedZero : Cached := ⟨feOne, feOne, feOne, feZero⟩

/-- `ge25519_p3_to_cached`, `ed25519_ref10.c:535-541`. -/
def P3.toCached (p : P3) : Cached := ⟨feAdd p.Y p.X, feSub p.Y p.X, p.Z, feMul p.T feD2⟩

/-- `ge25519_p3_to_p2`, `ed25519_ref10.c:566-571`. -/
def P3.toP2 (p : P3) : P2 := ⟨p.X, p.Y, p.Z⟩

/-- `ge25519_p3_tobytes`, `ed25519_ref10.c:573-584`. -/
def P3.tobytes (h : P3) : List Byte :=
  let recip := feInvert h.Z
  let x := feMul h.X recip
  let y := feMul h.Y recip
  let s := feTobytes y
  s.set 31 (s.getD 31 0 ^^^ UInt8.ofNat (feIsnegative x <<< 7))

/-- `ge25519_p3_dbl`, `ed25519_ref10.c:590-596`. -/
def P3.dbl (p : P3) : P11 := p.toP2.dbl

/-- `ge25519_precomp_0`, `ed25519_ref10.c:598-603`. -/
def precompZero : Precomp := ⟨feOne, feOne, feZero⟩

/-- `equal`, `ed25519_ref10.c:605-616`, arguments below 256. -/
def ctEqual (b c : Nat) : Nat := (((b ^^^ c) + 2 ^ 32 - 1) % 2 ^ 32) >>> 31

/-- `negative`, `ed25519_ref10.c:618-626`. -/
def ctNegative (b : Int) : Nat := ((b % 2 ^ 64).toNat) >>> 63

/-- `babs` of `ge25519_cmov8`, `ed25519_ref10.c:650-651`; `(-bnegative) & b` is `b` or 0. -/
def ctAbs (b : Int) : Nat := ((b - (if ctNegative b = 1 then b else 0) * 2) % 256).toNat

/-- `ge25519_cmov`, `ed25519_ref10.c:628-634`. -/
def Precomp.cmov (t u : Precomp) (b : Nat) : Precomp :=
  ⟨feCmov t.yplusx u.yplusx b, feCmov t.yminusx u.yminusx b, feCmov t.xy2d u.xy2d b⟩

/-- `ge25519_cmov_cached`, `ed25519_ref10.c:636-643`. -/
def Cached.cmov (t u : Cached) (b : Nat) : Cached :=
  ⟨feCmov t.YplusX u.YplusX b, feCmov t.YminusX u.YminusX b, feCmov t.Z u.Z b, feCmov t.T2d u.T2d b⟩

/-- The eight conditional moves of `ge25519_cmov8`, `ed25519_ref10.c:654-661`: entry `k` of the rest of the table is
taken if `babs` is `k + 1`. -/
def selPrecomp (babs : Nat) : List Precomp → Nat → Precomp → Precomp
  | [], _, t => t
  | u :: us, k, t => selPrecomp babs us (k + 1) (t.cmov u (ctEqual babs (k + 1)))

/-- `ge25519_cmov8`, `ed25519_ref10.c:645-666`. -/
def cmov8 (tab : List Precomp) (b : Int) : Precomp :=
  let t := selPrecomp (ctAbs b) tab 0 precompZero
  t.cmov ⟨t.yminusx, t.yplusx, feNeg t.xy2d⟩ (ctNegative b)

/-- `ge25519_cmov8_base`, `ed25519_ref10.c:668-680`. -/
def cmov8Base (pos : Nat) (b : Int) : Precomp := cmov8 (base.getD pos []) b

/-- `e[i] += carry` and the like: conversion to `signed char`. -/
def s8 (x : Int) : Int := (x + 128) % 256 - 128

/-- The digits `e`, `ed25519_ref10.c:979-982`: low and high half of each byte. -/
def nibbles : List Byte → List Int
  | [] => []
  | x :: xs => ((x.toNat >>> 0 &&& 15 : Nat) : Int) :: ((x.toNat >>> 4 &&& 15 : Nat) : Int) :: nibbles xs

/-- The carry loop, `ed25519_ref10.c:986-993`: all digits but the last are brought to the range from -8 to 7. -/
def recode (carry : Int) : List Int → List Int
  | [] => []
  | [x] => [s8 (x + carry)]
  | x :: y :: xs =>
    let e := s8 (x + carry)
    let c := s8 (s8 (e + 8) >>> 4)
    s8 (e - s8 (c * 16)) :: recode c (y :: xs)

/-- `e` of `ge25519_scalarmult_base`, `ed25519_ref10.c:972-994`. -/
def digits (a : List Byte) : List Int := recode 0 (nibbles a)

/-- One of the loops over every other digit, `ed25519_ref10.c:997-1001` and `1012-1016`: `n` rounds, the next one being
number `k`. -/
def baseLoop (e : List Int) (off : Nat) : Nat → Nat → P3 → P3
  | 0, _, h => h
  | n + 1, k, h => baseLoop e off n (k + 1) (addPrecomp h (cmov8Base k (e.getD (2 * k + off) 0))).toP3

/-- `ge25519_scalarmult_base`, `ed25519_ref10.c:970-1017`. -/
def scalarmultBase (a : List Byte) : P3 :=
  let e := digits a
  let h := baseLoop e 1 32 0 p3zero
  let s := h.dbl.toP2
  let s := s.dbl.toP2
  let s := s.dbl.toP2
  let h := s.dbl.toP3
  baseLoop e 0 32 0 h

/-- `edwards_to_montgomery`, `x25519_scalarmult_c.c:167-177`. -/
def edToMont (y z : Fe) : Fe := feMul (feAdd z y) (feInvert (feSub z y))

/-- `crypto_scalarmult_curve25519_base`, `x25519_scalarmult_c.c:179-197`. -/
def x25519Base (n : List Byte) : List Byte :=
  let A := scalarmultBase (clamp n)
  feTobytes (edToMont A.Y A.Z)

/-- The bits, `slide_vartime`, `ed25519_ref10.c:298-300`. -/
def slideBits (a : List Byte) : List Int :=
  (List.range 256).map fun i => ((1 &&& ((a.getD (i >>> 3) 0).toNat >>> (i &&& 7)) : Nat) : Int)

/-- The loop that adds 1 at position `k`, `ed25519_ref10.c:319-325`; the first argument is `256 - k`. -/
def slideCarry : Nat → Nat → List Int → List Int
  | 0, _, r => r
  | n + 1, k, r => if r.getD k 0 = 0 then r.set k 1 else slideCarry n (k + 1) (r.set k 0)

/-- The loop over `b`, `ed25519_ref10.c:305-327`; the first argument is `7 - b`. -/
def slideInner (i : Nat) : Nat → Nat → List Int → List Int
  | 0, _, r => r
  | n + 1, b, r =>
    if i + b < 256 then
      if r.getD (i + b) 0 = 0 then slideInner i n (b + 1) r
      else
        let ribs := r.getD (i + b) 0 * 2 ^ b
        let cmp := r.getD i 0 + ribs
        if cmp ≤ 15 then slideInner i n (b + 1) ((r.set i (s8 cmp)).set (i + b) 0)
        else
          let cmp := r.getD i 0 - ribs
          if cmp < -15 then r
          else slideInner i n (b + 1) (slideCarry (256 - (i + b)) (i + b) (r.set i (s8 cmp)))
    else r

/-- The loop over `i`, `ed25519_ref10.c:301-329`; the first argument is `256 - i`. -/
def slideLoop : Nat → Nat → List Int → List Int
  | 0, _, r => r
  | n + 1, i, r => slideLoop n (i + 1) (if r.getD i 0 = 0 then r else slideInner i 6 1 r)

/-- `slide_vartime`, `ed25519_ref10.c:290-330`. -/
def slide (a : List Byte) : List Int := slideLoop 256 0 (slideBits a)

/-- The entries of `Ai` after the first, `ed25519_ref10.c:779-805`: each adds `2 A` to the one before. -/
def oddMultiples (A2 : P3) : Nat → Cached → List Cached
  | 0, _ => []
  | n + 1, c => (addCached A2 c).toP3.toCached :: oddMultiples A2 n (addCached A2 c).toP3.toCached

/-- `Ai`, `ed25519_ref10.c:774-805`: the multiples by 1, 3, ..., 15. -/
def tableA (A : P3) : List Cached := A.toCached :: oddMultiples A.dbl.toP3 7 A.toCached

/-- The part for one digit of `a`, `ed25519_ref10.c:818-826`. -/
def stepA (Ai : List Cached) (d : Int) (t : P11) : P11 :=
  if d > 0 then addCached t.toP3 (Ai.getD (d.tdiv 2).toNat cachedZero)
  else if d < 0 then subCached t.toP3 (Ai.getD ((-d).tdiv 2).toNat cachedZero)
  else t

/-- The part for one digit of `b`, `ed25519_ref10.c:828-836`. -/
def stepB (d : Int) (t : P11) : P11 :=
  if d > 0 then addPrecomp t.toP3 (base2.getD (d.tdiv 2).toNat precompZero)
  else if d < 0 then subPrecomp t.toP3 (base2.getD ((-d).tdiv 2).toNat precompZero)
  else t

/-- The loop downwards from `i`, `ed25519_ref10.c:815-839`; the first argument is `i + 1`. -/
def dblLoop (Ai : List Cached) (as bs : List Int) : Nat → P2 → P2
  | 0, r => r
  | i + 1, r => dblLoop Ai as bs i (stepB (bs.getD i 0) (stepA Ai (as.getD i 0) r.dbl)).toP2

/-- The search for the first digit that is not zero, `ed25519_ref10.c:809-813`: `i + 1`, from `n` downwards. -/
def topDigit (as bs : List Int) : Nat → Nat
  | 0 => 0
  | i + 1 => if as.getD i 0 ≠ 0 ∨ bs.getD i 0 ≠ 0 then i + 1 else topDigit as bs i

/-- `_ge25519_double_scalarmult_vartime`, `ed25519_ref10.c:751-846`: `a A + b B`. -/
def doubleScalarmult (a : List Byte) (A : P3) (b : List Byte) : P2 :=
  let as := slide a
  let bs := slide b
  dblLoop (tableA A) as bs (topDigit as bs 256) p2zero

/-- `ge25519_p3_neg`, `ed25519_ref10.c:1030-1036`. -/
def P3.neg (p : P3) : P3 := ⟨feNeg p.X, p.Y, p.Z, feNeg p.T⟩

/-- `ge25519_p3_add`, `ed25519_ref10.c:1039-1047`. -/
def P3.add (p q : P3) : P3 := (addCached p q.toCached).toP3

/-- `ge25519_p3_sub`, `ed25519_ref10.c:1050-1056`. -/
def P3.sub (p q : P3) : P3 := p.add q.neg

/-- `ge25519_frombytes`, `ed25519_ref10.c:332-367`: the point and whether the return value is 0. -/
def frombytes (s : List Byte) : P3 × Bool :=
  let Y := feFrombytes s
  let Z := feOne
  let u := feSq Y
  let v := feMul u feD
  let u := feSub u Z
  let v := feAdd v Z
  let X := feMul u v
  let X := fePow22523 X
  let X := feMul u X
  let vxx := feMul (feSq X) v
  let mCheck := feSub vxx u
  let pCheck := feAdd vxx u
  let hasM := feIszero mCheck
  let hasP := feIszero pCheck
  let xs := feMul X feSqrtm1
  let X := feCmov X xs (1 - hasM)
  let X := feCmov X (feNeg X) (feIsnegative X ^^^ ((s.getD 31 0).toNat >>> 7))
  (⟨X, Y, Z, feMul X Y⟩, hasM ||| hasP == 1)

/-- `ge25519_frombytes_negate_vartime`, `ed25519_ref10.c:369-411`; `none` is the return value -1. -/
def frombytesNeg (s : List Byte) : Option P3 :=
  let Y := feFrombytes s
  let Z := feOne
  let u := feSq Y
  let v := feMul u feD
  let u := feSub u Z
  let v := feAdd v Z
  let v3 := feMul (feSq v) v
  let X := feMul (feMul (feSq v3) v) u
  let X := feMul (feMul (fePow22523 X) v3) u
  let vxx := feMul (feSq X) v
  let mCheck := feSub vxx u
  let root : Option Fe :=
    if feIszero mCheck = 0 then
      if feIszero (feAdd vxx u) = 0 then none else some (feMul X feSqrtm1)
    else some X
  root.map fun X =>
    let X := if feIsnegative X = (s.getD 31 0).toNat >>> 7 then feNeg X else X
    ⟨X, Y, Z, feMul X Y⟩

/-- The loop of `ge25519_is_canonical`, `ed25519_ref10.c:1175-1177`: bytes `n` down to 1. -/
def canonC (s : List Byte) : Nat → Byte → Byte
  | 0, c => c
  | n + 1, c => canonC s n (c ||| (s.getD (n + 1) 0 ^^^ 0xff))

/-- `ge25519_is_canonical`, `ed25519_ref10.c:1168-1182`. -/
def isCanonicalY (s : List Byte) : Nat :=
  let c := canonC s 30 ((s.getD 31 0 &&& 0x7f) ^^^ 0x7f)
  let c := UInt8.ofNat (((c.toNat + 2 ^ 32 - 1) % 2 ^ 32) >>> 8)
  let d := UInt8.ofNat (((0xed - 1 + 2 ^ 32 - (s.getD 0 0).toNat) % 2 ^ 32) >>> 8)
  1 - (c &&& d &&& 1).toNat

/-- `ge25519_has_small_order`, `ed25519_ref10.c:1184-1208`.  The fourth test uses `X` and not `X / Z`. -/
def smallOrder (p : P3) : Nat :=
  let recip := feInvert p.Z
  let x := feMul p.X recip
  let y := feMul p.Y recip
  let xneg := feNeg p.X
  let ys := feMul y feSqrtm1
  feIszero x ||| feIszero y ||| feIszero (feSub ys x) ||| feIszero (feSub ys xneg)

end LC.Curve
