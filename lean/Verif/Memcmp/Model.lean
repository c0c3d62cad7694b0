/-
Model of the constant time comparison, `/repo/internal/src/memcmp_secure_internal.h`,
`memcmp_secure_c.c` and `memcmp_secure_avx2.c`.

Memory is a function from addresses to bytes, so that pointer alignment is part of the
model.  `lp64` is the compile time macro `__LP64__`, `avx2` says whether the AVX2 variant is
compiled in and the CPU feature is present.
-/
namespace LC.Memcmp

abbrev Mem := Nat → UInt8

/-- Load of a `k` byte little endian word. -/
def load (mem : Mem) : Nat → Nat → Nat
  | 0, _ => 0
  | k + 1, p => (mem p).toNat + 256 * load mem k (p + 1)

/-- `memcmp_secure_aligned(ptr, size - 1)`, `memcmp_secure_internal.h:30-35`. -/
def aligned (p size : Nat) : Bool := p &&& (size - 1) == 0

/-- `!!ret`. -/
def nz (x : Nat) : Nat := if x = 0 then 0 else 1

/-- `memcmp_secure_8` loop, lines 42-47 (`fuel` is instantiated with `n`). -/
def loop8 (mem : Mem) : Nat → Nat → Nat → Nat → Nat
  | 0, _, _, ret => ret
  | n + 1, p, q, ret => loop8 mem n (p + 1) (q + 1) (ret ||| ((mem p).toNat ^^^ (mem q).toNat))

/-- `memcmp_secure_8`, lines 37-50. -/
def cmp8 (mem : Mem) (p q n : Nat) : Nat := nz (loop8 mem n p q 0)

/-- Loop conditions `n > k` and `n >= k`. -/
def more (k : Nat) (strict : Bool) (n : Nat) : Bool :=
  if strict then decide (k < n) else decide (k ≤ n)

/-- The loops `for (; n >= k; n -= k) ret |= *p++ ^ *q++` (`strict = false`; lines 67-68,
116-117, AVX2 lines 46-48) and `while (n > k)` (`strict = true`; lines 89-94, 149-154) on `k`
byte words.  Returns pointers, remaining length and the accumulator. -/
def loopW (mem : Mem) (k : Nat) (strict : Bool) : Nat → Nat → Nat → Nat → Nat → Nat × Nat × Nat × Nat
  | 0, p, q, n, ret => (p, q, n, ret)
  | fuel + 1, p, q, n, ret =>
    if more k strict n then
      loopW mem k strict fuel (p + k) (q + k) (n - k) (ret ||| (load mem k p ^^^ load mem k q))
    else (p, q, n, ret)

/-- `memcmp_secure_32_aligned`, lines 52-74. -/
def cmp32Aligned (mem : Mem) (p q n : Nat) : Nat :=
  let r := loopW mem 4 false n p q n 0
  nz (r.2.2.2 ||| cmp8 mem r.1 r.2.1 r.2.2.1)

/-- `memcmp_secure_32`, lines 76-99. -/
def cmp32 (mem : Mem) (p q n : Nat) : Nat :=
  if aligned p 4 && aligned q 4 then cmp32Aligned mem p q n
  else
    let r := loopW mem 4 true n p q n 0
    nz (r.2.2.2 ||| cmp8 mem r.1 r.2.1 r.2.2.1)

/-- `memcmp_secure_64_aligned`, lines 101-132. -/
def cmp64Aligned (lp64 : Bool) (mem : Mem) (p q n : Nat) : Nat :=
  if lp64 then
    let r := loopW mem 8 false n p q n 0
    nz (r.2.2.2 ||| cmp32Aligned mem r.1 r.2.1 r.2.2.1)
  else cmp32Aligned mem p q n

/-- `memcmp_secure_64`, lines 134-159. -/
def cmp64 (lp64 : Bool) (mem : Mem) (p q n : Nat) : Nat :=
  if lp64 && (aligned p 8 && aligned q 8) then cmp64Aligned lp64 mem p q n
  else
    let r := loopW mem 8 true n p q n 0
    nz (r.2.2.2 ||| cmp32 mem r.1 r.2.1 r.2.2.1)

/-- `memcmp_secure_256`, `memcmp_secure_avx2.c:28-74`.  The four 64-bit lanes of the
accumulator are tested one after the other; together they are zero iff the 256-bit value is. -/
def cmp256 (lp64 avx2 : Bool) (mem : Mem) (p q n : Nat) : Nat :=
  if avx2 && (aligned p 32 && aligned q 32) then
    let r := loopW mem 32 false n p q n 0
    nz (r.2.2.2 % 2 ^ 64) ||| nz (r.2.2.2 / 2 ^ 64 % 2 ^ 64) ||| nz (r.2.2.2 / 2 ^ 128 % 2 ^ 64) |||
      nz (r.2.2.2 / 2 ^ 192 % 2 ^ 64) ||| cmp64Aligned lp64 mem r.1 r.2.1 r.2.2.1
  else cmp64 lp64 mem p q n

/-- `lc_memcmp_secure`, `memcmp_secure_c.c:23-38` and `memcmp_secure_avx2.c:76-91`. -/
def memcmpSecure (lp64 avx2 : Bool) (mem : Mem) (s1 n1 s2 n2 : Nat) : Nat :=
  let ret := if n1 ≠ n2 then 1 else 0
  let n := if n1 ≠ n2 then (if n1 > n2 then n2 else n1) else n1
  ret ||| (if avx2 then cmp256 lp64 avx2 mem s1 s2 n else cmp64 lp64 mem s1 s2 n)

end LC.Memcmp
