import Mathlib.Data.Nat.Log
/-
Model of the allocator of the kernel module, `/repo/linux_kernel/posix_support.c`.

`kmalloc`, `alloc_pages`, `get_order` and `__roundup_pow_of_two` belong to the Linux kernel and are modelled
after their documentation.  Addresses and sizes are natural numbers; sizes above 2^63, for which
`__roundup_pow_of_two` is not defined, are excluded in the theorems.
-/
namespace LC.Kernel.Alloc

/-- `fls_long`: position of the last bit set, counted from 1; 0 for 0. -/
def fls (n : Nat) : Nat := if n = 0 then 0 else Nat.log 2 n + 1

/-- `__roundup_pow_of_two`: `1UL << fls_long(n - 1)`, in 64 bits.  For `n > 2^63` the shift is by 64
bits, which C leaves undefined; the value 0 of the model stands for it and no theorem speaks about it. -/
def roundup (n : Nat) : Nat := 2 ^ fls (n - 1) % 2 ^ 64

/-- Lines 33-40 of `lc_alloc_aligned`, `posix_support.c:29-50`: the size used by the function and the
size asked from `kmalloc`; `minalign` is `ARCH_KMALLOC_MINALIGN`. -/
def request (minalign alignment size : Nat) : Nat × Nat :=
  if minalign < alignment then
    let size := if size < alignment then alignment else size
    (size, roundup size)
  else (size, size)

/-- Result of an allocation: the address, and the number of bytes set to zero from there. -/
structure Mem where
  addr : Nat
  zeroed : Nat
deriving DecidableEq, Repr

/-- `lc_alloc_aligned`, `posix_support.c:29-50`, and `lc_alloc_aligned_secure`,
`posix_support.c:81-84`; `kmalloc n` is the address returned for a size or `none`. -/
def allocAligned (minalign : Nat) (kmalloc : Nat → Option Nat) (alignment size : Nat) : Int × Option Mem :=
  let q := request minalign alignment size
  match kmalloc q.2 with
  | none => (-12, none)
  | some p => (0, some { addr := p, zeroed := q.1 })

/-- `get_order`: the order of the number of pages (4096 bytes) needed. -/
def getOrder (size : Nat) : Nat := fls ((size - 1) / 4096)

/-- `lc_alloc_high_aligned`, `posix_support.c:59-72`; `pages o` is the address of the pages returned
for an order.  The alignment is not used. -/
def allocHigh (pages : Nat → Option Nat) (_alignment size : Nat) : Int × Option Mem :=
  match pages (getOrder size) with
  | none => (-12, none)
  | some p => (0, some { addr := p, zeroed := size })

/-- `lc_free_high_aligned`, `posix_support.c:75-78`: address and order given to `__free_pages`. -/
def freeHigh (p size : Nat) : Nat × Nat := (p, getOrder size)

end LC.Kernel.Alloc
