/-
Model of the generic allocator, `/repo/internal/src/memory_support.c` (used where neither Linux
nor the kernel provides one), without the replacement of `posix_memalign` for Windows.

Addresses are natural numbers, 0 is NULL.  `posix_memalign`, `mlock` and `free` are modelled by what POSIX
says; their answers are inputs.
-/
namespace LC.Mem.Generic

/-- State of the process as far as the functions change it: blocks of the heap (address, size), the ranges
locked into memory, and `bad` for a `free` of something which is not a block (undefined behaviour). -/
structure St where
  blocks : List (Nat × Nat)
  locked : List (Nat × Nat)
  bad : Bool
deriving DecidableEq, Repr

/-- Answers of the system for one allocation: of `posix_memalign` an address or an error number, of `mlock`
`none` for success or the error number. -/
structure Os where
  mem : Except Nat Nat
  lock : Option Nat

/-- `free` of POSIX. -/
def free (s : St) (p : Nat) : St :=
  if s.blocks.any (fun b => b.1 == p) then { s with blocks := s.blocks.filter (fun b => b.1 != p) }
  else { s with bad := true }

/-- `lc_free`, `memory_support.c:91-100`. -/
def lcFree (s : St) (p : Nat) : St := if p = 0 then s else free s p

/-- `lc_free_high_aligned`, `memory_support.c:102-106`. -/
def lcFreeHigh (s : St) (p _size : Nat) : St := lcFree s p

/-- `lc_alloc_aligned`, `memory_support.c:54-63`, and `lc_alloc_high_aligned`, `memory_support.c:85-89`:
return value, value stored in `*memptr` (`none`: not written), state.  The error of `posix_memalign` is
a positive number. -/
def alloc (s : St) (size : Nat) (os : Os) : Int × Option Nat × St :=
  match os.mem with
  | .error e => (e, none, s)
  | .ok p => (0, some p, { s with blocks := (p, size) :: s.blocks })

/-- `lc_alloc_aligned_secure`, `memory_support.c:65-83`; `memptr` is the address of the pointer of the
caller.  `mlock` and `lc_free` are called with `memptr`, lines 74 and 78, not with the memory allocated;
EPERM is 1, EAGAIN is 11. -/
def allocSecure (s : St) (memptr size : Nat) (os : Os) : Int × Option Nat × St :=
  match alloc s size os with
  | (0, some p, s) =>
    match os.lock with
    | none => (0, some p, { s with locked := (memptr, size) :: s.locked })
    | some e =>
      if e ≠ 1 ∧ e ≠ 11 then (-(e : Int), some p, lcFree s memptr) else (0, some p, s)
  | r => r

/-- A call of the interface. -/
inductive Op where
  | alloc (size : Nat) (os : Os)
  | allocSecure (memptr size : Nat) (os : Os)
  | free (p : Nat)
  | freeHigh (p size : Nat)

/-- Execution of a call. -/
def step (s : St) : Op → Int × Option Nat × St
  | .alloc size os => alloc s size os
  | .allocSecure m size os => allocSecure s m size os
  | .free p => (0, none, lcFree s p)
  | .freeHigh p size => (0, none, lcFreeHigh s p size)

end LC.Mem.Generic
