/-!
# The allocator of leancrypto on Linux

`/repo/internal/src/memory_support_linux.c`, built with `SYS_memfd_secret` known (`LC_USE_MEMFD_SECURE`).

The state of the process as seen by the allocator: blocks obtained from `posix_memalign`, mappings, open file descriptors, the contents
of memory, the flag `lc_alloc_have_memfd_secret`.  The answers of the system are arguments of the operations.  A call which the system
does not define (free of an address not obtained from `posix_memalign`, unmapping what is not mapped, closing what is not open, writing
outside of a block) sets `bad`.

Simplifications: addresses are natural numbers.  The header `struct lc_mem_def` at the start of every block is kept in `hdr`, separate from
the contents `mem` of memory; the caller writes to its own memory only.  Locks are never released (the code does not call munlock).  Calls are executed one after the other (no threads).
-/

namespace LC.Mem

/-- `struct lc_mem_def`: memory_support_linux.c lines 33-36. -/
structure Hdr where
  fd : Int
  size : Nat

/-- The process: memory obtained from `posix_memalign` and `mmap` as pairs of address and length, open descriptors, the headers, the contents of
memory, the ranges locked with `mlock`, `lc_alloc_have_memfd_secret` (lines 48-52), and whether an undefined call was made. -/
structure St where
  blocks : List (Nat × Nat)
  maps : List (Nat × Nat)
  fds : List Nat
  hdr : Nat → Hdr
  mem : Nat → Nat
  locked : List (Nat × Nat)
  memfd : Bool
  bad : Bool

/-- Answers of the system to the calls of one allocation: `posix_memalign` (return value or address), `mlock` (errno), `memfd_secret` (errno or
descriptor), `ftruncate` (errno), `mmap` (errno or address). -/
structure Os where
  memalign : Except Int Nat
  mlock : Option Nat
  secret : Except Nat Nat
  trunc : Option Nat
  mmap : Except Nat Nat

/-- errno values of Linux. -/
def EPERM : Nat := 1
def EAGAIN : Nat := 11
def ENOMEM : Nat := 12
def ENOSYS : Nat := 38

/-- `LC_MEM_DEF_ALIGNED_OFFSET`: line 32. -/
def OFFSET : Nat := 32

/-- `size_t full_size = LC_MEM_DEF_ALIGNED_OFFSET + size`: lines 57 and 99, modulo 2^64. -/
def fullSize (size : Nat) : Nat := (OFFSET + size) % 2 ^ 64

/-- `free` of the C library. -/
def sysFree (s : St) (b : Nat) : St :=
  if s.blocks.any (fun x => x.1 == b) then { s with blocks := s.blocks.filter (fun x => x.1 != b) } else { s with bad := true }

/-- `munmap` of a whole mapping. -/
def munmap (s : St) (b n : Nat) : St :=
  if s.maps.any (fun x => x == (b, n)) then { s with maps := s.maps.filter (fun x => x.1 != b) } else { s with bad := true }

/-- `close`. -/
def closeFd (s : St) (fd : Nat) : St :=
  if s.fds.any (fun x => x == fd) then { s with fds := s.fds.filter (fun x => x != fd) } else { s with bad := true }

/-- `lc_free` = `lc_free_internal(ptr, 0)`: lines 161-195. -/
def lcFree (s : St) (ptr : Nat) : St :=
  if ptr = 0 then s
  else
    let mem := ptr - OFFSET
    let h := s.hdr mem
    if s.memfd && decide (0 ≤ h.fd) then closeFd (munmap s mem h.size) h.fd.toNat
    else sysFree s mem

/-- Contents of memory after `memset(from, 0, n)`. -/
def zero (mem : Nat → Nat) (start n : Nat) : Nat → Nat := fun a => if start ≤ a ∧ a < start + n then 0 else mem a

/-- The header at address `p` is written. -/
def setHdr (hdr : Nat → Hdr) (p : Nat) (h : Hdr) : Nat → Hdr := fun a => if a = p then h else hdr a

/-- `alloc_aligned_secure_internal`: lines 54-88.  The alignment is used by the system only (`Os.memalign`). -/
def allocInternal (s : St) (size : Nat) (secure : Bool) (os : Os) : Int × Option Nat × St :=
  match os.memalign with
  | .error e => (e, none, s)
  | .ok p =>
    let s1 := { s with blocks := (p, fullSize size) :: s.blocks }
    let ok : List (Nat × Nat) → Int × Option Nat × St := fun locked =>
      (0, some (p + OFFSET),
        { s1 with
            hdr := setHdr s1.hdr p ⟨-1, fullSize size⟩
            mem := zero s1.mem (p + OFFSET) size
            locked := locked
            bad := s1.bad || decide (fullSize size < OFFSET + size) })
    if secure then
      match os.mlock with
      | some e => if e ≠ EPERM ∧ e ≠ EAGAIN then (-(e : Int), none, lcFree s1 p) else ok s.locked
      | none => ok ((p, fullSize size) :: s.locked)
    else ok s.locked

/-- `lc_alloc_aligned`: lines 90-94; `lc_alloc_high_aligned`: lines 154-158. -/
def alloc (s : St) (size : Nat) (os : Os) : Int × Option Nat × St := allocInternal s size false os

/-- `lc_alloc_aligned_secure` with memfd_secret: lines 96-143.  After a failure of `mmap` the pointer is MAP_FAILED; `munmap` of it does nothing
(EINVAL, the address is not aligned). -/
def allocSecure (s : St) (size : Nat) (os : Os) : Int × Option Nat × St :=
  if !s.memfd then allocInternal s size true os
  else
    match os.secret with
    | .error e =>
      if e = ENOSYS then allocInternal { s with memfd := false } size true os else (-(e : Int), none, s)
    | .ok fd =>
      let s1 := { s with fds := fd :: s.fds }
      match os.trunc with
      | some e => (-(e : Int), none, closeFd s1 fd)
      | none =>
        match os.mmap with
        | .error e => (-(e : Int), none, closeFd s1 fd)
        | .ok p =>
          (0, some (p + OFFSET),
            { s1 with
                maps := (p, fullSize size) :: s1.maps
                hdr := setHdr s1.hdr p ⟨fd, fullSize size⟩
                mem := zero s1.mem p (fullSize size) })

/-- The calls a program makes; `write` is a store of the program itself. -/
inductive Op where
  | alloc (size : Nat) (os : Os)
  | allocSecure (size : Nat) (os : Os)
  | free (ptr : Nat)
  | write (addr val : Nat)

/-- One call: return value, pointer, state. -/
def step (s : St) : Op → Int × Option Nat × St
  | .alloc size os => alloc s size os
  | .allocSecure size os => allocSecure s size os
  | .free ptr => (0, none, lcFree s ptr)
  | .write a v => (0, none, { s with mem := fun x => if x = a then v else s.mem x })

/-- What the program remembers: pointers it has obtained and not freed, with the sizes it asked for. -/
def remember (live : List (Nat × Nat)) : Op → Option Nat → List (Nat × Nat)
  | .alloc size _, some p => (p, size) :: live
  | .allocSecure size _, some p => (p, size) :: live
  | .free ptr, _ => live.filter (fun x => x.1 != ptr)
  | _, _ => live

/-- A sequence of calls. -/
def run : St → List (Nat × Nat) → List Op → St × List (Nat × Nat)
  | s, live, [] => (s, live)
  | s, live, op :: ops =>
    let r := step s op
    run r.2.2 (remember live op r.2.1) ops

/-- The process at the start; headers and memory hold anything. -/
def start (hdr : Nat → Hdr) (mem : Nat → Nat) : St := ⟨[], [], [], hdr, mem, [], true, false⟩

end LC.Mem
