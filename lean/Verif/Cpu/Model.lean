/-!
# Detection of CPU features and selection of implementations

`/repo/internal/src/cpufeatures_x86.c`, `cpufeatures_arm64_auxv.c`, `cpufeatures_arm64_native.c`, `cpufeatures_arm32.c`,
`cpufeatures_riscv_auxv.c`, `cpufeatures_none.c`; `/repo/hash/src/sha3_selector.c`, `/repo/hash/src/ascon_selector.c`,
`/repo/sym/src/aes_selector.c`; which implementations are built: `/repo/meson.build` lines 384-475 and the `meson.build` of hash and sym.

Not modelled: `cpufeatures_riscv_native.c`, the Apple variant of reading the feature register, builds for the Linux kernel, threads.
-/

namespace LC.Cpu

/-! ## Features: internal/api/cpufeatures.h lines 27-51, as numbers of bits -/

def AVX : Nat := 0
def AVX2 : Nat := 1
def AVX512 : Nat := 2
def AESNI : Nat := 3
def VPCLMUL : Nat := 4
def PCLMUL : Nat := 5
def ARM : Nat := 8
def ARM_AES : Nat := 9
def ARM_NEON : Nat := 10
def ARM_SHA2 : Nat := 11
def ARM_SHA3 : Nat := 12
def RISCV_ASM : Nat := 16
def RISCV_ASM_ZBB : Nat := 17
def RISCV_ASM_RVV : Nat := 18
/-- `LC_CPU_FEATURE_UNSET`: line 50. -/
def UNSET : Nat := 2 ^ 30

/-- `if (cond) feat |= 1 << bit`. -/
def orIf (feat : Nat) (cond : Bool) (bit : Nat) : Nat := if cond then feat ||| 2 ^ bit else feat

/-- Registers after the instruction cpuid. -/
structure Regs where
  eax : Nat
  ebx : Nat
  ecx : Nat

/-- `lc_cpu_feature_available`, detection: cpufeatures_x86.c lines 75-111.  `cpu leaf` is what cpuid gives (subleaf 0).  The variable `eax` holds the
maximum leaf and is overwritten by the second cpuid of leaf 1. -/
def detectX86 (cpu : Nat → Regs) : Nat :=
  let f := orIf 0 ((cpu 1).ecx.testBit 25) AESNI
  let f := orIf f ((cpu 1).ecx.testBit 28) AVX
  let eax := (cpu 0).eax
  let f := if eax ≥ 1 then orIf f ((cpu 1).ecx.testBit 1) PCLMUL else f
  let eax := if eax ≥ 1 then (cpu 1).eax else eax
  if eax < 7 then f
  else
    let f := orIf f ((cpu 7).ebx.testBit 5) AVX2
    let f := orIf f ((cpu 7).ebx.testBit 16) AVX512
    orIf f ((cpu 7).ecx.testBit 10) VPCLMUL

/-- Detection from `getauxval(AT_HWCAP)`: cpufeatures_arm64_auxv.c lines 46-66. -/
def detectArm64 (c : Nat) : Nat :=
  let f := 2 ^ ARM
  let f := orIf f (c.testBit 1) ARM_NEON
  let f := orIf f (c.testBit 3) ARM_AES
  let f := orIf f (c.testBit 6) ARM_SHA2
  let f := orIf f (c.testBit 21) ARM_SHA2
  orIf f (c.testBit 17) ARM_SHA3

/-- Detection from ID_AA64ISAR0_EL1: cpufeatures_arm64_native.c lines 109-131.  The mask `ARM8_AES_FEATURE` is 0x11 << 4, `ARM8_SHA3_FEATURE` is 0xf << 32. -/
def detectArm64Native (v : Nat) : Nat :=
  let f := 2 ^ ARM
  let f := orIf f (v.testBit 4 || v.testBit 8) ARM_AES
  let f := orIf f (v.testBit 13) ARM_SHA2
  orIf f (v.testBit 32 || v.testBit 33 || v.testBit 34 || v.testBit 35) ARM_SHA3

/-- Detection on 32 bit ARM: cpufeatures_arm32.c lines 46-72.  The variable still has the bit of `LC_CPU_FEATURE_UNSET`. -/
def detectArm32 (c : Nat) : Nat :=
  let f := UNSET ||| 2 ^ ARM
  let f := orIf f (c.testBit 1) ARM_NEON
  orIf f (c.testBit 17) ARM_SHA3

/-- Detection on RISC-V: cpufeatures_riscv_auxv.c lines 37-60. -/
def detectRiscv (c : Nat) : Nat :=
  let f := 2 ^ RISCV_ASM
  let f := orIf f (c.testBit 21) RISCV_ASM_ZBB
  let f := orIf f (c.testBit 21) RISCV_ASM_RVV
  orIf f (c.testBit 1) RISCV_ASM_ZBB

/-! ## The variable and its functions -/

/-- `lc_cpu_feature_disable`, `lc_cpu_feature_enable`, `lc_cpu_feature_available`. -/
inductive Op where
  | disable
  | enable
  | available

/-- One call: the variable `feat`, and the value returned (0 for the void functions).  `unset` is the check of the variable: on x86
`feat & LC_CPU_FEATURE_UNSET` (line 72), elsewhere `features == LC_CPU_FEATURE_UNSET`. -/
def call (unset : Nat → Bool) (detect : Nat) (feat : Nat) : Op → Nat × Nat
  | .disable => (0, 0)
  | .enable => (UNSET, 0)
  | .available => if unset feat then (detect, detect) else (feat, feat)

/-- The check on x86. -/
def unsetX86 (feat : Nat) : Bool := feat.testBit 30

/-- The check elsewhere. -/
def unsetEq (feat : Nat) : Bool := feat == UNSET

/-- The variable after a sequence of calls, from its initial value. -/
def calls (unset : Nat → Bool) (detect : Nat) (ops : List Op) : Nat :=
  ops.foldl (fun feat op => (call unset detect feat op).1) UNSET

/-! ## Selection -/

/-- The accelerated implementations. -/
inductive Accel where
  | avx512 | avx2 | armCe | armNeon | armAsm | rvZbb | rvAsm
  | aesni | armAes | rvAes
  deriving DecidableEq

/-- An implementation: portable C or accelerated. -/
inductive Impl where
  | c
  | acc (a : Accel)
  deriving DecidableEq

/-- The pointers of one family of algorithms `α`: `lc_<alg>_<accel>` and `lc_<alg>`; `none` is NULL. -/
structure Tab (α : Type) where
  named : Accel → α → Option Impl
  dflt : α → Option Impl

/-- Initial values: the pointers of an implementation which is not built are NULL (files `*_null.c`), the default ones are those in C
(sha3_c.c line 744, aes_cbc.c line 82). -/
def init (α : Type) (built : Accel → Bool) : Tab α :=
  ⟨fun a _ => if built a then some (.acc a) else none, fun _ => some .c⟩

/-- `LC_FILL_ACCEL_WITH_C`: sha3_selector.c lines 37-47. -/
def fillC {α : Type} (t : Tab α) (a : Accel) : Tab α :=
  { t with named := fun b x => if b = a then some .c else t.named b x }

/-- `LC_FILL_ACCEL_NULL`: sha3_selector.c lines 49-52; the pointer of the first algorithm is examined. -/
def fillNull {α : Type} (first : α) (t : Tab α) (a : Accel) : Tab α :=
  if t.named a first = none then fillC t a else t

/-- `LC_FILL_DFLT_IMPL`: sha3_selector.c lines 63-71. -/
def setDflt {α : Type} (t : Tab α) (a : Accel) : Tab α := { t with dflt := t.named a }

/-- `if (!(feat & bit)) LC_FILL_ACCEL_WITH_C(accel)`. -/
def unlessC {α : Type} (feat bit : Nat) (t : Tab α) (a : Accel) : Tab α := if feat.testBit bit then t else fillC t a

inductive Sha3 where
  | sha3_224 | sha3_256 | sha3_384 | sha3_512 | shake128 | shake256 | cshake128 | cshake256

/-- `sha3_fastest_impl`: sha3_selector.c lines 33-124. -/
def sha3Select (built : Accel → Bool) (feat : Nat) : Tab Sha3 :=
  let t := [Accel.armAsm, .armCe, .armNeon, .avx512, .avx2, .rvAsm, .rvZbb].foldl (fillNull Sha3.sha3_224) (init Sha3 built)
  let t :=
    if feat.testBit AVX512 then setDflt t .avx512
    else if feat.testBit AVX2 then setDflt t .avx2
    else if feat.testBit ARM_SHA3 then setDflt t .armCe
    else if feat.testBit ARM_NEON then
      if t.named .armNeon .sha3_224 = some .c then setDflt t .armAsm else setDflt t .armNeon
    else if feat.testBit ARM then setDflt t .armAsm
    else if feat.testBit RISCV_ASM_ZBB then setDflt t .rvZbb
    else if feat.testBit RISCV_ASM then setDflt t .rvAsm
    else t
  let t := unlessC feat AVX512 t .avx512
  let t := unlessC feat AVX2 t .avx2
  let t := unlessC feat ARM_SHA3 t .armCe
  let t := unlessC feat ARM_NEON t .armNeon
  let t := unlessC feat ARM t .armAsm
  let t := unlessC feat RISCV_ASM_ZBB t .rvZbb
  unlessC feat RISCV_ASM t .rvAsm

inductive Ascon where
  | ascon256 | ascon128a | xof

/-- `ascon_fastest_impl`: ascon_selector.c lines 28-71. -/
def asconSelect (built : Accel → Bool) (feat : Nat) : Tab Ascon :=
  let t := [Accel.avx512, .armNeon].foldl (fillNull Ascon.ascon256) (init Ascon built)
  let t :=
    if feat.testBit AVX512 then setDflt t .avx512
    else if feat.testBit ARM_NEON then setDflt t .armNeon
    else t
  let t := unlessC feat AVX512 t .avx512
  unlessC feat ARM_NEON t .armNeon

inductive Aes where
  | cbc | ctr | kw

/-- `aes_fastest_impl`: aes_selector.c lines 28-76, for the modes with a default pointer.  Only the pointers for AES-NI are examined for NULL. -/
def aesSelect (built : Accel → Bool) (feat : Nat) : Tab Aes :=
  let t := fillNull Aes.cbc (init Aes built) .aesni
  let t :=
    if feat.testBit AESNI then setDflt t .aesni
    else if feat.testBit ARM_AES then setDflt t .armAes
    else if feat.testBit RISCV_ASM then setDflt t .rvAes
    else t
  let t := unlessC feat AESNI t .aesni
  let t := unlessC feat ARM_AES t .armAes
  unlessC feat RISCV_ASM t .rvAes

/-! ## Platforms -/

/-- Platforms of meson.build lines 384-475 and internal/src/meson.build lines 41-59: x86-64, the same without assembler (option disable-asm, macOS),
64 bit ARM with auxv or the feature register, 32 bit ARM, 64 bit RISC-V, anything else. -/
inductive Target where
  | x86 | x86plain | arm64 | arm64native | arm32 | riscv64 | other

/-- What is built: hash/src/meson.build lines 24-140 and 150-180, sym/src/meson.build lines 60-165. -/
def builtOn : Target → Accel → Bool
  | .x86, .avx512 => true
  | .x86, .avx2 => true
  | .x86, .aesni => true
  | .arm64, .armCe => true
  | .arm64, .armAsm => true
  | .arm64, .armAes => true
  | .arm64native, .armCe => true
  | .arm64native, .armAsm => true
  | .arm64native, .armAes => true
  | .arm32, .armNeon => true
  | .riscv64, .rvZbb => true
  | .riscv64, .rvAsm => true
  | .riscv64, .rvAes => true
  | _, _ => false

/-- What the machine says: cpuid, AT_HWCAP, ID_AA64ISAR0_EL1. -/
structure Machine where
  cpuid : Nat → Regs
  hwcap : Nat
  isar0 : Nat

/-- The detection used on a platform: internal/src/meson.build lines 41-59. -/
def detectOn (m : Machine) : Target → Nat
  | .x86 => detectX86 m.cpuid
  | .x86plain => detectX86 m.cpuid
  | .arm64 => detectArm64 m.hwcap
  | .arm64native => detectArm64Native m.isar0
  | .arm32 => detectArm32 m.hwcap
  | .riscv64 => detectRiscv m.hwcap
  | .other => 0

end LC.Cpu
