/-
Model of loading and unloading the kernel module, `/repo/linux_kernel/leancrypto_kernel.c:48-275`.

All parts are compiled in (a part left out by the configuration has functions without effect,
`leancrypto_kernel.h`).  Each part registers its algorithms with the kernel in one step which
succeeds or fails as a whole.  The selection of the implementations (lines 52-54) is not modelled.
-/
namespace LC.Kernel.Load

/-- The parts of the module, named after their functions `lc_kernel_..._init` and `..._exit`. -/
inductive Part where
  | sha3 | kmac256 | rng
  | dilithium | dilithium_65 | dilithium_44
  | dilithium_ed25519 | dilithium_65_ed25519 | dilithium_44_ed25519
  | kyber | kyber_768 | kyber_512
  | kyber_x25519 | kyber_x25519_768 | kyber_x25519_512
  | ascon | aead_ascon
  | bike | bike_3 | bike_1
  | sphincs | sphincs_shake_256f | sphincs_shake_192s | sphincs_shake_192f | sphincs_shake_128s | sphincs_shake_128f
deriving DecidableEq, Repr

/-- What the kernel knows: the parts registered, the parts which were to be unregistered
although they are not registered (the kernel warns), and whether the seeded random number generator was wiped. -/
structure St where
  reg : List Part
  warned : List Part
  wiped : Bool
deriving DecidableEq, Repr

/-- State before loading. -/
def unloaded : St := { reg := [], warned := [], wiped := false }

/-- A successful `lc_kernel_..._init`. -/
def register (s : St) (p : Part) : St := { s with reg := p :: s.reg }

/-- `lc_kernel_..._exit`: `crypto_unregister_...` of the kernel. -/
def unregister (s : St) (p : Part) : St :=
  if p ∈ s.reg then { s with reg := s.reg.erase p } else { s with warned := p :: s.warned }

/-- Lines 57-159: the parts in the order of their registration, each with the label jumped to if it fails.  A label
is named by the part in its name (`free_bike5` is `bike`, `free_sphincs_shake_256s` is
`sphincs`); `none` is the label `out`. -/
def steps : List (Part × Option Part) :=
  [(.sha3, none), (.kmac256, some .sha3), (.rng, some .kmac256),
   (.dilithium, some .rng), (.dilithium_65, some .dilithium), (.dilithium_44, some .dilithium_65),
   (.dilithium_ed25519, some .dilithium_44), (.dilithium_65_ed25519, some .dilithium_ed25519),
   (.dilithium_44_ed25519, some .dilithium_65_ed25519),
   (.kyber, some .dilithium_44_ed25519), (.kyber_768, some .kyber), (.kyber_512, some .kyber_768),
   (.kyber_x25519, some .kyber_512), (.kyber_x25519_768, some .kyber_x25519),
   (.kyber_x25519_512, some .kyber_x25519_768),
   (.ascon, some .kyber_x25519_512), (.aead_ascon, some .ascon),
   (.bike, some .aead_ascon), (.bike_3, some .bike), (.bike_1, some .bike_3),
   (.sphincs, some .bike_1), (.sphincs_shake_256f, some .sphincs),
   (.sphincs_shake_192s, some .sphincs_shake_256f), (.sphincs_shake_192f, some .sphincs_shake_192s),
   (.sphincs_shake_128s, some .sphincs_shake_192f), (.sphincs_shake_128f, some .sphincs_shake_128s)]

/-- Lines 164-237: the labels in their order, each with the part whose exit function follows it.  The labels of
the three hybrid signatures (lines 212-219) are followed by the functions of ML-DSA without Ed25519. -/
def labels : List (Part × Part) :=
  [(.sphincs_shake_128s, .sphincs_shake_128s), (.sphincs_shake_192f, .sphincs_shake_192f),
   (.sphincs_shake_192s, .sphincs_shake_192s), (.sphincs_shake_256f, .sphincs_shake_256f),
   (.sphincs, .sphincs), (.bike_1, .bike_1), (.bike_3, .bike_3), (.bike, .bike),
   (.aead_ascon, .aead_ascon), (.ascon, .ascon),
   (.kyber_x25519_512, .kyber_x25519_512), (.kyber_x25519_768, .kyber_x25519_768),
   (.kyber_x25519, .kyber_x25519), (.kyber_512, .kyber_512), (.kyber_768, .kyber_768), (.kyber, .kyber),
   (.dilithium_44_ed25519, .dilithium_44), (.dilithium_65_ed25519, .dilithium_65),
   (.dilithium_ed25519, .dilithium),
   (.dilithium_44, .dilithium_44), (.dilithium_65, .dilithium_65), (.dilithium, .dilithium),
   (.rng, .rng), (.kmac256, .kmac256), (.sha3, .sha3)]

/-- Jump to a label: the exit functions from there on. -/
def unwind (s : St) : Option Part → St
  | none => s
  | some l => ((labels.dropWhile (fun x => x.1 ≠ l)).map (·.2)).foldl unregister s

/-- The sequence of registrations; `ans p` is the return value of the init function of a part. -/
def runInit (ans : Part → Int) : List (Part × Option Part) → St → Int × St
  | [], s => (0, s)
  | (p, l) :: rest, s => if ans p = 0 then runInit ans rest (register s p) else (ans p, unwind s l)

/-- `leancrypto_init`, `leancrypto_kernel.c:48-240`. -/
def load (ans : Part → Int) (s : St) : Int × St := runInit ans steps s

/-- Lines 246-271: the exit functions in their order. -/
def exits : List Part :=
  [.sha3, .kmac256, .rng, .dilithium, .dilithium_65, .dilithium_44, .dilithium_ed25519,
   .dilithium_65_ed25519, .dilithium_44_ed25519, .kyber, .kyber_768, .kyber_512, .kyber_x25519,
   .kyber_x25519_768, .kyber_x25519_512, .ascon, .aead_ascon, .bike, .bike_3, .bike_1, .sphincs,
   .sphincs_shake_256f, .sphincs_shake_192s, .sphincs_shake_192f, .sphincs_shake_128s, .sphincs_shake_128f]

/-- `leancrypto_exit`, `leancrypto_kernel.c:242-272`. -/
def unload (s : St) : St := exits.foldl unregister { s with wiped := true }

end LC.Kernel.Load
