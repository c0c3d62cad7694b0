import Verif.Kernel.SigModel
/-
Model of the ML-DSA/Ed25519 hybrid of the kernel module,
`/repo/linux_kernel/leancrypto_kernel_dilithium_ed25519.c`.

Keys and signatures are the bytes of the ML-DSA part followed by those of the Ed25519 part; the copies made
by the code for the parts are one.  The functions for signature and verification are those of
`Kernel/SigModel` (`leancrypto_kernel_dilithium_ed25519.c:47-216`); its simplifications hold here, too.
-/
namespace LC.Kernel.SigEd
open LC.Kernel.Sig

/-- `lc_dilithium_ed25519_pk_load`, `lc_dilithium_ed25519_sk_load`,
`ml-dsa/src/dilithium_api.c:1127-1173,1269-1315`, with the lengths of the ML-DSA parts computed by the
callers; `lc_dilithium_ed25519_sig_size`, `ml-dsa/src/dilithium_api.c:1002-1031`. -/
def fam (type : Nat) : Fam where
  pkTy n := mldsaPkTy (n - 32)
  skTy n := mldsaSkTy (n - 64)
  sigLen t := if mldsaSig t = 0 then 0 else mldsaSig t + 64
  accPk := mldsaAcc type
  accSk := mldsaAcc type

/-- `lc_kernel_dilithium_ed25519_set_pub_key_int`,
`leancrypto_kernel_dilithium_ed25519.c:218-247`: keys too short for the Ed25519 part are refused before
the old key is dropped. -/
def setPubH (f : Fam) (c : Ctx) (key : List Byte) : Ctx × Int :=
  if key.length < 32 then (c, -22) else setPub f c key

/-- `lc_kernel_dilithium_ed25519_set_priv_key_int`,
`leancrypto_kernel_dilithium_ed25519.c:273-302`. -/
def setPrivH (f : Fam) (c : Ctx) (key : List Byte) : Ctx × Int :=
  if key.length < 64 then (c, -22) else setPriv f c key

/-- One call: the new handle, the code returned and the bytes written. -/
def stepH {S : Type} (a : Scheme S) (f : Fam) (c : Ctx) : Op → Ctx × Int × List Byte
  | .setPub k => ((setPubH f c k).1, (setPubH f c k).2, [])
  | .setPriv k => ((setPrivH f c k).1, (setPrivH f c k).2, [])
  | o => step a f c o

/-- A sequence of calls: what each of them returns. -/
def runH {S : Type} (a : Scheme S) (f : Fam) : Ctx → List Op → List (Int × List Byte)
  | _, [] => []
  | c, o :: os => (stepH a f c o).2 :: runH a f (stepH a f c o).1 os

end LC.Kernel.SigEd
