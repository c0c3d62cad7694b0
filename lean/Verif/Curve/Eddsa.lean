import Verif.Curve.Ge
import Verif.Curve.Scalar
/-!
# Ed25519 signatures: model

`curve25519/src/ed25519.c`.  The hash is a parameter `H`: the code calls SHA-512 with a sequence of
updates, here it is applied to the concatenation (justified by `LC.Sha2.sha512_streaming`).  `comp`
are the bytes that `composite_signature_domain_separation` absorbs for composite ML-DSA (modelled in
`Verif/DomSep`); it is empty without.  `none` stands for a signed overflow in the scalar arithmetic.
Not modelled: NULL checks, the self tests, the clearing of buffers, errors of the random number
generator.
-/
namespace LC.Curve.Eddsa

/-- `lc_ed25519_dom2`, `ed25519.c:160-173`. -/
def dom2 (prehash : Bool) : List Byte :=
  if prehash then
    [0x53, 0x69, 0x67, 0x45, 0x64, 0x32, 0x35, 0x35, 0x31, 0x39, 0x20, 0x6e, 0x6f, 0x20, 0x45, 0x64, 0x32, 0x35, 0x35, 0x31, 0x39,
      0x20, 0x63, 0x6f, 0x6c, 0x6c, 0x69, 0x73, 0x69, 0x6f, 0x6e, 0x73, 1, 0]
  else []

/-- `lc_ed25519_keypair`, `ed25519.c:72-108`, from the 32 random bytes: public and secret key. -/
def keypair (H : List Byte → List Byte) (seed : List Byte) : List Byte × List Byte :=
  let tmp := H seed
  let A := scalarmultBase (clamp (tmp.take 32))
  let pk := A.tobytes
  (pk, seed ++ pk)

/-- The input of the hash for the nonce, `ed25519.c:206-229`; `rnd` are the 32 bytes of the random
number generator if there is one. -/
def nonceInput (prehash : Bool) (rnd : Option (List Byte)) (az comp msg : List Byte) : List Byte :=
  dom2 prehash ++ (rnd.elim (az.drop 32) fun n => az ++ n ++ List.replicate 32 0) ++ comp ++ msg

/-- `lc_ed25519_sign_internal`, `ed25519.c:175-262`. -/
def sign (H : List Byte → List Byte) (prehash : Bool) (rnd : Option (List Byte)) (comp msg sk : List Byte) : Option (List Byte) :=
  let az := H (sk.take 32)
  (Sc.reduce (H (nonceInput prehash rnd az comp msg))).bind fun nonce =>
    let R := (scalarmultBase nonce).tobytes
    (Sc.reduce (H (dom2 prehash ++ (R ++ (sk.drop 32).take 32) ++ comp ++ msg))).bind fun hram =>
      (Sc.muladd hram (clamp (az.take 32)) nonce).map fun S => R ++ S

/-- `lc_ed25519_verify_internal`, `ed25519.c:339-428`: 0, `-EINVAL` or `-EBADMSG`. -/
def verify (H : List Byte → List Byte) (prehash : Bool) (comp msg pk sig : List Byte) : Option Int :=
  if (sig.getD 63 0 &&& 240) ≠ 0 ∧ Sc.isCanonical (sig.drop 32) = false then some (-22)
  else if isCanonicalY pk = 0 then some (-22)
  else
    (frombytesNeg pk).elim (some (-22)) fun A =>
      if smallOrder A ≠ 0 then some (-22)
      else if (frombytes (sig.take 32)).2 = false ∨ smallOrder (frombytes (sig.take 32)).1 ≠ 0 then some (-22)
      else
        (Sc.reduce (H (dom2 prehash ++ sig.take 32 ++ pk ++ comp ++ msg))).map fun h =>
          let check := (frombytes (sig.take 32)).1.sub (doubleScalarmult h A (sig.drop 32)).toP3
          if smallOrder check = 1 then 0 else -74

end LC.Curve.Eddsa
