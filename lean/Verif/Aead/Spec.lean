import Verif.Kmac.Spec
import Verif.Sym.Spec
import Verif.Hmac.Spec
import Verif.Kdf.Spec
/-
What the AEAD algorithms compute, in terms of cSHAKE, KMAC (SP 800-185), HMAC and HKDF only.
-/
namespace LC.Aead.Spec
open Sym.Spec (bxor)

def ascii (s : String) : List Byte := s.toList.map fun c => UInt8.ofNat c.toNat

/-- cSHAKE AEAD: the first 32 bytes of `cSHAKE(IV, "cSHAKE-AEAD crypt", K)` are the MAC key, the
rest is the key stream. -/
def cshakeKey (perm : List Byte → List Byte) (r : Nat) (key iv : List Byte) : List Byte :=
  Kmac.Spec.cshake perm r iv 32 (ascii "cSHAKE-AEAD crypt") key

def cshakeEnc (perm : List Byte → List Byte) (r : Nat) (key iv pt : List Byte) : List Byte :=
  bxor pt ((Kmac.Spec.cshake perm r iv (32 + pt.length) (ascii "cSHAKE-AEAD crypt") key).drop 32)

def cshakeTag (perm : List Byte → List Byte) (r : Nat) (key iv msg : List Byte) (n : Nat) : List Byte :=
  Kmac.Spec.cshake perm r msg n (ascii "cSHAKE-AEAD auth") (cshakeKey perm r key iv)

/-- KMAC AEAD: the first 32 bytes of `KMACXOF(K, "", S = IV)` are the MAC key, the rest is the
key stream. -/
def kmacKey (perm : List Byte → List Byte) (r : Nat) (key iv : List Byte) : List Byte :=
  Kmac.Spec.kmacXof perm r key [] 32 iv

def kmacEnc (perm : List Byte → List Byte) (r : Nat) (key iv pt : List Byte) : List Byte :=
  bxor pt ((Kmac.Spec.kmacXof perm r key [] (32 + pt.length) iv).drop 32)

def kmacTag (perm : List Byte → List Byte) (r : Nat) (key iv msg : List Byte) (n : Nat) : List Byte :=
  Kmac.Spec.kmacXof perm r (kmacKey perm r key iv) msg n []

/-- Symmetric cipher with HMAC: 64 bytes of HKDF-SHA-512 of the key without salt and info, 32 for
the cipher and 32 for the MAC. -/
def shKeys (sha512 : List Byte → List Byte) (key : List Byte) : List Byte × List Byte :=
  let k := Kdf.Spec.hkdf (Hmac.Spec.hmac sha512 128) (List.replicate 64 0) key [] 64
  (k.take 32, k.drop 32)

/-- Symmetric cipher with KMAC: 64 bytes of KMACXOF of the empty message. -/
def khKeys (perm : List Byte → List Byte) (r : Nat) (key : List Byte) : List Byte × List Byte :=
  let k := Kmac.Spec.kmacXof perm r key [] 64 []
  (k.take 32, k.drop 32)

end LC.Aead.Spec
