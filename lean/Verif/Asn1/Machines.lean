import Verif.Asn1.Check
/-
The shipped grammars, `/repo/asn1/src/*.asn1.c`, extracted mechanically: bytecode and number of
actions.  Beside each one is a certificate for `check`: per offset the possible abstract states
(bit set of 1, 2, 4; 0 for offsets that are not the beginning of a reachable instruction).
-/
namespace LC.Asn1

/-- `/repo/asn1/src/pkcs7.asn1.c` -/
def pkcs7 : Decoder where
  machine := [0, 48, 2, 6, 3, 30, 2, 5, 160, 12, 32, 29, 0, 48, 2, 2, 16, 5, 49, 59, 21, 48, 65, 28, 0, 48, 2,
   6, 4, 5, 160, 71, 32, 30, 13, 5, 160, 75, 21, 162, 83, 30, 12, 5, 161, 90, 21, 163, 96, 5, 49,
   102, 21, 48, 108, 28, 32, 32, 40, 4, 48, 114, 35, 59, 40, 4, 48, 114, 34, 65, 40, 10, 14, 32,
   40, 11, 10, 28, 30, 8, 35, 75, 40, 10, 7, 30, 8, 34, 83, 40, 4, 48, 120, 35, 90, 40, 4, 48, 120,
   34, 96, 40, 4, 48, 125, 35, 102, 40, 4, 48, 125, 34, 108, 40, 2, 6, 5, 9, 32, 40, 10, 9, 34,
   120, 40, 2, 2, 17, 5, 48, 169, 19, 128, 26, 28, 4, 48, 114, 30, 19, 5, 160, 194, 31, 24, 21,
   162, 200, 0, 48, 2, 6, 22, 9, 32, 30, 21, 2, 4, 25, 5, 161, 209, 21, 163, 215, 36, 15, 40, 0,
   48, 0, 49, 0, 48, 2, 6, 11, 10, 6, 36, 0, 35, 173, 34, 171, 30, 20, 0, 2, 30, 23, 32, 40, 4, 48,
   221, 35, 194, 40, 0, 48, 4, 48, 221, 34, 202, 32, 40, 4, 48, 232, 35, 209, 40, 4, 48, 232, 34,
   215, 40, 2, 6, 1, 0, 49, 10, 18, 35, 226, 32, 40, 0, 6, 0, 49, 8, 35, 236, 32, 40]
  nact := 27

def pkcs7_cert : List Nat := [1, 0, 3, 0, 0, 1, 0, 1, 0, 0, 1, 1, 3, 0, 3, 0, 0, 1, 0, 0, 1, 0, 0, 1, 1, 0, 3, 0, 0, 1, 0, 0,
   1, 1, 0, 1, 0, 0, 1, 0, 0, 1, 0, 1, 0, 0, 1, 0, 0, 1, 0, 0, 1, 0, 0, 1, 1, 1, 1, 3, 0, 0, 1, 0,
   1, 3, 0, 0, 1, 0, 1, 3, 0, 1, 1, 3, 0, 1, 1, 0, 1, 0, 1, 3, 0, 1, 0, 1, 0, 1, 3, 0, 0, 1, 0, 1,
   3, 0, 0, 1, 0, 1, 3, 0, 0, 1, 0, 1, 3, 0, 0, 1, 0, 1, 3, 0, 0, 1, 1, 1, 3, 0, 1, 0, 1, 3, 0, 0,
   1, 0, 0, 1, 0, 0, 1, 1, 0, 0, 1, 0, 1, 0, 0, 1, 0, 1, 0, 0, 1, 0, 3, 0, 0, 1, 1, 1, 0, 1, 0, 0,
   1, 0, 0, 1, 0, 0, 1, 0, 1, 3, 0, 3, 0, 3, 0, 3, 0, 0, 1, 0, 1, 0, 1, 0, 1, 0, 1, 0, 1, 0, 1, 0,
   1, 1, 3, 0, 0, 1, 0, 1, 3, 0, 3, 0, 0, 1, 0, 1, 1, 3, 0, 0, 1, 0, 1, 3, 0, 0, 1, 0, 1, 3, 0, 0,
   1, 0, 3, 0, 1, 0, 1, 1, 3, 0, 1, 0, 3, 1, 0, 1, 1]

/-- `/repo/asn1/src/pkcs7_aa.asn1.c` -/
def pkcs7_aa : Decoder where
  machine := [0, 49, 0, 48, 2, 6, 1, 0, 49, 10, 0, 35, 9, 36, 2, 35, 2, 29]
  nact := 3

def pkcs7_aa_cert : List Nat := [1, 0, 3, 0, 3, 0, 0, 1, 0, 3, 0, 1, 0, 1, 0, 1, 0, 1]

/-- `/repo/asn1/src/x509.asn1.c` -/
def x509 : Decoder where
  machine := [0, 48, 0, 48, 5, 160, 76, 0, 2, 30, 12, 4, 48, 82, 30, 13, 4, 48, 89, 30, 8, 0, 48, 3, 23, 19,
   19, 24, 18, 28, 30, 10, 3, 23, 19, 19, 24, 18, 28, 30, 9, 32, 4, 48, 89, 30, 15, 0, 48, 4, 48,
   82, 2, 3, 5, 32, 1, 129, 1, 130, 5, 163, 105, 32, 30, 16, 4, 48, 82, 30, 20, 2, 3, 14, 32, 29,
   0, 2, 30, 21, 32, 40, 2, 6, 6, 11, 11, 32, 40, 0, 49, 0, 48, 2, 6, 7, 10, 4, 36, 0, 35, 91, 34,
   89, 40, 0, 48, 0, 48, 2, 6, 1, 3, 1, 3, 2, 4, 17, 36, 2, 34, 107, 32, 40]
  nact := 22

def x509_cert : List Nat := [1, 0, 3, 0, 3, 0, 0, 5, 0, 1, 0, 1, 0, 0, 1, 0, 1, 0, 0, 1, 0, 1, 0, 3, 0, 0, 5, 0, 0, 5, 1, 0,
   1, 0, 0, 1, 0, 0, 1, 1, 0, 1, 1, 0, 0, 1, 0, 1, 0, 3, 0, 0, 1, 0, 0, 1, 1, 0, 1, 0, 1, 0, 0, 1,
   1, 0, 1, 0, 0, 1, 0, 1, 0, 0, 1, 1, 3, 0, 1, 0, 1, 1, 3, 0, 0, 1, 0, 1, 1, 3, 0, 3, 0, 3, 0, 0,
   1, 0, 1, 0, 1, 0, 1, 0, 1, 3, 0, 3, 0, 3, 0, 0, 1, 0, 0, 1, 0, 0, 1, 0, 1, 0, 1, 1]

/-- `/repo/asn1/src/x509_akid.asn1.c` -/
def x509_akid : Decoder where
  machine := [0, 48, 3, 128, 1, 5, 161, 13, 3, 130, 3, 32, 29, 5, 160, 39, 17, 129, 17, 130, 21, 163, 47, 21,
   164, 50, 21, 165, 70, 17, 134, 17, 135, 17, 136, 28, 34, 13, 40, 0, 6, 0, 160, 8, 32, 32, 40, 8,
   32, 40, 0, 48, 0, 49, 0, 48, 2, 6, 0, 10, 4, 32, 35, 54, 34, 52, 30, 2, 32, 40, 5, 160, 79, 0,
   161, 8, 32, 32, 40, 8, 32, 40]
  nact := 5

def x509_akid_cert : List Nat := [1, 0, 3, 0, 0, 5, 0, 0, 5, 0, 0, 5, 1, 3, 0, 0, 5, 0, 5, 0, 5, 0, 0, 5, 0, 0, 5, 0, 0, 5, 0, 5,
   0, 5, 0, 5, 1, 0, 1, 3, 0, 1, 0, 3, 1, 1, 1, 3, 1, 1, 3, 0, 3, 0, 3, 0, 3, 0, 0, 1, 0, 1, 1, 0,
   1, 0, 1, 0, 1, 1, 3, 0, 0, 5, 0, 3, 1, 1, 1, 3, 1, 1]

/-- `/repo/asn1/src/x509_basic_constraints.asn1.c` -/
def x509_basic_constraints : Decoder where
  machine := [0, 48, 3, 1, 0, 3, 2, 1, 32, 29]
  nact := 2

def x509_basic_constraints_cert : List Nat := [1, 0, 3, 0, 0, 5, 0, 0, 5, 1]

/-- `/repo/asn1/src/x509_composite_mldsa_privkey.asn1.c` -/
def x509_composite_mldsa_privkey : Decoder where
  machine := [0, 48, 2, 3, 1, 2, 3, 0, 32, 29]
  nact := 2

def x509_composite_mldsa_privkey_cert : List Nat := [1, 0, 3, 0, 0, 1, 0, 0, 1, 1]

/-- `/repo/asn1/src/x509_composite_mldsa_pubkey.asn1.c` -/
def x509_composite_mldsa_pubkey : Decoder where
  machine := [0, 48, 2, 3, 1, 2, 3, 0, 32, 29]
  nact := 2

def x509_composite_mldsa_pubkey_cert : List Nat := [1, 0, 3, 0, 0, 1, 0, 0, 1, 1]

/-- `/repo/asn1/src/x509_composite_mldsa_signature.asn1.c` -/
def x509_composite_mldsa_signature : Decoder where
  machine := [0, 48, 2, 3, 1, 2, 3, 0, 32, 29]
  nact := 2

def x509_composite_mldsa_signature_cert : List Nat := [1, 0, 3, 0, 0, 1, 0, 0, 1, 1]

/-- `/repo/asn1/src/x509_eku.asn1.c` -/
def x509_eku : Decoder where
  machine := [0, 48, 2, 6, 0, 34, 2, 29]
  nact := 1

def x509_eku_cert : List Nat := [1, 0, 3, 0, 0, 1, 0, 1]

/-- `/repo/asn1/src/x509_keyusage.asn1.c` -/
def x509_keyusage : Decoder where
  machine := [2, 3, 0, 29]
  nact := 1

def x509_keyusage_cert : List Nat := [1, 0, 0, 1]

/-- `/repo/asn1/src/x509_mldsa_privkey.asn1.c` -/
def x509_mldsa_privkey : Decoder where
  machine := [0, 48, 2, 3, 0, 32, 29]
  nact := 1

def x509_mldsa_privkey_cert : List Nat := [1, 0, 3, 0, 0, 1, 1]

/-- `/repo/asn1/src/x509_san.asn1.c` -/
def x509_san : Decoder where
  machine := [0, 48, 5, 160, 30, 17, 129, 19, 130, 2, 21, 163, 38, 21, 164, 41, 21, 165, 59, 17, 134, 19, 135,
   3, 17, 136, 28, 34, 2, 29, 0, 6, 0, 160, 8, 32, 32, 40, 8, 32, 40, 0, 48, 0, 49, 0, 48, 2, 6, 1,
   10, 0, 32, 35, 45, 34, 43, 32, 40, 5, 160, 68, 0, 161, 8, 32, 32, 40, 8, 32, 40]
  nact := 4

def x509_san_cert : List Nat := [1, 0, 3, 0, 0, 5, 0, 5, 0, 0, 5, 0, 0, 5, 0, 0, 5, 0, 0, 5, 0, 5, 0, 0, 5, 0, 5, 1, 0, 1, 3, 0,
   1, 0, 3, 1, 1, 1, 3, 1, 1, 3, 0, 3, 0, 3, 0, 3, 0, 0, 1, 0, 1, 1, 0, 1, 0, 1, 1, 3, 0, 0, 5, 0,
   3, 1, 1, 1, 3, 1, 1]

/-- `/repo/asn1/src/x509_skid.asn1.c` -/
def x509_skid : Decoder where
  machine := [2, 4, 0, 29]
  nact := 1

def x509_skid_cert : List Nat := [1, 0, 0, 1]

/-- `/repo/asn1/src/x509_slhdsa_privkey.asn1.c` -/
def x509_slhdsa_privkey : Decoder where
  machine := [0, 48, 2, 3, 0, 32, 29]
  nact := 1

def x509_slhdsa_privkey_cert : List Nat := [1, 0, 3, 0, 0, 1, 1]

/-- All shipped grammars with their certificates. -/
def shipped : List (Decoder × List Nat) :=
  [(pkcs7, pkcs7_cert),
   (pkcs7_aa, pkcs7_aa_cert),
   (x509, x509_cert),
   (x509_akid, x509_akid_cert),
   (x509_basic_constraints, x509_basic_constraints_cert),
   (x509_composite_mldsa_privkey, x509_composite_mldsa_privkey_cert),
   (x509_composite_mldsa_pubkey, x509_composite_mldsa_pubkey_cert),
   (x509_composite_mldsa_signature, x509_composite_mldsa_signature_cert),
   (x509_eku, x509_eku_cert),
   (x509_keyusage, x509_keyusage_cert),
   (x509_mldsa_privkey, x509_mldsa_privkey_cert),
   (x509_san, x509_san_cert),
   (x509_skid, x509_skid_cert),
   (x509_slhdsa_privkey, x509_slhdsa_privkey_cert)]

end LC.Asn1
