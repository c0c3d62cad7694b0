/-
The tables of `/repo/asn1/src/oid_registry_data.c`, extracted mechanically from the C source, and
the dotted names of `enum OID` (`/repo/asn1/api/lc_asn1.h:40-199`).  An `enum OID` value is its
ordinal number.
-/
namespace LC.Oid

/-- `OID__NR`. -/
def NR : Nat := 124

/-- `oid_index`, `oid_registry_data.c:6`. -/
def index : List Nat := [
  0, 7, 14, 21, 29, 37, 44, 52, 60, 68, 76, 85, 94, 103, 112, 121,
  130, 139, 148, 157, 166, 175, 184, 193, 204, 213, 222, 232, 242, 252, 262, 272,
  282, 291, 301, 311, 317, 323, 329, 335, 343, 348, 353, 358, 367, 376, 385, 394,
  397, 400, 403, 406, 409, 412, 415, 418, 421, 424, 427, 430, 433, 436, 439, 442,
  445, 448, 451, 454, 457, 460, 464, 472, 480, 488, 496, 504, 512, 518, 524, 531,
  538, 545, 553, 561, 569, 577, 585, 593, 602, 611, 620, 629, 638, 647, 656, 664,
  672, 680, 688, 694, 700, 706, 715, 724, 733, 742, 751, 760, 769, 778, 787, 796,
  805, 814, 823, 832, 843, 854, 865, 874, 883, 892, 901, 910, 919]

/-- `oid_data`, `oid_registry_data.c:134`. -/
def data : List UInt8 := [
  42, 134, 72, 206, 46, 4, 3, 42, 134, 72, 206, 56, 4, 1, 42, 134, 72, 206, 61, 2,
  1, 42, 134, 72, 206, 61, 3, 1, 1, 42, 134, 72, 206, 61, 3, 1, 7, 42, 134, 72,
  206, 61, 4, 1, 42, 134, 72, 206, 61, 4, 3, 1, 42, 134, 72, 206, 61, 4, 3, 2,
  42, 134, 72, 206, 61, 4, 3, 3, 42, 134, 72, 206, 61, 4, 3, 4, 42, 134, 72, 134,
  247, 13, 1, 1, 1, 42, 134, 72, 134, 247, 13, 1, 1, 5, 42, 134, 72, 134, 247, 13,
  1, 1, 11, 42, 134, 72, 134, 247, 13, 1, 1, 12, 42, 134, 72, 134, 247, 13, 1, 1,
  13, 42, 134, 72, 134, 247, 13, 1, 1, 14, 42, 134, 72, 134, 247, 13, 1, 7, 1, 42,
  134, 72, 134, 247, 13, 1, 7, 2, 42, 134, 72, 134, 247, 13, 1, 9, 1, 42, 134, 72,
  134, 247, 13, 1, 9, 3, 42, 134, 72, 134, 247, 13, 1, 9, 4, 42, 134, 72, 134, 247,
  13, 1, 9, 5, 42, 134, 72, 134, 247, 13, 1, 9, 15, 42, 134, 72, 134, 247, 13, 1,
  9, 16, 2, 11, 42, 134, 72, 130, 247, 18, 1, 2, 2, 42, 134, 72, 134, 247, 18, 1,
  2, 2, 42, 134, 72, 134, 247, 18, 1, 2, 2, 3, 43, 6, 1, 4, 1, 130, 55, 2,
  1, 4, 43, 6, 1, 4, 1, 130, 55, 2, 1, 11, 43, 6, 1, 4, 1, 130, 55, 2,
  1, 12, 43, 6, 1, 4, 1, 130, 55, 2, 1, 15, 43, 6, 1, 4, 1, 130, 55, 2,
  1, 21, 43, 6, 1, 4, 1, 130, 55, 16, 4, 43, 6, 1, 4, 1, 130, 55, 2, 2,
  10, 43, 6, 1, 4, 1, 130, 55, 2, 2, 30, 43, 6, 1, 5, 5, 2, 43, 6, 1,
  5, 2, 5, 43, 5, 1, 5, 2, 7, 43, 6, 1, 5, 5, 14, 43, 6, 1, 5, 5,
  7, 1, 1, 43, 14, 3, 2, 26, 43, 129, 4, 0, 34, 43, 129, 4, 0, 35, 96, 134,
  72, 1, 101, 3, 4, 2, 1, 96, 134, 72, 1, 101, 3, 4, 2, 2, 96, 134, 72, 1,
  101, 3, 4, 2, 3, 96, 134, 72, 1, 101, 3, 4, 2, 4, 85, 4, 3, 85, 4, 4,
  85, 4, 6, 85, 4, 7, 85, 4, 8, 85, 4, 10, 85, 4, 11, 85, 4, 12, 85, 4,
  13, 85, 4, 41, 85, 4, 42, 85, 4, 43, 85, 4, 44, 85, 29, 14, 85, 29, 15, 85,
  29, 17, 85, 29, 18, 85, 29, 19, 85, 29, 31, 85, 29, 32, 85, 29, 35, 85, 29, 37,
  85, 29, 37, 0, 43, 6, 1, 5, 5, 7, 3, 1, 43, 6, 1, 5, 5, 7, 3, 2,
  43, 6, 1, 5, 5, 7, 3, 3, 43, 6, 1, 5, 5, 7, 3, 4, 43, 6, 1, 5,
  5, 7, 3, 8, 43, 6, 1, 5, 5, 7, 3, 9, 42, 133, 112, 43, 14, 2, 42, 133,
  112, 43, 14, 3, 42, 133, 3, 2, 2, 35, 1, 42, 133, 3, 2, 2, 35, 2, 42, 133,
  3, 2, 2, 35, 3, 42, 133, 3, 7, 1, 1, 1, 1, 42, 133, 3, 7, 1, 1, 1,
  2, 42, 133, 3, 7, 1, 1, 2, 2, 42, 133, 3, 7, 1, 1, 2, 3, 42, 133, 3,
  7, 1, 1, 3, 2, 42, 133, 3, 7, 1, 1, 3, 3, 42, 133, 3, 7, 1, 2, 1,
  1, 1, 42, 133, 3, 7, 1, 2, 1, 1, 2, 42, 133, 3, 7, 1, 2, 1, 1, 3,
  42, 133, 3, 7, 1, 2, 1, 1, 4, 42, 133, 3, 7, 1, 2, 1, 2, 1, 42, 133,
  3, 7, 1, 2, 1, 2, 2, 42, 133, 3, 7, 1, 2, 1, 2, 3, 42, 129, 28, 207,
  85, 1, 130, 45, 42, 129, 28, 207, 85, 1, 131, 17, 42, 129, 28, 207, 85, 1, 131, 117,
  42, 129, 28, 207, 85, 1, 131, 120, 103, 129, 5, 10, 1, 3, 103, 129, 5, 10, 1, 4,
  103, 129, 5, 10, 1, 5, 96, 134, 72, 1, 101, 3, 4, 2, 8, 96, 134, 72, 1, 101,
  3, 4, 2, 9, 96, 134, 72, 1, 101, 3, 4, 2, 10, 96, 134, 72, 1, 101, 3, 4,
  2, 11, 96, 134, 72, 1, 101, 3, 4, 2, 12, 96, 134, 72, 1, 101, 3, 4, 3, 10,
  96, 134, 72, 1, 101, 3, 4, 3, 11, 96, 134, 72, 1, 101, 3, 4, 3, 12, 96, 134,
  72, 1, 101, 3, 4, 3, 14, 96, 134, 72, 1, 101, 3, 4, 3, 15, 96, 134, 72, 1,
  101, 3, 4, 3, 16, 96, 134, 72, 1, 101, 3, 4, 3, 17, 96, 134, 72, 1, 101, 3,
  4, 3, 18, 96, 134, 72, 1, 101, 3, 4, 3, 19, 96, 134, 72, 1, 134, 250, 107, 80,
  8, 1, 23, 96, 134, 72, 1, 134, 250, 107, 80, 8, 1, 30, 96, 134, 72, 1, 134, 250,
  107, 80, 8, 1, 33, 96, 134, 72, 1, 101, 3, 4, 3, 26, 96, 134, 72, 1, 101, 3,
  4, 3, 27, 96, 134, 72, 1, 101, 3, 4, 3, 28, 96, 134, 72, 1, 101, 3, 4, 3,
  29, 96, 134, 72, 1, 101, 3, 4, 3, 30, 96, 134, 72, 1, 101, 3, 4, 3, 31]

/-- `oid_search_table`, `oid_registry_data.c:264`: hash and OID. -/
def searchTable : List (Nat × Nat) := [
  (3, 109), (10, 54), (11, 35), (11, 36), (13, 41), (19, 93), (19, 90), (23, 63),
  (23, 58), (26, 121), (31, 74), (32, 0), (35, 19), (35, 12), (36, 67), (37, 55),
  (39, 70), (43, 1), (44, 42), (44, 37), (44, 26), (49, 6), (51, 31), (52, 96),
  (54, 64), (54, 59), (59, 120), (60, 78), (60, 75), (64, 98), (64, 25), (64, 17),
  (65, 111), (70, 71), (76, 3), (77, 49), (77, 5), (83, 43), (84, 94), (85, 22),
  (87, 40), (88, 102), (92, 123), (93, 79), (97, 18), (98, 110), (104, 117), (105, 69),
  (106, 68), (106, 30), (110, 50), (120, 34), (121, 72), (123, 101), (124, 81), (125, 122),
  (126, 80), (126, 10), (130, 100), (132, 23), (134, 38), (134, 106), (134, 104), (142, 2),
  (142, 15), (143, 51), (143, 113), (145, 97), (146, 60), (150, 9), (150, 4), (152, 73),
  (157, 82), (157, 45), (160, 16), (160, 112), (160, 115), (161, 65), (161, 99), (173, 32),
  (178, 44), (179, 61), (179, 76), (185, 103), (190, 83), (191, 87), (195, 24), (196, 108),
  (198, 66), (200, 29), (201, 52), (204, 20), (204, 13), (206, 116), (208, 7), (208, 91),
  (208, 88), (212, 56), (213, 47), (213, 95), (217, 119), (223, 85), (223, 84), (226, 11),
  (228, 39), (231, 107), (231, 105), (231, 33), (231, 28), (234, 53), (236, 77), (237, 21),
  (237, 14), (238, 114), (240, 86), (241, 92), (241, 89), (244, 48), (245, 62), (245, 57),
  (247, 8), (248, 118), (252, 46), (255, 27)]

/-- The object identifiers as documented at the enumerators, `lc_asn1.h:41-196`. -/
def dotted : List (List Nat) := [
  [1, 2, 840, 10030, 4, 3] /- OID_id_dsa_with_sha1 -/,
  [1, 2, 840, 10040, 4, 1] /- OID_id_dsa -/,
  [1, 2, 840, 10045, 2, 1] /- OID_id_ecPublicKey -/,
  [1, 2, 840, 10045, 3, 1, 1] /- OID_id_prime192v1 -/,
  [1, 2, 840, 10045, 3, 1, 7] /- OID_id_prime256v1 -/,
  [1, 2, 840, 10045, 4, 1] /- OID_id_ecdsa_with_sha1 -/,
  [1, 2, 840, 10045, 4, 3, 1] /- OID_id_ecdsa_with_sha224 -/,
  [1, 2, 840, 10045, 4, 3, 2] /- OID_id_ecdsa_with_sha256 -/,
  [1, 2, 840, 10045, 4, 3, 3] /- OID_id_ecdsa_with_sha384 -/,
  [1, 2, 840, 10045, 4, 3, 4] /- OID_id_ecdsa_with_sha512 -/,
  [1, 2, 840, 113549, 1, 1, 1] /- OID_rsaEncryption -/,
  [1, 2, 840, 113549, 1, 1, 5] /- OID_sha1WithRSAEncryption -/,
  [1, 2, 840, 113549, 1, 1, 11] /- OID_sha256WithRSAEncryption -/,
  [1, 2, 840, 113549, 1, 1, 12] /- OID_sha384WithRSAEncryption -/,
  [1, 2, 840, 113549, 1, 1, 13] /- OID_sha512WithRSAEncryption -/,
  [1, 2, 840, 113549, 1, 1, 14] /- OID_sha224WithRSAEncryption -/,
  [1, 2, 840, 113549, 1, 7, 1] /- OID_data -/,
  [1, 2, 840, 113549, 1, 7, 2] /- OID_signed_data -/,
  [1, 2, 840, 113549, 1, 9, 1] /- OID_email_address -/,
  [1, 2, 840, 113549, 1, 9, 3] /- OID_contentType -/,
  [1, 2, 840, 113549, 1, 9, 4] /- OID_messageDigest -/,
  [1, 2, 840, 113549, 1, 9, 5] /- OID_signingTime -/,
  [1, 2, 840, 113549, 1, 9, 15] /- OID_smimeCapabilites -/,
  [1, 2, 840, 113549, 1, 9, 16, 2, 11] /- OID_smimeAuthenticatedAttrs -/,
  [1, 2, 840, 48018, 1, 2, 2] /- OID_mskrb5 -/,
  [1, 2, 840, 113554, 1, 2, 2] /- OID_krb5 -/,
  [1, 2, 840, 113554, 1, 2, 2, 3] /- OID_krb5u2u -/,
  [1, 3, 6, 1, 4, 1, 311, 2, 1, 4] /- OID_msIndirectData -/,
  [1, 3, 6, 1, 4, 1, 311, 2, 1, 11] /- OID_msStatementType -/,
  [1, 3, 6, 1, 4, 1, 311, 2, 1, 12] /- OID_msSpOpusInfo -/,
  [1, 3, 6, 1, 4, 1, 311, 2, 1, 15] /- OID_msPeImageDataObjId -/,
  [1, 3, 6, 1, 4, 1, 311, 2, 1, 21] /- OID_msIndividualSPKeyPurpose -/,
  [1, 3, 6, 1, 4, 1, 311, 16, 4] /- OID_msOutlookExpress -/,
  [1, 3, 6, 1, 4, 1, 311, 2, 2, 10] /- OID_ntlmssp -/,
  [1, 3, 6, 1, 4, 1, 311, 2, 2, 30] /- OID_negoex -/,
  [1, 3, 6, 1, 5, 5, 2] /- OID_spnego -/,
  [1, 3, 6, 1, 5, 2, 5] /- OID_IAKerb -/,
  [1, 3, 5, 1, 5, 2, 7] /- OID_PKU2U -/,
  [1, 3, 6, 1, 5, 5, 14] /- OID_Scram -/,
  [1, 3, 6, 1, 5, 5, 7, 1, 1] /- OID_certAuthInfoAccess -/,
  [1, 3, 14, 3, 2, 26] /- OID_sha1 -/,
  [1, 3, 132, 0, 34] /- OID_id_ansip384r1 -/,
  [1, 3, 132, 0, 35] /- OID_id_ansip521r1 -/,
  [2, 16, 840, 1, 101, 3, 4, 2, 1] /- OID_sha256 -/,
  [2, 16, 840, 1, 101, 3, 4, 2, 2] /- OID_sha384 -/,
  [2, 16, 840, 1, 101, 3, 4, 2, 3] /- OID_sha512 -/,
  [2, 16, 840, 1, 101, 3, 4, 2, 4] /- OID_sha224 -/,
  [2, 5, 4, 3] /- OID_commonName -/,
  [2, 5, 4, 4] /- OID_surname -/,
  [2, 5, 4, 6] /- OID_countryName -/,
  [2, 5, 4, 7] /- OID_locality -/,
  [2, 5, 4, 8] /- OID_stateOrProvinceName -/,
  [2, 5, 4, 10] /- OID_organizationName -/,
  [2, 5, 4, 11] /- OID_organizationUnitName -/,
  [2, 5, 4, 12] /- OID_title -/,
  [2, 5, 4, 13] /- OID_description -/,
  [2, 5, 4, 41] /- OID_name -/,
  [2, 5, 4, 42] /- OID_givenName -/,
  [2, 5, 4, 43] /- OID_initials -/,
  [2, 5, 4, 44] /- OID_generationalQualifier -/,
  [2, 5, 29, 14] /- OID_subjectKeyIdentifier -/,
  [2, 5, 29, 15] /- OID_keyUsage -/,
  [2, 5, 29, 17] /- OID_subjectAltName -/,
  [2, 5, 29, 18] /- OID_issuerAltName -/,
  [2, 5, 29, 19] /- OID_basicConstraints -/,
  [2, 5, 29, 31] /- OID_crlDistributionPoints -/,
  [2, 5, 29, 32] /- OID_certPolicies -/,
  [2, 5, 29, 35] /- OID_authorityKeyIdentifier -/,
  [2, 5, 29, 37] /- OID_extKeyUsage -/,
  [2, 5, 29, 37, 0] /- OID_anyExtendedKeyUsage -/,
  [1, 3, 6, 1, 5, 5, 7, 3, 1] /- OID_id_kp_serverAuth -/,
  [1, 3, 6, 1, 5, 5, 7, 3, 2] /- OID_id_kp_clientAuth -/,
  [1, 3, 6, 1, 5, 5, 7, 3, 3] /- OID_id_kp_codeSigning -/,
  [1, 3, 6, 1, 5, 5, 7, 3, 4] /- OID_id_kp_emailProtection -/,
  [1, 3, 6, 1, 5, 5, 7, 3, 8] /- OID_id_kp_timeStamping -/,
  [1, 3, 6, 1, 5, 5, 7, 3, 9] /- OID_id_kp_OCSPSigning -/,
  [1, 2, 752, 43, 14, 2] /- OID_NetlogonMechanism -/,
  [1, 2, 752, 43, 14, 3] /- OID_appleLocalKdcSupported -/,
  [1, 2, 643, 2, 2, 35, 1] /- OID_gostCPSignA -/,
  [1, 2, 643, 2, 2, 35, 2] /- OID_gostCPSignB -/,
  [1, 2, 643, 2, 2, 35, 3] /- OID_gostCPSignC -/,
  [1, 2, 643, 7, 1, 1, 1, 1] /- OID_gost2012PKey256 -/,
  [1, 2, 643, 7, 1, 1, 1, 2] /- OID_gost2012PKey512 -/,
  [1, 2, 643, 7, 1, 1, 2, 2] /- OID_gost2012Digest256 -/,
  [1, 2, 643, 7, 1, 1, 2, 3] /- OID_gost2012Digest512 -/,
  [1, 2, 643, 7, 1, 1, 3, 2] /- OID_gost2012Signature256 -/,
  [1, 2, 643, 7, 1, 1, 3, 3] /- OID_gost2012Signature512 -/,
  [1, 2, 643, 7, 1, 2, 1, 1, 1] /- OID_gostTC26Sign256A -/,
  [1, 2, 643, 7, 1, 2, 1, 1, 2] /- OID_gostTC26Sign256B -/,
  [1, 2, 643, 7, 1, 2, 1, 1, 3] /- OID_gostTC26Sign256C -/,
  [1, 2, 643, 7, 1, 2, 1, 1, 4] /- OID_gostTC26Sign256D -/,
  [1, 2, 643, 7, 1, 2, 1, 2, 1] /- OID_gostTC26Sign512A -/,
  [1, 2, 643, 7, 1, 2, 1, 2, 2] /- OID_gostTC26Sign512B -/,
  [1, 2, 643, 7, 1, 2, 1, 2, 3] /- OID_gostTC26Sign512C -/,
  [1, 2, 156, 10197, 1, 301] /- OID_sm2 -/,
  [1, 2, 156, 10197, 1, 401] /- OID_sm3 -/,
  [1, 2, 156, 10197, 1, 501] /- OID_SM2_with_SM3 -/,
  [1, 2, 156, 10197, 1, 504] /- OID_sm3WithRSAEncryption -/,
  [2, 23, 133, 10, 1, 3] /- OID_TPMLoadableKey -/,
  [2, 23, 133, 10, 1, 4] /- OID_TPMImportableKey -/,
  [2, 23, 133, 10, 1, 5] /- OID_TPMSealedData -/,
  [2, 16, 840, 1, 101, 3, 4, 2, 8] /- OID_sha3_256 -/,
  [2, 16, 840, 1, 101, 3, 4, 2, 9] /- OID_sha3_384 -/,
  [2, 16, 840, 1, 101, 3, 4, 2, 10] /- OID_sha3_512 -/,
  [2, 16, 840, 1, 101, 3, 4, 2, 11] /- OID_shake128 -/,
  [2, 16, 840, 1, 101, 3, 4, 2, 12] /- OID_shake256 -/,
  [2, 16, 840, 1, 101, 3, 4, 3, 10] /- OID_id_ecdsa_with_sha3_256 -/,
  [2, 16, 840, 1, 101, 3, 4, 3, 11] /- OID_id_ecdsa_with_sha3_384 -/,
  [2, 16, 840, 1, 101, 3, 4, 3, 12] /- OID_id_ecdsa_with_sha3_512 -/,
  [2, 16, 840, 1, 101, 3, 4, 3, 14] /- OID_id_rsassa_pkcs1_v1_5_with_sha3_256 -/,
  [2, 16, 840, 1, 101, 3, 4, 3, 15] /- OID_id_rsassa_pkcs1_v1_5_with_sha3_384 -/,
  [2, 16, 840, 1, 101, 3, 4, 3, 16] /- OID_id_rsassa_pkcs1_v1_5_with_sha3_512 -/,
  [2, 16, 840, 1, 101, 3, 4, 3, 17] /- OID_id_MLDSA44 -/,
  [2, 16, 840, 1, 101, 3, 4, 3, 18] /- OID_id_MLDSA65 -/,
  [2, 16, 840, 1, 101, 3, 4, 3, 19] /- OID_id_MLDSA87 -/,
  [2, 16, 840, 1, 114027, 80, 8, 1, 23] /- OID_id_MLDSA44_Ed25519 -/,
  [2, 16, 840, 1, 114027, 80, 8, 1, 30] /- OID_id_MLDSA65_Ed25519 -/,
  [2, 16, 840, 1, 114027, 80, 8, 1, 33] /- OID_id_MLDSA87_Ed448 -/,
  [2, 16, 840, 1, 101, 3, 4, 3, 26] /- OID_id_SLHDSA_SHAKE_128S -/,
  [2, 16, 840, 1, 101, 3, 4, 3, 27] /- OID_id_SLHDSA_SHAKE_128F -/,
  [2, 16, 840, 1, 101, 3, 4, 3, 28] /- OID_id_SLHDSA_SHAKE_192S -/,
  [2, 16, 840, 1, 101, 3, 4, 3, 29] /- OID_id_SLHDSA_SHAKE_192F -/,
  [2, 16, 840, 1, 101, 3, 4, 3, 30] /- OID_id_SLHDSA_SHAKE_256S -/,
  [2, 16, 840, 1, 101, 3, 4, 3, 31] /- OID_id_SLHDSA_SHAKE_256F -/]

end LC.Oid
