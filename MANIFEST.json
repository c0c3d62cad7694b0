{
 "claims": [
  {
   "property": "C02",
   "status": "proved",
   "theorems": [
    "LC.Sponge.sponge_streaming",
    "LC.Sponge.keccak_streaming",
    "LC.Sponge.keccakp_eq_fips",
    "LC.Sponge.sha3_digest",
    "LC.Sponge.sha3_chunking"
   ],
   "note": "Total length below 2^64 bytes (msg_len is a size_t)."
  },
  {
   "property": "C03",
   "status": "proved",
   "theorems": [
    "LC.Sponge.sponge_streaming",
    "LC.Sponge.keccak_streaming"
   ],
   "note": ""
  },
  {
   "property": "C01",
   "status": "proved",
   "theorems": [
    "LC.Sha2.sha256_streaming",
    "LC.Sha2.sha384_streaming",
    "LC.Sha2.sha512_streaming",
    "LC.Sha2.md_streaming",
    "LC.Sha2.sha256_transform_fips",
    "LC.Sha2.sha512_transform_fips",
    "LC.Sha2.sha2_constants",
    "LC.Sha2.sha2_chunking",
    "LC.Sha2.sha2_digest_size"
   ],
   "note": "Messages shorter than 2^64 bits: the C code keeps a 64-bit bit counter for all three functions."
  },
  {
   "property": "C04",
   "status": "partial",
   "theorems": [
    "LC.AsconHash.ascon_streaming_partial",
    "LC.AsconHash.ascon_hash256_partial",
    "LC.AsconHash.ascon_xof128_partial",
    "LC.AsconHash.ascon_hash256_oneshot",
    "LC.AsconHash.ascon_perm_sp800_232",
    "LC.AsconHash.ascon_initial_states",
    "LC.AsconHash.ascon_chunking_violated",
    "LC.AsconHash.ascon_chunkingClaim_false",
    "LC.AsconHash.ascon_chunking_collision"
   ],
   "note": "The code violates the claim: an update that completes a started block exactly skips the permutation. Proved for all chunkings without such a cut; counterexample and a collision family proved."
  },
  {
   "property": "C05",
   "status": "proved",
   "theorems": [
    "LC.Kmac.encode_eq_sp800_185",
    "LC.Kmac.left_encode_prefix_free",
    "LC.Kmac.right_encode_suffix_free",
    "LC.Kmac.cshake_init_absorbs",
    "LC.Kmac.kmac_init_absorbs",
    "LC.Kmac.cshake_prefix_injective",
    "LC.Kmac.kmac_input_injective"
   ],
   "note": "Strings below 2^61 bytes; beyond, len<<3 wraps (witness given)."
  },
  {
   "property": "C06",
   "status": "proved",
   "theorems": [
    "LC.Kmac.kmac_streaming",
    "LC.Kmac.kmac_xof_streaming",
    "LC.Kmac.kmac256_streaming",
    "LC.Kmac.cshake_streaming",
    "LC.Kmac.kmac_reinit",
    "LC.Kmac.kmac_after_reinit",
    "LC.Kmac.kmac_short_refused"
   ],
   "note": ""
  },
  {
   "property": "C07",
   "status": "proved",
   "theorems": [
    "LC.Hmac.hmac_streaming",
    "LC.Hmac.hmac_reinit",
    "LC.Hmac.hmac_sha256",
    "LC.Hmac.hmac_sha384",
    "LC.Hmac.hmac_sha512",
    "LC.Hmac.hmac_sha3"
   ],
   "note": "For any hash of the lc_hash interface meeting Implements; instantiated for SHA-2 and SHA-3."
  },
  {
   "property": "C08",
   "status": "proved",
   "theorems": [
    "LC.Kdf.hkdf_rfc5869",
    "LC.Kdf.hkdf_refused",
    "LC.Kdf.hkdf_prefix",
    "LC.Kdf.hkdf_rng_stream"
   ],
   "note": "Limit enforced by the code is 254*HashLen (RFC 5869 allows 255*HashLen)."
  },
  {
   "property": "C09",
   "status": "proved",
   "theorems": [
    "LC.Kdf.pbkdf2_rfc8018",
    "LC.Kdf.pbkdf2_refused"
   ],
   "note": ""
  },
  {
   "property": "C10",
   "status": "partial",
   "theorems": [
    "LC.Kdf.kdf_ctr_sp800_108",
    "LC.Kdf.kdf_fb_sp800_108",
    "LC.Kdf.kdf_dpi_general",
    "LC.Kdf.kdf_dpi_sp800_108_partial",
    "LC.Kdf.kdf_dpi_empty_label_deviates",
    "LC.Kdf.kdf108_refused",
    "LC.Kdf.kdf_fb_iv_length",
    "LC.Kdf.kdf_ctr_rng_first"
   ],
   "note": "Counter and feedback mode proved in full. Double pipeline mode proved for a non-empty label; with an empty label the code uses A(0)=0^h (deviation proved)."
  },
  {
   "property": "C11",
   "status": "partial",
   "theorems": [
    "LC.Otp.hotp_partial",
    "LC.Otp.totp_partial",
    "LC.Otp.hotp_range",
    "LC.Otp.hotp_ten_digits_wrong",
    "LC.Otp.hotp_division_by_zero"
   ],
   "note": "Proved for at most 9 digits. For 10 digits the claim is false (modulus reduced mod 2^32, witness proved); from 32 digits on the code divides by zero."
  },
  {
   "property": "C12",
   "status": "proved",
   "theorems": [
    "LC.Memcmp.memcmp_decides",
    "LC.Memcmp.memcmp_lists",
    "LC.Memcmp.memcmp_range"
   ],
   "note": "C and AVX2 variants, all alignments. The timing behaviour itself is outside the model."
  },
  {
   "property": "C13",
   "status": "proved",
   "theorems": [
    "LC.Hex.hex_roundtrip",
    "LC.Hex.hex_alloc_roundtrip",
    "LC.Hex.hex_digits",
    "LC.Hex.hex_length",
    "LC.Hex.hex_value"
   ],
   "note": ""
  },
  {
   "property": "C64",
   "status": "partial",
   "theorems": [
    "LC.Hex.hex2bin_in_bounds_partial",
    "LC.Hex.hex2bin_overflows",
    "LC.Hex.hex2binAlloc_length"
   ],
   "note": "False for text of odd length and binlen <= hexlen/2: exactly one byte is stored past the end (proved). Holds for even length and for hex2bin_alloc."
  },
  {
   "property": "C33",
   "status": "proved",
   "theorems": [
    "LC.X509.decodeTime_iff",
    "LC.X509.decodeTime_nonneg",
    "LC.X509.decodeTime_pre1970_refused",
    "LC.X509.mktime64_epoch"
   ],
   "note": "Hour 24 and second 60 are accepted as the code documents; dates before 1970 are refused."
  },
  {
   "property": "C34",
   "status": "partial",
   "theorems": [
    "LC.X509.matchKeyUsage_iff",
    "LC.X509.matchEku_iff",
    "LC.X509.timeValid_partial",
    "LC.X509.timeValid_range",
    "LC.X509.timeValid_epoch_unbounded",
    "LC.X509.isCa_iff",
    "LC.X509.isRootCa_iff",
    "LC.X509.selfSigned_sound",
    "LC.X509.keyUsage_bits",
    "LC.X509.basicConstraints_ca",
    "LC.X509.basicConstraints_criticality_not_enforced",
    "LC.X509.criticality_is_sticky"
   ],
   "note": "Predicates proved exact, except that a bound equal to the epoch is treated as absent (proved) and that the criticality of extensions is not tracked correctly (proved)."
  },
  {
   "property": "C35",
   "status": "partial",
   "theorems": [
    "LC.Pkcs7.verify_sound_partial",
    "LC.Pkcs7.verifySigner_sound",
    "LC.Pkcs7.verify_accepts_untrusted_root"
   ],
   "note": "False: a self-signed CA certificate as signer is accepted against any trust store (witness proved). Proved for all other signers: verified chain to an anchor."
  },
  {
   "property": "C36",
   "status": "partial",
   "theorems": [
    "LC.Pkcs7.trustStore_add_partial",
    "LC.Pkcs7.trustStore_admits_forged"
   ],
   "note": "False: the link to the root is not verified (forged CA certificate admitted, proved). Proved: all other links are verified."
  },
  {
   "property": "C37",
   "status": "proved",
   "theorems": [
    "LC.Pkcs7.chain_walk_terminates",
    "LC.Pkcs7.chainLoop_stable"
   ],
   "note": ""
  },
  {
   "property": "C38",
   "status": "partial",
   "theorems": [
    "LC.Pkcs7.verify_covers",
    "LC.Pkcs7.covers_of_fresh",
    "LC.Pkcs7.verify_again_accepts"
   ],
   "note": "Proved for a message that has not been verified before. False for a second verification of the same message object (cached digest, witness proved)."
  },
  {
   "property": "C39",
   "status": "partial",
   "theorems": [
    "LC.X509.idSame_partial",
    "LC.X509.idSame_iff_prefix",
    "LC.X509.idSame_complete",
    "LC.X509.idSame_prefix",
    "LC.X509.idSame_not_symmetric",
    "LC.X509.generateId_spec",
    "LC.X509.generateId_boundary"
   ],
   "note": "False: only the length of the second identifier is used, so a longer first identifier with that prefix compares equal (proved); serial and issuer are concatenated without a boundary (collision proved)."
  },
  {
   "property": "C40",
   "status": "proved",
   "theorems": [
    "LC.Pkcs7.Store.concurrent_adds",
    "LC.Pkcs7.Store.step_counts"
   ],
   "note": "Any number of threads, every schedule, one shared access per step, sequentially consistent memory. Also wait-free: step bound per call."
  },
  {
   "property": "C65",
   "status": "partial",
   "theorems": [
    "LC.Pkcs7.Store.readd_destroys"
   ],
   "note": "The code violates this: proved for every store and position that the re-added certificate ends up pointing to itself."
  },
  {
   "property": "C32",
   "status": "proved",
   "theorems": [
    "LC.Oid.lookUp_iff",
    "LC.Oid.lookUp_unknown",
    "LC.Oid.registry_der",
    "LC.Oid.lookUp_der",
    "LC.Oid.registry_injective",
    "LC.Oid.search_total",
    "LC.Oid.search_in_bounds",
    "LC.Oid.parse_iff"
   ],
   "note": ""
  },
  {
   "property": "C28",
   "status": "proved",
   "theorems": [
    "LC.Asn1.decode_reads_inside",
    "LC.Asn1.decode_stacks",
    "LC.Asn1.decode_safe_checked",
    "LC.Asn1.decode_safe",
    "LC.Asn1.unchecked_overread"
   ],
   "note": "All inputs and all bytecode for reads of the input and the stacks; bytecode, tables and action slices for every program passing the static check, which all 14 shipped grammars pass (checked by the kernel)."
  },
  {
   "property": "C29",
   "status": "proved",
   "theorems": [
    "LC.Asn1.decode_returns",
    "LC.Asn1.decode_stable",
    "LC.Asn1.decode_result",
    "LC.Asn1.unchecked_loops"
   ],
   "note": ""
  },
  {
   "property": "C30",
   "status": "proved",
   "theorems": [
    "LC.Asn1.Enc.encodeLength_spec",
    "LC.Asn1.Enc.matchLen_der",
    "LC.Asn1.Enc.octet_string_roundtrip"
   ],
   "note": ""
  },
  {
   "property": "C31",
   "status": "partial",
   "theorems": [
    "LC.Asn1.Enc.encodeInteger_partial",
    "LC.Asn1.Enc.encodeInteger_zero",
    "LC.Asn1.Enc.encodeInteger_overrun",
    "LC.Asn1.Enc.encodeBinaryOid_spec",
    "LC.Asn1.Enc.encodeOid_no_tag",
    "LC.Asn1.Enc.encodeOid_witness"
   ],
   "note": "Proved for positive values and at least three bytes of space. The space accounting is wrong for 0, a refused call writes behind a buffer of less than two bytes, and the OID encoder overwrites its tag (all proved)."
  },
  {
   "property": "C66",
   "status": "partial",
   "theorems": [
    "LC.Asn1.two_times",
    "LC.Asn1.missing_time_accepted",
    "LC.Asn1.missing_both_times",
    "LC.Asn1.trailing_accepted"
   ],
   "note": "The code violates this: witnesses proved for the certificate grammar."
  },
  {
   "property": "C14",
   "status": "proved",
   "theorems": [
    "LC.Aes.aes_encrypt_is_fips197",
    "LC.Aes.aes_inverse",
    "LC.Aes.aes_no_sbox_equal",
    "LC.Aes.aes_injective"
   ],
   "note": "Both C implementations (table and table-free) are modelled line by line; conformance to an independent FIPS 197 spec, inverse in both directions, equality of the two implementations, for every key of 16/24/32 bytes and every block.  Assembler back ends not modelled."
  },
  {
   "property": "C67",
   "status": "partial",
   "theorems": [
    "LC.Aes.aes_setkey_invalid_length_accepted",
    "LC.Aes.aes_setkey_keeps_old_key"
   ],
   "note": "The property is false for the code: aes_setkey returns 0 for every invalid length and keeps the previous key; the negation is proved."
  },
  {
   "property": "C15",
   "status": "partial",
   "theorems": [
    "LC.Sym.cbc_encrypt_partial",
    "LC.Sym.cbc_roundtrip_partial",
    "LC.Sym.aes_cbc_partial",
    "LC.Sym.cbc_trailing_untouched",
    "LC.Sym.cbc_encrypt_4gib_nothing",
    "LC.Sym.cbc_encrypt_4gib_plaintext"
   ],
   "note": "Proved for every block cipher and AES, any number of block aligned calls of less than 4 GiB each, unlimited total.  False for a single call of 2^32 bytes or more (32 bit mask in len & ~(AES_BLOCKLEN-1)): proved that nothing is encrypted."
  },
  {
   "property": "C16",
   "status": "partial",
   "theorems": [
    "LC.Sym.ctr_oneshot",
    "LC.Sym.aes_ctr_oneshot",
    "LC.Sym.ctr_roundtrip",
    "LC.Sym.ctr_blocks_distinct",
    "LC.Sym.ctr_chunks_partial",
    "LC.Sym.ctr_unaligned_chunks",
    "LC.Sym.ctr_unaligned_chunks_differ"
   ],
   "note": "One call: SP 800-38A for all inputs, round trip, counter never reused.  Chunked calls proved for chunks that are multiples of 16 except the last; for other chunks the claim is false (witness proved)."
  },
  {
   "property": "C17",
   "status": "partial",
   "theorems": [
    "LC.Sym.kw_wrap_partial",
    "LC.Sym.kw_unwrap_partial",
    "LC.Sym.kw_roundtrip_partial",
    "LC.Sym.kw_unwrap_short_accepted",
    "LC.Sym.kw_wrap_short_stale",
    "LC.Sym.kw_wrap_unaligned_overruns",
    "LC.Sym.kw_unwrap_unaligned_overruns",
    "LC.Sym.kw_wrap_4gib_ignores_input"
   ],
   "note": "For plaintexts of 16 bytes or more, multiple of 8, below 4 GiB: exact SP 800-38F wrapping, unwrap accepts exactly the wrapped strings.  Outside this range the claim is false and the failures are proved (unauthenticated acceptance below 24 bytes, memory overrun for unaligned lengths)."
  },
  {
   "property": "C18",
   "status": "partial",
   "theorems": [
    "LC.Sym.Cc20.chacha20_oneshot",
    "LC.Sym.Cc20.chacha20_roundtrip",
    "LC.Sym.Cc20.chacha20_chunks_partial",
    "LC.Sym.Cc20.chacha20_refused",
    "LC.Sym.Cc20.chacha20_counter_wraps",
    "LC.Sym.Cc20.chacha20_states_distinct",
    "LC.Sym.Cc20.chacha20_unaligned_chunks",
    "LC.Sym.chacha20_unaligned_chunks_differ"
   ],
   "note": "RFC 7539 for every input in one call and for chunks of multiples of 64 bytes; false for other chunks (witness proved)."
  },
  {
   "property": "C19",
   "status": "partial",
   "theorems": [
    "LC.Aead.cshake_aead",
    "LC.Aead.kmac_aead_partial",
    "LC.Aead.symkmac_cbc_partial",
    "LC.Aead.symkmac_ctr_partial",
    "LC.Aead.symhmac_cbc_partial",
    "LC.Aead.symhmac_ctr_partial",
    "LC.Aead.hash_aead_partial",
    "LC.Aead.hash_aead_rekey",
    "LC.Aead.cbcE_is_cbc",
    "LC.Aead.cshake_next_message",
    "LC.Aead.symhmac_tail_lost",
    "LC.Aead.symhmac_not_injective",
    "LC.AsconAead.roundtrip",
    "LC.AsconAead.ascon128_setkey",
    "LC.AsconAead.dec_enc"
   ],
   "note": "Round trip for every key, nonce, AAD, plaintext and chunking: Ascon (any permutation), cSHAKE, KMAC (tags of 4 bytes or more), AES-CBC/CTR with HMAC/KMAC (block aligned calls; tag at most the MAC size).  hash_crypt with the Hash DRBG (tags up to the digest size; setting a key twice reseeds instead of starting afresh, proved).  False for AES-CBC AEADs on plaintexts that are not whole blocks (proved)."
  },
  {
   "property": "C20",
   "status": "partial",
   "theorems": [
    "LC.Aead.cshake_aead",
    "LC.Aead.hash_aead_partial",
    "LC.Aead.kmac_aead_partial",
    "LC.Aead.symkmac_cbc_partial",
    "LC.Aead.symhmac_cbc_partial",
    "LC.AsconAead.accept_iff",
    "LC.Aead.empty_tag_accepted",
    "LC.Aead.kmac_short_tag",
    "LC.Aead.kmac_short_tag_enc",
    "LC.Aead.symhmac_long_tag"
   ],
   "note": "Exact acceptance for Ascon, cSHAKE (all tag lengths) and the others within their tag length range.  False outside: KMAC with tags of 1-3 bytes compares uninitialised memory, HMAC ignores tag bytes beyond the digest (proved)."
  },
  {
   "property": "C21",
   "status": "partial",
   "theorems": [
    "LC.Aead.boundary_not_authenticated",
    "LC.Aead.cshake_forgery",
    "LC.Aead.fixed_aad_length_partial",
    "LC.AsconAead.trace_injective_partial"
   ],
   "note": "False for all encrypt-then-MAC AEADs: bytes can be moved from the ciphertext to the AAD with the tag unchanged, a forgery without the key (proved).  Holds for fixed AAD length, and for Ascon up to the confusion of C22."
  },
  {
   "property": "C22",
   "status": "partial",
   "theorems": [
    "LC.AsconAead.enc_streaming",
    "LC.AsconAead.dec_streaming",
    "LC.AsconAead.tag_trace",
    "LC.AsconAead.trace_injective_partial",
    "LC.AsconAead.empty_zero_block_same_tag",
    "LC.AsconAead.truncation_forgery",
    "LC.AsconAead.sp800_232_partial",
    "LC.AsconAead.setkey_spec",
    "LC.AsconAead.sp800_232_partial_block_deviates",
    "LC.AsconAead.sp800_232_empty_plaintext_deviates",
    "LC.AsconAead.sp800_232_empty_aad_deviates"
   ],
   "note": "Streaming equals one shot for every chunking (full).  The absorbed strings are distinct for distinct inputs except that the empty plaintext collides with one zero block, for every key (proved, with the resulting forgery).  SP 800-232 conformance for whole blocks and nonempty AAD; deviations proved otherwise."
  },
  {
   "property": "C23",
   "status": "proved",
   "theorems": [
    "LC.Drbg.hash_drbg_sp800_90a",
    "LC.Drbg.hash_drbg_limits",
    "LC.Drbg.hash_drbg_never_refuses",
    "LC.Drbg.hash_drbg_unseeded_output",
    "LC.Drbg.addBuf_eq"
   ],
   "note": "For every request sequence whose generates come after an accepted seed, replies and state equal SP 800-90A Hash_DRBG with SHA-512; size limits rejected without output.  Also proved: the reseed interval and a missing seed are not checked; an unseeded generate delivers a public constant."
  },
  {
   "property": "C24",
   "status": "proved",
   "theorems": [
    "LC.Drbg.hmac_drbg_sp800_90a",
    "LC.Drbg.hmac_run_same",
    "LC.Drbg.hmac_drbg_limits",
    "LC.Drbg.hmac_drbg_never_refuses",
    "LC.Drbg.hmac_drbg_unseeded_output"
   ],
   "note": "HMAC_DRBG of SP 800-90A over the proved HMAC-SHA-512 for every request sequence; deviations (no reseed interval, no check for a missing seed) are proved separately."
  },
  {
   "property": "C25",
   "status": "partial",
   "theorems": [
    "LC.Drbg.Xdrbg.xdrbg_input_injective",
    "LC.Drbg.Xdrbg.xdrbg256_conforms",
    "LC.Drbg.Xdrbg.xdrbg128_conforms_partial",
    "LC.Drbg.Xdrbg.xdrbg128_claim_false",
    "LC.Drbg.Xdrbg.xdrbg128_seed_collision",
    "LC.Drbg.Xdrbg.xdrbg128_generate_deviates",
    "LC.Drbg.Xdrbg.xdrbg_alpha_truncated",
    "LC.Drbg.Xdrbg.xdrbg256_unseeded_output"
   ],
   "note": "Full for XDRBG256 (SHAKE-256). For XDRBG128 the code violates the claim because of the Ascon hash defect: proved by a seed collision and by a deviating generate; holds for requests without an exactly completed block."
  },
  {
   "property": "C26",
   "status": "partial",
   "theorems": [
    "LC.Drbg.Cc20.cc20_drng_refines",
    "LC.Drbg.Cc20.cc20_key_after_output",
    "LC.Drbg.Cc20.cc20_drng_rekey_partial",
    "LC.Drbg.Cc20.cc20_noReuseClaim_false",
    "LC.Drbg.Cc20.cc20_drng_reuse"
   ],
   "note": "Exact behaviour for all request sequences; rekeying uses fresh key stream for requests below 2^38 - 32 bytes. False for 2^38 bytes (32 bit block counter wraps; the new key is the old key xored with output bytes): proved."
  },
  {
   "property": "C27",
   "status": "partial",
   "theorems": [
    "LC.Seeded.seeded_rng_partial",
    "LC.Seeded.seeded_rng_threads_partial",
    "LC.Seeded.seeded_rng_claim_false",
    "LC.Seeded.seeded_rng_clock_zero",
    "LC.Seeded.seeded_rng_pid_reuse",
    "LC.Seeded.seeded_rng_race",
    "LC.Seeded.seeded_rng_clock_back"
   ],
   "note": "Proved for every interleaving of any number of threads, forks and failures, given a clock that does not run backwards and is never 0, and fresh process ids; with T threads the byte bound grows by T-1 requests. Without these conditions the claim is false: unseeded output when the clock reads 0, shared state when a pid is reused, byte bound exceeded by a race (all proved)."
  },
  {
   "property": "C41",
   "status": "proved",
   "theorems": [
    "LC.Kyber.montgomery_reduce_no_overflow",
    "LC.Kyber.montgomery_reduce_exact",
    "LC.Kyber.barrett_reduce_no_overflow",
    "LC.Kyber.barrett_reduce_exact",
    "LC.Kyber.fqmul_exact",
    "LC.Kyber.fqmul_int16"
   ],
   "note": "all inputs in range; no signed overflow"
  },
  {
   "property": "C42",
   "status": "proved",
   "theorems": [
    "LC.Kyber.ntt_is_fips203",
    "LC.Kyber.ntt_product",
    "LC.Kyber.ntt_convolution",
    "LC.Kyber.ntt_roundtrip"
   ],
   "note": "the loops of kyber_ntt and kyber_invntt with int16 arithmetic; each pair of the result is the polynomial modulo X^2 - 17^(2 BitRev7(b)+1); product modulo X^256+1 as a divisibility and coefficient by coefficient"
  },
  {
   "property": "C43",
   "status": "proved",
   "theorems": [
    "LC.Kyber.tobytes_is_byteEncode",
    "LC.Kyber.frombytes_is_byteDecode",
    "LC.Kyber.tobytes_frombytes",
    "LC.Kyber.frombytes_tobytes",
    "LC.Kyber.frommsg_is_fips",
    "LC.Kyber.tomsg_is_fips",
    "LC.Kyber.frommsg_tomsg"
   ],
   "note": "equal to ByteEncode/ByteDecode of FIPS 203 stated on bits; coefficients in [-q,q), messages for reduced coefficients [-1664,q)"
  },
  {
   "property": "C44",
   "status": "proved",
   "theorems": [
    "LC.Kyber.comp4_exact",
    "LC.Kyber.comp5_exact",
    "LC.Kyber.comp10_exact",
    "LC.Kyber.comp11_exact",
    "LC.Kyber.tomsg_exact",
    "LC.Kyber.tomsg_inexact",
    "LC.Kyber.compress_error",
    "LC.Kyber.decompress_exact",
    "LC.Kyber.compress4_is_fips",
    "LC.Kyber.compress5_is_fips",
    "LC.Kyber.compress10_is_fips",
    "LC.Kyber.compress11_is_fips",
    "LC.Kyber.decompress4_is_fips",
    "LC.Kyber.decompress5_is_fips",
    "LC.Kyber.decompress10_is_fips",
    "LC.Kyber.decompress11_is_fips",
    "LC.Kyber.compress1_noise",
    "LC.Kyber.compress1_noise_tight"
   ],
   "note": "all residues, lifted to all polynomials and byte strings; poly_tomsg is inexact at the unreduced coefficient -2497, which the callers never produce"
  },
  {
   "property": "C50",
   "status": "proved",
   "theorems": [
    "LC.Kyber.cbd2_is_fips",
    "LC.Kyber.cbd3_is_fips",
    "LC.Kyber.rejUniform_spec",
    "LC.Kyber.genEntry_spec"
   ],
   "note": "every buffer; a matrix entry is the first 256 accepted candidates of the XOF stream for every stream and number of refills"
  },
  {
   "property": "C45",
   "status": "proved",
   "theorems": [
    "LC.Kyber.indcpa_correct",
    "LC.Kyber.decaps_correct",
    "LC.Kyber.decaps_kdf_correct",
    "LC.Kyber.mlkem_decaps_correct",
    "LC.Kyber.lib_H",
    "LC.Kyber.lib_G",
    "LC.Kyber.lib_prf",
    "LC.Kyber.lib_rkprf",
    "LC.Kyber.lib_xof",
    "LC.Kyber.lib_kmac"
   ],
   "note": "For the three parameter sets, every hash function, seed, message: decapsulation returns the encapsulated secret whenever the noise polynomial of that key and ciphertext stays within 831 per coefficient, and never fails; buffers shared between operands and scratch memory are modelled."
  },
  {
   "property": "C46",
   "status": "proved",
   "theorems": [
    "LC.Kyber.implicit_rejection",
    "LC.Kyber.dec_error_iff",
    "LC.Kyber.dec_refuses_inconsistent_key"
   ],
   "note": ""
  },
  {
   "property": "C47",
   "status": "partial",
   "theorems": [
    "LC.Kyber.modulus_check_claim_false",
    "LC.Kyber.modulus_check_vacuous",
    "LC.Kyber.modulus_check_partial"
   ],
   "note": "The code violates this: the comparison after decode and encode always agrees because neither reduces modulo q; proved that no key of the right length is refused."
  },
  {
   "property": "C48",
   "status": "proved",
   "theorems": [
    "LC.Kyber.uake_agree",
    "LC.Kyber.ake_agree"
   ],
   "note": "both exchanges, all keys, randomness, nonces and output lengths, whenever the encapsulations involved decode (C45); the result is KMAC256 of the specified inputs"
  },
  {
   "property": "C49",
   "status": "proved",
   "theorems": [
    "LC.Kyber.ies_roundtrip",
    "LC.Kyber.cshake_keyed",
    "LC.Kyber.asconKeccak_keyed",
    "LC.Kyber.ies_ascon_refused"
   ],
   "note": "any AEAD with the stated law; the law is proved for the cSHAKE AEAD and Ascon-Keccak-256. enc_init calls the decryption init function, harmless because both are the same function in every AEAD of the library. Ascon-AEAD128 and Ascon-Keccak-512 always fail (32 byte key)."
  },
  {
   "property": "C51",
   "status": "partial",
   "theorems": [
    "LC.Dilithium.montgomery_reduce_exact_partial",
    "LC.Dilithium.montgomery_reduce_documented_false",
    "LC.Dilithium.montgomery_reduce_no_overflow",
    "LC.Dilithium.montgomery_reduce_needs_fwrapv",
    "LC.Dilithium.reduce32_exact_partial",
    "LC.Dilithium.reduce32_documented_false",
    "LC.Dilithium.caddq_exact",
    "LC.Dilithium.caddq_mod",
    "LC.Dilithium.freeze_exact"
   ],
   "note": "Exact on the whole documented range except at one end point each: montgomery_reduce(2^31 q) = q is outside (-q,q), and reduce32 reaches 6283008, one more than documented; both proved."
  },
  {
   "property": "C52",
   "status": "proved",
   "theorems": [
    "LC.Dilithium.ntt_is_fips204",
    "LC.Dilithium.ntt_product",
    "LC.Dilithium.ntt_convolution",
    "LC.Dilithium.ntt_roundtrip"
   ],
   "note": "all polynomials, no overflow; the transform is evaluation at the powers of 1753 in bit-reversed order"
  },
  {
   "property": "C53",
   "status": "proved",
   "theorems": [
    "LC.Dilithium.power2round_exact",
    "LC.Dilithium.Spec.Power2Round.unique",
    "LC.Dilithium.decompose_exact",
    "LC.Dilithium.Spec.Decompose.unique",
    "LC.Dilithium.use_hint_exact",
    "LC.Dilithium.hint_recovers",
    "LC.Dilithium.hint_recovers_high"
   ],
   "note": ""
  },
  {
   "property": "C54",
   "status": "proved",
   "theorems": [
    "LC.Dilithium.eta_roundtrip",
    "LC.Dilithium.t1_roundtrip",
    "LC.Dilithium.t1_bytes",
    "LC.Dilithium.t0_roundtrip",
    "LC.Dilithium.t0_bytes",
    "LC.Dilithium.z_roundtrip",
    "LC.Dilithium.z_bytes",
    "LC.Dilithium.w1_injective",
    "LC.Dilithium.etaPack2",
    "LC.Dilithium.etaPack4",
    "LC.Dilithium.t1Pack",
    "LC.Dilithium.t0Pack",
    "LC.Dilithium.zPack17",
    "LC.Dilithium.zPack19",
    "LC.Dilithium.w1Pack88",
    "LC.Dilithium.w1Pack32"
   ],
   "note": "all functions equal the bit packing of FIPS 204 algorithms 16-19"
  },
  {
   "property": "C55",
   "status": "proved",
   "theorems": [
    "LC.Dilithium.packHint_is_fips204",
    "LC.Dilithium.unpackHint_canonical",
    "LC.Dilithium.unpackHint_injective",
    "LC.Dilithium.hint_roundtrip",
    "LC.Dilithium.hintBitPack_length"
   ],
   "note": "Model of pack_sig_h and unpack_sig_h over byte strings of any content; the specification of HintBitPack is a separate definition."
  },
  {
   "property": "C58",
   "status": "partial",
   "theorems": [
    "LC.Dilithium.polyUniform_range",
    "LC.Dilithium.polyUniform_is_fips204_partial",
    "LC.Dilithium.polyUniform_refill_deviates",
    "LC.Dilithium.polyUniformEta_range",
    "LC.Dilithium.polyUniformEta2_is_fips204",
    "LC.Dilithium.polyUniformEta4_is_fips204_partial",
    "LC.Dilithium.polyUniformEta4_refill_deviates",
    "LC.Dilithium.polyChallenge_is_fips204",
    "LC.Dilithium.polyChallenge_weight"
   ],
   "note": "SampleInBall and RejBoundedPoly for ETA=2 are proved for every stream. The C code deviates from FIPS 204 when RejNTTPoly or RejBoundedPoly with ETA=4 has to squeeze again: the deviation is proved with a witness, and the _partial theorems cover every stream that needs no refill."
  },
  {
   "property": "C56",
   "status": "proved",
   "theorems": [
    "LC.Dilithium.verify_accepts",
    "LC.Dilithium.attempt_verifies",
    "LC.Dilithium.demo_signs"
   ],
   "note": "keypair, sign and verify as compositions of the modelled C functions for the three parameter sets, every seed, message and randomness; SHAKE is an arbitrary function; loops run until success, modelled with an arbitrary step bound. demo_signs shows that the hypotheses can be met. Matrix expanded from the key (the reuse of an expanded matrix is C59)."
  },
  {
   "property": "C68",
   "status": "proved",
   "theorems": [
    "LC.Dilithium.challenge_product_exact",
    "LC.Dilithium.negacyclic_bound"
   ],
   "note": ""
  },
  {
   "property": "C57",
   "status": "partial",
   "theorems": [
    "LC.DomSep.domSep_fips204",
    "LC.DomSep.domSep_ok_iff",
    "LC.DomSep.domSep_long_context",
    "LC.DomSep.domSep_injective_partial",
    "LC.DomSep.domSep_stream",
    "LC.DomSep.phOids_accepts",
    "LC.DomSep.oidDer_spec",
    "LC.DomSep.compOid_spec",
    "LC.DomSep.mprime_injective",
    "LC.DomSep.internal_mode_collides",
    "LC.DomSep.composite_is_ordinary",
    "LC.DomSep.composite_masks_unsupported",
    "LC.DomSep.claim_false"
   ],
   "note": "For the standard modes the hashed bytes are M' of FIPS 204/205 and determine prehash, context and message; long contexts are refused; accepted prehashes are exactly those with a digest of 2 lambda bits. As stated the claim is false, proved with witnesses: the internal mode hashes the bare message, composite and ordinary signatures are not separated, and a composite operation with an unsupported prehash succeeds without naming the hash."
  },
  {
   "property": "C59",
   "status": "partial",
   "theorems": [
    "LC.Dilithium.history_independent_partial",
    "LC.Dilithium.history_independent_no_buffer",
    "LC.Dilithium.sign_op",
    "LC.Dilithium.verify_op",
    "LC.Dilithium.refused",
    "LC.Dilithium.sign_stream",
    "LC.Dilithium.ctx_verify_accepts",
    "LC.Dilithium.stale_matrix",
    "LC.Dilithium.c59_overread",
    "LC.Dilithium.c59_false"
   ],
   "note": "Proved for every sequence of calls that keeps to the documented rule (one key until the expanded matrix is dropped). Without the rule the claim is false: the matrix of the first key is used silently, and with a larger parameter set the buffer is read beyond its end (proved). Also: init/update/final equals the one-shot call."
  },
  {
   "property": "C60",
   "status": "proved",
   "theorems": [
    "LC.Slh.verify_accepts",
    "LC.Slh.signCtx_spec",
    "LC.Slh.verifyCtx_spec",
    "LC.Slh.keyRoot_spec",
    "LC.Slh.slh_dsa_correct",
    "LC.Slh.sig_sizes",
    "LC.Slh.lib_thash",
    "LC.Slh.lib_prf",
    "LC.Slh.lib_rnd",
    "LC.Slh.lib_hmsg"
   ],
   "note": "Key generation, signing and verification as compositions of the modelled C functions with byte level addresses, for the six SHAKE parameter sets, every hash, every key, message, setting and randomizer, any content of the output buffer before; slh_dsa_correct instantiates the hash calls with the library's Keccak. The x1 (C) variants of the tree functions are modelled, not the AVX2 x4 and ARMv8 x2 ones."
  },
  {
   "property": "C61",
   "status": "proved",
   "theorems": [
    "LC.Slh.wots_no_domination",
    "LC.Slh.chainLengths_eq"
   ],
   "note": ""
  },
  {
   "property": "C62",
   "status": "proved",
   "theorems": [
    "LC.Slh.treehash_spec",
    "LC.Slh.computeRoot_spec",
    "LC.Slh.path_leads_to_root"
   ],
   "note": "For every height, leaf function, hash, leaf index and offset."
  },
  {
   "property": "C69",
   "status": "proved",
   "theorems": [
    "LC.Slh.code_fips",
    "LC.Slh.code_injective",
    "LC.Slh.forsIndex_bits"
   ],
   "note": "That these are the addresses of the hash calls follows from C60 (signCtx_spec) and C62, whose specification uses the same addresses."
  },
  {
   "property": "C70",
   "status": "proved",
   "theorems": [
    "LC.Slh.accepted_signature",
    "LC.Slh.verify_determined",
    "LC.Slh.computeRoot_bind",
    "LC.Slh.wots_bind"
   ],
   "note": "verifyCalls lists the hash calls of one verification; verify_determined shows that the verifier's answer depends on the hash at these inputs only, so a second preimage in accepted_signature is one among the calls of this very verification."
  },
  {
   "property": "C63",
   "status": "proved",
   "theorems": [
    "LC.Curve.fe_mul_exact",
    "LC.Curve.fe_sq_exact",
    "LC.Curve.fe_sq2_exact",
    "LC.Curve.fe_sq2_bound_needed",
    "LC.Curve.fe_mul32_exact",
    "LC.Curve.fe_add_exact",
    "LC.Curve.fe_sub_exact",
    "LC.Curve.fe_cswap_exact",
    "LC.Curve.fe_tobytes_canonical",
    "LC.Curve.fe_frombytes_exact",
    "LC.Curve.fe_tobytes_eq_iff",
    "LC.Curve.fe_predicates",
    "LC.Curve.fe_invert_exact",
    "LC.Curve.fe_pow22523_exact",
    "LC.Curve.modulus_prime"
   ],
   "note": "The five limb code of x86_64 (fe_51), all limbs within the stated ranges; the ten limb variant is not modelled. fe_sq2_bound_needed: doubling the square has the smaller range 2^53."
  },
  {
   "property": "C71",
   "status": "proved",
   "theorems": [
    "LC.Curve.x25519_rfc7748",
    "LC.Curve.x25519_refuses"
   ],
   "note": "crypto_scalarmult_curve25519_c, the C version, for every pair of 32 byte strings."
  },
  {
   "property": "C72",
   "status": "proved",
   "theorems": [
    "LC.Curve.x25519_agree",
    "LC.Curve.x25519_group",
    "LC.Curve.Mont.agree_all",
    "LC.Curve.Mont.final_rep",
    "LC.Curve.Mont.eight_zero_iff",
    "LC.Curve.Mont.card_curve",
    "LC.Curve.Mont.card_twist"
   ],
   "note": "The group is the one Mathlib defines for Weierstrass curves; orders of curve and twist by evaluation of the ladder in the kernel."
  },
  {
   "property": "C73",
   "status": "proved",
   "theorems": [
    "LC.Asn1.end_definite",
    "LC.Asn1.end_indefinite",
    "LC.Asn1.accept_closed"
   ],
   "note": "Stated for each step of the decoder. Trailing bytes behind the outermost element are not checked by the code (trailing_accepted, C66)."
  },
  {
   "property": "C74",
   "status": "proved",
   "theorems": [
    "LC.Dilithium.sign_first_accepted",
    "LC.Dilithium.mask_is_expandMask",
    "LC.Dilithium.mask_seeds_distinct"
   ],
   "note": ""
  },
  {
   "property": "C75",
   "status": "proved",
   "theorems": [
    "LC.Curve.Sc.reduce_exact",
    "LC.Curve.Sc.muladd_exact",
    "LC.Curve.Sc.isCanonical_iff"
   ],
   "note": "sc25519_mul and sc25519_invert are not modelled (not used by the API)."
  },
  {
   "property": "C76",
   "status": "proved",
   "theorems": [
    "LC.Curve.ed_scalarmult_base",
    "LC.Curve.ed_double_scalarmult",
    "LC.Curve.ed_encode_decode",
    "LC.Curve.ed_decode_encode",
    "LC.Curve.frombytes_spec",
    "LC.Curve.frombytesNeg_spec",
    "LC.Curve.isCanonicalY_spec",
    "LC.Curve.smallOrder_exact"
   ],
   "note": "The table of 256 precomputed points is checked entry by entry in the kernel against the group law; the group is Mathlib's group of the Weierstrass curve, and its isomorphism with the Edwards form is proved. Not modelled: the functions of the file the API does not use (ge25519_scalarmult, ge25519_mul_l, ristretto) and the ten limb field."
  },
  {
   "property": "C77",
   "status": "proved",
   "theorems": [
    "LC.Curve.Eddsa.sign_value",
    "LC.Curve.Eddsa.sign_verify"
   ],
   "note": "H is any hash with 64 byte output; the case of a nonce that is a multiple of L (refused) is part of the statement."
  },
  {
   "property": "C78",
   "status": "partial",
   "theorems": [
    "LC.Curve.Eddsa.verify_value",
    "LC.Curve.Eddsa.verify_accepts",
    "LC.Curve.Eddsa.verify_sound_partial",
    "LC.Curve.Eddsa.verify_refuses_order8",
    "LC.Curve.Eddsa.verify_s_unique_partial",
    "LC.Curve.Eddsa.verify_order8_refused",
    "LC.Curve.Eddsa.verify_coincidence"
   ],
   "note": "verify_value characterises the result completely. The claim is false in two ways, both proved with witnesses: ge25519_p2_to_p3 does not normalise T and ge25519_has_small_order uses -X without Z, so that differences of order 8 are refused although the cofactored equation holds, and one of four unrelated equations in the projective coordinates can make the check pass. The latter cannot be hit with SHA-512 except by chance."
  },
  {
   "property": "C79",
   "status": "proved",
   "theorems": [
    "LC.Curve.x25519_public_key",
    "LC.Curve.x25519_keypairs_agree"
   ],
   "note": ""
  },
  {
   "property": "C80",
   "status": "proved",
   "theorems": [
    "LC.Bike.Props.mod_mul_exact",
    "LC.Bike.Props.mod_sqr_exact"
   ],
   "note": "The portable code on a little-endian machine; the AVX2, AVX-512 and carry-less multiplication code is not modelled."
  },
  {
   "property": "C81",
   "status": "proved",
   "theorems": [
    "LC.Bike.Props.mod_inv_exact",
    "LC.Bike.Props.keypair_equation"
   ],
   "note": "The XOF is any function with 32 bit words."
  },
  {
   "property": "C82",
   "status": "proved",
   "theorems": [
    "LC.Bike.Props.keypair_weights",
    "LC.Bike.Props.error_weight"
   ],
   "note": ""
  },
  {
   "property": "C83",
   "status": "proved",
   "theorems": [
    "LC.Bike.Props.dec_value",
    "LC.Bike.Props.dec_enc",
    "LC.Bike.Props.kem_roundtrip_par",
    "LC.Bike.Props.kem_roundtrip"
   ],
   "note": "The hash functions are parameters. The decoder has a failure probability by design; when it succeeds is the hypothesis of kem_roundtrip."
  },
  {
   "property": "C84",
   "status": "partial",
   "theorems": [
    "LC.Bike.Props.decode_exact",
    "LC.Bike.Props.decode_exact_L3_partial",
    "LC.Bike.Props.decode_L3_wraps",
    "LC.Bike.Props.decode_fixed"
   ],
   "note": "Levels 1 and 5 without restriction. At level 3 the claim is false: the counters have eight bits, the threshold can exceed 128, and then positions with few unsatisfied checks are flipped (decode_L3_wraps gives such a ciphertext for every key); decode_exact_L3_partial covers syndromes of weight up to 21603. The first syndrome of an honest ciphertext has weight at most D * T = 20497."
  },
  {
   "property": "C85",
   "status": "partial",
   "theorems": [
    "LC.Hybrid.enc_dec",
    "LC.Hybrid.kem_agree",
    "LC.Hybrid.kem_derivation_partial",
    "LC.Hybrid.kem_claim_false",
    "LC.Hybrid.x25519_key_ignored",
    "LC.Hybrid.dec_refuses_small_order"
   ],
   "note": "Agreement is proved. The documented derivation is false: kyber_x25519_ss_kdf passes sizeof(struct lc_kyber_ss) = 32 bytes as key, so the X25519 secret is not used (kem_claim_false, x25519_key_ignored)."
  },
  {
   "property": "C86",
   "status": "proved",
   "theorems": [
    "LC.Hybrid.uake_agree",
    "LC.Hybrid.ake_agree"
   ],
   "note": "The KMAC specification holds for output lengths of at least 4 bytes."
  },
  {
   "property": "C87",
   "status": "proved",
   "theorems": [
    "LC.Hybrid.ies_roundtrip",
    "LC.Hybrid.ies_x25519_key_ignored"
   ],
   "note": "The AEAD is a parameter with the law A.Keyed, which is proved for the AEADs of the library (C49). Finding: the X25519 secret key is not needed for decryption."
  },
  {
   "property": "C88",
   "status": "proved",
   "theorems": [
    "LC.Hybrid.Comp.sign_value",
    "LC.Hybrid.Comp.verify_value",
    "LC.Hybrid.Comp.verify_iff",
    "LC.Hybrid.Comp.sign_verify",
    "LC.Hybrid.Comp.long_context"
   ],
   "note": "For context objects whose message hash is set up for SHAKE256 (the state after LC_DILITHIUM_SET_CTX and after every complete operation); SHA-512 is a parameter."
  },
  {
   "property": "C89",
   "status": "proved",
   "theorems": [
    "LC.Hybrid.Comp.stream_sign_value",
    "LC.Hybrid.Comp.stream_verify_value",
    "LC.Hybrid.Comp.stream_verify_iff",
    "LC.Hybrid.Comp.stream_sign_verify",
    "LC.Hybrid.Comp.stream_refused",
    "LC.Hybrid.Comp.past_changes_transcript",
    "LC.Hybrid.Comp.second_signature"
   ],
   "note": "The transcript depends on whether the context object was used with the one-shot interface before (past_changes_transcript); the round trip asks for the same past. second_signature: a second stream has lost user context and hash choice."
  },
  {
   "property": "C90",
   "status": "proved",
   "theorems": [
    "LC.Asn1.Gen.encode_der",
    "LC.Asn1.Gen.encode_returns",
    "LC.Asn1.Gen.states_bound",
    "LC.Asn1.Gen.derLen_isDer",
    "LC.Asn1.Gen.jump_stack_overrun",
    "LC.Asn1.Gen.first_jump_uninitialised"
   ],
   "note": "Bytes an action supplies at the end of a constructed type are dropped by the encoder (no action of the library does so). The two last theorems show what the check of the grammars excludes: the test of the jump stack compares with the wrong bound, and a grammar beginning with a jump uses an uninitialised level; neither is reached with the shipped grammars."
  },
  {
   "property": "C91",
   "status": "proved",
   "theorems": [
    "LC.Crt.c91_extensions"
   ],
   "note": "Hypothesis Ready: serial number, issuer and subject not empty, name components below 256 bytes, no directory name as alternative name, no unknown bits among the extended key usages, validFrom not 0 unless validTo is 0, known algorithms, key present, times from 1970 to 9999. The parser is shown to accept if names and identifiers fit into its buffers (Fits). The critical flag of the basic constraints is C96."
  },
  {
   "property": "C92",
   "status": "proved",
   "theorems": [
    "LC.Crt.c92_names"
   ],
   "note": "Hypothesis Ready: serial number, issuer and subject not empty, name components below 256 bytes, no directory name as alternative name, no unknown bits among the extended key usages, validFrom not 0 unless validTo is 0, known algorithms, key present, times from 1970 to 9999. The parser is shown to accept if names and identifiers fit into its buffers (Fits)."
  },
  {
   "property": "C93",
   "status": "proved",
   "theorems": [
    "LC.Crt.c93_times",
    "LC.Crt.utcTime_read"
   ],
   "note": "Hypothesis Ready: serial number, issuer and subject not empty, name components below 256 bytes, no directory name as alternative name, no unknown bits among the extended key usages, validFrom not 0 unless validTo is 0, known algorithms, key present, times from 1970 to 9999. The parser is shown to accept if names and identifiers fit into its buffers (Fits)."
  },
  {
   "property": "C94",
   "status": "proved",
   "theorems": [
    "LC.Crt.c94_signed"
   ],
   "note": "Hypothesis Ready: serial number, issuer and subject not empty, name components below 256 bytes, no directory name as alternative name, no unknown bits among the extended key usages, validFrom not 0 unless validTo is 0, known algorithms, key present, times from 1970 to 9999. The parser is shown to accept if names and identifiers fit into its buffers (Fits). The signature function is a parameter."
  },
  {
   "property": "C95",
   "status": "partial",
   "theorems": [
    "LC.Crt.c95_accepted_partial",
    "LC.Crt.c95_negation"
   ],
   "note": "False: serial number and issuer together of more than 192 bytes are generated but never accepted. Proved under Fits."
  },
  {
   "property": "C96",
   "status": "partial",
   "theorems": [
    "LC.Crt.c96_constraints_partial",
    "LC.Crt.c96_negation"
   ],
   "note": "False: constraints that are not critical are reported as critical, since x509_basic_constraints_ca overwrites the critical flag of the extension with the CA flag. Proved for critical constraints with path length 1 to 16 and for none."
  },
  {
   "property": "C97",
   "status": "partial",
   "theorems": [
    "LC.P7.c97_readback_partial",
    "LC.P7.c97_negation"
   ],
   "note": "Hypothesis Ready: signers with subject key identifiers that fit, data type OID_data, a common hash function, known algorithms, certificates that are SEQUENCEs of less than 2^24 bytes, attribute sets {content type, message digest} with or without signing time, or one signer without attributes; signing succeeds. False otherwise: a message with a signer without identifier beside one with identifier is generated and rejected by the parser."
  },
  {
   "property": "C98",
   "status": "partial",
   "theorems": [
    "LC.P7.c98_digest_partial",
    "LC.P7.c98_negation",
    "LC.P7.c98_negation_hashes"
   ],
   "note": "Hypothesis Ready: signers with subject key identifiers that fit, data type OID_data, a common hash function, known algorithms, certificates that are SEQUENCEs of less than 2^24 bytes, attribute sets {content type, message digest} with or without signing time, or one signer without attributes; signing succeeds. False otherwise: of two signers without attributes the second signs a buffer of zeros; of two signers with different hash functions the second signs a digest made with the hash function of the first."
  },
  {
   "property": "C99",
   "status": "partial",
   "theorems": [
    "LC.P7.c99_accepted_partial",
    "LC.P7.c99_negation"
   ],
   "note": "Hypothesis Ready: signers with subject key identifiers that fit, data type OID_data, a common hash function, known algorithms, certificates that are SEQUENCEs of less than 2^24 bytes, attribute sets {content type, message digest} with or without signing time, or one signer without attributes; signing succeeds. Hypothesis Trusts on the verifier; signatures are assumed to verify under the key of the signer. False for an empty embedded content, which is dropped and answered with -ENODATA."
  },
  {
   "property": "C100",
   "status": "partial",
   "theorems": [
    "LC.P7.c100_returns_partial",
    "LC.P7.c100_negation"
   ],
   "note": "False: with a set that lacks the message digest the encoder of the attributes runs forever, because aa_set_applied gets a bit that aa_set does not have. Proved to return for the two usual sets."
  },
  {
   "property": "C101",
   "status": "proved",
   "theorems": [
    "LC.P7.c101_parsed"
   ],
   "note": ""
  },
  {
   "property": "C102",
   "status": "partial",
   "theorems": [
    "LC.P7.c102_time_signed_partial",
    "LC.P7.c102_negation"
   ],
   "note": "False: attributes in the alternative aaSequence of the grammar are evaluated but not kept for the signature; the signing time in it decides about the validity of the certificate. Proved for messages of lc_pkcs7_generate (hypothesis Ready of C97); for signers with attributes in the set see C104."
  },
  {
   "property": "C103",
   "status": "partial",
   "theorems": [
    "LC.P7.c103_identifier_partial",
    "LC.P7.c103_negation"
   ],
   "note": "False: raw_skid, raw_serial and raw_issuer are not cleared between signers; a SignerInfo of version 3 with issuerAndSerialNumber takes the subject key identifier of the signer before it. Proved: the identifier is made of bytes of the message."
  },
  {
   "property": "C104",
   "status": "proved",
   "theorems": [
    "LC.P7.c104_signed_attributes"
   ],
   "note": "Attribute bytes: those recorded by pkcs7_sig_note_set_of_authattrs (lc_pkcs7_verify replaces the tag)."
  },
  {
   "property": "C105",
   "status": "proved",
   "theorems": [
    "LC.Crt.c105_signed_content"
   ],
   "note": "Signed part of indefinite length (not DER, accepted by the decoder) is not covered."
  },
  {
   "property": "C106",
   "status": "proved",
   "theorems": [
    "LC.Crt.c106_inside"
   ],
   "note": "Signed part of indefinite length is not covered."
  },
  {
   "property": "C107",
   "status": "proved",
   "theorems": [
    "LC.Drbg.Fke.c107_cshake_drng"
   ],
   "note": "Key of the first seeding and block size as in the code; the comment in the source names other values (see DESIGN.md)."
  },
  {
   "property": "C108",
   "status": "partial",
   "theorems": [
    "LC.Drbg.Fke.c108_kmac_drng_partial"
   ],
   "note": "Requests with a last block of one to three bytes are excluded: false, c109_negation."
  },
  {
   "property": "C109",
   "status": "partial",
   "theorems": [
    "LC.Drbg.Fke.c109_cshake_filled",
    "LC.Drbg.Fke.c109_kmac_filled_partial",
    "LC.Drbg.Fke.c109_negation"
   ],
   "note": "False for the KMAC DRNG if outlen mod 208 is 1, 2 or 3: 0 is returned and the last bytes are not written."
  },
  {
   "property": "C110",
   "status": "partial",
   "theorems": [
    "LC.Drbg.Fke.c110_cshake_prefix",
    "LC.Drbg.Fke.c110_kmac_prefix_partial",
    "LC.Drbg.Fke.c110_negation"
   ],
   "note": "KMAC DRNG: only for lengths that are written completely (C109)."
  },
  {
   "property": "C111",
   "status": "proved",
   "theorems": [
    "LC.Drbg.Fke.c111_cshake_separated",
    "LC.Drbg.Fke.c111_kmac_separated",
    "LC.Drbg.Fke.c111_cut"
   ],
   "note": ""
  },
  {
   "property": "C112",
   "status": "partial",
   "theorems": [
    "LC.Drbg.Fke.c112_negation",
    "LC.Drbg.Fke.c107_cshake_drng"
   ],
   "note": "False: the zero key is used. After a seed the outputs are those of the specification (C107, C108)."
  },
  {
   "property": "C113",
   "status": "partial",
   "theorems": [
    "LC.Api.c113_load",
    "LC.Api.c113_reload_partial",
    "LC.Api.c113_slh_restored",
    "LC.Api.c113_negation_ss",
    "LC.Api.c113_negation_slh"
   ],
   "note": "False for shared secrets (always loaded as the highest parameter set) and for keys of the fast SLH-DSA parameter sets (loaded as small ones); the negations show the calls that fail with the reloaded object. With *_set_keytype_* SLH-DSA keys are restored."
  },
  {
   "property": "C114",
   "status": "proved",
   "theorems": [
    "LC.Api.c114_dispatch",
    "LC.Api.c114_all_functions"
   ],
   "note": "Key generation, which takes the parameter set as a number, is not included."
  },
  {
   "property": "C115",
   "status": "partial",
   "theorems": [
    "LC.Api.c115_null_partial",
    "LC.Api.c115_negation"
   ],
   "note": "False for ML-KEM with X25519: the lengths are checked twice and the pointers not at all."
  },
  {
   "property": "C116",
   "status": "partial",
   "theorems": [
    "LC.Api.c116_accepted_partial",
    "LC.Api.c116_negation",
    "LC.Api.c116_negation_slh"
   ],
   "note": "False: the parameter set is taken from the length of the key; the algorithm only selects the scheme and, for SLH-DSA, small or fast."
  },
  {
   "property": "C117",
   "status": "proved",
   "theorems": [
    "LC.Api.c117_composite",
    "LC.Api.c117_unused_bits"
   ],
   "note": "The decoder is a parameter that delivers the contents of the two BIT STRINGs."
  },
  {
   "property": "C118",
   "status": "partial",
   "theorems": [
    "LC.Acc.c118_accepted",
    "LC.Acc.c118_ipv4",
    "LC.Acc.c118_hex",
    "LC.Acc.c118_memory",
    "LC.Acc.c118_null",
    "LC.Acc.c118_negation_ipv6",
    "LC.Acc.c118_negation"
   ],
   "note": "Proved for all IPv4 addresses. False otherwise: no IPv6 address in its standard form is accepted, and texts that are no addresses are."
  },
  {
   "property": "C119",
   "status": "partial",
   "theorems": [
    "LC.Acc.c119_ipv4",
    "LC.Acc.c119_ipv6_partial",
    "LC.Acc.c119_memory",
    "LC.Acc.c119_negation",
    "LC.Acc.c119_negation_read",
    "LC.Acc.c119_negation_cut"
   ],
   "note": "Proved for all IPv4 addresses. False for IPv6: the byte 8 is printed in the place of the byte 9. Addresses shorter than four bytes are read beyond their end, cut off texts are not reported."
  },
  {
   "property": "C120",
   "status": "partial",
   "theorems": [
    "LC.Acc.c120_set_keyusage",
    "LC.Acc.c120_set_eku",
    "LC.Acc.c120_repeated",
    "LC.Acc.c120_name_to_keyusage_partial",
    "LC.Acc.c120_get_partial",
    "LC.Acc.c120_negation_agreement",
    "LC.Acc.c120_negation_eku",
    "LC.Acc.c120_negation_get"
   ],
   "note": "Proved for the two setters. False for lc_x509_name_to_keyusage (keyAgreement is missing), lc_x509_name_to_eku (misspelled and differing names) and the getters (they write through pointers behind the reference as soon as two flags are set)."
  },
  {
   "property": "C121",
   "status": "partial",
   "theorems": [
    "LC.Acc.c121_set_get",
    "LC.Acc.c121_dns",
    "LC.Acc.c121_negation"
   ],
   "note": "Proved except that a NULL pointer with a length is accepted as a name component."
  },
  {
   "property": "C122",
   "status": "partial",
   "theorems": [
    "LC.Acc.c122_oid",
    "LC.Acc.c122_name",
    "LC.Acc.c122_unique",
    "LC.Acc.c122_texts",
    "LC.Acc.c122_complete_partial",
    "LC.Acc.c122_strength",
    "LC.Acc.c122_hash",
    "LC.Acc.c122_negation",
    "LC.Acc.c122_negation_name",
    "LC.Acc.c122_negation_hash"
   ],
   "note": "False for ML-DSA-87 with Ed25519, which has no row in the table; ML-DSA-87 with Ed448 is named ML-DSA44-ED448. Everything else is proved."
  },
  {
   "property": "C123",
   "status": "partial",
   "theorems": [
    "LC.Acc.c123_lists_partial",
    "LC.Acc.c123_clear_partial",
    "LC.Acc.c123_codes",
    "LC.Acc.c123_null",
    "LC.Acc.c123_negation_twice",
    "LC.Acc.c123_negation_signer",
    "LC.Acc.c123_negation_owner"
   ],
   "note": "Proved if every certificate is added once, is not linked yet and was allocated with lc_alloc_aligned. False otherwise: a repeated certificate makes the list circular, and the release frees the certificates of the caller."
  },
  {
   "property": "C124",
   "status": "proved",
   "theorems": [
    "LC.Acc.c124_hash"
   ],
   "note": "For all signature types and hashes."
  },
  {
   "property": "C125",
   "status": "partial",
   "theorems": [
    "LC.Acc.c125_data_partial",
    "LC.Acc.c125_negation"
   ],
   "note": "Data as claimed; false for the embedding, which no later call undoes."
  },
  {
   "property": "C126",
   "status": "partial",
   "theorems": [
    "LC.Acc.c126_text_partial",
    "LC.Acc.c126_small_partial",
    "LC.Acc.c126_memory",
    "LC.Acc.c126_bad",
    "LC.Acc.c126_negation_first",
    "LC.Acc.c126_negation_large"
   ],
   "note": "Proved for second arcs below 40 and further arcs below 2^64. False otherwise: 2.40 is printed as 3.0, larger arcs are printed modulo 2^64."
  },
  {
   "property": "C127",
   "status": "partial",
   "theorems": [
    "LC.SelfTest.c127_returns",
    "LC.SelfTest.c127_series_partial",
    "LC.SelfTest.c127_alone",
    "LC.SelfTest.c127_negation_last",
    "LC.SelfTest.c127_negation_disable",
    "LC.SelfTest.c127_negation_threads"
   ],
   "note": "Proved for one thread and fewer than INT_MAX calls of lc_rerun_selftests without lc_disable_selftest. False otherwise: a second thread uses the algorithm while the first one still tests it; after a disabling, tests run that should not and the other way round."
  },
  {
   "property": "C128",
   "status": "partial",
   "theorems": [
    "LC.Entropy.c128_linux",
    "LC.Entropy.c128_linux_returns",
    "LC.Entropy.c128_bsd",
    "LC.Entropy.c128_esdm",
    "LC.Entropy.c128_esdm_returns",
    "LC.Entropy.c128_seed",
    "LC.Entropy.c128_kernel_partial",
    "LC.Entropy.c128_negation_errno",
    "LC.Entropy.c128_negation_kernel"
   ],
   "note": "Proved for Linux, BSD, Darwin and ESDM. False in the Linux kernel if the Jitter RNG fails without FIPS mode (half of the reported bytes are not written); a stale errno makes the Linux loop run on where it would report."
  },
  {
   "property": "C129",
   "status": "partial",
   "theorems": [
    "LC.Mem.c129_defined_partial",
    "LC.Mem.c129_no_leak_partial",
    "LC.Mem.c129_all_freed_partial",
    "LC.Mem.c129_owned_partial",
    "LC.Mem.c129_alloc_partial",
    "LC.Mem.c129_free_partial",
    "LC.Mem.c129_free_null",
    "LC.Mem.c129_secure",
    "LC.Mem.c129_align_partial",
    "LC.Mem.c129_negation_mlock",
    "LC.Mem.c129_negation_enosys",
    "LC.Mem.c129_negation_overflow",
    "LC.Mem.c129_negation_align"
   ],
   "note": "Proved for sizes below 2^64 - 32, alignments up to 32, mlock failing with EPERM or EAGAIN only, and memfd_secret not vanishing while its memory is in use. False without each of these conditions. Threads are not modelled."
  },
  {
   "property": "C130",
   "status": "proved",
   "theorems": [
    "LC.Cpu.c130_platforms",
    "LC.Cpu.c130_sha3",
    "LC.Cpu.c130_ascon",
    "LC.Cpu.c130_aes",
    "LC.Cpu.c130_used"
   ],
   "note": "For the platforms of the meson build. Whether a feature detected is really there is C131."
  },
  {
   "property": "C131",
   "status": "partial",
   "theorems": [
    "LC.Cpu.c131_x86_partial",
    "LC.Cpu.c131_x86_sound",
    "LC.Cpu.c131_arm64",
    "LC.Cpu.c131_arm64native",
    "LC.Cpu.c131_riscv_partial",
    "LC.Cpu.c131_arm32_partial",
    "LC.Cpu.c131_switch",
    "LC.Cpu.c131_negation_leaf",
    "LC.Cpu.c131_negation_arm32",
    "LC.Cpu.c131_negation_zbb"
   ],
   "note": "Switching is proved on all platforms. Detection is exact on 64 bit ARM and on x86 with cpuid leaf 7. False on x86 without leaf 7, on 32 bit ARM (bits of 64 bit ARM are used) and on RISC-V with vector but without bit manipulation instructions. Whether the operating system has enabled the AVX state is not checked by the code."
  },
  {
   "property": "C132",
   "status": "partial",
   "theorems": [
    "LC.AsconAead.Kernel.c132_enc",
    "LC.AsconAead.Kernel.c132_handle",
    "LC.AsconAead.Kernel.c132_dec_partial",
    "LC.AsconAead.Kernel.c132_roundtrip_partial",
    "LC.AsconAead.Kernel.c132_usable",
    "LC.AsconAead.Kernel.c132_negation",
    "LC.AsconAead.Kernel.c132_negation_short",
    "LC.AsconAead.Kernel.c132_negation_keccak512"
   ],
   "note": "Encryption is proved for all segmentations. Decryption is proved for requests whose cryptlen leaves out the tag; with the kernel convention the code reads behind the source (negation proved). Ascon-Keccak 512 cannot be keyed (negation proved)."
  },
  {
   "property": "C133",
   "status": "partial",
   "theorems": [
    "LC.Kernel.c133_digests_partial",
    "LC.Kernel.c133_sha3_partial",
    "LC.Kernel.c133_negation"
   ],
   "note": "Proved for every hash implementing the streaming interface (instance SHA-3) if states are imported only to the descriptor they come from. False for import to another descriptor: the copied memory contains the pointer to the state of the first one (negation proved)."
  },
  {
   "property": "C134",
   "status": "proved",
   "theorems": [
    "LC.Kernel.c134_kmac"
   ],
   "note": "Keys below 2^61 and messages below 2^63 bytes; export and import of states is the matter of C133."
  },
  {
   "property": "C135",
   "status": "partial",
   "theorems": [
    "LC.Kernel.Kyber.c135_agree_partial",
    "LC.Kernel.Kyber.c135_once",
    "LC.Kernel.Kyber.c135_refuses",
    "LC.Kernel.Kyber.c135_wiped",
    "LC.Kernel.Kyber.c135_negation_short",
    "LC.Kernel.Kyber.c135_negation_wrong_pk",
    "LC.Kernel.Kyber.c135_negation_truncated",
    "LC.Kernel.Kyber.c135_negation_maxsize"
   ],
   "note": "Agreement is proved for secrets of at least 4 bytes and a KEM which decapsulates correctly; single use and wiping for all sequences of calls. False for secrets of 1 to 3 bytes, for remote keys of a wrong length, for ciphertexts which do not fit, and max_size is too small for ML-KEM-512 and -768 (negations proved)."
  },
  {
   "property": "C136",
   "status": "partial",
   "theorems": [
    "LC.Kernel.Sig.c136_calls_partial",
    "LC.Kernel.Sig.c136_roundtrip",
    "LC.Kernel.Sig.c136_negation_lengths"
   ],
   "note": "Proved for all sequences of calls with the lengths as used by the testers of the repository (src_len covers signature and message). With the lengths of the kernel API (src_len: signature, dst_len: message) the message is ignored by a verification (negation proved). Sources shorter than src_len are not covered."
  },
  {
   "property": "C137",
   "status": "partial",
   "theorems": [
    "LC.Kernel.Hybrid.c137_agree",
    "LC.Kernel.Hybrid.c137_pubkey",
    "LC.Kernel.Hybrid.c137_once",
    "LC.Kernel.Hybrid.c137_refuses",
    "LC.Kernel.Hybrid.c137_wiped_partial",
    "LC.Kernel.Hybrid.c137_negation_wiped",
    "LC.Kernel.Hybrid.c137_negation_wrong_pk",
    "LC.Kernel.Hybrid.c137_negation_maxsize"
   ],
   "note": "Agreement, public key and single use are proved without restriction for a KEM which decapsulates correctly. Only the bytes handed out are wiped, remote keys of a wrong length are not refused, and max_size is too small with ML-KEM-512 and -768 (negations proved)."
  },
  {
   "property": "C138",
   "status": "partial",
   "theorems": [
    "LC.Kernel.SigEd.c138_calls_partial",
    "LC.Kernel.SigEd.c138_long_partial",
    "LC.Kernel.SigEd.c138_negation_short"
   ],
   "note": "Proved for all sequences of calls except that a refused key shorter than the Ed25519 part leaves the old key in use (negation proved). The lengths of a verification are those of the testers of the repository, as for C136; sources shorter than src_len are not covered."
  },
  {
   "property": "C139",
   "status": "partial",
   "theorems": [
    "LC.Kernel.Bike.c139_agree",
    "LC.Kernel.Bike.c139_once",
    "LC.Kernel.Bike.c139_wiped",
    "LC.Kernel.Bike.c139_refuses",
    "LC.Kernel.Bike.c139_negation_truncated",
    "LC.Kernel.Bike.c139_negation_wrong_pk"
   ],
   "note": "Agreement, single use and wiping are proved without restriction for a KEM which decapsulates correctly. A ciphertext longer than dst_len is cut without error and remote keys of a wrong length are not refused (negations proved)."
  },
  {
   "property": "C140",
   "status": "partial",
   "theorems": [
    "LC.Kernel.Alloc.c140_aligned",
    "LC.Kernel.Alloc.c140_high_partial",
    "LC.Kernel.Alloc.c140_negation_high"
   ],
   "note": "lc_alloc_aligned is proved for all alignments and sizes up to 2^63, where __roundup_pow_of_two is defined. lc_alloc_high_aligned ignores the alignment: proved up to a page, negation proved for two pages."
  },
  {
   "property": "C141",
   "status": "partial",
   "theorems": [
    "LC.Mem.Generic.c141_heap_partial",
    "LC.Mem.Generic.c141_alloc",
    "LC.Mem.Generic.c141_negation_lock",
    "LC.Mem.Generic.c141_negation_free"
   ],
   "note": "Heap ownership proved by induction over all sequences of calls in which mlock succeeds or is not permitted. The range given to mlock is never the memory returned, and another error of mlock frees the pointer variable and leaks the memory (negations proved)."
  },
  {
   "property": "C142",
   "status": "partial",
   "theorems": [
    "LC.Kernel.Load.c142_load_unload",
    "LC.Kernel.Load.c142_failure_partial",
    "LC.Kernel.Load.c142_failure_rest",
    "LC.Kernel.Load.c142_negation_left"
   ],
   "note": "Success and unloading are proved for all answers. After a failure nothing is left registered if a part up to the first hybrid signature fails; whenever a later part fails, the hybrid signatures stay registered (negation proved for all such cases)."
  },
  {
   "property": "C143",
   "status": "partial",
   "theorems": [
    "LC.Apps.Hasher.c143_first_partial",
    "LC.Apps.Hasher.c143_segments",
    "LC.Apps.Hasher.c143_check",
    "LC.Apps.Hasher.c143_bounds_partial",
    "LC.Apps.Hasher.c143_negation_second",
    "LC.Apps.Hasher.c143_negation_overflow"
   ],
   "note": "Proved for the first file, for reading in segments and for the comparison. The hash is not initialised before the second file, so its digest is wrong, and texts of odd length from 129 characters overflow the buffer by one byte (negations proved)."
  },
  {
   "property": "C144",
   "status": "partial",
   "theorems": [
    "LC.Apps.Hasher.c144_usual_partial",
    "LC.Apps.Hasher.c144_bsd_name_partial",
    "LC.Apps.Hasher.c144_negation_unprintable",
    "LC.Apps.Hasher.c144_text",
    "LC.Apps.Hasher.c144_negation_bsd",
    "LC.Apps.Hasher.c144_negation_equals"
   ],
   "note": "Proved for usual lines without an equals sign between blanks. BSD-style lines are never accepted (negation proved for all such lines), and a usual line whose name has an equals sign between blanks can be ignored (negation proved)."
  },
  {
   "property": "C145",
   "status": "partial",
   "theorems": [
    "LC.Apps.Checker.c145_even_partial",
    "LC.Apps.Checker.c145_accepts",
    "LC.Apps.Checker.c145_negation_odd",
    "LC.Apps.Checker.c145_negation_store",
    "LC.Apps.Checker.c145_negation_read"
   ],
   "note": "Proved for texts of even length which fit into the buffer. Texts of odd length are accepted for shorter values, longer ones write or read behind the buffer (negations proved)."
  }
 ]
}