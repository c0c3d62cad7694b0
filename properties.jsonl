{"id": "C01", "title": "SHA-2 streaming equals the FIPS 180-4 one-shot digest", "statement": "For every message and every way of cutting it into successive lc_hash_update calls, lc_hash_final of SHA-256, SHA-384 and SHA-512 yields the FIPS 180-4 Merkle-Damgard digest of the concatenated message (padding 0x80, zeros, big-endian bit length), as long as the message is shorter than 2^61 bytes.", "quantifier": "all messages, all sequences of update calls (including empty ones), all three digest sizes", "why_tests_cant": "The set of messages and of cut points is infinite; a test fixes a handful of lengths around block boundaries.", "anchors": ["hash/src/sha256.c: sha256_init, sha256_update, sha256_final, sha256_transform", "hash/src/sha512.c: sha512_update, sha512_final", "hash/src/hash.c: lc_hash_update, lc_hash_final"]}
{"id": "C02", "title": "SHA-3/SHAKE absorbing is independent of chunking and equals the FIPS 202 sponge", "statement": "For every message and every way of cutting it into update calls, the state reached before squeezing and hence the digest equals the FIPS 202 sponge on the message with domain byte and pad10*1, for every rate used by SHA3-224/256/384/512, SHAKE128/256 and cSHAKE.", "quantifier": "all messages, all chunkings, all rates, for any 1600-bit permutation", "why_tests_cant": "Unbounded input length and number of chunks.", "anchors": ["hash/src/sha3_c.c: keccak_absorb, keccak_squeeze", "hash/src/sponge_common.h"]}
{"id": "C03", "title": "XOF squeezing is independent of how the output is split", "statement": "For SHAKE and cSHAKE, requesting the output in several lc_hash_final/squeeze calls of arbitrary lengths yields exactly the prefix of the single infinite output stream; splitting never repeats, skips or changes bytes.", "quantifier": "all states, all sequences of requested lengths", "why_tests_cant": "Infinitely many splits; off-by-one at rate boundaries depends on history.", "anchors": ["hash/src/sha3_c.c: keccak_squeeze, shake_set_digestsize"]}
{"id": "C04", "title": "Ascon-Hash256/Ascon-XOF128 digest does not depend on chunking", "statement": "For every message and every way of cutting it into update calls, Ascon-Hash256, XOF128 produce the SP 800-232 digest of the concatenation.", "quantifier": "all messages, all chunkings, any permutation", "why_tests_cant": "Only specific cut points on rate boundaries with no remaining input show the difference.", "anchors": ["hash/src/ascon_c.c: ascon_absorb_common, ascon_squeeze_common", "hash/src/ascon_hash.h"]}
{"id": "C05", "title": "SP 800-185 encodings are injective, so distinct (N,S), key and length inputs are absorbed as distinct strings", "statement": "The string absorbed for cSHAKE(N,S) initialisation and for KMAC(key,S) determines N, S and key uniquely; left_encode/right_encode of lengths are decodable for every length the code can encode without wrap.", "quantifier": "all N, S, keys and lengths below 2^61 bytes", "why_tests_cant": "Injectivity is a statement about all pairs of inputs.", "anchors": ["internal/src/left_encode.c", "hash/src/cshake.c", "kmac/src/kmac.c: lc_kmac_init", "kmac/src/kmac.c: right_encode"]}
{"id": "C06", "title": "KMAC streaming equals the SP 800-185 definition", "statement": "For every key, customization string, message and chunking, lc_kmac_final / lc_kmac_final_xof return cSHAKE(bytepad(encode_string(K),rate) || X || right_encode(L), L, \"KMAC\", S) (L = 0 for XOF), and lc_kmac_reinit followed by the same updates reproduces it.", "quantifier": "all keys, S, messages, chunkings, output lengths, histories of reinit", "why_tests_cant": "Unbounded inputs and histories.", "anchors": ["kmac/src/kmac.c"]}
{"id": "C07", "title": "HMAC streaming equals RFC 2104 and reinit restores the keyed state", "statement": "For every key (shorter, equal or longer than the block size), message and chunking, init/update/final returns H((K0 xor opad) || H((K0 xor ipad) || m)), and after reinit the context behaves as freshly initialised with the same key.", "quantifier": "all keys, messages, chunkings, any hash", "why_tests_cant": "Unbounded inputs; boundary at the block size for every hash.", "anchors": ["hmac/src/hmac.c: lc_hmac_init, lc_hmac_reinit, lc_hmac_update, lc_hmac_final"]}
{"id": "C08", "title": "HKDF expand/extract equals RFC 5869 and output is prefix consistent", "statement": "lc_hkdf returns the first L bytes of T(1)||T(2)||... of RFC 5869 for every input keying material, salt, info and every L up to the limit enforced by the code; longer requests are rejected without output.", "quantifier": "all ikm, salt, info, all output lengths", "why_tests_cant": "Unbounded inputs; the counter byte wrap only matters near the limit.", "anchors": ["kdf/src/hkdf.c"]}
{"id": "C09", "title": "PBKDF2 equals RFC 8018 for every iteration count", "statement": "lc_pbkdf2 returns the first dkLen bytes of F(P,S,c,1)||F(P,S,c,2)||... with F the xor of the c-fold iterated PRF.", "quantifier": "all passwords, salts, iteration counts, output lengths", "why_tests_cant": "Quantifies over an unbounded iteration count and length.", "anchors": ["kdf/src/pbkdf2.c"]}
{"id": "C10", "title": "SP 800-108 KDFs (counter, feedback, double pipeline) compute the standard's key stream", "statement": "lc_kdf_ctr, lc_kdf_fb and lc_kdf_dpi return the first L bytes of the SP 800-108 key block sequence K(1)||K(2)||... for every key, IV/label and L.", "quantifier": "all keys, IVs, labels, output lengths", "why_tests_cant": "Unbounded inputs and block counts.", "anchors": ["kdf/src/kdf_ctr.c", "kdf/src/kdf_fb.c", "kdf/src/kdf_dpi.c"]}
{"id": "C11", "title": "HOTP/TOTP value is the RFC 4226 truncation modulo 10^digits", "statement": "lc_hotp returns Snum(DT(HMAC(K,counter))) mod 10^digits for every key, counter and digit count; lc_totp uses floor(now/step).", "quantifier": "all keys, counters, digit counts", "why_tests_cant": "Errors appear only for particular digit counts/time steps.", "anchors": ["otp/src/hotp.c", "otp/src/totp.c"]}
{"id": "C12", "title": "Constant-time comparison decides equality exactly", "statement": "lc_memcmp_secure(s1,n1,s2,n2) returns 0 if and only if n1 = n2 and the buffers are bytewise equal, for all lengths, contents and pointer alignments; otherwise it returns a non-zero value.", "quantifier": "all byte strings, all lengths, all alignments of both pointers", "why_tests_cant": "Exhausting lengths x alignments x contents is impossible; tail handling bugs hide in few residues.", "anchors": ["internal/src/memcmp_secure_c.c", "internal/src/memcmp_secure_internal.h"]}
{"id": "C13", "title": "Hex conversion round trip", "statement": "Decoding the hex text produced for any byte string gives the string back, output length is exactly twice the input, and every produced character is a hex digit of the requested case.", "quantifier": "all byte strings, both cases", "why_tests_cant": "Unbounded lengths.", "anchors": ["internal/src/binhexbin.c"]}
{"id": "C14", "title": "AES decryption inverts encryption for every key and block, and the table-free AES computes the same function as the table AES", "statement": "For every 128/192/256-bit key and every block, decrypt(encrypt(b)) = b and encrypt(decrypt(b)) = b; the side-channel-resistant S-box implementation and the table implementation give identical results.", "quantifier": "all keys, all blocks", "why_tests_cant": "2^128 blocks x 2^256 keys.", "anchors": ["sym/src/aes_sbox.c", "sym/src/aes_no_sbox.c", "sym/src/aes_block.c", "sym/src/aes_scr_helper.h"]}
{"id": "C15", "title": "CBC decrypts what it encrypts, and chunked calls equal one call", "statement": "For every block-aligned plaintext, key and IV, CBC decrypt after encrypt with the same IV returns the plaintext; processing in several block-aligned calls on one context equals one call.", "quantifier": "all keys, IVs, plaintexts, block-aligned chunkings", "why_tests_cant": "Unbounded data and histories.", "anchors": ["sym/src/mode_cbc.c"]}
{"id": "C16", "title": "CTR uses a never-repeating 128-bit big-endian counter and is an involution", "statement": "Block i of the keystream is E(IV + i mod 2^128) for every IV (carry between the two 64-bit halves is correct); applying the mode twice with the same IV restores the data; block-aligned chunking equals one call; within one stream of at most 2^128 blocks no counter value repeats.", "quantifier": "all keys, IVs, lengths, block-aligned chunkings", "why_tests_cant": "Carry bugs show only at 2^64 boundaries.", "anchors": ["sym/src/mode_ctr.c", "sym/src/mode_ctr.h"]}
{"id": "C17", "title": "AES key wrap: unwrap inverts wrap, and anything unwrap accepts is a wrap output", "statement": "For every key and every payload of at least 16 bytes that is a multiple of 8, unwrapping the wrapped payload succeeds and returns it; if unwrapping a blob of the same shape succeeds with payload p, then the blob equals the wrapping of p; every other blob is rejected with an error.", "quantifier": "all keys, payloads, ciphertext blobs", "why_tests_cant": "Integrity is a statement about all blobs.", "anchors": ["sym/src/mode_kw.c"]}
{"id": "C18", "title": "ChaCha20 stream is an involution with a per-block counter", "statement": "Encrypting twice from the same state restores the data; block i uses counter c+i mod 2^32; calls cut at multiples of 64 bytes equal a single call.", "quantifier": "all keys, nonces, data, 64-byte-aligned chunkings", "why_tests_cant": "Unbounded data and histories.", "anchors": ["sym/src/chacha20.c"]}
{"id": "C19", "title": "AEAD decryption of an honest ciphertext returns the plaintext and accepts", "statement": "For each AEAD (Ascon-AEAD128, Ascon-Keccak, cSHAKE, KMAC, hash and AES-CBC with HMAC/KMAC), for every key, IV, associated data and plaintext (block aligned for the AES-CBC ones), decrypting the output of encryption with the same key, IV and AAD accepts and returns the plaintext.", "quantifier": "all keys, IVs, AADs, plaintexts, tag lengths, and any permutation/hash/block cipher", "why_tests_cant": "Unbounded inputs.", "anchors": ["aead/src/ascon.c", "aead/src/cshake_crypt.c", "aead/src/kmac_crypt.c", "aead/src/hash_crypt.c", "aead/src/symhmac.c", "aead/src/symkmac.c", "aead/src/aead_api.c"]}
{"id": "C20", "title": "AEAD decryption accepts only the tag recomputed over AAD and ciphertext", "statement": "For each AEAD, one-shot decryption returns success only if the given tag equals the authentication tag of (AAD, ciphertext) under the key; any other tag of that length is rejected with -EBADMSG.", "quantifier": "all keys, AADs, ciphertexts and tags", "why_tests_cant": "All 2^(8n) tags.", "anchors": ["aead/src: *_dec_final, *_decrypt_oneshot", "internal/src/memcmp_secure_c.c"]}
{"id": "C21", "title": "Associated data and ciphertext are bound separately", "statement": "Two different (AAD, ciphertext) pairs are never authenticated through the same MAC input, so moving bytes between AAD and ciphertext cannot preserve a valid tag.", "quantifier": "all pairs of (AAD, ciphertext)", "why_tests_cant": "It is an injectivity statement over pairs.", "anchors": ["aead/src/cshake_crypt.c", "aead/src/kmac_crypt.c", "aead/src/hash_crypt.c", "aead/src/symhmac.c", "aead/src/symkmac.c"]}
{"id": "C22", "title": "Ascon AEAD streaming equals one shot, and the tag binds the plaintext length", "statement": "For every chunking of the plaintext through enc_update, the ciphertext and tag equal those of the one-shot call; distinct plaintexts (including the empty plaintext versus a block of zero bytes) are padded to distinct absorbed strings.", "quantifier": "all plaintexts, chunkings, any permutation", "why_tests_cant": "Unbounded inputs; boundary behaviour at full rate blocks.", "anchors": ["aead/src/ascon.c: lc_ascon_enc_update, lc_ascon_enc_final, lc_ascon_aad"]}
{"id": "C23", "title": "Hash DRBG follows SP 800-90A for every request sequence", "statement": "For every sequence of seed, reseed and generate requests (with or without additional input) within the limits, output and internal state equal SP 800-90A Hash_DRBG (big-endian addition modulo 2^440 / 2^888, hash_df, hashgen); requests over the limits are rejected without output.", "quantifier": "all seeds, additional inputs, request sequences", "why_tests_cant": "History dependent state with big-number carries.", "anchors": ["drng/src/hash_drbg.c"]}
{"id": "C24", "title": "HMAC DRBG follows SP 800-90A for every request sequence", "statement": "For every sequence of seed, reseed and generate requests, output and (K,V) equal SP 800-90A HMAC_DRBG.", "quantifier": "all seeds, additional inputs, request sequences", "why_tests_cant": "History dependent.", "anchors": ["drng/src/hmac_drbg.c"]}
{"id": "C25", "title": "XDRBG encoding separates purposes and inputs; generate is XOF chunk chaining", "statement": "The XOF inputs used for initial seeding, reseeding and generation are pairwise distinct for different (purpose, seed, alpha) of allowed alpha length and fixed state length, and the output of generate is the concatenation of per-chunk XOF outputs with the state replaced each chunk.", "quantifier": "all seeds, alphas, request lengths, request sequences", "why_tests_cant": "Injectivity over pairs; history dependent.", "anchors": ["drng/src/xdrbg.c"]}
{"id": "C26", "title": "ChaCha20 DRNG never reveals the bytes used to rekey", "statement": "After each generate call, the key is updated with keystream words that were never part of the output, for every output length; the output of a request depends only on the state before it.", "quantifier": "all states, all output lengths", "why_tests_cant": "Depends on length residues modulo the block size.", "anchors": ["drng/src/chacha20_drng.c"]}
{"id": "C27", "title": "The seeded RNG never returns output from an unseeded or over-used DRNG, across forks", "statement": "For every history of generate calls, clock values, pid changes and reseeds, each output is produced by a DRNG that has been seeded since initialisation, whose last seeding happened in the same process, at most 60 seconds before, and at most 2^20 bytes (plus one request) before.", "quantifier": "all histories of requests, clock readings and pids; all interleavings of two threads", "why_tests_cant": "Schedules, forks and clock values cannot be enumerated.", "anchors": ["drng/src/seeded_rng.c"]}
{"id": "C28", "title": "ASN.1 BER decoder never reads outside the input", "statement": "For every bytecode program and every input, each byte read by the decoder lies inside the input and the container and jump stacks never overflow; for the grammars shipped (and every program that passes a stated static check) also every access to the bytecode, the opcode table and the action table is in range and each slice passed to an action callback lies inside the input.", "quantifier": "all inputs, all bytecode programs, any number of steps", "why_tests_cant": "All byte strings; memory safety for all inputs.", "anchors": ["asn1/src/asn1_decoder.c: asn1_ber_decoder, asn1_find_indefinite_length", "asn1/src/*.asn1.c"]}
{"id": "C29", "title": "ASN.1 BER decoder terminates on every input for the shipped grammars", "statement": "For every shipped grammar and every input of any length the decoder reaches success or an error after finitely many steps.", "quantifier": "all inputs, all shipped grammars", "why_tests_cant": "Non-termination cannot be observed by a finite test.", "anchors": ["asn1/src/asn1_decoder.c", "asn1/src/*.asn1.c"]}
{"id": "C30", "title": "DER length encoding is minimal, exact in space accounting and decodable", "statement": "For every length up to 0xffffff that fits, the encoder writes the shortest DER length octets, reduces the available space by exactly the number of bytes written, never writes past the space, and the decoder reads back the same length; larger lengths are rejected.", "quantifier": "all lengths, all available sizes", "why_tests_cant": "2^24 lengths x sizes.", "anchors": ["asn1/src/asn1_encoder_helper.c: asn1_encode_length, asn1_encode_length_size", "asn1/src/asn1_decoder.c"]}
{"id": "C31", "title": "INTEGER encoder output decodes to the value", "statement": "For every non-negative 64-bit integer the encoder emits tag 02, a length, and the minimal two's complement big-endian content, and accounts exactly the space used.", "quantifier": "all 64-bit integers, all available sizes", "why_tests_cant": "2^63 values.", "anchors": ["asn1/src/asn1_encoder_helper.c: asn1_encode_integer, asn1_encode_oid"]}
{"id": "C32", "title": "OID lookup finds exactly the registered OIDs", "statement": "look_up_OID returns identifier o exactly when the given bytes are the registered encoding of o, and 'unknown' for every other byte string.", "quantifier": "all byte strings", "why_tests_cant": "All byte strings; relies on hash collisions and sortedness of a generated table.", "anchors": ["asn1/src/oid_registry.c: look_up_OID", "asn1/src/oid_registry_data.c"]}
{"id": "C33", "title": "X.509 time decoding yields the correct epoch seconds and rejects invalid dates", "statement": "For every UTCTime/GeneralizedTime string accepted, the result is the number of seconds since 1970-01-01 of that Gregorian date and time, and only syntactically valid strings naming existing calendar days are accepted.", "quantifier": "all byte strings, tags", "why_tests_cant": "All dates including leap-year corner cases.", "anchors": ["asn1/src/x509_cert_parser.c: x509_decode_time, mktime64"]}
{"id": "C34", "title": "Certificate policy checks implement their documented predicates", "statement": "The validity-time, key-usage, extended-key-usage, CA and root-CA decisions return true exactly for certificates satisfying the documented RFC 5280 conditions.", "quantifier": "all certificates, times, required usage masks", "why_tests_cant": "Conjunction of many independent fields.", "anchors": ["asn1/src/x509_policies.c"]}
{"id": "C35", "title": "PKCS#7 verification with a trust store succeeds only if the signer chains to a trust anchor", "statement": "If lc_pkcs7_verify with a non-empty trust store returns success then, for some signer, there is a chain of certificates from the signer, each signature verified with the next certificate's key, ending in a signature verified by a key in the trust store.", "quantifier": "all messages, certificate sets, trust stores, any signature scheme", "why_tests_cant": "Adversarial certificate graphs.", "anchors": ["asn1/src/pkcs7_verify.c: lc_pkcs7_verify, pkcs7_verify_one, pkcs7_verify_sig_chain", "asn1/src/pkcs7_trust.c: pkcs7_find_asymmetric_key"]}
{"id": "C36", "title": "Only certificates verified by an anchor already present can join the trust store as intermediates", "statement": "lc_pkcs7_trust_store_add accepts a certificate that is not a self-signed root only if its signature verifies through certificates of the store up to a root in the store.", "quantifier": "all certificates, all trust store histories", "why_tests_cant": "Adversarial certificates.", "anchors": ["asn1/src/pkcs7_trust.c: lc_pkcs7_trust_store_add", "asn1/src/pkcs7_verify.c: pkcs7_verify_sig_chain"]}
{"id": "C37", "title": "Certificate chain verification always terminates", "statement": "For every certificate list, including cyclic issuer relations, the chain walk stops after at most one visit per certificate.", "quantifier": "all certificate graphs", "why_tests_cant": "Non-termination is not testable.", "anchors": ["asn1/src/pkcs7_verify.c: pkcs7_verify_sig_chain"]}
{"id": "C38", "title": "PKCS#7 signature covers the content", "statement": "If verification of a signer succeeds then the verified digest is the digest of the content, or the messageDigest attribute equals the digest of the content and the verified digest is that of the DER SET of authenticated attributes.", "quantifier": "all messages", "why_tests_cant": "All messages.", "anchors": ["asn1/src/pkcs7_verify.c: pkcs7_digest"]}
{"id": "C39", "title": "Key identifier comparison is an equality test", "statement": "Two key identifiers are considered the same exactly if they have the same length and the same bytes; the relation is symmetric.", "quantifier": "all pairs of identifiers", "why_tests_cant": "All pairs.", "anchors": ["asn1/src/asymmetric_type.c: asymmetric_key_id_same"]}
{"id": "C40", "title": "Concurrent trust store additions lose no anchor", "statement": "For every interleaving of any number of threads adding distinct certificates, every added certificate is reachable from the head exactly once when all threads are done.", "quantifier": "all schedules, any number of threads", "why_tests_cant": "Schedules cannot be enumerated.", "anchors": ["asn1/src/pkcs7_trust.c: lc_pkcs7_trust_store_add"]}
{"id": "C41", "title": "ML-KEM modular reductions are exact for every input in range", "statement": "Montgomery, Barrett and field multiplication routines return a representative of the mathematically correct residue modulo 3329 within the documented bounds for every admissible 16/32-bit input, without signed overflow.", "quantifier": "all int16/int32 inputs in range", "why_tests_cant": "2^32 inputs and algebraic meaning.", "anchors": ["ml-kem/src/kyber_reduce.h"]}
{"id": "C42", "title": "ML-KEM NTT is invertible and turns negacyclic convolution into pointwise products", "statement": "For every pair of polynomials, inverse NTT of the base multiplication of their NTTs is their product in Z_q[X]/(X^256+1) (up to the documented Montgomery factor), and inverse NTT after NTT is the identity up to that factor; all intermediate values stay in int16.", "quantifier": "all polynomials with coefficients in range", "why_tests_cant": "3329^512 inputs.", "anchors": ["ml-kem/src/kyber_ntt.c", "ml-kem/src/kyber_zetas.c", "ml-kem/src/kyber_poly_c.h"]}
{"id": "C43", "title": "ML-KEM polynomial serialisation round trips", "statement": "Deserialising a serialised polynomial returns the canonical residues, and serialising what was deserialised returns the bytes, for 12-bit packing and for message packing.", "quantifier": "all polynomials, all byte strings", "why_tests_cant": "All inputs.", "anchors": ["ml-kem/src/kyber_poly.c: poly_tobytes, poly_frombytes, poly_frommsg, poly_tomsg"]}
{"id": "C44", "title": "ML-KEM compression equals the FIPS 203 rounding and its error is bounded", "statement": "For d = 1,4,5,10,11 the division-free compression equals round(2^d x / q) mod 2^d for every residue, and decompress(compress(x)) differs from x by at most round(q/2^(d+1)).", "quantifier": "all residues, all d; lifted to all polynomials", "why_tests_cant": "Relies on multiply-shift exactness for all inputs of all coefficients.", "anchors": ["ml-kem/src/kyber_poly.c", "ml-kem/src/kyber_polyvec.c"]}
{"id": "C45", "title": "ML-KEM decapsulation recovers the encapsulated secret whenever the noise is small, and never errors", "statement": "For every key pair and every encapsulation whose accumulated noise is at most 831 per coefficient (the largest bound for which rounding to a message bit is right), decapsulation returns the same shared secret as encapsulation; decapsulation of any ciphertext returns success with either that secret or the implicit rejection secret.", "quantifier": "all seeds, messages, ciphertexts", "why_tests_cant": "All keys and ciphertexts.", "anchors": ["ml-kem/src/kyber_kem.c", "ml-kem/src/kyber_indcpa.c"]}
{"id": "C46", "title": "ML-KEM implicit rejection", "statement": "If the re-encryption of the decrypted message differs from the ciphertext, decapsulation outputs J(z || ct), which depends only on the secret z and the ciphertext; otherwise it outputs the G-derived key.", "quantifier": "all ciphertexts and keys", "why_tests_cant": "All ciphertexts.", "anchors": ["ml-kem/src/kyber_kem.c: lc_kyber_dec"]}
{"id": "C47", "title": "ML-KEM encapsulation rejects keys with out-of-range coefficients", "statement": "Encapsulation accepts exactly those public keys whose 12-bit coefficients are all below q (FIPS 203 section 7.2 modulus check).", "quantifier": "all public keys", "why_tests_cant": "All public keys.", "anchors": ["ml-kem/src/kyber_kem.c", "ml-kem/src/kyber_poly.c"]}
{"id": "C48", "title": "ML-KEM key exchange: both sides derive the same key", "statement": "For the unilaterally and mutually authenticated exchanges, if all decapsulations are correct then initiator and responder obtain the same shared secret for every nonce; KDF inputs are in the same order on both sides.", "quantifier": "all keys, randomness, nonces", "why_tests_cant": "All runs.", "anchors": ["ml-kem/src/kyber_kex.c"]}
{"id": "C49", "title": "ML-KEM IES round trip", "statement": "Decrypting what the integrated encryption scheme produced returns the plaintext, for any AEAD with a round trip law and whenever decapsulation is correct; one shot and streaming agree.", "quantifier": "all keys, plaintexts, AADs, chunkings", "why_tests_cant": "All runs.", "anchors": ["ml-kem/src/kyber_ies.c"]}
{"id": "C50", "title": "ML-KEM samplers: centered binomial values and rejection sampling are exact", "statement": "The CBD sampler returns for each coefficient the difference of the two bit sums, within [-eta,eta]; rejection sampling outputs exactly the 12-bit candidates below q, in order, and never writes past its buffer.", "quantifier": "all input buffers and lengths", "why_tests_cant": "All byte strings.", "anchors": ["ml-kem/src/kyber_cbd.c", "ml-kem/src/kyber_indcpa.c: rej_uniform"]}
{"id": "C51", "title": "ML-DSA modular reductions are exact for every input in range", "statement": "montgomery_reduce, reduce32, caddq and freeze return the right residue modulo 8380417 in the documented interval for all admissible inputs, without overflow.", "quantifier": "all int32/int64 inputs in range", "why_tests_cant": "2^64 inputs.", "anchors": ["ml-dsa/src/dilithium_reduce.h"]}
{"id": "C52", "title": "ML-DSA NTT is invertible and multiplicative", "statement": "Inverse NTT of the pointwise product of NTTs is the product in Z_q[X]/(X^256+1) up to the documented Montgomery factor.", "quantifier": "all polynomials", "why_tests_cant": "q^512 inputs.", "anchors": ["ml-dsa/src/dilithium_ntt.c"]}
{"id": "C53", "title": "ML-DSA rounding and hints reconstruct high bits", "statement": "power2round and decompose return the unique decomposition of FIPS 204 for every residue, and use_hint(make_hint(z,r), r) equals the high bits of r+z whenever |z| is at most gamma2.", "quantifier": "all residues, all perturbations", "why_tests_cant": "8 million residues x perturbations.", "anchors": ["ml-dsa/src/dilithium_rounding.c"]}
{"id": "C54", "title": "ML-DSA bit packing round trips", "statement": "Unpack after pack returns the polynomial for t1, t0, eta, z and the packed form is a bijection on its range for z.", "quantifier": "all polynomials in range, all byte strings", "why_tests_cant": "All inputs.", "anchors": ["ml-dsa/src/dilithium_poly.c"]}
{"id": "C55", "title": "ML-DSA hint encoding is canonical", "statement": "Decoding an encoded hint returns the hint; conversely every byte string the decoder accepts is the encoding of the hint it returns, so no two distinct encodings of one hint are accepted.", "quantifier": "all hint vectors, all byte strings", "why_tests_cant": "All byte strings.", "anchors": ["ml-dsa/src/dilithium_pack.h"]}
{"id": "C56", "title": "ML-DSA verification accepts every signature the signer outputs", "statement": "For every key pair, message, context and randomness, if signing terminates, verification with the matching public key returns success.", "quantifier": "all seeds, messages, contexts, randomness", "why_tests_cant": "All runs.", "anchors": ["ml-dsa/src/dilithium_signature_impl.h"]}
{"id": "C57", "title": "ML-DSA/SLH-DSA message domain separation is injective", "statement": "The byte string hashed for (mode, context, prehash OID, message) determines all of them; contexts above 255 bytes are rejected.", "quantifier": "all contexts and messages", "why_tests_cant": "All pairs.", "anchors": ["internal/src/signature_domain_separation.c"]}
{"id": "C58", "title": "ML-DSA short-vector sampling equals FIPS 204 RejBoundedPoly on every XOF stream", "statement": "For every XOF output stream, the sampled polynomial consists of the first 256 accepted half-bytes of the stream.", "quantifier": "all XOF streams", "why_tests_cant": "Deviation only appears for streams with many rejections.", "anchors": ["ml-dsa/src/dilithium_poly.c: poly_uniform_eta, poly_uniform"]}
{"id": "C59", "title": "ML-DSA results do not depend on what a context was used for before", "statement": "Verifying or signing with a context that was previously used gives the same result as with a fresh context.", "quantifier": "all histories of a context", "why_tests_cant": "History dependent.", "anchors": ["ml-dsa/src/dilithium_signature_impl.h: ahat_expanded"]}
{"id": "C60", "title": "SLH-DSA verification accepts every signature the signer outputs", "statement": "For every seed, message and randomizer, and any tweakable hash/PRF/message hash, verification of the signature with the matching public key succeeds.", "quantifier": "all seeds, messages, randomizers; all hash functions", "why_tests_cant": "Hypertree of 2^63 leaves; all messages.", "anchors": ["slh-dsa/src/sphincs_sign.c", "slh-dsa/src/sphincs_wots.c", "slh-dsa/src/sphincs_fors.c", "slh-dsa/src/sphincs_merkle.c", "slh-dsa/src/sphincs_utilsx1.c"]}
{"id": "C61", "title": "WOTS+ checksum prevents domination", "statement": "For two different message digests, the chain-length vector of one is strictly smaller than the other's in some position (so a signature cannot be advanced to another message by hashing only).", "quantifier": "all pairs of digests", "why_tests_cant": "All pairs.", "anchors": ["slh-dsa/src/sphincs_wots.c: wots_checksum, chain_lengths, base_w"]}
{"id": "C62", "title": "Tree hashing computes the Merkle root and a valid authentication path", "statement": "For every height, leaf index and hash, the iterative tree hash produces the Merkle root, and recomputing the root from the leaf and the emitted authentication path gives the same root.", "quantifier": "all heights, leaf indices, leaf functions, hash functions", "why_tests_cant": "Trees of arbitrary size.", "anchors": ["slh-dsa/src/sphincs_utilsx1.c: treehashx1", "slh-dsa/src/sphincs_utils.c: compute_root"]}
{"id": "C63", "title": "X25519/Ed25519 field arithmetic is exact modulo 2^255-19", "statement": "Addition, subtraction, multiplication, squaring, constant multiplication and conditional swap on the limb representation represent the field operation for all admissible limbs without machine overflow; to/from bytes is canonical.", "quantifier": "all limb vectors in range", "why_tests_cant": "2^255 values; carries.", "anchors": ["curve25519/src/ed25519_ref10_fe_51.h", "curve25519/src/x25519_scalarmult_c.c"]}
{"id": "C64", "title": "hex2bin never stores beyond the caller's buffer", "statement": "For every hex text and every output buffer length, hex2bin stores at most binlen bytes (a short buffer only gets a fraction of the text converted, as documented).", "quantifier": "all texts, all buffer lengths", "why_tests_cant": "Only odd text lengths with an exactly too short buffer show the overflow, and an overflow by one byte is usually invisible in a test.", "anchors": ["internal/src/binhexbin.c: hex2bin, hex2bin_alloc"]}
{"id": "C65", "title": "Adding a certificate that is already in the trust store does not damage the trust store", "statement": "Calling lc_pkcs7_trust_store_add with a certificate that is already an element of the list leaves the list a finite list that still contains all certificates.", "quantifier": "all stores, all positions of the certificate in it", "why_tests_cant": "The tests add each certificate once; the damage shows as an endless loop or a missing anchor in a later, unrelated verification.", "anchors": ["asn1/src/pkcs7_trust.c: lc_pkcs7_trust_store_add"]}
{"id": "C66", "title": "ASN.1 decoder reports a missing mandatory element", "statement": "When a mandatory CHOICE of a grammar is absent from the input (for example the notAfter time of a certificate's Validity) the decoder reports an error; an action of that element is never called with the bytes of another element.", "quantifier": "all inputs, shipped grammars", "why_tests_cant": "The accepted malformed inputs are an infinite set that a test suite samples at best.", "anchors": ["asn1/src/asn1_decoder.c: asn1_ber_decoder (skip path, lines 200-206, COND_FAIL)", "asn1/src/x509.asn1.c"]}
{"id": "C67", "title": "A key of unusable length is rejected", "statement": "Setting an AES key whose length is not 16, 24 or 32 bytes returns an error, and the cipher context is then not used with another key.", "quantifier": "all key lengths, all earlier contexts", "why_tests_cant": "Tests use the valid key lengths only; the claim is about every other length and every earlier state.", "anchors": ["sym/src/aes_block.c: aes_setkey", "sym/src/aes_internal.h: aes_set_type"]}
{"id": "C68", "title": "ML-DSA multiplication by the challenge polynomial is exact", "statement": "In signing, the product of the sampled challenge polynomial with a short secret vector, computed through the number theoretic transform, equals the integer negacyclic product with no reduction left over, and each of its coefficients is at most tau times the bound of the secret.", "quantifier": "all challenge seeds, all short polynomials", "why_tests_cant": "The bound is what makes the rejection limits of the signer correct; it holds for all coefficient patterns, of which a test sees a few.", "anchors": ["ml-dsa/src/dilithium_signature_impl.h", "ml-dsa/src/dilithium_poly.c: poly_challenge", "ml-dsa/src/dilithium_ntt.c"]}
{"id": "C69", "title": "SLH-DSA hash addresses follow FIPS 205 and are never reused", "statement": "The 32 byte address given to the hash for every chain step, public key, tree node, FORS leaf, FORS node and secret value is the ADRS of FIPS 205, and two different places of the structure never use the same address.", "quantifier": "all layers, trees, key pairs, chains, steps, heights and node numbers of all parameter sets", "why_tests_cant": "A wrong byte in an address field changes the result only for indices above the byte boundary, far outside the reach of tests; both sides of a self test would agree.", "anchors": ["slh-dsa/src/sphincs_address.h", "slh-dsa/src/sphincs_shake_offsets.h", "slh-dsa/src/sphincs_fors.c", "slh-dsa/src/sphincs_wotsx1.c"]}
{"id": "C70", "title": "An accepted SLH-DSA signature is the signer's, or breaks the hash", "statement": "If verification under an honestly generated public key accepts a signature, then the signature is byte for byte the signer's signature for the randomizer it contains, or one of the hash calls of this verification is a second preimage of an input that the signer hashes at the same address, or the signature contains a WOTS+ chain value from before the point up to which the signer reveals that chain.", "quantifier": "all byte strings offered as signature, all keys, messages, settings; all hash functions", "why_tests_cant": "Tests can only try some forgeries; a verifier that ignores part of the signature passes them.", "anchors": ["slh-dsa/src/sphincs_sign.c: lc_sphincs_verify_ctx", "slh-dsa/src/sphincs_wots.c: wots_pk_from_sig_c", "slh-dsa/src/sphincs_fors.c: fors_pk_from_sig_c", "slh-dsa/src/sphincs_utils.c: compute_root"]}
{"id": "C71", "title": "The X25519 scalar multiplication is RFC 7748's and refuses exactly the small order points", "statement": "For every 32 byte scalar and every 32 byte u-coordinate the function either writes the canonical encoding of the X25519 function of RFC 7748 or returns an error; it returns the error exactly if the decoded u-coordinate is 0, 1, -1 or one of the two of order 8, in any of their encodings.", "quantifier": "all scalars, all u-coordinates (canonical or not, top bit set or not)", "why_tests_cant": "2^510 pairs of inputs; carries and non-canonical encodings are rare.", "anchors": ["curve25519/src/x25519_scalarmult_c.c: crypto_scalarmult_curve25519_c, has_small_order", "curve25519/src/ed25519_ref10_fe_51.h"]}
{"id": "C72", "title": "X25519 key agreement: both sides get the same secret", "statement": "For any two secret keys and any u-coordinate that is not refused (such as the base point), each side obtains a public value that the other does not refuse, both compute the same 32 bytes, and these are not all zero; the function is multiplication by the clamped scalar in the group of the curve (or of its twist).", "quantifier": "all pairs of 32 byte secret keys, all u-coordinates, canonical or not, on the curve or on the twist", "why_tests_cant": "Agreement needs the group law of the curve and the orders of the curve and its twist; a test checks some pairs of 2^512.", "anchors": ["curve25519/src/x25519_scalarmult_c.c: crypto_scalarmult_curve25519_c", "curve25519/src/x25519.c: lc_x25519_ss"]}
{"id": "C73", "title": "A constructed ASN.1 element is left only at its end", "statement": "The decoder goes on behind a SEQUENCE, SET or explicitly tagged element only if the items decoded inside it end exactly where its length says (or at its end-of-contents octets); the action for the element gets exactly its content; the decoder succeeds only with no element open.", "quantifier": "all bytecode, all inputs, all states reached, all callbacks", "why_tests_cant": "Bytes hidden between the last item and the end of an element are the standard way to smuggle data past a parser; tests try a few.", "anchors": ["asn1/src/asn1_decoder.c: asn1_ber_decoder"]}
{"id": "C74", "title": "The ML-DSA signature is the first accepted attempt and masks are never reused", "statement": "Signing returns the first attempt that is not rejected; attempt a expands its masks from the seeds of ExpandMask with counter l*a as FIPS 204 has it, and no two masks of the attempts of one signature share a seed.", "quantifier": "all keys, messages, randomness; all numbers of attempts below 2^16 / l", "why_tests_cant": "Reused masks leak the secret key but every signature still verifies, so no functional test notices.", "anchors": ["ml-dsa/src/dilithium_signature_impl.h", "ml-dsa/src/dilithium_poly.c: poly_uniform_gamma1"]}
{"id": "C75", "title": "The Ed25519 scalar arithmetic is exact modulo the group order", "statement": "Reducing a 64 byte string and multiplying and adding 32 byte strings give the unique representative below the group order L of the exact integer result, with no signed overflow on the way; the check of S accepts exactly the numbers below L.", "quantifier": "all 64 byte strings, all triples of 32 byte strings", "why_tests_cant": "The code is several hundred lines of carries on 21 bit limbs; wrong carries show up for inputs of vanishing density.", "anchors": ["curve25519/src/ed25519_ref10.c: sc25519_reduce, sc25519_muladd, sc25519_is_canonical"]}
{"id": "C76", "title": "Ed25519 point arithmetic is the group of the curve", "statement": "The fixed base multiplication with its table of precomputed points and the double scalar multiplication of the verification give the multiples in the group of the curve for all scalars; the encoding of a point does not depend on its projective coordinates, differs for different points and decodes to the point; decoding refuses exactly the strings that encode no point.", "quantifier": "all scalars below 2^255 (below L for the verification), all points, all projective coordinates, all 32 byte strings", "why_tests_cant": "2^255 scalars and 256 table entries of 15 limbs; a wrong entry or carry shows up only for scalars that use it.", "anchors": ["curve25519/src/ed25519_ref10.c: ge25519_scalarmult_base, ge25519_double_scalarmult_vartime, ge25519_frombytes, ge25519_frombytes_negate_vartime, ge25519_p3_tobytes", "curve25519/src/fe_51/base.h"]}
{"id": "C77", "title": "Ed25519 signatures are those of RFC 8032 and verify", "statement": "For every seed, message and domain separation the signature is the encoding of r B followed by r + k s modulo L as RFC 8032 prescribes (for the prehash variant with dom2), and the verification accepts it under the public key of the same seed, unless the nonce is a multiple of L, in which case it refuses it.", "quantifier": "all seeds, messages, prehash or not, with or without random nonce input, any composite domain separation", "why_tests_cant": "Correctness for all keys needs the group law; tests sign with a few keys.", "anchors": ["curve25519/src/ed25519.c: lc_ed25519_keypair, lc_ed25519_sign_internal, lc_ed25519_verify_internal"]}
{"id": "C78", "title": "Ed25519 verification accepts exactly valid signatures", "statement": "The verification accepts a signature if and only if the public key is the canonical encoding of a point, S is below L, neither the key nor R has small order, and the equation of RFC 8032 (multiplied by the cofactor) holds; in particular S cannot be altered.", "quantifier": "all 32 byte keys, all 64 byte signatures, all messages", "why_tests_cant": "Forgeries that pass because a check is incomplete are found by algebra, not by sampling.", "anchors": ["curve25519/src/ed25519.c: lc_ed25519_verify_internal", "curve25519/src/ed25519_ref10.c: ge25519_has_small_order, ge25519_p2_to_p3, ge25519_is_canonical"]}
{"id": "C79", "title": "X25519 public keys and shared secrets", "statement": "The public key computed from the Ed25519 base table and converted to the Montgomery curve is what the Montgomery ladder gives for u = 9, for every secret key; two parties with keys from lc_x25519_keypair obtain the same non-zero shared secret and no call fails.", "quantifier": "all pairs of 32 byte secret keys", "why_tests_cant": "Two implementations of the multiplication in different coordinates have to agree for 2^251 scalars.", "anchors": ["curve25519/src/x25519.c: lc_x25519_keypair, lc_x25519_ss", "curve25519/src/x25519_scalarmult.c", "curve25519/src/ed25519_ref10.c: ge25519_scalarmult_base"]}
{"id": "C80", "title": "BIKE polynomial multiplication is exact", "statement": "gf2x_mod_mul and gf2x_mod_sqr return the product in F_2[x]/(x^r - 1), reduced, for all reduced operands at all three security levels.", "quantifier": "all pairs of polynomials of degree below r, levels 1, 3 and 5", "why_tests_cant": "2^(2r) operand pairs; a wrong window, carry or Karatsuba overlap can affect few operand bits only.", "anchors": ["bike/src/bike_gf2x_mul.c: karatzuba, gf2x_mod_mul_with_ctx", "bike/src/bike_gf2x_mul_base_portable.c: gf2x_mul_base_port", "bike/src/bike_gf2x_mul_portable.c: gf2x_red_port"]}
{"id": "C81", "title": "BIKE key pairs satisfy the key equation", "statement": "gf2x_mod_inv returns the multiplicative inverse of every polynomial of odd weight other than the all-ones one, and for every seed the public key h of lc_bike_keypair satisfies h0 * h = h1 with the secret polynomials; the secret key contains the public key returned.", "quantifier": "all polynomials of odd weight below r, all seeds, every XOF, levels 1, 3 and 5", "why_tests_cant": "The inversion is an addition chain driven by four tables; that it inverts every key needs the structure of the ring (2 generates the units modulo r).", "anchors": ["bike/src/bike_gf2x_inv.c: gf2x_mod_inv", "bike/src/bike_gf2x_ksqr_portable.c: k_sqr_port", "bike/src/bike_kem.c: lc_bike_keypair"]}
{"id": "C82", "title": "BIKE secret keys and error vectors have the prescribed weight", "statement": "Both index lists of a secret key consist of D different positions, the secret polynomials have ones exactly there, and the error vector of every message has exactly T ones in its 2r positions.", "quantifier": "all seeds and messages, every XOF output, levels 1, 3 and 5", "why_tests_cant": "A duplicate index lowers the weight with small probability only; security and decoding rely on the exact weight.", "anchors": ["bike/src/bike_sampling.c: sample_indices_fisher_yates, generate_secret_key, generate_error_vector", "bike/src/bike_sampling_portable.c: secure_set_bits_port"]}
{"id": "C83", "title": "BIKE decapsulation returns the sender's secret or rejects implicitly", "statement": "lc_bike_dec returns K(m, c) if the message m recovered with the decoded error e generates e again, and K(sigma, c) otherwise; with an honest ciphertext it returns the secret of the sender whenever the bit-flipping decoder reaches the error vector within five iterations.", "quantifier": "all keys, ciphertexts, messages, hash functions, levels 1, 3 and 5", "why_tests_cant": "Rejection is selected with masks and never reported; a wrong mask shows up only for ciphertexts that do not decode.", "anchors": ["bike/src/bike_kem.c: lc_bike_enc_internal, lc_bike_dec, function_l, function_k, reencrypt", "bike/src/bike_decode.c: bike_decode"]}
{"id": "C84", "title": "The BIKE decoder flips exactly the positions above the threshold", "statement": "The bit-sliced decoder computes five iterations of: compute the syndrome, flip every position with at least max(min, floor(a + b * weight)) unsatisfied checks, recompute the syndrome, flip those of the positions at most three below that have a majority of unsatisfied checks; once the syndrome is zero nothing changes any more.", "quantifier": "all keys of lc_bike_keypair, all ciphertexts with clear padding, levels 1, 3 and 5", "why_tests_cant": "The counters are bit slices over rotated copies; a lost carry or an overflow of a counter changes single positions of single ciphertexts.", "anchors": ["bike/src/bike_decode.c: bike_decode, find_err1, find_err2, get_threshold, recompute_syndrome", "bike/src/bike_decode_portable.c: rotate_right_port, dup_port, bit_sliced_adder_port, bit_slice_full_subtract_port"]}
{"id": "C85", "title": "Hybrid KEM: both sides agree and the secret depends on both parts", "statement": "lc_kyber_x25519_dec_kdf with the secret key returns what lc_kyber_x25519_enc_kdf returned with the public key, for every requested length, and the secret is KMAC256 keyed with Kyber-SS || X25519-SS over the ciphertext and the ephemeral X25519 key, as documented.", "quantifier": "all key pairs, all random bytes for which the ML-KEM part decodes, all output lengths, the three ML-KEM parameter sets", "why_tests_cant": "Both directions share the derivation function, so a secret that is left out of the derivation leaves every agreement test green.", "anchors": ["ml-kem/src/kyber_x25519_kem.c: lc_kyber_x25519_enc_kdf, lc_kyber_x25519_dec_kdf", "ml-kem/src/kyber_x25519_kdf.h: kyber_x25519_ss_kdf"]}
{"id": "C86", "title": "Hybrid key exchange: both sides end with the documented secret", "statement": "In the unilaterally and in the mutually authenticated exchange initiator and responder derive the same secret, and it is the documented KMAC256 of the ML-KEM and the X25519 secrets of all encapsulations and the nonce.", "quantifier": "all static and ephemeral keys, all random bytes for which the ML-KEM parts decode, all nonces and output lengths", "why_tests_cant": "The order of up to three secrets in the derivation can be wrong on both sides alike.", "anchors": ["ml-kem/src/kyber_x25519_kex.c", "ml-kem/src/kyber_x25519_kdf.h: kyber_x25519_kdf3, kyber_x25519_kdf4"]}
{"id": "C87", "title": "Hybrid IES round trip", "statement": "What lc_kyber_x25519_ies_enc encrypts, lc_kyber_x25519_ies_dec and the streaming interface in every chunking decrypt with the secret key, with verified tag; streaming encryption gives the same bytes as the one-shot call.", "quantifier": "all keys, plaintexts, AADs, chunkings, tag lengths, every AEAD with a round trip law", "why_tests_cant": "The key schedule, the AEAD state and the chunking combine; only sampled combinations can be run.", "anchors": ["ml-kem/src/kyber_x25519_ies.c"]}
{"id": "C88", "title": "Composite signatures are accepted exactly if both parts are valid", "statement": "lc_dilithium_ed25519_verify_ctx returns 0 if and only if the ML-DSA signature and the Ed25519 signature are both valid for domain || len(ctx) || ctx || M; what lc_dilithium_ed25519_sign_ctx signs verifies with every context object with the same settings; contexts above 255 bytes are refused.", "quantifier": "all keys, messages, signatures, user contexts, prehash choices, the three modes", "why_tests_cant": "The two return codes are merged; that no pair of codes hides a failure and that both parts bind the same bytes is about all pairs.", "anchors": ["ml-dsa/src/dilithium_ed25519_signature.c: lc_dilithium_ed25519_sign_ctx, lc_dilithium_ed25519_verify_ctx, lc_dilithium_ed25519_verify_check"]}
{"id": "C89", "title": "Hashed composite signatures do not depend on the chunking", "statement": "The init/update/final interface signs the digest of domain || len(ctx) || ctx || hash identifier || digest of the message with both algorithms, whatever the pieces, and verification in any other pieces accepts exactly if both parts are valid; unsupported hashes and contexts above 255 bytes are refused.", "quantifier": "all keys, messages and ways to cut them, user contexts, hash choices, the three modes", "why_tests_cant": "The state of the context object is rewritten between the calls; the effect of its past shows only in sequences of calls.", "anchors": ["ml-dsa/src/dilithium_ed25519_signature.c: lc_dilithium_ed25519_sign_init, lc_dilithium_ed25519_sign_final, lc_dilithium_ed25519_verify_final, composite_hash_signature_domain_separation"]}
{"id": "C90", "title": "The ASN.1 encoder writes well-formed DER and stays in its memory", "statement": "asn1_ber_encoder and asn1_ber_encoder_small, run with the grammars of the library: no access outside the jump stack, the levels, the bytecode, the action table or the output buffer; a result of 0 means that the output is the DER serialisation of a forest whose leaves are exactly the values the actions supplied, in order and with their tags, and that *avail_datalen is reduced by exactly its length; the encoder returns if the actions ask for finitely many repetitions.", "quantifier": "all shipped grammars, all actions that keep to the space offered, all contexts and buffer sizes, any number of instructions", "why_tests_cant": "Which positions, stack depths and buffer fill levels occur depends on all combinations of optional parts, repetitions and value sizes.", "anchors": ["asn1/src/asn1_encoder_impl.h: asn1_ber_encoder_ws", "asn1/src/asn1_encoder.c", "asn1/src/asn1_encoder_small.c", "asn1/src/*.asn1.c"]}
{"id": "C91", "title": "Extensions of a generated certificate are read back", "statement": "If lc_x509_cert_gen returns a certificate, lc_x509_cert_parse reports of it the key usage with its critical flag, the extended key usages with their critical flag, the DNS name and IP address, both key identifiers that were set, CA or not, and the path length up to 16.", "quantifier": "all certificate data that are complete, with times between 1970 and 9999, all signature functions, all buffer sizes", "why_tests_cant": "The output depends on the lengths of all values (the headers of the enclosing values are written last) and on which of the optional parts are present.", "anchors": ["asn1/src/x509_cert_generator.c: lc_x509_cert_gen", "asn1/src/x509_cert_parser.c: lc_x509_cert_parse", "asn1/src/x509_cert_generator.c: x509_process_extension_enc, x509_eku_enc, x509_keyusage_enc, x509_san_dns_enc, x509_skid_enc, x509_akid_note_kid_enc", "asn1/src/x509_cert_parser.c: x509_process_extension"]}
{"id": "C92", "title": "Names of a generated certificate are read back", "statement": "If lc_x509_cert_gen returns a certificate, lc_x509_cert_parse reports of it the six components of the issuer name and the six components of the subject name that were set, none of them in the other name.", "quantifier": "all certificate data that are complete, with times between 1970 and 9999, all signature functions, all buffer sizes", "why_tests_cant": "The output depends on the lengths of all values (the headers of the enclosing values are written last) and on which of the optional parts are present.", "anchors": ["asn1/src/x509_cert_generator.c: lc_x509_cert_gen", "asn1/src/x509_cert_parser.c: lc_x509_cert_parse", "asn1/src/x509_cert_generator.c: x509_name_OID_enc, x509_name_segment_enc", "asn1/src/x509_cert_parser.c: x509_extract_name_segment, x509_note_issuer, x509_note_subject"]}
{"id": "C93", "title": "Validity times of a generated certificate are read back", "statement": "If lc_x509_cert_gen returns a certificate, lc_x509_cert_parse reports of it exactly the two times that were set.", "quantifier": "all certificate data that are complete, with times between 1970 and 9999, all signature functions, all buffer sizes", "why_tests_cant": "The calendar has 2.5e11 seconds in two notations; the second time depends on the state the first one left.", "anchors": ["asn1/src/x509_cert_generator.c: lc_x509_cert_gen", "asn1/src/x509_cert_parser.c: lc_x509_cert_parse", "asn1/src/x509_cert_generator.c: x509_set_uct_time_enc, x509_set_gen_time_enc, x509_note_not_before_enc, x509_note_not_after_enc", "asn1/src/x509_cert_parser.c: x509_decode_time"]}
{"id": "C94", "title": "The signature of a generated certificate covers what the verifier checks", "statement": "If lc_x509_cert_gen returns a certificate, lc_x509_cert_parse reports of it version 3, the serial number, the algorithms and the public key that were set; the bytes it reports as signed data are exactly the bytes handed to the signature function, and the signature it reports starts with what that function returned and is the end of the certificate.", "quantifier": "all certificate data that are complete, with times between 1970 and 9999, all signature functions, all buffer sizes", "why_tests_cant": "The output depends on the lengths of all values (the headers of the enclosing values are written last) and on which of the optional parts are present.", "anchors": ["asn1/src/x509_cert_generator.c: lc_x509_cert_gen", "asn1/src/x509_cert_parser.c: lc_x509_cert_parse", "asn1/src/x509_cert_generator.c: x509_note_signature_enc, x509_note_algorithm_OID_enc, x509_extract_key_data_enc", "asn1/src/x509_cert_parser.c: x509_note_tbs_certificate, x509_note_signature, x509_extract_key_data"]}
{"id": "C95", "title": "The parser accepts what the generator returns", "statement": "Every certificate that lc_x509_cert_gen returns with success is accepted by lc_x509_cert_parse.", "quantifier": "all certificate data that are complete, with times between 1970 and 9999, all signature functions, all buffer sizes", "why_tests_cant": "The output depends on the lengths of all values (the headers of the enclosing values are written last) and on which of the optional parts are present.", "anchors": ["asn1/src/x509_cert_generator.c: lc_x509_cert_gen", "asn1/src/x509_cert_parser.c: lc_x509_cert_parse", "asn1/src/asymmetric_type.c: asymmetric_key_generate_id"]}
{"id": "C96", "title": "Basic constraints of a generated certificate are read back", "statement": "If lc_x509_cert_gen returns a certificate, lc_x509_cert_parse reports of it the CA flag, path length and critical flag that were set.", "quantifier": "all certificate data that are complete, with times between 1970 and 9999, all signature functions, all buffer sizes", "why_tests_cant": "The critical flag is lost between two actions that share one variable; tests use critical constraints only.", "anchors": ["asn1/src/x509_cert_generator.c: lc_x509_cert_gen", "asn1/src/x509_cert_parser.c: lc_x509_cert_parse", "asn1/src/x509_cert_generator.c: x509_basic_constraints_ca_enc, x509_extension_critical_enc", "asn1/src/x509_cert_parser.c: x509_basic_constraints_ca"]}
{"id": "C97", "title": "A generated PKCS#7 message is read back", "statement": "If lc_pkcs7_generate returns a message, lc_pkcs7_message_parse reports of it the certificates in their order, the content, and for each signer in order its key identifier, public key and hash algorithm, the authenticated attributes that were requested with message digest and signing time, and a signature made with the key of the signer.", "quantifier": "all lists of certificates and signers, all contents, all signature and hash functions, all buffer sizes", "why_tests_cant": "The number of signers and certificates, their keys and the content vary independently; the headers of all enclosing values depend on all lengths below.", "anchors": ["asn1/src/pkcs7_generator.c: lc_pkcs7_generate", "asn1/src/pkcs7_parser.c: lc_pkcs7_message_parse", "asn1/src/pkcs7_generator.c: pkcs7_sig_note_set_of_authattrs_enc, pkcs7_sig_note_skid_enc, pkcs7_sig_note_signature_enc, pkcs7_external_aa_enc", "asn1/src/pkcs7_parser.c: pkcs7_note_signed_info, pkcs7_sig_note_authenticated_attr, pkcs7_sig_note_set_of_authattrs"]}
{"id": "C98", "title": "What a PKCS#7 signer signs is what the verifier hashes", "statement": "For each signer of a message that lc_pkcs7_generate returned, the digest that lc_pkcs7_verify computes from the parsed message and the content is the digest that was handed to the signature function of that signer.", "quantifier": "all lists of certificates and signers, all contents, all signature and hash functions, all buffer sizes", "why_tests_cant": "Generator and verifier compute the digest at different places from different representations: the generator hashes the attributes with the tag replaced before it strips the header, the verifier puts a header in front of the parsed bytes.", "anchors": ["asn1/src/pkcs7_generator.c: lc_pkcs7_generate", "asn1/src/pkcs7_parser.c: lc_pkcs7_message_parse", "asn1/src/pkcs7_generator.c: pkcs7_sig_note_set_of_authattrs_enc, pkcs7_sig_note_signature_enc, pkcs7_hash_data", "asn1/src/pkcs7_verify.c: pkcs7_digest"]}
{"id": "C99", "title": "A generated PKCS#7 message is accepted", "statement": "If the certificate of each signer can be told from the others, carries the signer's key and is accepted by the trust store, then lc_pkcs7_verify accepts the message that lc_pkcs7_generate returned, after lc_pkcs7_supply_detached_data if the content is detached.", "quantifier": "all lists of certificates and signers, all contents, all signature and hash functions, all buffer sizes", "why_tests_cant": "The number of signers and certificates, their keys and the content vary independently; the headers of all enclosing values depend on all lengths below.", "anchors": ["asn1/src/pkcs7_generator.c: lc_pkcs7_generate", "asn1/src/pkcs7_parser.c: lc_pkcs7_message_parse", "asn1/src/pkcs7_verify.c: lc_pkcs7_verify, lc_pkcs7_supply_detached_data"]}
{"id": "C100", "title": "The PKCS#7 generator returns", "statement": "lc_pkcs7_generate returns for every set of authenticated attributes given to lc_pkcs7_set_signer.", "quantifier": "all attribute sets, contents, buffer sizes; any number of steps", "why_tests_cant": "A call that does not return is not a test result; no finite number of steps shows that the next one is not the last.", "anchors": ["asn1/src/pkcs7_generator.c: lc_pkcs7_generate", "asn1/src/pkcs7_parser.c: lc_pkcs7_message_parse", "asn1/src/pkcs7_generator.c: pkcs7_external_aa_continue_enc, pkcs7_external_aa_enc, pkcs7_external_aa_OID_enc", "asn1/src/asn1_encoder.c: asn1_ber_encoder_ws"]}
{"id": "C101", "title": "What the PKCS#7 parser reports is in the message", "statement": "If lc_pkcs7_message_parse accepts a byte string then the message has at least one signer, either all or none of the signers have signed attributes, a signer with signed attributes has a message digest, and signatures, message digests and content are contiguous parts of the input; hash and signature algorithms are known ones, the content type is a known one, and each certificate is the result of lc_x509_cert_parse on bytes of the input.", "quantifier": "all byte strings, all behaviours of the certificate parser", "why_tests_cant": "The claim is about every byte string that happens to be accepted, including BER forms no generator emits.", "anchors": ["asn1/src/pkcs7_parser.c: lc_pkcs7_message_parse, pkcs7_note_signed_info, pkcs7_sig_note_authenticated_attr, pkcs7_sig_note_set_of_authattrs", "asn1/src/pkcs7.asn1: SignerInfo"]}
{"id": "C102", "title": "A reported signing time has been signed", "statement": "If lc_pkcs7_message_parse reports a signing time for a signer, then it was read from the attributes that are covered by the signature of that signer.", "quantifier": "all byte strings, all behaviours of the certificate parser", "why_tests_cant": "Tests feed messages made by generators that put the attributes where they belong; the claim is about every message an attacker can make of a valid one.", "anchors": ["asn1/src/pkcs7_parser.c: lc_pkcs7_message_parse, pkcs7_note_signed_info, pkcs7_sig_note_authenticated_attr, pkcs7_sig_note_set_of_authattrs", "asn1/src/pkcs7.asn1: SignerInfo", "asn1/src/pkcs7_verify.c: lc_pkcs7_verify (signing time against the validity of the certificate)"]}
{"id": "C103", "title": "A signer is identified by its own SignerInfo", "statement": "The key identifier by which the certificate of a signer is looked up is made of bytes of the SignerInfo of that signer.", "quantifier": "all byte strings, all behaviours of the certificate parser", "why_tests_cant": "State that is left over from one signer shows only with particular combinations of several signers.", "anchors": ["asn1/src/pkcs7_parser.c: lc_pkcs7_message_parse, pkcs7_note_signed_info, pkcs7_sig_note_authenticated_attr, pkcs7_sig_note_set_of_authattrs", "asn1/src/pkcs7.asn1: SignerInfo"]}
{"id": "C104", "title": "Signed attributes are read from the bytes that are hashed", "statement": "If lc_pkcs7_message_parse accepts a message and a signer has signed attributes, then the message digest and the signing time that are reported for it lie inside the attribute bytes of that signer which lc_pkcs7_verify hashes for the signature.", "quantifier": "all byte strings, all behaviours of the certificate parser", "why_tests_cant": "The nesting of all possible BER encodings, with definite and indefinite lengths, any order and number of attributes and signers, cannot be sampled.", "anchors": ["asn1/src/pkcs7_parser.c: lc_pkcs7_message_parse, pkcs7_note_signed_info, pkcs7_sig_note_authenticated_attr, pkcs7_sig_note_set_of_authattrs", "asn1/src/pkcs7.asn1: SignerInfo", "asn1/src/asn1_decoder.c: asn1_ber_decoder", "asn1/src/pkcs7.asn1.c: pkcs7_machine"]}
{"id": "C105", "title": "A certificate is reported according to its signed bytes only", "statement": "If lc_x509_cert_parse accepts two byte strings and the signed part (tbs, raw tbsCertificate with a definite length as DER demands) is the same for both, then all that is reported about them (names, serial number, key, algorithms, validity, extensions, identifiers) is the same, except for the signature value. Nothing outside of the signed bytes influences the report.", "quantifier": "all pairs of byte strings that are accepted and whose signed parts are equal, with a signed part of definite length", "why_tests_cant": "It is a statement about pairs of inputs, of which one can be made by an attacker out of the other; no finite set of pairs covers all BER encodings.", "anchors": ["asn1/src/x509_cert_parser.c: lc_x509_cert_parse, x509_note_tbs_certificate, x509_note_signature, x509_note_params, x509_extract_key_data", "asn1/src/asn1_decoder.c: asn1_ber_decoder", "asn1/src/x509.asn1.c: x509_machine"]}
{"id": "C106", "title": "Reported certificate values lie inside the signed bytes", "statement": "If lc_x509_cert_parse accepts a byte string whose signed part has a definite length, then a key is reported, and the raw serial number, issuer, subject, key, subject key identifier, authority key identifier and subject alternative names that are reported are contiguous parts of the signed part.", "quantifier": "all byte strings that are accepted and whose signed part has a definite length", "why_tests_cant": "Where a pointer points to is not compared with the signed range by any test; it ranges over all accepted encodings.", "anchors": ["asn1/src/x509_cert_parser.c: lc_x509_cert_parse, x509_note_tbs_certificate, x509_note_signature, x509_note_params, x509_extract_key_data", "asn1/src/asn1_decoder.c: asn1_ber_decoder", "asn1/src/x509.asn1.c: x509_machine"]}
{"id": "C107", "title": "cSHAKE DRNG follows its specification", "statement": "For every sequence of lc_rng_seed, lc_rng_generate and lc_rng_zero on the cSHAKE256 DRNG in which output is requested only after a seed, the return codes, the outputs and the retained key are those of the specification at the beginning of the source (sections 2.2 to 2.5 on cSHAKE256 of SP 800-185 and FIPS 202), with an empty key at the first seeding and blocks of 208 bytes.", "quantifier": "all sequences of seed, generate and zero requests, all seeds, additional inputs of at most 84 bytes, all output lengths", "why_tests_cant": "The self test covers one seed and one output; the key chain depends on the whole history of requests and on the split into blocks.", "anchors": ["drng/src/cshake_drng.c: lc_cshake256_drng_seed, lc_cshake256_drng_generate, lc_cshake256_drng_fke_init_ctx, lc_cshake256_drng_encode, lc_cshake256_drng_zero", "hash/src/cshake.c"]}
{"id": "C108", "title": "KMAC DRNG follows its specification", "statement": "The same for the KMAC256 DRNG on KMACXOF256.", "quantifier": "all sequences of seed, generate and zero requests, all seeds, additional inputs of at most 84 bytes, all output lengths", "why_tests_cant": "As C107.", "anchors": ["drng/src/kmac_drng.c: lc_kmac256_drng_seed, lc_kmac256_drng_generate, lc_kmac256_drng_fke_init_ctx, lc_kmac256_drng_encode, lc_kmac256_drng_zero", "kmac/src/kmac.c: lc_kmac_final_xof"]}
{"id": "C109", "title": "A successful request for random bytes fills the buffer", "statement": "If lc_rng_generate on the cSHAKE256 or KMAC256 DRNG returns 0, then all outlen bytes of the buffer have been written with output of the generator.", "quantifier": "all states, additional inputs and output lengths", "why_tests_cant": "Bytes that are not written are not visible unless the buffer is filled before; the claim ranges over all lengths.", "anchors": ["drng/src/cshake_drng.c: lc_cshake256_drng_seed, lc_cshake256_drng_generate, lc_cshake256_drng_fke_init_ctx, lc_cshake256_drng_encode, lc_cshake256_drng_zero", "hash/src/cshake.c", "drng/src/kmac_drng.c: lc_kmac256_drng_seed, lc_kmac256_drng_generate, lc_kmac256_drng_fke_init_ctx, lc_kmac256_drng_encode, lc_kmac256_drng_zero", "kmac/src/kmac.c: lc_kmac_final_xof"]}
{"id": "C110", "title": "Shorter outputs are beginnings of longer ones", "statement": "From the same state with the same additional input, the cSHAKE256 and KMAC256 DRNG return for n bytes the first n bytes of what they return for m >= n bytes.", "quantifier": "all states, additional inputs and pairs of lengths", "why_tests_cant": "It is a relation between pairs of runs over all lengths and block boundaries.", "anchors": ["drng/src/cshake_drng.c: lc_cshake256_drng_seed, lc_cshake256_drng_generate, lc_cshake256_drng_fke_init_ctx, lc_cshake256_drng_encode, lc_cshake256_drng_zero", "hash/src/cshake.c", "drng/src/kmac_drng.c: lc_kmac256_drng_seed, lc_kmac256_drng_generate, lc_kmac256_drng_fke_init_ctx, lc_kmac256_drng_encode, lc_kmac256_drng_zero", "kmac/src/kmac.c: lc_kmac_final_xof"]}
{"id": "C111", "title": "First seeding, reseeding and generating are separated", "statement": "The strings that the cSHAKE256 and the KMAC256 DRNG enter into the Keccak sponge determine the operation (first seeding, reseeding, generating), the key, the seed and the additional input (of at most 84 bytes): no two different operations are computed on the same string.", "quantifier": "all pairs of operations, keys of 64 bytes, seeds, additional inputs of at most 84 bytes", "why_tests_cant": "Injectivity over all pairs of inputs.", "anchors": ["drng/src/cshake_drng.c: lc_cshake256_drng_seed, lc_cshake256_drng_generate, lc_cshake256_drng_fke_init_ctx, lc_cshake256_drng_encode, lc_cshake256_drng_zero", "hash/src/cshake.c", "drng/src/kmac_drng.c: lc_kmac256_drng_seed, lc_kmac256_drng_generate, lc_kmac256_drng_fke_init_ctx, lc_kmac256_drng_encode, lc_kmac256_drng_zero", "kmac/src/kmac.c: lc_kmac_final_xof"]}
{"id": "C112", "title": "No random bytes from a generator that was not seeded", "statement": "lc_rng_generate on a cSHAKE256 or KMAC256 DRNG that was not seeded since its allocation or lc_rng_zero fails.", "quantifier": "all additional inputs and lengths, after every history that ends with lc_rng_zero", "why_tests_cant": "Ranges over all histories and requests.", "anchors": ["drng/src/cshake_drng.c: lc_cshake256_drng_seed, lc_cshake256_drng_generate, lc_cshake256_drng_fke_init_ctx, lc_cshake256_drng_encode, lc_cshake256_drng_zero", "hash/src/cshake.c", "drng/src/kmac_drng.c: lc_kmac256_drng_seed, lc_kmac256_drng_generate, lc_kmac256_drng_fke_init_ctx, lc_kmac256_drng_encode, lc_kmac256_drng_zero", "kmac/src/kmac.c: lc_kmac_final_xof"]}
{"id": "C113", "title": "A saved and reloaded object is the same", "statement": "The load functions of ML-KEM, ML-DSA, SLH-DSA and BIKE accept exactly the byte strings that have the length of a parameter set that is compiled in, and *_ptr returns these bytes; an object saved with *_ptr and loaded again holds the same bytes and belongs to the same parameter set, so it can be used like the original.", "quantifier": "all kinds of objects, parameter sets, sets of parameter sets compiled in, contents and former contents of the object", "why_tests_cant": "Tests load keys of one parameter set at a time and do not continue a protocol with reloaded objects; the claim ranges over all kinds, lengths and configurations.", "anchors": ["ml-kem/src/kyber_api.c: *_load, *_ptr, *_set_keytype_*", "ml-dsa/src/dilithium_api.c: *_load, *_ptr, *_set_keytype_*", "slh-dsa/src/sphincs_api.c: *_load, *_ptr, *_set_keytype_*", "bike/src/bike_api.c: *_load, *_ptr, *_set_keytype_*"]}
{"id": "C114", "title": "Objects of different parameter sets are never mixed", "statement": "Every API function of ML-KEM, ML-DSA, SLH-DSA, BIKE and the hybrids that takes typed objects calls an implementation exactly if no pointer is NULL and all its inputs belong to one parameter set that is compiled in; it is the implementation of this parameter set and all outputs are marked with it. Otherwise an error is returned.", "quantifier": "all dispatching functions, all combinations of parameter sets (also unknown ones) and NULL pointers, all configurations", "why_tests_cant": "The number of combinations of types over all functions is not covered by tests, which use matching types.", "anchors": ["ml-kem/src/kyber_api.c: functions that switch over *_type", "ml-dsa/src/dilithium_api.c: functions that switch over *_type", "slh-dsa/src/sphincs_api.c: functions that switch over *_type", "bike/src/bike_api.c: functions that switch over *_type"]}
{"id": "C115", "title": "A NULL pointer to key material is refused", "statement": "The load functions return -EINVAL for NULL pointers and never access memory outside their arguments.", "quantifier": "all load functions, pointers, lengths and objects", "why_tests_cant": "Crashes for NULL pointers only show for the combination of NULL and a right length.", "anchors": ["ml-kem/src/kyber_api.c: lc_kyber_x25519_sk_load, lc_kyber_x25519_pk_load, lc_kyber_x25519_ct_load, lc_kyber_x25519_ss_load", "ml-dsa/src/dilithium_api.c: lc_dilithium_ed25519_*_load, *_load_partial", "ml-kem/src/kyber_api.c: *_load", "ml-dsa/src/dilithium_api.c: *_load", "slh-dsa/src/sphincs_api.c: *_load", "bike/src/bike_api.c: *_load"]}
{"id": "C116", "title": "A certificate signature is checked under the parameter set its algorithm names", "statement": "If public_key_verify_signature accepts, then the implementation of the scheme and of the parameter set named by the algorithm identifier has accepted the key, the signature and the message.", "quantifier": "all keys, signatures, messages, algorithm identifiers and configurations, all implementations of the schemes", "why_tests_cant": "Needs certificates whose key does not fit to the algorithm identifier, in all combinations.", "anchors": ["asn1/src/public_key.c: public_key_verify_signature", "asn1/src/public_key_dilithium.c: public_key_verify_signature_dilithium", "asn1/src/public_key_sphincs.c: public_key_verify_signature_sphincs", "asn1/src/public_key_dilithium_ed25519.c: public_key_verify_signature_dilithium_ed25519"]}
{"id": "C117", "title": "A composite key or signature is read completely", "statement": "A composite ML-DSA and Ed25519 key or signature decoded from its two BIT STRINGs is accepted exactly if both parts have the right length, and is then the object loaded from the two parts at once; an object that is in use already is refused and left unchanged.", "quantifier": "all objects, parts, parameter sets and configurations", "why_tests_cant": "The two parts are stored by separate callbacks into one object whose layout depends on the first; the claim ranges over all former contents and lengths.", "anchors": ["asn1/src/public_key_dilithium_ed25519.c: x509_mldsa_signature, x509_ed25519_signature, x509_mldsa_public_key, x509_ed25519_public_key, x509_mldsa_composite_private_key, x509_ed25519_private_key", "ml-dsa/src/dilithium_api.c: lc_dilithium_ed25519_sk_load_partial, lc_dilithium_ed25519_pk_load_partial, lc_dilithium_ed25519_sig_load_partial"]}
{"id": "C118", "title": "The text of an IP address becomes the bytes of this address", "statement": "lc_x509_enc_san_ip turns the text of an IPv4 or IPv6 address into the 4 or 16 bytes of the address, refuses every other text, and never writes beyond the given buffer.", "quantifier": "all texts, buffers and buffer lengths, all addresses", "why_tests_cant": "The texts are infinitely many; tests convert a few well formed addresses.", "anchors": ["asn1/src/x509_cert_generator_set_data.c: lc_x509_enc_san_ip"]}
{"id": "C119", "title": "The text printed for an IP address identifies it", "statement": "lc_x509_dec_san_ip writes a text from which lc_x509_enc_san_ip restores the address, or reports an error; it reads only the ip_len bytes of the address and writes only the ip_name_len bytes of the buffer.", "quantifier": "all addresses of any length, all buffers and buffer lengths", "why_tests_cant": "There are 2^128 addresses; an error in one of sixteen positions shows only if the position is tested with a differing value.", "anchors": ["asn1/src/x509_cert_parser_get_data.c: lc_x509_dec_san_ip", "asn1/src/x509_cert_generator_set_data.c: lc_x509_enc_san_ip"]}
{"id": "C120", "title": "Key usages given and returned by name are the named ones", "statement": "lc_x509_cert_set_keyusage, lc_x509_cert_set_eku, lc_x509_name_to_keyusage and lc_x509_name_to_eku add exactly the flag that RFC 5280 gives to the name and refuse every other text; lc_x509_cert_get_keyusage and lc_x509_cert_get_eku fill an array with the names of the flags that are set.", "quantifier": "all texts, all former flags, all series of calls, all arrays", "why_tests_cant": "All texts and combinations of flags; the getters are not called by any test.", "anchors": ["asn1/src/x509_cert_generator_set_data.c: lc_x509_cert_set_eku, lc_x509_cert_set_keyusage", "asn1/src/x509_cert_parser_get_data.c: lc_x509_cert_get_eku, lc_x509_cert_get_keyusage, x509_eku_to_name, x509_keyusage_to_name", "asn1/src/x509_algorithm_mapper.c: lc_x509_name_to_keyusage, lc_x509_name_to_eku"]}
{"id": "C121", "title": "What is set in a certificate is what is returned", "statement": "The value given to a setter of a certificate (name components, SAN, key identifiers, serial number) is returned by the getter of the same field, no other field changes, and a call that is refused changes nothing; a NULL pointer with a length is refused.", "quantifier": "all certificates, fields, values and lengths", "why_tests_cant": "Sixteen nearly equal pairs of functions: mixing up two of them shows only if both fields are read after each call.", "anchors": ["asn1/src/x509_cert_generator_set_data.c: lc_x509_cert_set_subject_*, lc_x509_cert_set_issuer_*, lc_x509_cert_set_san_ip, lc_x509_cert_set_san_dns, lc_x509_cert_set_skid, lc_x509_cert_set_akid, lc_x509_cert_set_serial", "asn1/src/x509_cert_parser_get_data.c: lc_x509_cert_get_*"]}
{"id": "C122", "title": "Types, names, object identifiers and hashes of signature algorithms agree", "statement": "Every implemented signature algorithm has an object identifier, a name and a standard hash; identifier and name lead back to the algorithm, the standard hash is accepted by the hash check, and the hash check accepts exactly the hashes that are as strong as the algorithm.", "quantifier": "all algorithm types, object identifiers, texts and hashes", "why_tests_cant": "A missing or wrong row of the table shows only for the algorithm in question; the texts are infinitely many.", "anchors": ["asn1/src/x509_algorithm_mapper.c: x509_algo_table, lc_x509_pkey_name_to_algorithm, lc_x509_sig_type_to_oid, lc_x509_sig_type_to_hash, lc_x509_sig_check_hash, lc_x509_name_to_hash, lc_x509_hash_to_name, lc_x509_hash_to_oid, lc_x509_oid_to_hash, lc_x509_oid_to_sig_type, lc_x509_sig_type_to_name, lc_x509_oid_to_name"]}
{"id": "C123", "title": "A PKCS#7 message under construction holds what was added and can be released", "statement": "After any series of lc_pkcs7_set_certificate, lc_pkcs7_set_signer and lc_pkcs7_set_data the message holds exactly the certificates and the signers (certificate, attributes, hash) of the calls that returned 0, in the order of the calls; refused calls change nothing; every call returns; lc_pkcs7_message_clear frees the memory of the message once and leaves the certificates, which the caller keeps, alone.", "quantifier": "all series of calls, all memories of certificates, all messages", "why_tests_cant": "The series are unbounded; a circular list shows only for repeated certificates, a wrong release only under a memory checker.", "anchors": ["asn1/src/pkcs7_generator_set_data.c: pkcs7_add_cert, pkcs7_add_signer, lc_pkcs7_set_certificate, lc_pkcs7_set_signer", "asn1/src/pkcs7_parser.c: lc_pkcs7_message_clear", "asn1/api/lc_pkcs7_generator.h"]}
{"id": "C124", "title": "The hash of a PKCS#7 signer is as strong as its signature algorithm", "statement": "If lc_pkcs7_set_signer returns 0, the hash recorded for the signer is the given one, or the standard one if none was given, and its collision resistance is at least the strength of the signature algorithm.", "quantifier": "all signature types and hashes", "why_tests_cant": "Every pair of algorithm and hash matters; tests use the standard ones.", "anchors": ["asn1/src/pkcs7_generator_set_data.c: lc_pkcs7_set_signer", "asn1/src/x509_algorithm_mapper.c: lc_x509_sig_type_to_hash, lc_x509_sig_check_hash"]}
{"id": "C125", "title": "The last lc_pkcs7_set_data decides on data and embedding", "statement": "After any series of lc_pkcs7_set_data the message refers to the data of the last successful call and embeds them exactly if this call asked for it.", "quantifier": "all messages and all series of calls", "why_tests_cant": "Series of calls are unbounded; tests call the function once.", "anchors": ["asn1/src/pkcs7_generator_set_data.c: lc_pkcs7_set_data"]}
{"id": "C126", "title": "The printed object identifier is the encoded one", "statement": "sprint_oid writes the dotted text of the object identifier that the bytes encode according to X.690 and returns its length, -ENOBUFS if the text does not fit, an error if the bytes are no complete encoding; it writes only the bufsize characters of the buffer.", "quantifier": "all object identifiers, all bytes, all buffers and buffer sizes", "why_tests_cant": "Object identifiers are infinitely many; tests print none at all, and errors appear only with unusual arcs.", "anchors": ["asn1/src/oid_registry.c: sprint_oid"]}
{"id": "C127", "title": "An algorithm is used only after its self test, and tests end", "statement": "The self test of an algorithm runs at its first use and at its first use after every lc_rerun_selftests, and not more often; a use never recurses without end although the self tests use the algorithms themselves; no thread uses an algorithm before a self test of it has finished.", "quantifier": "all algorithms and all dependencies between their self tests, all series of calls, all interleavings of threads", "why_tests_cant": "Dependencies may be circular, series of calls are unbounded; which thread is first is not under the control of a test.", "anchors": ["internal/api/compare.h: LC_SELFTEST_RUN", "internal/src/compare.c: get_current_selftest_level, lc_rerun_selftests, lc_disable_selftest"]}
{"id": "C128", "title": "The length reported by the entropy source is the number of fresh bytes", "statement": "get_full_entropy returns an error or the number of bytes it has written; these are the bytes delivered by the system, in order and each once; it returns all the bytes asked for or the caller notices; the seeded RNG uses the buffer as a seed only if all bytes of it come from the source; the function returns.", "quantifier": "all behaviours of the system: partial deliveries, interruptions and errors in any order, all lengths", "why_tests_cant": "The behaviour of the system cannot be chosen in a test; interruptions and partial deliveries are rare.", "anchors": ["drng/src/seeded_rng_linux.h: __getrandom", "drng/src/seeded_rng_bsd.c: __getentropy", "drng/src/seeded_rng_darwin.c: __getentropy", "drng/src/seeded_rng_esdm.c: get_full_entropy", "drng/src/seeded_rng_linux_kernel.c: get_full_entropy", "drng/src/seeded_rng.c: lc_seed_seeded_rng"]}
{"id": "C129", "title": "The allocator gives back what it has taken", "statement": "A program which frees only pointers obtained from lc_alloc_aligned, lc_alloc_aligned_secure or lc_alloc_high_aligned, each once, holds exactly the memory and descriptors of the pointers it has not freed; a failing allocation leaves nothing behind; the memory obtained has the size and alignment asked for, is zero and does not overlap with other memory; no undefined call of the system is made.", "quantifier": "all sequences of allocations, stores and releases, all answers of the system", "why_tests_cant": "Errors of mlock and memfd_secret depend on limits and filters of the system; leaks and invalid frees show up after many calls only.", "anchors": ["internal/src/memory_support_linux.c: alloc_aligned_secure_internal", "internal/src/memory_support_linux.c: lc_alloc_aligned_secure", "internal/src/memory_support_linux.c: lc_alloc_high_aligned", "internal/src/memory_support_linux.c: lc_free_internal"]}
{"id": "C130", "title": "The implementations chosen at startup exist and their CPU feature was detected", "statement": "After the constructors have run, the default pointers of SHA-3, Ascon and AES are not NULL, all algorithms of a family use the same implementation, and it is the one in C or an accelerated one which is built and whose CPU feature was detected; the named pointers denote their implementation only in this case.", "quantifier": "all platforms of the build, all sets of built implementations, all features of the machine", "why_tests_cant": "A test runs on one machine with one build.", "anchors": ["hash/src/sha3_selector.c: sha3_fastest_impl", "hash/src/ascon_selector.c: ascon_fastest_impl", "sym/src/aes_selector.c: aes_fastest_impl", "meson.build", "internal/src/meson.build"]}
{"id": "C131", "title": "The CPU features reported are those of the machine, and can be switched off", "statement": "lc_cpu_feature_available reports a feature if and only if the machine has it; after lc_cpu_feature_disable it reports none until lc_cpu_feature_enable is called.", "quantifier": "all machines and all sequences of calls", "why_tests_cant": "Old and unusual processors are not at hand in tests.", "anchors": ["internal/src/cpufeatures_x86.c: lc_cpu_feature_available", "internal/src/cpufeatures_arm64_auxv.c: lc_cpu_feature_available", "internal/src/cpufeatures_arm64_native.c: lc_cpu_feature_available", "internal/src/cpufeatures_arm32.c: lc_cpu_feature_available", "internal/src/cpufeatures_riscv_auxv.c: lc_cpu_feature_available"]}
{"id": "C132", "title": "The Ascon AEAD of the kernel module follows the kernel crypto API", "statement": "For every AEAD request of the Linux kernel, however its source and destination scatterlists are cut into segments, encryption writes the ciphertext and tag of the one-shot call behind the space of the associated data, decryption of a request with ciphertext and tag in cryptlen returns the plaintext for an honest message and -EBADMSG otherwise, and every registered algorithm can be used with its keys.", "quantifier": "all keys, tag lengths, associated data, messages, and all segmentations of source and destination", "why_tests_cant": "The segmentations of scatterlists are unbounded, and the one kernel test passes cryptlen by the convention of the implementation for one algorithm only.", "anchors": ["linux_kernel/leancrypto_kernel_aead_ascon.c: lc_aead_ascon_aad, lc_aead_ascon_update, lc_aead_ascon_enc, lc_aead_ascon_dec, lc_aead_setauthsize", "aead/api/lc_ascon_aead.h: lc_ascon_load_key"]}
{"id": "C133", "title": "Kernel hash descriptors are independent of each other", "statement": "For every sequence of crypto_shash init, update, final, export and import calls on any number of descriptors of the SHA-3 and Ascon hashes registered with the Linux kernel, each digest is the one of the message of its descriptor, where an imported state continues the message of the exported one.", "quantifier": "all sequences of calls, all numbers of descriptors, all messages", "why_tests_cant": "Interleavings of descriptors are unbounded; the kernel tests run one descriptor and never import a state into another one.", "anchors": ["linux_kernel/leancrypto_kernel_sha3.c: lc_kernel_sha3_256_init, lc_kernel_sha3_update, lc_kernel_sha3_final, lc_sha3_algs", "linux_kernel/leancrypto_kernel_ascon.c: lc_ascon_algs", "hash/api/lc_hash.h.in: _LC_HASH_SET_CTX"]}
{"id": "C134", "title": "Kernel KMAC uses the key set when a descriptor is initialised", "statement": "For every sequence of setkey, init, update and final calls on a handle of the KMAC algorithms registered with the Linux kernel and any number of descriptors, each MAC is that of SP 800-185 for the message of the descriptor, the digest size of the algorithm and the key which was set when the descriptor was initialised.", "quantifier": "all sequences of calls, keys, messages, numbers of descriptors, all eight algorithms", "why_tests_cant": "Interleavings of key changes and descriptors are unbounded.", "anchors": ["linux_kernel/leancrypto_kernel_kmac.c: lc_kernel_kmac256_init_alg, lc_kernel_kmac256_setkey, lc_kernel_kmac256_update, lc_kernel_kmac256_final, lc_kernel_kmac256_final_xof"]}
{"id": "C135", "title": "Key agreement with the ML-KEM of the kernel module", "statement": "With the key-agreement interface of the kernel module, initiator and responder following the documented protocol get the same shared secret of the length they ask for (1 to 160 bytes); wrong input lengths and outputs which do not fit are refused; the secret of an encapsulation is handed out at most once and wiped afterwards.", "quantifier": "all secret keys, random numbers, output lengths, buffer sizes and all sequences of calls on a handle", "why_tests_cant": "Sequences of calls are unbounded and the content of allocated memory is not under control of a test.", "anchors": ["linux_kernel/leancrypto_kernel_kyber.c: lc_kernel_kyber_set_secret, lc_kernel_kyber_gen_ct, lc_kernel_kyber_ss_local, lc_kernel_kyber_ss, lc_kernel_kyber_max_size"]}
{"id": "C136", "title": "Signatures with the interface of the kernel module", "statement": "A handle for ML-DSA or SLH-DSA of the kernel module takes exactly the keys of the length of its algorithm, holds no key after a refused one, signs only with a secret key and verifies only with a public key set last; the results do not depend on the way message and signature are split into segments, and a signature made is accepted.", "quantifier": "all nine algorithms, all keys, messages, splittings into segments and sequences of calls", "why_tests_cant": "Sequences of calls and splittings of the data are unbounded.", "anchors": ["linux_kernel/leancrypto_kernel_dilithium.c: lc_kernel_dilithium_sign, lc_kernel_dilithium_verify, lc_kernel_dilithium_set_pub_key_int, lc_kernel_dilithium_set_priv_key_int", "linux_kernel/leancrypto_kernel_sphincs.c: lc_kernel_sphincs_sign, lc_kernel_sphincs_verify, lc_kernel_sphincs_set_pub_key_int, lc_kernel_sphincs_set_priv_key_int", "slh-dsa/src/sphincs_api.c: lc_sphincs_pk_load, lc_sphincs_sk_load, lc_sphincs_pk_set_keytype_fast, lc_sphincs_pk_set_keytype_small"]}
{"id": "C137", "title": "Key agreement with the ML-KEM/X25519 hybrid of the kernel module", "statement": "With the hybrid key-agreement interface of the kernel module, initiator and responder get secrets of 1 to 160 bytes which are the beginning of the same bytes; a public key handed out belongs to the secret key in use; the secret of an encapsulation is handed out at most once and wiped afterwards; wrong input lengths are refused.", "quantifier": "all keys, random numbers, lengths of secrets and all sequences of calls on a handle", "why_tests_cant": "Sequences of calls are unbounded and the memory of a handle is not visible to a test.", "anchors": ["linux_kernel/leancrypto_kernel_kyber_x25519.c: lc_kernel_kyber_x25519_set_secret, lc_kernel_kyber_x25519_gen_ct, lc_kernel_kyber_x25519_ss_local, lc_kernel_kyber_x25519_ss, lc_kernel_kyber_x25519_max_size"]}
{"id": "C138", "title": "Hybrid signatures with the interface of the kernel module", "statement": "A handle for ML-DSA with Ed25519 of the kernel module takes exactly the keys of the length of its algorithm, holds no key after a refused one, signs only with a secret key and verifies only with a public key set last; the results do not depend on the way the data are split into segments.", "quantifier": "all three algorithms, all keys, messages, splittings into segments and sequences of calls", "why_tests_cant": "Sequences of calls and splittings of the data are unbounded.", "anchors": ["linux_kernel/leancrypto_kernel_dilithium_ed25519.c: lc_kernel_dilithium_ed25519_sign, lc_kernel_dilithium_ed25519_verify, lc_kernel_dilithium_ed25519_set_pub_key_int, lc_kernel_dilithium_ed25519_set_priv_key_int", "ml-dsa/src/dilithium_api.c: lc_dilithium_ed25519_pk_load, lc_dilithium_ed25519_sk_load, lc_dilithium_ed25519_sig_size"]}
{"id": "C139", "title": "Key agreement with the BIKE of the kernel module", "statement": "With the key-agreement interface for BIKE of the kernel module, initiator and responder get the same secret of 32 bytes; wrong lengths and outputs which do not fit are refused; the secret of an encapsulation is handed out at most once and wiped afterwards.", "quantifier": "all secret keys, random numbers, lengths, buffer sizes and all sequences of calls on a handle", "why_tests_cant": "Sequences of calls are unbounded and the memory of a handle is not visible to a test.", "anchors": ["linux_kernel/leancrypto_kernel_bike.c: lc_kernel_bike_set_secret, lc_kernel_bike_gen_ct, lc_kernel_bike_ss_local, lc_kernel_bike_ss"]}
{"id": "C140", "title": "Aligned memory in the kernel module", "statement": "Memory allocated by the kernel module has the alignment asked for, all bytes asked for are zero, nothing outside of the allocation is written, freeing gives back all pages, and lack of memory is reported.", "quantifier": "all sizes, alignments which are powers of two, minimum alignments and all allocators which keep the promises of kmalloc and alloc_pages", "why_tests_cant": "The address returned by an allocator is aligned by accident in most tests; sizes and alignments are unbounded.", "anchors": ["linux_kernel/posix_support.c: lc_alloc_aligned, lc_alloc_high_aligned, lc_free_high_aligned, lc_alloc_aligned_secure"]}
{"id": "C141", "title": "The generic allocator gives back what it has taken", "statement": "With the allocator used outside of Linux, a program which frees only what it holds keeps exactly its memory and never causes an invalid free; lack of memory is reported without effect; secure memory is locked.", "quantifier": "all sequences of allocations and frees and all answers of posix_memalign and mlock", "why_tests_cant": "Sequences of calls are unbounded, and failures of mlock depend on limits of the system.", "anchors": ["internal/src/memory_support.c: lc_alloc_aligned, lc_alloc_aligned_secure, lc_alloc_high_aligned, lc_free, lc_free_high_aligned"]}
{"id": "C142", "title": "Loading the kernel module is all or nothing", "statement": "Loading the kernel module registers all algorithms, each once, or fails with the error of a part and leaves nothing registered; unloading removes all of them and wipes the seeded random number generator.", "quantifier": "all combinations of parts whose registration fails, with all error codes", "why_tests_cant": "Failures of registration happen only with exhausted memory or clashing names; there are 2^26 combinations and any error codes.", "anchors": ["linux_kernel/leancrypto_kernel.c: leancrypto_init, leancrypto_exit"]}
{"id": "C143", "title": "The hash programs print and check the digests of the files", "statement": "sha256sum and the other hash programs print for each file the digest of its contents, whatever its size; a digest of a check file is accepted exactly if it is the digest of the file; no memory outside of the buffers is written.", "quantifier": "all files, all lists of files, all hash functions and all texts in a check file", "why_tests_cant": "Sizes and numbers of files are unbounded; the segments of 8 MB and more are rarely exceeded by tests, which also use one file per call.", "anchors": ["apps/src/hasher_app.c: hasher, hasher_files, mmap_file", "internal/src/binhexbin.c: hex2bin"]}
{"id": "C144", "title": "A line of a check file compares its file with its digest", "statement": "A line of a check file, in the usual or in the BSD style, makes the hash programs compare the file named in it with the digest in it; a line with the correct digest is accepted.", "quantifier": "all digests, all file names and all lines", "why_tests_cant": "Names and lines are unbounded, with any characters in any order.", "anchors": ["apps/src/hasher_app.c: hasher_checkfile"]}
{"id": "C145", "title": "The certificate checker compares key identifiers and addresses completely", "statement": "An IP address, subject or authority key identifier given to the certificate checker is accepted exactly if the certificate has the value it stands for, and the comparison stays within its buffers.", "quantifier": "all texts, all values in a certificate and all contents of the memory", "why_tests_cant": "Texts and values are unbounded and the memory behind a buffer is not visible to a test.", "anchors": ["apps/src/lc_x509_generator_checker.c: apply_checks_x509", "internal/src/binhexbin.c: hex2bin"]}
