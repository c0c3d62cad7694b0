# Formal model of leancrypto

The model is a Lean 4 development in `lean/Verif`. Every definition cites the
C file and lines in `/repo` that it transcribes. The code was read as text; it
was not built or run.

## Modelling conventions

* Bytes are `UInt8`/`BitVec 8`/`Nat < 256` depending on the module; buffers are
  `List`s. Fixed width C integers are `BitVec n` or `Nat`/`Int` with an explicit
  `% 2^n`, so wrap-around of unsigned arithmetic is part of the model. Where the
  absence of overflow is a proof obligation it is a stated theorem; where signed
  overflow or an access outside a buffer is possible it is a separate outcome
  (`none`).
* C state (context structs) is a Lean structure; a C function is a total Lean
  function on it. Loops are structural recursion over lists/counters or fuel
  with a proof that the fuel suffices.
* Primitives are parameters where the property does not depend on them: the
  1600-bit permutation, a hash, a block cipher with `D (E x) = x`, a XOF, a
  tweakable hash, a signature predicate. The theorem then holds for every choice,
  in particular for the real one; instantiations with the modelled primitives of
  the library are in the files `Inst.lean`. Where the primitive itself matters
  (AES, reductions, NTT tables, curve tables, calendars) it is modelled
  concretely.
* Specifications (FIPS/RFC definitions, Merkle trees, calendars, rounding, groups)
  are separate, small definitions that share no code with the model.
* A property violated by the code is stated in full, its negation is proved with
  a concrete witness, and the part that does hold is proved in a theorem with
  suffix `_partial`.
* Theorems that state properties are in the files `Props.lean` (or the file the
  manifest's theorem names point to), each with a docstring starting with the
  property id; cases that meet the hypotheses are `example`s beside them.

## Per property

| id | status | what is modelled | how it is proved |
|----|--------|------------------|------------------|
| C01 | proved | `Sha2`: contexts, update/final loops, padding, compression function, constants | context invariant (= partial block of the input so far), refinement to FIPS 180-4; tables checked against integer roots |
| C02 | proved | `Sponge`: keccak_absorb/squeeze on the byte state; Keccak-f concretely | context invariant, refinement to the FIPS 202 sponge |
| C03 | proved | `Sponge`: squeeze loop with offset | output stream invariant |
| C04 | partial | `AsconHash`: ascon_absorb_common, permutation | negation by witness and collision family; `_partial` for chunkings that do not complete a started block exactly |
| C05 | proved | `Kmac`: left_encode, right_encode, bytepad, encode_string | a decoder exists, hence injective |
| C06 | proved | `Kmac`: kmac.c contexts over the sponge model | refinement to SP 800-185 |
| C07 | proved | `Hmac`: hmac.c over any hash of the lc_hash interface, instantiated (`Hash/Inst`) | refinement to RFC 2104 |
| C08 | proved | `Kdf`: hkdf.c | induction over blocks |
| C09 | proved | `Kdf`: pbkdf2.c | induction over blocks and iterations |
| C10 | partial | `Kdf`: kdf_ctr.c, kdf_fb.c, kdf_dpi.c | induction over blocks; deviation by witness |
| C11 | partial | `Otp`: hotp.c, totp.c on 32 bit words | arithmetic; negation by witness |
| C12 | proved | `Memcmp`: memcmp_secure variants, alignment dispatch | induction, OR of XOR is 0 iff equal |
| C13 | proved | `Hex`: binhexbin.c | induction |
| C14 | proved | `Aes`: both C implementations, key schedule | kernel evaluation over 256 table entries, GF(2) linearity, refinement to FIPS 197 |
| C15 | partial | `Sym`: mode_cbc.c | induction over blocks and calls; 32 bit length mask is part of the model |
| C16 | partial | `Sym`: mode_ctr.c | as C15 |
| C17 | partial | `Sym`: mode_kw.c with out-of-bounds accesses as outcome | inverse steps, induction over the 6n steps |
| C18 | partial | `Sym/Chacha`: chacha20.c | refinement to RFC 7539 |
| C19 | partial | `Aead`, `AsconAead`: all AEAD files | stream algebra, refinement |
| C20 | partial | as C19 | acceptance as an iff |
| C21 | partial | as C19 | negation by forgery for every key; `_partial` for fixed AAD length |
| C22 | partial | `AsconAead`: ascon_aead common code for any rate and permutation | trace of absorbed blocks; decoder of the trace |
| C23 | proved | `Drbg/Hash*` | refinement over request sequences |
| C24 | proved | `Drbg/Hmac*` | refinement over request sequences |
| C25 | partial | `Drbg/Xdrbg*` | refinement; negation for XDRBG128 |
| C26 | partial | `Drbg/Cc20*` | refinement to key stream positions |
| C27 | partial | `Seeded`: seeded_rng.c as transition system with clock, pids, threads | invariant over all schedules; negations by traces |
| C28 | proved | `Asn1`: decoder VM as step function for arbitrary bytecode; the 14 bytecode arrays | invariant; static check of the arrays in the kernel |
| C29 | proved | as C28 | ranking argument |
| C30 | proved | `Asn1/Encode`: length encoder | case analysis, decoder round trip |
| C31 | partial | `Asn1/Encode`: integer and OID encoders | as C30; negations |
| C32 | proved | `Oid`: look_up_OID and the real table | binary search invariant, kernel check of the order |
| C33 | proved | `X509/Time*`: x509_decode_time, mktime64 | calendar specification by counting days |
| C34 | partial | `X509`: policy predicates and extension parsers | decision logic |
| C35 | partial | `Pkcs7`: chain walk, trust store lookup; signatures are a predicate | invariant along the chain; negation by witness |
| C36 | partial | as C35 | as C35 |
| C37 | proved | as C35 | ranking argument |
| C38 | partial | `Pkcs7`: digest caching and verification | invariant; negation by witness |
| C39 | partial | `X509`: identifiers | iff with the prefix relation |
| C40 | proved | `Pkcs7/Store`: compare-and-swap list, one shared access per step | invariant over all schedules |
| C41 | proved | `Kyber/Reduce`: int16/int32 reductions | exact integer arithmetic |
| C42 | proved | `Kyber/Ntt`, `Ntt`: loops of the transform | layer-wise Chinese remainder, divisibility by X^256+1 |
| C43 | proved | `Kyber/Pack` | bit level specification of ByteEncode |
| C44 | proved | `Kyber/Compress` | rounding specification, all residues by arithmetic |
| C45 | proved | `Kyber/Kem`, `Correct`, `Inst`: whole KEM | ring algebra over the NTT theorems, noise decomposition |
| C46 | proved | `Kyber/Kem*` | case analysis over the constant time selection |
| C47 | partial | `Kyber/Kem*` | negation |
| C48 | proved | `Kyber/Proto*` | composition of C45 |
| C49 | proved | `Kyber/Proto*` | composition with an AEAD law, proved for two AEADs |
| C50 | proved | `Kyber/Sample` | bit counts; prefix of the accepted candidates of the stream |
| C51 | partial | `Dilithium/Reduce` | exact integer arithmetic; end points by witness |
| C52 | proved | `Dilithium/Ntt*` | as C42 |
| C53 | proved | `Dilithium/Rounding` | exact arithmetic, uniqueness of the decomposition |
| C54 | proved | `Dilithium/Pack*` | bit level specification |
| C55 | proved | `Dilithium/Hint` | refinement to HintBitPack, injectivity |
| C56 | proved | `Dilithium/Scheme`, `Correct`, `Witness` | ring algebra, bounds of every attempt |
| C57 | partial | `DomSep`: message encoding | decoder; negations |
| C58 | partial | `Dilithium/Sample` | stream prefix; deviation by witness |
| C59 | partial | `Dilithium/Ctx`: the context as a state machine | invariant over call sequences; negations |
| C60 | proved | `Slh`: SLH-DSA with byte level addresses, six SHAKE parameter sets | Merkle tree induction, chain composition |
| C61 | proved | `Slh/Wots` | checksum arithmetic |
| C62 | proved | `Slh/Tree` | stack invariant |
| C63 | proved | `Curve/Model`, `Field`, `Encode`: five limb arithmetic | ring identities with bounds; primality by Lucas certificate |
| C64 | partial | `Hex` | bounds; overflow by witness |
| C65 | partial | `Pkcs7/Store` | negation for every store |
| C66 | partial | `Asn1/Props` | negation by certificate witnesses |
| C67 | partial | `Aes` | negation |
| C68 | proved | `Dilithium/Correct` | NTT theorems with bounds |
| C69 | proved | `Slh/Inst` | address bytes decoded again |
| C70 | proved | `Slh/Binding`: list of hash calls of a verification | induction along chains and trees, second preimage located in the list |
| C71 | proved | `Curve/Ladder`, `Props` | ladder refinement to RFC 7748 |
| C72 | proved | `Curve/Mont`, `Group`, `Orders`, `Card`, `Dh` | ladder = multiplication in Mathlib's group; group orders by kernel evaluation |
| C73 | proved | `Asn1/Ends` | step invariant |
| C74 | proved | `Dilithium/Attempts` | induction over attempts |
| C75 | proved | `Curve/Scalar*`: 21 bit limbs, carries as written | integer identities with bounds |
| C76 | proved | `Curve/Ge*`, `Edwards`: precomputed table, recoding, sliding windows, encodings | completeness and group law of the Edwards curve, table checked in the kernel |
| C77 | proved | `Curve/Eddsa*`: keypair, sign, verify | composition of C75 and C76 |
| C78 | partial | as C77 | complete characterisation of the result; negations by witness |
| C79 | proved | `Curve/GeX*`: x25519 key pairs | birational map, C72 and C76 |
| C80 | proved | `Bike/Gf2x`: base multiplication, Karatsuba on overlapping buffers, reduction | polynomial identities over F_2, quotient ring as Mathlib's monoid algebra |
| C81 | proved | `Bike/Gf2x`: inversion with its tables; `Bike/Kem`: key generation | Frobenius powers, idempotents of the ring, primitive root 2 modulo r |
| C82 | proved | `Bike/Kem`: index sampling, setting of bits | invariant of the sampling loop |
| C83 | proved | `Bike/Kem`: encapsulation, decapsulation | case split on the comparison; fixed point of the decoder |
| C84 | partial | `Bike/Kem`: syndromes, rotations, bit-sliced counters, thresholds | refinement to a bit-flipping specification (`Bike/Spec`); negation at level 3 |
| C85 | partial | `Hybrid/Model`: pairs of keys and secrets, KDF over their memory | ML-KEM round trip and X25519 agreement; negation of the documented derivation |
| C86 | proved | `Hybrid/Model`: the exchange functions | composition of the encapsulations, KMAC specification |
| C87 | proved | `Hybrid/Model`: IES over an abstract AEAD | AEAD law with the agreed key |
| C88 | proved | `Hybrid/Composite`: both signatures with a context object | domain separation lemma for both parts, case analysis of the codes |
| C89 | proved | `Hybrid/Composite`: init/update/final | induction over the pieces, then as C88 |
| C90 | proved | `Asn1/Encoder`: bytecode interpreter with actions as parameters | abstract states (pc, jump stack, levels) computed from the bytecode and checked closed by the kernel, soundness by induction over the steps; forest invariant for output and levels |
| C91 | proved | `X509/CertModel`: all actions of generator and parser on the models of encoder and decoder | the encoder is followed on trees (`CertOut`), the decoder on the same trees (`CertReadWalk`, `CertExtRead`); both simulations are general (`EncSim`, `Reach`) |
| C92 | proved | as C91 | fold over the attributes, `CertRead` |
| C93 | proved | as C91, `gmtime` by counting | calendar arithmetic, `CertTime` |
| C94 | proved | as C91 | position of the signature in the serialisation, `gen_out` |
| C95 | partial | as C91 | parser run is total on generated certificates; negation by a witness evaluated in the kernel |
| C96 | partial | as C91 | consequence of C91, negation by a witness |
| C97 | partial | `P7/Model`: actions of generator and parser on the models of encoder and decoder; signature, hash and certificate parser are parameters | encoder and decoder followed on the same trees (`P7/Out`, `P7/Walk`, `P7/Read`) by the general simulations; negation by a witness |
| C98 | partial | as C97 with `Pkcs7/Model` for the digest of the verifier | `digest_ok`; negations by witnesses |
| C99 | partial | as C98 with the whole of `lc_pkcs7_verify` | unique key found, signature valid, loop over the signers; negation by a witness |
| C100 | partial | as C97 | walk of the attribute grammar; the negation exhibits a state that recurs apart from the record of the model (`Asn1/GenLog.cycle`) |
| C101 | proved | `P7/Model` parser actions on the decoder | invariant of the actions (`PInv`) carried through every run |
| C102 | partial | as C101 with `Pkcs7/Model` for the verifier | C104 on generated messages; negation by two concrete messages |
| C103 | partial | as C101 | invariant `PInv`; negation by a concrete message of two signers |
| C104 | proved | as C101 | static check of the bytecode that records which calls lie inside the slice of which other call (`Asn1/Nest`: `closed`, sound by `decode_nest`), then an invariant along the record of calls (`P7/Signed.jinv`) |
| C105 | proved | `X509/CertRead` parser actions on the decoder model | simulation: the run of the decoder inside of the element is a run on the bytes of the element alone (`Asn1/Window.step_win`, `Asn1/WinRun.run_win`); static checks of the bytecode on the order of the calls (`X509/SignedRun`) |
| C106 | proved | as C105 | invariant `Within` of the parser actions along the run on the bytes of the element |
| C107 | proved | `Drbg/FkeModel` on the cSHAKE and Keccak models | refinement to `Drbg/FkeSpec` by induction over the blocks and the requests, on C07 streaming of cSHAKE and the Keccak theorem |
| C108 | partial | as C107 on the KMAC model | as C107 |
| C109 | partial | as C107, buffer bytes as `Option` | induction over the blocks; negation for every state |
| C110 | partial | as C107 | induction over the blocks on the specification |
| C111 | proved | as C107 | SP 800-185 encodings are injective, then the length byte |
| C112 | partial | as C107 | refinement with the zero key |
| C113 | partial | `Api/Model`: objects as type and union memory | case analysis of the `else if` chains on the sizes of the standards (`stdSize`); negations with the calls that fail |
| C114 | proved | `Api/Model`: one table row per function with its NULL checks, type checks, switch and outputs | generic theorem for rows in which every input is compared, all rows checked by evaluation |
| C115 | partial | as C113, `memcpy` from NULL is a fault | case analysis; negation for every parameter set |
| C116 | partial | as C113 and C114, signature implementations as parameters | inversion of the verification functions; negation for all implementations |
| C117 | proved | as C113, DER decoder as a parameter | case analysis over the two callbacks |
| C118 | partial | `Acc/Model`: the function with `strtok_r` and `strtoul` | `strtok_r` refines splitting the text (`parts`), induction over the rounds; all bytes by evaluation |
| C119 | partial | as C118, with `snprintf` | round trip through C118; negation for all addresses |
| C120 | partial | `Acc/MapModel`: the four tables and six functions, `names` as memory of pointers | table search refines the names of RFC 5280, induction over the series of calls and over the table |
| C121 | partial | `Acc/MapModel`: one case per function | case analysis over setters and getters |
| C122 | partial | `Acc/MapModel`: the table and its search functions | all types and texts by membership in the table, rows by evaluation |
| C123 | partial | `Acc/P7Model`: linked lists in a heap, walks with a step count, release | chain predicate, induction over the list and over the series of calls; circle by induction over the step count |
| C124 | proved | `Acc/P7Model` on `Acc/MapModel` | through C122 for given hashes, membership in the table for standard ones |
| C125 | partial | `Acc/P7Model`: `setData` | induction over the calls |
| C126 | partial | `Acc/OidModel`: `sprint_oid` with the buffer as list | inverse of the base 128 encoding by strong induction, induction over the arcs; memory by induction over the rounds |
| C127 | partial | `SelfTest/Model`: marks and level, self tests as lists of uses; two threads as a transition system | marking search: induction over the number of algorithms that are not marked, invariant over the series of calls |
| C128 | partial | `Seeded/EntropyModel`: the loops over a list of outcomes of the system | induction over the outcomes; bytes written are a prefix of the bytes delivered |
| C129 | partial | `Mem/Model`: the allocator for Linux over blocks, mappings, descriptors, headers | invariant over sequences of calls: resources held are those of the pointers in use |
| C130 | proved | `Cpu/Model`: the selectors over tables of pointers, the platforms of the build | case analysis over features and built implementations, lemma on filling NULL pointers |
| C131 | partial | `Cpu/Model`: detection from cpuid, AT_HWCAP and the feature register; the variable with its three functions | bit-wise characterisation; induction over sequences of calls |
| C132 | partial | `AsconAead/KernelModel`: scatterlists as lists of segments, the walks over them, requests and handles | byte-wise absorption as common refinement of the walk and of lc_ascon_aad; the pieces of the walk as calls of the streaming interface (C22) |
| C133 | partial | `Kernel/HashModel`: descriptors with the pointer to the state, buffers of exported states | refinement of an abstract machine holding messages, induction over sequences of calls |
| C134 | proved | `Kernel/HashModel`: handle with keyed context, descriptors | refinement of an abstract machine holding keys and messages, induction over sequences of calls, C06 |
| C135 | partial | `Kernel/KyberModel`: handle, requests with lengths and room, memory content as parameter | case analysis; counting invariant by induction over sequences of calls |
| C136 | partial | `Kernel/SigModel`: handle with key kind, key type selection by length, walk over segments, abstract streaming signature scheme | refinement of a handle holding a key, induction over calls and over segments |
| C137 | partial | `Kernel/HybridModel`: handle, requests with lengths, abstract hybrid KEM | case analysis; invariant and counting by induction over sequences of calls |
| C138 | partial | `Kernel/SigEdModel`: key setting of the hybrid on top of `Kernel/SigModel` | refinement of a handle holding a key, induction over calls |
| C139 | partial | `Kernel/BikeModel`: handle, requests with lengths and room, abstract KEM | case analysis; invariant and counting by induction over sequences of calls |
| C140 | partial | `Kernel/AllocModel`: size asked, order of pages, abstract allocator with the promises of the kernel | arithmetic of powers of two; divisibility |
| C141 | partial | `Mem/GenericModel`: heap, locked ranges, answers of the system | invariant (heap = memory held) by induction over sequences of calls |
| C142 | partial | `Kernel/LoadModel`: registrations with labels, exit functions, answers of the kernel | induction over the list of registrations, then one case per part |
| C143 | partial | `Apps/HasherModel`: segments of the file, list of files, comparison of texts; `Hash/Inst`, `Hex/Model` | induction over the rounds of the loop; correctness of the hashes and of the conversion, proved elsewhere |
| C144 | partial | `Apps/CheckLineModel`: parser of a line | induction over the search for the separator; list lemmas |
| C145 | partial | `Apps/CheckerModel`: option text, value in the certificate, buffer with what was in memory; `Hex/Model` | case analysis over the lemmas of the hexadecimal conversion |

### What is missing or false for the partial properties

* **C04** The code violates the claim: an update that completes a started block exactly skips the permutation. Proved for all chunkings without such a cut; counterexample and a collision family proved.
* **C10** Counter and feedback mode proved in full. Double pipeline mode proved for a non-empty label; with an empty label the code uses A(0)=0^h (deviation proved).
* **C11** Proved for at most 9 digits. For 10 digits the claim is false (modulus reduced mod 2^32, witness proved); from 32 digits on the code divides by zero.
* **C15** Proved for every block cipher and AES, any number of block aligned calls of less than 4 GiB each, unlimited total.  False for a single call of 2^32 bytes or more (32 bit mask in len & ~(AES_BLOCKLEN-1)): proved that nothing is encrypted.
* **C16** One call: SP 800-38A for all inputs, round trip, counter never reused.  Chunked calls proved for chunks that are multiples of 16 except the last; for other chunks the claim is false (witness proved).
* **C17** For plaintexts of 16 bytes or more, multiple of 8, below 4 GiB: exact SP 800-38F wrapping, unwrap accepts exactly the wrapped strings.  Outside this range the claim is false and the failures are proved (unauthenticated acceptance below 24 bytes, memory overrun for unaligned lengths).
* **C18** RFC 7539 for every input in one call and for chunks of multiples of 64 bytes; false for other chunks (witness proved).
* **C19** Round trip for every key, nonce, AAD, plaintext and chunking: Ascon (any permutation), cSHAKE, KMAC (tags of 4 bytes or more), AES-CBC/CTR with HMAC/KMAC (block aligned calls; tag at most the MAC size).  hash_crypt with the Hash DRBG (tags up to the digest size; setting a key twice reseeds instead of starting afresh, proved).  False for AES-CBC AEADs on plaintexts that are not whole blocks (proved).
* **C20** Exact acceptance for Ascon, cSHAKE (all tag lengths) and the others within their tag length range.  False outside: KMAC with tags of 1-3 bytes compares uninitialised memory, HMAC ignores tag bytes beyond the digest (proved).
* **C21** False for all encrypt-then-MAC AEADs: bytes can be moved from the ciphertext to the AAD with the tag unchanged, a forgery without the key (proved).  Holds for fixed AAD length, and for Ascon up to the confusion of C22.
* **C22** Streaming equals one shot for every chunking (full).  The absorbed strings are distinct for distinct inputs except that the empty plaintext collides with one zero block, for every key (proved, with the resulting forgery).  SP 800-232 conformance for whole blocks and nonempty AAD; deviations proved otherwise.
* **C25** Full for XDRBG256 (SHAKE-256). For XDRBG128 the code violates the claim because of the Ascon hash defect: proved by a seed collision and by a deviating generate; holds for requests without an exactly completed block.
* **C26** Exact behaviour for all request sequences; rekeying uses fresh key stream for requests below 2^38 - 32 bytes. False for 2^38 bytes (32 bit block counter wraps; the new key is the old key xored with output bytes): proved.
* **C27** Proved for every interleaving of any number of threads, forks and failures, given a clock that does not run backwards and is never 0, and fresh process ids; with T threads the byte bound grows by T-1 requests. Without these conditions the claim is false: unseeded output when the clock reads 0, shared state when a pid is reused, byte bound exceeded by a race (all proved).
* **C31** Proved for positive values and at least three bytes of space. The space accounting is wrong for 0, a refused call writes behind a buffer of less than two bytes, and the OID encoder overwrites its tag (all proved).
* **C34** Predicates proved exact, except that a bound equal to the epoch is treated as absent (proved) and that the criticality of extensions is not tracked correctly (proved).
* **C35** False: a self-signed CA certificate as signer is accepted against any trust store (witness proved). Proved for all other signers: verified chain to an anchor.
* **C36** False: the link to the root is not verified (forged CA certificate admitted, proved). Proved: all other links are verified.
* **C38** Proved for a message that has not been verified before. False for a second verification of the same message object (cached digest, witness proved).
* **C39** False: only the length of the second identifier is used, so a longer first identifier with that prefix compares equal (proved); serial and issuer are concatenated without a boundary (collision proved).
* **C47** The code violates this: the comparison after decode and encode always agrees because neither reduces modulo q; proved that no key of the right length is refused.
* **C51** Exact on the whole documented range except at one end point each: montgomery_reduce(2^31 q) = q is outside (-q,q), and reduce32 reaches 6283008, one more than documented; both proved.
* **C57** For the standard modes the hashed bytes are M' of FIPS 204/205 and determine prehash, context and message; long contexts are refused; accepted prehashes are exactly those with a digest of 2 lambda bits. As stated the claim is false, proved with witnesses: the internal mode hashes the bare message, composite and ordinary signatures are not separated, and a composite operation with an unsupported prehash succeeds without naming the hash.
* **C58** SampleInBall and RejBoundedPoly for ETA=2 are proved for every stream. The C code deviates from FIPS 204 when RejNTTPoly or RejBoundedPoly with ETA=4 has to squeeze again: the deviation is proved with a witness, and the _partial theorems cover every stream that needs no refill.
* **C59** Proved for every sequence of calls that keeps to the documented rule (one key until the expanded matrix is dropped). Without the rule the claim is false: the matrix of the first key is used silently, and with a larger parameter set the buffer is read beyond its end (proved). Also: init/update/final equals the one-shot call.
* **C64** False for text of odd length and binlen <= hexlen/2: exactly one byte is stored past the end (proved). Holds for even length and for hex2bin_alloc.
* **C65** The code violates this: proved for every store and position that the re-added certificate ends up pointing to itself.
* **C66** The code violates this: witnesses proved for the certificate grammar.
* **C67** The property is false for the code: aes_setkey returns 0 for every invalid length and keeps the previous key; the negation is proved.
* **C78** verify_value characterises the result completely. The claim is false in two ways, both proved with witnesses: ge25519_p2_to_p3 does not normalise T and ge25519_has_small_order uses -X without Z, so that differences of order 8 are refused although the cofactored equation holds, and one of four unrelated equations in the projective coordinates can make the check pass. The latter cannot be hit with SHA-512 except by chance.
* **C84** Levels 1 and 5 without restriction. At level 3 the claim is false: the counters have eight bits, the threshold can exceed 128, and then positions with few unsatisfied checks are flipped (decode_L3_wraps gives such a ciphertext for every key); decode_exact_L3_partial covers syndromes of weight up to 21603. The first syndrome of an honest ciphertext has weight at most D * T = 20497.
* **C85** Agreement is proved. The documented derivation is false: kyber_x25519_ss_kdf passes sizeof(struct lc_kyber_ss) = 32 bytes as key, so the X25519 secret is not used (kem_claim_false, x25519_key_ignored).
* **C95** False: serial number and issuer together of more than 192 bytes are generated but never accepted. Proved under Fits.
* **C96** False: constraints that are not critical are reported as critical, since x509_basic_constraints_ca overwrites the critical flag of the extension with the CA flag. Proved for critical constraints with path length 1 to 16 and for none.
* **C97** Hypothesis Ready: signers with subject key identifiers that fit, data type OID_data, a common hash function, known algorithms, certificates that are SEQUENCEs of less than 2^24 bytes, attribute sets {content type, message digest} with or without signing time, or one signer without attributes; signing succeeds. False otherwise: a message with a signer without identifier beside one with identifier is generated and rejected by the parser.
* **C98** Hypothesis Ready: signers with subject key identifiers that fit, data type OID_data, a common hash function, known algorithms, certificates that are SEQUENCEs of less than 2^24 bytes, attribute sets {content type, message digest} with or without signing time, or one signer without attributes; signing succeeds. False otherwise: of two signers without attributes the second signs a buffer of zeros; of two signers with different hash functions the second signs a digest made with the hash function of the first.
* **C99** Hypothesis Ready: signers with subject key identifiers that fit, data type OID_data, a common hash function, known algorithms, certificates that are SEQUENCEs of less than 2^24 bytes, attribute sets {content type, message digest} with or without signing time, or one signer without attributes; signing succeeds. Hypothesis Trusts on the verifier; signatures are assumed to verify under the key of the signer. False for an empty embedded content, which is dropped and answered with -ENODATA.
* **C100** False: with a set that lacks the message digest the encoder of the attributes runs forever, because aa_set_applied gets a bit that aa_set does not have. Proved to return for the two usual sets.
* **C102** False: attributes in the alternative aaSequence of the grammar are evaluated but not kept for the signature; the signing time in it decides about the validity of the certificate. Proved for messages of lc_pkcs7_generate (hypothesis Ready of C97); for signers with attributes in the set see C104.
* **C103** False: raw_skid, raw_serial and raw_issuer are not cleared between signers; a SignerInfo of version 3 with issuerAndSerialNumber takes the subject key identifier of the signer before it. Proved: the identifier is made of bytes of the message.
* **C108** Requests with a last block of one to three bytes are excluded: false, c109_negation.
* **C109** False for the KMAC DRNG if outlen mod 208 is 1, 2 or 3: 0 is returned and the last bytes are not written.
* **C110** KMAC DRNG: only for lengths that are written completely (C109).
* **C112** False: the zero key is used. After a seed the outputs are those of the specification (C107, C108).
* **C113** False for shared secrets (always loaded as the highest parameter set) and for keys of the fast SLH-DSA parameter sets (loaded as small ones); the negations show the calls that fail with the reloaded object. With *_set_keytype_* SLH-DSA keys are restored.
* **C115** False for ML-KEM with X25519: the lengths are checked twice and the pointers not at all.
* **C116** False: the parameter set is taken from the length of the key; the algorithm only selects the scheme and, for SLH-DSA, small or fast.
* **C118** Proved for all IPv4 addresses. False otherwise: no IPv6 address in its standard form is accepted, and texts that are no addresses are.
* **C119** Proved for all IPv4 addresses. False for IPv6: the byte 8 is printed in the place of the byte 9. Addresses shorter than four bytes are read beyond their end, cut off texts are not reported.
* **C120** Proved for the two setters. False for lc_x509_name_to_keyusage (keyAgreement is missing), lc_x509_name_to_eku (misspelled and differing names) and the getters (they write through pointers behind the reference as soon as two flags are set).
* **C121** Proved except that a NULL pointer with a length is accepted as a name component.
* **C122** False for ML-DSA-87 with Ed25519, which has no row in the table; ML-DSA-87 with Ed448 is named ML-DSA44-ED448. Everything else is proved.
* **C123** Proved if every certificate is added once, is not linked yet and was allocated with lc_alloc_aligned. False otherwise: a repeated certificate makes the list circular, and the release frees the certificates of the caller.
* **C125** Data as claimed; false for the embedding, which no later call undoes.
* **C126** Proved for second arcs below 40 and further arcs below 2^64. False otherwise: 2.40 is printed as 3.0, larger arcs are printed modulo 2^64.
* **C127** Proved for one thread and fewer than INT_MAX calls of lc_rerun_selftests without lc_disable_selftest. False otherwise: a second thread uses the algorithm while the first one still tests it; after a disabling, tests run that should not and the other way round.
* **C128** Proved for Linux, BSD, Darwin and ESDM. False in the Linux kernel if the Jitter RNG fails without FIPS mode (half of the reported bytes are not written); a stale errno makes the Linux loop run on where it would report.
* **C129** Proved for sizes below 2^64 - 32, alignments up to 32, mlock failing with EPERM or EAGAIN only, and memfd_secret not vanishing while its memory is in use. False without each of these conditions. Threads are not modelled.
* **C131** Switching is proved on all platforms. Detection is exact on 64 bit ARM and on x86 with cpuid leaf 7. False on x86 without leaf 7, on 32 bit ARM (bits of 64 bit ARM are used) and on RISC-V with vector but without bit manipulation instructions. Whether the operating system has enabled the AVX state is not checked by the code.
* **C132** Encryption is proved for all segmentations. Decryption is proved for requests whose cryptlen leaves out the tag; with the kernel convention the code reads behind the source (negation proved). Ascon-Keccak 512 cannot be keyed (negation proved).
* **C133** Proved for every hash implementing the streaming interface (instance SHA-3) if states are imported only to the descriptor they come from. False for import to another descriptor: the copied memory contains the pointer to the state of the first one (negation proved).
* **C135** Agreement is proved for secrets of at least 4 bytes and a KEM which decapsulates correctly; single use and wiping for all sequences of calls. False for secrets of 1 to 3 bytes, for remote keys of a wrong length, for ciphertexts which do not fit, and max_size is too small for ML-KEM-512 and -768 (negations proved).
* **C136** Proved for all sequences of calls with the lengths as used by the testers of the repository (src_len covers signature and message). With the lengths of the kernel API (src_len: signature, dst_len: message) the message is ignored by a verification (negation proved). Sources shorter than src_len are not covered.
* **C137** Agreement, public key and single use are proved without restriction for a KEM which decapsulates correctly. Only the bytes handed out are wiped, remote keys of a wrong length are not refused, and max_size is too small with ML-KEM-512 and -768 (negations proved).
* **C138** Proved for all sequences of calls except that a refused key shorter than the Ed25519 part leaves the old key in use (negation proved). The lengths of a verification are those of the testers of the repository, as for C136; sources shorter than src_len are not covered.
* **C139** Agreement, single use and wiping are proved without restriction for a KEM which decapsulates correctly. A ciphertext longer than dst_len is cut without error and remote keys of a wrong length are not refused (negations proved).
* **C140** lc_alloc_aligned is proved for all alignments and sizes up to 2^63, where __roundup_pow_of_two is defined. lc_alloc_high_aligned ignores the alignment: proved up to a page, negation proved for two pages.
* **C141** Heap ownership proved by induction over all sequences of calls in which mlock succeeds or is not permitted. The range given to mlock is never the memory returned, and another error of mlock frees the pointer variable and leaks the memory (negations proved).
* **C142** Success and unloading are proved for all answers. After a failure nothing is left registered if a part up to the first hybrid signature fails; whenever a later part fails, the hybrid signatures stay registered (negation proved for all such cases).
* **C143** Proved for the first file, for reading in segments and for the comparison. The hash is not initialised before the second file, so its digest is wrong, and texts of odd length from 129 characters overflow the buffer by one byte (negations proved).
* **C144** Proved for usual lines without an equals sign between blanks. BSD-style lines are never accepted (negation proved for all such lines), and a usual line whose name has an equals sign between blanks can be ignored (negation proved).
* **C145** Proved for texts of even length which fit into the buffer. Texts of odd length are accepted for shorter values, longer ones write or read behind the buffer (negations proved).

## Deviations of the code

Proved in the model (theorem names in MANIFEST.json under the property given):

* Ascon hash: an update that completes a started block exactly skips the
  permutation; chunking changes digests, and collisions follow (C04). XDRBG128
  inherits this (C25).
* KDF in double pipeline mode with an empty label starts with the wrong A(0)
  (C10). HKDF refuses the last allowed block, 255*HashLen (C08).
* HOTP with 10 digits reduces modulo the wrong number, from 32 digits on it
  divides by zero (C11).
* hex2bin writes one byte behind the buffer for odd lengths (C64).
* Certificates: an epoch bound counts as absent; criticality is not tracked; a
  self-signed signer is accepted against any trust store; the link to the root of
  an added intermediate is not verified; a second verification of a message object
  uses the cached digest; key identifiers are compared as prefixes; re-adding a
  certificate destroys the list (C34-C39, C65). The decoder accepts certificates
  without validity dates and trailing bytes (C66).
* ASN.1 encoders: space accounting for 0, store behind a short buffer, OID encoder
  overwrites the tag (C31).
* aes_setkey accepts every invalid length and keeps the old key (C67). CBC and KW
  mask the length to 32 bits; CTR and ChaCha20 lose the position between calls
  that are not block aligned; KW accepts short inputs without authentication
  (C15-C18).
* AEADs: the boundary between AAD and ciphertext is not authenticated (all
  encrypt-then-MAC modes), empty tags are always accepted, KMAC tags of 1-3 bytes
  compare uninitialised memory, HMAC ignores tag bytes beyond the digest, CBC loses
  a partial last block (C19-C21). Ascon: an empty plaintext and a zero block get
  the same tag; SP 800-232 is followed for whole blocks only (C22).
* DRBGs: no reseed interval, no check for a missing seed; the ChaCha20 DRNG reuses
  key stream after 2^38 bytes; the seeded RNG returns unseeded output if the clock
  reads 0 and shares state after pid reuse (C23-C27).
* ML-KEM: the modulus check of the encapsulation key never refuses (C47); IES
  cannot be used with Ascon-AEAD128 and Ascon-Keccak-512 (C49).
* ML-DSA: two documented ranges are off by one, `-fwrapv` is needed (C51); refills
  in RejNTTPoly and RejBoundedPoly(eta=4) lose candidates (C58); the expanded matrix
  is reused for other keys and read beyond its end (C59); composite and internal
  modes are not domain separated (C57).
* Ed25519 verification: the final small order check works on coordinates of which
  `T` and `-X` are not normalised; order 8 differences are refused and four
  coincidences accepted (C78). fe25519_sq2 needs smaller limbs than fe25519_sq (C63).
* **BIKE, decoder**: `bike_decode.c:332` tests `BGF_DECODER`, the header defines `LC_BIKE_BGF_DECODER`; the
  `continue` of the BGF decoder is never compiled and the black step is commented out, so the decoder is not the
  BGF decoder of the BIKE specification (gray step in each of five iterations, no black step).  The model follows the code.
* **BIKE, level 3**: `LC_BIKE_SLICES` is 8, thresholds reach 145; the subtraction wraps and positions with at most
  threshold - 129 unsatisfied checks are flipped (`decode_L3_wraps`).
* **BIKE, error codes**: `bike_decode` returns 0 whatever happened, `lc_bike_dec` ignores the result of `function_h`
  (bike_kem.c:372).
* **BIKE, clearing**: `sizeof(*secure_buffer)`, `sizeof(*wlist_temp)` and `sizeof(*wlist)` clear one element of the arrays only.
* **BIKE, padding**: the padding bits of a received public key or `c0` are not masked; the reduction drops product bits
  from 2r on, so arithmetic on such input is not exact.  The theorems assume clear padding.
* **Hybrid KEM**: `kyber_x25519_ss_kdf` uses `sizeof(struct lc_kyber_ss)` as key length, so the X25519 secret does not
  enter the secret of enc_kdf/dec_kdf nor the key of the hybrid IES, against the documentation (C85, C87).
* **Hybrid IES**: enc_init sets the AEAD up with `lc_aead_dec_init`; enc ignores the result of `lc_aead_encrypt`.
* **Composite signatures**: the one-shot calls set `composite_ml_dsa` and nothing resets it; a later stream with the same
  object signs another transcript than a fresh verifier checks (`past_changes_transcript`). `sign_final` and
  `verify_final` drop user context and hash choice (`second_signature`); after an ML-DSA error the user context stays
  set to the identifier. A stream that is abandoned leaves the message hash set up for another algorithm (`wrongHash`).
* **ASN.1 encoder**: `jsp == ws->max_stack` compares the jump stack with the buffer size instead of its number of entries (`jump_stack_overrun`);
  level 0 is only set up by a match that is not a jump (`first_jump_uninitialised`). Not reachable with the shipped grammars (C90).
* **X.509 generator and parser**: basic constraints that are not critical are parsed as critical: `x509_basic_constraints_ca` (x509_cert_parser.c:685)
  overwrites `extension_critical` with the CA flag, so the policy check `ca_pathlen & LC_KEY_CA_CRITICAL` cannot fail (C96).
  A serial number and issuer of more than 192 bytes together give a certificate the own parser rejects (C95).
  Further, visible in the model: every extended key usage bit gets an extension of its own, so `extKeyUsage` occurs several
  times in a certificate; name values are written as OCTET STRING (tag 4 = the number of the action); all attributes of a name are in
  one SET that is not sorted; `critical FALSE` is written; key usage and composite signatures are BIT STRINGs without the
  octet for unused bits; path length 16 is not written; a `valid_from` of 0 with another `valid_to` fails with -EFAULT.
* **PKCS#7 generator**: `lc_pkcs7_generate` does not return if the attribute set of a signer lacks the message digest (the check for it
  comes after the encoder of the attributes, which waits for `aa_set_applied == aa_set` while the message digest is forced; C100).
  Two signers without attributes: the second signs 64 zero bytes (C98).  Two signers with different hash functions: `pkcs7_initialize_ctx`
  asks for the hash of the first signer only, the second signs a digest of the wrong hash function (C98).  A signer without subject key identifier beside one
  with: the parser rejects the message (C97).  An empty embedded content is dropped (C99).  Further, visible in the model: the
  `issuerAndSerialNumber` has the subject of the certificate in place of the issuer; `subject_attrib_processed` is not reset between signers;
  the content is written with tag 0x0e and the content type attribute with tag 0; the OID of the content is `data` whatever
  `data_type` is; `pkcs7_get_digest` cannot return without a hash, so the branch that signs the data itself is never taken.
* **PKCS#7 parser**: attributes given as `aaSequence` (`[2] EXPLICIT SEQUENCE OF`) are evaluated like signed ones but are not part of what is
  hashed: the signing time that `lc_pkcs7_verify` checks against the validity of the certificate can be chosen by anyone (C102).  `raw_skid`,
  `raw_serial`, `raw_issuer` stay from one `SignerInfo` to the next: the choice `issuerAndSerialNumber` in version 3 is accepted and looked up with the
  identifier of the signer before (C103).

* KMAC DRNG: a request whose last block has 1 to 3 bytes returns 0 and leaves these bytes of the buffer as they were, because `lc_kmac_final_xof` refuses
  less than 4 bytes without a return code (C109, for every state).
* cSHAKE and KMAC DRNG: output is returned without a seed, from a key of zeros (C112).  Additional input beyond 84 bytes is dropped without
  an error (`c111_cut`).  The comment in the source asks for a zero string of 512 bits as key of the first seeding and for blocks of 1088 * 100 - 512 bits;
  the code uses the empty string and 2 * 1088 - 512 bits.  With the values of the code the model reproduces the self test vectors (`#guard`).

* The parameter set of a certificate's key is taken from the length of the key only: a key labelled ML-DSA-87 (or SLH-DSA 256) that has the length of an
  ML-DSA-44 (128) key is used with ML-DSA-44 (C116, `c116_negation`, `c116_negation_slh`).
* `lc_kyber_x25519_{sk,pk,ct,ss}_load` test the two lengths instead of the two pointers and read through NULL if the lengths are right (C115).
* `lc_kyber_ss_load` and `lc_bike_ss_load` always yield the highest parameter set, `lc_sphincs_{sk,pk}_load` always the small one: a stored `tk` of an
  ML-KEM-512/768 key exchange is refused by the `initiator_ss` functions, and signatures of fast SLH-DSA keys by the verification functions unless
  `set_keytype_fast` is called (C113).
* The unused bits byte of the BIT STRINGs in composite keys and signatures is not looked at (`c117_unused_bits`): their encoding is not unique.

* `lc_x509_dec_san_ip` prints `ip[8]` twice and never `ip[9]`: IPv6 addresses that differ in this byte look the same (C119, `c119_negation`). It also
  reads four bytes of shorter addresses, which the certificate parser accepts (`c119_negation_read`).
* `lc_x509_enc_san_ip` expects sixteen groups of one byte and so refuses every IPv6 address in standard form; it accepts words and additional numbers (C118).
* `lc_x509_cert_get_eku` and `lc_x509_cert_get_keyusage` store with `*names[num++]` instead of `(*names)[num++]`: with two flags they write through a pointer
  that lies behind the caller's variable (C120, `c120_negation_get`).
* `lc_x509_name_to_keyusage` lacks `keyAgreement`, `lc_x509_name_to_eku` has `TImeStamping` and `OCSPSignign` (C120).
* A name component may be set to NULL with a length (C121).
* ML-DSA-87 with Ed25519 has no row in `x509_algo_table`, ML-DSA-87 with Ed448 carries the name of ML-DSA-44 (C122).

* `pkcs7_add_cert` does not look for the certificate it appends: with `lc_pkcs7_set_signer` called twice for one certificate (two hashes, say) the list becomes
  circular; the next call does not return and the release uses freed memory (C123, `c123_negation_signer`, `c123_negation_twice`).
* `lc_pkcs7_message_clear` frees the certificates that the caller of the generator owns, also such on the stack (C123, `c123_negation_owner`).
* `lc_pkcs7_set_data` without the flag leaves an earlier embedding in force (C125, `c125_negation`).

* `sprint_oid` splits the first byte by 40 also above 119 and does not expect a first number of several bytes: 2.40 is printed as 3.0, 2.999 as 3.16.55;
  arcs of 2^64 and more are printed modulo 2^64 (C126).

* `LC_SELFTEST_RUN` marks an algorithm as tested before its test runs: a second thread uses it while the test is still running, and gets results although the
  test may fail afterwards (C127, `c127_negation_threads`).
* `lc_disable_selftest` sets the level to 0, which differs from the mark of every algorithm that has been tested: it triggers tests, and a following
  `lc_rerun_selftests` does not (C127, `c127_negation_disable`).

* In the Linux kernel `get_full_entropy` ignores an error of the Jitter RNG without FIPS mode and reports twice the number of bytes it has written; the rest
  of the seed is uninitialised memory (C128, `c128_negation_kernel`).
* `__getrandom` examines `errno` after calls that succeeded; a value left from an earlier interruption makes it ask an empty source without end (C128,
  `c128_negation_errno`).

* `alloc_aligned_secure_internal` passes the start of the block to `lc_free` when `mlock` fails with an error such as ENOMEM (limit on locked memory);
  `lc_free` takes the 32 bytes before the block for its header: invalid free, and the block leaks (C129, `c129_negation_mlock`).
* `lc_free_internal` decides by a global flag whether memory was mapped; after a later ENOSYS mapped memory is passed to `free` (C129,
  `c129_negation_enosys`).
* The allocator for Linux adds 32 to the size without a check: a small block is obtained for sizes close to 2^64 (C129, `c129_negation_overflow`).
* `lc_alloc_high_aligned` on Linux does not meet alignments above 32, the pointer is 32 bytes behind an aligned address (C129,
  `c129_negation_align`).

* `lc_cpu_feature_available` on x86 overwrites the maximum cpuid leaf with the signature of leaf 1 before comparing it with 7; leaf 7 is asked on processors
  without it, whose answer is not a feature word (C131, `c131_negation_leaf`). It does not check either whether the operating system has enabled the AVX state.
* cpufeatures_arm32.c uses the AT_HWCAP bits of 64 bit ARM: HALF is taken for NEON and IDIVA for SHA3 (C131, `c131_negation_arm32`).
* cpufeatures_riscv_auxv.c reports bit manipulation instructions if there are vector instructions (C131, `c131_negation_zbb`; known, see the comment there).

* Decryption in leancrypto_kernel_aead_ascon.c takes cryptlen as length of the ciphertext without the tag. In the kernel crypto API it contains the tag: a request made to the
  API decrypts the tag as well and reads the tag behind the source (C132, `c132_negation`). The test of the module passes cryptlen without the tag; then messages shorter than the tag are
  refused by crypto_aead_decrypt (`c132_negation_short`).
* lc_ascon_load_key refuses keys of LC_ASCON_MAX_KEYSIZE = 64 bytes, the only size Ascon-Keccak 512 takes: ascon-aead-keccak512-leancrypto cannot be used (C132, `c132_negation_keccak512`).

* The hashes and KMAC registered with the Linux kernel have no export and import callbacks, so the kernel copies the memory of the descriptor, including the absolute pointer
  `hash_ctx->hash_state`. After an import to another descriptor the state of the exporting one is used, which may no longer exist (C133, `c133_negation`). The hmac template of the
  kernel works this way.

* leancrypto_kernel_kyber.c: a shared secret of 1 to 3 bytes is uninitialised heap memory, because the key derivation (KMAC) refuses lengths below 4 and its result is not checked
  (C135, `c135_negation_short`); a remote public key of a wrong length is taken as a request for the own public key (`c135_negation_wrong_pk`); the error of a ciphertext
  which does not fit is assigned but 0 is returned (`c135_negation_truncated`); max_size is the ciphertext size, smaller than the public key for ML-KEM-512 and -768 (`c135_negation_maxsize`).

* leancrypto_kernel_dilithium.c, leancrypto_kernel_sphincs.c: the verification takes `src_len` as length of signature and message.  The kernel API documents `src_len` as the length of
  the signature and `dst_len` as the length of the message; with these lengths the message is not looked at and a signature of the empty message is accepted for any message
  (C136, `c136_negation_lengths`; the API is documented in the Linux kernel, not in the repository).  By reading: on an error of `*_update` the segment iterator is not stopped.

* leancrypto_kernel_kyber_x25519.c: of the 160 bytes of the shared secret only `dst_len` bytes are wiped from the handle (and from the stack of `lc_kernel_kyber_x25519_ss`)
  (C137, `c137_negation_wiped`); a remote public key of a wrong length is taken as a request for the own public key (`c137_negation_wrong_pk`); max_size is smaller than
  the public key with ML-KEM-512 and -768 (`c137_negation_maxsize`).

* leancrypto_kernel_dilithium_ed25519.c: a key shorter than 32 (public) or 64 (secret) bytes is refused before the old key is marked as unset, so the handle goes on with the old
  key; all other refused keys leave none (C138, `c138_negation_short`).

* leancrypto_kernel_bike.c: a ciphertext longer than `dst_len` is cut and 0 is returned (C139, `c139_negation_truncated`); a remote public key of a wrong length is taken as a request
  for the own public key (`c139_negation_wrong_pk`).  By reading: `lc_kernel_bike_ss` does not free the ciphertext buffer if copying from the source fails.

* linux_kernel/posix_support.c: `lc_alloc_high_aligned` ignores the alignment; above one page the address need not have it (C140, `c140_negation_high`).  The library asks for small
  alignments only, so nothing in it is affected.

* internal/src/memory_support.c: `lc_alloc_aligned_secure` locks and, on errors, frees the pointer variable instead of the memory (C141, `c141_negation_lock`, `c141_negation_free`).
  By reading: `lc_alloc_aligned` returns the positive error numbers of `posix_memalign`, other functions of the library return negative ones.

* linux_kernel/leancrypto_kernel.c:212-219: if loading fails after the first ML-DSA/Ed25519 hybrid is registered, ML-DSA is unregistered twice and the hybrids stay registered although the
  module is gone (C142, `c142_negation_left`).

* apps/src/hasher_app.c: with more than one file, or more than one line in a check file, only the first digest is right for sure: for SHA-256 the second one of two empty files is wrong, since `lc_hash_init` is called once only (C143,
  `c143_negation_second`).
* apps/src/hasher_app.c:267-270: a digest with an odd number of at least 129 characters in a check file writes one byte behind `compmd` (C143, `c143_negation_overflow`).  By reading: line 544 compares with `lc_sha3_256` instead of
  `lc_sha3_512`, so the name printed with `--tag` is NULL there.

* apps/src/hasher_app.c:409: the length of the digest of a BSD-style line is one too large, so no such line is ever accepted, and with SHA-512 each of them writes one byte behind a
  buffer (C144, `c144_negation_bsd`).
* apps/src/hasher_app.c:370-401: a usual line for a file name with an equals sign between blanks is taken for a BSD-style line and ignored without an error (C144, `c144_negation_equals`).

* apps/src/hasher_app.c:362-368: bytes above 126 at the end of a name in a check file are dropped, so another file is compared (C144, `c144_negation_unprintable`).

* apps/src/lc_x509_generator_checker.c:250-345: options of odd length are accepted for values which lack the end (C145, `c145_negation_odd`), options of odd length above the buffer write one byte
  behind it (`c145_negation_store`), and values in the certificate longer than the buffer are read from behind it (`c145_negation_read`).

Seen while reading, not modelled:

* lc_alloc_aligned of memory_support.c does not clear, so with heap workspaces on systems
  other than Linux the SLH-DSA address workspaces start uninitialised.
* kdf_ctr as random number generator with lengths that are no multiple of the digest;
  TOTP with step 0; a second lc_hkdf_expand drops T(previous).
* Keccak: absorbing after squeezing does not reset the offset. left/right_encode wrap
  at 2^61 bytes.
* hash_crypt ignores generator errors, tag longer than the digest uninitialised;
  symkmac ignores tag bytes beyond 128; the authentication context is not set up
  again after a tag.
* kmac_drng/cshake_drng/sphincs_sign dereference arguments before the NULL check.
* signature_domain_separation on big endian machines; dilithium_ed25519 streaming
  final overwrites the user context; lc_dilithium_verify returns at unpack_sig_h
  without clearing the workspace; lc_kyber_pct draws an unused message.
* X.509: path length is never checked, unknown critical extensions are ignored;
  _bin2hex_html counts below 0.
* aes_ecb.c refers to an undefined KeyExpansion.
* ascon_cxof_init runs the self test for Ascon-CXOF128 with Ascon-XOF128, which cannot pass;
  no hash object refers to it yet.

## Trusted base

* Lean 4.33.0 kernel. Theorems depend at most on `propext`, `Classical.choice`,
  `Quot.sound`; there are no own axioms, no `sorry`, no `native_decide`, no
  `bv_decide`. `decide +kernel` is evaluation by the kernel.
* Mathlib supplies definitions that appear in statements: `ZMod`, the group of
  points of a Weierstrass curve (`EllipticCurve.Affine.Point`), `addOrderOf`,
  polynomials. Everything used from it is checked by the kernel.
* The faithfulness of the transcription of the cited C lines, and of the
  specification definitions.
* The compiler translates fixed width integers as the C standard says, with
  `-fwrapv` as the project's build file has it.

### Modelled per area

* hash/, kmac/, hmac/, kdf (hkdf, pbkdf2, sp800-108), otp: the portable C code.
* sym/: aes_c, aes with tables, CBC, CTR, KW, ChaCha20 (portable C).
* aead/: cshake_crypt, kmac_crypt, hash_crypt, symhmac, symkmac, Ascon, Ascon-Keccak.
* asn1/src/pkcs7_generator_set_data.c: whole file; asn1/src/pkcs7_parser.c: `lc_pkcs7_message_clear` for generated messages (without the list of revoked certificates)
* asn1/src/oid_registry.c: look-up (C32) and `sprint_oid` (C126)
* internal/api/compare.h, internal/src/compare.c: when self tests run (C127), not what they compute
* Linux kernel glue for memory: `linux_kernel/posix_support.c` over an abstract kernel allocator.
* apps/src/lc_x509_generator_checker.c: comparison of addresses and key identifiers (not: the other checks)
* apps/src/hasher_app.c: digests of files, comparison with digests of a check file and parsing of its lines (not: options, output)
* Linux kernel module loading and unloading: `linux_kernel/leancrypto_kernel.c`, with all parts compiled in.
* Linux kernel glue of BIKE: `linux_kernel/leancrypto_kernel_bike.c` over an abstract KEM.
* Linux kernel glue of the ML-DSA/Ed25519 hybrid: `linux_kernel/leancrypto_kernel_dilithium_ed25519.c` over an abstract streaming scheme.
* Linux kernel glue of the ML-KEM/X25519 hybrid: `linux_kernel/leancrypto_kernel_kyber_x25519.c` over an abstract KEM.
* Linux kernel glue of ML-DSA and SLH-DSA: `linux_kernel/leancrypto_kernel_dilithium.c`, `linux_kernel/leancrypto_kernel_sphincs.c`, key loading of `slh-dsa/src/sphincs_api.c` and `ml-dsa/src/dilithium_api.c`, over an abstract streaming scheme.
* Linux kernel glue of ML-KEM: `linux_kernel/leancrypto_kernel_kyber.c` over an abstract KEM.
* Linux kernel glue of SHA-3, Ascon hash and KMAC: `linux_kernel/leancrypto_kernel_{sha3,ascon,kmac}.c` (not: alignment within descriptors, registration).
* Linux kernel glue of the Ascon AEAD: `linux_kernel/leancrypto_kernel_aead_ascon.c` (all but the registration), `lc_ascon_load_key`; the scatterwalk functions of the kernel are modelled after their documentation.
* internal/src/cpufeatures_{x86,arm64_auxv,arm64_native,arm32,riscv_auxv}.c, hash/src/{sha3,ascon}_selector.c, sym/src/aes_selector.c (not: cpufeatures_riscv_native.c, the order of constructors).
* internal/src/memory_support_linux.c with memfd_secret (not: threads); internal/src/memory_support.c (not: its posix_memalign for Windows).
* asn1/src/x509_cert_generator_set_data.c, x509_cert_parser_get_data.c: IP address texts, flag names, the setters and getters of C121; not the setters of keys and times
* asn1/src/x509_algorithm_mapper.c: completely, with all hashes compiled in
* ml-kem/src/kyber_api.c, ml-dsa/src/dilithium_api.c, slh-dsa/src/sphincs_api.c, bike/src/bike_api.c: load, ptr, set_keytype and the dispatch by type
  (not: key generation, allocation); asn1/src/public_key*.c: signature verification.
* drng/: hash_drbg, hmac_drbg, xdrbg, chacha20_drng, cshake_drng, kmac_drng,
  seeded_rng with its entropy sources for Linux, BSD, Darwin, ESDM and the Linux kernel (not: loading the ESDM library).
* asn1/: BER decoder, encoder helpers, OID registry, X.509 and PKCS#7 decision
  logic and trust store. The parser actions that copy fields are modelled where a
  property needs them (time, key usage, EKU, basic constraints, identifiers).
* ml-kem/, ml-dsa/: portable C code for the three parameter sets each; key
  exchange and IES of ML-KEM; message encoding of ML-DSA and SLH-DSA.
* slh-dsa/: portable C code, SHAKE parameter sets.
* curve25519/: five limb field, X25519 and Ed25519 as the API uses them.
* bike/: portable C code for the three levels, little-endian: arithmetic, sampling,
  decoder, KEM.
* asn1 encoder: `asn1_encoder_impl.h` with both instances, as a virtual machine over the bytecode of `Asn1/Machines`
* asn1 generators: `x509_cert_generator.c` and `pkcs7_generator.c` with their parsers on the encoder and decoder machines; signature, hash function
  and, for PKCS#7, the certificate parser are parameters. Steps are bounded by a parameter over which the theorems quantify.
* ml-kem/kyber_x25519, ml-dsa/dilithium_ed25519: the hybrid KEM, key exchange, IES
  and the composite signatures.

### Not modelled

Assembler and SIMD back ends, the ten limb field of curve25519, ge25519 functions
the API does not use (ristretto, mul_l, is_on_main_subgroup), self tests and test drivers,
memory allocation, clearing and locking, the Linux kernel glue and applications,
timing and other side channels, errors of the random number generator other than in
the seeded RNG, C semantics beyond fixed width integers and explicit bounds.

## Tests of the theorems

`seeded/LOG.jsonl` records edits of the model that correspond to realistic bugs,
the theorems that stopped proving, and the theorems tightened in consequence.
