{"id": "C01", "title": "Recursive membership witnesses are correct", "statement": "ProveMembership(base, N, set) on a non-empty set returns exactly len(set) witnesses and, for base in [0,N), witness i is base^(product of all elements except element i) mod N; raising witness i to element i gives base^(product of all elements) mod N. It never panics on a non-empty set.", "quantifier": "all bases, moduli, and all non-empty sets of non-negative integers of every length", "why_tests_cant": "the split points n/4, n/2, 3n/4 and the small-set cases differ for every length and nesting depth; a test samples a handful of lengths", "anchors": ["accumulator/accumulator.go:100 ProveMembership", "accumulator/accumulator.go:186 handleSmallSet", "accumulator/accumulator.go:225 AccumulateNew"]}
{"id": "C02", "title": "AccAndProve family: every returned witness verifies against the returned accumulator", "statement": "For AccAndProve, AccAndProveIter, AccAndProveParallel and AccAndProveIterParallel the returned accumulator is G^(product of the representatives of the strings) mod N and each returned witness raised to the representative of its own string equals that accumulator.", "quantifier": "all non-empty string sets (duplicates allowed), all encode types, all setups, all limits and CPU counts", "why_tests_cant": "tests fix one set and one set of RSA parameters", "anchors": ["accumulator/accumulator.go:46 AccAndProve", "accumulator/accumulator.go:62 AccAndProveIter", "accumulator/concurrent.go:15 AccAndProveParallel", "accumulator/concurrent.go:31 AccAndProveIterParallel"]}
{"id": "C03", "title": "All membership proving algorithms agree", "statement": "ProveMembership, ProveMembershipIter, ProveMembershipParallel (any limit), ProveMembershipParallelWithTable (any limit) and ProveMembershipIterParallel (any CPU count) return the same list of witnesses, in set order.", "quantifier": "all non-empty sets, bases in [0,N), limits (also negative) and CPU counts", "why_tests_cant": "tests compare two algorithms on one set; the agreement must hold for every split of every length", "anchors": ["accumulator/accumulator.go:100 ProveMembership", "accumulator/accumulator.go:136 ProveMembershipIter", "accumulator/concurrent.go:48 ProveMembershipParallel", "accumulator/concurrent.go:323 ProveMembershipIterParallel", "accumulator/concurrent.go:102 ProveMembershipParallelWithTable"]}
{"id": "C04", "title": "The iterative (linked list) prover terminates and fills every position", "statement": "ProveMembershipIter finishes on every set, returns one witness per element in order, and every witness is the product of all other elements in the exponent, although it updates nodes in place while splitting them.", "quantifier": "all sets of all lengths", "why_tests_cant": "termination of the pass loop and the in-place update order concern every list length", "anchors": ["accumulator/accumulator.go:136 ProveMembershipIter", "accumulator/accumulator.go:169 insertNewProofNode", "accumulator/accumulator.go:231 accumulate", "accumulator/accumulator.go:252 accumulateNew"]}
{"id": "C05", "title": "Fork-join proving is independent of the schedule and cannot deadlock", "statement": "For every interleaving of the goroutines started by ProveMembershipParallel / proveMembershipWithChan (unbuffered channels, parent receives in a fixed order) the run can always continue until the parent returns, every run is finite, and the returned witnesses are the ones of the sequential algorithm.", "quantifier": "all sets, all limits, all interleavings of goroutine steps and channel rendezvous", "why_tests_cant": "a test run sees one scheduler-chosen interleaving", "anchors": ["accumulator/concurrent.go:48 ProveMembershipParallel", "accumulator/concurrent.go:287 proveMembershipWithChan"]}
{"id": "C06", "title": "Iterative parallel prover is correct under every arrival order", "statement": "ProveMembershipIterParallel assigns disjoint segments that cover the set; for every order in which the start nodes and the worker results arrive each position of the result is written exactly once with its own witness, no goroutine sends on a closed channel, and the function returns.", "quantifier": "all sets, all CPU counts >= 1, all interleavings", "why_tests_cant": "only one arrival order is seen in a test and NumCPU is fixed on a machine", "anchors": ["accumulator/concurrent.go:323 ProveMembershipIterParallel", "accumulator/concurrent.go:433 initMembershipProofs", "accumulator/concurrent.go:385 proveMembershipIter", "accumulator/concurrent.go:368 calNumWorkers"]}
{"id": "C07", "title": "Accumulator does not depend on element order; witnesses follow their element", "statement": "Permuting the input set leaves the accumulator unchanged, and the witness of an element moves with it.", "quantifier": "all sets and all permutations", "why_tests_cant": "n! permutations for every n", "anchors": ["accumulator/accumulator.go:46 AccAndProve", "accumulator/accumulator.go:100 ProveMembership"]}
{"id": "C08", "title": "Exact set sizes at which each proving entry point panics", "statement": "ProveMembership and all AccAndProve variants panic on the empty set and on no other; ProveMembershipIter and ProveMembershipIterParallel return an empty result on the empty set; the randomizer variants panic exactly on sets with fewer than 4 elements.", "quantifier": "all set sizes", "why_tests_cant": "absence of an index or explicit panic must hold at every length", "anchors": ["accumulator/accumulator.go:100 ProveMembership", "accumulator/accumulator.go:73 ProveMembershipSingleThreadWithRandomizer", "accumulator/accumulator.go:62 AccAndProveIter", "accumulator/accumulator.go:186 handleSmallSet"]}
{"id": "C09", "title": "Every product routine computes the product", "statement": "SetProduct, SetProduct2, SetProductRecursive, SetProductRecursiveFast and SetProductParallel (for every limit, also zero or negative, and every schedule) return the product of all elements, 1 for the empty set.", "quantifier": "all lists of integers, all limits, all interleavings", "why_tests_cant": "recursion splits depend on the length; schedules are not enumerable by tests", "anchors": ["accumulator/common.go:103 SetProduct", "accumulator/common.go:115 SetProduct2", "accumulator/common.go:127 SetProductRecursive", "accumulator/common.go:151 SetProductRecursiveFast", "accumulator/common.go:170 SetProductParallel"]}
{"id": "C10", "title": "Randomised witnesses verify against the randomised accumulator", "statement": "ProveMembershipSingleThreadWithRandomizer on a set of at least 4 elements returns base^(randomizer * product of all other elements) mod N at each position, so each witness raised to its element equals base^(randomizer * product of all elements) mod N.", "quantifier": "all bases, moduli, randomizers and sets of at least 4 elements", "why_tests_cant": "depends on the split at every length", "anchors": ["accumulator/accumulator.go:73 ProveMembershipSingleThreadWithRandomizer"]}
{"id": "C11", "title": "The randomizer is honoured for every parallelism limit", "statement": "ProveMembershipParallelWithTableWithRandomizer returns the same (randomised) witnesses for every value of limit.", "quantifier": "all sets, randomizers and limits", "why_tests_cant": "the defect appears only on the branch limit > 0 and the values still look like valid witnesses", "anchors": ["accumulator/concurrent.go:176 ProveMembershipParallelWithTableWithRandomizer", "accumulator/concurrent.go:231 ProveMembershipParallelWithTableWithRandomizerWithChan"]}
{"id": "C12", "title": "ZKAccumulate value", "statement": "ZKAccumulate returns G^(r * product of representatives) mod N where r is the drawn randomizer, for every encode type handled by GenRepresentatives, and each randomised witness built with the same r verifies against it.", "quantifier": "all string sets, randomizers and setups", "why_tests_cant": "randomised output; tests do not compare with the algebraic value", "anchors": ["accumulator/zkacc.go:20 ZKAccumulate", "accumulator/zkacc.go:11 GenRandomizer"]}
{"id": "C13", "title": "Table based proving equals table-free proving", "statement": "With a precomputed table for the same base and modulus, ProveMembershipParallelWithTable returns the same witnesses as ProveMembership for every limit.", "quantifier": "all sets, bases, moduli, limits", "why_tests_cant": "tests fix one set size", "anchors": ["accumulator/concurrent.go:102 ProveMembershipParallelWithTable"]}
{"id": "C14", "title": "Worker count is the largest power of two not above the CPU count", "statement": "calNumWorkers returns (w,k) with w = 2^k and w <= NumCPU < 2w.", "quantifier": "all CPU counts >= 1", "why_tests_cant": "a machine has one CPU count", "anchors": ["accumulator/concurrent.go:368 calNumWorkers"]}
{"id": "C15", "title": "Representatives are computed element by element", "statement": "GenRepresentatives returns one representative per string, the i-th depending only on the i-th string and the encode type; every encode type other than the Poseidon one, including the zero value, selects hash-to-prime.", "quantifier": "all string sets and encode types", "why_tests_cant": "needs all positions and all encode values", "anchors": ["accumulator/accumulator.go:34 GenRepresentatives"]}
{"id": "C16", "title": "HashToPrime returns the first prime in the hash orbit", "statement": "If HashToPrime returns, the value is the big-endian integer of the first iterate of SHA-256 on the input that passes the primality test, it has at most 256 bits, and the result does not depend on anything but the input.", "quantifier": "all byte strings, all hash functions with 32-byte output and all primality tests", "why_tests_cant": "unbounded rejection loop over a hash", "anchors": ["accumulator/hashes.go:37 HashToPrime", "accumulator/hashes.go:63 SHA256ToInt"]}
{"id": "C17", "title": "Distinct elements have distinct hash-to-prime representatives unless SHA-256 collides", "statement": "Two different strings mapped by HashToPrime to the same prime imply a collision of SHA-256.", "quantifier": "all pairs of strings", "why_tests_cant": "the failing pairs have the form (s, SHA256(s)); random tests never produce them", "anchors": ["accumulator/hashes.go:37 HashToPrime"]}
{"id": "C18", "title": "DI representatives have exactly 1024 bits and never divide one another", "statement": "Every Poseidon/DI representative is in [2^1023, 2^1023 + r) for the BN254 scalar field order r, so it has exactly 1024 bits; a representative divides another one only if they are equal; two are equal exactly if the Poseidon outputs are equal.", "quantifier": "all field elements / strings accepted", "why_tests_cant": "range over all hash outputs", "anchors": ["accumulator/hashes.go:100 DIHashPoseidon", "accumulator/hashes.go:109 PoseidonAndDIHash", "accumulator/accumulator.go:12 init", "accumulator/accumulator.go:34 GenRepresentatives"]}
{"id": "C19", "title": "Distinct strings have distinct DI representatives unless Poseidon collides", "statement": "GenRepresentatives with DIHashFromPoseidon maps different accepted strings to different representatives as long as Poseidon is injective; strings that are not decimal integers panic.", "quantifier": "all pairs of strings", "why_tests_cant": "colliding strings differ by a leading zero/sign or by the field order", "anchors": ["accumulator/hashes.go:19 ElementFromString", "accumulator/accumulator.go:34 GenRepresentatives"]}
{"id": "C20", "title": "Benchmark sets contain pairwise different, parseable elements", "statement": "GenBenchSet(n) returns n pairwise different strings; the i-th one parses as the decimal number i. GetPseudoRandomElement(i) parses as i and differs for different i.", "quantifier": "all n; all i", "why_tests_cant": "every n", "anchors": ["accumulator/manualbench.go:73 GenBenchSet", "accumulator/common.go:223 GetPseudoRandomElement"]}
{"id": "C21", "title": "UniversalHashToInt is odd and in range", "statement": "UniversalHashToInt returns an odd number in [1,P]; it equals ((A*x+B) mod P) when that is odd and one more otherwise.", "quantifier": "all integers x (also negative)", "why_tests_cant": "all integers", "anchors": ["accumulator/hashes.go:87 UniversalHashToInt"]}
{"id": "C22", "title": "Group order used in setup is an exponent of the quadratic residues", "statement": "For p, q distinct safe primes, every g that is a square coprime to p*q satisfies g^getOrder(p,q) = 1 mod p*q.", "quantifier": "all safe primes p != q and all quadratic residues", "why_tests_cant": "number-theoretic statement over all primes", "anchors": ["accumulator/common.go:285 getOrder", "accumulator/common.go:231 TrustedSetupForQRN"]}
{"id": "C23", "title": "isQR accepts exactly the invertible squares modulo p*q", "statement": "For odd primes p != q: isQR(x,p,q) returns true iff x is coprime to p*q and x is a square modulo p*q.", "quantifier": "all integers x, all odd primes p != q", "why_tests_cant": "all primes", "anchors": ["accumulator/common.go:405 isQR", "accumulator/common.go:385 getRanQR"]}
{"id": "C24", "title": "getSafePrime only returns safe primes; the sieve never drops a good candidate", "statement": "A value returned by getSafePrime has bit length 1024, passes the primality test and (value-1)/2 passes it too; safePrimeSieve rejects exactly candidates with a small factor of 2x+1.", "quantifier": "all random candidate streams", "why_tests_cant": "randomised search; the sieve outcome is not observable in a test that only checks the final prime", "anchors": ["accumulator/common.go:367 getSafePrime", "accumulator/common.go:308 safePrimeSieve", "accumulator/common.go:295 testRemainder", "accumulator/common.go:346 getSuitablePrime"]}
{"id": "C25", "title": "Built-in trusted parameters are usable", "statement": "TrustedSetup returns N with exactly 2048 bits, N odd, 1 < G,H < N and gcd(G,N) = gcd(H,N) = 1, so every exponent (also negative) is defined for G and H.", "quantifier": "all exponents used with the built-in parameters", "why_tests_cant": "the consequence ranges over all exponents", "anchors": ["accumulator/accumulator.go:21 TrustedSetup", "accumulator/common.go:21 N2048String", "accumulator/common.go:23 G2048String", "accumulator/common.go:25 H2048String"]}
{"id": "C26", "title": "SimpleExp computes modular exponentiation", "statement": "SimpleExp(g,x,n) = g^x mod n for all g,n > 1 and x >= 1; it panics on all other inputs.", "quantifier": "all g, x, n", "why_tests_cant": "the loop skips word boundaries for particular bit lengths only", "anchors": ["accumulator/mulexp.go:11 SimpleExp"]}
{"id": "C27", "title": "GCB splits both operands by the common part", "statement": "GCB(a,b) with result r leaves operands a', b' with a' + r = a, b' + r = b, and r has only bits set in both a and b.", "quantifier": "all non-negative integers", "why_tests_cant": "all integers of any number of words", "anchors": ["accumulator/mulexp.go:45 GCB", "accumulator/mulexp.go:67 CommonBits"]}
{"id": "C28", "title": "GCB returns all common bits", "statement": "The result of GCB(a,b) is the bitwise AND of a and b.", "quantifier": "all non-negative integers", "why_tests_cant": "only numbers with bits in the upper half of a 64-bit word show the defect", "anchors": ["accumulator/mulexp.go:45 GCB", "accumulator/mulexp.go:67 CommonBits"]}
{"id": "C29", "title": "GCB leaves its operands valid", "statement": "After GCB the operands are normalised big integers, so Sign/Cmp on them report the mathematical value.", "quantifier": "all non-negative integers", "why_tests_cant": "needs the representation invariant for all inputs", "anchors": ["accumulator/mulexp.go:45 GCB"]}
{"id": "C30", "title": "Table exponentiation equals modular exponentiation", "statement": "For every table made by GenPreTable(base,N,bitLen,tableSize) and every x >= 1, ComputeFromTable returns base^x mod N, also when x is longer than bitLen; x <= 0 panics, as do bitLen <= tableSize and tableSize <= 0.", "quantifier": "all bases, N >= 1, x, bitLen, tableSize", "why_tests_cant": "chunk boundaries vary with bit length", "anchors": ["precompute/comfromtable.go:34 GenPreTable", "precompute/comfromtable.go:60 ComputeFromTable"]}
{"id": "C31", "title": "Parallel table exponentiation is schedule independent", "statement": "ComputeFromTableParallel returns base^x mod N for every order in which the goroutines finish; no goroutine sends on the closed channel and the function always returns.", "quantifier": "all tables, x >= 1, all interleavings", "why_tests_cant": "a test sees one interleaving", "anchors": ["precompute/comfromtable.go:135 ComputeFromTableParallel", "precompute/comfromtable.go:203 getAccumulate"]}
{"id": "C32", "title": "Byte-chunk table computes base^x mod n under every schedule", "statement": "Table.Compute(x,k) with k >= 1 workers returns base^|x| mod n for every interleaving of dispatcher, workers and collector, whenever x is non-zero and fits in the table; it cannot deadlock.", "quantifier": "all tables, x, k, interleavings", "why_tests_cant": "a test sees one interleaving", "anchors": ["precompute/precompute.go:19 NewTable", "precompute/precompute.go:37 Compute", "precompute/precompute.go:85 routineCompute"]}
{"id": "C33", "title": "The byte-chunk table is large enough for its declared capacity", "statement": "A table made for numElements elements bounded by elementUpperBound handles the product of any numElements such elements.", "quantifier": "all element bounds, counts, chunk sizes and products", "why_tests_cant": "fails only when the total bit length is not a multiple of the chunk size", "anchors": ["precompute/precompute.go:19 NewTable", "precompute/precompute.go:37 Compute"]}
{"id": "C34", "title": "Table.Compute always returns", "statement": "Table.Compute returns for every x.", "quantifier": "all x", "why_tests_cant": "x = 0 waits for a result that is never produced", "anchors": ["precompute/precompute.go:37 Compute"]}
{"id": "C35", "title": "A transcript is a function of the appended strings", "statement": "Challenges depend only on the sequence of appended strings and earlier challenge requests: Append one by one, AppendSlice and passing the strings to InitTranscript give the same challenges, and two parties doing the same operations see the same challenges.", "quantifier": "all sequences of operations", "why_tests_cant": "all histories", "anchors": ["fiat-shamir/transcript.go:45 InitTranscript", "fiat-shamir/transcript.go:54 Append", "fiat-shamir/transcript.go:59 AppendSlice", "fiat-shamir/transcript.go:64 GetChallengeAndAppendTranscript", "fiat-shamir/transcript.go:72 GetPrimeChallengeUsingTranscript", "fiat-shamir/transcript.go:80 GetIntChallengeUsingTranscript"]}
{"id": "C36", "title": "A new challenge depends on the previous ones", "statement": "After a challenge is taken its decimal form is part of the input of every later challenge; consecutive challenges hash different inputs.", "quantifier": "all transcripts and histories", "why_tests_cant": "all histories", "anchors": ["fiat-shamir/transcript.go:64 GetChallengeAndAppendTranscript", "fiat-shamir/transcript.go:72 GetPrimeChallengeUsingTranscript", "fiat-shamir/transcript.go:80 GetIntChallengeUsingTranscript"]}
{"id": "C37", "title": "Challenge range", "statement": "With the Max252 option every challenge is below 2^239 (hence below the BN254 scalar order); with Default it is below 2^256; prime challenges pass the primality test.", "quantifier": "all transcripts, all hash functions", "why_tests_cant": "the exceptional hash value occurs with probability 2^-256", "anchors": ["fiat-shamir/transcript.go:87 wrapNumber", "fiat-shamir/transcript.go:105 HashToPrime", "fiat-shamir/transcript.go:133 HashToInt"]}
{"id": "C38", "title": "Different transcripts give different hash inputs", "statement": "Two transcripts with different lists of strings never feed the same bytes to the hash.", "quantifier": "all pairs of transcripts", "why_tests_cant": "requires finding particular pairs", "anchors": ["fiat-shamir/transcript.go:105 HashToPrime", "fiat-shamir/transcript.go:133 HashToInt"]}
{"id": "C39", "title": "Protocol tags separate PoKE*, PoE, ZKPoKE and MultiSwap transcripts", "statement": "The transcripts of two different protocols never feed the same bytes to the hash, whatever the statement values.", "quantifier": "all statements of the protocols", "why_tests_cant": "all statements", "anchors": ["proof/poke.go:32 PoKEStarProve", "proof/poke.go:161 PoEProve", "proof/poke.go:74 ZKPoKEProve", "zkmultiswap/common.go:95 SetupTranscript"]}
{"id": "C40", "title": "A transcript is isolated from the caller's slice", "statement": "Changing the slice passed to InitTranscript or AppendSlice after the call does not change later challenges, and appending to the transcript does not write into the caller's slice.", "quantifier": "all slices (any length/capacity), all later writes", "why_tests_cant": "aliasing depends on slice capacity", "anchors": ["fiat-shamir/transcript.go:45 InitTranscript", "fiat-shamir/transcript.go:59 AppendSlice"]}
{"id": "C41", "title": "PoKE* completeness", "statement": "If C = G^x mod N (for negative x: G invertible) then PoKEStarProve returns a proof without error and PoKEStarVerify accepts it.", "quantifier": "all N >= 1, all G and x with G >= 0 or x >= 0 (public parameters are non-negative), and all hash functions/primality tests for which the challenge computation returns a positive value", "why_tests_cant": "all statements", "anchors": ["proof/poke.go:32 PoKEStarProve", "proof/poke.go:50 PoKEStarVerify", "proof/poke.go:16 MultiExp"]}
{"id": "C42", "title": "Provers refuse false statements", "statement": "PoKEStarProve, PoEProve and ZKPoKEProve return an error exactly when the claimed power is not the reduced power of the base.", "quantifier": "all inputs", "why_tests_cant": "all inputs", "anchors": ["proof/poke.go:32 PoKEStarProve", "proof/poke.go:161 PoEProve", "proof/poke.go:74 ZKPoKEProve"]}
{"id": "C43", "title": "Accepted PoKE* proofs are unique", "statement": "The verifier checks that the residue is reduced, so (Q,R) cannot be changed into another accepted proof of the same statement without the witness.", "quantifier": "all statements and proofs", "why_tests_cant": "needs an algebraic transformation of an honest proof", "anchors": ["proof/poke.go:50 PoKEStarVerify"]}
{"id": "C44", "title": "ZKPoKE completeness", "statement": "If w = u^x mod N (for negative x: also G invertible) then for all random coins ZKPoKEProve returns a proof that ZKPoKEVerify accepts.", "quantifier": "all N >= 1, bases, non-negative coins, hash functions; x >= 0, or x negative with non-negative bases", "why_tests_cant": "random coins and challenges", "anchors": ["proof/poke.go:74 ZKPoKEProve", "proof/poke.go:126 ZKPoKEVerify"]}
{"id": "C45", "title": "PoE completeness", "statement": "If C = base^x mod N then PoEProve returns a proof accepted by PoEVerify.", "quantifier": "all N >= 1, bases and x (base >= 0 or x >= 0), hash functions", "why_tests_cant": "all statements", "anchors": ["proof/poke.go:161 PoEProve", "proof/poke.go:178 PoEVerify"]}
{"id": "C46", "title": "Verifier decision logic of the exponent proofs", "statement": "PoKEStarVerify, PoEVerify and ZKPoKEVerify return true exactly if the group equation(s) of the protocol hold modulo N for the recomputed challenge and the claimed C is reduced; a nil proof is rejected.", "quantifier": "all proofs and statements (also adversarial) whose modulus is positive and whose bases are non-negative or exponents non-negative", "why_tests_cant": "all proofs", "anchors": ["proof/poke.go:50 PoKEStarVerify", "proof/poke.go:178 PoEVerify", "proof/poke.go:126 ZKPoKEVerify"]}
{"id": "C47", "title": "Square decompositions are stored sorted and non-negative", "statement": "NewInt3 and NewInt4 return the absolute values of their arguments in descending order and nothing else.", "quantifier": "all integers", "why_tests_cant": "all integers/orderings/signs", "anchors": ["proof/parameters.go:126 NewInt3", "proof/parameters.go:35 NewInt4"]}
{"id": "C48", "title": "ThreeSquares never returns a wrong decomposition", "statement": "Whatever values the random source, the goroutine schedule and the probabilistic primality test produce, a value returned by ThreeSquares(n) satisfies t0^2+t1^2+t2^2 = n with t0 >= t1 >= t2 >= 0.", "quantifier": "all n, random choices, primality test outcomes, schedules, numbers of CPUs", "why_tests_cant": "randomised and concurrent; composite candidates pass the filter for small values", "anchors": ["proof/three_square.go:26 ThreeSquares", "proof/three_square.go:38 routineFindTS", "proof/three_square.go:79 findTwoSquares", "proof/three_square.go:109 isValidGaussianIntGCD"]}
{"id": "C49", "title": "ThreeSquares returns for every n = 1 mod 4", "statement": "ThreeSquares(n) returns for every n = 4k+1, in every schedule.", "quantifier": "all n, schedules", "why_tests_cant": "a hang depends on particular small n or on a lost non-blocking send", "anchors": ["proof/three_square.go:26 ThreeSquares", "proof/three_square.go:38 routineFindTS"]}
{"id": "C50", "title": "Range proof completeness", "statement": "If g,h are invertible mod N and 4(b-x)(x-a)+1 is decomposed into three squares, then for all coins the proof made by RPProver.Prove for the commitment g^x h^r is accepted by RPVerifier.Verify.", "quantifier": "all parameters, a, b, x, r, coins, hash functions", "why_tests_cant": "random coins and challenges", "anchors": ["proof/range_proof.go:139 RPProver", "proof/range_proof.go:375 RPVerifier"]}
{"id": "C51", "title": "An out-of-range value never gets a range proof from the prover", "statement": "RPProver.Prove for x outside [a,b] (a <= b) never returns a proof.", "quantifier": "all x, a, b, coins", "why_tests_cant": "all values", "anchors": ["proof/range_proof.go:167 Prove", "proof/three_square.go:26 ThreeSquares"]}
{"id": "C52", "title": "Accepted range proofs need a committed value in range", "statement": "Nobody can produce, from public information only, an accepted range proof for an arbitrary commitment and an arbitrary range.", "quantifier": "all commitments and ranges", "why_tests_cant": "soundness; requires the forging strategy", "anchors": ["proof/range_proof.go:396 Verify", "proof/range_proof.go:57 newRPChallenge", "proof/range_proof.go:110 newRPCommitment"]}
{"id": "C53", "title": "Argument of positivity completeness", "statement": "If g,h are invertible mod N and 4x+1 is decomposed into three squares then the proof made by ZKAoPProver.Prove is accepted by ZKAoPVerifier.Verify for all coins.", "quantifier": "all parameters, x, r, coins, hash functions", "why_tests_cant": "random coins and challenges", "anchors": ["proof/zkaop.go:130 ZKAoPProver", "proof/zkaop.go:319 ZKAoPVerifier"]}
{"id": "C54", "title": "A negative value never gets an argument of positivity from the prover", "statement": "ZKAoPProver.Prove for x < 0 never returns a proof.", "quantifier": "all negative x, coins", "why_tests_cant": "all values", "anchors": ["proof/zkaop.go:154 Prove"]}
{"id": "C55", "title": "Accepted arguments of positivity need a non-negative committed value", "statement": "Nobody can produce, from public information only, an accepted argument of positivity for an arbitrary commitment.", "quantifier": "all commitments", "why_tests_cant": "soundness", "anchors": ["proof/zkaop.go:338 Verify", "proof/zkaop.go:52 newZKAoPChallenge"]}
{"id": "C56", "title": "Verifiers do not panic", "statement": "RPVerifier.Verify and ZKAoPVerifier.Verify return a boolean for every proof value.", "quantifier": "all proof values (also adversarial and nil)", "why_tests_cant": "adversarial inputs", "anchors": ["proof/range_proof.go:396 Verify", "proof/zkaop.go:338 Verify"]}
{"id": "C57", "title": "Concurrent provers do not disturb one another through the shared integer pool", "statement": "The commitment hashed by a prover is computed from its own values in every interleaving with other goroutines that use the shared pool.", "quantifier": "all interleavings", "why_tests_cant": "needs a particular preemption point", "anchors": ["proof/cache.go:12 iPool", "proof/range_proof.go:305 secondPartH", "proof/range_proof.go:255 commit", "proof/zkaop.go:259 secondPartD"]}
{"id": "C58", "title": "Range proof and positivity challenges bind the statement", "statement": "The challenge of a range proof / argument of positivity changes with the commitment being proved and with the first message of the proof.", "quantifier": "all statements", "why_tests_cant": "all statements", "anchors": ["proof/range_proof.go:57 newRPChallenge", "proof/range_proof.go:70 serialize", "proof/zkaop.go:52 newZKAoPChallenge", "proof/zkaop.go:63 serialize"]}
{"id": "C59", "title": "Prover objects can be reused", "statement": "The proof from a second call of Prove on the same RPProver or ZKAoPProver is a function of the new value, range and coins only.", "quantifier": "all histories of calls", "why_tests_cant": "all histories", "anchors": ["proof/range_proof.go:139 RPProver", "proof/zkaop.go:130 ZKAoPProver"]}
{"id": "C60", "title": "The swap circuit enforces the balance sum", "statement": "An assignment accepted by the MultiSwap circuit satisfies UpdatedSum = OriginalSum + sum of (updated balance - original balance) over all users.", "quantifier": "all assignments", "why_tests_cant": "the tests only use unchanged balances", "anchors": ["zkmultiswap/circuit.go:37 Define"]}
{"id": "C61", "title": "The swap circuit enforces the remainders", "statement": "An accepted assignment satisfies RemainderR1 = prod(H(id,bal,epoch,hash)+DeltaModL1) * prod(H(randomizer1,i)) mod ChallengeL1 and the analogous equation for R2 with the updated record chained to the original record hash (hash + Delta taken in the field).", "quantifier": "all assignments", "why_tests_cant": "all assignments", "anchors": ["zkmultiswap/circuit.go:37 Define"]}
{"id": "C62", "title": "The swap circuit enforces ranges, freshness and distinct users", "statement": "In an accepted assignment all balances, both sums, both randomizers' elements and the epoch are below 2^32, each record's epoch is below the current epoch, the user ids are strictly increasing (so no user is updated twice) and both Delta and remainder values are below their challenge.", "quantifier": "all assignments", "why_tests_cant": "all assignments", "anchors": ["zkmultiswap/circuit.go:37 Define"]}
{"id": "C63", "title": "Honest update sets satisfy the swap circuit", "statement": "For every update set computed as in GenTestSet/PoseidonAndDIHash (integer remainders of the real representatives) with correct sums, sorted ids and in-range values the circuit accepts the assignment.", "quantifier": "all honest update sets", "why_tests_cant": "fails only for hash values near the field order or when the first balance changes", "anchors": ["zkmultiswap/circuit.go:37 Define", "zkmultiswap/circuit.go:132 AssignCircuit", "zkmultiswap/common.go:102 GenTestSet"]}
{"id": "C64", "title": "GenTestSet produces valid sets", "statement": "GenTestSet(n) yields a set accepted by IsValid and by the circuit for 2 <= n, as long as no record hash plus Delta overflows the field; it panics for n < 2.", "quantifier": "all n, hash functions, challenges", "why_tests_cant": "all sizes", "anchors": ["zkmultiswap/common.go:102 GenTestSet"]}
{"id": "C65", "title": "Public witness is preserved", "statement": "The public part of AssignCircuit(set) equals the public witness built from set.PublicPart(), field by field in the same order; VerifyPublicWitness returns true exactly for matching public values.", "quantifier": "all update sets", "why_tests_cant": "all sets", "anchors": ["zkmultiswap/circuit.go:132 AssignCircuit", "zkmultiswap/circuit.go:166 AssignCircuitHelper", "zkmultiswap/common.go:187 PublicPart", "zkmultiswap/zkmultiswap.go:92 VerifyPublicWitness", "zkmultiswap/zkmultiswap.go:112 GenPublicWitness"]}
{"id": "C66", "title": "IsValid decides well-formed update sets", "statement": "IsValid returns true exactly if there are at least two users and all per-user slices have the same length; AssignCircuit panics on invalid sets and never indexes out of range on valid ones.", "quantifier": "all update sets", "why_tests_cant": "all length combinations", "anchors": ["zkmultiswap/common.go:68 IsValid", "zkmultiswap/circuit.go:132 AssignCircuit"]}
{"id": "C67", "title": "MultiSwap challenges bind the accumulators", "statement": "Challenges derived from SetupTranscript depend on the old, middle and new accumulator.", "quantifier": "all public inputs", "why_tests_cant": "all inputs", "anchors": ["zkmultiswap/common.go:95 SetupTranscript"]}
{"id": "C68", "title": "Smart-contract input order matches the circuit", "statement": "The seven public inputs printed for the smart contract are in the order of the circuit's public fields.", "quantifier": "all public inputs", "why_tests_cant": "all values", "anchors": ["zkmultiswap/common.go:265 TestMultiSwapAndOutputSmartContract2", "zkmultiswap/circuit.go:11 Circuit"]}
{"id": "C69", "title": "Merkle swap circuit accepts its own assignment and fixes its outputs", "statement": "The assignment made for the Merkle swap circuit satisfies it, and for given inputs only one output assignment does.", "quantifier": "all inputs", "why_tests_cant": "all inputs", "anchors": ["merkleswap/circuit.go:23 Define", "merkleswap/common.go:36 AssignCircuit"]}
{"id": "C70", "title": "Solidity verifier accepts only canonical public inputs and canonical points", "statement": "verifyProof reverts if any proof coordinate is >= the base field order or any input is >= the scalar field order; two accepted calls with congruent inputs have identical inputs; otherwise the answer is the pairing check of -A,B / alpha,beta / IC0 + sum input_i*IC_{i+1}, gamma / C,delta, on the groups of order r, for each of the three keys.", "quantifier": "all calls", "why_tests_cant": "all 256-bit inputs", "anchors": ["Notuscontract_g16.sol:186 verifyProof"]}
{"id": "C71", "title": "Solidity point negation", "statement": "Pairing.negate returns the inverse point with reduced coordinates for every curve point.", "quantifier": "all points", "why_tests_cant": "all points", "anchors": ["Notuscontract_g16.sol:43 negate"]}
{"id": "C72", "title": "Swap of accumulators", "statement": "If the middle accumulator is G^(product of kept elements * randomizer) then raising it to the product of the removed (resp. inserted) elements gives the accumulator of the old (resp. new) set, independent of how the product is computed.", "quantifier": "all kept/removed/inserted sets", "why_tests_cant": "all sets", "anchors": ["experiments/finaltests.go:472 TestNotusMultiSwap", "experiments/finaltests.go:617 TestNotusParallel"]}
{"id": "C73", "title": "Experiment swap flow keeps its accumulators consistent", "statement": "In TestNotusMultiSwap and TestNotusParallel the middle accumulator raised to the randomized product of the removed elements is the original accumulator, the new accumulator is the randomized accumulator of the unchanged and inserted elements, and the statement given to PoKE is true.", "quantifier": "all hash functions, moduli, bases and set sizes", "why_tests_cant": "the experiment only prints times; no value is compared", "anchors": ["experiments/finaltests.go:472 TestNotusMultiSwap", "experiments/finaltests.go:617 TestNotusParallel"]}
{"id": "C74", "title": "User ids in the swap circuit have at most 32 bits", "statement": "Every assignment accepted by the MultiSwap circuit has all user ids below 2^32, as the comment in Define says (IDs in correct range).", "quantifier": "all assignments", "why_tests_cant": "quantifies over adversarial witnesses", "anchors": ["zkmultiswap/circuit.go:37 Define"]}
{"id": "C75", "title": "Constants of the three Solidity verifiers", "statement": "Both field orders are prime; in all three contracts alpha and the IC points are non-zero points of y^2=x^3+3 and beta, gamma, delta are points of the twist, in reduced coordinates; gamma and delta differ and the IC points are pairwise different. The curve has exactly r points, and beta, gamma, delta lie in the subgroup of order r of the twist, which the pairing contract requires.", "quantifier": "all constants of the three files", "why_tests_cant": "a test needs the key pair that belongs to the contract; a wrong digit shows only as rejection", "anchors": ["Notuscontract_g16.sol:167 verifyingKey", "contract_g16.sol:167 verifyingKey", "zkmultiswap/gnark-tests/solidity/Notuscontract_g16.sol:167 verifyingKey"]}
{"id": "C76", "title": "Range of products of DI representatives", "statement": "The two products computed by TestRange bound the product of every set of DI representatives of the same size, and up to 2^766 elements both and hence every such product have exactly 1023 n + 1 bits.", "quantifier": "all sets, all hash functions", "why_tests_cant": "a run checks one size and no real representative", "anchors": ["experiments/integers.go:117 genDIMin", "experiments/integers.go:125 genDIMax", "experiments/integers.go:141 TestRange"]}
{"id": "C77", "title": "PoKE runs of the experiments", "statement": "Every round of TestPoKE ends with AccTest3 equal to accNew, and the check that is commented out in PoKE holds exactly if base^exp = newAcc mod N.", "quantifier": "all hash functions, sets, bases and moduli", "why_tests_cant": "values are only printed; no comparison in the code", "anchors": ["experiments/finaltests.go:147 TestPoKE", "experiments/finaltests.go:305 PoKE"]}
{"id": "C78", "title": "Precompute table of the swap experiments is large enough", "statement": "The number of words requested for the precompute table (uint32 arithmetic) covers the exponent of the original accumulator.", "quantifier": "all set sizes", "why_tests_cant": "the failing sizes start at 2^21 elements", "anchors": ["experiments/finaltests.go:472 TestNotusMultiSwap", "experiments/finaltests.go:617 TestNotusParallel"]}
{"id": "C79", "title": "Update set assembled by the swap experiments is honest", "statement": "The update set that TestNotusMultiSwap and TestNotusParallel assemble before checking IsValid has the remainders, deltas and records of an honest update.", "quantifier": "all hash functions and sizes up to 2^31 users", "why_tests_cant": "the assembled set is never proved; GenTestSet is used instead", "anchors": ["experiments/finaltests.go:472 TestNotusMultiSwap", "experiments/finaltests.go:617 TestNotusParallel"]}
{"id": "C80", "title": "Decision of the range and positivity verifiers", "statement": "For invertible numbers the range verifier (and the verifier of positivity) accepts exactly if the commitment in the proof is the concatenation of the hashes of the first message that fits the protocol's equations for the hashed challenge and the answers. Such a first message exists for all answers, and the state of the verifier object has no influence.", "quantifier": "all hash functions, moduli, invertible commitments, answers, commitments in proofs, verifier objects", "why_tests_cant": "a test tries a few proofs; acceptance for other values is not visible", "anchors": ["proof/range_proof.go:396 Verify", "proof/range_proof.go:425 VerifyResponse", "proof/zkaop.go:338 Verify", "proof/zkaop.go:359 VerifyResponse"]}
{"id": "C81", "title": "Challenges of the exponent proofs depend on the whole statement", "statement": "For fixed public parameters, the bytes hashed by PoKE*, PoE and ZKPoKE determine the statement and the first message.", "quantifier": "all statements and first messages", "why_tests_cant": "ambiguous concatenations are needed for a counterexample", "anchors": ["proof/poke.go:32 PoKEStarProve", "proof/poke.go:161 PoEProve", "proof/poke.go:74 ZKPoKEProve", "fiat-shamir/transcript.go:45 InitTranscript"]}
{"id": "C82", "title": "The iterative worker and its helper goroutine", "statement": "On every non-empty segment of the set (with a reduced base if it has one element) proveMembershipIter with its helper goroutine never panics, never deadlocks, has no infinite run and ends its helper; a returned slice holds, in order, the base raised to the product of the other elements of the segment. While the helper reads the shared variable iter and the proof behind it, no step changes them.", "quantifier": "all sets, segments, bases, moduli and all schedules of the two goroutines", "why_tests_cant": "tests run a few schedules; a race on the captured variable iter or a leaked helper shows up only in rare ones", "anchors": ["accumulator/concurrent.go:385 proveMembershipIter", "accumulator/concurrent.go:459 insertNewProofNodeWithChan"]}
{"id": "C83", "title": "Every value that satisfies the statement can be proved", "statement": "For every x with a <= x <= b the range prover, and for every x >= 0 the positivity prover, has a run that returns a proof.", "quantifier": "all parameters, ranges, values and numbers of goroutines", "why_tests_cant": "a call that never returns looks like a slow one, and the tests use only values in the middle of the range", "anchors": ["proof/range_proof.go:167 Prove", "proof/zkaop.go:154 Prove", "proof/three_square.go:26 ThreeSquares"]}
{"id": "C84", "title": "The Go side hands the contract the words of the proof and the public inputs in the right order", "statement": "The Solidity test cuts the 256 bytes of a raw proof into the eight numbers that were written, panics exactly on shorter input, and fills the seven inputs in the order of the circuit; for every honest update set the inputs are reduced and equal the public witness, so the contract's answer is the Groth16 equation for that set.", "quantifier": "all proofs, all honest update sets, all keys and curve points", "why_tests_cant": "the only test needs a key file and a simulated chain and checks one proof", "anchors": ["zkmultiswap/gnark-tests/solidity/solidity_groth16_test.go:95 TestVerifyProof", "zkmultiswap/gnark-tests/solidity/Notuscontract_g16.sol:186 verifyProof"]}
{"id": "C85", "title": "Key files of one size belong together and proofs made with them verify", "statement": "Whatever setup and test functions are run on an initially empty directory, for every size and both circuits either none or all three key files exist and come from one setup of that size. With keys, Prove gives a proof for every set the circuit accepts and Verify accepts it; Verify accepts a proof only for the size and public values of its set. TestMultiSwap (sizes 2 to 2^31, challenges found, no overflow) and TestMerkleMultiSwap (sizes from 1) pass on every such directory and keep the keys of other sizes.", "quantifier": "all sequences of calls, sizes, sets and random choices", "why_tests_cant": "tests run one size in a fresh directory", "anchors": ["zkmultiswap/zkmultiswap.go:20 LoadVerifyingKey", "zkmultiswap/zkmultiswap.go:36 SetupZkMultiswap", "zkmultiswap/zkmultiswap.go:56 Prove", "zkmultiswap/zkmultiswap.go:123 Verify", "zkmultiswap/common.go:199 isCircuitExist", "zkmultiswap/common.go:209 TestMultiSwap", "merkleswap/common.go:111 SetupZkMultiswap", "merkleswap/common.go:131 Prove", "merkleswap/common.go:168 Verify", "merkleswap/common.go:58 TestMerkleMultiSwap"]}
{"id": "C86", "title": "The exported contract accepts the proofs that are printed with it", "statement": "The contract that TestMultiSwapAndOutputSmartContract2 exports accepts the proof and the inputs that it prints.", "quantifier": "all sizes, directories and random choices", "why_tests_cant": "nothing in the repository runs the printed call against the exported contract", "anchors": ["zkmultiswap/common.go:238 TestMultiSwapAndOutputSmartContract", "zkmultiswap/common.go:265 TestMultiSwapAndOutputSmartContract2", "main.go:40 testbasicprocess", "zkmultiswap/gnark-tests/solidity/contract/main.go:26 generateGroth16"]}
{"id": "C87", "title": "Prove reports an error for sets that the circuit rejects", "statement": "For an update set that violates the circuit Prove returns an error, not a proof.", "quantifier": "all sets, sizes and directories", "why_tests_cant": "the tests only prove sets that satisfy the circuit", "anchors": ["zkmultiswap/zkmultiswap.go:56 Prove"]}
{"id": "C88", "title": "A membership witness for a value that is not in the set gives a root of the generator", "statement": "Let AccAndProve return an accumulator for a set, and let w verify for e against it. If e is the prime representative of a string and not among the representatives of the set, an explicit formula in w gives an e-th root of G. If e is a DI representative that does not divide the accumulated product, the formula gives a root of G of degree at least 2, up to an element whose order divides gcd(e, product). Two sets with the same accumulator and different products give a multiple of the order of G.", "quantifier": "all sets, encodings, setups with invertible G, values e and forged witnesses w; primality test assumed right for the prime case", "why_tests_cant": "a test cannot produce a forged witness", "anchors": ["accumulator/accumulator.go:225 AccumulateNew", "accumulator/accumulator.go:46 AccAndProve", "accumulator/hashes.go:37 HashToPrime", "accumulator/hashes.go:100 DIHashPoseidon"]}
{"id": "C89", "title": "A membership witness is unique", "statement": "For an element of the set only the witness that AccAndProve returns verifies among the numbers below N.", "quantifier": "all sets, encodings, setups with G invertible and reduced, elements and numbers below N", "why_tests_cant": "the tests only check the returned witness, not that others are rejected", "anchors": ["accumulator/accumulator.go:225 AccumulateNew", "accumulator/accumulator.go:46 AccAndProve", "accumulator/hashes.go:100 DIHashPoseidon"]}
{"id": "C90", "title": "What an accepted exponent proof yields", "statement": "PoEVerify accepts Q exactly if C is reduced and Q base^(-(x div l)) is an l-th root of C base^(-x), so a proof of a false statement is a root of a number other than 1. An accepted PoKE* proof for C = G^x has a residue congruent to x modulo the prime challenge l, or an explicit formula gives an l-th root of G.", "quantifier": "all moduli, invertible bases, statements, proofs and exponents", "why_tests_cant": "the tests only verify honest proofs", "anchors": ["proof/poke.go:50 PoKEStarVerify", "proof/poke.go:178 PoEVerify"]}
{"id": "C91", "title": "The universal hash is a universal family", "statement": "For a prime P and two different inputs below P, the share of the parameters (A, B) that RandomSetupForUniversalHash can draw for which UniversalHashToInt gives the same value is at most one divided by the number of values.", "quantifier": "all odd primes P, all inputs, all parameters that can be drawn", "why_tests_cant": "it counts all parameters; the tests use one choice", "anchors": ["accumulator/hashes.go:87 UniversalHashToInt", "accumulator/common.go:254 RandomSetupForUniversalHash", "accumulator/common.go:269 getPrime256"]}
{"id": "C92", "title": "The contract accepts one proof per statement", "statement": "For given inputs verifyProof accepts at most one proof.", "quantifier": "all keys, inputs and proofs; precompiled contracts as in EIP-196 and EIP-197", "why_tests_cant": "the tests call the contract with one honest proof and never change it", "anchors": ["Notuscontract_g16.sol:186 verifyProof", "contract_g16.sol:186 verifyProof", "zkmultiswap/gnark-tests/solidity/Notuscontract_g16.sol:186 verifyProof"]}
{"id": "C93", "title": "Number of goroutines of the parallel functions", "statement": "SetProductParallel and the ProveMembershipParallel functions use at most O(2^limit) goroutines, and none of them is left running when the function returns.", "quantifier": "all sets, limits and schedules", "why_tests_cant": "it bounds the goroutines that exist at the same time in every schedule; the tests do not count them and never pass a negative limit", "anchors": ["accumulator/common.go:170 SetProductParallel", "accumulator/common.go:194 setProductParallelWithChan", "accumulator/concurrent.go:48 ProveMembershipParallel", "accumulator/concurrent.go:102 ProveMembershipParallelWithTable", "accumulator/concurrent.go:176 ProveMembershipParallelWithTableWithRandomizer", "accumulator/concurrent.go:231 ProveMembershipParallelWithTableWithRandomizerWithChan", "accumulator/concurrent.go:287 proveMembershipWithChan"]}
{"id": "C94", "title": "TestBasicZKrsa can come to its end", "statement": "On every machine TestBasicZKrsa has a run that reaches its end, and whenever the three squares are found both proofs verify and the accumulator is the randomized one.", "quantifier": "all numbers of CPUs, parameters, set sizes and random numbers", "why_tests_cant": "the search for the squares of 401 loops for ever on machines with fewer than four CPUs; a test runs on one machine", "anchors": ["experiments/finaltests.go:43 TestBasicZKrsa", "proof/three_square.go:26 ThreeSquares"]}
{"id": "C95", "title": "Precompute tables of the membership benchmarks are large enough", "statement": "In TestRSAMembershipPreCompute, TestRSAMembershipPreComputeDIParallel and preComputeDISingleThread the table has a bit for every bit of the exponents that are looked up in it.", "quantifier": "all set sizes, randomizers below 2^2047 and hash functions", "why_tests_cant": "the benchmarks run with a few sizes and random numbers", "anchors": ["experiments/finaltests.go:106 TestRSAMembershipPreCompute", "experiments/finaltests.go:180 TestRSAMembershipPreComputeDIParallel", "experiments/finaltests.go:256 preComputeDISingleThread", "accumulator/zkacc.go:11 GenRandomizer"]}
{"id": "C96", "title": "main comes to its end for every input", "statement": "For every input and every directory that the programs left behind main ends without a panic; everything it verifies passes if no record hash plus delta overflows the field; other inputs than 1 to 6 and 9 do nothing.", "quantifier": "all inputs, directories, random numbers and sequences of calls", "why_tests_cant": "it speaks about the directory left by any earlier runs; the full program runs for hours", "anchors": ["main.go:89 main", "main.go:22 testMembershipproof", "main.go:40 testbasicprocess", "main.go:51 singleCoreComponentProfiler", "main.go:61 testNotusParallel"]}
{"id": "C97", "title": "The swap experiments prove the update they computed", "statement": "The update set that TestNotusMultiSwap and TestNotusParallel prove and verify at their end is the one computed before.", "quantifier": "all sizes, hash functions, random numbers and directories", "why_tests_cant": "the verdict that is printed does not depend on the computed set, so the run looks the same", "anchors": ["experiments/finaltests.go:472 TestNotusMultiSwap", "experiments/finaltests.go:617 TestNotusParallel"]}
{"id": "C98", "title": "Honest updates with record hashes near the field order", "statement": "Of all possible record hashes exactly delta overflow the field when delta is added, and an honest update in which exactly one hash overflows is rejected by the circuit. In the sets of GenTestSet this is fewer than one in 2^14 of the hashes.", "quantifier": "all honest updates with prime challenges that divide no factor", "why_tests_cant": "it quantifies over all updates and hash values; a test with few users can miss the overflow", "anchors": ["zkmultiswap/circuit.go:37 Define", "zkmultiswap/common.go:102 GenTestSet"]}
{"id": "C99", "title": "Range proofs hide the value and its opening", "statement": "Two openings (x, r) and (x', r') of the same commitment lead to range proofs whose distributions differ by at most 2^-128, the security parameter of the code.", "quantifier": "all hash functions, good parameters, ranges, pairs of openings of one commitment, results of ThreeSquares, and all tests on the proof", "why_tests_cant": "it compares distributions over random numbers of more than 4000 bits for all pairs of secrets", "anchors": ["proof/range_proof.go:255 commit", "proof/range_proof.go:336 response", "proof/parameters.go:111 freshRandCoin"]}
{"id": "C100", "title": "Arguments of positivity hide the value and its opening", "statement": "Two openings (x, r) and (x', r') of the same commitment lead to arguments of positivity whose distributions differ by at most 2^-128.", "quantifier": "all hash functions, good parameters, pairs of openings of one commitment, results of ThreeSquares, and all tests on the proof", "why_tests_cant": "it compares distributions over random numbers of more than 4000 bits for all pairs of secrets", "anchors": ["proof/zkaop.go:209 commit", "proof/zkaop.go:285 response", "proof/parameters.go:111 freshRandCoin"]}
{"id": "C101", "title": "ZKAccumulate hides the set", "statement": "The accumulators of two sets with the same number of elements have distributions, over the randomizer, that differ by at most 2^-128.", "quantifier": "all hash functions, encodings, setups with G invertible modulo N, pairs of non-empty sets of the same size, and all tests on the accumulator", "why_tests_cant": "it compares distributions over a 2047-bit random number for all pairs of sets", "anchors": ["accumulator/zkacc.go:11 GenRandomizer", "accumulator/zkacc.go:20 ZKAccumulate"]}
{"id": "C102", "title": "ZKPoKE hides which exponent was used", "statement": "For two exponents x, x' of the same w that lead to the same set of commitments z, the distributions of the proofs differ by at most 2^-128.", "quantifier": "all hash functions, good parameters, invertible bases u, pairs of exponents, and all tests on the result", "why_tests_cant": "it compares distributions over three random numbers of more than 2300 bits for all pairs of exponents", "anchors": ["proof/poke.go:74 ZKPoKEProve"]}
{"id": "C103", "title": "The tests of package accumulator pass on every draw", "statement": "TestSetup, TestCommonBits, TestAccAndProve, TestAccAndProveIter, TestAccAndProveIterParallel, TestProduct, TestGCB and TestSimpleExp neither panic nor report an error, whatever they draw at random and however the goroutines are scheduled.", "quantifier": "all hash functions for which the representatives are found, all drawn sets and numbers, all schedules and numbers of CPUs", "why_tests_cant": "a run of the tests sees one draw and one schedule; a draw that fails can be one in a million", "anchors": ["accumulator/accumulator_test.go:12 TestSetup", "accumulator/accumulator_test.go:31 TestAccAndProve", "accumulator/accumulator_test.go:96 TestAccAndProveIter", "accumulator/concurrent_test.go:5 TestAccAndProveIterParallel", "accumulator/common_test.go:7 TestProduct", "accumulator/mulexp_test.go:9 TestCommonBits", "accumulator/mulexp_test.go:28 TestGCB", "accumulator/mulexp_test.go:58 TestSimpleExp"]}
{"id": "C104", "title": "The micro-benchmarks of package accumulator do not panic", "statement": "The loops of BenchmarkExp, BenchmarkDoubleExp, BenchmarkFourfoldExp, BenchmarkSimpleExp and BenchmarkGCB end without a panic for every number of rounds b.N and every draw.", "quantifier": "all numbers of rounds chosen by the testing framework, all drawn sets", "why_tests_cant": "the number of rounds depends on the speed of the machine and the draws are random", "anchors": ["accumulator/benchmark_test.go:128 BenchmarkExp", "accumulator/benchmark_test.go:150 BenchmarkDoubleExp", "accumulator/benchmark_test.go:171 BenchmarkFourfoldExp", "accumulator/benchmark_test.go:192 BenchmarkSimpleExp", "accumulator/benchmark_test.go:211 BenchmarkGCB"]}
{"id": "C105", "title": "The tests of package fiat-shamir pass for every hash function", "statement": "TestConstants, TestTranscript, TestPrimeChallengeLength and FuzzChallenge report nothing on any input, for every hash function and every primality test that rejects 2^239. The second check of TestChallenge always passes; the first one fails exactly if two prime challenges coincide.", "quantifier": "all hash functions, primality tests that reject 2^239, and fuzz inputs", "why_tests_cant": "the fuzz target has unboundedly many inputs and the tests run with one hash function", "anchors": ["fiat-shamir/transcript_test.go:9 TestConstants", "fiat-shamir/transcript_test.go:15 TestTranscript", "fiat-shamir/transcript_test.go:43 TestChallenge", "fiat-shamir/transcript_test.go:64 TestPrimeChallengeLength", "fiat-shamir/transcript_test.go:91 FuzzChallenge"]}
{"id": "C106", "title": "TestTable_Compute passes under every schedule", "statement": "In both cases of TestTable_Compute, and in BenchmarkPrecompute, no goroutine panics, every execution ends, some goroutine can move until the result is returned, and only the expected nonzero number is returned.", "quantifier": "all schedules of the four workers, all hash functions used for the representatives", "why_tests_cant": "a run of the test sees one schedule", "anchors": ["precompute/precompute_test.go:98 TestTable_Compute", "precompute/precompute_test.go:150 accumulate", "precompute/precompute_test.go:167 BenchmarkPrecompute"]}
{"id": "C107", "title": "The tests of package zkmultiswap pass for every hash function", "statement": "TestPublicWitness reports nothing and the solver rejects every changed assignment of TestZkMultiSwapFailCases, whatever the Poseidon hash.", "quantifier": "all hash functions and setups for which GenTestSet returns a set of 10 users", "why_tests_cant": "the tests run with one hash function, so they cannot tell a rejection by a range check from one by a changed hash", "anchors": ["zkmultiswap/zkmultiswap_test.go:15 TestPublicWitness", "zkmultiswap/zkmultiswap_test.go:55 TestZkMultiSwap", "zkmultiswap/zkmultiswap_test.go:67 TestZkMultiSwapFailCases"]}
{"id": "C108", "title": "Commitments hide the committed numbers", "statement": "With parameters from a run of TrustedSetupForQRN, no test tells the three commitments sent for one triple of squares from those sent for another triple with an advantage above 2^-1020, although the coins are drawn from 0..N and N+1 is no multiple of the order of h.", "quantifier": "all runs of the setup with a sound primality test, different primes, a prime r of another length; all triples; all tests of any running time", "why_tests_cant": "hiding is a statement about distributions over 2^6144 coins and all distinguishers", "anchors": ["proof/range_proof.go:188 calC", "proof/range_proof.go:243 newRPCommitFromFS", "proof/zkaop.go:197 newZKAoPCommitFromTS", "proof/poke.go:74 ZKPoKEProve", "accumulator/common.go:231 TrustedSetupForQRN"]}
{"id": "C109", "title": "The printed bases generate the squares", "statement": "Both g and h printed by TrustedSetupForQRN generate the group of invertible squares modulo N.", "quantifier": "all runs of the setup with a sound primality test and different primes", "why_tests_cant": "a bad draw has probability about 2^-1023, and the group has more than 2^2000 elements", "anchors": ["accumulator/common.go:231 TrustedSetupForQRN", "accumulator/common.go:385 getRanQR"]}
{"id": "C110", "title": "Verifiers of exponent proofs return a boolean", "statement": "PoKEStarVerify, PoEVerify and ZKPoKEVerify return a boolean for every proof value, also for one with missing (nil) parts.", "quantifier": "all proof values, public parameters with positive modulus, hash functions for which the prime challenge is found", "why_tests_cant": "whether ZKPoKEVerify panics depends on which parts are missing and on whether the first equation holds", "anchors": ["proof/poke.go:50 PoKEStarVerify", "proof/poke.go:126 ZKPoKEVerify", "proof/poke.go:178 PoEVerify"]}
{"id": "C111", "title": "GenerateG announces a factor only if it has one", "statement": "If GenerateG prints that it wins the RSA-2048 challenge, then the common divisor is a proper factor of N; the printed generator is the product of the eight digests of the hash chain modulo N.", "quantifier": "all hash functions and all moduli", "why_tests_cant": "a run sees one hash function and one modulus; the branch is never reached in practice", "anchors": ["accumulator/common.go:82 GenerateG", "accumulator/hashes.go:63 SHA256ToInt"]}
{"id": "C112", "title": "PoseidonWith2Inputs hashes the remainders of two numbers", "statement": "PoseidonWith2Inputs panics exactly if it does not get two numbers; otherwise the result is the Poseidon hash of the two remainders modulo the field order in the given order, so numbers congruent modulo the field order give the same result and any other coincidence is a collision of Poseidon.", "quantifier": "all lists of integers of any size and sign, all Poseidon functions", "why_tests_cant": "all integers; coincidences modulo a 254-bit number are not met at random", "anchors": ["accumulator/hashes.go:76 PoseidonWith2Inputs"]}
{"id": "C113", "title": "Mul and Div scale all four numbers of a group", "statement": "Int4.Mul replaces each of the four numbers by its product with n, Int4.Div by its quotient by n (panicking exactly for zero), wherever n and the four numbers are stored, and no other integer changes.", "quantifier": "all groups of four pointers, all pointers n, all contents of the memory", "why_tests_cant": "the calls go wrong only if pointers coincide, which no test tries", "anchors": ["proof/parameters.go:35 NewInt4", "proof/parameters.go:63 Mul", "proof/parameters.go:70 Div"]}
{"id": "C114", "title": "Returned witnesses do not share memory with the setup", "statement": "ProveMembershipIter is called with a copy *setup.G of the header of an integer. Still, whatever is later written to the words of a returned witness, setup.G and the other witnesses keep their values.", "quantifier": "all bases, moduli, sets and later writes", "why_tests_cant": "tests do not write to witnesses; sharing shows only later and elsewhere", "anchors": ["accumulator/accumulator.go:136 ProveMembershipIter", "accumulator/accumulator.go:169 insertNewProofNode", "accumulator/accumulator.go:231 accumulate"]}
{"id": "C115", "title": "All witnesses in O(n log n) work", "statement": "ProveMembership computes the witnesses of a set of n representatives of at most B bits with exponents of at most 3 n B ceil(log4 n) bits together (\"in time O(nlog(n))\"), and ProveMembershipIter uses exactly n ceil(log2 n) + n - 2^ceil(log2 n) exponentiations, each by an element of the set. ProveMembershipParallel uses exponents of at most 3/2 n B (ceil(log2 n) + 1) bits in all goroutines together.", "quantifier": "all sets of any size, all bases and moduli, all bounds B, all limits and schedules", "why_tests_cant": "running times of a few sizes do not give a bound for all sizes", "anchors": ["accumulator/accumulator.go:100 ProveMembership", "accumulator/accumulator.go:136 ProveMembershipIter", "accumulator/accumulator.go:169 insertNewProofNode", "accumulator/accumulator.go:186 handleSmallSet", "accumulator/concurrent.go:48 ProveMembershipParallel", "accumulator/concurrent.go:287 proveMembershipWithChan"]}
{"id": "C116", "title": "One verifier object used by several goroutines", "statement": "Goroutines that call Verify on the same RPVerifier or ZKAoPVerifier each get the result they would get alone.", "quantifier": "all proofs, numbers of goroutines and schedules", "why_tests_cant": "the tests verify in one goroutine; wrong results need a particular interleaving of single statements", "anchors": ["proof/range_proof.go:396 Verify", "proof/range_proof.go:425 VerifyResponse", "proof/zkaop.go:338 Verify", "proof/zkaop.go:359 VerifyResponse"]}
{"id": "C117", "title": "One prover object used by several goroutines", "statement": "Goroutines that call Prove on the same RPProver or ZKAoPProver each get a proof that verifies.", "quantifier": "all numbers to prove, coins, numbers of goroutines and schedules", "why_tests_cant": "the tests prove in one goroutine; a wrong proof, or masks used twice, need a particular interleaving", "anchors": ["proof/range_proof.go:167 Prove", "proof/range_proof.go:210 commitForX", "proof/range_proof.go:255 commit", "proof/range_proof.go:336 response", "proof/zkaop.go:154 Prove", "proof/zkaop.go:285 response"]}
{"id": "C118", "title": "Representatives of other strings do not divide the accumulated product", "statement": "If the representative of a string is not among the representatives of a set, it does not divide their product, so no witness for it can be computed by division.", "quantifier": "all sets, strings, encode types and injective Poseidon functions", "why_tests_cant": "the tests accumulate consecutive numbers; a division needs chosen hash values", "anchors": ["accumulator/accumulator.go:34 GenRepresentatives", "accumulator/genRep.go:17 genRepWithDIHashFromPoseidon", "accumulator/hashes.go:100 DIHashPoseidon", "accumulator/hashes.go:37 HashToPrime"]}
{"id": "C119", "title": "The accumulator binds the set", "statement": "Two sets with the same accumulator have the same representatives, or the difference of the two products is a non-zero multiple of the order of the generator.", "quantifier": "all pairs of sets, encode types and setups with an invertible generator", "why_tests_cant": "no test compares accumulators of different sets; all pairs of sets can not be tried", "anchors": ["accumulator/accumulator.go:46 AccAndProve", "accumulator/accumulator.go:34 GenRepresentatives", "accumulator/genRep.go:9 genRepWithHashToPrimeFromSHA256", "accumulator/genRep.go:17 genRepWithDIHashFromPoseidon"]}
{"id": "C120", "title": "Verifiers of exponent proofs refuse negated statements", "statement": "A proof made from an honest one by changing signs is not accepted for the negated, false statement.", "quantifier": "all hash functions, moduli, bases, exponents and challenges", "why_tests_cant": "the tests verify honest proofs; that a negated proof passes depends on the parity of the challenge for all statements", "anchors": ["proof/poke.go:178 PoEVerify", "proof/poke.go:50 PoKEStarVerify", "proof/poke.go:126 ZKPoKEVerify"]}
{"id": "C121", "title": "Accepted proofs for several challenges determine the exponent", "statement": "Accepted proofs of one statement for pairwise coprime challenges combine: PoKE* gives one exponent X below the product L of the challenges such that the statement is the X-th power of the generator times an L-th power, and X is the exponent of the statement unless a root of the generator of prime degree is computed; ZKPoKE gives one pair of exponents that fits both equations, and two integer challenges remove the first message.", "quantifier": "all setups, statements and lists of accepted runs with pairwise coprime challenges", "why_tests_cant": "the tests run one challenge per statement; the claim is about all lists of accepting runs", "anchors": ["proof/poke.go:50 PoKEStarVerify", "proof/poke.go:126 ZKPoKEVerify"]}
{"id": "C122", "title": "Accepted remainders tie the accumulators to the update", "statement": "If the challenges are those of SetupTranscript, the circuit accepts and the proofs of exponentiation Q1^L1 mid^R1 = old and Q2^L2 mid^R2 = new hold with its remainders, then old and new are the powers of mid by the products of the removed and the inserted representatives.", "quantifier": "all hash functions, moduli, generators, epochs, circuit assignments, accumulators and proofs", "why_tests_cant": "the experiment computes all three accumulators honestly and has the check commented out; the claim is about all accumulators", "anchors": ["zkmultiswap/common.go:95 SetupTranscript", "zkmultiswap/circuit.go:37 Define", "experiments/finaltests.go:305 PoKE"]}
{"id": "C123", "title": "No record is spent twice", "statement": "Start with one record per user and apply any number of updates that the circuit accepts, each removing record hashes that are present. Unless Poseidon collides among the records, no record is removed twice, no removed record is present again, every user keeps exactly one record, and the total balance is the first one plus all changes. Nothing is assumed about the epochs of different updates.", "quantifier": "all hash functions, first ledgers, lists of accepted updates", "why_tests_cant": "the tests run single updates; the claim is about all sequences of accepted updates", "anchors": ["zkmultiswap/circuit.go:37 Define"]}
{"id": "C124", "title": "The sums of an accepted update are the totals of the ledger", "statement": "If the circuit accepts an update of a ledger, OriginalSum is the total balance before and UpdatedSum the total balance after it.", "quantifier": "all hash functions, ledgers and accepted updates", "why_tests_cant": "the tests use sums chosen by GenTestSet; the claim compares the secret inputs with all ledgers", "anchors": ["zkmultiswap/circuit.go:37 Define", "zkmultiswap/circuit.go:11 Circuit"]}
{"id": "C125", "title": "The randomizers of MultiSwap blind the accumulators", "statement": "For a random randomizer that the circuit accepts, the accumulator of the removed set cannot be told from a random power of the middle accumulator with an advantage above 2^-128.", "quantifier": "all hash functions, moduli, middle accumulators, products of representatives and tests", "why_tests_cant": "the tests use the fixed randomizers 200 and 300; the claim compares distributions", "anchors": ["zkmultiswap/circuit.go:37 Define", "experiments/finaltests.go:472 TestNotusMultiSwap"]}
{"id": "C126", "title": "A record hash fixes the history of its user", "statement": "After any number of accepted updates every record hash of the ledger has a history: a list of records of one user with rising epochs, each containing the hash of the one it replaced, that begins in the first ledger. Unless Poseidon collides, two histories with the same last hash agree as far as the shorter one goes, and they are equal if the first records contain no record hashes.", "quantifier": "all hash functions, first ledgers, lists of accepted updates and histories", "why_tests_cant": "the tests run single updates; the claim is about histories of any length", "anchors": ["zkmultiswap/circuit.go:37 Define"]}
{"id": "C127", "title": "An accepted exponent proof shows that an exponent exists", "statement": "If PoKEStarVerify accepts, then C is an integer power of the base G.", "quantifier": "all moduli, nonnegative bases, statements, proofs and hash functions", "why_tests_cant": "the tests only verify honest proofs for the fixed base", "anchors": ["proof/poke.go:50 PoKEStarVerify"]}
{"id": "C128", "title": "Accepted public inputs fix the remainders of the real representatives", "statement": "If Verify accepts a proof made by Prove with the public part of the update set, then RemainderR1 and RemainderR2 are the remainders modulo the challenges of the product of the representatives (record hash + 2^1023) and of the blinding factors, for the removed and for the inserted records.", "quantifier": "all update sets with public inputs in the field and randomizers of 32 bits whose hash + delta does not leave the field, all complete and binding proof systems, all directories reachable by the code", "why_tests_cant": "the tests only use deltas that GenTestSet computed from Min1024", "anchors": ["zkmultiswap/zkmultiswap.go:123 Verify", "zkmultiswap/circuit.go:37 Define", "zkmultiswap/zkmultiswap.go:56 Prove"]}
{"id": "C129", "title": "The manual benchmarks return for every positive set size and compute what they name", "statement": "ManualBench, ManualBenchZKAcc, ManualBenchIter, ManualBenchParallel and ManualBenchIterParallel return exactly for positive set sizes, and then the timed call gives the accumulator of the benchmark set (with G^r for the randomizer r in ManualBenchZKAcc) and one verifying witness for each of its elements, in every schedule.", "quantifier": "all int sizes, setups, hash functions, randomizers, CPU counts that are powers of two, all schedules", "why_tests_cant": "no test calls these functions and they throw their results away", "anchors": ["accumulator/manualbench.go:10 ManualBench", "accumulator/manualbench.go:23 ManualBenchZKAcc", "accumulator/manualbench.go:35 ManualBenchIter", "accumulator/manualbench.go:48 ManualBenchParallel", "accumulator/manualbench.go:61 ManualBenchIterParallel", "accumulator/manualbench.go:73 GenBenchSet"]}
{"id": "C130", "title": "The product experiments print the length of the product", "statement": "Every length that TestProduct, TestProduct2 and TestProduct3 print is the bit length of the product of the representatives of the benchmark set.", "quantifier": "all set sizes and hash functions", "why_tests_cant": "the programs print the numbers and nothing compares them", "anchors": ["experiments/integers.go:48 TestProduct", "experiments/integers.go:71 TestProduct2", "experiments/integers.go:96 TestProduct3", "experiments/integers.go:26 TestMembership", "experiments/integers.go:12 TestFirstLayerPercentage"]}
{"id": "C131", "title": "The grouping experiment serves the same number of users for every group size", "statement": "Whenever TestDifferentGroupingSize returns, its rounds together make membership proofs for 262144 users.", "quantifier": "all group sizes of type int, setups, hash functions and randomizers", "why_tests_cant": "the number of users is not counted by the program, only announced", "anchors": ["experiments/finaltests.go:267 TestDifferentGroupingSize", "experiments/finaltests.go:256 preComputeDISingleThread", "experiments/finaltests.go:286 TestDifferentGroupSize", "experiments/finaltests.go:137 TestDifferentMembership", "experiments/finaltests.go:227 TestDifferentMembershipForDI", "experiments/finaltests.go:248 TestDifferentMembershipForDISingleThread"]}
{"id": "C132", "title": "A failure of the random source is reported", "statement": "If a call of the random source fails, then the range prover, the positivity prover, ZKPoKEProve, GenRandomizer, ZKAccumulate or the group benchmark that made it ends with an error or a panic; a proof is returned exactly if all draws succeed, and it is the proof for the drawn numbers.", "quantifier": "all random sources, prover states, inputs, hash functions; benchmarks with at least one round", "why_tests_cant": "the system's random source does not fail in a test, so the error paths are never run", "anchors": ["proof/parameters.go:89 newFourRandCoins", "proof/parameters.go:100 newThreeRandCoins", "proof/parameters.go:111 freshRandCoin", "proof/range_proof.go:167 Prove", "proof/zkaop.go:154 Prove", "proof/poke.go:74 ZKPoKEProve", "accumulator/zkacc.go:11 GenRandomizer", "accumulator/zkacc.go:20 ZKAccumulate", "accumulator/benchmark_test.go:72 BenchmarkGroupElementMul", "accumulator/benchmark_test.go:91 BenchmarkGroupElementSquare"]}
{"id": "C133", "title": "No goroutine is left running by ThreeSquares or Table.Compute", "statement": "When ThreeSquares(n) with n = 1 (mod 4) has returned, all goroutines it started can still end. When Table.Compute has returned, its channels are empty, its collector has finished, and in every execution all its workers stop.", "quantifier": "all n, CPU counts, random numbers and schedules; all tables from NewTable, numbers and worker counts", "why_tests_cant": "a test sees only the returned value; a goroutine that spins after the return shows only as CPU use", "anchors": ["proof/three_square.go:26 ThreeSquares", "proof/three_square.go:38 routineFindTS", "precompute/precompute.go:37 Compute", "precompute/precompute.go:85 routineCompute"]}
{"id": "C134", "title": "Tables of the declared size with 64-bit integers", "statement": "Whenever NewTable returns, the table has (bits of the bound) * numElements / (8 * byteChunkSize) entries, computed without overflow. Compute returns for a number of goroutines of type int only with the correct power.", "quantifier": "all bounds, all uint64 element counts, all int chunk sizes, all int numbers of goroutines", "why_tests_cant": "overflow needs element counts near 2^63 / bits; no test uses such arguments", "anchors": ["precompute/precompute.go:19 NewTable", "precompute/precompute.go:37 Compute", "precompute/comfromtable.go:34 GenPreTable"]}
{"id": "C135", "title": "Adding, removing and replacing elements agrees with recomputing", "statement": "Raising accumulator and witnesses with AccumulateNew to the new representatives gives what AccAndProve returns for the longer list; the witness of a string is what AccAndProve returns as accumulator of the list without it; and the witness raised to another representative is the accumulator after replacing the string.", "quantifier": "all sets, encodings, setups and positions", "why_tests_cant": "tests compare single values for fixed sets", "anchors": ["accumulator/accumulator.go:225 AccumulateNew", "accumulator/accumulator.go:46 AccAndProve", "accumulator/accumulator.go:100 ProveMembership", "accumulator/accumulator.go:231 accumulate"]}
{"id": "C136", "title": "What is printed determines what was printed", "statement": "Different values have different texts: the text of Int4.String determines the four numbers (nil pointers included), the text of PrintTable the table, and the text of Transcript.Print the strings of the transcript.", "quantifier": "all groups of numbers, all tables with as many offsets as bases, all transcripts", "why_tests_cant": "an ambiguity concerns pairs of values; the tests print single transcripts", "anchors": ["proof/parameters.go:77 String", "precompute/comfromtable.go:26 PrintTable", "fiat-shamir/transcript.go:37 Print"]}
{"id": "C137", "title": "The benchmarks of the provers time the same task", "statement": "Every round of BenchmarkAccAndProve, BenchmarkProveMembership, BenchmarkProveMembershipIter and BenchmarkProveMembershipParallel gives the same 1000 correct witnesses; they return exactly if HashToPrime finds a prime for each string. BenchmarkHashToPrime and BenchmarkAccumulateNew256bits use the same prime of at most 256 bits in every round.", "quantifier": "all numbers of rounds, hash functions and schedules", "why_tests_cant": "benchmarks drop the results", "anchors": ["accumulator/benchmark_test.go:11 BenchmarkHashToPrime", "accumulator/benchmark_test.go:19 BenchmarkAccAndProve", "accumulator/benchmark_test.go:29 BenchmarkProveMembership", "accumulator/benchmark_test.go:40 BenchmarkProveMembershipIter", "accumulator/benchmark_test.go:51 BenchmarkProveMembershipParallel", "accumulator/benchmark_test.go:62 BenchmarkAccumulateNew256bits"]}
{"id": "C138", "title": "The pooled target does not disturb the workers of ThreeSquares", "statement": "The provers give ThreeSquares a pooled integer and put it back when they have the result, while other workers may still read it. The result is a correct decomposition whatever is written to the integer afterwards. If every number the search looks at has a root, all workers can still end after the return.", "quantifier": "all targets, CPU counts, random numbers, schedules and values written by other goroutines", "why_tests_cant": "the worker must be between two statements when the caller returns, and another goroutine must reuse the integer just then", "anchors": ["proof/range_proof.go:210 commitForX", "proof/zkaop.go:172 commitForX", "proof/three_square.go:38 routineFindTS", "proof/three_square.go:79 findTwoSquares"]}
{"id": "C139", "title": "The tests pass also after runs that were stopped", "statement": "Whatever setups, tests and exports were run on an initially empty directory, each to its end or stopped at any moment, TestMultiSwap of a size from 2 to 2^31 passes if the challenges are found and no hash plus delta overflows the field.", "quantifier": "all sequences of runs, all moments of interruption, all orders in which the library writes its files, all sizes and random numbers", "why_tests_cant": "a test process that is killed while it writes does not report, and the next run starts from what it left", "anchors": ["zkmultiswap/common.go:199 isCircuitExist", "zkmultiswap/common.go:209 TestMultiSwap", "zkmultiswap/common.go:238 TestMultiSwapAndOutputSmartContract", "zkmultiswap/common.go:265 TestMultiSwapAndOutputSmartContract2", "zkmultiswap/zkmultiswap.go:36 SetupZkMultiswap", "merkleswap/common.go:58 TestMerkleMultiSwap"]}
{"id": "C140", "title": "Errors of the file system do not change a result", "statement": "Whatever file operations fail, if a test, an export or the generator of the contract returns without an error, then it has the result, and leaves the directory, of a run in which no operation fails.", "quantifier": "all patterns of failing operations, all directories left by runs without failures, all sizes, random numbers and orders in which the library writes", "why_tests_cant": "the tests run on a disk that works; every operation can fail, alone or together with others", "anchors": ["zkmultiswap/zkmultiswap.go:20 LoadVerifyingKey", "zkmultiswap/common.go:199 isCircuitExist", "zkmultiswap/common.go:209 TestMultiSwap", "zkmultiswap/common.go:238 TestMultiSwapAndOutputSmartContract", "zkmultiswap/common.go:265 TestMultiSwapAndOutputSmartContract2", "zkmultiswap/gnark-tests/solidity/contract/main.go:26 generateGroth16", "merkleswap/common.go:58 TestMerkleMultiSwap"]}
{"id": "C141", "title": "Files that are opened are closed", "statement": "When a function of the SNARK part returns, the files it opened are closed.", "quantifier": "all patterns of failing operations, all directories, sizes and random numbers", "why_tests_cant": "a file that stays open is not visible in a test, and most of the paths need a failing operation", "anchors": ["zkmultiswap/zkmultiswap.go:20 LoadVerifyingKey", "zkmultiswap/common.go:199 isCircuitExist", "zkmultiswap/common.go:209 TestMultiSwap", "zkmultiswap/common.go:238 TestMultiSwapAndOutputSmartContract", "zkmultiswap/common.go:265 TestMultiSwapAndOutputSmartContract2", "zkmultiswap/gnark-tests/solidity/contract/main.go:26 generateGroth16", "merkleswap/common.go:58 TestMerkleMultiSwap"]}
{"id": "C142", "title": "The printed size of the precomputation table is enough for the table", "statement": "The numbers in the table made by TestPreComputeTableSize take no more bytes than the number of bytes it prints.", "quantifier": "all set sizes and all libraries that make a table of powers of the asked length", "why_tests_cant": "the program only prints the number; nothing compares it with the table, and the smallest table of the code has two million entries", "anchors": ["experiments/finaltests.go:211 TestPreComputeTableSize", "experiments/finaltests.go:295 TestDifferentPrecomputationTableSize"]}
{"id": "C143", "title": "The setup does not print the factors of the modulus", "statement": "The text printed by a completed run of TrustedSetupForQRN contains no number that is a proper factor of the modulus it prints.", "quantifier": "all random sources, all tests for primes that are exact, all numbers of rounds", "why_tests_cant": "a test cannot capture what is printed for every choice of the primes, and one run takes very long", "anchors": ["accumulator/common.go:231 TrustedSetupForQRN", "accumulator/common.go:367 getSafePrime"]}
{"id": "C144", "title": "The two primes of the setup differ", "statement": "In every completed run of TrustedSetupForQRN the two safe primes are different.", "quantifier": "all random sources that give primes of 1023 bits", "why_tests_cant": "equal primes are too unlikely for a test; nothing in the code compares them", "anchors": ["accumulator/common.go:231 TrustedSetupForQRN", "accumulator/common.go:367 getSafePrime"]}
{"id": "C145", "title": "Errors of the random source end the setup before parameters are printed", "statement": "TrustedSetupForQRN and RandomSetupForUniversalHash panic exactly if a call of the random source fails, and they print their parameters exactly if they complete.", "quantifier": "all random sources that may fail at any call, all tests for primes, all numbers of rounds", "why_tests_cant": "the random source of the system does not fail in a test", "anchors": ["accumulator/common.go:231 TrustedSetupForQRN", "accumulator/common.go:254 RandomSetupForUniversalHash", "accumulator/common.go:269 getPrime256", "accumulator/common.go:346 getSuitablePrime", "accumulator/common.go:385 getRanQR"]}
{"id": "C146", "title": "The modulus of the setup has 2048 bits and the bases are reduced and invertible", "statement": "In every completed run of TrustedSetupForQRN both primes have 1024 bits, N has 2048 bits, and g and h are positive, smaller than N and coprime to N.", "quantifier": "all random sources whose primes have the asked number of bits with the two highest bits set", "why_tests_cant": "the sizes must hold for every choice of primes; a test sees a few", "anchors": ["accumulator/common.go:231 TrustedSetupForQRN", "accumulator/common.go:367 getSafePrime", "accumulator/common.go:346 getSuitablePrime", "accumulator/common.go:385 getRanQR"]}
{"id": "C147", "title": "The built-in parameters look like those of the setup", "statement": "What can be checked of (N, g, h) without the factors of N holds for every completed run of TrustedSetupForQRN and for the constants of the code: N has 2048 bits, is composite and 1 modulo 12, g has at most 2047 bits, h is below N and both have Jacobi symbol 1. RandomSetupForUniversalHash can print the constants P, A and B.", "quantifier": "all random sources and all sound tests for primes", "why_tests_cant": "tests use the constants and never compare them with the setup", "anchors": ["accumulator/common.go:231 TrustedSetupForQRN", "accumulator/common.go:254 RandomSetupForUniversalHash", "accumulator/common.go:269 getPrime256", "accumulator/accumulator.go:21 TrustedSetup"]}
{"id": "C148", "title": "The verdict on an argument of positivity does not depend on the pool of integers", "statement": "ZKAoPVerifier.Verify gives the same verdict for the same parameters and proof, whatever value the integer taken from the pool holds.", "quantifier": "all parameters, all proofs (also adversarial), all values left in the pool", "why_tests_cant": "tests use a fresh pool and honest proofs; the old value is used only if an inverse does not exist", "anchors": ["proof/zkaop.go:338 Verify", "proof/zkaop.go:359 VerifyResponse"]}
{"id": "C149", "title": "The bytecode in the Go binding does what the source of the contract says", "statement": "A run of the 8104 bytes of contract code in the binding ends for every call of verifyProof as the Solidity source next to it says for the key written there: the same truth value, a revert where a require fails, an exception where a precompiled contract fails. Calls with a payment, with another selector or with too little data are reverted.", "quantifier": "all call data below 2^255 bytes, all values, all behaviours of the precompiled contracts, all gas readings", "why_tests_cant": "the one test makes one honest call; a compiler error or a binding made from another file shows only on other calls", "anchors": ["zkmultiswap/gnark-tests/solidity/Notuscontract_g16.sol:186 verifyProof", "zkmultiswap/gnark-tests/solidity/solidity_groth16.go:220 DeployVerifier"]}
{"id": "C150", "title": "Deploying and calling the contract through the Go binding", "statement": "The code that DeployVerifier sends leaves exactly the code of C149 on the chain and refuses a payment; VerifyProof of the binding returns the verdict of the source for its arguments modulo 2^256, or an error where the source ends with an error.", "quantifier": "all numbers as arguments (also negative and long ones), all behaviours of the precompiled contracts", "why_tests_cant": "tests deploy once and pass reduced numbers", "anchors": ["zkmultiswap/gnark-tests/solidity/solidity_groth16.go:220 DeployVerifier", "zkmultiswap/gnark-tests/solidity/solidity_groth16.go:381 VerifyProof"]}
{"id": "C151", "title": "AccumulateNew returns the power", "statement": "AccumulateNew(g, p, N) returns g^p modulo N in reduced form, for a negative p the inverse of g^|p|; a number that is no such power is never returned.", "quantifier": "all integers g and p, all moduli from 1 on", "why_tests_cant": "tests use positive exponents and invertible bases", "anchors": ["accumulator/accumulator.go:225 AccumulateNew", "accumulator/accumulator.go:231 accumulate", "accumulator/accumulator.go:252 accumulateNew"]}
{"id": "C152", "title": "The recursive and the fork-join provers write no shared integer", "statement": "On a non-empty set ProveMembership, ProveMembershipParallel (with and without table), SetProductParallel, AccAndProve, AccAndProveParallel and ZKAccumulate, and on at least four elements the versions with a randomizer, have no data race and no panic, end, never write an integer that was in use before the call (base, modulus, elements), and return new integers, all different, with the right values. This also holds for any number of calls at the same time on the same setup.", "quantifier": "all sets, bases, moduli, limits, all memories in which the arguments may share integers, all interleavings, any number of simultaneous calls", "why_tests_cant": "the race detector sees only the interleavings that happen; tests do not look at the arguments afterwards", "anchors": ["accumulator/accumulator.go:100 ProveMembership", "accumulator/accumulator.go:186 handleSmallSet", "accumulator/accumulator.go:225 AccumulateNew", "accumulator/accumulator.go:252 accumulateNew", "accumulator/accumulator.go:73 ProveMembershipSingleThreadWithRandomizer", "accumulator/accumulator.go:46 AccAndProve", "accumulator/concurrent.go:48 ProveMembershipParallel", "accumulator/concurrent.go:102 ProveMembershipParallelWithTable", "accumulator/concurrent.go:176 ProveMembershipParallelWithTableWithRandomizer", "accumulator/concurrent.go:287 proveMembershipWithChan", "accumulator/concurrent.go:15 AccAndProveParallel", "accumulator/common.go:151 SetProductRecursiveFast", "accumulator/common.go:170 SetProductParallel", "accumulator/common.go:194 setProductParallelWithChan", "accumulator/zkacc.go:20 ZKAccumulate"]}
{"id": "C153", "title": "The library Pairing can be deployed and answers no call", "statement": "The code that DeployPairing sends runs to its end, also with a payment, and leaves on the chain a code that holds the whole address of the library; that code refuses every call, at its own address and at any other. So a payment made on deployment cannot be taken back through the library.", "quantifier": "all addresses, all call data, all values", "why_tests_cant": "no test deploys the library", "anchors": ["zkmultiswap/gnark-tests/solidity/solidity_groth16.go:47 DeployPairing"]}
{"id": "C154", "title": "The iterative provers write no integer that they share", "statement": "ProveMembershipIter, ProveMembershipIterParallel, AccAndProveIter and AccAndProveIterParallel, on a set of at least two elements, have no data race and do not panic, every execution ends, they never write an integer that was in use before the call (base, N, the elements), and they return new, pairwise different integers with the values of the witnesses. So any number of calls of AccAndProveIterParallel may run at the same time on one setup.", "quantifier": "all memories, bases, moduli and sets of at least two elements, all numbers of CPUs, all interleavings of the goroutines", "why_tests_cant": "a race detector sees the interleavings that happen; the tests run one call at a time", "anchors": ["accumulator/accumulator.go:62 AccAndProveIter", "accumulator/accumulator.go:136 ProveMembershipIter", "accumulator/accumulator.go:169 insertNewProofNode", "accumulator/concurrent.go:31 AccAndProveIterParallel", "accumulator/concurrent.go:323 ProveMembershipIterParallel", "accumulator/concurrent.go:385 proveMembershipIter", "accumulator/concurrent.go:433 initMembershipProofs", "accumulator/concurrent.go:459 insertNewProofNodeWithChan"]}
{"id": "C155", "title": "One precomputation table serves any number of calls at the same time", "statement": "GenPreTable and NewTable make tables of new integers and leave their arguments as they are. ComputeFromTable, ComputeFromTableParallel and Table.Compute never write an integer that was in use before the call (the table, the exponent, the modulus) and return the power in a new integer. So any number of calls may run at the same time on one table, also for the same exponent: no data race, no panic, every execution ends, and every call gets its own result.", "quantifier": "all tables made by these functions, all exponents of at least 1 that fit (for Table.Compute), all numbers of calls and workers, all distributions of the chunks, all orders of arrival, all interleavings", "why_tests_cant": "a race detector sees the interleavings that happen; the tests make one call at a time", "anchors": ["precompute/comfromtable.go:34 GenPreTable", "precompute/comfromtable.go:60 ComputeFromTable", "precompute/comfromtable.go:135 ComputeFromTableParallel", "precompute/comfromtable.go:203 getAccumulate", "precompute/precompute.go:19 NewTable", "precompute/precompute.go:37 Compute", "precompute/precompute.go:85 routineCompute"]}
{"id": "C156", "title": "Gas cannot change an answer of the contract, and an answer costs the same for all sets", "statement": "A call of verifyProof in the contract code of the binding ends as the Solidity source says, or with an exception for lack of gas. It ends as the source says whenever it has 264636 units (264656 or 264279 if the first or both coordinates of A are zero); with less it gives no answer. Every answer costs the same 262130 units (262150, 261773), whatever the proof, the public inputs and the truth value are: the size of the set does not matter, as the comment in the test says. The deployment and every such call fit into the block limit of the test.", "quantifier": "all call data below 2^255 bytes, all amounts of gas, all values, all behaviours of the precompiled contracts", "why_tests_cant": "the test estimates the gas of one call with one size; that less gas never gives another answer is a claim about all amounts", "anchors": ["zkmultiswap/gnark-tests/solidity/Notuscontract_g16.sol:56 plus", "zkmultiswap/gnark-tests/solidity/Notuscontract_g16.sol:83 scalar_mul", "zkmultiswap/gnark-tests/solidity/Notuscontract_g16.sol:104 pairing", "zkmultiswap/gnark-tests/solidity/Notuscontract_g16.sol:186 verifyProof", "zkmultiswap/gnark-tests/solidity/solidity_groth16_test.go:95 TestVerifyProof", "zkmultiswap/gnark-tests/solidity/solidity_groth16.go:220 DeployVerifier", "zkmultiswap/gnark-tests/solidity/solidity_groth16_test.go:53 SetupTest"]}
{"id": "C157", "title": "The messages of the interop tests name the library that differs", "statement": "If an interop test for BN254 logs a message that names google or cloudflare, then this library gave another result than gnark-crypto for the drawn values.", "quantifier": "all libraries (any functions), all drawn values", "why_tests_cant": "the libraries agree, so the messages are never printed in a passing run", "anchors": ["zkmultiswap/gnark-tests/ecc/interop/bn254/interop_test.go:190 TestScalarMultiplicationInterop", "zkmultiswap/gnark-tests/ecc/interop/bn254/interop_test.go:275 TestPointAdditionInterop", "zkmultiswap/gnark-tests/ecc/interop/bn254/interop_test.go:378 TestPairingInterop", "zkmultiswap/gnark-tests/ecc/interop/bn254/interop_test.go:516 cloudflareG1", "zkmultiswap/gnark-tests/ecc/interop/bn254/interop_test.go:532 googleG1"]}
{"id": "C158", "title": "A library that passes an interop test for all draws agrees with gnark-crypto on all points", "statement": "For scalar multiplication, serialization, addition and pairing: if all points are multiples of the generator and a library passes the test for every value that can be drawn, then its operation gives what gnark-crypto gives, for all points.", "quantifier": "all libraries, all points, all draws", "why_tests_cant": "which wrong libraries a test lets pass cannot be seen by running it with right ones", "anchors": ["zkmultiswap/gnark-tests/ecc/interop/bn254/interop_test.go:31 TestG1AffineSerializationInterop", "zkmultiswap/gnark-tests/ecc/interop/bn254/interop_test.go:87 TestG2AffineSerializationInterop", "zkmultiswap/gnark-tests/ecc/interop/bn254/interop_test.go:143 TestGTSerializationInterop", "zkmultiswap/gnark-tests/ecc/interop/bn254/interop_test.go:190 TestScalarMultiplicationInterop", "zkmultiswap/gnark-tests/ecc/interop/bn254/interop_test.go:275 TestPointAdditionInterop", "zkmultiswap/gnark-tests/ecc/interop/bn254/interop_test.go:378 TestPairingInterop", "zkmultiswap/gnark-tests/ecc/interop/bls12-381/interop_test.go:30 TestG1AffineSerializationInterop", "zkmultiswap/gnark-tests/ecc/interop/bls12-381/interop_test.go:87 TestG2AffineSerializationInterop", "zkmultiswap/gnark-tests/ecc/interop/bls12-381/interop_test.go:144 TestGTSerializationInterop", "zkmultiswap/gnark-tests/ecc/interop/bls12-381/interop_test.go:174 TestScalarMultiplicationInterop", "zkmultiswap/gnark-tests/ecc/interop/bls12-381/interop_test.go:243 TestPointAdditionInterop", "zkmultiswap/gnark-tests/ecc/interop/bls12-381/interop_test.go:312 TestPairingInterop"]}
{"id": "C159", "title": "The generators of the interop tests reach every field element, nearly evenly", "statement": "genFp gives field elements only, and every field element is given by 256^n / p strings of n random bytes or by one more. genGT gives every element with twelve coordinates in the field; each coordinate comes from its own bytes, as genFp would give it.", "quantifier": "all primes and lengths with p <= 256^n, all random bytes", "why_tests_cant": "the space of draws has 2^256 elements and more", "anchors": ["zkmultiswap/gnark-tests/ecc/interop/bn254/interop_test.go:548 genFp", "zkmultiswap/gnark-tests/ecc/interop/bn254/interop_test.go:559 genGT", "zkmultiswap/gnark-tests/ecc/interop/bls12-381/interop_test.go:390 genFp", "zkmultiswap/gnark-tests/ecc/interop/bls12-381/interop_test.go:401 genGT"]}
{"id": "C160", "title": "The Solidity test passes in every directory that the generate steps can leave", "statement": "Starting from a checkout, the three commands of generate.go are run in any order and any number of times. Then TestRunExportSolidityTestSuiteGroth16 passes.", "quantifier": "all sequences of the commands, all random numbers of the setups, all proofs", "why_tests_cant": "the test is run in one directory; which directories make it fail, and whether a set of commands repairs it, needs all of them", "anchors": ["zkmultiswap/gnark-tests/solidity/solidity_groth16_test.go:53 SetupTest", "zkmultiswap/gnark-tests/solidity/solidity_groth16_test.go:95 TestVerifyProof", "zkmultiswap/gnark-tests/solidity/solidity_groth16_test.go:49 TestRunExportSolidityTestSuiteGroth16", "zkmultiswap/gnark-tests/solidity/contract/main.go:26 generateGroth16", "zkmultiswap/gnark-tests/solidity/generate.go:3 go:generate"]}
{"id": "C161", "title": "The workflow step Test fails if a package fails", "statement": "Whenever a package fails in go test, the step Test of the workflow fails.", "quantifier": "all lists of packages and all their outputs", "why_tests_cant": "the workflow is not run by any test; a failing package would show it only to someone who reads the log", "anchors": [".github/workflows/go.yml:39 Test"]}
{"id": "C162", "title": "A call with gas g ends after at most g + 1 instructions and uses only memory that is paid for", "statement": "For every program, so also for bytecode that a new run of generate.go writes into the binding: a call with gas g ends after at most g + 1 instructions and leaves at most g. At every point of the run memory behind the counted words is zero, and gas used so far covers the price of the counted words.", "quantifier": "all programs, all calls, all amounts of gas", "why_tests_cant": "all programs and all runs are meant; a gas estimate of one call says nothing about others", "anchors": ["zkmultiswap/gnark-tests/solidity/solidity_groth16.go:220 DeployVerifier", "zkmultiswap/gnark-tests/solidity/solidity_groth16.go:381 VerifyProof", "zkmultiswap/gnark-tests/solidity/solidity_groth16_test.go:95 TestVerifyProof"]}
{"id": "C163", "title": "Transactions made with the Go binding leave no payment in the contract", "statement": "After DeployVerifier and any transactions with Transfer and Transact of the binding the contract owns nothing and has its code; a transaction succeeds exactly if it calls verifyProof without a payment and the source comes to a verdict, which may be false. The library Pairing keeps what its deployment paid, and no transaction to it succeeds. Raw calls and sessions answer as the source does.", "quantifier": "all sequences of transactions, all names, arguments, payments and behaviours of the precompiled contracts", "why_tests_cant": "the tests of the repository send no transaction except the deployment; sequences and payments are unbounded", "anchors": ["zkmultiswap/gnark-tests/solidity/solidity_groth16.go:220 DeployVerifier", "zkmultiswap/gnark-tests/solidity/solidity_groth16.go:47 DeployPairing", "zkmultiswap/gnark-tests/solidity/solidity_groth16.go:344 Call", "zkmultiswap/gnark-tests/solidity/solidity_groth16.go:350 Transfer", "zkmultiswap/gnark-tests/solidity/solidity_groth16.go:355 Transact", "zkmultiswap/gnark-tests/solidity/solidity_groth16.go:177 Transfer", "zkmultiswap/gnark-tests/solidity/solidity_groth16.go:182 Transact", "zkmultiswap/gnark-tests/solidity/solidity_groth16.go:398 VerifyProof", "zkmultiswap/gnark-tests/solidity/solidity_groth16.go:405 VerifyProof"]}
