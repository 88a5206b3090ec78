# Formal model of rsa_accumulator: design

## 1. What is built

A Lean 4 model of the Go code in `/repo` (and of its Solidity verifier), with machine-checked theorems for the
properties in `properties.jsonl`.

* `lean/Verif/Go/*` : Go semantics used by the code: results with panics, `math/big` operations, decimal strings,
  byte strings, slices with backing arrays, fork-join goroutines with unbuffered channels, statements about all executions.
* `lean/Verif/Model/*` : the code, function by function. Each definition cites file and lines.
* `lean/Verif/Spec/*` : small specifications that do not mention the model.
* `lean/Verif/Lemmas/*` : helper lemmas.
* `lean/Verif/Props/*` : the property theorems, with `example`s next to them.
* `seeded/LOG.jsonl` : edits of the model in the manner of realistic bugs and which theorems fail because of them.

## 2. Conventions

* Go panics are values (`Res.panic`). Index errors, division by zero, nil dereference and explicit `panic` are
  all modelled by it. A theorem that says a call succeeds says that the result is `Res.ok _`.
* Blocking is a state of a transition system with no outgoing step. A loop that may not end has a bound `fuel`;
  divergence is "no fuel suffices", and success means "some fuel suffices" or "every large enough fuel gives this value".
* `big.Int` values are `Int`/`Nat`. `Exp` follows the documentation of `math/big`
  (nil result if a negative exponent meets a non-invertible base).
* Randomness (`crypto/rand`, `frand`) is a parameter: theorems quantify over all coins.
* Hash functions (SHA-256, Poseidon) and `ProbablyPrime` are parameters (`Env`): theorems quantify over all functions;
  any assumption is a visible hypothesis.
* A property that the code violates is kept as stated in `properties.jsonl` as `CXX_statement`; the theorem file has a
  theorem ending in `_violated` (the negation with a concrete witness) and theorems ending in `_partial` with the exact
  condition under which the property holds. In `MANIFEST.json` such a property has the status `partial`.
* Theorems with `_repaired` in their name (mostly in `Props/Repaired*.lean`) are about edited copies of a function, not about
  the code in `/repo`. They show that the statement of a violated property can be met by a small change. They do not make
  the property true of the code, and the status of such a property stays `partial`.
* A concurrent function is a transition system over explicit states. Theorems about it speak about every reachable state
  (no crash, no deadlock, right result) and say that there is no infinite run. So that these statements are not empty,
  there is a theorem that some run returns.

## 3. Plan per property

| id | title | model | proof | status | note |
|----|-------|-------|-------|--------|------|
| C01 | Recursive membership witnesses are correct | `ProveMembership`, `handleSmallSet` on lists | strong induction on the length | proved | all bases, moduli and non-empty sets |
| C02 | AccAndProve family: every returned witness verifies against the returned accumulator | the four AccAndProve functions | from C01, C03, C04, C06 | proved | hash functions arbitrary; parallel versions for every schedule |
| C03 | All membership proving algorithms agree | all provers | every prover equals one specification function | proved |  |
| C04 | The iterative (linked list) prover terminates and fills every position | node list with in-place update, pass loop | loop invariant on nodes, measure for termination | proved |  |
| C05 | Fork-join proving is independent of the schedule and cannot deadlock | fork-join programs with interleaving semantics | confluence, progress and measure for all programs of that shape | proved | interleaving semantics in Verif.Go.ForkJoin |
| C06 | Iterative parallel prover is correct under every arrival order | transition system of dispatcher, workers, collector | inductive invariant, measure | proved | transition system in Verif.Model.IterParallel; C06_written_once: no position is written a second time |
| C07 | Accumulator does not depend on element order; witnesses follow their element | as C01 | permutation lemma for products | proved |  |
| C08 | Exact set sizes at which each proving entry point panics | all entry points with panic results | case analysis on the length | proved |  |
| C09 | Every product routine computes the product | all product functions | induction; fork-join theorem for the parallel ones | proved |  |
| C10 | Randomised witnesses verify against the randomised accumulator | randomizer variants | as C01 | proved |  |
| C11 | The randomizer is honoured for every parallelism limit | randomizer and limit | witness; exact value for every limit; the repaired function | partial | the code violates the property: a positive limit ignores the randomizer; the exact result for every limit is proved; C11_repaired_partial: the prover with the randomizer in its exponents has the property |
| C12 | ZKAccumulate value | `ZKAccumulate` | evaluation | proved |  |
| C13 | Table based proving equals table-free proving | table variants | as C01 | proved | the multiexp table is external: taken to give the powers of its base |
| C14 | Worker count is the largest power of two not above the CPU count | `calNumWorkers` loop | loop invariant | proved |  |
| C15 | Representatives are computed element by element | `GenRepresentatives` | induction | proved |  |
| C16 | HashToPrime returns the first prime in the hash orbit | `HashToPrime` loop | orbit induction | proved | SHA-256 and the primality test are arbitrary functions |
| C17 | Distinct elements have distinct hash-to-prime representatives unless SHA-256 collides | as C16 | witness with a concrete hash; orbit argument; the repaired function | partial | the code violates the property: a string and its digest have the same representative when the digest is not prime; the property is proved when neither string is an iterated digest of the other; exact, if SHA-256 does not collide: two strings have the same representative exactly if one is a digest on the way of the other; With different first bytes for elements and digests the property is proved. |
| C18 | DI representatives have exactly 1024 bits and never divide one another | `DIHashFromPoseidon` | arithmetic; Pratt certificate for the field order | proved |  |
| C19 | Distinct strings have distinct DI representatives unless Poseidon collides | decimal parser, field reduction | witness; parser round trip; the repaired function | partial | the code violates the property: "1" and "01", or n and n plus the field order; proved for canonical decimals below the field order; the accepted strings are characterised; exact: two accepted strings have the same representative exactly if their numbers differ by a multiple of the field order; Proved for the function that refuses other strings than canonical decimals below the field order. |
| C20 | Benchmark sets contain pairwise different, parseable elements | `GenBenchSet`, `Itoa` | decimal round trip | proved |  |
| C21 | UniversalHashToInt is odd and in range | `UniversalHashToInt` | arithmetic | proved |  |
| C22 | Group order used in setup is an exponent of the quadratic residues | `getOrder`, `TrustedSetupForQRN` | group theory of units | proved |  |
| C23 | isQR accepts exactly the invertible squares modulo p*q | `isQR` over Jacobi symbols | Euler criterion, Chinese remainders | proved | big.Jacobi is taken to be the Jacobi symbol |
| C24 | getSafePrime only returns safe primes; the sieve never drops a good candidate | candidate stream loop, sieve | induction; witness for the sieve; the repaired function | partial | the sieve part is violated: testRemainder returns true in both branches, so the sieve accepts every number; the part on getSafePrime is proved for every candidate stream; C24_repaired_partial: with return false in the second branch the sieve has the property |
| C25 | Built-in trusted parameters are usable | the built-in constants | kernel computation of gcds, lifted to all exponents | proved |  |
| C26 | SimpleExp computes modular exponentiation | `SimpleExp` on words | loop invariant; witness; the repaired function | partial | the code violates the property (x = 2^64); the exponent the code really uses is proved for all inputs, and that it is right under the stated condition on the bit length; C26_iff_partial: this condition is exact over all bases and moduli; C26_repaired_partial: with i += 63 the property holds |
| C27 | GCB splits both operands by the common part | `GCB` on words | bitwise lemmas | proved | for two different objects; the call with one object twice is shown to wrap around |
| C28 | GCB returns all common bits | `CommonBits` | bitwise lemmas; witness; the repaired function | partial | the code violates the property: bits 32 to 63 of a word are not found; the exact result and the exact condition are proved; C28_repaired_partial: with 64 in place of 32 the property holds |
| C29 | GCB leaves its operands valid | `GCB` word slices | witness; exact condition; the repaired function | partial | the code violates the property: GCB(1,1) leaves operands of value 0 and Sign 1; the exact condition is proved; C29_repaired_partial: with SetBits on the operands the property holds |
| C30 | Table exponentiation equals modular exponentiation | `PreTable`, `ComputeFromTable` | digit decomposition | proved | All bases, moduli >= 1, exponents and table sizes; Exp is the modelled big.Int.Exp. |
| C31 | Parallel table exponentiation is schedule independent | `ComputeFromTableParallel` as transition system | inductive invariant, measure | proved | All interleavings of the goroutines over the buffered channel. |
| C32 | Byte-chunk table computes base^x mod n under every schedule | `Table.Compute` as transition system | inductive invariant, measure | proved | All interleavings; the worker's busy-wait default branch is a stutter and is left out. k >= 1. |
| C33 | The byte-chunk table is large enough for its declared capacity | chunk count | arithmetic; witness; the repaired function | partial | The code violates the property: the chunk count is rounded down. Proved when the total bit length is a multiple of the chunk length; a number that does not fit never returns. Exact: the capacity suffices if and only if ub^m has no more bits than the chunks; C33_repaired_partial: with the chunk count rounded up the property holds |
| C34 | Table.Compute always returns | `Table.Compute` | stuck state for 0; the repaired function | partial | The code violates the property for x = 0, which waits forever. Proved for all other x that fit. Exact: some run returns if and only if x is not 0 and fits, and then every run that returns has the power; C34_repaired_partial: with an early return for 0 the property holds |
| C35 | A transcript is a function of the appended strings | transcript operations | induction over operations | proved | The challenge is a function of the appended strings and earlier challenge requests, for every way to append them. |
| C36 | A new challenge depends on the previous ones | as C35 | induction | proved | Two consecutive challenges hash different inputs; the later one contains the earlier challenge. |
| C37 | Challenge range | `wrapNumber`, `HashToPrime` of the transcript | arithmetic; witness at the bound; the repaired function | partial | The code violates the property at the bound itself: a hash equal to the bound is kept. Proved with <= in place of <; every Max252 challenge is below the BN254 order; With wrapNumber reducing every number (an edited copy), all four bounds hold for every primality test; only the digest 2^239 gives another challenge than in the code. |
| C38 | Different transcripts give different hash inputs | joined strings | witness; lengths; a decoder-free induction for the repaired version (Props/RepairedChallenge) | partial | The code violates the property: strings are joined without separators. Proved for lists whose strings have the same lengths, and for all lists if the length of each string is written before it. |
| C39 | Protocol tags separate PoKE*, PoE, ZKPoKE and MultiSwap transcripts | protocol tags | first strings differ; the repaired function | proved | For all statement values of the four protocols; The strings of the range proof and the argument of positivity, which are hashed without a transcript, are never hashed by one of these transcripts. |
| C40 | A transcript is isolated from the caller's slice | slices with backing arrays | invariant over all operations of caller and transcripts | proved | Slice heap model with arrays, offsets, lengths and capacities. |
| C41 | PoKE* completeness | `PoKEStarProve`, `PoKEStarVerify` | casts to `ZMod N` | proved | For all statements and all hash functions; the second theorem shows why a negative base with a negative exponent is excluded. Every proof that is returned is accepted. |
| C42 | Provers refuse false statements | the provers | case analysis; witness; the repaired function | partial | The code violates the property for negative exponents of a base that has no inverse: the power is taken to be 0. Proved in all other cases with non-negative bases. Exact for all statements and all three provers: for negative exponents the power of the absolute value of the base counts; C42_repaired_partial: with a look at the result of Exp and a reduced base the property holds |
| C43 | Accepted PoKE* proofs are unique | `PoKEStarVerify` | algebra; witness; the repaired function | partial | The code violates the property: (Q/G, R+l) is accepted whenever (Q, R) is. Proved: with the same residue Q^l is unique; With a check 0 <= R < l the verifier accepts exactly the reduced proofs of the code, the honest ones included, and two accepted proofs with different residues give a root of the generator. |
| C44 | ZKPoKE completeness | `ZKPoKEProve`, `ZKPoKEVerify` | units of `ZMod N` | proved | All coins and all hash functions. Every proof that is returned is accepted, without any assumption on the hash function. |
| C45 | PoE completeness | `PoEProve`, `PoEVerify` | casts to `ZMod N` | proved | All statements and all hash functions. Every proof that is returned is accepted. |
| C46 | Verifier decision logic of the exponent proofs | the three verifiers | case analysis | proved | Exact acceptance condition for every proof with non-nil fields; nil proofs are rejected. |
| C47 | Square decompositions are stored sorted and non-negative | `NewInt3`, `NewInt4` | case analysis on the sorting network | proved | Sorting constructors: permutation of the inputs in order, for all integers. |
| C48 | ThreeSquares never returns a wrong decomposition | main and workers as transition system | invariant; norm of a Gaussian gcd | proved | Every result of any interleaving of main and workers is a correct decomposition; the checker accepts exactly the correct ones. |
| C49 | ThreeSquares returns for every n = 1 mod 4 | as C48 | states without exit; existence of a run | partial | The full statement is false: n=1, n=25 and one-CPU machines never return, and a worker result can be lost. Proved: inputs with a prime candidate have a run that returns, and for n = 1 mod 4 exactly the inputs with a usable candidate do. |
| C50 | Range proof completeness | `RPProver`, `RPVerifier` | algebra in units of `ZMod N` | proved | All parameters with invertible bases, all ranges, values, coins, prover histories and hash functions. |
| C51 | An out-of-range value never gets a range proof from the prover | as C50 | Legendre direction: no negative sum of squares | proved | For a <= b, over every run of the three-squares search. |
| C52 | Accepted range proofs need a committed value in range | as C50 | forging function; special soundness and extraction; the same for the repaired challenge (Props/RepairedChallenge) | partial | The code violates the property: the challenge does not depend on the first message nor on the commitment, so a proof for any commitment and any range is computed from public values. Proved: special soundness of the verifier's equations for two different challenges. With a challenge that depends on both, honest proofs are still accepted and answers to two challenges for one first message give the extraction under one hash function. |
| C53 | Argument of positivity completeness | `ZKAoPProver`, `ZKAoPVerifier` | as C50 | proved | All parameters with invertible bases, values, coins, prover histories and hash functions. |
| C54 | A negative value never gets an argument of positivity from the prover | as C53 | as C51 | proved | Over every run of the three-squares search. |
| C55 | Accepted arguments of positivity need a non-negative committed value | as C53 | as C52 | partial | The code violates the property in the same way as C52, and is repaired in the same way. |
| C56 | Verifiers do not panic | verifiers with nil pointers | witness; case analysis; the repaired function | partial | The code violates the property for nil proofs and for numbers that have a common factor with N. The proof values on which the verifiers return are given exactly; C56_repaired_partial: with checks of the pointers and of the common factors the property holds |
| C57 | Concurrent provers do not disturb one another through the shared integer pool | heap, pool and goroutine programs | invariant over all interleavings; refinement to the sequential model | partial | The code violates the property: RPProver.secondPartH returns an integer that is already back in the pool. Proved in all interleavings: every other function works with its own values, even beside such provers; with the repaired function the whole property holds; the values are those of the models of the proofs. |
| C58 | Range proof and positivity challenges bind the statement | challenge strings | witness; lengths | partial | The code violates the property: neither the commitment nor the first message is hashed. Proved: all that is hashed (parameters, range, c1, c2, c3) is bound when the decimal lengths agree; the repaired challenges bind everything. |
| C59 | Prover objects can be reused | prover and verifier objects with state | state does not enter the result | proved | All histories of calls. |
| C60 | The swap circuit enforces the balance sum | circuit as predicate over field elements | induction over users; witness | partial | The code violates the property: the change of the first user's balance is applied twice. The equation really enforced is proved for all assignments; the property holds exactly if the first balance does not change. With the two lines removed the property holds. |
| C61 | The swap circuit enforces the remainders | as C60 | induction | proved | gnark gadgets and Poseidon as described in DESIGN.md. |
| C62 | The swap circuit enforces ranges, freshness and distinct users | as C60 | induction | proved |  |
| C63 | Honest update sets satisfy the swap circuit | as C60 and `AssignCircuit` | witness; exact condition | partial | The code violates the property in two ways: every honest set that changes the first balance is rejected, and hash plus delta is reduced modulo the field order. The exact condition for acceptance is proved. In the repaired circuit only the overflow is left. |
| C64 | GenTestSet produces valid sets | `GenTestSet` loop | loop invariant; witness | partial | Violated only above 2^31 users, where the uint32 ids wrap around. Proved for all n up to 2^31. Exact: accepted if and only if n is at most 2^31. |
| C65 | Public witness is preserved | public witness | field-wise equality | proved | Values are compared modulo the field order; for values in the field the comparison is exact. |
| C66 | IsValid decides well-formed update sets | `IsValid` | decision | proved |  |
| C67 | MultiSwap challenges bind the accumulators | `SetupTranscript` | body ignores its arguments | partial | The code violates the property: SetupTranscript ignores the accumulators. Only the epoch (for fixed parameters) is bound. A transcript with the accumulators and with lengths binds all. |
| C68 | Smart-contract input order matches the circuit | printing order | comparison of lists; the repaired function | partial | The code violates the property: remainders are printed after epoch and deltas. The printed order is proved; With the five values in their places (an edited copy), the property holds. |
| C69 | Merkle swap circuit accepts its own assignment and fixes its outputs | Poseidon chain circuit | induction | proved | For assignments with as many outputs as inputs, which gnark enforces at compile time. |
| C70 | Solidity verifier accepts only canonical public inputs and canonical points | Solidity verifier on 256-bit words | decision logic over abstract precompiles; Mathlib's elliptic curve group | proved | Relative to the precompiles behaving as EIP-196 and EIP-197 say; for any encoded verifying key, and for the three contracts without assumptions on their keys. C70_key_as_proof: for some reduced inputs two points of the key and zero are an accepted proof |
| C71 | Solidity point negation | `negate` | group law | proved | negate is the group inverse on encoded points; off-curve input cannot be repaired. |
| C72 | Swap of accumulators | accumulator functions used by the swap | algebra | proved | About the functions the experiments call; C73 is about the calls as they are. |
| C73 | Experiment swap flow keeps its accumulators consistent | `TestNotusMultiSwap`, `TestNotusParallel` | evaluation; witness; the repaired function | partial | Violated in both flows: the middle accumulator still contains the removed elements; the partial theorems give the exact values; Proved for both flows with a middle accumulator made from the unchanged elements, PoKE for the product of the removed elements, and in the parallel flow the inserted set and the prover with the randomizer. |
| C74 | User ids in the swap circuit have at most 32 bits | circuit | witness | partial | Violated: the check of the last id is commented out. With this check the property holds. |
| C75 | Constants of the three Solidity verifiers | constants of the contracts; the twist over F_q^2 and its r-torsion as the second group | kernel computation of r times each point in Jacobian coordinates, proved equal to Mathlib's group law; Lagrange and Cauchy for the number of points | proved | The curve has exactly r points, and all points of the three hard-coded keys have order r, so the pairing contract does not refuse them. |
| C76 | Range of products of DI representatives | `TestRange` | bounds on powers | proved |  |
| C77 | PoKE runs of the experiments | `TestPoKE`, `PoKE` | evaluation | proved |  |
| C78 | Precompute table of the swap experiments is large enough | size of the table | arithmetic with `uint32`; witness; the repaired function | partial | Violated from 2^21 elements on (uint32 overflow); proved below and for 4190214 up to 2^22 - 1; every other size fails if the randomizer is not zero (for the two sizes 4190212 and 4190213 if it is not small); With the number of words computed in 64 bits (an edited copy), the table is large enough for every size. |
| C79 | Update set assembled by the swap experiments is honest | update set of the experiments | evaluation; witness; the repaired function | partial | Proved for TestNotusMultiSwap; violated by TestNotusParallel, whose second product is made from the removed set; Proved for both repaired flows of C73. |
| C80 | Decision of the range and positivity verifiers | verifiers of range and positivity | equations solved for the first message | proved | Statements over units of ZMod N; the equations are Spec/Sigma.lean. |
| C81 | Challenges of the exponent proofs depend on the whole statement | hashed strings of the exponent proofs | decimal prefix lemmas; witness | partial | PoKE* binds its statement. PoE and ZKPoKE hash decimal numbers without separators, so C = 1, x = 23 and C = 12, x = 3 have the same challenge; proved for numbers of equal lengths, and for all numbers if the length of each string is written before it. |
| C82 | The iterative worker and its helper goroutine | worker and helper as transition system with a heap of nodes | inductive invariant with rank | proved | Two goroutines as a state machine with a heap of nodes; the results of the workers of C06 are defined by it. |
| C83 | Every value that satisfies the statement can be proved | provers of range and positivity over the runs of `ThreeSquares` | runs of C49 both ways; witness | partial | The ends of a range and positivity of 0 and 6 are never proved, since ThreeSquares does not return for 1 and 25. Proved: a value can be proved exactly if its number has a usable candidate. |
| C84 | The Go side hands the contract the words of the proof and the public inputs in the right order | `proofWords`, `testInput` and the contract | byte blocks of fixed length; C70 for the contract | proved |  |
| C85 | Key files of one size belong together and proofs made with them verify | directory as a function from names to files; setup, prove, verify and the test functions on it; Groth16 as a parameter | induction over the calls; distinct file names; completeness and ideal security of Groth16 as hypotheses | proved | Groth16 is a parameter; completeness and ideal security are hypotheses where needed. |
| C86 | The exported contract accepts the proofs that are printed with it | the export functions, `testbasicprocess`, gnark-tests | decomposition of runs; ideal proof system as witness; the repaired function | partial | The contract is exported for the key of a second setup and rejects the printed proof with any inputs. Proved: the contract of TestMultiSwapAndOutputSmartContract and the one of gnark-tests match their keys; If the export loads the key that the setup wrote and prints the public witness, the contract accepts every printed proof, and with a complete proof system a proof is printed. |
| C87 | Prove reports an error for sets that the circuit rejects | `Prove` with `IgnoreSolverError` | case analysis on the directory; witness; the repaired function | partial | Prove ignores solver errors. Proved: exactly when it fails or panics, and that Verify never accepts a proof for a rejected set; Without IgnoreSolverError (an edited copy of Prove that returns the error of the solver), every set that the circuit rejects gives an error, and accepted sets are proved as by the code. |
| C88 | A membership witness for a value that is not in the set gives a root of the generator | the models of `AccAndProve`, `AccumulateNew` and the hashes | Shamir's trick with the extended Euclidean algorithm in the group of units; orders of elements | proved | No hardness assumption: the root is an explicit formula in the forged witness. |
| C89 | A membership witness is unique | the same | negation of an even power; witness with N = 35; orders of elements | partial | For an even representative, as half of the DI representatives are, N - w verifies too. Proved: unique if the representative is coprime to the number of invertible residues. Exact: the witness is unique if and only if it is coprime. |
| C90 | What an accepted exponent proof yields | the models of the verifiers | decision theorems of C46, group laws and Bezout | proved |  |
| C91 | The universal hash is a universal family | `UniversalHashToInt`, `RandomSetupForUniversalHash`, `getPrime256`; random numbers as parameters | bijection of parameters with pairs of residues, counting of pairs | partial | A = 0 can be drawn, so 2P-1 of the P^2 parameters collide, which exceeds the bound for every odd P > 1. Proved: the exact count, universality without A = 0, and that the hash with the parameters in the code is two-to-one. |
| C92 | The contract accepts one proof per statement | the contract of C70 | decision theorems of C70 and bilinearity; witness with the pairing of the example | partial | Anyone can change an accepted proof in three ways. Proved: A, B and the inputs determine C, and A, B, C bind the inputs up to a relation between the points of the key, if the pairing is not degenerate. |
| C93 | Number of goroutines of the parallel functions | the fork-join programs of C05; a count of the goroutines in a state | potential that never grows along a step; schedule that starts everything first; size of the program by induction; the repaired function | partial | violated for negative limits of SetProductParallel, which tests limit == 0 only: on a set of n elements at least n - 2 goroutines; proved: the provers with any limit and the product with a limit that is not negative use at most 2 * 2^limit, with the exact peak for large sets; no goroutine is left; goroutines of the external FourfoldExpPrecomputedParallel are not counted; With the test limit <= 0 (an edited copy), the full statement holds with the constant 2. |
| C94 | TestBasicZKrsa can come to its end | `TestBasicZKrsa`; machine of `ThreeSquares` with K CPUs | decompositions of 401 and C49; completeness of C44, C53 | partial | violated on one, two and three CPUs, where ThreeSquares(401) never returns; proved: with four or more some run ends, and once the squares are found everything verifies, on every machine; exact: ends if and only if there are four CPUs or more |
| C95 | Precompute tables of the membership benchmarks are large enough | the benchmark programs; words of the table; exponents of the first layer | bounds of products over the quarters; witness with four elements; the repaired function | partial | violated by TestRSAMembershipPreCompute with four to seven elements: its table covers all randomizers exactly from eight elements on; the other tables always suffice, those of the swap experiments below 2^21 elements; all proofs verify. The effect of a short table in the external multiexp is not modelled; With the table size of the other two programs TestRSAMembershipPreCompute covers the exponents of every run and gives the same values. |
| C96 | main comes to its end for every input | `main` as a list of calls on a directory | step lemma for each call, induction over the list; invariant of C85 | proved | prime challenges are assumed to be found; Groth16 as in C85 and C87; the condition on overflow is the one of C98 |
| C97 | The swap experiments prove the update they computed | the swap experiments to their end | closed forms of C79; decision of the circuit of C61; the repaired function | partial | violated by TestNotusParallel, whose computed set has another second remainder and is rejected by the circuit while Verification passed is printed; proved for TestNotusMultiSwap, and that the verdict of both is the one of TestMultiSwap; With the second product made from the inserted set both experiments prove the set that they computed. |
| C98 | Honest updates with record hashes near the field order | circuit of C60 | splitting the product into overflowing and other records, cancellation modulo a prime | proved | exact condition for acceptance in terms of the overflowing records; the challenges are prime and divide no factor |
| C99 | Range proofs hide the value and its opening | the limits of all random numbers of the range prover; proofs as a function of the numbers drawn | a proof for one secret is the proof for the other with moved coins, because an accepted proof is determined by commitments and answers; counting the coins that leave the box | partial | violated: the masks of the answers t are 2^256 N while the challenge has 256 bits, so these answers leak the size of the openings; exact advantage for given commitments; proved for the answers z and tau, and for the whole proof if those masks were 132 bits longer |
| C100 | Arguments of positivity hide the value and its opening | the same for the argument of positivity | as for C99 | partial | violated in the same way by the openings of the squares; exact advantage for given commitments; proved for the answers z and t, and for the whole proof if the masks were 131 bits longer |
| C101 | ZKAccumulate hides the set | the numbers GenRandomizer draws; the accumulator as a function of that number | counting over full periods of the exponent, on which multiplying by a product without common factors is a permutation; squares modulo a prime factor for the leak | partial | violated under the encodings that skip the search for primes: an even representative makes every accumulator a square modulo a factor of N; proved up to the distance of 2^2047 to the multiples of an exponent m with G^m = 1 when no representative has a common factor with m |
| C102 | ZKPoKE hides which exponent was used | the limits of the three random numbers; the result as a function of them | the numbers for one exponent are moved to numbers for the other, by amounts that depend only on z, Ag, Au, which do not change; the map is injective and few points leave the box | partial | violated: the random numbers are below N 2^254 while the prime challenge has up to 239 bits, so the remainder rx is not uniform (advantage above 2^-23 in the example); proved with 2^-13 for all exponents of any size, and with 2^-128 if the numbers were 115 bits longer |
| C103 | The tests of package accumulator pass on every draw | each test as the conjunction of its checks; random draws and the outcome of the goroutines are parameters | from the theorems about the tested functions at the built-in setup; TestSimpleExp by cases on the draws | partial | violated by TestSimpleExp, which panics if it draws 0, or 1 for the base or the modulus; it passes on exactly 999998*999999*999998 of the 10^18 draws. All other tests pass on every draw and schedule |
| C104 | The micro-benchmarks of package accumulator do not panic | the timed loops with the number of rounds and the drawn set as parameters | induction over the rounds; the first index out of range is the length of the set; the repaired function | partial | violated: BenchmarkExp and BenchmarkDoubleExp read past their 10000 numbers exactly if b.N is larger, BenchmarkSimpleExp panics exactly if it draws 0; the other two never panic; Loops that start again at the first number and skip the exponent 0 never panic and are those of the code where these do not panic. |
| C105 | The tests of package fiat-shamir pass for every hash function | the checks of each test; hash and primality test are parameters | the challenge depends on the strings only, length 0 is treated as Default; C37 gives the bounds | proved | the condition on the primality test is shown to be needed; SHA-256 and ProbablyPrime are parameters |
| C106 | TestTable_Compute passes under every schedule | the tables and the comparison of the two cases, on the state machine of Compute | C32 and C34 at the sizes of the test: the capacity is a whole number of chunks; the result is nonzero because G is a unit | proved | reflect.DeepEqual on big.Int is modelled as equality of nonzero numbers |
| C107 | The tests of package zkmultiswap pass for every hash function | the changes to the assignment and the verdict of the solver | C60 for the sums, the range checks for the remainders; the range case is reduced to the two products; the repaired function | partial | violated: the case 'incorrect range of user balance' uses 1000000000, which is in the range, so it is rejected only because the hash changes; accepted exactly if both remainders stay the same. All other cases are rejected for every hash; a balance of 2^32 or more would be too. TestZkMultiSwap passes if no record hash overflows; With the balance 2^32 in the case of the range all cases are rejected for every hash function. |
| C108 | Commitments hide the committed numbers | `newRPCommitFromFS`, `calC`, the commitment z of `ZKPoKEProve`, `TrustedSetupForQRN`; a test is any boolean function of the commitments, the advantage is counted over all coins | g is a power of h, so another triple only shifts the coins; a shift of a periodic function changes counts by less than one period per coin; r prime of another length is coprime to the order | proved | statistical distance, so for tests of any running time; the exponent r of h being prime and of another length than p' and q' is used and shown to be needed. The bound for any parameters is three times the incomplete period |
| C109 | The printed bases generate the squares | `TrustedSetupForQRN`, `getRanQR` | modulo a safe prime every square other than 1 generates; Chinese remainders; counting the draws whose square is 1 modulo p or q; the repaired function | partial | violated: the setup accepts a draw of 1, which gives g = h = 1. Proved: both generate the squares exactly if g - 1 is coprime to N, and at most p + q of the pq draws fail this; If the setup draws again while g - 1 has a common factor with N, both printed numbers generate the squares, and runs that pass the check are unchanged. |
| C110 | Verifiers of exponent proofs return a boolean | the three verifiers with optional parts | case analysis on the missing parts in the order in which they are read; the repaired function; the repaired function | partial | violated: proofs with nil parts make the verifiers panic; the exact sets of missing parts are proved for each verifier, in all other cases a boolean is returned; C110_repaired_partial: with checks of the fields the property holds; The checked verifiers give the verdicts of the code. |
| C111 | GenerateG announces a factor only if it has one | `GenerateG`: digests, product, gcd and the branch that prints | induction over the eight rounds; a nonzero number below 2^256 is coprime to N if all prime factors are larger; the repaired function | partial | violated for hash functions with a zero digest: then g = 0 and the common divisor is N. If all prime factors of N have more than 256 bits this is the only way the message is ever printed. The printed value is proved for all hash functions; C111_repaired_partial: with gcd != N as a second condition the property holds for every modulus |
| C112 | PoseidonWith2Inputs hashes the remainders of two numbers | `PoseidonWith2Inputs` | reduction modulo the field order, case analysis on the length | proved | Poseidon is a parameter with values below the field order |
| C113 | Mul and Div scale all four numbers of a group | `NewInt4`, `Mul`, `Div` on addresses in a memory of integers | induction over the list of addresses; the memory holding 2 everywhere tells right from wrong; the repaired function | partial | violated if n is one of the numbers or a pointer is in the group twice; proved exactly for which pointers the calls are right on all numbers, separately for Mul and Div; C113_repaired_partial: with the results computed before they are stored the property holds |
| C114 | Returned witnesses do not share memory with the setup | `ProveMembershipIter`, `insertNewProofNode`, `accumulate`, `accumulateNew` on a memory of word arrays; `Set` and in-place `Exp` take new arrays (math/big, trusted) | induction over the passes: cut nodes get new arrays, so only a node that was never cut keeps the words of the base; the values refine the model of C01; the repaired function | partial | violated for sets of one element, where the witness is a shallow copy of setup.G; for all other sizes every witness has its own words and the values are those of C01; With the words of setup.G copied first (an edited copy), the property holds for sets of any size. |
| C115 | All witnesses in O(n log n) work | the provers once more with the list of all exponents (`Model/Work`), proved to give the same witnesses | induction over powers of four with the lengths of the six products; for the iterative prover a potential: the cuts that a list of nodes still needs; induction over powers of two for the parallel prover | proved | work is counted as bits of exponents (squarings); multiplications of SetProductRecursiveFast and the cost of one squaring are not counted. For n = 4^k the bound is reached up to the rounding of bit lengths |
| C116 | One verifier object used by several goroutines | `Verify` of both verifiers as a list of statements on the shared object (`Model/SharedVerifier`), any number of goroutines, schedules as lists; `VerifyResponse` is one step; torn writes of data races are not modelled | induction over schedules; the steps of one call in a row are proved equal to the sequential `Verify`; the repaired function | partial | violated: the objects keep the proof being verified in their fields, so a proof with the response of another accepted proof is accepted, and a good range proof verified twice at the same time is rejected. Proved: a call whose steps are not interrupted is right after any history, and goroutines verifying the same argument of positivity are all right; Verifiers that work on a copy of the object give every goroutine the result it would get alone, in every schedule. |
| C117 | One prover object used by several goroutines | `Prove` as three steps on the shared object, `commitForX`, `commit` and `response` (`Model/SharedProver`), any number of goroutines, schedules as lists; interleavings inside a step are not modelled | induction over schedules, reuse (C59) and completeness (C50); the leak by following the fields through the schedule; the repaired function | partial | violated: the object keeps coins and masks in its fields, so a proof made while another goroutine proves can be rejected. C117_leak: with one schedule of three goroutines the masks of an accepted proof are used again and the committed number can be computed from the three proofs when the two public challenges differ. Proved: a call whose steps are not interrupted gives the proof it would give alone, after any history; the same two results for ZKAoPProver; Provers that work on a copy of the object give every goroutine a proof that verifies, in every schedule. |
| C118 | Representatives of other strings do not divide the accumulated product | the models of C15, C16 and C18 | modulo the representative the product is a product of small differences, which is too small for up to four factors; five powers of two with product 2^1023 for the violation | partial | violated for DI representatives: with an injective Poseidon the representative of one string divides the product for a set of five, and a witness for it is computed without any root (C118_forged). Proved: for prime representatives always, for DI representatives up to four strings |
| C119 | The accumulator binds the set | the models of C02 and C15 | unique factorisation; for DI representatives the polynomial with the hash values as roots is read off from its value at 2^1023 | partial | proved for prime representatives; for DI representatives if the sets differ in at most four strings on each side. Open: DI sets that differ in more strings |
| C120 | Verifiers of exponent proofs refuse negated statements | the models of C41 to C46 | an odd power of -1 is -1; -1 is no square modulo a prime that is 3 modulo 4; the repaired function | partial | violated: the negated proof is accepted exactly for the odd challenges, that is for all primes except 2; C120_false shows that the negated statement is false if the base is a square modulo a prime factor that is 3 modulo 4. Proved: refused for an even challenge; Proved for a verifier of PoE that takes residues up to sign. |
| C121 | Accepted proofs for several challenges determine the exponent | the models of C41 to C46 | Bezout coefficients combine two coprime challenges, induction over the runs; ZKPoKE in the product of two copies of the group | proved | several challenges for one statement mean several hash functions, as in a rewinding argument; the probability of getting them is not modelled |
| C122 | Accepted remainders tie the accumulators to the update | the models of C61 and C67; the check of the proof of exponentiation, commented out in the code, is part of the specification | Bezout coefficients give exponents that are inverse to the remainder modulo one challenge and zero modulo the other | partial | violated: the challenges do not depend on the accumulators, so for any two accumulators a middle one and both proofs are computed from the challenges and remainders. Proved: honest accumulators pass, and checks that pass give roots of the two quotients |
| C123 | No record is spent twice | the circuit of C60 to C62 and a ledger of record hashes (`Spec/Ledger`) | induction over the updates: one record per user, and every removed record is older than the present record of its user | proved | that removed hashes are present is the task of the accumulator (C88, C118, C122) and a hypothesis here; so is the absence of Poseidon collisions among the records that occur |
| C124 | The sums of an accepted update are the totals of the ledger | as C123 | the final sum of the circuit is the first sum plus a number that does not depend on it | partial | violated: the sums are secret inputs and tied to nothing, an accepted update stays accepted for all sums of 32 bits with the same difference. Proved: if the first balance does not change the difference of the sums is the change of the total, and one update changes the total by less than 2^33 |
| C125 | The randomizers of MultiSwap blind the accumulators | the range checks of the circuit of C62; accumulators as powers in the unit group | counting: at most 2^32 blinded accumulators, the powers below the order are different | partial | violated: the circuit restricts the randomizers to 32 bits, so for every order from 2^33 on the test that tries all randomizers has an advantage of at least 1/2. Proved: blinding factors that are spread evenly over the exponents blind perfectly |
| C126 | A record hash fixes the history of its user | the ledger of C123 | induction over the updates and over the shorter history | proved | the absence of Poseidon collisions among the records that occur is a hypothesis |
| C127 | An accepted exponent proof shows that an exponent exists | the PoKE* verifier of C46 | Bezout coefficients as the forged proof; cosets of the powers of the base | partial | violated: a prover who chooses the base as a power g^q proves the statement g, which need not be a power of the base; what holds is that C is a power of the base exactly if Q is, when the challenge is prime to the number of cosets |
| C128 | Accepted public inputs fix the remainders of the real representatives | the circuit of C61 and the Prove and Verify of C85 | the conditions of the circuit for changed public inputs; an accepted set with delta 0 as witness; with compared deltas by C85 and congruence | partial | violated: DeltaModL1 and DeltaModL2 are public inputs that nothing compares with 2^1023, so every delta below the challenge is accepted with some remainder, and one of them makes the remainder 0; the statement holds if the verifier compares the deltas |
| C129 | The manual benchmarks return for every positive set size and compute what they name | the five functions of accumulator/manualbench.go over int sizes | from C02, C08, C12 and the representatives of the benchmark set | proved | TrustedSetup and the randomizer are parameters; times are not modelled |
| C130 | The product experiments print the length of the product | the five functions of experiments/integers.go that had no model, with the set size as parameter | values of the products, bit length by C76, the loop by induction; the repaired function | partial | violated: the first product of TestProduct is commented out, so the first number it prints is 0; all other lengths are right; Repair: with lines 52 and 54 of TestProduct not commented out, every printed length is the length of the product. |
| C131 | The grouping experiment serves the same number of users for every group size | TestDifferentGroupingSize and the wrappers with fixed sizes | exact result of the loop, then division with remainder | partial | violated by sizes that do not divide 262144; the five sizes of the repository do; a negative size serves nobody |
| C132 | A failure of the random source is reported | the drawing functions with rand.Int as a call that may fail, a log of its results and the fields of the prover object | exact condition for a result of every step, then of the whole call; outcome rules for the error paths; first failing draw as counterexample; the repaired function | partial | violated only by BenchmarkGroupElementSquare, which overwrites the error of all draws but the last and does not use the first number; holds for all provers, with the exact set of failing draws; With the error looked at inside the loop of the benchmark (an edited copy), the full statement holds. |
| C133 | No goroutine is left running by ThreeSquares or Table.Compute | the state machines of C48 and C32 after the return of the caller | invariants over reachable states; a run for 4m^2+9 is changed step by step so that goroutine 0 moves first; a measure for the other goroutines | partial | violated for ThreeSquares: for every n = 4m^2+9 goroutine 0 can search at the number 9 forever after the call has returned; the exact condition is proved, and the part about Table.Compute holds in full. Reading the target is one step with the select there; C138 splits it |
| C134 | Tables of the declared size with 64-bit integers | `NewTable` and the channel sizes of `Compute` with 64-bit integers that wrap | the wrapped number of bits is the true one modulo 2^64; without overflow equal to the unbounded model; the repaired function | partial | violated: 2^60+1 elements of 16 bits give a table with two entries; without overflow the table is that of C32 to C34, with overflow of the bit count it is always too small; Proved for the function that refuses sizes that do not fit an int. |
| C135 | Adding, removing and replacing elements agrees with recomputing | `AccAndProve`, `ProveMembership`, `AccumulateNew` | what `AccAndProve` returns is given by the representatives; laws of products and powers | proved |  |
| C136 | What is printed determines what was printed | the texts as byte strings | cutting two equal texts at a byte that the field does not contain; the repaired function | partial | violated only by transcripts whose strings contain a newline; With the length printed before each string (an edited copy), the text determines the strings of every transcript. |
| C137 | The benchmarks of the provers time the same task | the benchmark loops with the results of all rounds | by C03, C05, C15 and C16; all rounds of a loop with the same body give the same value | proved |  |
| C138 | The pooled target does not disturb the workers of ThreeSquares | the state machine of C48 with the target as a cell that others may write once it is in the pool, and a step of its own for reading it | invariants over reachable states; a run for the target 5 with two workers; numbers that are not 1 modulo 4 have no usable gcd | partial | the results are right in every run; violated for the ending of the workers: a late worker reads the value of another goroutine and can search forever; the exact condition is proved, and the property holds if the target is not put back |
| C139 | The tests pass also after runs that were stopped | the directory at every step of the setups and tests of C85; a file is created and then filled; the order of the files is a parameter | invariants over all histories of stopped runs; a case for each of the six orders | partial | violated: the test looks only whether the file of the constraint system exists, so a setup that was stopped is never repeated; the exact condition is proved for every order of writing, also that the damage stays, that a setup of the size repairs it, and that a setup which writes this file last and at once has the property |
| C140 | Errors of the file system do not change a result | the functions of C85 and C86 once more with a state of directory, open files and number of operations; a predicate says which operations fail | inversion of each function: what it returned tells which operations worked; the runs without failures are followed forward; the repaired function | partial | violated by generateGroth16: if the verifying key cannot be opened or read this is only printed, and the contract of an unread key is written; whether the library exports such a key is a parameter, without such exports the claim is proved. Proved for the other four functions; the export of the contract needs a directory left by complete runs, with a counterexample for a stopped setup; Repair: with errors of opening, reading and closing the key returned by generateGroth16, the whole of C140 holds; the changed program also leaves no file open and succeeds without failures. |
| C141 | Files that are opened are closed | the same model; the open files are a list of names | the same inversions; induction over calls for the growth; the repaired function | partial | violated by the functions that write contracts: they never close them. Proved for the tests, the setups, Prove and Verify; LoadVerifyingKey has an exact condition. Files that the library opens are not counted, and the garbage collector, which may close a file later, is not modelled; Repair: with the key file closed before the result of the reading is looked at, and the contract file closed, LoadVerifyingKey and TestMultiSwapAndOutputSmartContract leave no file open whatever operations fail, for any number of calls; without failures they give the same results. The repair is shown for these two functions only. |
| C142 | The printed size of the precomputation table is enough for the table | the printed numbers as a function of the length of the table; the table is a parameter | sums over the rows; the entries for one element are counted by the kernel; the repaired function; the repaired function | partial | violated: an entry is counted with 64 bits but is a residue of the 2048 bit modulus; the table for one element takes more than 31 times the printed number. Proved: the printed number is enough for entries of at most 8 bytes and too small if all have more, 32 times the number is enough for 2048 bits; what is printed for the six sizes. That the library makes rows of 64 powers is assumed; Repair: counting each number with the bytes of the modulus, the printed size is enough for every modulus and set size; for the built-in modulus it is 32 times the size printed now, and for one element at most 32/31 of the bytes in the table; The rows, columns and element size that the changed program prints are right too. |
| C143 | The setup does not print the factors of the modulus | the setup with printed text and a random source that may fail | the text of a completed run in closed form; two 1023 bit primes with certificates as witness; the repaired function | partial | violated: getSafePrime prints each safe prime it finds, so every completed run shows both factors; the rest of the text shows none; Without the line of getSafePrime about the number it found, the text of every completed setup shows no proper factor, and the results are those of the code with the same random numbers. |
| C144 | The two primes of the setup differ | as C143 | the same prime twice as witness; a product of two primes is a square exactly if they are equal; the repaired function | partial | violated: nothing compares the two primes. Proved: they differ if the source repeats no prime, and they differ exactly if the modulus is not a square; C144_repaired_partial: with a loop around the second draw the property holds |
| C145 | Errors of the random source end the setup before parameters are printed | as C143; every call of the source is logged | each step ends with a result, with a panic after a failed call, or out of rounds | proved |  |
| C146 | The modulus of the setup has 2048 bits and the bases are reduced and invertible | as C143 | bounds of the product from the two highest bits; quadratic residues are invertible | proved | that crand.Prime sets the two highest bits is assumed (crypto/rand documents the length; its source sets both bits) |
| C147 | The built-in parameters look like those of the setup | as C143, and the constants of the code | residues of safe primes modulo 12; Jacobi symbols; Fermat test for the modulus; Pratt certificate for P | proved | the Jacobi symbols and the compositeness of the 2048 bit constant are checked by the kernel; P is shown to be prime with a certificate |
| C148 | The verdict on an argument of positivity does not depend on the pool of integers | `VerifyResponse` with the old value of the pooled integer as a parameter | two pools with different verdicts as witness; equality with the first model where the inverse exists; the repaired function | partial | violated if h has no inverse modulo N: the result of Exp is not looked at and the old value is used; a proof accepted for every commitment is given. Proved: no dependence if h has an inverse or the last response is not negative; With nil from Exp rejected (an edited copy), the verdict never depends on the pool, and the accepted proofs are those of the verifier without a pool. |
| C149 | The bytecode in the Go binding does what the source of the contract says | an EVM (`Model/EvmMachine`) and the bytes of the binding (`Model/VerifierCode`) | symbolic executor with a soundness proof (`Lemmas/EvmSymbolic`); the kernel runs it on the bytes, the resulting decision tree is compared with the model of the source | proved | the bytes are run on a model of the EVM without gas counting; C149_other_keys: the bytes do not belong to the two contracts in the root |
| C150 | Deploying and calling the contract through the Go binding | the deployment code on the same EVM; Keccak-256 and the packing of the arguments | step by step run of the 20 instructions; packing against reading of words, then C149 | proved | abi.Pack and abi.Unpack are modelled for the types of this function; the selector is computed with Keccak-256 |
| C151 | AccumulateNew returns the power | `Exp` with its result nil and its sign rule; the receiver is a copy of the base | exact condition by cases; induction over the set; the repaired function | partial | violated: without an inverse the base itself comes back, and for a negative base and an odd negative exponent the sign is wrong (a peculiarity of Exp). The exact condition is proved; in accumulate an element without a power is passed over. The representatives of the repository are never negative; C151_repaired_partial: with a look at the result of Exp and a reduced base the property holds |
| C152 | The recursive and the fork-join provers write no shared integer | programs on a shared memory of integers with fork and join, all interleavings; the provers as such programs, operation by operation | a program logic with ownership (who may write which integer), proved sound for all interleavings by induction; then one rule per function; termination by a multiset order | proved | integers are single cells: reading or writing one is one operation. External: bigfft.Mul and multiexp return new integers; the table is used by multiexp only. Slices are values |
| C153 | The library Pairing can be deployed and answers no call | the 166 bytes of the binding on the machine of C149 with ADDRESS, BYTE and MSTORE8 added | the runs are computed step by step with the address as a variable; the bytes of the result are read off the memory | proved | the machine is assumed, as for C149; gas is not counted. The Go client that sends the code (bind.DeployContract) is external |
| C154 | The iterative provers write no integer that they share | the iterative provers on the shared memory of C152, a worker and its helper as two goroutines | a rule for a cut (the integer of a node is replaced by two of one's own), then induction over the passes and over the depth of the tree; the values refine the model of C01 | proved | integers are single cells: reading or writing one is one operation. The header copies `*setup.G` and `*node.proof` are a new integer where the code writes to them and the same integer where it only reads; C114 has the words. The channels and the order of the results are in C06 and C82; the fields of the list nodes belong to one worker. Sets of one element are left out: there the witness shares its words with the base (C114) |
| C155 | One precomputation table serves any number of calls at the same time | the functions of package precompute on the shared memory of C152 | rules for the loops, with the value of the product of all parts; the calls are put side by side with the rule for fork | proved | integers are single cells: reading or writing one is one operation; values are natural numbers. The goroutines of a call are joined before the results are multiplied, in any order; in the code this begins earlier, but it touches only the product and integers that their goroutine has handed over. Channels, and what happens for exponents that do not fit or are 0, are in C30 to C34 |
| C156 | Gas cannot change an answer of the contract, and an answer costs the same for all sets | the machine of C149 with gas, memory prices and the limit of the stack | a symbolic run with the gas used so far, proved sound against the machine; the three cases of A are computed by the kernel | proved | the prices of the version paris, the 63/64 rule and the limit of the stack; the price of the transaction itself (21000 and the data) is counted only in the two theorems about the limit of the test. A precompiled contract that fails takes all gas it was given |
| C157 | The messages of the interop tests name the library that differs | one draw of each interop test as a function of any libraries, with the logged texts | cases along the checks; a group of three elements as witness; the repaired function | partial | violated by TestPointAdditionInterop of BN254: its messages exchange google and cloudflare (lines 350 to 368). Proved for the other tests, and that in this test the names are exchanged throughout. Libraries are any functions; With the names in the four messages exchanged (an edited copy), the property holds. |
| C158 | A library that passes an interop test for all draws agrees with gnark-crypto on all points | the same model | exact condition for each draw; wrong libraries over a group of three elements as witnesses; the repaired function | partial | violated: the addition tests add only the generator, and the pairing tests pair only multiples with the same factor, so libraries that are wrong elsewhere pass. Proved for scalar multiplication and serialization; for every test the draws that pass are described exactly; With a second drawn factor (the sum of two drawn points, and one factor for each group in the pairing) the two tests pass for all draws exactly if the libraries agree with gnark-crypto on all points. |
| C159 | The generators of the interop tests reach every field element, nearly evenly | the generators of the interop tests as functions of the random bytes | strings of n bytes are the numbers below 256^n; counting residues | proved | random bytes are a parameter |
| C160 | The Solidity test passes in every directory that the generate steps can leave | the directory with its files, the three commands and the test as functions | invariant over all sequences of commands; completeness and binding of Groth16 | partial | violated: a checkout has no key files and the test panics; after `go run contract/main.go` alone the keys do not fit the contract of the binding. Proved: the test passes exactly if keys and binding come from one setup, and always after all three steps. Groth16 is assumed complete and binding (Spec/SnarkFlow.lean); solc and abigen keep the key |
| C161 | The workflow step Test fails if a package fails | the output of go test, grep -v and the pipe status as functions | the line FAIL always passes the filter | partial | violated: the step pipes `go test` into `grep -v` without pipefail, so its status is that of grep. Whenever a package fails the step succeeds. Proved with pipefail. The shell (`bash -e`) and the output format of `go test` are assumed as documented |
| C162 | A call with gas g ends after at most g + 1 instructions and uses only memory that is paid for | the machine with gas | cases over the instructions: each one after which the run goes on costs something and writes only counted memory; invariant by induction | proved | about the model of the machine (Model/EvmMachine.lean, Model/EvmGas.lean) for any program; instructions that are not modelled end the run |
| C163 | Transactions made with the Go binding leave no payment in the contract | the methods of the binding and the account of each contract (Model/BindingMethods) | C149, C150 and C153 for one transaction, induction over the list of transactions | proved | bind.BoundContract of go-ethereum is assumed to do what it documents; the status of a transaction does not tell the verdict. Payments that need no transaction to the contract (a block reward, a contract that ends itself) are outside of the model |

## 4. Trusted base

### 4.1 Lean

The Lean 4.33 kernel. The project adds no axioms and uses no `sorry`, `native_decide` or `bv_decide`. The theorems named in
`MANIFEST.json` depend on these axioms (output of `#print axioms`):

**propext** (19 theorems)

`C17_digest_has_same_representative`, `C19_violated`, `C37_repaired_same_partial`, `C38_same_lengths_partial`, `C38_collide_iff`, `C48_verify`, `C57_alone_targets`, `C68_violated`, `C71_off_curve`, `C91_congruent`, `C113_more`, `C114_single`, `C138_any_value`, `C152_accumulate_races`, `C154_cut_in_place_races`, `C155_shared_opt_races`, `C158_violated`, `C158_addition_violated`, `C158_pairing_violated`

**propext, Quot.sound** (70 theorems)

`C15_one_per_string`, `C15_default_is_hashToPrime`, `C16_hashToPrime_first_prime`, `C17_violated`, `C17_no_collision_partial`, `C17_short_strings_partial`, `C17_same_iff_partial`, `C18_diHash_range`, `C24_violated`, `C24_sieve_accepts_everything`, `C24_getSafePrime_partial`, `C27_same_object_wraps`, `C28_violated`, `C29_violated`, `C30_bad_sizes_panic`, `C37_boundary`, `C57_violated`, `C57_repaired`, `C57_alone_secondPartH`, `C57_alone_secondPartD`, `C57_alone_calC`, `C57_alone_calCa`, `C57_alone_commitFromTS`, `C57_alone_rpCommit`, `C57_alone_aopCommit`, `C57_alone_verifyTS`, `C68_printed_order_partial`, `C68_repaired_partial`, `C69_accepts_iff`, `C69_own_assignment`, `C69_outputs_fixed`, `C69_assignment`, `C70_reverts`, `C70_no_aliases`, `C74_violated`, `C84_short`, `C91_setup`, `C96_sizes`, `C103_constants_partial`, `C104_exp_iff`, `C104_doubleExp_iff`, `C104_fourfold_partial`, `C104_gcb_partial`, `C105_constants`, `C113_violated`, `C113_repaired_partial`, `C115_same`, `C126_prefix`, `C132_square_partial`, `C133_spins`, `C134_chunk_nonpos`, `C134_chunk_overflow`, `C134_repaired_same_partial`, `C135_accumulate_steps`, `C138_spins`, `C142_wrapper`, `C152_empty_panics`, `C158_scalar_partial`, `C158_roundTrip_partial`, `C158_scalar_draw`, `C158_scalar_draw_bls`, `C158_roundTrip_draw`, `C158_compressed_draw`, `C158_GT_draw`, `C158_addition_draw`, `C158_addition_draw_bls`, `C158_pairing_draw`, `C158_pairing_draw_bls`, `C158_repaired_addition_partial`, `C158_repaired_pairing_partial`

**propext, Classical.choice, Quot.sound** (690 theorems)

`C01_proveMembership_correct`, `C01_proveMembership_never_panics`, `C02_accAndProve`, `C02_accAndProveIter`, `C02_accAndProveParallel`, `C02_accAndProveIterParallel`, `C02_parallel_some_run`, `C03_all_provers_agree`, `C04_iter_terminates_correct`, `C05_parallel_schedule_independent`, `C05_withChan_schedule_independent`, `C05_parallel_delivers`, `C06_iterParallel_all_schedules`, `C06_segments_disjoint`, `C06_small_sets`, `C06_some_run_returns`, `C06_written_once`, `C07_order_independent`, `C08_panic_sizes`, `C08_accAndProve_panics_iff`, `C09_products`, `C10_randomized_correct`, `C11_violated`, `C11_randomizer_partial`, `C11_same_iff_partial`, `C11_repaired_partial`, `C12_zkAccumulate`, `C13_table_equals_no_table`, `C14_calNumWorkers`, `C15_pointwise`, `C16_hashToPrime_range_unique`, `C17_repaired_partial`, `C18_diHash_no_division`, `C18_genRepresentatives_di`, `C18_field_order`, `C19_congruent_numbers_collide`, `C19_canonical_strings_partial`, `C19_accepted_strings`, `C19_same_iff_partial`, `C19_repaired_partial`, `C19_repaired_same_partial`, `C20_genBenchSet`, `C20_genBenchSet_accepted`, `C20_pseudoRandom`, `C21_universalHash`, `C22_order_is_exponent`, `C22_trustedSetupForQRN`, `C23_isQR`, `C24_congruence`, `C24_repaired_partial`, `C25_trusted_parameters`, `C25_all_exponents`, `C26_violated`, `C26_simpleExp_exact`, `C26_simpleExp_panics_iff`, `C26_simpleExp_partial`, `C26_simpleExp_1024_partial`, `C26_iff_partial`, `C26_repaired_partial`, `C27_gcb_splits`, `C28_gcb_exact_partial`, `C28_gcb_and_iff_partial`, `C28_repaired_partial`, `C29_gcb_partial`, `C29_gcb_normalised_iff_partial`, `C29_sign_partial`, `C29_repaired_partial`, `C30_computeFromTable`, `C30_nonpositive_panics`, `C31_parallel_all_schedules`, `C31_no_goroutine_left`, `C32_compute_all_schedules`, `C33_violated`, `C33_capacity_partial`, `C33_not_fits`, `C33_capacity_iff_partial`, `C33_repaired_partial`, `C34_violated`, `C34_returns_partial`, `C34_zero_never_returns`, `C34_returns_iff_partial`, `C34_repaired_partial`, `C35_challenges_spec`, `C35_same_events`, `C36_challenge_chaining`, `C37_violated`, `C37_range_partial`, `C37_below_field_order`, `C37_first_prime`, `C37_value`, `C37_repaired_partial`, `C38_violated`, `C38_same_challenge`, `C38_repaired_partial`, `C39_tags_separate`, `C39_other_challenges`, `C40_transcripts_isolated`, `C40_callers_unchanged`, `C41_pokeStar_complete`, `C41_negative_base`, `C41_returned`, `C42_violated`, `C42_refuse_partial`, `C42_undefined_power`, `C42_refuse_iff_partial`, `C42_repaired_partial`, `C42_repaired_complete_partial`, `C43_violated`, `C43_malleable`, `C43_same_residue_partial`, `C43_repaired_partial`, `C43_repaired_complete_partial`, `C43_repaired_unique_partial`, `C44_zkpoke_complete`, `C44_returned`, `C45_poe_complete`, `C45_returned`, `C46_pokeStar`, `C46_poe`, `C46_zkpoke`, `C46_nil`, `C47_newInt3`, `C47_newInt4`, `C48_never_wrong`, `C49_violated`, `C49_can_return_partial`, `C49_some_run_returns`, `C49_one_never`, `C49_25_never`, `C49_one_cpu_never`, `C49_lost_result`, `C49_returns_iff`, `C50_range_proof_complete`, `C50_complete_of_squares`, `C51_out_of_range_never`, `C52_violated`, `C52_forge`, `C52_special_soundness_partial`, `C52_extraction_partial`, `C52_repaired_partial`, `C50_repaired_complete`, `C53_positivity_complete`, `C53_complete_of_squares`, `C54_negative_never`, `C55_violated`, `C55_forge`, `C55_special_soundness_partial`, `C55_extraction_partial`, `C55_repaired_partial`, `C53_repaired_complete`, `C56_violated`, `C56_bad_commitment_panics`, `C56_nil_panics`, `C56_returns_partial`, `C56_range_returns_iff`, `C56_positivity_returns_iff`, `C56_bad_square_panics`, `C56_repaired_partial`, `C57_isolated_partial`, `C57_no_race_partial`, `C57_repaired_isolated`, `C57_alone_rpVerify`, `C57_alone_aopVerify`, `C57_alone_rpResponse`, `C57_alone_aopResponse`, `C58_violated`, `C58_positivity_violated`, `C58_ranges_collide`, `C58_protocols_collide`, `C58_binds_commitments_partial`, `C58_positivity_binds_partial`, `C58_binds_hashed_partial`, `C58_positivity_binds_hashed_partial`, `C58_repaired_partial`, `C58_positivity_repaired_partial`, `C59_any_history`, `C59_any_positivity_history`, `C59_range_prover_reuse`, `C59_positivity_prover_reuse`, `C59_inputs_kept`, `C59_positivity_inputs_kept`, `C59_verifier_reuse`, `C59_positivity_verifier_reuse`, `C60_violated`, `C60_first_counts_twice_partial`, `C60_sum_partial`, `C60_wrong_sum`, `C60_repaired_partial`, `C61_remainders`, `C61_real_representatives`, `C62_ranges`, `C63_violated`, `C63_overflow_violated`, `C63_accepted_iff`, `C63_accepted_partial`, `C63_first_changed_rejected`, `C63_repaired_partial`, `C64_violated`, `C64_large_rejected`, `C64_genTestSet_partial`, `C64_returns`, `C64_accepted_iff_partial`, `C65_public_part`, `C65_verify_iff`, `C65_verify_exact`, `C65_congruent_values_accepted`, `C66_isValid_iff`, `C66_assignCircuit`, `C66_define_total`, `C67_violated`, `C67_challenges_ignore_accumulators`, `C67_epoch_bound_partial`, `C67_repaired_partial`, `C68_right_iff`, `C70_sound`, `C70_complete`, `C70_contracts`, `C70_key_as_proof`, `C71_negate`, `C71_no_repair`, `C72_swap`, `C72_proofs_verify`, `C73_violated`, `C73_all_parts_fail`, `C73_multi_partial`, `C73_parallel_partial`, `C73_repaired_partial`, `C74_last_bounds_all_partial`, `C74_repaired_partial`, `C75_constants`, `C75_order`, `C75_subgroup`, `C76_products_in_range`, `C76_bit_lengths`, `C76_product_bit_length`, `C76_difference`, `C77_testPoKE`, `C77_testPoKE_returns`, `C77_poke_check`, `C78_violated`, `C78_table_partial`, `C78_window_partial`, `C78_fails`, `C78_repaired_partial`, `C79_violated`, `C79_multi_partial`, `C79_parallel_partial`, `C79_repaired_partial`, `C80_range_decision`, `C80_positivity_decision`, `C80_first_message_exists`, `C81_violated`, `C81_poe_same_challenge`, `C81_binding_partial`, `C81_repaired_partial`, `C82_worker_all_schedules`, `C82_some_run_returns`, `C82_no_race`, `C83_violated`, `C83_ends_never`, `C83_inner_never`, `C83_provable_iff_partial`, `C84_words`, `C84_inputs`, `C84_contract_decides`, `C85_keys`, `C85_prove_verify`, `C85_verify_other`, `C85_test_passes`, `C85_test_sound`, `C85_merkle_passes`, `C86_violated`, `C86_second_never`, `C86_run`, `C86_output_partial`, `C86_basic_partial`, `C86_basic_run`, `C86_gnark_tests_partial`, `C86_repaired_partial`, `C86_repaired_prints_partial`, `C87_violated`, `C87_no_error`, `C87_prove_partial`, `C87_any_directory`, `C87_repaired_partial`, `C88_forged_root`, `C88_prime_representatives`, `C88_di_representatives`, `C88_same_accumulator`, `C89_violated`, `C89_negated_witness`, `C89_unique_partial`, `C89_unique_iff_partial`, `C90_poe_exact`, `C90_poe_false_statement`, `C90_pokeStar`, `C91_violated`, `C91_never_universal`, `C91_collision_count`, `C91_universal_partial`, `C91_preimages`, `C91_code_parameters`, `C92_violated`, `C92_negated`, `C92_negated_differs`, `C92_shifted`, `C92_scaled`, `C92_partial`, `C93_violated`, `C93_negative_limit`, `C93_products_partial`, `C93_provers_partial`, `C93_provers_peak`, `C93_small_limits`, `C93_no_leak`, `C93_repaired_partial`, `C94_violated`, `C94_few_cpus`, `C94_rest`, `C94_ends_partial`, `C94_ends_iff_partial`, `C95_violated`, `C95_first_partial`, `C95_others_partial`, `C95_swap_partial`, `C95_proofs`, `C95_exponents`, `C95_repaired_partial`, `C95_repaired_same_partial`, `C96_main`, `C96_other_inputs`, `C96_tables`, `C96_membershipVerify`, `C97_violated`, `C97_multi_partial`, `C97_parallel_partial`, `C97_verdict`, `C97_ret_rejected`, `C97_run`, `C97_run_rejected`, `C97_repaired_partial`, `C97_repaired_accepted_partial`, `C97_repaired_run`, `C98_count`, `C98_accepted_iff`, `C98_one_overflow_rejected`, `C98_share`, `C99_violated`, `C99_half`, `C99_advantage`, `C99_leak`, `C99_values_partial`, `C99_longer_masks_partial`, `C100_violated`, `C100_eleven`, `C100_advantage`, `C100_values_partial`, `C100_longer_masks_partial`, `C101_violated`, `C101_half`, `C101_even_leak`, `C101_coprime_partial`, `C101_small_order_partial`, `C102_violated`, `C102_advantage`, `C102_masks_partial`, `C102_partial`, `C102_longer_masks_partial`, `C102_setup_partial`, `C103_violated`, `C103_simpleExp_iff`, `C103_simpleExp_count`, `C103_builtin_setup`, `C103_accAndProve_partial`, `C103_accAndProveIter_partial`, `C103_iterParallel_partial`, `C103_product_partial`, `C103_gcb_partial`, `C104_violated`, `C104_fourfold_iff`, `C104_simpleExp_iff`, `C104_repaired_partial`, `C104_repaired_same_partial`, `C105_transcript`, `C105_challenge`, `C105_primeLength`, `C105_fuzz`, `C105_fuzz_needs_test`, `C106_small`, `C106_large`, `C106_benchmark`, `C107_violated`, `C107_publicWitness_partial`, `C107_zkMultiSwap_partial`, `C107_failCases_partial`, `C107_range_case_partial`, `C107_repaired_partial`, `C108`, `C108_bias`, `C108_single_bias`, `C108_zkpoke_bias`, `C108_zkpoke`, `C108_needs_prime`, `C109_violated`, `C109_iff_partial`, `C109_rare_partial`, `C109_one`, `C109_repaired_partial`, `C109_repaired_same_partial`, `C110_violated`, `C110_pokeStar_partial`, `C110_poe_partial`, `C110_zkpoke_partial`, `C110_repaired_partial`, `C110_repaired_same_partial`, `C110_repaired_verdict_partial`, `C111_violated`, `C111_value_partial`, `C111_never_a_factor`, `C111_repaired_partial`, `C112_poseidonWith2Inputs`, `C112_congruent`, `C113_mul_iff`, `C113_div_iff`, `C113_values_partial`, `C113_roundtrip_partial`, `C113_newInt4`, `C114_violated`, `C114_iff_partial`, `C114_partial`, `C114_returns`, `C114_repaired_partial`, `C115_holds`, `C115_reached`, `C115_naive`, `C115_parallel`, `C115_enough`, `C116_violated`, `C116_forged`, `C116_good_proof_rejected`, `C116_partial`, `C116_positivity_partial`, `C116_same_positivity`, `C116_repaired_partial`, `C117_violated`, `C117_leak`, `C117_partial`, `C117_positivity_violated`, `C117_positivity_partial`, `C117_repaired_partial`, `C117_repaired_positivity_partial`, `C118_violated`, `C118_prime_partial`, `C118_di_partial`, `C118_forged`, `C118_forged_five`, `C119_prime_partial`, `C119_di_partial`, `C120_violated`, `C120_poe`, `C120_pokeStar`, `C120_zkpoke`, `C120_false`, `C120_even_partial`, `C120_repaired_partial`, `C120_repaired_decision_partial`, `C120_repaired_honest_partial`, `C121_pokeStar`, `C121_exponent`, `C121_zkpoke`, `C121_zkpoke_difference`, `C122_violated`, `C122_forged`, `C122_complete_partial`, `C122_root_partial`, `C123_ledger`, `C123_once`, `C124_violated`, `C124_any_sums`, `C124_difference_partial`, `C125_violated`, `C125_told_apart`, `C125_even_partial`, `C126_history`, `C126_unique`, `C127_violated`, `C127_forged`, `C127_coset_partial`, `C128_violated`, `C128_any_delta`, `C128_zero_remainder`, `C128_trivial_challenges`, `C128_checked_partial`, `C129_manualBench`, `C129_manualBenchIter`, `C129_manualBenchZKAcc`, `C129_manualBenchParallel`, `C129_manualBenchIterParallel`, `C130_violated`, `C130_first_is_zero`, `C130_lengths_partial`, `C130_membership`, `C130_repaired_partial`, `C130_repaired_ends_partial`, `C131_violated`, `C131_int_violated`, `C131_returns_iff`, `C131_users_partial`, `C131_int_partial`, `C131_wrappers`, `C132_violated`, `C132_reports_partial`, `C132_range`, `C132_positivity`, `C132_zkpoke`, `C132_zkpoke_error`, `C132_randomizer`, `C132_zkAccumulate`, `C132_mul`, `C132_range_outcome_partial`, `C132_positivity_outcome_partial`, `C132_range_after_failures`, `C132_positivity_after_failures`, `C132_repaired_partial`, `C133_violated`, `C133_leak`, `C133_ends_iff_partial`, `C133_prime_partial`, `C133_others_end_partial`, `C133_compute`, `C134_violated`, `C134_small_table`, `C134_no_overflow_partial`, `C134_overflow_partial`, `C134_two_elements`, `C134_compute_returns_iff`, `C134_preTable`, `C134_repaired_partial`, `C135_add_many`, `C135_add`, `C135_remove`, `C135_replace`, `C136_violated`, `C136_same_text`, `C136_int4_partial`, `C136_table_returns`, `C136_table_partial`, `C136_transcript_partial`, `C136_transcript_count`, `C136_repaired_partial`, `C137_same_task`, `C137_returns_iff`, `C137_prime`, `C138_violated`, `C138_result`, `C138_late_read`, `C138_ends_iff_partial`, `C138_repaired`, `C139_violated`, `C139_passes_iff_partial`, `C139_any_order`, `C139_mixed`, `C139_stays`, `C139_never`, `C139_healed`, `C139_origin`, `C139_complete`, `C139_reach`, `C139_repaired`, `C140_violated`, `C140_test_partial`, `C140_merkle_partial`, `C140_output2_partial`, `C140_output_partial`, `C140_generate_partial`, `C140_no_errors`, `C140_generate_wrong`, `C140_output_left`, `C140_stat`, `C140_repaired_partial`, `C140_repaired_generate_partial`, `C140_repaired_generate_same_partial`, `C141_violated`, `C141_tests_partial`, `C141_load_iff`, `C141_output`, `C141_output2`, `C141_generate`, `C141_grows`, `C141_repaired_load_partial`, `C141_repaired_output_partial`, `C141_repaired_calls_partial`, `C141_repaired_never_partial`, `C141_repaired_same_partial`, `C141_repaired_empty_partial`, `C142_violated`, `C142_one`, `C142_bounds_partial`, `C142_repaired_partial`, `C142_repaired_tight_partial`, `C142_repaired_parts_partial`, `C143_violated`, `C143_shows`, `C143_always`, `C143_rest_partial`, `C143_repaired_partial`, `C143_repaired_same_partial`, `C144_violated`, `C144_fresh_partial`, `C144_repaired_partial`, `C145_setup_errors`, `C146_sizes`, `C147_builtin`, `C148_violated`, `C148_forged`, `C148_returned`, `C148_partial`, `C148_repaired_partial`, `C149_bytecode`, `C149_groth16`, `C149_other_keys`, `C150_binding`, `C150_deploy`, `C150_call`, `C150_answer`, `C150_selector`, `C151_violated`, `C151_iff_partial`, `C151_base_returned`, `C151_skipped`, `C151_set_partial`, `C151_repaired_partial`, `C152_proveMembership`, `C152_proveMembershipParallel`, `C152_withRandomizer`, `C152_setProductParallel`, `C152_accAndProve`, `C152_zkAccumulate`, `C152_concurrent_calls`, `C152_accumulateNew`, `C153_library`, `C153_deploy`, `C153_call`, `C153_address`, `C154_proveMembershipIter`, `C154_worker`, `C154_proveMembershipIterParallel`, `C154_accAndProveIter`, `C154_accAndProveIterParallel`, `C154_concurrent_calls`, `C154_small_sets`, `C155_genPreTable`, `C155_newTable`, `C155_computeFromTable`, `C155_computeFromTableParallel`, `C155_compute`, `C155_refused`, `C156_gas`, `C156_same_cost`, `C156_enough`, `C156_refused_takes_all`, `C156_deploy`, `C156_deploy_fits`, `C156_call_fits`, `C157_violated`, `C157_addition_violated`, `C157_addition_partial`, `C157_scalar_partial`, `C157_pairing_partial`, `C157_repaired_partial`, `C159_generators`, `C159_every_element`, `C160_violated`, `C160_checkout_fails`, `C160_noSolc_fails`, `C160_needs_files`, `C160_iff_partial`, `C160_generate_partial`, `C161_violated`, `C161_failure_passes`, `C161_step_fails_iff`, `C161_not_logged`, `C161_pipefail_partial`, `C162_gas`, `C162_one_outcome`, `C162_paid`, `C163_transactions`, `C163_deploy`, `C163_raw_call`, `C163_sessions`

### 4.2 Reading of the code

The model is a reading of the Go and Solidity text, not generated from it. Comments give lines and simplifications.

### 4.3 External code taken at its documented behaviour

| code | assumption |
|------|------------|
| `math/big` | the operations return the documented values; `Exp` with a negative exponent uses the inverse, and returns nil if there is none; `ModInverse`, `GCD`, `DivMod` are Euclidean; `Jacobi` is the Jacobi symbol; `ProbablyPrime` is any function, where primality is needed it is a hypothesis |
| `crypto/rand`, `frand` | `Int(n)` returns a number below `n`, `Prime(k)` a prime with `k` bits where needed; draws that fail are modelled for the functions of C132 only |
| `crypto/sha256`, Poseidon | arbitrary functions; 32 byte digests |
| `jiajunxin/multiexp` | `DoubleExp`, `FourfoldExp*` and `ExpParallel` return the powers modulo N; a table gives the powers of its base. The final `DoubleExp` of `SimpleExp` is such a call |
| `remyoudompheng/bigfft` | `Mul` is the product |
| `txaty/go-bigcomplex` | `GCD` returns a greatest common divisor in Z[i] |
| `sync.Pool` | `Get` returns a pooled or a new object; each pooled object is given to one caller only; objects may be dropped |
| Go memory model | channel operations order memory accesses; a step of a transition system is atomic, and `C57` and `C82` prove the absence of races on the variables they speak about |
| gnark (fork bnb-chain v0.7.1) | `ToBinary(x, 32)` holds iff x < 2^32; `AssertIsLess(a, b)` iff a < b on canonical representatives; `MulModP(a, b, P)` is the canonical a*b mod P; the circuit's Poseidon is the native one; a witness lists the public variables in the order of the struct |
| gnark `groth16` | `Complete`: a proof for a satisfied assignment verifies with the key of the same setup; `IgnoresErrors`: with `IgnoreSolverError` a proof is returned for every assignment of the right size; `Binding` (ideal security, only for claims that something is rejected): a proof made by `Prove` verifies only with its own key, its own public values and a satisfied assignment. An ideal instance shows that the three hold together. `WriteRawTo` writes eight words of 32 bytes |
| file system | a written file is complete and is read back as written; errors are left out except in C140 and C141, where every operation may fail and a failed write leaves the file created and not filled. A process that is stopped (C139) can leave a file created and not filled, which cannot be read; the order in which gnark writes its files is a parameter |
| EVM | `Model/EvmMachine` gives the opcodes that the contract uses their meaning of the Yellow Paper (Paris); gas is not counted (`GAS` returns any number), neither is stack depth; `Model/EvmGas` adds both (C156), with the prices of EIP-150, EIP-1108, EIP-2929 (all called addresses are precompiled, so warm) and the price of memory; opcodes that do not occur end the run as `stuck`, which C149 rules out. `Model/PairingCode` adds three opcodes for the library of the binding (C153) |
| EVM precompiles | `ecAdd`, `ecMul`, `ecPairing` behave as EIP-196 and EIP-197 say (structures `Eip` and `EnoughGas`) |

### 4.4 Parts of the repository

| file | modelled | not modelled |
|------|----------|--------------|
| `accumulator/accumulator.go` | all functions | - |
| `accumulator/concurrent.go` | all functions, with goroutines and channels | printing |
| `accumulator/common.go` | products, setup, safe primes, order, quadratic residues, universal hash and its parameters, constants, `GenerateG` (`Model/GenerateG`), a failing random source and the printed text of the setup functions (`Model/SetupRun`) | other printing |
| `accumulator/genRep.go`, `hashes.go`, `zkacc.go` | all functions | - |
| `accumulator/mulexp.go` | all functions on words | - |
| `accumulator/manualbench.go` | all functions | times, printing |
| `fiat-shamir/transcript.go` | all functions | - |
| `precompute/*.go` | all functions, with goroutines | - |
| `proof/*.go` | all functions; the pool separately | - |
| `zkmultiswap/circuit.go`, `common.go` | circuit, assignment, test sets, transcript, public witness, printed inputs, key files and test functions | inside of Groth16 |
| `zkmultiswap/zkmultiswap.go` | all functions | inside of Groth16 |
| `merkleswap/*.go` | all functions | inside of Groth16 |
| `zkmultiswap/gnark-tests` | `generate.go`, `generateGroth16`, `SetupTest`, `TestVerifyProof`, interop tests | inside of the compared libraries |
| `experiments/*.go` | `TestNotusMultiSwap`, `TestNotusParallel`, `TestPoKE`, `PoKE`, `TestRange`, `TestBasicZKrsa`, `TestMembershipVerify`, the precomputation benchmarks, the programs of `integers.go`, the grouping experiment, the size of the table and the wrappers with fixed sizes | inside of the external table, times, printing |
| `*.sol` | the contract, its three keys; bytecode (with gas), deployment code, the calls and transactions of the Go binding, the empty library `Pairing` | the inside of go-ethereum |
| `main.go` | the calls for every input | printing |
| `*_test.go` | all tests; of the benchmarks those with a loop of their own (`BenchmarkExp`, `DoubleExp`, `FourfoldExp`, `SimpleExp`, `GCB`, `Precompute`) and those of accumulator/benchmark_test.go | messages, timers, other benchmarks that only repeat one call |

Also outside the model: time, printing (except the texts of `Int4.String`, `PrintTable`, `Print` and of the setup functions), garbage collection (except of pooled objects), memory use, overflow of `int`
(64 bit; modelled for `NewTable` and `Compute` in Model/IntTable; `uint32` is modelled where it is used).

## 5. Findings

What the `_violated` theorems show, and what was noticed while reading.

* **Challenges.** The Fiat-Shamir transcript joins strings without separators (C38). `SetupTranscript` ignores the accumulators (C67). PoE and ZKPoKE hash decimal numbers
  side by side, so different statements share a challenge (C81). The challenges of the range and positivity proofs contain neither the commitment nor the first message, so a
  proof for any commitment is computed from public values (C52, C55, C58). A challenge can equal its bound (C37).
* **Verifiers panic** on nil proofs and on numbers with a common factor with N (C56). Accepted PoKE* proofs are malleable (C43).
* **Provers.** A negative exponent of a base without inverse is treated as the power 0, and for a negative exponent the absolute value of the base counts (C42). For a range [a, b] with a > b the values a and b are still provable.
* **Representatives.** A string and its SHA-256 digest have the same prime if the digest is not prime (C17). "1" and "01", or n and n plus the field order, have the same DI
  representative (C19). An even DI representative has the two witnesses w and N - w (C89). `RandomSetupForUniversalHash` can draw A = 0, for which all inputs collide (C91).
* **Parallel provers.** A positive limit drops the randomizer (C11). Empty and small sets panic in some entry points (C08). `SetProductParallel` with a negative limit
  starts a goroutine for about every element instead of staying sequential (C93).
* **Setup.** The sieve accepts every number (C24).
* **mulexp.go.** `SimpleExp` is wrong for lengths that are not covered by its words (C26); `CommonBits` never finds bits 32 to 63 (C28); `GCB` leaves unnormalised numbers (C29)
  and wraps around if both arguments are the same object (C27).
* **precompute.** The byte table can be one chunk too short (C33); exponent 0 never returns (C34).
* **Three squares.** n = 1, n = 25 and machines with one CPU never return; a found result can be lost (C49). Therefore the two ends of a range, the values with (b-x)(x-a) = 6, and positivity of 0 and 6 can never be proved (C83).
* **Masks.** The random numbers that hide the openings r are at most 2^256 N, but the challenge they are added to is a 256-bit hash. The answers t therefore show the size of the openings:
  two openings of the same commitment are told apart with an advantage of about the difference of the openings divided by N (C99, C100). The comparison is for given openings and ignores
  the integer pool. The masks of the values themselves are long enough.
* **ZKPoKE.** The random numbers are 254 bits longer than N, the prime challenge has up to 239 bits. The remainders in the proof are therefore uniform only up to about 2^-14, whatever the
  size of the exponent; the security parameter asks for 2^-128 (C102).
* **ZKAccumulate.** The exponent of the accumulator is the randomizer times the product of the representatives. Under the encodings that skip the search for primes an even
  representative makes it a square, so the accumulator tells whether the set has one, unless G is itself a square (C101). The test needs a prime factor of N.
* **Pool.** `RPProver.secondPartH` returns an integer that is already back in the pool (C57). The workers of `ThreeSquares` read the pooled `target` after it was put back; the
  model lets them read any value, and C138 shows that no wrong result comes from it.
* **MultiSwap circuit.** The change of the first user counts twice, so honest sets that change the first balance are rejected and others are accepted with a wrong sum (C60, C63). Hash
  plus Delta is reduced modulo the field order (C63): a share of delta / field order of all hashes overflows, and one such hash suffices to have an honest set rejected (C98). Delta is
  the residue of 2^1023 modulo a challenge of at most 2^239, so fewer than one in 2^14 of all hashes overflow; a set with thousands of users contains such a hash with noticeable probability. The id of the last user is not range checked (C74). Δ is not tied to 2^1023, the randomizers have 32 bits. `Prove` ignores solver
  errors. The printed order of the Solidity inputs is wrong (C68). `GenTestSet` repeats ids above 2^31 users (C64). `VerifyPublicWitness` compares modulo the field order (C65).
* **Exported contract.** `TestMultiSwapAndOutputSmartContract2` runs a second setup and exports the contract for its key, while the proof it prints is made with the key of the first; the contract rejects that
  proof with any inputs (C86). It also overwrites the keys that belong to `contract_g16.sol`, so after `testbasicprocess` no contract on disk matches the keys on disk. `Prove` gives a proof without error for
  sets that violate the circuit (C87).
* **Solidity.** The three contracts hold three different keys, all of whose points have order r (C75). `negate` returns PRIME_Q for Y = 0, X ≠ 0, which is no curve point (C71). Anyone can change an accepted proof into another accepted one, so a proof must not be used as an identifier (C92). `plus` and `scalar_mul` pass longer
  inputs than the precompiles read.
* **Experiments.** The middle accumulator is the old one, removed elements are counted twice and are still in the new accumulator (C73). In the parallel flow the second product comes from
  the removed set and the membership proofs ignore the randomizer (C79). The table size overflows `uint32` from 2^21 users on (C78).
  Both experiments prove a fresh test set instead of the set they computed; in the parallel flow the computed one would be rejected (C97). `TestBasicZKrsa` hangs on machines with fewer than four CPUs (C94).
  The table of `TestRSAMembershipPreCompute` is too small for four to seven elements (C95).
* **Tests.** `TestSimpleExp` panics if it draws 0 (or 1 for base or modulus), about five times in a million runs (C103). `BenchmarkExp` and `BenchmarkDoubleExp` read past their 10000 numbers if the framework
  asks for more rounds; `BenchmarkSimpleExp` and `BenchmarkGCB` ignore the number of rounds, and `BenchmarkGCB` changes its numbers while it runs (C104). The case "incorrect range of
  user balance" of `TestZkMultiSwapFailCases` uses a balance that is in the range; it passes because the hash changes, so it would also pass without any range check (C107).
* **Setup.** Nothing excludes that `getRanQR` returns 1; then `g = h = 1` and all commitments are 1 (C109). The chance is about 2^-1023. The prime `r` is longer than `p'` and `q'`, so `h` always
  generates the same group as `g`, and commitments hide in every run (C108).
* **Exponent proofs with missing parts.** The three verifiers of `proof/poke.go` panic on proofs with nil parts (C110). The parts of `PoKEStarProof` and `PoEProof` can be set by
  every caller; `z`, `rx` and `rrho` of `ZKPoKEProof` are private, so outside of the package a proof not made by the prover always lacks them.
* **`GenerateG`.** The message about the RSA-2048 challenge can only be printed if a digest is zero, and then no factor is found (C111).
* **Groups of four.** `Int4.Mul` and `Int4.Div` read `n` again in every round; with `n` one of the first three numbers of the group, or a number in the group twice, the result is wrong (C113).
  No caller in the repository uses the two methods.
* **Shared words.** `ProveMembershipIter` takes its base as `big.Int` by value, which copies the header only. For a set of one element the returned witness still has the words of `setup.G`; an
  operation that writes to the witness in place changes the setup (C114).
* **Shared verifiers.** `RPVerifier` and `ZKAoPVerifier` store the proof they are verifying in their fields. With one object in two goroutines a proof for any commitment is accepted
  if it carries the response of an accepted one (C116).
* **Shared provers.** `RPProver` keeps its coins and masks in fields. With one object in three goroutines the masks of an accepted proof can be used twice, which gives the committed number
  to everybody who sees the proofs (C117).
* **Division.** DI representatives are 2^1023 plus a hash value of 254 bits. Five hash values whose product is divisible by the representative of a sixth string are enough to compute a witness
  for that string; four are never enough (C118). Nothing is said about how hard such hash values are to find.
* **Signs.** The verifiers of PoE, PoKE* and ZKPoKE work modulo N and not modulo N up to sign. The element -1 has order 2 and is known to everyone, so for every odd challenge a negated
  proof is accepted for the negated statement, which is false for the usual bases (C120).
* **Unrelated accumulators.** `SetupTranscript` takes three accumulators and uses none. Hence the challenges of MultiSwap are known before the accumulators are chosen, and for any old and any
  new accumulator a middle one with both proofs of exponentiation is computed, whatever the circuit proves about the remainders (C122). The proofs are checked nowhere in the code; the check
  is taken from the comments in `experiments/finaltests.go`.
* **Sums.** `OriginalSum` and `UpdatedSum` are secret inputs that nothing else refers to. Only their difference is constrained, so the circuit bounds the change of the total by 2^33 per update and says
  nothing about the total itself (C124).
* **Short randomizers.** The eight hashes that replace a random number of 2048 bits are computed from a randomizer of 32 bits. Whoever guesses the removed records confirms the guess with 2^32
  trials (C125).
* **Fractional exponents.** PoKE* is only sound for a base that the prover did not choose. For the base g^q the
  verifier accepts the statement g, although g need not be a power of g^q. The base of the setup is fixed, so this
  matters only to callers who pass their own parameters (C127).
* **Unchecked deltas.** The circuit takes 2^1023 modulo the challenges as public inputs and only checks that they are below the challenges. `Verify` does not compare them either, and neither looks at
  the challenges. A prover who names the deltas gets remainder 0 for the removed records whatever they are, and with challenges 1 the remainders say nothing (C128).
* **A product that is not computed.** In `TestProduct` the first product is commented out but its time and length are still printed: the length is always 0 (C130).
* **Group sizes.** `TestDifferentGroupingSize` announces the same number of users for every group size, but leaves users out unless the size divides 262144, and panics below four (C131).
* **An error that is overwritten.** The benchmarks of the accumulator check the error of the random source only after the loop, so
  only a failure of the last draw is reported; another failure ends in a nil dereference, or, for the first number in
  `BenchmarkGroupElementSquare`, is not noticed. The provers report every failure, and a prover object can be used again
  afterwards (C132).
* **A goroutine that never ends.** The search loop of `routineFindTS` does not look at the context. For `n = 4m² + 9`, which
  a range proof for `x = a + 1` in `[a, a + 3 + m²]` decomposes, goroutine 0 has the candidate 9 and searches forever, also
  after `ThreeSquares` has returned; each such call costs one CPU core for good (C133).
* **Overflow in NewTable.** The number of bits is an `int` product that wraps: for 2^60 + 1 elements of 16 bits the table has two
  entries, and `Compute` then never returns for the product of two elements (C134).
* **Ambiguous text of a transcript.** `Print` does not quote the strings; two different transcripts of two strings can have the same
  text (C136).
* **Pooled target.** `commitForX` puts the target of `ThreeSquares` back into the pool while other workers may still read it. A
  worker that reads the value of another goroutine can search forever; the result is not affected (C138).
* **Stopped setups.** `isCircuitExist` looks only for the file of the constraint system. A setup that is stopped after this file
  was created is not repeated by any test, and a second setup that is stopped can leave keys of two setups (C139).
* **Unread keys.** `generateGroth16` prints "read file error" and goes on: the contract is exported for a key that was not read,
  and nil is returned. With a directory of a stopped setup, `TestMultiSwapAndOutputSmartContract` exports an old key if `os.Stat`
  fails (C140).
* **Files that stay open.** The functions that write contracts do not close them, and `LoadVerifyingKey` does not close the key if
  it cannot be read (C141).
* **Size of the table.** `TestPreComputeTableSize` counts 64 bits for each entry of the table, the entries have 2048 bits; the
  printed number of bytes is too small by a factor of about 32 (C142).
* **Setup prints the secret.** `getSafePrime` prints each safe prime it finds, so `TrustedSetupForQRN` shows the factors of its
  modulus on the terminal, also in runs that end with a panic later (C143).
* **Equal primes.** `TrustedSetupForQRN` does not compare its two primes (C144); with good randomness this does not happen.
* **Old pool values in a verdict.** `VerifyResponse` of the argument of positivity does not look at the result of one `Exp`. If `h`
  has no inverse modulo `N`, a negative response makes the verifier use what the pooled integer held before; with a new integer one
  proof is accepted for every commitment (C148). The `h` of the repository has an inverse.
* **Bytecode.** The compiled contract in the Go binding agrees with the Solidity file next to it on every call, also where the model of
  the source leaves out wrap-around and the longer inputs of `plus` and `scalar_mul` (C149). It holds the key of the test directory, not
  a key of the root. Arguments of the binding are taken modulo 2^256, so `a - 2^256` and `a` are the same argument (C150).
* **Powers that do not exist.** `AccumulateNew` does not look at the result of `Exp`. For a negative exponent and a base without an
  inverse it returns the base, also unreduced; `accumulate` passes over such an element (C151). Only callers with negative numbers see
  this; representatives are not negative.
* **Who writes what.** The recursive and fork-join provers only ever write integers they have taken themselves, so any number of
  calls may run at the same time on one setup (C152). That is because `handleSmallSet` and `AccumulateNew` copy the base; the iterative
  provers do not, see C114. Two goroutines that call `accumulate` itself on one base would race.
* **The library of the binding.** `DeployPairing` deploys a library without public functions. The code accepts a payment and then
  refuses every call (C153). The contract does not use it: its functions are compiled into the contract.
* **Concurrent calls of the iterative provers.** They too write only integers of their own (C154). `insertNewProofNode` overwrites the
  integer of its node; the worker of the parallel prover must not do that, since its helper reads the integer at that time, and it does not.
* **Shared tables.** The tables of package precompute may be used by any number of calls at the same time (C155). The mutex in
  `ComputeFromTableParallel` protects nothing: only the caller touches the product.
* **Gas.** The comment at solidity_groth16_test.go:29 is right: an answer costs the same for all sets, and a call with too
  little gas gets no answer instead of a wrong one (C156). The proof with A = (0, 0) is 357 units cheaper.
  A call with a point that is not on the curve takes all gas of the caller, because the assembly ends with `invalid()`.
* **Interop tests.** The messages of `TestPointAdditionInterop` for BN254 exchange google and cloudflare (C157). Addition is tested only
  with the generator, pairings only with equal factors (C158). The elements of the test `TestGTSerializationInterop` for BN254
  need not be in the target group (C159).
* **Solidity test in a checkout.** The keys are not in the repository, so the test panics; keys from a new setup alone do not fit the
  bytecode in the Go binding (C160). All three steps of `generate.go` are needed.
* **Workflow.** The step `Test` has the exit status of `grep`, so it succeeds whenever a package fails (C161). The filter removes
  lines of the output; the tests below `zkmultiswap/gnark-tests` are run all the same.
- C163: a transaction that calls `verifyProof` with a wrong proof succeeds, since the contract returns false and does not revert; who checks the status of the transaction learns nothing about the proof.

## 6. Wrong programs

`seeded/LOG.jsonl` has one line per attempt. Each edit was made in a copy of the project and the whole project was built. An edit that survives leads to a new or stronger
theorem; the line names it.
