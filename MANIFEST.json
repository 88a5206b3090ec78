{
 "claims": [
  {
   "property": "C01",
   "status": "proved",
   "theorems": [
    "Verif.Props.C01_proveMembership_correct",
    "Verif.Props.C01_proveMembership_never_panics"
   ],
   "note": "all bases, moduli and non-empty sets"
  },
  {
   "property": "C02",
   "status": "proved",
   "theorems": [
    "Verif.Props.C02_accAndProve",
    "Verif.Props.C02_accAndProveIter",
    "Verif.Props.C02_accAndProveParallel",
    "Verif.Props.C02_accAndProveIterParallel",
    "Verif.Props.C02_parallel_some_run"
   ],
   "note": "hash functions arbitrary; parallel versions for every schedule"
  },
  {
   "property": "C03",
   "status": "proved",
   "theorems": [
    "Verif.Props.C03_all_provers_agree"
   ],
   "note": ""
  },
  {
   "property": "C04",
   "status": "proved",
   "theorems": [
    "Verif.Props.C04_iter_terminates_correct"
   ],
   "note": ""
  },
  {
   "property": "C05",
   "status": "proved",
   "theorems": [
    "Verif.Props.C05_parallel_schedule_independent",
    "Verif.Props.C05_withChan_schedule_independent",
    "Verif.Props.C05_parallel_delivers"
   ],
   "note": "interleaving semantics in Verif.Go.ForkJoin"
  },
  {
   "property": "C06",
   "status": "proved",
   "theorems": [
    "Verif.Props.C06_iterParallel_all_schedules",
    "Verif.Props.C06_segments_disjoint",
    "Verif.Props.C06_small_sets",
    "Verif.Props.C06_some_run_returns",
    "Verif.Props.C06_written_once"
   ],
   "note": "transition system in Verif.Model.IterParallel; C06_written_once: no position is written a second time"
  },
  {
   "property": "C07",
   "status": "proved",
   "theorems": [
    "Verif.Props.C07_order_independent"
   ],
   "note": ""
  },
  {
   "property": "C08",
   "status": "proved",
   "theorems": [
    "Verif.Props.C08_panic_sizes",
    "Verif.Props.C08_accAndProve_panics_iff"
   ],
   "note": ""
  },
  {
   "property": "C09",
   "status": "proved",
   "theorems": [
    "Verif.Props.C09_products"
   ],
   "note": ""
  },
  {
   "property": "C10",
   "status": "proved",
   "theorems": [
    "Verif.Props.C10_randomized_correct"
   ],
   "note": ""
  },
  {
   "property": "C11",
   "status": "partial",
   "theorems": [
    "Verif.Props.C11_violated",
    "Verif.Props.C11_randomizer_partial",
    "Verif.Props.C11_same_iff_partial",
    "Verif.Props.C11_repaired_partial"
   ],
   "note": "the code violates the property: a positive limit ignores the randomizer; the exact result for every limit is proved; C11_repaired_partial: the prover with the randomizer in its exponents has the property"
  },
  {
   "property": "C12",
   "status": "proved",
   "theorems": [
    "Verif.Props.C12_zkAccumulate"
   ],
   "note": ""
  },
  {
   "property": "C13",
   "status": "proved",
   "theorems": [
    "Verif.Props.C13_table_equals_no_table"
   ],
   "note": "the multiexp table is external: taken to give the powers of its base"
  },
  {
   "property": "C14",
   "status": "proved",
   "theorems": [
    "Verif.Props.C14_calNumWorkers"
   ],
   "note": ""
  },
  {
   "property": "C15",
   "status": "proved",
   "theorems": [
    "Verif.Props.C15_one_per_string",
    "Verif.Props.C15_pointwise",
    "Verif.Props.C15_default_is_hashToPrime"
   ],
   "note": ""
  },
  {
   "property": "C16",
   "status": "proved",
   "theorems": [
    "Verif.Props.C16_hashToPrime_first_prime",
    "Verif.Props.C16_hashToPrime_range_unique"
   ],
   "note": "SHA-256 and the primality test are arbitrary functions"
  },
  {
   "property": "C17",
   "status": "partial",
   "theorems": [
    "Verif.Props.C17_violated",
    "Verif.Props.C17_digest_has_same_representative",
    "Verif.Props.C17_no_collision_partial",
    "Verif.Props.C17_short_strings_partial",
    "Verif.Props.C17_same_iff_partial",
    "Verif.Props.C17_repaired_partial"
   ],
   "note": "the code violates the property: a string and its digest have the same representative when the digest is not prime; the property is proved when neither string is an iterated digest of the other; exact, if SHA-256 does not collide: two strings have the same representative exactly if one is a digest on the way of the other; With different first bytes for elements and digests the property is proved."
  },
  {
   "property": "C18",
   "status": "proved",
   "theorems": [
    "Verif.Props.C18_diHash_range",
    "Verif.Props.C18_diHash_no_division",
    "Verif.Props.C18_genRepresentatives_di",
    "Verif.Props.C18_field_order"
   ],
   "note": ""
  },
  {
   "property": "C19",
   "status": "partial",
   "theorems": [
    "Verif.Props.C19_violated",
    "Verif.Props.C19_congruent_numbers_collide",
    "Verif.Props.C19_canonical_strings_partial",
    "Verif.Props.C19_accepted_strings",
    "Verif.Props.C19_same_iff_partial",
    "Verif.Props.C19_repaired_partial",
    "Verif.Props.C19_repaired_same_partial"
   ],
   "note": "the code violates the property: \"1\" and \"01\", or n and n plus the field order; proved for canonical decimals below the field order; the accepted strings are characterised; exact: two accepted strings have the same representative exactly if their numbers differ by a multiple of the field order; Proved for the function that refuses other strings than canonical decimals below the field order."
  },
  {
   "property": "C20",
   "status": "proved",
   "theorems": [
    "Verif.Props.C20_genBenchSet",
    "Verif.Props.C20_genBenchSet_accepted",
    "Verif.Props.C20_pseudoRandom"
   ],
   "note": ""
  },
  {
   "property": "C21",
   "status": "proved",
   "theorems": [
    "Verif.Props.C21_universalHash"
   ],
   "note": ""
  },
  {
   "property": "C22",
   "status": "proved",
   "theorems": [
    "Verif.Props.C22_order_is_exponent",
    "Verif.Props.C22_trustedSetupForQRN"
   ],
   "note": ""
  },
  {
   "property": "C23",
   "status": "proved",
   "theorems": [
    "Verif.Props.C23_isQR"
   ],
   "note": "big.Jacobi is taken to be the Jacobi symbol"
  },
  {
   "property": "C24",
   "status": "partial",
   "theorems": [
    "Verif.Props.C24_violated",
    "Verif.Props.C24_sieve_accepts_everything",
    "Verif.Props.C24_getSafePrime_partial",
    "Verif.Props.C24_congruence",
    "Verif.Props.C24_repaired_partial"
   ],
   "note": "the sieve part is violated: testRemainder returns true in both branches, so the sieve accepts every number; the part on getSafePrime is proved for every candidate stream; C24_repaired_partial: with return false in the second branch the sieve has the property"
  },
  {
   "property": "C25",
   "status": "proved",
   "theorems": [
    "Verif.Props.C25_trusted_parameters",
    "Verif.Props.C25_all_exponents"
   ],
   "note": ""
  },
  {
   "property": "C26",
   "status": "partial",
   "theorems": [
    "Verif.Props.C26_violated",
    "Verif.Props.C26_simpleExp_exact",
    "Verif.Props.C26_simpleExp_panics_iff",
    "Verif.Props.C26_simpleExp_partial",
    "Verif.Props.C26_simpleExp_1024_partial",
    "Verif.Props.C26_iff_partial",
    "Verif.Props.C26_repaired_partial"
   ],
   "note": "the code violates the property (x = 2^64); the exponent the code really uses is proved for all inputs, and that it is right under the stated condition on the bit length; C26_iff_partial: this condition is exact over all bases and moduli; C26_repaired_partial: with i += 63 the property holds"
  },
  {
   "property": "C27",
   "status": "proved",
   "theorems": [
    "Verif.Props.C27_gcb_splits",
    "Verif.Props.C27_same_object_wraps"
   ],
   "note": "for two different objects; the call with one object twice is shown to wrap around"
  },
  {
   "property": "C28",
   "status": "partial",
   "theorems": [
    "Verif.Props.C28_violated",
    "Verif.Props.C28_gcb_exact_partial",
    "Verif.Props.C28_gcb_and_iff_partial",
    "Verif.Props.C28_repaired_partial"
   ],
   "note": "the code violates the property: bits 32 to 63 of a word are not found; the exact result and the exact condition are proved; C28_repaired_partial: with 64 in place of 32 the property holds"
  },
  {
   "property": "C29",
   "status": "partial",
   "theorems": [
    "Verif.Props.C29_violated",
    "Verif.Props.C29_gcb_partial",
    "Verif.Props.C29_gcb_normalised_iff_partial",
    "Verif.Props.C29_sign_partial",
    "Verif.Props.C29_repaired_partial"
   ],
   "note": "the code violates the property: GCB(1,1) leaves operands of value 0 and Sign 1; the exact condition is proved; C29_repaired_partial: with SetBits on the operands the property holds"
  },
  {
   "property": "C30",
   "status": "proved",
   "theorems": [
    "Verif.Props.C30_computeFromTable",
    "Verif.Props.C30_nonpositive_panics",
    "Verif.Props.C30_bad_sizes_panic"
   ],
   "note": "All bases, moduli >= 1, exponents and table sizes; Exp is the modelled big.Int.Exp."
  },
  {
   "property": "C31",
   "status": "proved",
   "theorems": [
    "Verif.Props.C31_parallel_all_schedules",
    "Verif.Props.C31_no_goroutine_left"
   ],
   "note": "All interleavings of the goroutines over the buffered channel."
  },
  {
   "property": "C32",
   "status": "proved",
   "theorems": [
    "Verif.Props.C32_compute_all_schedules"
   ],
   "note": "All interleavings; the worker's busy-wait default branch is a stutter and is left out. k >= 1."
  },
  {
   "property": "C33",
   "status": "partial",
   "theorems": [
    "Verif.Props.C33_violated",
    "Verif.Props.C33_capacity_partial",
    "Verif.Props.C33_not_fits",
    "Verif.Props.C33_capacity_iff_partial",
    "Verif.Props.C33_repaired_partial"
   ],
   "note": "The code violates the property: the chunk count is rounded down. Proved when the total bit length is a multiple of the chunk length; a number that does not fit never returns. Exact: the capacity suffices if and only if ub^m has no more bits than the chunks; C33_repaired_partial: with the chunk count rounded up the property holds"
  },
  {
   "property": "C34",
   "status": "partial",
   "theorems": [
    "Verif.Props.C34_violated",
    "Verif.Props.C34_returns_partial",
    "Verif.Props.C34_zero_never_returns",
    "Verif.Props.C34_returns_iff_partial",
    "Verif.Props.C34_repaired_partial"
   ],
   "note": "The code violates the property for x = 0, which waits forever. Proved for all other x that fit. Exact: some run returns if and only if x is not 0 and fits, and then every run that returns has the power; C34_repaired_partial: with an early return for 0 the property holds"
  },
  {
   "property": "C35",
   "status": "proved",
   "theorems": [
    "Verif.Props.C35_challenges_spec",
    "Verif.Props.C35_same_events"
   ],
   "note": "The challenge is a function of the appended strings and earlier challenge requests, for every way to append them."
  },
  {
   "property": "C36",
   "status": "proved",
   "theorems": [
    "Verif.Props.C36_challenge_chaining"
   ],
   "note": "Two consecutive challenges hash different inputs; the later one contains the earlier challenge."
  },
  {
   "property": "C37",
   "status": "partial",
   "theorems": [
    "Verif.Props.C37_violated",
    "Verif.Props.C37_range_partial",
    "Verif.Props.C37_boundary",
    "Verif.Props.C37_below_field_order",
    "Verif.Props.C37_first_prime",
    "Verif.Props.C37_value",
    "Verif.Props.C37_repaired_partial",
    "Verif.Props.C37_repaired_same_partial"
   ],
   "note": "The code violates the property at the bound itself: a hash equal to the bound is kept. Proved with <= in place of <; every Max252 challenge is below the BN254 order; With wrapNumber reducing every number (an edited copy), all four bounds hold for every primality test; only the digest 2^239 gives another challenge than in the code."
  },
  {
   "property": "C38",
   "status": "partial",
   "theorems": [
    "Verif.Props.C38_violated",
    "Verif.Props.C38_same_challenge",
    "Verif.Props.C38_same_lengths_partial",
    "Verif.Props.C38_collide_iff",
    "Verif.Props.C38_repaired_partial"
   ],
   "note": "The code violates the property: strings are joined without separators. Proved for lists whose strings have the same lengths, and for all lists if the length of each string is written before it."
  },
  {
   "property": "C39",
   "status": "proved",
   "theorems": [
    "Verif.Props.C39_tags_separate",
    "Verif.Props.C39_other_challenges"
   ],
   "note": "For all statement values of the four protocols; The strings of the range proof and the argument of positivity, which are hashed without a transcript, are never hashed by one of these transcripts."
  },
  {
   "property": "C40",
   "status": "proved",
   "theorems": [
    "Verif.Props.C40_transcripts_isolated",
    "Verif.Props.C40_callers_unchanged"
   ],
   "note": "Slice heap model with arrays, offsets, lengths and capacities."
  },
  {
   "property": "C41",
   "status": "proved",
   "theorems": [
    "Verif.Props.C41_pokeStar_complete",
    "Verif.Props.C41_negative_base",
    "Verif.Props.C41_returned"
   ],
   "note": "For all statements and all hash functions; the second theorem shows why a negative base with a negative exponent is excluded. Every proof that is returned is accepted."
  },
  {
   "property": "C42",
   "status": "partial",
   "theorems": [
    "Verif.Props.C42_violated",
    "Verif.Props.C42_refuse_partial",
    "Verif.Props.C42_undefined_power",
    "Verif.Props.C42_refuse_iff_partial",
    "Verif.Props.C42_repaired_partial",
    "Verif.Props.C42_repaired_complete_partial"
   ],
   "note": "The code violates the property for negative exponents of a base that has no inverse: the power is taken to be 0. Proved in all other cases with non-negative bases. Exact for all statements and all three provers: for negative exponents the power of the absolute value of the base counts; C42_repaired_partial: with a look at the result of Exp and a reduced base the property holds"
  },
  {
   "property": "C43",
   "status": "partial",
   "theorems": [
    "Verif.Props.C43_violated",
    "Verif.Props.C43_malleable",
    "Verif.Props.C43_same_residue_partial",
    "Verif.Props.C43_repaired_partial",
    "Verif.Props.C43_repaired_complete_partial",
    "Verif.Props.C43_repaired_unique_partial"
   ],
   "note": "The code violates the property: (Q/G, R+l) is accepted whenever (Q, R) is. Proved: with the same residue Q^l is unique; With a check 0 <= R < l the verifier accepts exactly the reduced proofs of the code, the honest ones included, and two accepted proofs with different residues give a root of the generator."
  },
  {
   "property": "C44",
   "status": "proved",
   "theorems": [
    "Verif.Props.C44_zkpoke_complete",
    "Verif.Props.C44_returned"
   ],
   "note": "All coins and all hash functions. Every proof that is returned is accepted, without any assumption on the hash function."
  },
  {
   "property": "C45",
   "status": "proved",
   "theorems": [
    "Verif.Props.C45_poe_complete",
    "Verif.Props.C45_returned"
   ],
   "note": "All statements and all hash functions. Every proof that is returned is accepted."
  },
  {
   "property": "C46",
   "status": "proved",
   "theorems": [
    "Verif.Props.C46_pokeStar",
    "Verif.Props.C46_poe",
    "Verif.Props.C46_zkpoke",
    "Verif.Props.C46_nil"
   ],
   "note": "Exact acceptance condition for every proof with non-nil fields; nil proofs are rejected."
  },
  {
   "property": "C47",
   "status": "proved",
   "theorems": [
    "Verif.Props.C47_newInt3",
    "Verif.Props.C47_newInt4"
   ],
   "note": "Sorting constructors: permutation of the inputs in order, for all integers."
  },
  {
   "property": "C48",
   "status": "proved",
   "theorems": [
    "Verif.Props.C48_never_wrong",
    "Verif.Props.C48_verify"
   ],
   "note": "Every result of any interleaving of main and workers is a correct decomposition; the checker accepts exactly the correct ones."
  },
  {
   "property": "C49",
   "status": "partial",
   "theorems": [
    "Verif.Props.C49_violated",
    "Verif.Props.C49_can_return_partial",
    "Verif.Props.C49_some_run_returns",
    "Verif.Props.C49_one_never",
    "Verif.Props.C49_25_never",
    "Verif.Props.C49_one_cpu_never",
    "Verif.Props.C49_lost_result",
    "Verif.Props.C49_returns_iff"
   ],
   "note": "The full statement is false: n=1, n=25 and one-CPU machines never return, and a worker result can be lost. Proved: inputs with a prime candidate have a run that returns, and for n = 1 mod 4 exactly the inputs with a usable candidate do."
  },
  {
   "property": "C50",
   "status": "proved",
   "theorems": [
    "Verif.Props.C50_range_proof_complete",
    "Verif.Props.C50_complete_of_squares"
   ],
   "note": "All parameters with invertible bases, all ranges, values, coins, prover histories and hash functions."
  },
  {
   "property": "C51",
   "status": "proved",
   "theorems": [
    "Verif.Props.C51_out_of_range_never"
   ],
   "note": "For a <= b, over every run of the three-squares search."
  },
  {
   "property": "C52",
   "status": "partial",
   "theorems": [
    "Verif.Props.C52_violated",
    "Verif.Props.C52_forge",
    "Verif.Props.C52_special_soundness_partial",
    "Verif.Props.C52_extraction_partial",
    "Verif.Props.C52_repaired_partial",
    "Verif.Props.C50_repaired_complete"
   ],
   "note": "The code violates the property: the challenge does not depend on the first message nor on the commitment, so a proof for any commitment and any range is computed from public values. Proved: special soundness of the verifier's equations for two different challenges. With a challenge that depends on both, honest proofs are still accepted and answers to two challenges for one first message give the extraction under one hash function."
  },
  {
   "property": "C53",
   "status": "proved",
   "theorems": [
    "Verif.Props.C53_positivity_complete",
    "Verif.Props.C53_complete_of_squares"
   ],
   "note": "All parameters with invertible bases, values, coins, prover histories and hash functions."
  },
  {
   "property": "C54",
   "status": "proved",
   "theorems": [
    "Verif.Props.C54_negative_never"
   ],
   "note": "Over every run of the three-squares search."
  },
  {
   "property": "C55",
   "status": "partial",
   "theorems": [
    "Verif.Props.C55_violated",
    "Verif.Props.C55_forge",
    "Verif.Props.C55_special_soundness_partial",
    "Verif.Props.C55_extraction_partial",
    "Verif.Props.C55_repaired_partial",
    "Verif.Props.C53_repaired_complete"
   ],
   "note": "The code violates the property in the same way as C52, and is repaired in the same way."
  },
  {
   "property": "C56",
   "status": "partial",
   "theorems": [
    "Verif.Props.C56_violated",
    "Verif.Props.C56_bad_commitment_panics",
    "Verif.Props.C56_nil_panics",
    "Verif.Props.C56_returns_partial",
    "Verif.Props.C56_range_returns_iff",
    "Verif.Props.C56_positivity_returns_iff",
    "Verif.Props.C56_bad_square_panics",
    "Verif.Props.C56_repaired_partial"
   ],
   "note": "The code violates the property for nil proofs and for numbers that have a common factor with N. The proof values on which the verifiers return are given exactly; C56_repaired_partial: with checks of the pointers and of the common factors the property holds"
  },
  {
   "property": "C57",
   "status": "partial",
   "theorems": [
    "Verif.Props.C57_violated",
    "Verif.Props.C57_isolated_partial",
    "Verif.Props.C57_no_race_partial",
    "Verif.Props.C57_repaired",
    "Verif.Props.C57_repaired_isolated",
    "Verif.Props.C57_alone_secondPartH",
    "Verif.Props.C57_alone_secondPartD",
    "Verif.Props.C57_alone_rpVerify",
    "Verif.Props.C57_alone_aopVerify",
    "Verif.Props.C57_alone_calC",
    "Verif.Props.C57_alone_rpResponse",
    "Verif.Props.C57_alone_aopResponse",
    "Verif.Props.C57_alone_targets",
    "Verif.Props.C57_alone_calCa",
    "Verif.Props.C57_alone_commitFromTS",
    "Verif.Props.C57_alone_rpCommit",
    "Verif.Props.C57_alone_aopCommit",
    "Verif.Props.C57_alone_verifyTS"
   ],
   "note": "The code violates the property: RPProver.secondPartH returns an integer that is already back in the pool. Proved in all interleavings: every other function works with its own values, even beside such provers; with the repaired function the whole property holds; the values are those of the models of the proofs."
  },
  {
   "property": "C58",
   "status": "partial",
   "theorems": [
    "Verif.Props.C58_violated",
    "Verif.Props.C58_positivity_violated",
    "Verif.Props.C58_ranges_collide",
    "Verif.Props.C58_protocols_collide",
    "Verif.Props.C58_binds_commitments_partial",
    "Verif.Props.C58_positivity_binds_partial",
    "Verif.Props.C58_binds_hashed_partial",
    "Verif.Props.C58_positivity_binds_hashed_partial",
    "Verif.Props.C58_repaired_partial",
    "Verif.Props.C58_positivity_repaired_partial"
   ],
   "note": "The code violates the property: neither the commitment nor the first message is hashed. Proved: all that is hashed (parameters, range, c1, c2, c3) is bound when the decimal lengths agree; the repaired challenges bind everything."
  },
  {
   "property": "C59",
   "status": "proved",
   "theorems": [
    "Verif.Props.C59_any_history",
    "Verif.Props.C59_any_positivity_history",
    "Verif.Props.C59_range_prover_reuse",
    "Verif.Props.C59_positivity_prover_reuse",
    "Verif.Props.C59_inputs_kept",
    "Verif.Props.C59_positivity_inputs_kept",
    "Verif.Props.C59_verifier_reuse",
    "Verif.Props.C59_positivity_verifier_reuse"
   ],
   "note": "All histories of calls."
  },
  {
   "property": "C60",
   "status": "partial",
   "theorems": [
    "Verif.Props.C60_violated",
    "Verif.Props.C60_first_counts_twice_partial",
    "Verif.Props.C60_sum_partial",
    "Verif.Props.C60_wrong_sum",
    "Verif.Props.C60_repaired_partial"
   ],
   "note": "The code violates the property: the change of the first user's balance is applied twice. The equation really enforced is proved for all assignments; the property holds exactly if the first balance does not change. With the two lines removed the property holds."
  },
  {
   "property": "C61",
   "status": "proved",
   "theorems": [
    "Verif.Props.C61_remainders",
    "Verif.Props.C61_real_representatives"
   ],
   "note": "gnark gadgets and Poseidon as described in DESIGN.md."
  },
  {
   "property": "C62",
   "status": "proved",
   "theorems": [
    "Verif.Props.C62_ranges"
   ],
   "note": ""
  },
  {
   "property": "C63",
   "status": "partial",
   "theorems": [
    "Verif.Props.C63_violated",
    "Verif.Props.C63_overflow_violated",
    "Verif.Props.C63_accepted_iff",
    "Verif.Props.C63_accepted_partial",
    "Verif.Props.C63_first_changed_rejected",
    "Verif.Props.C63_repaired_partial"
   ],
   "note": "The code violates the property in two ways: every honest set that changes the first balance is rejected, and hash plus delta is reduced modulo the field order. The exact condition for acceptance is proved. In the repaired circuit only the overflow is left."
  },
  {
   "property": "C64",
   "status": "partial",
   "theorems": [
    "Verif.Props.C64_violated",
    "Verif.Props.C64_large_rejected",
    "Verif.Props.C64_genTestSet_partial",
    "Verif.Props.C64_returns",
    "Verif.Props.C64_accepted_iff_partial"
   ],
   "note": "Violated only above 2^31 users, where the uint32 ids wrap around. Proved for all n up to 2^31. Exact: accepted if and only if n is at most 2^31."
  },
  {
   "property": "C65",
   "status": "proved",
   "theorems": [
    "Verif.Props.C65_public_part",
    "Verif.Props.C65_verify_iff",
    "Verif.Props.C65_verify_exact",
    "Verif.Props.C65_congruent_values_accepted"
   ],
   "note": "Values are compared modulo the field order; for values in the field the comparison is exact."
  },
  {
   "property": "C66",
   "status": "proved",
   "theorems": [
    "Verif.Props.C66_isValid_iff",
    "Verif.Props.C66_assignCircuit",
    "Verif.Props.C66_define_total"
   ],
   "note": ""
  },
  {
   "property": "C67",
   "status": "partial",
   "theorems": [
    "Verif.Props.C67_violated",
    "Verif.Props.C67_challenges_ignore_accumulators",
    "Verif.Props.C67_epoch_bound_partial",
    "Verif.Props.C67_repaired_partial"
   ],
   "note": "The code violates the property: SetupTranscript ignores the accumulators. Only the epoch (for fixed parameters) is bound. A transcript with the accumulators and with lengths binds all."
  },
  {
   "property": "C68",
   "status": "partial",
   "theorems": [
    "Verif.Props.C68_violated",
    "Verif.Props.C68_printed_order_partial",
    "Verif.Props.C68_right_iff",
    "Verif.Props.C68_repaired_partial"
   ],
   "note": "The code violates the property: remainders are printed after epoch and deltas. The printed order is proved; With the five values in their places (an edited copy), the property holds."
  },
  {
   "property": "C69",
   "status": "proved",
   "theorems": [
    "Verif.Props.C69_accepts_iff",
    "Verif.Props.C69_own_assignment",
    "Verif.Props.C69_outputs_fixed",
    "Verif.Props.C69_assignment"
   ],
   "note": "For assignments with as many outputs as inputs, which gnark enforces at compile time."
  },
  {
   "property": "C70",
   "status": "proved",
   "theorems": [
    "Verif.Props.C70_reverts",
    "Verif.Props.C70_no_aliases",
    "Verif.Props.C70_sound",
    "Verif.Props.C70_complete",
    "Verif.Props.C70_contracts",
    "Verif.Props.C70_key_as_proof"
   ],
   "note": "Relative to the precompiles behaving as EIP-196 and EIP-197 say; for any encoded verifying key, and for the three contracts without assumptions on their keys. C70_key_as_proof: for some reduced inputs two points of the key and zero are an accepted proof"
  },
  {
   "property": "C71",
   "status": "proved",
   "theorems": [
    "Verif.Props.C71_negate",
    "Verif.Props.C71_no_repair",
    "Verif.Props.C71_off_curve"
   ],
   "note": "negate is the group inverse on encoded points; off-curve input cannot be repaired."
  },
  {
   "property": "C72",
   "status": "proved",
   "theorems": [
    "Verif.Props.C72_swap",
    "Verif.Props.C72_proofs_verify"
   ],
   "note": "About the functions the experiments call; C73 is about the calls as they are."
  },
  {
   "property": "C73",
   "status": "partial",
   "theorems": [
    "Verif.Props.C73_violated",
    "Verif.Props.C73_all_parts_fail",
    "Verif.Props.C73_multi_partial",
    "Verif.Props.C73_parallel_partial",
    "Verif.Props.C73_repaired_partial"
   ],
   "note": "Violated in both flows: the middle accumulator still contains the removed elements; the partial theorems give the exact values; Proved for both flows with a middle accumulator made from the unchanged elements, PoKE for the product of the removed elements, and in the parallel flow the inserted set and the prover with the randomizer."
  },
  {
   "property": "C74",
   "status": "partial",
   "theorems": [
    "Verif.Props.C74_violated",
    "Verif.Props.C74_last_bounds_all_partial",
    "Verif.Props.C74_repaired_partial"
   ],
   "note": "Violated: the check of the last id is commented out. With this check the property holds."
  },
  {
   "property": "C75",
   "status": "proved",
   "theorems": [
    "Verif.Props.C75_constants",
    "Verif.Props.C75_order",
    "Verif.Props.C75_subgroup"
   ],
   "note": "The curve has exactly r points, and all points of the three hard-coded keys have order r, so the pairing contract does not refuse them."
  },
  {
   "property": "C76",
   "status": "proved",
   "theorems": [
    "Verif.Props.C76_products_in_range",
    "Verif.Props.C76_bit_lengths",
    "Verif.Props.C76_product_bit_length",
    "Verif.Props.C76_difference"
   ],
   "note": ""
  },
  {
   "property": "C77",
   "status": "proved",
   "theorems": [
    "Verif.Props.C77_testPoKE",
    "Verif.Props.C77_testPoKE_returns",
    "Verif.Props.C77_poke_check"
   ],
   "note": ""
  },
  {
   "property": "C78",
   "status": "partial",
   "theorems": [
    "Verif.Props.C78_violated",
    "Verif.Props.C78_table_partial",
    "Verif.Props.C78_window_partial",
    "Verif.Props.C78_fails",
    "Verif.Props.C78_repaired_partial"
   ],
   "note": "Violated from 2^21 elements on (uint32 overflow); proved below and for 4190214 up to 2^22 - 1; every other size fails if the randomizer is not zero (for the two sizes 4190212 and 4190213 if it is not small); With the number of words computed in 64 bits (an edited copy), the table is large enough for every size."
  },
  {
   "property": "C79",
   "status": "partial",
   "theorems": [
    "Verif.Props.C79_violated",
    "Verif.Props.C79_multi_partial",
    "Verif.Props.C79_parallel_partial",
    "Verif.Props.C79_repaired_partial"
   ],
   "note": "Proved for TestNotusMultiSwap; violated by TestNotusParallel, whose second product is made from the removed set; Proved for both repaired flows of C73."
  },
  {
   "property": "C80",
   "status": "proved",
   "theorems": [
    "Verif.Props.C80_range_decision",
    "Verif.Props.C80_positivity_decision",
    "Verif.Props.C80_first_message_exists"
   ],
   "note": "Statements over units of ZMod N; the equations are Spec/Sigma.lean."
  },
  {
   "property": "C81",
   "status": "partial",
   "theorems": [
    "Verif.Props.C81_violated",
    "Verif.Props.C81_poe_same_challenge",
    "Verif.Props.C81_binding_partial",
    "Verif.Props.C81_repaired_partial"
   ],
   "note": "PoKE* binds its statement. PoE and ZKPoKE hash decimal numbers without separators, so C = 1, x = 23 and C = 12, x = 3 have the same challenge; proved for numbers of equal lengths, and for all numbers if the length of each string is written before it."
  },
  {
   "property": "C82",
   "status": "proved",
   "theorems": [
    "Verif.Props.C82_worker_all_schedules",
    "Verif.Props.C82_some_run_returns",
    "Verif.Props.C82_no_race"
   ],
   "note": "Two goroutines as a state machine with a heap of nodes; the results of the workers of C06 are defined by it."
  },
  {
   "property": "C83",
   "status": "partial",
   "theorems": [
    "Verif.Props.C83_violated",
    "Verif.Props.C83_ends_never",
    "Verif.Props.C83_inner_never",
    "Verif.Props.C83_provable_iff_partial"
   ],
   "note": "The ends of a range and positivity of 0 and 6 are never proved, since ThreeSquares does not return for 1 and 25. Proved: a value can be proved exactly if its number has a usable candidate."
  },
  {
   "property": "C84",
   "status": "proved",
   "theorems": [
    "Verif.Props.C84_words",
    "Verif.Props.C84_short",
    "Verif.Props.C84_inputs",
    "Verif.Props.C84_contract_decides"
   ],
   "note": ""
  },
  {
   "property": "C85",
   "status": "proved",
   "theorems": [
    "Verif.Props.C85_keys",
    "Verif.Props.C85_prove_verify",
    "Verif.Props.C85_verify_other",
    "Verif.Props.C85_test_passes",
    "Verif.Props.C85_test_sound",
    "Verif.Props.C85_merkle_passes"
   ],
   "note": "Groth16 is a parameter; completeness and ideal security are hypotheses where needed."
  },
  {
   "property": "C86",
   "status": "partial",
   "theorems": [
    "Verif.Props.C86_violated",
    "Verif.Props.C86_second_never",
    "Verif.Props.C86_run",
    "Verif.Props.C86_output_partial",
    "Verif.Props.C86_basic_partial",
    "Verif.Props.C86_basic_run",
    "Verif.Props.C86_gnark_tests_partial",
    "Verif.Props.C86_repaired_partial",
    "Verif.Props.C86_repaired_prints_partial"
   ],
   "note": "The contract is exported for the key of a second setup and rejects the printed proof with any inputs. Proved: the contract of TestMultiSwapAndOutputSmartContract and the one of gnark-tests match their keys; If the export loads the key that the setup wrote and prints the public witness, the contract accepts every printed proof, and with a complete proof system a proof is printed."
  },
  {
   "property": "C87",
   "status": "partial",
   "theorems": [
    "Verif.Props.C87_violated",
    "Verif.Props.C87_no_error",
    "Verif.Props.C87_prove_partial",
    "Verif.Props.C87_any_directory",
    "Verif.Props.C87_repaired_partial"
   ],
   "note": "Prove ignores solver errors. Proved: exactly when it fails or panics, and that Verify never accepts a proof for a rejected set; Without IgnoreSolverError (an edited copy of Prove that returns the error of the solver), every set that the circuit rejects gives an error, and accepted sets are proved as by the code."
  },
  {
   "property": "C88",
   "status": "proved",
   "theorems": [
    "Verif.Props.C88_forged_root",
    "Verif.Props.C88_prime_representatives",
    "Verif.Props.C88_di_representatives",
    "Verif.Props.C88_same_accumulator"
   ],
   "note": "No hardness assumption: the root is an explicit formula in the forged witness."
  },
  {
   "property": "C89",
   "status": "partial",
   "theorems": [
    "Verif.Props.C89_violated",
    "Verif.Props.C89_negated_witness",
    "Verif.Props.C89_unique_partial",
    "Verif.Props.C89_unique_iff_partial"
   ],
   "note": "For an even representative, as half of the DI representatives are, N - w verifies too. Proved: unique if the representative is coprime to the number of invertible residues. Exact: the witness is unique if and only if it is coprime."
  },
  {
   "property": "C90",
   "status": "proved",
   "theorems": [
    "Verif.Props.C90_poe_exact",
    "Verif.Props.C90_poe_false_statement",
    "Verif.Props.C90_pokeStar"
   ],
   "note": ""
  },
  {
   "property": "C91",
   "status": "partial",
   "theorems": [
    "Verif.Props.C91_violated",
    "Verif.Props.C91_never_universal",
    "Verif.Props.C91_collision_count",
    "Verif.Props.C91_congruent",
    "Verif.Props.C91_universal_partial",
    "Verif.Props.C91_preimages",
    "Verif.Props.C91_code_parameters",
    "Verif.Props.C91_setup"
   ],
   "note": "A = 0 can be drawn, so 2P-1 of the P^2 parameters collide, which exceeds the bound for every odd P > 1. Proved: the exact count, universality without A = 0, and that the hash with the parameters in the code is two-to-one."
  },
  {
   "property": "C92",
   "status": "partial",
   "theorems": [
    "Verif.Props.C92_violated",
    "Verif.Props.C92_negated",
    "Verif.Props.C92_negated_differs",
    "Verif.Props.C92_shifted",
    "Verif.Props.C92_scaled",
    "Verif.Props.C92_partial"
   ],
   "note": "Anyone can change an accepted proof in three ways. Proved: A, B and the inputs determine C, and A, B, C bind the inputs up to a relation between the points of the key, if the pairing is not degenerate."
  },
  {
   "property": "C93",
   "status": "partial",
   "theorems": [
    "Verif.Props.C93_violated",
    "Verif.Props.C93_negative_limit",
    "Verif.Props.C93_products_partial",
    "Verif.Props.C93_provers_partial",
    "Verif.Props.C93_provers_peak",
    "Verif.Props.C93_small_limits",
    "Verif.Props.C93_no_leak",
    "Verif.Props.C93_repaired_partial"
   ],
   "note": "violated for negative limits of SetProductParallel, which tests limit == 0 only: on a set of n elements at least n - 2 goroutines; proved: the provers with any limit and the product with a limit that is not negative use at most 2 * 2^limit, with the exact peak for large sets; no goroutine is left; goroutines of the external FourfoldExpPrecomputedParallel are not counted; With the test limit <= 0 (an edited copy), the full statement holds with the constant 2."
  },
  {
   "property": "C94",
   "status": "partial",
   "theorems": [
    "Verif.Props.C94_violated",
    "Verif.Props.C94_few_cpus",
    "Verif.Props.C94_rest",
    "Verif.Props.C94_ends_partial",
    "Verif.Props.C94_ends_iff_partial"
   ],
   "note": "violated on one, two and three CPUs, where ThreeSquares(401) never returns; proved: with four or more some run ends, and once the squares are found everything verifies, on every machine; exact: ends if and only if there are four CPUs or more"
  },
  {
   "property": "C95",
   "status": "partial",
   "theorems": [
    "Verif.Props.C95_violated",
    "Verif.Props.C95_first_partial",
    "Verif.Props.C95_others_partial",
    "Verif.Props.C95_swap_partial",
    "Verif.Props.C95_proofs",
    "Verif.Props.C95_exponents",
    "Verif.Props.C95_repaired_partial",
    "Verif.Props.C95_repaired_same_partial"
   ],
   "note": "violated by TestRSAMembershipPreCompute with four to seven elements: its table covers all randomizers exactly from eight elements on; the other tables always suffice, those of the swap experiments below 2^21 elements; all proofs verify. The effect of a short table in the external multiexp is not modelled; With the table size of the other two programs TestRSAMembershipPreCompute covers the exponents of every run and gives the same values."
  },
  {
   "property": "C96",
   "status": "proved",
   "theorems": [
    "Verif.Props.C96_main",
    "Verif.Props.C96_sizes",
    "Verif.Props.C96_other_inputs",
    "Verif.Props.C96_tables",
    "Verif.Props.C96_membershipVerify"
   ],
   "note": "prime challenges are assumed to be found; Groth16 as in C85 and C87; the condition on overflow is the one of C98"
  },
  {
   "property": "C97",
   "status": "partial",
   "theorems": [
    "Verif.Props.C97_violated",
    "Verif.Props.C97_multi_partial",
    "Verif.Props.C97_parallel_partial",
    "Verif.Props.C97_verdict",
    "Verif.Props.C97_ret_rejected",
    "Verif.Props.C97_run",
    "Verif.Props.C97_run_rejected",
    "Verif.Props.C97_repaired_partial",
    "Verif.Props.C97_repaired_accepted_partial",
    "Verif.Props.C97_repaired_run"
   ],
   "note": "violated by TestNotusParallel, whose computed set has another second remainder and is rejected by the circuit while Verification passed is printed; proved for TestNotusMultiSwap, and that the verdict of both is the one of TestMultiSwap; With the second product made from the inserted set both experiments prove the set that they computed."
  },
  {
   "property": "C98",
   "status": "proved",
   "theorems": [
    "Verif.Props.C98_count",
    "Verif.Props.C98_accepted_iff",
    "Verif.Props.C98_one_overflow_rejected",
    "Verif.Props.C98_share"
   ],
   "note": "exact condition for acceptance in terms of the overflowing records; the challenges are prime and divide no factor"
  },
  {
   "property": "C99",
   "status": "partial",
   "theorems": [
    "Verif.Props.C99_violated",
    "Verif.Props.C99_half",
    "Verif.Props.C99_advantage",
    "Verif.Props.C99_leak",
    "Verif.Props.C99_values_partial",
    "Verif.Props.C99_longer_masks_partial"
   ],
   "note": "violated: the masks of the answers t are 2^256 N while the challenge has 256 bits, so these answers leak the size of the openings; exact advantage for given commitments; proved for the answers z and tau, and for the whole proof if those masks were 132 bits longer"
  },
  {
   "property": "C100",
   "status": "partial",
   "theorems": [
    "Verif.Props.C100_violated",
    "Verif.Props.C100_eleven",
    "Verif.Props.C100_advantage",
    "Verif.Props.C100_values_partial",
    "Verif.Props.C100_longer_masks_partial"
   ],
   "note": "violated in the same way by the openings of the squares; exact advantage for given commitments; proved for the answers z and t, and for the whole proof if the masks were 131 bits longer"
  },
  {
   "property": "C101",
   "status": "partial",
   "theorems": [
    "Verif.Props.C101_violated",
    "Verif.Props.C101_half",
    "Verif.Props.C101_even_leak",
    "Verif.Props.C101_coprime_partial",
    "Verif.Props.C101_small_order_partial"
   ],
   "note": "violated under the encodings that skip the search for primes: an even representative makes every accumulator a square modulo a factor of N; proved up to the distance of 2^2047 to the multiples of an exponent m with G^m = 1 when no representative has a common factor with m"
  },
  {
   "property": "C102",
   "status": "partial",
   "theorems": [
    "Verif.Props.C102_violated",
    "Verif.Props.C102_advantage",
    "Verif.Props.C102_masks_partial",
    "Verif.Props.C102_partial",
    "Verif.Props.C102_longer_masks_partial",
    "Verif.Props.C102_setup_partial"
   ],
   "note": "violated: the random numbers are below N 2^254 while the prime challenge has up to 239 bits, so the remainder rx is not uniform (advantage above 2^-23 in the example); proved with 2^-13 for all exponents of any size, and with 2^-128 if the numbers were 115 bits longer"
  },
  {
   "property": "C103",
   "status": "partial",
   "theorems": [
    "Verif.Props.C103_violated",
    "Verif.Props.C103_simpleExp_iff",
    "Verif.Props.C103_simpleExp_count",
    "Verif.Props.C103_builtin_setup",
    "Verif.Props.C103_constants_partial",
    "Verif.Props.C103_accAndProve_partial",
    "Verif.Props.C103_accAndProveIter_partial",
    "Verif.Props.C103_iterParallel_partial",
    "Verif.Props.C103_product_partial",
    "Verif.Props.C103_gcb_partial"
   ],
   "note": "violated by TestSimpleExp, which panics if it draws 0, or 1 for the base or the modulus; it passes on exactly 999998*999999*999998 of the 10^18 draws. All other tests pass on every draw and schedule"
  },
  {
   "property": "C104",
   "status": "partial",
   "theorems": [
    "Verif.Props.C104_violated",
    "Verif.Props.C104_exp_iff",
    "Verif.Props.C104_doubleExp_iff",
    "Verif.Props.C104_fourfold_partial",
    "Verif.Props.C104_fourfold_iff",
    "Verif.Props.C104_simpleExp_iff",
    "Verif.Props.C104_gcb_partial",
    "Verif.Props.C104_repaired_partial",
    "Verif.Props.C104_repaired_same_partial"
   ],
   "note": "violated: BenchmarkExp and BenchmarkDoubleExp read past their 10000 numbers exactly if b.N is larger, BenchmarkSimpleExp panics exactly if it draws 0; the other two never panic; Loops that start again at the first number and skip the exponent 0 never panic and are those of the code where these do not panic."
  },
  {
   "property": "C105",
   "status": "proved",
   "theorems": [
    "Verif.Props.C105_constants",
    "Verif.Props.C105_transcript",
    "Verif.Props.C105_challenge",
    "Verif.Props.C105_primeLength",
    "Verif.Props.C105_fuzz",
    "Verif.Props.C105_fuzz_needs_test"
   ],
   "note": "the condition on the primality test is shown to be needed; SHA-256 and ProbablyPrime are parameters"
  },
  {
   "property": "C106",
   "status": "proved",
   "theorems": [
    "Verif.Props.C106_small",
    "Verif.Props.C106_large",
    "Verif.Props.C106_benchmark"
   ],
   "note": "reflect.DeepEqual on big.Int is modelled as equality of nonzero numbers"
  },
  {
   "property": "C107",
   "status": "partial",
   "theorems": [
    "Verif.Props.C107_violated",
    "Verif.Props.C107_publicWitness_partial",
    "Verif.Props.C107_zkMultiSwap_partial",
    "Verif.Props.C107_failCases_partial",
    "Verif.Props.C107_range_case_partial",
    "Verif.Props.C107_repaired_partial"
   ],
   "note": "violated: the case 'incorrect range of user balance' uses 1000000000, which is in the range, so it is rejected only because the hash changes; accepted exactly if both remainders stay the same. All other cases are rejected for every hash; a balance of 2^32 or more would be too. TestZkMultiSwap passes if no record hash overflows; With the balance 2^32 in the case of the range all cases are rejected for every hash function."
  },
  {
   "property": "C108",
   "status": "proved",
   "theorems": [
    "Verif.Props.C108",
    "Verif.Props.C108_bias",
    "Verif.Props.C108_single_bias",
    "Verif.Props.C108_zkpoke_bias",
    "Verif.Props.C108_zkpoke",
    "Verif.Props.C108_needs_prime"
   ],
   "note": "statistical distance, so for tests of any running time; the exponent r of h being prime and of another length than p' and q' is used and shown to be needed. The bound for any parameters is three times the incomplete period"
  },
  {
   "property": "C109",
   "status": "partial",
   "theorems": [
    "Verif.Props.C109_violated",
    "Verif.Props.C109_iff_partial",
    "Verif.Props.C109_rare_partial",
    "Verif.Props.C109_one",
    "Verif.Props.C109_repaired_partial",
    "Verif.Props.C109_repaired_same_partial"
   ],
   "note": "violated: the setup accepts a draw of 1, which gives g = h = 1. Proved: both generate the squares exactly if g - 1 is coprime to N, and at most p + q of the pq draws fail this; If the setup draws again while g - 1 has a common factor with N, both printed numbers generate the squares, and runs that pass the check are unchanged."
  },
  {
   "property": "C110",
   "status": "partial",
   "theorems": [
    "Verif.Props.C110_violated",
    "Verif.Props.C110_pokeStar_partial",
    "Verif.Props.C110_poe_partial",
    "Verif.Props.C110_zkpoke_partial",
    "Verif.Props.C110_repaired_partial",
    "Verif.Props.C110_repaired_same_partial",
    "Verif.Props.C110_repaired_verdict_partial"
   ],
   "note": "violated: proofs with nil parts make the verifiers panic; the exact sets of missing parts are proved for each verifier, in all other cases a boolean is returned; C110_repaired_partial: with checks of the fields the property holds; The checked verifiers give the verdicts of the code."
  },
  {
   "property": "C111",
   "status": "partial",
   "theorems": [
    "Verif.Props.C111_violated",
    "Verif.Props.C111_value_partial",
    "Verif.Props.C111_never_a_factor",
    "Verif.Props.C111_repaired_partial"
   ],
   "note": "violated for hash functions with a zero digest: then g = 0 and the common divisor is N. If all prime factors of N have more than 256 bits this is the only way the message is ever printed. The printed value is proved for all hash functions; C111_repaired_partial: with gcd != N as a second condition the property holds for every modulus"
  },
  {
   "property": "C112",
   "status": "proved",
   "theorems": [
    "Verif.Props.C112_poseidonWith2Inputs",
    "Verif.Props.C112_congruent"
   ],
   "note": "Poseidon is a parameter with values below the field order"
  },
  {
   "property": "C113",
   "status": "partial",
   "theorems": [
    "Verif.Props.C113_violated",
    "Verif.Props.C113_mul_iff",
    "Verif.Props.C113_div_iff",
    "Verif.Props.C113_values_partial",
    "Verif.Props.C113_roundtrip_partial",
    "Verif.Props.C113_newInt4",
    "Verif.Props.C113_more",
    "Verif.Props.C113_repaired_partial"
   ],
   "note": "violated if n is one of the numbers or a pointer is in the group twice; proved exactly for which pointers the calls are right on all numbers, separately for Mul and Div; C113_repaired_partial: with the results computed before they are stored the property holds"
  },
  {
   "property": "C114",
   "status": "partial",
   "theorems": [
    "Verif.Props.C114_violated",
    "Verif.Props.C114_iff_partial",
    "Verif.Props.C114_partial",
    "Verif.Props.C114_returns",
    "Verif.Props.C114_single",
    "Verif.Props.C114_repaired_partial"
   ],
   "note": "violated for sets of one element, where the witness is a shallow copy of setup.G; for all other sizes every witness has its own words and the values are those of C01; With the words of setup.G copied first (an edited copy), the property holds for sets of any size."
  },
  {
   "property": "C115",
   "status": "proved",
   "theorems": [
    "Verif.Props.C115_holds",
    "Verif.Props.C115_reached",
    "Verif.Props.C115_naive",
    "Verif.Props.C115_same",
    "Verif.Props.C115_parallel",
    "Verif.Props.C115_enough"
   ],
   "note": "work is counted as bits of exponents (squarings); multiplications of SetProductRecursiveFast and the cost of one squaring are not counted. For n = 4^k the bound is reached up to the rounding of bit lengths"
  },
  {
   "property": "C116",
   "status": "partial",
   "theorems": [
    "Verif.Props.C116_violated",
    "Verif.Props.C116_forged",
    "Verif.Props.C116_good_proof_rejected",
    "Verif.Props.C116_partial",
    "Verif.Props.C116_positivity_partial",
    "Verif.Props.C116_same_positivity",
    "Verif.Props.C116_repaired_partial"
   ],
   "note": "violated: the objects keep the proof being verified in their fields, so a proof with the response of another accepted proof is accepted, and a good range proof verified twice at the same time is rejected. Proved: a call whose steps are not interrupted is right after any history, and goroutines verifying the same argument of positivity are all right; Verifiers that work on a copy of the object give every goroutine the result it would get alone, in every schedule."
  },
  {
   "property": "C117",
   "status": "partial",
   "theorems": [
    "Verif.Props.C117_violated",
    "Verif.Props.C117_leak",
    "Verif.Props.C117_partial",
    "Verif.Props.C117_positivity_violated",
    "Verif.Props.C117_positivity_partial",
    "Verif.Props.C117_repaired_partial",
    "Verif.Props.C117_repaired_positivity_partial"
   ],
   "note": "violated: the object keeps coins and masks in its fields, so a proof made while another goroutine proves can be rejected. C117_leak: with one schedule of three goroutines the masks of an accepted proof are used again and the committed number can be computed from the three proofs when the two public challenges differ. Proved: a call whose steps are not interrupted gives the proof it would give alone, after any history; the same two results for ZKAoPProver; Provers that work on a copy of the object give every goroutine a proof that verifies, in every schedule."
  },
  {
   "property": "C118",
   "status": "partial",
   "theorems": [
    "Verif.Props.C118_violated",
    "Verif.Props.C118_prime_partial",
    "Verif.Props.C118_di_partial",
    "Verif.Props.C118_forged",
    "Verif.Props.C118_forged_five"
   ],
   "note": "violated for DI representatives: with an injective Poseidon the representative of one string divides the product for a set of five, and a witness for it is computed without any root (C118_forged). Proved: for prime representatives always, for DI representatives up to four strings"
  },
  {
   "property": "C119",
   "status": "partial",
   "theorems": [
    "Verif.Props.C119_prime_partial",
    "Verif.Props.C119_di_partial"
   ],
   "note": "proved for prime representatives; for DI representatives if the sets differ in at most four strings on each side. Open: DI sets that differ in more strings"
  },
  {
   "property": "C120",
   "status": "partial",
   "theorems": [
    "Verif.Props.C120_violated",
    "Verif.Props.C120_poe",
    "Verif.Props.C120_pokeStar",
    "Verif.Props.C120_zkpoke",
    "Verif.Props.C120_false",
    "Verif.Props.C120_even_partial",
    "Verif.Props.C120_repaired_partial",
    "Verif.Props.C120_repaired_decision_partial",
    "Verif.Props.C120_repaired_honest_partial"
   ],
   "note": "violated: the negated proof is accepted exactly for the odd challenges, that is for all primes except 2; C120_false shows that the negated statement is false if the base is a square modulo a prime factor that is 3 modulo 4. Proved: refused for an even challenge; Proved for a verifier of PoE that takes residues up to sign."
  },
  {
   "property": "C121",
   "status": "proved",
   "theorems": [
    "Verif.Props.C121_pokeStar",
    "Verif.Props.C121_exponent",
    "Verif.Props.C121_zkpoke",
    "Verif.Props.C121_zkpoke_difference"
   ],
   "note": "several challenges for one statement mean several hash functions, as in a rewinding argument; the probability of getting them is not modelled"
  },
  {
   "property": "C122",
   "status": "partial",
   "theorems": [
    "Verif.Props.C122_violated",
    "Verif.Props.C122_forged",
    "Verif.Props.C122_complete_partial",
    "Verif.Props.C122_root_partial"
   ],
   "note": "violated: the challenges do not depend on the accumulators, so for any two accumulators a middle one and both proofs are computed from the challenges and remainders. Proved: honest accumulators pass, and checks that pass give roots of the two quotients"
  },
  {
   "property": "C123",
   "status": "proved",
   "theorems": [
    "Verif.Props.C123_ledger",
    "Verif.Props.C123_once"
   ],
   "note": "that removed hashes are present is the task of the accumulator (C88, C118, C122) and a hypothesis here; so is the absence of Poseidon collisions among the records that occur"
  },
  {
   "property": "C124",
   "status": "partial",
   "theorems": [
    "Verif.Props.C124_violated",
    "Verif.Props.C124_any_sums",
    "Verif.Props.C124_difference_partial"
   ],
   "note": "violated: the sums are secret inputs and tied to nothing, an accepted update stays accepted for all sums of 32 bits with the same difference. Proved: if the first balance does not change the difference of the sums is the change of the total, and one update changes the total by less than 2^33"
  },
  {
   "property": "C125",
   "status": "partial",
   "theorems": [
    "Verif.Props.C125_violated",
    "Verif.Props.C125_told_apart",
    "Verif.Props.C125_even_partial"
   ],
   "note": "violated: the circuit restricts the randomizers to 32 bits, so for every order from 2^33 on the test that tries all randomizers has an advantage of at least 1/2. Proved: blinding factors that are spread evenly over the exponents blind perfectly"
  },
  {
   "property": "C126",
   "status": "proved",
   "theorems": [
    "Verif.Props.C126_history",
    "Verif.Props.C126_prefix",
    "Verif.Props.C126_unique"
   ],
   "note": "the absence of Poseidon collisions among the records that occur is a hypothesis"
  },
  {
   "property": "C127",
   "status": "partial",
   "theorems": [
    "Verif.Props.C127_violated",
    "Verif.Props.C127_forged",
    "Verif.Props.C127_coset_partial"
   ],
   "note": "violated: a prover who chooses the base as a power g^q proves the statement g, which need not be a power of the base; what holds is that C is a power of the base exactly if Q is, when the challenge is prime to the number of cosets"
  },
  {
   "property": "C128",
   "status": "partial",
   "theorems": [
    "Verif.Props.C128_violated",
    "Verif.Props.C128_any_delta",
    "Verif.Props.C128_zero_remainder",
    "Verif.Props.C128_trivial_challenges",
    "Verif.Props.C128_checked_partial"
   ],
   "note": "violated: DeltaModL1 and DeltaModL2 are public inputs that nothing compares with 2^1023, so every delta below the challenge is accepted with some remainder, and one of them makes the remainder 0; the statement holds if the verifier compares the deltas"
  },
  {
   "property": "C129",
   "status": "proved",
   "theorems": [
    "Verif.Props.C129_manualBench",
    "Verif.Props.C129_manualBenchIter",
    "Verif.Props.C129_manualBenchZKAcc",
    "Verif.Props.C129_manualBenchParallel",
    "Verif.Props.C129_manualBenchIterParallel"
   ],
   "note": "TrustedSetup and the randomizer are parameters; times are not modelled"
  },
  {
   "property": "C130",
   "status": "partial",
   "theorems": [
    "Verif.Props.C130_violated",
    "Verif.Props.C130_first_is_zero",
    "Verif.Props.C130_lengths_partial",
    "Verif.Props.C130_membership",
    "Verif.Props.C130_repaired_partial",
    "Verif.Props.C130_repaired_ends_partial"
   ],
   "note": "violated: the first product of TestProduct is commented out, so the first number it prints is 0; all other lengths are right; Repair: with lines 52 and 54 of TestProduct not commented out, every printed length is the length of the product."
  },
  {
   "property": "C131",
   "status": "partial",
   "theorems": [
    "Verif.Props.C131_violated",
    "Verif.Props.C131_int_violated",
    "Verif.Props.C131_returns_iff",
    "Verif.Props.C131_users_partial",
    "Verif.Props.C131_int_partial",
    "Verif.Props.C131_wrappers"
   ],
   "note": "violated by sizes that do not divide 262144; the five sizes of the repository do; a negative size serves nobody"
  },
  {
   "property": "C132",
   "status": "partial",
   "theorems": [
    "Verif.Props.C132_violated",
    "Verif.Props.C132_reports_partial",
    "Verif.Props.C132_range",
    "Verif.Props.C132_positivity",
    "Verif.Props.C132_zkpoke",
    "Verif.Props.C132_zkpoke_error",
    "Verif.Props.C132_randomizer",
    "Verif.Props.C132_zkAccumulate",
    "Verif.Props.C132_mul",
    "Verif.Props.C132_square_partial",
    "Verif.Props.C132_range_outcome_partial",
    "Verif.Props.C132_positivity_outcome_partial",
    "Verif.Props.C132_range_after_failures",
    "Verif.Props.C132_positivity_after_failures",
    "Verif.Props.C132_repaired_partial"
   ],
   "note": "violated only by BenchmarkGroupElementSquare, which overwrites the error of all draws but the last and does not use the first number; holds for all provers, with the exact set of failing draws; With the error looked at inside the loop of the benchmark (an edited copy), the full statement holds."
  },
  {
   "property": "C133",
   "status": "partial",
   "theorems": [
    "Verif.Props.C133_violated",
    "Verif.Props.C133_leak",
    "Verif.Props.C133_spins",
    "Verif.Props.C133_ends_iff_partial",
    "Verif.Props.C133_prime_partial",
    "Verif.Props.C133_others_end_partial",
    "Verif.Props.C133_compute"
   ],
   "note": "violated for ThreeSquares: for every n = 4m^2+9 goroutine 0 can search at the number 9 forever after the call has returned; the exact condition is proved, and the part about Table.Compute holds in full. Reading the target is one step with the select there; C138 splits it"
  },
  {
   "property": "C134",
   "status": "partial",
   "theorems": [
    "Verif.Props.C134_violated",
    "Verif.Props.C134_small_table",
    "Verif.Props.C134_no_overflow_partial",
    "Verif.Props.C134_overflow_partial",
    "Verif.Props.C134_chunk_nonpos",
    "Verif.Props.C134_chunk_overflow",
    "Verif.Props.C134_two_elements",
    "Verif.Props.C134_compute_returns_iff",
    "Verif.Props.C134_preTable",
    "Verif.Props.C134_repaired_partial",
    "Verif.Props.C134_repaired_same_partial"
   ],
   "note": "violated: 2^60+1 elements of 16 bits give a table with two entries; without overflow the table is that of C32 to C34, with overflow of the bit count it is always too small; Proved for the function that refuses sizes that do not fit an int."
  },
  {
   "property": "C135",
   "status": "proved",
   "theorems": [
    "Verif.Props.C135_add_many",
    "Verif.Props.C135_add",
    "Verif.Props.C135_remove",
    "Verif.Props.C135_replace",
    "Verif.Props.C135_accumulate_steps"
   ],
   "note": ""
  },
  {
   "property": "C136",
   "status": "partial",
   "theorems": [
    "Verif.Props.C136_violated",
    "Verif.Props.C136_same_text",
    "Verif.Props.C136_int4_partial",
    "Verif.Props.C136_table_returns",
    "Verif.Props.C136_table_partial",
    "Verif.Props.C136_transcript_partial",
    "Verif.Props.C136_transcript_count",
    "Verif.Props.C136_repaired_partial"
   ],
   "note": "violated only by transcripts whose strings contain a newline; With the length printed before each string (an edited copy), the text determines the strings of every transcript."
  },
  {
   "property": "C137",
   "status": "proved",
   "theorems": [
    "Verif.Props.C137_same_task",
    "Verif.Props.C137_returns_iff",
    "Verif.Props.C137_prime"
   ],
   "note": ""
  },
  {
   "property": "C138",
   "status": "partial",
   "theorems": [
    "Verif.Props.C138_violated",
    "Verif.Props.C138_result",
    "Verif.Props.C138_spins",
    "Verif.Props.C138_late_read",
    "Verif.Props.C138_any_value",
    "Verif.Props.C138_ends_iff_partial",
    "Verif.Props.C138_repaired"
   ],
   "note": "the results are right in every run; violated for the ending of the workers: a late worker reads the value of another goroutine and can search forever; the exact condition is proved, and the property holds if the target is not put back"
  },
  {
   "property": "C139",
   "status": "partial",
   "theorems": [
    "Verif.Props.C139_violated",
    "Verif.Props.C139_passes_iff_partial",
    "Verif.Props.C139_any_order",
    "Verif.Props.C139_mixed",
    "Verif.Props.C139_stays",
    "Verif.Props.C139_never",
    "Verif.Props.C139_healed",
    "Verif.Props.C139_origin",
    "Verif.Props.C139_complete",
    "Verif.Props.C139_reach",
    "Verif.Props.C139_repaired"
   ],
   "note": "violated: the test looks only whether the file of the constraint system exists, so a setup that was stopped is never repeated; the exact condition is proved for every order of writing, also that the damage stays, that a setup of the size repairs it, and that a setup which writes this file last and at once has the property"
  },
  {
   "property": "C140",
   "status": "partial",
   "theorems": [
    "Verif.Props.C140_violated",
    "Verif.Props.C140_test_partial",
    "Verif.Props.C140_merkle_partial",
    "Verif.Props.C140_output2_partial",
    "Verif.Props.C140_output_partial",
    "Verif.Props.C140_generate_partial",
    "Verif.Props.C140_no_errors",
    "Verif.Props.C140_generate_wrong",
    "Verif.Props.C140_output_left",
    "Verif.Props.C140_stat",
    "Verif.Props.C140_repaired_partial",
    "Verif.Props.C140_repaired_generate_partial",
    "Verif.Props.C140_repaired_generate_same_partial"
   ],
   "note": "violated by generateGroth16: if the verifying key cannot be opened or read this is only printed, and the contract of an unread key is written; whether the library exports such a key is a parameter, without such exports the claim is proved. Proved for the other four functions; the export of the contract needs a directory left by complete runs, with a counterexample for a stopped setup; Repair: with errors of opening, reading and closing the key returned by generateGroth16, the whole of C140 holds; the changed program also leaves no file open and succeeds without failures."
  },
  {
   "property": "C141",
   "status": "partial",
   "theorems": [
    "Verif.Props.C141_violated",
    "Verif.Props.C141_tests_partial",
    "Verif.Props.C141_load_iff",
    "Verif.Props.C141_output",
    "Verif.Props.C141_output2",
    "Verif.Props.C141_generate",
    "Verif.Props.C141_grows",
    "Verif.Props.C141_repaired_load_partial",
    "Verif.Props.C141_repaired_output_partial",
    "Verif.Props.C141_repaired_calls_partial",
    "Verif.Props.C141_repaired_never_partial",
    "Verif.Props.C141_repaired_same_partial",
    "Verif.Props.C141_repaired_empty_partial"
   ],
   "note": "violated by the functions that write contracts: they never close them. Proved for the tests, the setups, Prove and Verify; LoadVerifyingKey has an exact condition. Files that the library opens are not counted, and the garbage collector, which may close a file later, is not modelled; Repair: with the key file closed before the result of the reading is looked at, and the contract file closed, LoadVerifyingKey and TestMultiSwapAndOutputSmartContract leave no file open whatever operations fail, for any number of calls; without failures they give the same results. The repair is shown for these two functions only."
  },
  {
   "property": "C142",
   "status": "partial",
   "theorems": [
    "Verif.Props.C142_violated",
    "Verif.Props.C142_one",
    "Verif.Props.C142_bounds_partial",
    "Verif.Props.C142_wrapper",
    "Verif.Props.C142_repaired_partial",
    "Verif.Props.C142_repaired_tight_partial",
    "Verif.Props.C142_repaired_parts_partial"
   ],
   "note": "violated: an entry is counted with 64 bits but is a residue of the 2048 bit modulus; the table for one element takes more than 31 times the printed number. Proved: the printed number is enough for entries of at most 8 bytes and too small if all have more, 32 times the number is enough for 2048 bits; what is printed for the six sizes. That the library makes rows of 64 powers is assumed; Repair: counting each number with the bytes of the modulus, the printed size is enough for every modulus and set size; for the built-in modulus it is 32 times the size printed now, and for one element at most 32/31 of the bytes in the table; The rows, columns and element size that the changed program prints are right too."
  },
  {
   "property": "C143",
   "status": "partial",
   "theorems": [
    "Verif.Props.C143_violated",
    "Verif.Props.C143_shows",
    "Verif.Props.C143_always",
    "Verif.Props.C143_rest_partial",
    "Verif.Props.C143_repaired_partial",
    "Verif.Props.C143_repaired_same_partial"
   ],
   "note": "violated: getSafePrime prints each safe prime it finds, so every completed run shows both factors; the rest of the text shows none; Without the line of getSafePrime about the number it found, the text of every completed setup shows no proper factor, and the results are those of the code with the same random numbers."
  },
  {
   "property": "C144",
   "status": "partial",
   "theorems": [
    "Verif.Props.C144_violated",
    "Verif.Props.C144_fresh_partial",
    "Verif.Props.C144_repaired_partial"
   ],
   "note": "violated: nothing compares the two primes. Proved: they differ if the source repeats no prime, and they differ exactly if the modulus is not a square; C144_repaired_partial: with a loop around the second draw the property holds"
  },
  {
   "property": "C145",
   "status": "proved",
   "theorems": [
    "Verif.Props.C145_setup_errors"
   ],
   "note": ""
  },
  {
   "property": "C146",
   "status": "proved",
   "theorems": [
    "Verif.Props.C146_sizes"
   ],
   "note": "that crand.Prime sets the two highest bits is assumed (crypto/rand documents the length; its source sets both bits)"
  },
  {
   "property": "C147",
   "status": "proved",
   "theorems": [
    "Verif.Props.C147_builtin"
   ],
   "note": "the Jacobi symbols and the compositeness of the 2048 bit constant are checked by the kernel; P is shown to be prime with a certificate"
  },
  {
   "property": "C148",
   "status": "partial",
   "theorems": [
    "Verif.Props.C148_violated",
    "Verif.Props.C148_forged",
    "Verif.Props.C148_returned",
    "Verif.Props.C148_partial",
    "Verif.Props.C148_repaired_partial"
   ],
   "note": "violated if h has no inverse modulo N: the result of Exp is not looked at and the old value is used; a proof accepted for every commitment is given. Proved: no dependence if h has an inverse or the last response is not negative; With nil from Exp rejected (an edited copy), the verdict never depends on the pool, and the accepted proofs are those of the verifier without a pool."
  },
  {
   "property": "C149",
   "status": "proved",
   "theorems": [
    "Verif.Props.C149_bytecode",
    "Verif.Props.C149_groth16",
    "Verif.Props.C149_other_keys"
   ],
   "note": "the bytes are run on a model of the EVM without gas counting; C149_other_keys: the bytes do not belong to the two contracts in the root"
  },
  {
   "property": "C150",
   "status": "proved",
   "theorems": [
    "Verif.Props.C150_binding",
    "Verif.Props.C150_deploy",
    "Verif.Props.C150_call",
    "Verif.Props.C150_answer",
    "Verif.Props.C150_selector"
   ],
   "note": "abi.Pack and abi.Unpack are modelled for the types of this function; the selector is computed with Keccak-256"
  },
  {
   "property": "C151",
   "status": "partial",
   "theorems": [
    "Verif.Props.C151_violated",
    "Verif.Props.C151_iff_partial",
    "Verif.Props.C151_base_returned",
    "Verif.Props.C151_skipped",
    "Verif.Props.C151_set_partial",
    "Verif.Props.C151_repaired_partial"
   ],
   "note": "violated: without an inverse the base itself comes back, and for a negative base and an odd negative exponent the sign is wrong (a peculiarity of Exp). The exact condition is proved; in accumulate an element without a power is passed over. The representatives of the repository are never negative; C151_repaired_partial: with a look at the result of Exp and a reduced base the property holds"
  },
  {
   "property": "C152",
   "status": "proved",
   "theorems": [
    "Verif.Props.C152_proveMembership",
    "Verif.Props.C152_proveMembershipParallel",
    "Verif.Props.C152_withRandomizer",
    "Verif.Props.C152_setProductParallel",
    "Verif.Props.C152_accAndProve",
    "Verif.Props.C152_zkAccumulate",
    "Verif.Props.C152_concurrent_calls",
    "Verif.Props.C152_accumulateNew",
    "Verif.Props.C152_accumulate_races",
    "Verif.Props.C152_empty_panics"
   ],
   "note": "integers are single cells: reading or writing one is one operation. External: bigfft.Mul and multiexp return new integers; the table is used by multiexp only. Slices are values"
  },
  {
   "property": "C153",
   "status": "proved",
   "theorems": [
    "Verif.Props.C153_library",
    "Verif.Props.C153_deploy",
    "Verif.Props.C153_call",
    "Verif.Props.C153_address"
   ],
   "note": "the machine is assumed, as for C149; gas is not counted. The Go client that sends the code (bind.DeployContract) is external"
  },
  {
   "property": "C154",
   "status": "proved",
   "theorems": [
    "Verif.Props.C154_proveMembershipIter",
    "Verif.Props.C154_worker",
    "Verif.Props.C154_proveMembershipIterParallel",
    "Verif.Props.C154_accAndProveIter",
    "Verif.Props.C154_accAndProveIterParallel",
    "Verif.Props.C154_concurrent_calls",
    "Verif.Props.C154_cut_in_place_races",
    "Verif.Props.C154_small_sets"
   ],
   "note": "integers are single cells: reading or writing one is one operation. The header copies `*setup.G` and `*node.proof` are a new integer where the code writes to them and the same integer where it only reads; C114 has the words. The channels and the order of the results are in C06 and C82; the fields of the list nodes belong to one worker. Sets of one element are left out: there the witness shares its words with the base (C114)"
  },
  {
   "property": "C155",
   "status": "proved",
   "theorems": [
    "Verif.Props.C155_genPreTable",
    "Verif.Props.C155_newTable",
    "Verif.Props.C155_computeFromTable",
    "Verif.Props.C155_computeFromTableParallel",
    "Verif.Props.C155_compute",
    "Verif.Props.C155_shared_opt_races",
    "Verif.Props.C155_refused"
   ],
   "note": "integers are single cells: reading or writing one is one operation; values are natural numbers. The goroutines of a call are joined before the results are multiplied, in any order; in the code this begins earlier, but it touches only the product and integers that their goroutine has handed over. Channels, and what happens for exponents that do not fit or are 0, are in C30 to C34"
  },
  {
   "property": "C156",
   "status": "proved",
   "theorems": [
    "Verif.Props.C156_gas",
    "Verif.Props.C156_same_cost",
    "Verif.Props.C156_enough",
    "Verif.Props.C156_refused_takes_all",
    "Verif.Props.C156_deploy",
    "Verif.Props.C156_deploy_fits",
    "Verif.Props.C156_call_fits"
   ],
   "note": "the prices of the version paris, the 63/64 rule and the limit of the stack; the price of the transaction itself (21000 and the data) is counted only in the two theorems about the limit of the test. A precompiled contract that fails takes all gas it was given"
  },
  {
   "property": "C157",
   "status": "partial",
   "theorems": [
    "Verif.Props.C157_violated",
    "Verif.Props.C157_addition_violated",
    "Verif.Props.C157_addition_partial",
    "Verif.Props.C157_scalar_partial",
    "Verif.Props.C157_pairing_partial",
    "Verif.Props.C157_repaired_partial"
   ],
   "note": "violated by TestPointAdditionInterop of BN254: its messages exchange google and cloudflare (lines 350 to 368). Proved for the other tests, and that in this test the names are exchanged throughout. Libraries are any functions; With the names in the four messages exchanged (an edited copy), the property holds."
  },
  {
   "property": "C158",
   "status": "partial",
   "theorems": [
    "Verif.Props.C158_violated",
    "Verif.Props.C158_addition_violated",
    "Verif.Props.C158_pairing_violated",
    "Verif.Props.C158_scalar_partial",
    "Verif.Props.C158_roundTrip_partial",
    "Verif.Props.C158_scalar_draw",
    "Verif.Props.C158_scalar_draw_bls",
    "Verif.Props.C158_roundTrip_draw",
    "Verif.Props.C158_compressed_draw",
    "Verif.Props.C158_GT_draw",
    "Verif.Props.C158_addition_draw",
    "Verif.Props.C158_addition_draw_bls",
    "Verif.Props.C158_pairing_draw",
    "Verif.Props.C158_pairing_draw_bls",
    "Verif.Props.C158_repaired_addition_partial",
    "Verif.Props.C158_repaired_pairing_partial"
   ],
   "note": "violated: the addition tests add only the generator, and the pairing tests pair only multiples with the same factor, so libraries that are wrong elsewhere pass. Proved for scalar multiplication and serialization; for every test the draws that pass are described exactly; With a second drawn factor (the sum of two drawn points, and one factor for each group in the pairing) the two tests pass for all draws exactly if the libraries agree with gnark-crypto on all points."
  },
  {
   "property": "C159",
   "status": "proved",
   "theorems": [
    "Verif.Props.C159_generators",
    "Verif.Props.C159_every_element"
   ],
   "note": "random bytes are a parameter"
  },
  {
   "property": "C160",
   "status": "partial",
   "theorems": [
    "Verif.Props.C160_violated",
    "Verif.Props.C160_checkout_fails",
    "Verif.Props.C160_noSolc_fails",
    "Verif.Props.C160_needs_files",
    "Verif.Props.C160_iff_partial",
    "Verif.Props.C160_generate_partial"
   ],
   "note": "violated: a checkout has no key files and the test panics; after `go run contract/main.go` alone the keys do not fit the contract of the binding. Proved: the test passes exactly if keys and binding come from one setup, and always after all three steps. Groth16 is assumed complete and binding (Spec/SnarkFlow.lean); solc and abigen keep the key"
  },
  {
   "property": "C161",
   "status": "partial",
   "theorems": [
    "Verif.Props.C161_violated",
    "Verif.Props.C161_failure_passes",
    "Verif.Props.C161_step_fails_iff",
    "Verif.Props.C161_not_logged",
    "Verif.Props.C161_pipefail_partial"
   ],
   "note": "violated: the step pipes `go test` into `grep -v` without pipefail, so its status is that of grep. Whenever a package fails the step succeeds. Proved with pipefail. The shell (`bash -e`) and the output format of `go test` are assumed as documented"
  },
  {
   "property": "C162",
   "status": "proved",
   "theorems": [
    "Verif.Props.C162_gas",
    "Verif.Props.C162_one_outcome",
    "Verif.Props.C162_paid"
   ],
   "note": "about the model of the machine (Model/EvmMachine.lean, Model/EvmGas.lean) for any program; instructions that are not modelled end the run"
  },
  {
   "property": "C163",
   "status": "proved",
   "theorems": [
    "Verif.Props.C163_transactions",
    "Verif.Props.C163_deploy",
    "Verif.Props.C163_raw_call",
    "Verif.Props.C163_sessions"
   ],
   "note": "bind.BoundContract of go-ethereum is assumed to do what it documents; the status of a transaction does not tell the verdict. Payments that need no transaction to the contract (a block reward, a contract that ends itself) are outside of the model"
  }
 ]
}