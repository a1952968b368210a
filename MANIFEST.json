{
 "claims": [
  {
   "property": "C01",
   "status": "proved",
   "theorems": [
    "CT.C01_true_statements_verify",
    "CT.C01_one_phase"
   ],
   "note": "For every session of API calls (adaptive, with second-phase callbacks) and every oracle; verifier sizes below 2^32; proofs with identity points excluded as in the property."
  },
  {
   "property": "C02",
   "status": "proved",
   "theorems": [
    "CT.C02_same_statement",
    "CT.C02_same_program",
    "CT.C02_gadgets"
   ],
   "note": ""
  },
  {
   "property": "C03",
   "status": "proved",
   "theorems": [
    "CT.C03_gates_consistent",
    "CT.C03_implicit_constraints",
    "CT.C03_forged_variable_breaks"
   ],
   "note": "implicit constraints: for programs that only use variables they were given; the last theorem shows the condition is needed"
  },
  {
   "property": "C04",
   "status": "proved",
   "theorems": [
    "CT.C04_verifier_weights",
    "CT.C04_prover_weights",
    "CT.C04_same_weights",
    "CT.C04_flattening_total",
    "CT.C04_few_bad_challenges",
    "CT.C04_satisfied_vanishes"
   ],
   "note": "The flattened weights, applied to any assignment, equal the z-weighted sum of the constraints; prover and verifier agree; at most q bad challenges for a violated system of q constraints."
  },
  {
   "property": "C05",
   "status": "proved",
   "theorems": [
    "CT.C05_schedule",
    "CT.C05_coefficient",
    "CT.C05_circuit_equation"
   ],
   "note": "Degree schedule, coefficient extraction and the resulting circuit equation, for every number of vector commitments."
  },
  {
   "property": "C06",
   "status": "proved",
   "theorems": [
    "CT.C06_inner_product_complete"
   ],
   "note": "All lengths 2^k with k<32 (the verifier refuses longer proofs); stops only on a zero challenge."
  },
  {
   "property": "C07",
   "status": "proved",
   "theorems": [
    "CT.C07_scalars",
    "CT.C07_one_shot_iff_round_by_round",
    "CT.C07_wrong_length_refused"
   ],
   "note": "Round-by-round verifier is specified in Spec/InnerProduct.lean."
  },
  {
   "property": "C08",
   "status": "partial",
   "theorems": [
    "CT.C08_surplus_R_points_forgery",
    "CT.C08_unsatisfiable_accepted",
    "CT.C08_accepted_shape_partial"
   ],
   "note": "False of the code as stated: the number of R points is not checked, and a proof with one surplus R point can be forged for any statement for which the remaining shape is right. The partial theorem gives the shape conditions that are enforced."
  },
  {
   "property": "C09",
   "status": "partial",
   "theorems": [
    "CT.C09_odd_commitments_forgery",
    "CT.C09_unsatisfiable_accepted",
    "CT.C09_even_commitments_forgery",
    "CT.C09_extraction_partial",
    "CT.C09_no_vector_commitments_partial",
    "CT.C09_even_commitments_partial",
    "CT.C09_honest_accepted"
   ],
   "note": "Soundness is false of the code when an odd number of vector commitments is used (forgery theorems, including the unsatisfiable statement 2*3=7), and with an even number if the prover supplies the points (C09_even_commitments_forgery: an H component in one commitment is multiplied with another commitment at the degree of the gates). Proved (special soundness): from a tree of accepted proofs the scalars alone determine either a non-trivial relation between the generators or openings of all commitments that satisfy all constraints. The output is chosen before the group and the points. Without vector commitments nothing is missing; with an even number it holds when the commitments open to vectors in terms of the G generators; in general the gates carry the term `cross`."
  },
  {
   "property": "C10",
   "status": "partial",
   "theorems": [
    "CT.C10_singleton",
    "CT.C10_all_valid_accepted_partial",
    "CT.C10_invalid_rejected_partial",
    "CT.C10_invalid_fraction_partial",
    "CT.C10_batch_complete_partial",
    "CT.C10_batch_error_partial",
    "CT.C10_accepted_iff",
    "CT.C10_empty_panics",
    "CT.C10_mixed_sizes_rejected",
    "CT.C10_mixed_sizes_forgery",
    "CT.C10_unsatisfiable_accepted"
   ],
   "note": "Proved for batches whose padded circuit sizes are equal, with the error 1/q over the weights and 2/q over all random choices of the Verifiers. False for mixed sizes in both directions: valid proofs are rejected (C10_mixed_sizes_rejected), and forged proofs of false statements are accepted behind a smaller valid proof for all weights (C10_mixed_sizes_forgery, C10_unsatisfiable_accepted). False for the empty batch (panic). C10_accepted_iff says what is checked for every batch."
  },
  {
   "property": "C11",
   "status": "partial",
   "theorems": [
    "CT.C11_proof_round_trip",
    "CT.C11_from_to_bytes",
    "CT.C11_proof_prefix_free",
    "CT.C11_flag_not_canonical",
    "CT.C11_explicit_identity_not_canonical",
    "CT.C11_proof_canonical_partial",
    "CT.C11_proof_size_partial"
   ],
   "note": "Round trip proved for all proofs. Canonicity is false of the code (any flag byte other than 1 is read as 0, an explicit identity is accepted, trailing bytes are ignored): refuted, and uniqueness proved up to exactly these. serialized_size is exact iff L_vec and R_vec have equal length."
  },
  {
   "property": "C12",
   "status": "partial",
   "theorems": [
    "CT.C12_ipp_round_trip",
    "CT.C12_ipp_canonical",
    "CT.C12_ipp_size_partial",
    "CT.C12_ipp_size_fails"
   ],
   "note": "Round trip and canonicity proved for all values. serialized_size counts L_vec twice, so it is exact iff L_vec and R_vec have equal length."
  },
  {
   "property": "C13",
   "status": "proved",
   "theorems": [
    "CT.C13_select_sound",
    "CT.C13_select_complete",
    "CT.C13_select_iff",
    "CT.C13_select_empty"
   ],
   "note": ""
  },
  {
   "property": "C14",
   "status": "proved",
   "theorems": [
    "CT.C14_range_sound",
    "CT.C14_range_complete",
    "CT.C14_range_iff",
    "CT.C14_range_unique",
    "CT.C14_range_over_64_panics"
   ],
   "note": "soundness for every n; completeness for n <= 64 because the assignment is a u64 (beyond that the prover panics, proved)"
  },
  {
   "property": "C15",
   "status": "proved",
   "theorems": [
    "CT.C15_lookup_sound",
    "CT.C15_lookup_complete",
    "CT.C15_lookup_every_entry"
   ],
   "note": ""
  },
  {
   "property": "C16",
   "status": "partial",
   "theorems": [
    "CT.C16_curve_check_exact",
    "CT.C16_curve_check_partial",
    "CT.C16_curve_check_wrong"
   ],
   "note": "The property is false of the code for A != 0 (A*x^2 instead of A*x); proved for A = 0, refuted otherwise"
  },
  {
   "property": "C17",
   "status": "proved",
   "theorems": [
    "CT.C17_incomplete_sound",
    "CT.C17_checked_sound",
    "CT.C17_checked_refuses_equal_x",
    "CT.C17_complete",
    "CT.C17_incomplete_doubling_unsound"
   ],
   "note": ""
  },
  {
   "property": "C18",
   "status": "partial",
   "theorems": [
    "CT.C18_rerandomize_partial",
    "CT.C18_sound_related",
    "CT.C18_extracted_value",
    "CT.C18_rerandomize_attack",
    "CT.C18_accepts_unrelated",
    "CT.C18_rerandomize_unsound"
   ],
   "note": "FALSE of the code: the first accumulator is unconstrained. C18_rerandomize_partial proves soundness by extraction for the repaired gadget (fx = true); C18_rerandomize_unsound and C18_accepts_unrelated refute the property for the code (fx = false)."
  },
  {
   "property": "C19",
   "status": "partial",
   "theorems": [
    "CT.C19_rerandomize_partial",
    "CT.C19_zero_fails",
    "CT.C19_pasta_partial",
    "CT.C19_pallas_partial",
    "CT.C19_vesta_partial",
    "CT.C19_near_256_partial",
    "CT.C19_secp_partial",
    "CT.C19_secq_partial"
   ],
   "note": "The property is false for r = 0 and a few other scalars; the partial theorem characterises success exactly, and lists the scalars for Pasta-like orders."
  },
  {
   "property": "C20",
   "status": "proved",
   "theorems": [
    "CT.C20_tables_sum",
    "CT.C20_window_index",
    "CT.C20_tables_exist"
   ],
   "note": ""
  },
  {
   "property": "C21",
   "status": "partial",
   "theorems": [
    "CT.C21_single_level_partial",
    "CT.C21_single_level_complete",
    "CT.C21_single_level_attack",
    "CT.C21_single_level_unsound"
   ],
   "note": "Soundness FALSE of the code (inherits C18): C21_single_level_unsound. Proved for the repaired re_randomize (fx = true); completeness for both variants outside the exceptional scalars of C19."
  },
  {
   "property": "C22",
   "status": "partial",
   "theorems": [
    "CT.C22_membership_partial",
    "CT.C22_forgery",
    "CT.C22_forger",
    "CT.C22_pasta_forger",
    "CT.C22_secp_forger",
    "CT.C22_repaired_forgery",
    "CT.C22_repaired_forgery_below"
   ],
   "note": "False of the code for two independent reasons. C22_forgery: any point is accepted as selected leaf, because re_randomize leaves its first accumulator free. C22_forger, C22_pasta_forger and C22_secp_forger: the forger as an explicit function of public data, successful for all points but 259 of the Pasta and secp curves and all but 6 height / 2^254 of the scalars, its proofs being rejected with probability at most 200 / 2^254 each. C22_repaired_forgery and C22_repaired_forgery_below: with re_randomize repaired any leaf of a tree chosen by the forger is still accepted when the height is 0, 2 or 3 modulo 4, because the number of vector commitments on a curve is then odd (C09); a forged path is also run. C22_membership_partial is the statement for the constraints of the repaired gadget, with the path length and the absence of the exceptional value -Delta as hypotheses; extraction of an assignment from accepted proofs is C09. Missing: the code as it is."
  },
  {
   "property": "C23",
   "status": "proved",
   "theorems": [
    "CT.C23_prover_verifier_agree",
    "CT.C23_honest_path_accepted",
    "CT.C23_height_zero"
   ],
   "note": "Every tree from from_set with height >= 1, every index; scalars of inner nodes non-zero (the code takes a zero scalar as the mark of the root). Concrete run with both proofs accepted. C23_height_zero: a tree of height 0 makes the verifier panic."
  },
  {
   "property": "C24",
   "status": "partial",
   "theorems": [
    "CT.C24_parity_partial",
    "CT.C24_any_length_accepted",
    "CT.C24_internal_nodes_open",
    "CT.C24_grafted_leaves_open",
    "CT.C24_short_path_accepted"
   ],
   "note": "False of the code in release builds: only the parity of the number of levels is checked (debug_assert only). Proved: parity check; every chain of openings from the root of any length is accepted; concrete accepted path of one level for a tree of height 3."
  },
  {
   "property": "C25",
   "status": "proved",
   "theorems": [
    "CT.C25_from_set",
    "CT.C25_from_set_limits"
   ],
   "note": "Every non-empty set, L >= 2, every requested height, enough generators (otherwise the commitment panics). Also: the empty set and L = 0 panic, L = 1 never terminates for two or more leaves. Machine integers do not overflow in the model."
  },
  {
   "property": "C26",
   "status": "partial",
   "theorems": [
    "CT.C26_witness_partial",
    "CT.C26_witness_every_index",
    "CT.C26_index_wraps"
   ],
   "note": "Indices below the number of leaves: proved. False of the code for indices outside the set: they are reduced modulo L^height (C26_index_wraps); C26_witness_every_index says exactly what happens for every index."
  },
  {
   "property": "C27",
   "status": "partial",
   "theorems": [
    "CT.C27_batched_level_partial",
    "CT.C27_batched_level_complete",
    "CT.C27_root_opens"
   ],
   "note": "Level relation for every M and L, for the repaired re_randomize; completeness for both variants; what the Verifier puts in front of the path opens to the concatenation of the root's M vectors of children. False of the code itself: the level relation does not hold with re_randomize as written (C21_single_level_unsound, C48_forgery)."
  },
  {
   "property": "C28",
   "status": "proved",
   "theorems": [
    "CT.C28_pour_conserves_value"
   ],
   "note": "In every satisfying assignment of the even circuit of a Pour the minted amounts are below 2^64 and the integer sums agree (field characteristic at least 2^65)."
  },
  {
   "property": "C29",
   "status": "partial",
   "theorems": [
    "CT.C29_tags_partial",
    "CT.C29_checked_partial",
    "CT.C29_signatures_ignored",
    "CT.C29_unsigned_accepted"
   ],
   "note": "The tags of the spent coins are the hashes of the public keys in the Pour. The property is false of the code: verify_signatures drops the bool returned by Schnorr::verify, so a transaction with wrong signatures is accepted (C29_signatures_ignored for every accepted transaction, C29_unsigned_accepted a complete run)."
  },
  {
   "property": "C30",
   "status": "partial",
   "theorems": [
    "CT.C30_path_round_trip",
    "CT.C30_path_canonical",
    "CT.C30_multipath_injective",
    "CT.C30_signedTx_round_trip",
    "CT.C30_signedTx_canonical",
    "CT.C30_pour_round_trip",
    "CT.C30_pour_size_partial"
   ],
   "note": "Everything proved except serialized_size of a Pour, which inherits the wrong size of inner product proofs with unequal L_vec and R_vec."
  },
  {
   "property": "C31",
   "status": "partial",
   "theorems": [
    "CT.BPGens.C31_capacity_history",
    "CT.BPGens.C31_generators_never_change",
    "CT.BPGens.C31_aggregated_partial",
    "CT.BPGens.C31_aggregated_zero_counterexample"
   ],
   "note": "The aggregated iterator yields exactly n*m generators only for n>0; for n=0 and m>1 it yields m-1 (counterexample proved)."
  },
  {
   "property": "C32",
   "status": "proved",
   "theorems": [
    "CT.C32_scalar_exp",
    "CT.C32_exp_iter",
    "CT.C32_sum_of_powers",
    "CT.C32_poly_eval",
    "CT.C32_vec_poly_eval",
    "CT.C32_vec_poly_inner_product",
    "CT.C32_vec_poly1_inner_product",
    "CT.C32_vec_poly3_inner_product"
   ],
   "note": "All helper functions of util.rs."
  },
  {
   "property": "C33",
   "status": "proved",
   "theorems": [
    "CT.C33_pallas",
    "CT.C33_vesta",
    "CT.C33_secp256k1",
    "CT.C33_secq256k1",
    "CT.C33_empty_slot",
    "CT.C33_empty_slot_batched"
   ],
   "note": "No y satisfies the curve equation at x = 0 modulo each of the four base primes; a satisfying assignment of a single level, or of a batched level, selects non-zero x-coordinates on every curve without such a point."
  },
  {
   "property": "C34",
   "status": "proved",
   "theorems": [
    "CT.C34_commit",
    "CT.C34_commit_vec",
    "CT.C34_rerandomize",
    "CT.C34_add",
    "CT.C34_concat",
    "CT.C34_hiding",
    "CT.C34_binding"
   ],
   "note": "Parameters and prover compute the same point, re-randomisation and concatenation laws, perfect hiding, and two openings give a relation between generators."
  },
  {
   "property": "C35",
   "status": "partial",
   "theorems": [
    "CT.C35_eighteen_commitments_panic",
    "CT.C35_eighteen_commitments_never_verified",
    "CT.C35_up_to_seventeen_partial"
   ],
   "note": "False for 18 or more vector commitments (proved: prove panics for every such statement, and no proof verifies). Proved for up to 17."
  },
  {
   "property": "C36",
   "status": "partial",
   "theorems": [
    "CT.C36_short_T_panics",
    "CT.C36_short_R_panics",
    "CT.C36_no_panic_partial"
   ],
   "note": "False of the code: proofs with too few T points, or fewer R than L points, make verify panic. The partial theorem shows these are the only proof shapes that do (besides a zero challenge y)."
  },
  {
   "property": "C37",
   "status": "partial",
   "theorems": [
    "CT.C37_same_transcript",
    "CT.C37_same_challenges",
    "CT.C37_verifier_challenges",
    "CT.C37_binding_partial",
    "CT.C37_commitments_absorbed",
    "CT.C37_roles_not_bound",
    "CT.C37_child_absorbed",
    "CT.C37_batched_sum_not_absorbed"
   ],
   "note": "Equality of transcripts and binding of every proof element and commitment point are proved. False of the code (proved): the transcript does not determine the dimension of a vector commitment nor which commitments are vector commitments, and the batched gadget does not absorb its public sum."
  },
  {
   "property": "C38",
   "status": "proved",
   "theorems": [
    "CT.C38_prove_reports_iff",
    "CT.C38_prove_reports_first_phase",
    "CT.C38_prove_succeeds",
    "CT.C38_verify_reports_only",
    "CT.C38_verify_reports_iff"
   ],
   "note": "That no generator beyond the capacity plays a role is C42."
  },
  {
   "property": "C39",
   "status": "proved",
   "theorems": [
    "CT.C39_select",
    "CT.C39_range_proof",
    "CT.C39_lookup",
    "CT.C39_curve_check",
    "CT.C39_additions",
    "CT.C39_re_randomize",
    "CT.C39_single_level",
    "CT.C39_single_level_batched",
    "CT.C39_single_level_255",
    "CT.C39_path"
   ],
   "note": "Closed formulas for multipliers and constraints, the same for prover and verifier and for every witness."
  },
  {
   "property": "C40",
   "status": "proved",
   "theorems": [
    "CT.C40_witness_independent",
    "CT.C40_one_phase"
   ],
   "note": "Perfect witness indistinguishability of the whole proof: for every proof a bijection of the random choices maps runs with one witness to runs with another giving this proof and the same transcript. Condition: challenge x is not 0."
  },
  {
   "property": "C41",
   "status": "proved",
   "theorems": [
    "CT.C41_paper_proofs_accepted",
    "CT.C41_other_proofs_rejected",
    "CT.C41_always_accepted_iff"
   ],
   "note": "For proofs with as many R as L points; C08 shows what happens otherwise."
  },
  {
   "property": "C42",
   "status": "proved",
   "theorems": [
    "CT.C42_prove_larger_generators",
    "CT.C42_verify_larger_generators"
   ],
   "note": ""
  },
  {
   "property": "C43",
   "status": "proved",
   "theorems": [
    "CT.C43_proof_bytes"
   ],
   "note": "For every proof returned by prove."
  },
  {
   "property": "C44",
   "status": "partial",
   "theorems": [
    "CT.C44_pour_spends_partial",
    "CT.C44_inflation",
    "CT.C44_thief",
    "CT.C44_pasta_thief",
    "CT.C44_secp_thief"
   ],
   "note": "Proved with the repaired re_randomize and for paths of the height of the tree (C44_pour_spends_partial). Of the code as it is it is false: C44_inflation gives an accepted Pour which spends points that are not in the tree and mints any two amounts below 2^64 (the amounts of the points are chosen by the attacker). C44_thief, C44_pasta_thief and C44_secp_thief: the thief as an explicit function of public data and of two invented coins; the complete signed transaction is accepted for all coins whose commitments are not among 259 points, with failure probability at most (12 height + 400) / 2^254 on the Pasta curves (2^255 on secp256k1 and secq256k1), that of an honest payment. Missing: the code as it is."
  },
  {
   "property": "C45",
   "status": "partial",
   "theorems": [
    "CT.C45_honest_pour_accepted_partial",
    "CT.C45_height_one_rejected"
   ],
   "note": "Proved for every tree, pair of owned coins and balancing amounts if L <= 128 or the height is at least two (C45_honest_pour_accepted_partial; the remaining premises are completeness premises: enough generators, at most 17 vector commitments, invertible challenges, no identity point in the proofs). Without the first premise it is false: C45_height_one_rejected (height one, L > 128) shows that an honest transaction is never accepted."
  },
  {
   "property": "C46",
   "status": "partial",
   "theorems": [
    "CT.C46_same_coin_twice",
    "CT.C46_different_tags_partial"
   ],
   "note": "False of the code, with or without the repair of re_randomize: C46_same_coin_twice makes an accepted transaction in which both inputs are the same coin and the minted amounts sum to twice its amount. Proved for the repaired re_randomize when the two keys have different tags: then the spent coins are two different coins of the tree (C46_different_tags_partial)."
  },
  {
   "property": "C47",
   "status": "proved",
   "theorems": [
    "CT.C47_prover_verifier_agree",
    "CT.C47_honest_batch_accepted",
    "CT.C47_height_zero"
   ],
   "note": "Trees of height zero are excluded: there the Prover returns identities and the Verifier panics (C47_height_zero). Zero scalars for inner nodes are excluded, since the Prover takes a zero scalar for the mark of the root."
  },
  {
   "property": "C48",
   "status": "partial",
   "theorems": [
    "CT.C48_batched_membership_partial",
    "CT.C48_forgery",
    "CT.C48_forger",
    "CT.C48_pasta_forger",
    "CT.C48_secp_forger"
   ],
   "note": "False of the code: as in C22, the missing constraint in re_randomize lets a Prover return any M points (C48_forgery). Proved for the repaired gadget, for paths of the tree's height without the exceptional commitments, up to sign and up to a second opening of a sum of commitments; extraction of an assignment from accepted proofs is C09. C48_forger, C48_pasta_forger and C48_secp_forger make the forger an explicit function of public data and bound its failures: on the Pasta curves it works for all points but 259 per position, and for all but 6 (height - 1 + M)/2^254 of the scalars."
  },
  {
   "property": "C49",
   "status": "proved",
   "theorems": [
    "CT.C49_range_knowledge"
   ],
   "note": "Composition of C09 (no vector commitments) and C14. The tree is a hypothesis about the prover (it is accepted on every path); the probability with which a rewinding extractor obtains such a tree is not modelled."
  },
  {
   "property": "C50",
   "status": "proved",
   "theorems": [
    "CT.C50_path_anonymous"
   ],
   "note": "Perfect: a bijection of the re-randomization scalars carries one index to the other with the same path, the same Verifier run and the same proofs. Excluded are the scalars with which the path is unusable anyway (SpendOk) and transcripts with challenge x = 0."
  },
  {
   "property": "C51",
   "status": "proved",
   "theorems": [
    "CT.C51_pour_hides"
   ],
   "note": "Perfect: for every transaction a bijection of all the randomness of prove_pour. Assumed: the encoding of a Pour whose vectors have fewer than 2^64 elements can be decoded (as that of C30; that the vectors are short is proved), owners with the same randomized key sign alike (a property of Schnorr signatures, which are a parameter of the model), inverted challenges and x are not 0. Excluded: unusable scalars (SpendOk) and trees of height one with branching factor above 128, for which no transaction is accepted (C45)."
  },
  {
   "property": "C52",
   "status": "proved",
   "theorems": [
    "CT.C52_schedules",
    "CT.C52_prove_parallel",
    "CT.C52_path_parallel",
    "CT.C52_batched_parallel",
    "CT.C52_pour_parallel",
    "CT.C52_verification_parallel"
   ],
   "note": "Model: programs with fork and join over a shared memory, every interleaving of steps (Verif/Model/Parallel.lean). C52_race shows that the separation proved for the code is needed. For the verification the statement is equality of returned tuples; which of two panics is reported is not compared."
  },
  {
   "property": "C53",
   "status": "proved",
   "theorems": [
    "CT.C53_batched_path_anonymous"
   ],
   "note": "Perfect, as C50: bijections of the scalars for inner nodes and for leaves carry one choice of M indices to the other with the same path, the same Verifier run and the same proofs. Excluded are the scalars with which the path is unusable anyway (BatchSpendOk) and transcripts with challenge x = 0."
  },
  {
   "property": "C54",
   "status": "partial",
   "theorems": [
    "CT.C54_ledger_partial",
    "CT.C44_inflation",
    "CT.C46_same_coin_twice"
   ],
   "note": "Proved by induction over the history for the repaired re_randomize (fx = true), a ledger that also compares the two tags of one payment, and paths of the tree's height; a history with a payment that contains a linear relation between generators is reported up to that payment. False of the code as it is: C44_inflation (value out of nothing) and C46_same_coin_twice (the two tags of a Pour are not compared)."
  },
  {
   "property": "C55",
   "status": "proved",
   "theorems": [
    "CT.C55_zero_knowledge",
    "CT.C55_one_phase",
    "CT.C55_simulated_accepted"
   ],
   "note": "Perfect special honest-verifier zero knowledge of Prover::prove. The simulator (Spec/Simulator.lean) gets the public statement, the challenges y, z, u, x, w in advance and coins, no witness and no opening. A bijection between the random choices of the Prover and the coins of the simulator is given, chosen before the oracle, under which both make the same proof and transcript. Premises: every point is a multiple of the blinding generator (the group is cyclic of prime order) and the challenge x is not 0. C55_one_phase: statements without second phase. C55_simulated_accepted: simulated proofs verify, for true and false statements."
  },
  {
   "property": "C56",
   "status": "proved",
   "theorems": [
    "CT.C56_select_knowledge"
   ],
   "note": "the output is chosen before the group, the generators and the points; non-vacuity: a prover for the set {5, 8} accepted on a tree of 280 paths"
  },
  {
   "property": "C57",
   "status": "proved",
   "theorems": [
    "CT.C57_shuffle_complete",
    "CT.C57_few_challenges",
    "CT.C57_shuffle_knowledge",
    "CT.C57_single_knowledge",
    "CT.C57_lengths",
    "CT.C57_empty"
   ],
   "note": "Composition of C01/C38 (completeness) and C09 (extraction, no vector commitments) with a polynomial argument about the second-phase challenge; k is arbitrary. For k = 1 the proof is about the difference of the two commitments only."
  },
  {
   "property": "C58",
   "status": "partial",
   "theorems": [
    "CT.C58_honest_accepted",
    "CT.C58_zero_accepted",
    "CT.C58_member_partial",
    "CT.C58_forgery",
    "CT.C58_forger",
    "CT.C58_pasta_forger",
    "CT.C58_secp_forger"
   ],
   "note": "Completeness is proved in full, also in batches. Soundness is false of the code, like C22: any element is accepted (C58_forgery), by an explicit forger that uses public data only and fails with probability at most (259 + 6 height)/2^254 on the Pasta curves and (259 + 6 height)/2^255 on the secp curves before the proofs are made (C58_forger, C58_pasta_forger, C58_secp_forger). With the repaired re_randomize it is proved for paths of the tree's length (C58_member_partial), up to second openings of commitments. Zero is accepted for every leaf that is not full (C58_zero_accepted)."
  },
  {
   "property": "C59",
   "status": "partial",
   "theorems": [
    "CT.C59_fits_partial",
    "CT.C59_never_another_leaf",
    "CT.C59_overflow_panics",
    "CT.C59_power_of_two"
   ],
   "note": "False of the code: if L^height does not fit into usize, every index panics with overflow checks, and also without them when L is a power of two (C59_overflow_panics; on a 32-bit target this is the case for L = 256 and height 4). If it fits, the property holds (C59_fits_partial); for L a power of two the two cases are exhaustive (C59_power_of_two). In no case is the path to another leaf returned, if the leaves themselves fit into a tree whose capacity fits (C59_never_another_leaf)."
  },
  {
   "property": "C60",
   "status": "proved",
   "theorems": [
    "CT.C60_accumulator_hides"
   ],
   "note": "Perfect hiding by an explicit bijection of the random choices, for generators of blinding that generate the groups; excluded are the exceptional scalars of C19 and transcripts with the challenge x = 0."
  },
  {
   "property": "C61",
   "status": "proved",
   "theorems": [
    "CT.C61_shuffle_hides"
   ],
   "note": "For every published result there is a bijection of the Prover's random choices between the two shuffles. The blinding generator generates the group and the challenge x is not zero."
  },
  {
   "property": "C62",
   "status": "partial",
   "theorems": [
    "CT.C62_metrics_partial",
    "CT.C62_one_phase",
    "CT.C62_second_phase",
    "CT.C62_phase_two_not_counted"
   ],
   "note": "Prover and Verifier always report the same, and exactly what is documented when there are no callbacks. False as documented with callbacks: phase_two_constraints counts callbacks before the second phase and is 0 in and after it, the constraints added by callbacks are reported as phase one (C62_second_phase, witness C62_phase_two_not_counted)."
  },
  {
   "property": "C63",
   "status": "partial",
   "theorems": [
    "CT.C63_prover",
    "CT.C63_verifier_same",
    "CT.C63_verifier_other",
    "CT.C63_verifier_accepts",
    "CT.C63_honest_proofs",
    "CT.C63_tree_height",
    "CT.C63_batched_height",
    "CT.C63_honest_paths",
    "CT.C63_short_path_refused",
    "CT.C63_builds_differ"
   ],
   "note": "Proved in full for the Prover and for honest proofs and paths. False for the Verifier on proofs and paths made by others: a release build accepts what a debug build panics on (C63_builds_differ, C63_short_path_refused with C24_short_path_accepted). What the debug build accepts is characterised exactly (C63_verifier_accepts, C63_tree_height, C63_batched_height)."
  },
  {
   "property": "C64",
   "status": "partial",
   "theorems": [
    "CT.C64_ignored_points",
    "CT.C64_malleable",
    "CT.C64_extendable",
    "CT.C64_ignored_not_absorbed",
    "CT.C64_bound_by_transcript",
    "CT.C64_two_answers",
    "CT.C64_nonmalleable_partial"
   ],
   "note": "False of the code: T[op_degree] and the points of T beyond the degree of the polynomial are neither absorbed nor checked in release builds, so every accepted proof can be altered (C64_malleable, C64_extendable). C64_nonmalleable_partial: with the same transcript nothing else can be altered, or the two proofs give an explicit non-trivial relation between the generators; missing: alterations that change the transcript (a new proof), surplus R points (C08)."
  },
  {
   "property": "C65",
   "status": "proved",
   "theorems": [
    "CT.C65_proof_size",
    "CT.C65_membership_size",
    "CT.C65_accumulator_size",
    "CT.C65_transaction_size",
    "CT.C65_recorded_sizes",
    "CT.C65_recorded_constraints_differ",
    "CT.C65_batch_size"
   ],
   "note": "The formulas are in Spec/Sizes.lean and Spec/BatchSizes.lean. All recorded sizes in proof_constraints.txt are reproduced. The recorded numbers of constraints are one too large for each use of select."
  },
  {
   "property": "C66",
   "status": "partial",
   "theorems": [
    "CT.C66_root_determines_set_partial",
    "CT.C66_mirrored_same_root",
    "CT.Curve19.C66_mirrored_example",
    "CT.Curve19.C66_unshifted_leaf_example",
    "CT.Curve19.C66_inner_nodes_example"
   ],
   "note": "False of the code as stated: leaves are bound only up to P -> -P - 2*delta (C66_mirrored_same_root, for every set), a leaf -delta looks like an empty slot, and trees of different heights can share a root. Proved: for equal heights and no leaf -delta, sets with the same root are equal up to that replacement, or the trees give an explicit relation between generators."
  },
  {
   "property": "C67",
   "status": "partial",
   "theorems": [
    "CT.C67_determined_opened_partial",
    "CT.C67_undetermined_accepted",
    "CT.C67_example_complete",
    "CT.C67_example_shifted",
    "CT.C67_example_knowledge",
    "CT.C67_unopenable_accepted",
    "CT.C67_example_panics",
    "CT.C67_example_verify_iff"
   ],
   "note": "False of the code for commitments that the constraints do not determine (C67_undetermined_accepted for every gadget without second phase, C67_unopenable_accepted with commitments that nobody can open). Proved for those that are determined; for the example gadget of the tests, the sums are opened."
  },
  {
   "property": "C68",
   "status": "partial",
   "theorems": [
    "CT.C68_addition_complete",
    "CT.C68_slope_suffices",
    "CT.C68_addition_knowledge_partial",
    "CT.C68_y_not_opened",
    "CT.C68_unopenable_accepted",
    "CT.C68_off_curve_accepted",
    "CT.C68_verify_iff"
   ],
   "note": "False of the code: nothing shows that the committed pairs are points of the curve (C68_off_curve_accepted), and the commitments of the y-coordinates need not have an opening (C68_y_not_opened, C68_unopenable_accepted). Proved: honest additions are accepted; an accepted Prover can open the x-coordinates and the differences of the y-coordinates, they satisfy the slope equations, and if one y-coordinate is opened and the first two points are on a curve, the third is their sum."
  },
  {
   "property": "C69",
   "status": "proved",
   "theorems": [
    "CT.C69_accepted_often",
    "CT.C69_knowledge_error",
    "CT.C69_false_rejected",
    "CT.C69_range_rejected",
    "CT.C69_select_rejected",
    "CT.C69_shuffle_rejected"
   ],
   "note": "For the interactive protocol (challenges drawn at random; the transcript hash is modelled as an arbitrary function elsewhere) and statements about single-value commitments. With vector commitments the extraction itself fails (C09), and C69_accepted_often still gives the tree of accepted runs. Statistical soundness (C69_false_rejected) is for independent generators; in a cyclic group the alternative is a non-trivial relation computed from the prover's scalars. Range proofs, selections and shuffles have bounds of their own; for shuffles the challenge drawn between the two phases is counted as well."
  },
  {
   "property": "C70",
   "status": "proved",
   "theorems": [
    "CT.C70_usable",
    "CT.C70_honest_path_accepted",
    "CT.C70_payment",
    "CT.C70_anonymity_loss",
    "CT.C70_pasta",
    "CT.C70_secp",
    "CT.C70_batch_usable"
   ],
   "note": "Probability is stated as a count of choices. The hypothesis that no node on the path cancels the shift point is necessary: such a node can never be re-randomised (C19). Non-vacuity: UsableExample (19-point curve), Props/Pasta and Props/Secp (the real curves, tree of two leaves)."
  },
  {
   "property": "C71",
   "status": "proved",
   "theorems": [
    "CT.C71_cycle",
    "CT.C71_pallas_generator",
    "CT.C71_vesta_generator",
    "CT.C19_pallas_partial",
    "CT.C19_vesta_partial",
    "CT.C71_secp_cycle",
    "CT.C71_secp_generator",
    "CT.C71_secq_generator",
    "CT.C19_secp_partial",
    "CT.C19_secq_partial"
   ],
   "note": "The C19_… theorems carry the suffix _partial because C19 is false for four scalars; they say exactly for which scalars and points re-randomisation succeeds."
  },
  {
   "property": "C72",
   "status": "proved",
   "theorems": [
    "CT.C72_completeness_error",
    "CT.C72_error_not_zero",
    "CT.C72_some_accepted",
    "CT.C72_loss_small",
    "CT.C72_membership",
    "CT.C72_fresh_membership",
    "CT.C72_pasta",
    "CT.C72_secp",
    "CT.C72_payment",
    "CT.C72_pasta_payment",
    "CT.C72_secp_payment",
    "CT.C72_batched_membership",
    "CT.C72_fresh_batch",
    "CT.C72_pasta_batch",
    "CT.C72_secp_batch",
    "CT.C72_fresh_accumulator",
    "CT.C72_pasta_accumulator",
    "CT.C72_secp_accumulator",
    "CT.C72_range",
    "CT.C72_select",
    "CT.C72_mint",
    "CT.C72_example",
    "CT.C72_addition"
   ],
   "note": "Provers without second phase. The challenges are a random tape indexed by the length of the transcript. For payments the signatures are assumed to verify; the encoding is that of C30."
  }
 ]
}