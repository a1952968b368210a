{"id": "C01", "title": "R1CS proofs of true statements verify", "statement": "If the values committed through Prover::commit / commit_vec and the multiplier assignments satisfy every constraint added to the Prover, then the R1CSProof returned by prove() is accepted by Verifier::verify run on the same commitments and the same constraints, unless one of the points the verifier requires to be non-zero happens to be the identity or a challenge that must be inverted is zero.", "quantifier": "every field, every generator choice, every number and dimension of vector commitments (up to the label table limit), every list of constraints and multipliers, every satisfying assignment, every blinding value and every challenge function", "why_tests_cant": "Completeness is an algebraic identity over all circuits, witnesses, blindings and challenges; a test fixes one circuit and one transcript.", "anchors": ["bulletproofs/src/r1cs/prover.rs: Prover::prove_and_return_transcript, flattened_constraints, commit_vec", "bulletproofs/src/r1cs/verifier.rs: Verifier::verify, verification_scalars_and_points", "bulletproofs/src/inner_product_proof.rs: InnerProductProof::create, verification_scalars", "bulletproofs/src/r1cs/mod.rs: op_splits"]}
{"id": "C02", "title": "Prover and Verifier build the same statement from the same gadget", "statement": "Running one gadget (any sequence of multiply / allocate / allocate_multiplier / constrain calls, with later calls depending on returned variables) on a Prover and on a Verifier that start with the same number of multipliers returns the same variables, adds the same constraints in the same order and leaves the same number of multipliers and the same half-open allocation, whenever the Prover run does not stop on a missing assignment.", "quantifier": "every gadget program over the ConstraintSystem interface, every starting state, every assignment", "why_tests_cant": "Needs an induction over arbitrary gadget programs, not over the few gadgets a test runs.", "anchors": ["bulletproofs/src/r1cs/prover.rs: impl ConstraintSystem for Prover", "bulletproofs/src/r1cs/verifier.rs: impl ConstraintSystem for Verifier", "bulletproofs/src/r1cs/constraint_system.rs: ConstraintSystem"]}
{"id": "C03", "title": "Every multiplication gate held by a Prover is consistent", "statement": "After any sequence of ConstraintSystem calls on a Prover, including odd numbers of allocate calls, the three assignment vectors have equal length, output = left * right for every gate, and the implicit constraints added by multiply hold for the stored assignment.", "quantifier": "every sequence of calls with every argument", "why_tests_cant": "The half-allocated multiplier is mutated later; only an invariant over all histories shows no history breaks a gate.", "anchors": ["bulletproofs/src/r1cs/prover.rs: multiply, allocate, allocate_multiplier, eval"]}
{"id": "C04", "title": "Flattening loses no constraint except for few challenges", "statement": "The weight vectors computed from the constraints and z satisfy <wL,aL>+<wR,aR>+<wO,aO>+sum_j<wVC_j,v_j> - <wV,v> - wc = sum_q z^(q+1) * constraint_q(assignment) for every assignment; Prover and Verifier compute the same weights; and if some constraint is violated this sum vanishes for at most Q non-zero z, Q being the number of constraints.", "quantifier": "every constraint list, every assignment, every challenge z", "why_tests_cant": "A statement about all constraint lists and about a count of bad challenges in a field of size 2^255.", "anchors": ["bulletproofs/src/r1cs/prover.rs: flattened_constraints", "bulletproofs/src/r1cs/verifier.rs: flattened_constraints"]}
{"id": "C05", "title": "The degree schedule isolates the circuit equation for every number of vector commitments", "statement": "For every number k of vector commitments the operation degrees assigned by the protocol are pairwise different, sum to the same degree, leave enough slots for k commitments, and the coefficient of that degree in t(X)=<l(X),r(X)> is exactly the flattened circuit expression plus delta(y,z), with no contribution from blinding or cross terms.", "quantifier": "every k, every vector length, every weight and witness vector", "why_tests_cant": "The number of commitments and vector lengths are unbounded; the cross-term cancellation is a polynomial identity.", "anchors": ["bulletproofs/src/r1cs/mod.rs: op_splits, op_degree", "bulletproofs/src/r1cs/prover.rs: l_poly/r_poly construction", "bulletproofs/src/util.rs: VecPoly::inner_product"]}
{"id": "C06", "title": "Inner product proofs of true statements verify", "statement": "For all vectors a, b of the same power-of-two length and all generator and factor vectors, InnerProductProof::verify accepts the output of InnerProductProof::create for P = <a, G_factors∘G> + <b, H_factors∘H> + <a,b>Q, provided no challenge is zero and no intermediate L/R point is the identity.", "quantifier": "every power-of-two length, every vectors, generators, factors and challenge function", "why_tests_cant": "Correctness of log(n) rounds of folding needs induction on the number of rounds.", "anchors": ["bulletproofs/src/inner_product_proof.rs: create, verify, verification_scalars"]}
{"id": "C07", "title": "The one-shot inner product check equals the round-by-round check", "statement": "For every proof whose L_vec and R_vec have the same length, the scalar vector s produced by verification_scalars has s_i = prod_j u_j^(±1) by the bits of i, satisfies s_i * s_(n-1-i) = 1, and the single multi-scalar equation checked by verify holds if and only if the recursively folded statement holds.", "quantifier": "every number of rounds, every challenge sequence, every proof", "why_tests_cant": "The inductive construction of s (index arithmetic with leading zeros) must be right for every index of every size.", "anchors": ["bulletproofs/src/inner_product_proof.rs: verification_scalars, verify"]}
{"id": "C08", "title": "Verifier::verify accepts only proofs of the expected shape", "statement": "A proof accepted by Verifier::verify has as many R_vec points as L_vec points, so every point entering the final multi-scalar check was absorbed into the transcript before the challenges derived after it.", "quantifier": "every proof object that can be deserialised, every statement", "why_tests_cant": "Tests only feed honestly generated proofs; the adversary ranges over all byte strings.", "anchors": ["bulletproofs/src/inner_product_proof.rs: verification_scalars, deserialize_with_mode", "bulletproofs/src/r1cs/verifier.rs: verify, verification_scalars_and_points"]}
{"id": "C09", "title": "Accepted proofs determine a satisfying assignment", "statement": "From a sufficiently large tree of accepting transcripts (well-shaped proofs) that share their prefixes, one can compute openings of the commitments and multiplier assignments that satisfy every constraint, or two different openings of one point in terms of the generators.", "quantifier": "every statement, every tree of accepting transcripts", "why_tests_cant": "Soundness speaks about all cheating provers.", "anchors": ["bulletproofs/src/r1cs/verifier.rs: verification_scalars_and_points", "bulletproofs/src/inner_product_proof.rs: verification_scalars"]}
{"id": "C10", "title": "Batch verification agrees with individual verification", "statement": "batch_verify accepts whenever every tuple in the batch is accepted individually, and if some tuple is invalid then at most a 1/|F| fraction of the random weights makes it accept; a singleton batch behaves like verify.", "quantifier": "every batch, every proof size, every choice of random weights", "why_tests_cant": "The claim counts bad weights over a 255-bit field and ranges over all batches, including batches of different circuit sizes.", "anchors": ["bulletproofs/src/r1cs/verifier.rs: batch_verify"]}
{"id": "C11", "title": "R1CSProof serialisation is lossless and unambiguous", "statement": "Deserialising the bytes written for a proof, followed by anything, gives back exactly that proof and leaves the rest unread; serialized_size is the number of bytes written; and two different byte strings never decode to the same proof (canonical encoding).", "quantifier": "every proof value (including one- and two-phase), every trailing byte string", "why_tests_cant": "Quantifies over all proofs and all byte strings.", "anchors": ["bulletproofs/src/r1cs/proof.rs: serialize_with_mode, deserialize_with_mode, serialized_size"]}
{"id": "C12", "title": "InnerProductProof serialisation is lossless", "statement": "Deserialising the bytes written for an inner product proof gives back that proof, and serialized_size equals the number of bytes written.", "quantifier": "every proof value, including ones with differently long L_vec and R_vec", "why_tests_cant": "Quantifies over all proof values and lengths.", "anchors": ["bulletproofs/src/inner_product_proof.rs: CanonicalSerialize/CanonicalDeserialize impls"]}
{"id": "C13", "title": "select proves set membership and nothing else", "statement": "The constraints added by select(x, xs) are satisfiable by multiplier values if and only if the value of x equals the value of one of the xs; an honest prover's assignment satisfies them; an empty list is refused (panic).", "quantifier": "every field, every list length, every linear combinations and values", "why_tests_cant": "Lists are unbounded and the soundness direction quantifies over all assignments.", "anchors": ["relations/src/select.rs: select"]}
{"id": "C14", "title": "range_proof(v, n) holds exactly for the integers below 2^n", "statement": "The constraints of range_proof are satisfiable if and only if the value of v is (the image of) a natural number below 2^n; the honest prover with the assignment v < 2^n satisfies them.", "quantifier": "every n, every field, every value of v", "why_tests_cant": "Quantifies over all field elements and all n.", "anchors": ["relations/src/range_proof.rs: range_proof"]}
{"id": "C15", "title": "lookup returns exactly the addressed table entry", "statement": "In every assignment satisfying the lookup gadget, the three index variables are bits and the two output linear combinations equal the coordinates stored in the table at the index encoded by the bits; for every index the honest prover satisfies the constraints.", "quantifier": "every table of eight coordinate pairs, every index, every assignment", "why_tests_cant": "Soundness ranges over all assignments of the multipliers.", "anchors": ["relations/src/lookup.rs: lookup, single_membership, bit, is_bit"]}
{"id": "C16", "title": "curve_check accepts exactly the points of the curve", "statement": "The constraints of curve_check(x, y, A, B) are satisfied if and only if y^2 = x^3 + A x + B.", "quantifier": "every field, every coefficients A, B and every x, y", "why_tests_cant": "Tests use curves with A = 0 only.", "anchors": ["relations/src/curve.rs: curve_check"]}
{"id": "C17", "title": "Curve addition gadgets compute the group law", "statement": "If both inputs are points of the curve with different x, every assignment satisfying incomplete_curve_addition or checked_curve_addition outputs exactly their group sum, and the checked variant is unsatisfiable when the x-coordinates are equal; honest provers satisfy both when the x-coordinates differ.", "quantifier": "every short Weierstrass curve over every field, every pair of points, every assignment", "why_tests_cant": "Quantifies over all points and all (dishonest) assignments.", "anchors": ["relations/src/curve.rs: incomplete_curve_addition, checked_curve_addition, incomplete_curve_addition_helper, checked_incomplete_curve_addition_helper, not_zero"]}
{"id": "C18", "title": "re_randomize is sound: the two points differ by a multiple of the blinding base", "statement": "In every assignment satisfying re_randomize on curve points C and C~, C~ = C + r*H for an integer r computed from the assignment, even if some incomplete addition in the chain hits its exceptional case.", "quantifier": "every curve, every base H, every window count, every satisfying assignment", "why_tests_cant": "Adversarial assignments that hit exceptional cases of the incomplete additions are never produced by tests.", "anchors": ["relations/src/rerandomize.rs: re_randomize, build_tables"]}
{"id": "C19", "title": "re_randomize is complete: an honest prover always succeeds", "statement": "For every commitment C and every scalar r, running re_randomize with witness r on C and C + r*H neither panics nor yields an unsatisfied constraint system.", "quantifier": "every commitment and every scalar", "why_tests_cant": "The failing scalars have probability about 2^-250 and are never sampled by tests.", "anchors": ["relations/src/rerandomize.rs: re_randomize", "relations/src/curve.rs: incomplete_curve_addition_helper (slope division)"]}
{"id": "C20", "title": "Window tables add up to scalar multiplication", "statement": "For every base point H and scalar r < 2^(3m), the sum over windows i of table_i[digit_i(r)] produced by build_tables equals r*H.", "quantifier": "every group, every base, every scalar, every number of windows m", "why_tests_cant": "The offsets telescoping over m windows must cancel for all digit combinations.", "anchors": ["relations/src/rerandomize.rs: build_tables"]}
{"id": "C21", "title": "One level of select-and-rerandomize proves its relation", "statement": "In every assignment satisfying single_level_select_and_rerandomize with opened children x-coordinates, the public re-randomised point shifted by delta equals ±(a child shifted by delta) plus a known multiple of the blinding base, where the child is one whose shifted x-coordinate is in the opened vector; the honest prover satisfies it.", "quantifier": "every curve, every vector of children, every index, every assignment", "why_tests_cant": "Ranges over all assignments and all child vectors.", "anchors": ["relations/src/single_level_select_and_rerandomize.rs: single_level_select_and_rerandomize"]}
{"id": "C22", "title": "A verified path shows membership in the tree", "statement": "If the even and odd circuits built by the verifier gadget for a path of the tree's height are satisfied by openings of the path commitments that agree with the tree's own openings (commitments are binding), then the re-randomised leaf equals a leaf of the tree at that depth, up to the sign ambiguity of x-coordinates, plus a known multiple of the blinding base.", "quantifier": "every tree, every branching factor, every height, every path and assignment", "why_tests_cant": "Induction over the height; adversarial paths.", "anchors": ["relations/src/curve_tree_verifier.rs: select_and_rerandomize_verifier_gadget, even_verifier_gadget, odd_verifier_gadget", "relations/src/single_level_select_and_rerandomize.rs"]}
{"id": "C23", "title": "Prover and verifier agree on the path commitments", "statement": "For every tree and every valid leaf index the path produced by the prover gadget has, after the verifier adds the root, exactly one more even (or odd) commitment so that parent and child lists align: the prover and verifier commit to the same vectors in the same order and feed the same points into both transcripts.", "quantifier": "every height (even and odd), every index, every branching factor", "why_tests_cant": "Alignment has to be right for both parities and all heights.", "anchors": ["relations/src/curve_tree_prover.rs: select_and_rerandomize_prover_gadget, root_is_even", "relations/src/curve_tree_verifier.rs: select_and_rerandomize_verification_commitments, even_verifier_gadget, odd_verifier_gadget"]}
{"id": "C24", "title": "Only paths of the tree's height are accepted", "statement": "The verifier gadget refuses a path whose number of levels differs from the height of the tree.", "quantifier": "every tree and every path", "why_tests_cant": "The check is a debug assertion, so it differs between build profiles; tests run only the debug profile.", "anchors": ["relations/src/curve_tree_verifier.rs: select_and_rerandomize_verifier_gadget", "relations/src/batched_curve_tree_verifier.rs"]}
{"id": "C25", "title": "CurveTree::from_set builds a correct tree from any set", "statement": "For every non-empty list of leaves and branching factor L >= 2, from_set terminates, the tree's height is the maximum of the requested height and the least h with L^h >= |set|, it stores exactly the given leaves in order, and leaf i is found at position i by following the base-L digits of i from the root.", "quantifier": "every list length, every L, every requested height", "why_tests_cant": "Unbounded sizes; the grouping loops must be right at every boundary (partial last chunk, exact powers).", "anchors": ["relations/src/curve_tree.rs: CurveTree::from_set, increase_height, CurveTreeNode::combine, child_index, height, elements"]}
{"id": "C26", "title": "The path for an index is the path of the leaf with that index", "statement": "For every tree and every index smaller than the number of leaves the witness returned for that index ends in the leaf stored at that index; an index outside the set is refused.", "quantifier": "every tree, every index", "why_tests_cant": "Index arithmetic must be right for every index including those beyond the capacity.", "anchors": ["relations/src/curve_tree_prover.rs: select_and_rerandomize_prover_witness", "relations/src/curve_tree.rs: child_index"]}
{"id": "C27", "title": "Batched select-and-rerandomize proves the relation for the sum", "statement": "For every number M of batched paths, the batched single-level gadget is satisfied only if the public point equals the sum of the M selected (shifted, up to sign) children plus a known multiple of the blinding base, and the sum of the M root commitments opens to the concatenation of the children vectors.", "quantifier": "every M, every L, every children vectors, every indices, every assignment", "why_tests_cant": "Ranges over all M and all assignments.", "anchors": ["relations/src/single_level_select_and_rerandomize.rs: batched_single_level_select_and_rerandomize", "relations/src/batched_curve_tree_prover.rs", "relations/src/batched_curve_tree_verifier.rs"]}
{"id": "C28", "title": "A pour conserves value", "statement": "In every satisfying assignment of the Pour circuit the two minted amounts are integers below 2^64 and, when the spent coins also hold amounts below 2^64, the integer sum of the spent amounts equals the integer sum of the minted amounts (no modular wrap-around).", "quantifier": "every field larger than 2^65, every amounts, every assignment", "why_tests_cant": "Wrap-around attacks need values a test would not choose.", "anchors": ["relations/src/coin.rs: prove_pour, Pour::verification_gadget, even_verification_gadget", "relations/src/range_proof.rs"]}
{"id": "C29", "title": "A signed transaction is authorised by the owners of the spent coins", "statement": "SignedTx verification succeeds only if both signatures verify under the two public keys whose hash is the tag of the spent coins.", "quantifier": "every transaction, every signature bytes, every key", "why_tests_cant": "The check must reject all invalid signatures; tests only use valid ones.", "anchors": ["relations/src/coin.rs: SignedTx::verify_signatures, Pour::verification_gadget, verify_spend_even"]}
{"id": "C30", "title": "Paths, pours and signed transactions survive serialisation", "statement": "Deserialising the bytes written for a path, a Pour or a SignedTx returns the same value and consumes exactly the written bytes, and serialized_size is the number of bytes written.", "quantifier": "every value, every trailing bytes", "why_tests_cant": "All values and byte strings.", "anchors": ["relations/src/curve_tree.rs: SelectAndRerandomizePath serialisation", "relations/src/coin.rs: Pour and SignedTx serialisation"]}
{"id": "C31", "title": "Generators do not depend on how the capacity was reached", "statement": "BulletproofGens grown by any sequence of increase_capacity calls equals the one created with the largest requested capacity; the first n generators never change; the aggregated iterator yields exactly the first n generators of each of the first m parties in order.", "quantifier": "every sequence of capacities, every n and m", "why_tests_cant": "All histories of capacity changes.", "anchors": ["bulletproofs/src/generators.rs: BulletproofGens::new, increase_capacity, AggregatedGensIter, GeneratorsChain::fast_forward"]}
{"id": "C32", "title": "Scalar and polynomial helpers compute what their names say", "statement": "scalar_exp_vartime(x, n) = x^n, sum_of_powers(x, n) = 1 + x + ... + x^(n-1), exp_iter yields the powers of x, the vector polynomial inner products evaluate to the inner product of the evaluations, and Poly::eval is polynomial evaluation.", "quantifier": "every field element, exponent, degree and vector length", "why_tests_cant": "Loops over bits and powers of two: unbounded n.", "anchors": ["bulletproofs/src/util.rs: scalar_exp_vartime, sum_of_powers, exp_iter, VecPoly, Poly, VecPoly1, VecPoly3, Poly2, Poly6"]}
{"id": "C33", "title": "An empty slot of the tree cannot be selected", "statement": "For the supported curve cycles (Pallas/Vesta and secp256k1/secq256k1), no curve point has x = 0, so the x-coordinate 0 that encodes an empty slot never satisfies the select-and-curve-check of a level.", "quantifier": "every y in each of the four base fields", "why_tests_cant": "The fields have about 2^255 elements.", "anchors": ["relations/src/curve_tree.rs: x_coordinates", "relations/src/single_level_select_and_rerandomize.rs", "relations/src/curve.rs: curve_check"]}
{"id": "C34", "title": "Commitments computed by parameters and by the prover coincide and re-randomise additively", "statement": "SingleLayerParameters::commit(v, r, 0) is the point Prover::commit_vec(v, r) produces; commit(v, r, i)+s*H = commit(v, r+s, i); the sum over i of commit(v_i, r_i, i) is commit_vec of the concatenation with the summed blinding; commitments are perfectly hiding when the blinding base generates the group.", "quantifier": "every vector, blinding, set index and generators", "why_tests_cant": "All vectors and lengths.", "anchors": ["relations/src/single_level_select_and_rerandomize.rs: SingleLayerParameters::commit, permissible commitments", "bulletproofs/src/r1cs/prover.rs: commit_vec", "bulletproofs/src/generators.rs: PedersenGens::commit"]}
{"id": "C35", "title": "Any number of vector commitments is supported", "statement": "prove() does not panic because of the number of vector commitments made.", "quantifier": "every number of vector commitments", "why_tests_cant": "The label table has a fixed length; tests use few commitments.", "anchors": ["bulletproofs/src/util.rs: T_LABELS", "bulletproofs/src/r1cs/prover.rs", "bulletproofs/src/r1cs/verifier.rs"]}
{"id": "C36", "title": "Verifying untrusted data never panics", "statement": "Verifier::verify on any deserialised proof returns Ok or Err; it does not panic.", "quantifier": "every proof value", "why_tests_cant": "The adversary picks all vector lengths.", "anchors": ["bulletproofs/src/r1cs/verifier.rs: verification_scalars_and_points", "bulletproofs/src/inner_product_proof.rs: verification_scalars"]}
{"id": "C37", "title": "Challenges bind the statement and the proof", "statement": "Prover and verifier absorb identical transcripts before each challenge, and the transcript at each challenge determines every commitment and every proof element sent before it.", "quantifier": "every statement, proof and challenge function", "why_tests_cant": "Statement about all pairs of runs.", "anchors": ["bulletproofs/src/transcript.rs", "bulletproofs/src/r1cs/prover.rs", "bulletproofs/src/r1cs/verifier.rs", "relations/src/single_level_select_and_rerandomize.rs"]}
{"id": "C38", "title": "Insufficient generators are reported, sufficient ones never fail", "statement": "prove() and verify() return InvalidGeneratorsLength exactly when the padded circuit size exceeds the generator capacity, and otherwise never read a generator out of range.", "quantifier": "every circuit size and capacity", "why_tests_cant": "Boundary for every size.", "anchors": ["bulletproofs/src/r1cs/prover.rs: gens_capacity checks", "bulletproofs/src/r1cs/verifier.rs: verify"]}
{"id": "C39", "title": "Gadget cost is fixed", "statement": "The number of multipliers and constraints a gadget adds depends only on the public sizes (list length, bit length, window count), not on the witness, and equals the closed formula.", "quantifier": "every input and witness", "why_tests_cant": "All sizes and witnesses.", "anchors": ["relations/src/select.rs", "relations/src/range_proof.rs", "relations/src/lookup.rs", "relations/src/curve.rs", "relations/src/rerandomize.rs"]}
{"id": "C40", "title": "Proofs do not depend on the witness in distribution", "statement": "For any two satisfying assignments of the same committed statement and any challenges, there is a bijection of the prover's blinding values under which the messages sent before the inner product argument coincide.", "quantifier": "every statement, every pair of witnesses, every challenges", "why_tests_cant": "A statement about distributions over all randomness.", "anchors": ["bulletproofs/src/r1cs/prover.rs: blinding of A_I, A_O, S, T"]}
{"id": "C41", "title": "verify checks the two equations of the paper", "statement": "For a proof with as many R as L points, Verifier::verify accepts for every value of its internal random scalar exactly when the proof passes the polynomial-evaluation equation and the inner-product equation of the paper (with the prescribed transcript, degrees and sizes); a proof that fails one of them is accepted for at most one value of that scalar.", "quantifier": "every proof, every statement, every generators, every transcript challenges, every random scalar", "why_tests_cant": "All proofs, including malformed and adversarial ones, and all random scalars.", "anchors": ["bulletproofs/src/r1cs/verifier.rs: verify, verification_scalars_and_points", "bulletproofs/src/inner_product_proof.rs: verification_scalars"]}
{"id": "C42", "title": "Larger generator sets give the same proofs and verdicts", "statement": "If prove succeeds with some generators, it returns the same proof with any larger generator set that starts with the same generators; verify gives the same verdict with any larger set, once the smaller one is large enough.", "quantifier": "every statement, every proof, every pair of generator sets one of which extends the other", "why_tests_cant": "All sizes and all extensions.", "anchors": ["bulletproofs/src/generators.rs: BulletproofGens::share, BulletproofGensShare::G, H", "bulletproofs/src/r1cs/prover.rs", "bulletproofs/src/r1cs/verifier.rs"]}
{"id": "C43", "title": "Proof size is a fixed logarithmic formula", "statement": "The number of bytes of a proof returned by prove depends only on the number of multipliers, the number of vector commitments and whether there are second-phase commitments: (3 or 6 + 2d + 3 + 2 log2 N) points, 5 scalars and 25 bytes, with N the number of multipliers rounded up to a power of two and d = 2 + 2*floor(k/2) for k vector commitments; serialized_size reports it.", "quantifier": "every statement, witness, randomness, challenge function and encoding of points and scalars", "why_tests_cant": "Quantifies over all circuits and witnesses.", "anchors": ["bulletproofs/src/r1cs/prover.rs: prove", "bulletproofs/src/r1cs/proof.rs: to_bytes, serialized_size", "bulletproofs/src/inner_product_proof.rs: create"]}
{"id": "C44", "title": "A pour spends two coins of the tree", "statement": "If the proofs of a Pour come from openings of its commitments that satisfy its circuits, then the two spent amounts and tags are those of coins whose commitments are leaves of the tree, the tags are the hashes of the two public keys in the Pour, and the minted amounts are integers below 2^64 whose sum is the sum of the amounts of those two coins; otherwise the openings reveal a linear relation between generators.", "quantifier": "every set of coins, tree height, Pour, pair of satisfying openings", "why_tests_cant": "Quantifies over all (malicious) assignments; tests only run honest provers.", "anchors": ["relations/src/coin.rs: Pour::verification_gadget, even_verification_gadget, odd_verification_gadget, verify_spend_even, verify_spend_odd", "relations/src/curve_tree_verifier.rs"]}
{"id": "C45", "title": "An honest pour is accepted", "statement": "If both inputs are coins of the tree at the given indices, with tags matching the given public keys, and the amounts balance and are below 2^64, then prove_pour succeeds and the transaction it returns passes SignedTx::verification_gadget and the final batch check of both tuples (provided the re-randomised additions avoid the exceptional cases and no proof point is the identity).", "quantifier": "every tree, pair of coins and indices, amounts, keys, randomness", "why_tests_cant": "All trees, heights, amounts and randomness.", "anchors": ["relations/src/coin.rs: prove_pour, prove_spend, mint, SignedTx::verification_gadget"]}
{"id": "C46", "title": "One coin cannot be used as both inputs of a pour", "statement": "A Pour that is accepted spends two different coins: the same leaf of the tree cannot be counted twice.", "quantifier": "every tree, every Pour", "why_tests_cant": "Needs to consider every (malicious) choice of inputs; the tests use two different coins.", "anchors": ["relations/src/coin.rs: prove_pour, Pour::verification_gadget"]}
{"id": "C47", "title": "Batched select-and-rerandomize: Prover and Verifier agree", "statement": "For every tree for batches of M built by from_set and every choice of M indices, if the batched Prover gadget returns a path and scalars r_j then the batched Verifier gadget on that path builds the same two circuits over the same commitments and transcripts, and returns leaf_j + r_j*H for the j-th chosen leaf; with scalars that avoid the exceptional cases of the additions the Prover gadget succeeds and both proofs are accepted.", "quantifier": "every batch size M >= 1, branching factor L >= 2, set of leaves, height (even or odd root), M indices, randomness", "why_tests_cant": "Tests run one tree with M = 2 or so; heights, parities, batch sizes and indices are unbounded.", "anchors": ["relations/src/batched_curve_tree_prover.rs: CurveTree::batched_select_and_rerandomize_prover_gadget, select_and_rerandomize_prover_multi_witness, CurveTreeWitnessMultiPath", "relations/src/batched_curve_tree_verifier.rs: CurveTree::batched_select_and_rerandomize_verifier_gadget"]}
{"id": "C48", "title": "Batched select-and-rerandomize: every returned point is in the set", "statement": "If the batched Verifier gadget accepts a path of the tree's height and both proofs verify, every one of the M returned points is a re-randomization of an element of the set the tree was built from.", "quantifier": "every batch size M >= 1, branching factor, set, height and parity of the root, path chosen by the Prover, and satisfying assignment", "why_tests_cant": "Soundness is a statement about all Provers; tests run only the honest one.", "anchors": ["relations/src/batched_curve_tree_verifier.rs: CurveTree::batched_select_and_rerandomize_verifier_gadget, even_verifier_gadget, odd_verifier_gadget", "relations/src/single_level_select_and_rerandomize.rs: single_level_batched_select_and_rerandomize, single_level_select_and_rerandomize", "relations/src/rerandomize.rs: re_randomize"]}
{"id": "C49", "title": "An accepted range proof shows that the committed value is in the range", "statement": "If a prover is accepted on a sufficiently large tree of challenges by a Verifier that commits to one point V and runs range_proof on it for n bits, then its responses determine an integer below 2^n and a blinding that open V, or a non-trivial linear relation between the generators.", "quantifier": "every bit length n, every prover strategy, every tree of challenges with enough values, every group, generators and transcript prefix", "why_tests_cant": "It speaks about all provers, including cheating ones, and about what they must know.", "anchors": ["relations/src/range_proof.rs: range_proof", "bulletproofs/src/r1cs/verifier.rs: Verifier::commit, verify", "bulletproofs/src/inner_product_proof.rs: verification_scalars"]}
{"id": "C50", "title": "A path does not show which leaf was selected", "statement": "For any two indices i and i' of a tree, whatever an honest Prover sends for i (the re-randomized path and the proofs on both curves) it could as well have sent for i': a bijection between the re-randomization scalars for i and those for i' leads to the same path and the same messages to the Verifier, and then every proof that can be sent for i can be sent for i' with equally many choices of the remaining randomness.", "quantifier": "every set, branching factor and height, every two indices, all re-randomization scalars with which both paths are usable, all prior states of both Provers synchronised with the same Verifier, all proofs and transcripts", "why_tests_cant": "It is an equality of distributions over all random choices of the Prover, not a property of single runs.", "anchors": ["relations/src/curve_tree_prover.rs: CurveTree::select_and_rerandomize_prover_gadget", "relations/src/curve_tree.rs: SelectAndRerandomizePath", "bulletproofs/src/r1cs/prover.rs: Prover::prove"]}
{"id": "C51", "title": "A transaction hides the spent coins, the amounts and the receivers", "statement": "Two payments with coins of the same tree, whose amounts balance and whose spent coins have the same randomized public keys, lead to each transaction equally often: for every transaction a bijection of the randomness of prove_pour carries the runs for one payment that return this transaction to those for the other. So a transaction reveals neither which coins of the tree were spent, nor the amounts spent and minted, nor the receivers' public keys.", "quantifier": "every tree, every two payments with the same randomized keys (coins, amounts, receivers' keys), every transaction, all randomness with which both are usable, all transcript domains", "why_tests_cant": "It is an equality of distributions over all random choices and all pairs of payments.", "anchors": ["relations/src/coin.rs: prove_pour, Coin::mint, Coin::prove_spend, Pour, SignedTx", "bulletproofs/src/r1cs/prover.rs: Prover::prove"]}
{"id": "C52", "title": "The feature parallel does not change results", "statement": "With the feature parallel, which is on by default, prove, the select-and-rerandomize gadgets for one and for several paths, prove_pour and the verification of a transaction come to an end whatever order the thread pool runs their tasks in, and they return what they return without the feature: the same proofs, paths, transactions and verification tuples, the same states of the two Provers, and a panic exactly when the sequential code panics.", "quantifier": "every interleaving of the tasks, all inputs, random numbers and states of the Provers", "why_tests_cant": "A test runs a few of the possible interleavings, and does not choose them.", "anchors": ["bulletproofs/src/r1cs/prover.rs: Prover::prove_and_return_transcript", "relations/src/curve_tree_prover.rs: CurveTreeWitnessPath::select_and_rerandomize_prover_gadget", "relations/src/batched_curve_tree_prover.rs: CurveTreeWitnessMultiPath::batched_select_and_rerandomize_prover_gadget", "relations/src/coin.rs: prove_pour, Pour::verification_gadget, SignedTx::verification_gadget"]}
{"id": "C53", "title": "A batched path does not show which leaves were selected", "statement": "For any two choices of M indices of a tree, whatever an honest Prover sends for the first (the batched path and the proofs on both curves) it could as well have sent for the second, with equally many random choices. So a batch shows neither which leaves were selected, nor their order, nor whether a leaf was selected twice.", "quantifier": "every set, branching factor, height and batch size, every two choices of indices, all scalars with which both batches are usable, all prior states of both Provers synchronised with the same Verifier, all proofs and transcripts", "why_tests_cant": "It is an equality of distributions over all random choices of the Prover, not a property of single runs.", "anchors": ["relations/src/batched_curve_tree_prover.rs: CurveTree::batched_select_and_rerandomize_prover_gadget", "relations/src/batched_curve_tree_verifier.rs: batched_select_and_rerandomize_verifier_gadget", "bulletproofs/src/r1cs/prover.rs: Prover::prove"]}
{"id": "C54", "title": "In every history of payments value is conserved and no coin is spent twice", "statement": "Take a ledger that starts with some coins, makes the tree for each payment with from_set from all coin commitments so far, accepts a Pour only if its verification succeeds and its two tags are new and different, and then adds the two minted commitments. After any number of payments every payment has spent two coins that existed before it, no coin has been spent twice, and the total of the unspent coins is the total of the initial coins.", "quantifier": "every set of initial coins, every number of payments, every sequence of Pours with arbitrary (adversarial) contents, every witness", "why_tests_cant": "A test runs one or two payments made by the honest Prover; the property is an invariant of all histories, including those whose payments are made by an attacker who reuses minted coins.", "anchors": ["relations/src/coin.rs: Pour::verification_gadget, even_verification_gadget, verify_mint, verify_spend_even, SignedTx::verification_gadget", "relations/src/curve_tree.rs: CurveTree::from_set"]}
{"id": "C55", "title": "A proof tells nothing beyond the truth of the statement", "statement": "There is a simulator that is given the public statement (the commitments and the constraints), the challenges in advance and random coins, but no witness and no opening, and whose proofs are distributed exactly like those of the Prover with these challenges: for every proof, the number of random choices with which the Prover makes it equals the number of coins with which the simulator makes it. The simulated proofs are accepted by the Verifier.", "quantifier": "every statement built through the API (any commitments, vector commitments, gates, constraints, second phase), every true witness, all challenges with x not 0, every oracle that gives these challenges, every proof", "why_tests_cant": "It is a statement about the whole distribution of proofs and about the existence of an algorithm without the witness; a test sees single proofs made with one witness.", "anchors": ["bulletproofs/src/r1cs/prover.rs: Prover::prove, prove_and_return_transcript", "bulletproofs/src/r1cs/verifier.rs: Verifier::verify", "bulletproofs/src/inner_product_proof.rs: InnerProductProof::create"]}
{"id": "C56", "title": "An accepted membership proof shows that the committed value is in the set", "statement": "If the Verifier that commits to one point V and calls select on it with the elements of a public non-empty set as constants accepts a prover on a tree of challenges, then a non-trivial relation between the generators, or an element of the set and a blinding factor such that V is the commitment to that element, can be computed from the prover's scalars alone.", "quantifier": "every non-empty set, every prover strategy accepted on a tree of challenges, every group, choice of generators, label and point V", "why_tests_cant": "Soundness ranges over all provers, including ones that do not follow the protocol; a test can only try provers it knows.", "anchors": ["relations/src/select.rs: select", "bulletproofs/src/r1cs/verifier.rs: Verifier::commit, Verifier::verify"]}
{"id": "C57", "title": "A shuffle proof shows that the outputs are the inputs in some order", "statement": "The shuffle proof built on second-phase constraints (commit to k inputs and k outputs, draw a challenge after the first-phase commitments, show that the products of the values minus the challenge are equal): if the output values are the input values in some order, a proof is made and accepted for the returned commitments. Conversely a prover that is accepted for k values of the shuffle challenge knows openings of all 2k commitments in which the outputs are a permutation of the inputs, unless it knows a non-trivial relation between the generators. With one value the proof shows that both commitments hold the same value. Lists of different lengths and empty lists panic.", "quantifier": "every k, every list of values and blindings, all generators, transcripts and oracles; for soundness every prover strategy given by its responses on a tree of challenges, over every group", "why_tests_cant": "The tests shuffle a few random lists and reject a few wrong ones for sizes up to 42; soundness is about every prover and every challenge, and rests on a polynomial identity.", "anchors": ["bulletproofs/tests/r1cs.rs: ShuffleProof::gadget", "bulletproofs/tests/r1cs.rs: ShuffleProof::prove", "bulletproofs/tests/r1cs.rs: ShuffleProof::verify", "bulletproofs/src/r1cs/constraint_system.rs: RandomizableConstraintSystem::specify_randomized_constraints", "bulletproofs/src/r1cs/constraint_system.rs: RandomizedConstraintSystem::challenge_scalar"]}
{"id": "C58", "title": "An accumulator proof shows that the public element is in one of the committed vectors", "statement": "The accumulator built on curve trees (leaves are commitments to vectors of elements; select and re-randomise a leaf, open it and select the public element among its entries): for every leaf and every element of its vector the prover succeeds, its assertion about the leaf holds, and the proofs are accepted alone and in batches. Conversely whoever is accepted for an element knows it in one of the vectors of the tree (zero excepted if a vector is shorter than the width), or a second opening of a commitment. Empty leaves of the tree cannot be opened, to zero or anything else.", "quantifier": "every tree built from a set, every index, vector, width and element, all scalars drawn outside the exceptional cases of the additions, all transcripts and oracles, all batches of copies; for soundness every path and all assignments and openings satisfying the Verifiers' circuits", "why_tests_cant": "The benchmark runs one random leaf at index 0 with its first element in one tree shape; non-members, other indices and dishonest provers are never tried.", "anchors": ["relations/benches/accumulator.rs: bench_accumulator_with_parameters", "relations/src/select.rs: select", "relations/src/curve_tree_prover.rs: CurveTree::select_and_rerandomize_prover_gadget", "relations/src/curve_tree_verifier.rs: SelectAndRerandomizePath::even_verifier_gadget", "relations/src/single_level_select_and_rerandomize.rs: SingleLayerParameters::commit"]}
{"id": "C59", "title": "On every machine an index leads to its leaf", "statement": "For every tree made by from_set, every word size of usize, with and without overflow checks, and every index below the number of leaves, select_and_rerandomize_prover_witness returns the path to the leaf with that index.", "quantifier": "every tree (branching factor, height, leaves), every index, every word size, both build profiles", "why_tests_cant": "child_index computes L.pow(height) and reduces modulo it; whether this overflows depends on the branching factor, the height and the target. Tests run small trees on 64-bit machines.", "anchors": ["relations/src/curve_tree.rs: CurveTreeNode::child_index", "relations/src/curve_tree_prover.rs: select_and_rerandomize_prover_witness"]}
{"id": "C60", "title": "An accumulator proof does not show which vector the element is in", "statement": "If the public element is in the vector of leaf i and in the vector of leaf i' (of the same length), then whatever proof (path and proofs on both curves) the honest Prover makes with leaf i it makes with leaf i' for equally many random choices: for every proof there is a bijection of the random choices under which both runs return it. So the proof shows neither the leaf, nor the place in the vector, nor the other elements.", "quantifier": "every tree, every two leaves and vectors, every element in both, every oracle with non-zero challenges, every proof", "why_tests_cant": "A statement about distributions of outputs; unit tests see single runs.", "anchors": ["relations/benches/accumulator.rs: prove", "relations/src/curve_tree_prover.rs: select_and_rerandomize_prover_gadget", "bulletproofs/src/r1cs/prover.rs: prove"]}
{"id": "C61", "title": "A shuffle proof shows neither the order nor the values", "statement": "For two shuffles of equally many values, each a rearrangement of its inputs, whatever the honest Prover publishes (the commitments to the inputs and outputs, and the proof) for the one it publishes for the other for equally many random choices: for every result there is a bijection of the random choices under which both runs return it.", "quantifier": "every number of values, every two lists of values and rearrangements of them, every oracle with non-zero challenge x, every published result", "why_tests_cant": "A statement about distributions of outputs; unit tests see single runs.", "anchors": ["bulletproofs/tests/r1cs.rs: ShuffleProof::prove", "bulletproofs/src/r1cs/prover.rs: prove"]}
{"id": "C62", "title": "metrics() counts what was asked for, on both sides", "statement": "At every moment the Prover and the Verifier that made the same calls report the same metrics, and the numbers are the multipliers and the linear constraints the calls asked for, the latter split into those added before and in the second phase.", "quantifier": "every sequence of calls by a client, every moment before or after the second phase", "why_tests_cant": "All sequences of calls, in particular every mixture of allocate with other calls.", "anchors": ["bulletproofs/src/r1cs/metrics.rs: Metrics", "bulletproofs/src/r1cs/prover.rs: metrics", "bulletproofs/src/r1cs/verifier.rs: metrics"]}
{"id": "C63", "title": "Debug and release builds agree", "statement": "A debug build (which runs the debug assertions) and a release build of the Prover and of the Verifier return the same results for the same inputs; in particular no debug assertion ever fires in an honest run, and a Verifier that accepts in one build accepts in the other.", "quantifier": "every sequence of calls by a client, every randomness of the Prover, every proof (also by a dishonest Prover), every statement, every tree and path", "why_tests_cant": "`cargo test` runs debug builds only, users run release builds; an assertion that rejects something a release build accepts is invisible to tests of honest inputs.", "anchors": ["bulletproofs/src/r1cs/prover.rs: prove (debug_assert, cfg(debug_assertions))", "bulletproofs/src/r1cs/verifier.rs: verification_scalars_and_points (debug_assert)", "relations/src/curve_tree_verifier.rs: select_and_rerandomize_verifier_gadget (debug_assert_eq)", "relations/src/batched_curve_tree_verifier.rs: (debug_assert_eq)"]}
{"id": "C64", "title": "Nobody can alter an accepted proof", "statement": "Given an accepted proof, somebody who does not know the witness cannot change it into a different proof that is accepted for the same statement: every point and scalar of the proof is bound by the challenges or determined by the others.", "quantifier": "every accepted proof, every alteration that leaves the challenges as they are, every statement", "why_tests_cant": "All alterations of all accepted proofs.", "anchors": ["bulletproofs/src/r1cs/verifier.rs: verify, verification_scalars_and_points", "bulletproofs/src/r1cs/proof.rs: R1CSProof"]}
{"id": "C65", "title": "Sizes depend on the tree's shape only", "statement": "The number of bytes of a path with its two proofs, of a batched path for M leaves with its two proofs, of an accumulator proof and of a signed transaction, and the number of multipliers of the circuits, are fixed functions of the branching factor, the height, M, the number of bits of scalars and the sizes of points and scalars. They do not depend on the leaf, its index, the values, keys, other leaves or the randomness (as long as no scalar drawn for an inner node of the path is zero), so the length of a message tells an observer nothing. With the parameters of the benchmarks the functions give the recorded sizes.", "quantifier": "every set of leaves, branching factor, height, index, coin, value, key, randomness and every run in which the Prover succeeds", "why_tests_cant": "A test measures the size for one run; that no run has another size ranges over all sets, indices and randomness.", "anchors": ["proof_constraints.txt", "relations/src/curve_tree_prover.rs: select_and_rerandomize_prover_gadget", "relations/src/coin.rs: prove_pour", "relations/benches/accumulator.rs", "bulletproofs/src/r1cs/proof.rs: R1CSProof::serialize", "bulletproofs/src/r1cs/prover.rs: number_of_constraints", "relations/src/batched_curve_tree_prover.rs: batched_select_and_rerandomize_prover_gadget"]}
{"id": "C66", "title": "The root determines the set", "statement": "Two sets for which the tree has the same branching factor and height have different roots unless they are the same list, or the two trees together exhibit a linear relation between the generators (or between the generators and the shift point). So a party that knows only the root and the height knows which leaves it stands for.", "quantifier": "every two sets of any sizes, branching factor, number of commitments per node, requested heights, generators and curves without points with x = 0", "why_tests_cant": "Binding ranges over all pairs of sets; a test compares a few, and a collision is never met by chance.", "anchors": ["relations/src/curve_tree.rs: CurveTree::from_set, CurveTreeNode::combine", "relations/src/curve_tree.rs: SelRerandParameters"]}
{"id": "C67", "title": "An accepted proof shows knowledge of an opening of every commitment", "statement": "If the Verifier accepts a proof for a list of Pedersen commitments and a gadget, then the prover knows, for each of the commitments, a value and a blinding that open it, and these values satisfy the gadget's constraints (or the prover knows a linear relation between the generators).", "quantifier": "every gadget, every list of commitments, every prover strategy accepted on enough challenges, all generators", "why_tests_cant": "The tests commit to known values only; that no proof is accepted for a commitment without opening ranges over all provers and commitments.", "anchors": ["bulletproofs/src/r1cs/verifier.rs: commit, verification_scalars_and_points, verify", "bulletproofs/src/r1cs/prover.rs: prove", "bulletproofs/tests/r1cs.rs: example_gadget, example_gadget_proof, example_gadget_verify"]}
{"id": "C68", "title": "An accepted proof of a curve addition shows that the third committed point is the sum of the first two", "statement": "A proof made with checked_curve_addition for committed coordinates of three points is accepted when the first two points have different x-coordinates and the third is their sum; and if a proof is accepted, the prover knows openings of the six commitments such that the third point is the sum of the first two (or knows a linear relation between the generators).", "quantifier": "every curve in short Weierstrass form, all committed coordinates and blindings, every prover strategy accepted on enough challenges, all generators", "why_tests_cant": "The test proves one random addition over one curve; that no proof is accepted for commitments that do not hold a sum ranges over all provers and commitments.", "anchors": ["relations/src/curve.rs: checked_curve_addition, incomplete_curve_addition, test_curve_addition", "bulletproofs/src/r1cs/verifier.rs: commit, verify"]}
{"id": "C69", "title": "A prover who does not know a witness is accepted for few challenges only", "statement": "When the challenges of the proof protocol are drawn at random from a field with q elements, a prover of a statement about single-value commitments who is accepted with probability more than (2^lg + Q + 14 + 7 lg)/q, where Q is the number of constraints and 2^lg the padded number of multipliers, can be turned into values that open the commitments and satisfy the statement (or a linear relation between the generators). In particular, with independent generators a false statement is accepted at most with that probability, and the same holds of range proofs for values outside the range, of selections for values not in the list, and, with k more in the numerator for the challenge between the two phases, of shuffles of k values whose outputs are not the inputs in some order.", "quantifier": "every statement without vector commitments, every prover strategy (points and scalars as arbitrary functions of the challenges), all finite fields, groups and generators", "why_tests_cant": "The probability ranges over all challenges and all cheating provers; a test runs a few honest provers.", "anchors": ["bulletproofs/src/r1cs/verifier.rs: verify, verification_scalars_and_points", "bulletproofs/src/inner_product_proof.rs: verification_scalars", "relations/src/range_proof.rs: range_proof", "relations/src/select.rs: select", "bulletproofs/tests/r1cs.rs: ShuffleProof"]}
{"id": "C70", "title": "The scalars drawn for a path are almost always usable", "statement": "When the scalars of select_and_rerandomize_prover_gadget are drawn at random, the honest prover fails or sends an unsatisfiable path at most with probability (e+2)·height/Q, where Q is the size of the scalar field and e the number of scalars for which re_randomize fails whatever the point is; twice that for the two inputs of a payment, and for the paths for two leaves being distributed alike. With Pallas and Vesta and 255-bit scalars e is at most 4, so the probability is at most 6·height/2^254 (12·height/2^254), whatever the generators and shift points are; with secp256k1, secq256k1 and 256-bit scalars e is at most 4 too and the bounds are 6·height/2^255 (12·height/2^255). For the batched gadget and M leaves, whose nodes on each level can be added up, the probability is at most (e+2)·(height-1+M)/Q.", "quantifier": "every set of leaves, every tree height, every pair of leaves none of whose nodes cancels the shift point, all generators, all choices of the random scalars (counted)", "why_tests_cant": "The failing scalars are a fraction below 2^-250 of all; tests with random scalars never see one, and a test cannot count them.", "anchors": ["relations/src/rerandomize.rs: re_randomize", "relations/src/curve_tree_prover.rs: select_and_rerandomize_prover_gadget", "relations/src/single_level_select_and_rerandomize.rs: single_level_select_and_rerandomize", "relations/src/batched_curve_tree_prover.rs: batched_select_and_rerandomize_prover_gadget"]}
{"id": "C71", "title": "The curves the code is run with form a cycle of prime order", "statement": "Pallas (y²=x³+5 over the base field given by ark-pallas) and Vesta have prime orders, each the size of the base field of the other, as the traits of the code demand. The same holds of secp256k1 and secq256k1, the other pair the benches use. Every point is a multiple of every generator other than the identity, so no subgroup check is needed, every blinding generator generates the group, and re_randomize with 255-bit (256-bit) scalars works for every such generator, all scalars but four, and all points but the identity and the two that cancel.", "quantifier": "all points of the four curves, all generators other than the identity, all scalars", "why_tests_cant": "The number of points cannot be counted by running the code; tests assume it.", "anchors": ["relations/src/curve_tree.rs: CurveTree (trait bounds P0, P1)", "relations/src/rerandomize.rs: re_randomize, build_tables", "relations/benches/coin.rs: PallasConfig, VestaConfig", "relations/benches/accumulator.rs: SecpConfig, SecqConfig"]}
{"id": "C72", "title": "An honest prover is almost always accepted", "statement": "A prover and a verifier that are given the same true statement, without second-phase callbacks, with k ≤ 17 vector commitments and 2^lg padded multipliers, fail to agree (prove returns an error, or verify does not accept) with probability at most (2·(2+2⌊k/2⌋+1)+7+5·lg)/q over the prover's random choices and the challenges, where q is the size of the field; the numerator is at most 200. The same holds on both curves of a proof of membership in a tree, for every leaf and every usable path. For Pallas and Vesta, trees of height at most 34 and circuits of at most 2^31 multipliers, an honest proof of membership works but for 6·height/2^254 of the scalars of the path, and then each of its two proofs is rejected with probability at most 200/2^254; with secp256k1 and secq256k1 the denominator is 2^255. An honest batched proof for M leaves works but for 6·(height-1+M)/2^254 of the scalars, and then the same bounds hold for its two proofs. An honest proof that an element is in the accumulator works for all but 6·height/2^254 of the scalars, with the same bounds. A whole payment of two coins by their owner, out of a tree of height at most 14, fails with probability at most (12·height+400)/2^254 over Pallas and Vesta and (12·height+400)/2^255 over secp256k1 and secq256k1, over the scalars of the two paths, the random choices of the two provers and all challenges. An honest range proof (at most 64 bits) about a committed value, an honest proof that a committed value is in a public set, and the proof made with a newly minted coin are each rejected with probability at most 200/q. The proofs of the example gadget and of a curve addition that the repository's tests make fail with probability at most 13/q and 28/q. In a group of prime order the probability is at least 1/q: it is not zero.", "quantifier": "every true statement without second phase, every circuit size below 2^32, every set of generators with B and B_blinding other than the identity, every tree and leaf; all random choices of the prover and all challenges are counted; every payment of two owned coins with amounts that balance", "why_tests_cant": "The exceptional choices have probability below 2^-240 for the curves in use, so no test meets them; that there are no others, for every statement and size, is not something a run shows.", "anchors": ["bulletproofs/src/r1cs/prover.rs: prove_and_return_transcript", "bulletproofs/src/r1cs/verifier.rs: verification_scalars_and_points", "bulletproofs/src/transcript.rs: validate_and_append_point", "bulletproofs/src/inner_product_proof.rs: create", "relations/src/curve_tree.rs: select_and_rerandomize_prover_gadget", "relations/src/coin.rs: prove_pour", "relations/src/batched_curve_tree_prover.rs: batched_select_and_rerandomize_prover_gadget", "relations/benches/accumulator.rs: bench_accumulator_with_parameters", "relations/src/range_proof.rs: range_proof", "relations/src/select.rs: select", "relations/src/coin.rs: mint", "bulletproofs/tests/r1cs.rs: example_gadget_proof", "relations/src/curve.rs: test_curve_addition"]}
