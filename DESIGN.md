# Formal model of simonkamp/curve-trees in Lean 4

Source: `/repo` (Rust; crates `bulletproofs` and `relations`). The model and the
proofs are in `lean/Verif`. Properties are listed in `properties.jsonl`; the
mapping property -> theorem is in `MANIFEST.json`; deliberate-bug experiments are
in `seeded/LOG.jsonl`.

## Layout

* `Verif/Model/*`  — the model, one definition per Rust function, each with the
  file and lines it models and the simplifications made.
* `Verif/Spec/*`   — small specifications, independent of the model.
* `Verif/Proofs/*` — helper lemmas.
* `Verif/Props/*`  — the property theorems (one or several per property), with
  non-vacuity examples.

## Modelling conventions

* A field is any `Field F` (with `DecidableEq` where the code branches on
  equality); a curve group is any `AddCommGroup G` with `Module F G`. Where
  coordinates matter, points are Mathlib's `WeierstrassCurve.Affine.Point`.
* `&mut` becomes state passing, `Result`/panic become `Except Err`.
* `usize` is `Nat` unless the property is about overflow.
* The merlin transcript is the list of absorbed messages; a challenge is an
  arbitrary function (the random oracle) of that list. Labels are kept.
* Randomness (blinding values, verifier weights) is an explicit argument; theorems
  quantify over it.
* Gadgets are programs over the `ConstraintSystem` trait (a free monad), run by
  two interpreters: the Prover's and the Verifier's.

## Trusted base

* Lean 4.33.0 kernel. Every theorem listed in `MANIFEST.json` depends on no axioms other than `propext`,
  `Classical.choice` and `Quot.sound` (`#print axioms` shows all three for nearly all of them, since fields and
  Weierstrass curves come from Mathlib). There are no axioms of our own, no `sorry`, no `native_decide`, no `bv_decide`.
  Concrete runs of the model are evaluated by the kernel (`decide +kernel`).
* Faithful reading of the Rust code (it is not compiled or run here).
* External crates are parameters with assumed behaviour:
  * ark-ff: field axioms. ark-ec: group axioms; `msm_unchecked` truncates to the shorter slice; affine addition is the
    group law. Scalars act on points as a module over the scalar field (for Pallas, Vesta, secp256k1 and secq256k1 this is proved, C71).
  * ark-serialize: the codecs of field elements, points, keys and signatures are arbitrary codecs; theorems say which laws
    they need (round trip, canonicity). `Vec` is a u64 little-endian length followed by the elements (modelled).
  * merlin: the transcript is the list of labelled messages; a challenge is an arbitrary function of it.
  * rand: all randomness is an argument. rayon: `join` and `scope` run their tasks in any
    interleaving of steps and wait for all of them (`Verif/Model/Parallel.lean`, C52); the `parallel` features of arkworks are not modelled.
  * sha3 (hash to curve for generators, hash of a public key to a tag) and ark-crypto-primitives (Schnorr): arbitrary
    functions. `verify` returns `Result<bool, _>`.

### What is modelled

| Rust | Lean | remarks |
|------|------|---------|
| `bulletproofs/src/util.rs` | `Model/Util` | all arithmetic helpers |
| `bulletproofs/src/generators.rs` | `Model/Generators` | capacity, shares, aggregated iterator; the hash chain is a function of the label and index |
| `bulletproofs/src/inner_product_proof.rs` | `Model/IPP`, `Model/Serialize` | create, verification_scalars, verify, codec |
| `bulletproofs/src/transcript.rs` | `Model/Transcript` | including the check for the identity |
| `bulletproofs/src/errors.rs` | `Err` in `Model/Transcript` | one constructor per error that can occur, plus `panic` |
| `r1cs/{constraint_system, linear_combination}.rs` | `Model/R1CS` | free monad and both interpreters |
| `r1cs/prover.rs` | `Model/R1CS`, `Model/Prove` | commit, commit_vec, allocation, second phase, prove |
| `r1cs/verifier.rs` | `Model/R1CS`, `Model/Verify` | verification tuple, verify, batch_verify |
| `r1cs/proof.rs` | `Model/Serialize` | to/from bytes, sizes |
| `r1cs/metrics.rs` | `Model/Metrics` | counts of multipliers, constraints, phases |
| `relations/src/{lookup, curve, rerandomize, select, range_proof}.rs` | `Model/Gadgets`, `Model/Curve` | |
| `relations/src/single_level_select_and_rerandomize.rs` | `Model/Gadgets` | parameters, commit, both gadgets |
| `relations/src/curve_tree.rs` | `Model/Tree`, `Model/Serialize` | construction, witness, x_coordinates, path codecs |
| `child_index` with words of any size | `Model/Word` | overflow checked or wrapping |
| `relations/src/curve_tree_{prover, verifier}.rs` | `Model/Tree`, `Model/TreeGadgets` | |
| `relations/src/batched_curve_tree_{prover, verifier}.rs` | `Model/BatchedTree` | for `M >= 1` |
| `cfg(feature = "parallel")` in `prover.rs`, `curve_tree_prover.rs`, `batched_curve_tree_prover.rs`, `coin.rs` | `Model/Parallel` | `rayon::join` and `rayon::scope` with every interleaving |
| `relations/src/coin.rs` | `Model/Coin` | mint, spend, pour, signed transaction; signatures and hash as parameters |
| accumulator in `relations/benches/accumulator.rs` | `Model/Accumulator` | leaf, prove closure, verification of lists of proofs; index, element and proofs are arguments |
| `debug_assert!` and `cfg(debug_assertions)` in `prover.rs`, `verifier.rs`, `mod.rs`, `curve_tree_verifier.rs`, `batched_curve_tree_verifier.rs` | `Model/Debug` | the assertions, not the printing; the other modules model release builds |
| `ShuffleProof` in `bulletproofs/tests/r1cs.rs` (also `benches/r1cs.rs`) | `Model/Shuffle` | the example of second-phase constraints: gadget, prove, verify |
| `example_gadget`, `example_gadget_proof`, `example_gadget_verify` in `bulletproofs/tests/r1cs.rs` | `Model/ExampleGadget` | the five commitments, the gadget, prove and verify (the round trip through bytes is left out: the theorems on serialization say that it gives the proof back) |
| `PallasConfig`, `VestaConfig` (crates ark-pallas and ark-vesta; `relations/benches/coin.rs`, tests) | `Model/Pasta` | coefficients, base fields, generators; the constants are those of the published curves, the crates' source is not available here |
| `Config` of ark-secp256k1 and ark-secq256k1 (benches with `secp&q`) | `Model/Secp` | the same |
| `test_curve_addition` in `relations/src/curve.rs` | `Model/AdditionTest` | six commitments, the gadget, prove and verify for all points and blindings (the test draws the points at random) |

Not modelled: the other benches and tests, `Debug`/`Clone`/`Error` boilerplate,
constant-time behaviour and zeroing of memory (`clear_on_drop`), running time, stack and memory exhaustion, overflow of
`usize` in capacities and lengths (numbers are `Nat`; the overflow of `L.pow(..)` in `child_index` is modelled in `Model/Word`).

### Simplifications worth knowing

* `fx : Bool` in gadget definitions: `false` is the code, `true` adds the two constraints missing from `re_randomize`.
* A two-element cycle of curves is a family `C : Bool -> SWCurve`, `false` the even and `true` the odd curve. The Prover for
  curve `p` works over the scalar field of `C p`, which is the base field of `C (!p)`.
* Deferred (second phase) callbacks are programs; none of the gadgets of `relations` use them.
* The recursion of `from_set` is bounded by fuel; theorems require enough fuel (at most the number of leaves plus the height) and
  show that it suffices.

## Plan per property

| id | what is modelled | how it is proved |
|----|------------------|------------------|
| C01 | `Prover::prove`, `Verifier::verify`, IPP, transcript | list/finite-sum algebra over any `Module F G`; transcript equality by computation |
| C02 | ConstraintSystem programs, both interpreters | induction on the program |
| C03 | Prover interpreter | invariant by induction on the program |
| C04 | both `flattened_constraints` | induction on the constraint list; root counting for polynomials |
| C05 | `op_splits`, l/r polynomials, `VecPoly::inner_product` | case analysis on degrees, finite sums |
| C06 | `InnerProductProof::create/verify` | induction on the number of rounds |
| C07 | `verification_scalars` | induction on rounds, bit arithmetic on indices |
| C08 | verifier's point/scalar lists with unequal L/R lengths | expected FALSE: construct a forged proof; partial theorem for equal lengths |
| C09 | verifier equation | special soundness (tree of transcripts), staged: r, IPP, x, u, z, y; the converse (`C09_honest_accepted`): the honest Prover, written as a function of the challenges, is accepted on every tree |
| C10 | `batch_verify` | linear algebra in the weights; counting over weights and random scalars; for mixed sizes an exact description of the check, a valid batch that is rejected, and a forger: behind a smaller proof the scalars for `H` are dropped, so `r(x)` is not bound and can be chosen last |
| C11 | R1CSProof codec over abstract element codecs | round-trip by computation; non-canonicity witness |
| C12 | IPP codec | same |
| C13 | `select` | soundness: zero product; completeness: prover interpreter |
| C14 | `range_proof` | induction on n |
| C15 | `lookup` | algebra over three bits |
| C16 | `curve_check` | direct; expected FALSE for A != 0 |
| C17 | addition gadgets | against Mathlib's group law |
| C18 | `re_randomize` | induction on windows, exceptional-case analysis |
| C19 | `re_randomize` prover | expected FALSE for specific scalars; partial theorem with the exact non-collision condition |
| C20 | `build_tables` | induction on windows |
| C21 | `single_level_select_and_rerandomize` | composition of C13, C16, C18 |
| C22 | verifier gadgets over a tree | induction on height, binding as an explicit hypothesis on the two openings; of the code as it is: an explicit forger, its failures counted with C70 and C72 |
| C23 | prover gadget vs verifier gadget | list alignment for both parities |
| C24 | path length check | expected FALSE in release builds; theorem for debug builds (`C63_tree_height`) |
| C25 | `from_set`, `increase_height`, `combine` | induction on levels |
| C26 | `select_and_rerandomize_prover_witness` | induction on height; wrap-around counterexample |
| C27 | batched gadgets, `addRoots` | as C21 with sums; opening of the sum of the roots from C34 |
| C28 | Pour circuit | C14 + integer arithmetic |
| C29 | `verify_signatures` | expected FALSE: the boolean result is dropped |
| C30 | codecs | round-trip |
| C31 | generators | induction on histories |
| C32 | util | induction |
| C33 | x = 0 not on the four curves | Jacobi symbol computation in the kernel |
| C34 | commitments | module algebra |
| C35 | label table | expected FALSE: limit 17 |
| C36 | verifier totality | expected FALSE: short T / R vectors panic; partial under shape conditions |
| C37 | transcript model | computation; injectivity of the message list |
| C38 | capacity checks | direct |
| C39 | gadget cost | induction |
| C40 | whole Prover | an explicit bijection of the random choices maps runs with one witness to runs with another |
| C41 | `verification_scalars_and_points`, final check | the mega check is the combination of the two equations of the paper with the weight r; linear in r |
| C42 | generators, prove, verify | only a prefix of the generators is read |
| C43 | codec, prove | lengths of the vectors made by prove |
| C44 | Pour circuits on both curves | C22 + C28; of the code as it is: forged sessions through C22_forgery, and an explicit thief (`forgePour`) with the counting of C72 for payments |
| C45 | prove_pour, SignedTx verification | both sides related by sessions; zero-padding of commitments with smaller dimension (`Proofs/Widen`) |
| C46 | Pour | expected FALSE: instance of C45 with equal inputs |
| C47 | batched tree gadgets | the M paths joined into one with concatenated siblings and summed commitments; then as C23 |
| C48 | batched verifier gadgets | expected FALSE like C22; for the repaired gadget M chains of selections, binding for sums as an explicit alternative |
| C49 | `commit`, `range_proof`, `verify` | explicit circuit of the gadget, C09 extraction without vector commitments, C14 |
| C50 | path Prover/Verifier gadgets, `prove` | shift of the scalars by the discrete logarithms between the nodes of the two paths, then C40 |
| C51 | `prove_pour` | shifts of blindings and path scalars as in C50, C40 on both curves, Provers with vectors extended by zeros make the same proofs |
| C52 | the code behind the feature `parallel` | small-step semantics of fork and join; separated tasks commute; each task is shown to use its own variables |
| C53 | batched path gadgets, `prove` | as C50, for the sums of the nodes of each level and for each leaf |
| C54 | a ledger built from `from_set` and the Pour circuits (`Spec/Ledger.lean`) | induction over the payments from C44; fresh tags exclude coins spent before; false of the code because of C44 and C46 |
| C55 | `prove`, `verify`; a simulator written from the definition of zero knowledge (`Spec/Simulator.lean`) | a bijection from the random choices to the coins of the simulator, built as a composition of affine changes of one coin at a time; both equations of the Verifier are solved for `S1` and `T_0` |
| C56 | `Verifier::commit`, `select`, `verify` | composition of C09 (no vector commitments) and C13; the circuit of `select` is written out and shown to be the one the Verifier builds over every group; `V` is pinned because it has coefficient -1 in the first constraint |
| C57 | `ShuffleProof::{gadget, prove, verify}`: commitments, second-phase callback with its challenge | completeness from C01 and C38 and a Hoare-style argument for the callback; the circuit for a given challenge is written out and shown to be the one every Verifier builds; C09 (no vector commitments) per challenge, openings for different challenges agree or give a relation, and equal products at `k` points make the values permutations (unique factorisation of polynomials) |
| C58 | the accumulator of the benchmark: leaf commitments, prove closure, batch verification of lists | expected FALSE like C22; completeness from C23, C13, C01 and C10; for the repaired gadget soundness from C22 and C13, binding as an explicit alternative; of the code as it is, a forged path to a commitment of the forger's own vector; the forger is a function of public data, and its failures are counted over its blinding and the scalars |
| C59 | `child_index` on words of any size, with and without overflow checks | exactness when `L ^ height` fits, panic otherwise (false of the code); induction over the height: the digits that do not overflow are right |
| C60 | the accumulator's Prover for two leaves whose vectors contain the element | bijection of the random choices from C50 (path) and C40 (proofs) |
| C61 | the Prover of a shuffle for two rearrangements of equally many values | bijection of the random choices: the blindings are moved so that the commitments agree, then C40 for the proofs |
| C62 | `metrics` of Prover and Verifier in every session, before and after the callbacks | counts of the calls (`Spec/Metrics.lean`), induction over the session; FALSE for the second phase: concrete client |
| C63 | `prove`, `verify` and the Verifier's tree gadgets with every debug assertion (`Model/Debug`) | Prover: equality of both builds in every reachable state, from the invariant of the session (no coefficient is written twice, the sanity check is an identity of polynomials); Verifier: exact characterisation of what the assertions let pass (`Spec/Debug.lean`); FALSE for proofs by others: witness |
| C64 | `verify` for two proofs with the same transcript | FALSE: ignored points, equality of the verification for all inputs; partial: binding by the transcript (C37) and two answers to the same inner product argument give an explicit relation |
| C65 | bytes and multipliers of paths, batched paths, accumulator proofs and signed transactions | what each gadget adds to a Prover (multipliers, calls of `allocate`, vector commitments and their dimensions), by induction over the path; then C43's byte count of a proof; the formulas of `Spec/Sizes.lean` at the benchmarks' parameters equal the recorded sizes |
| C66 | two trees of `from_set`, their roots and the vectors committed to in their nodes | induction over the height: equal commitments of nodes give equal vectors or a relation, equal x-coordinates give equal or opposite shifted points, and for inner nodes opposite points are a relation with `Δ`; false for leaves up to `P ↦ -P - 2Δ`, for a leaf `-Δ` and for different heights: witnesses |
| C67 | `Verifier::commit` and `verify` for any gadget; the example gadget of `tests/r1cs.rs` | a commitment determined by the constraints is a linear combination of the rows' committed parts (duality of finite-dimensional spaces), so the opening extracted in C09 opens it; if not determined, shifting the commitments along a solution of the homogeneous equations leaves the weighted sum of the check unchanged: witness with commitments that have no opening |
| C68 | `checked_curve_addition` on six committed coordinates, as in `test_curve_addition` | completeness from the chord formulas; the rows that determine the committed coordinates or their differences give openings by C67, the gates give the slope equations, and the chord formulas give the sum; witnesses off the curve and with commitments that have no opening |
| C69 | `Verifier::verify` with challenges drawn at random, any prover strategy | counting, by induction on the rounds: if more challenges are accepted than the sum of the branching factors allows, a tree of accepted runs exists, and the extractor of C09 (of C49 for range proofs, of C56 for selections) applies to it; for shuffles the challenge between the two phases is one more round, and C57 applies |
| C70 | `select_and_rerandomize_prover_gadget` with random scalars | C23 and C19 say which scalars work; the others are counted by a union bound over the levels, a scalar being determined by its multiple of the blinding base; C50's bijection moves the bad scalars to as many; for the batched gadget the same count with one scalar for each inner level and one for each leaf |
| C71 | the curves of ark-pallas, ark-vesta, ark-secp256k1 and ark-secq256k1 | primality by Pratt certificates, and for the base field of secp256k1 by Goldwasser and Kilian's test on the curve itself; a chain of doublings and additions, checked by the kernel in affine coordinates, shows the order of the generator; there are at most 2p+1 points and none of order two, so the generator's order is the number of points |
| C72 | `prove` and `verify` with random choices and challenges, no second phase | C01 names the exceptions: a zero challenge among y, z, u, w, x, u_j, or a point that is the identity. The points `A_I1`, `A_O1`, `S1`, `T_d` are each moved by a blinding of their own; the points `L_j`, `R_j` of the inner product argument are bilinear in one entry of s_L and one of s_R with a mixed coefficient that is not zero. Each exception is counted over the one or two choices that move it, and a union bound adds them up. The challenges of a run belong to transcripts of different lengths, so they are entries of one random tape. For payments the circuits do not depend on the challenges, so the count for the two paths (C70) and those for the two proofs add up. Batched paths take C47, C65 and C70 for batches; the accumulator takes C58 and the count of its circuits The range, select and mint gadgets on a fresh Prover, the example gadget and the curve addition of the tests are sessions of known size, so the same count applies to each of them. |

## Findings: properties that are false of the code

For each of these the negation is proved with a witness and a `_partial` theorem states what does hold.

* **C18 (critical).** `re_randomize` (`rerandomize.rs:131-157`) allocates the first accumulator without any
  constraint tying it to the first table lookup. `C18_accepts_unrelated`: whenever the re-randomised
  commitment is *not* related to the commitment, the constraints are satisfiable. The model carries a flag
  `fx`: `false` is the code, `true` adds the two missing constraints. Soundness is proved for `fx = true`
  (without any assumption on exceptional cases). Everything built on top of the gadget inherits this:
  **C21** (`C21_single_level_unsound`), **C22** (`C22_forgery`: any point is accepted as a leaf; `C22_forger`, `C22_pasta_forger`, `C22_secp_forger`: an explicit forger, given only public data, that works on the Pasta and secp curves for all points but 259 and as often as an honest Prover), **C58** (`C58_forgery`: any element is accepted as accumulated; `C58_forger`, `C58_pasta_forger`, `C58_secp_forger`: an explicit forger that fails for at most (259 + 6·height)/2^254 of its random choices), **C48** (`C48_forgery`: any M points as a batch; `C48_forger`, `C48_pasta_forger`, `C48_secp_forger`: the explicit forger for batches, as reliable as an honest Prover), **C27**, and
  **C44** (`C44_inflation`: a Pour out of nothing is accepted; `C44_thief`, `C44_pasta_thief`, `C44_secp_thief`: an explicit thief whose signed transactions, out of coins that nobody minted, are accepted on the Pasta and secp curves as often as honest payments).
  (The comment in `accumulator.rs:79` that zero can be opened with an empty leaf is wrong: an empty slot cannot be selected, C33; but zero
  can be opened with every leaf that is not full, `C58_zero_accepted`.)
  Adding the two constraints is not enough for **C22**: with `fx = true`, in every tree of height 0, 2 or 3 modulo 4 a forger gets any
  leaf of a tree of its own accepted (`C22_repaired_forgery`, `C22_repaired_forgery_below`), because one of the two curves then has an odd
  number of vector commitments (C09, next item). The forged proofs for a tree of height 2 are computed and verified in
  `Props/RepairedForgeryExample.lean`.
* **C09 (critical).** With an odd number of vector commitments the `H`-component of `A_O` falls on a degree that the
  verifier's equation does not separate, and a modified prover is accepted for any statement
  (`C09_odd_commitments_forgery`, `C09_unsatisfiable_accepted`). With an even number the same happens between two commitments:
  an `H` component of the second one meets the first one at degree `op` (`C09_even_commitments_forgery`, again for `2 * 3 = 7`). `commit_vec` of the
  Verifier takes any point, and the nodes of a path are points chosen by the prover. What does hold is special soundness, stated in
  `Spec/Extraction.lean`: a prover is a family of messages and responses that depend on the challenges so far, a tree is a
  choice of challenges after each prefix (`2^lg` values of `y`, constraints + 1 of `z`, 5 of `u`, `2(op+1)+1` of `x`, 2 of `w`, four different
  squares for each inner-product round, two verifier scalars). `C09_extraction_partial`: from the circuit, the challenges and the scalar
  responses alone there is *either* one relation between the generators that holds in every group where the tree is accepted, *or* one
  assignment with openings that is valid in every group where the tree is accepted; the existential quantifier precedes the group, so a
  trivial relation that happens to hold in a small group does not count. The gates of the assignment carry an explicit term `cross`;
  it is zero without vector commitments (`C09_no_vector_commitments_partial`), and with an even number of vector commitments that open to
  vectors in the `G` generators (`C09_even_commitments_partial`).
* **C08 (critical).** `verify` does not compare the length of `R_vec` with that of `L_vec`; the surplus points enter the multi-scalar
  multiplication with the scalars of other points. `C08_surplus_R_points_forgery` accepts any statement.
* **C10 (critical for batches of different sizes).** `batch_verify` adds up the scalars for the generators with `zip` and uses the generators for the padded size of the first proof. Behind a smaller valid proof a proof is therefore checked with its scalars for `G` applied to the first elements of `G` and `H`, and its scalars for `H` dropped. A forger can choose `r(x)` freely: any statement without vector commitments, e.g. `2 * 3 = 7`, is accepted for all weights (`C10_mixed_sizes_forgery`, `C10_unsatisfiable_accepted`). Valid proofs of different sizes are rejected (`C10_mixed_sizes_rejected`); the empty batch panics.
* **C11, C12.** A flag byte other than 1 is read as 0 and the explicit identity is accepted, so encodings are not unique;
  `serialized_size` counts `L_vec` twice.
* **C16.** `curve_check` computes `A*x^2` instead of `A*x`; harmless when `A = 0` (all curves in use).
* **C19.** Re-randomisation by zero always panics, as do (for the Pasta curves) three more scalars, and
  any `P = ±r*h`.
* **C24.** The length of a path is only checked by `debug_assert`. In release builds an internal node can be opened as
  if it were a leaf.
* **C26.** Indices are reduced modulo `L^height`. **C25**: the empty set panics, `L = 1` does not terminate.
* **C29.** `verify_signatures` drops the boolean returned by `Schnorr::verify`; wrong signatures are accepted.
* **C31.** The aggregated iterator for `n = 0` and `m > 1` parties yields `m - 1` generators.
* **C35.** `T_LABELS` has 41 entries: 18 or more vector commitments panic.
* **C36.** Proofs with too few `T` points or fewer `R` than `L` points make `verify` panic.
* **C37.** The transcript does not bind dimensions and roles of commitments; the batched gadget does not absorb its public sum.
* **C45.** The Verifier allocates the selected leaf with dimension `L`, the Prover with dimension 2. In a tree of height one with `L > 128` the
  circuit sizes differ and every honest payment is rejected (`C45_height_one_rejected`).
* **C46.** Nothing prevents the same coin from being both inputs (`C46_same_coin_twice`), which doubles its value. With the repaired `re_randomize` and two keys with different tags the
  spent coins are different (`C46_different_tags_partial`), so a check that the two tags differ would remove this.
* **C59.** `child_index` computes `L.pow(height)` in `usize`. If it does not fit, the Prover panics for every index (with overflow checks always,
  without them when `L` is a power of two, by a remainder with divisor zero): on 32-bit targets for `L = 256` and height 4, on 64-bit targets for height 8.
* **C62.** `phase_two_constraints` is the number of callbacks before the second phase and `0` in and after it; the constraints added by callbacks are
  reported as `phase_one_constraints` (`C62_second_phase`). Without callbacks the metrics are exact.
* **C63.** The checks of the length of a path, of the length of `T`, of `T[op_degree]` and of the second-phase points exist in debug builds only.
  A release build accepts proofs and paths a debug build panics on (`C63_builds_differ`, `C63_short_path_refused`).
* **C64.** `T[op_degree]` and surplus points at the end of `T` are neither absorbed nor checked. Anybody can turn an accepted proof into
  another accepted proof of the same statement with other bytes (`C64_malleable`, `C64_extendable`). Proofs must not be used as identifiers.
* **C65.** `proof_constraints.txt`: every recorded proof size is what the code produces (`C65_recorded_sizes`). The recorded numbers of constraints are not: they
  exceed the code's by one for each use of `select` (`C65_recorded_constraints_differ`), so they were recorded with an older `select`. What is called the number of
  constraints is the number of multipliers (`Prover::number_of_constraints`).
* **C66.** The root does not determine the set. It binds leaves only by the x-coordinate of `P + Δ`, so in every set any leaves `P` can be replaced by
  `-P - 2Δ` without changing the root (`C66_mirrored_same_root`). A leaf `-Δ` looks like an
  empty slot (`C66_unshifted_leaf_example`). Commitments of inner nodes, taken as leaves, give the same root at a height that is lower by two
  (`C66_inner_nodes_example`), so the height has to be fixed by the verifier. Apart from these three the root is binding (`C66_root_determines_set_partial`).
* **C67.** A proof does not show that the prover can open every commitment. Only commitments whose value is determined by the linear constraints are opened; the
  proof of the Bulletproofs protocol requires that for all (the matrix `W_V` has full rank), but the API neither checks nor documents it. In the repository's own
  `example_gadget` the first two commitments occur in the sum `a1 + a2` only: `V0 + R` and `V1 - R` are accepted for every point `R` (`C67_example_shifted`), even if
  they have no opening at all (`C67_unopenable_accepted`). The functions of `relations/src` use vector
  commitments only, and the range proof determines its commitment (C49).
* **C68.** A proof of a curve addition does not show that the committed pairs are points: `checked_curve_addition` checks the slope equations only (the code has the comment
  `todo check on curve?`), so `(0, 5) + (1, 6) = (0, -5)` is accepted (`C68_off_curve_accepted`). Nor are the y-coordinates opened: the constraints use `yr - yl` and
  `yo + yl` only, so the commitments of the y-coordinates may be shifted by `R`, `R` and `-R` for any point `R` (`C68_y_not_opened`, `C68_unopenable_accepted`). A caller who uses the
  gadget on commitments of its own must check both separately.
