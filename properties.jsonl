{"id": "C01", "title": "Bit decomposition and projection are inverse", "statement": "Decomposing an integer into n little-endian bits and projecting back returns the integer modulo 2^n; projecting any bit vector and decomposing with its length returns the vector.", "quantifier": "every integer and every number of bits, every bit vector", "why_tests_cant": "tests sample 100 random 64-bit words", "anchors": ["src/arithmetic/util.rs: bit_decompose, project", "src/tracker/dmle_utils.rs: bit_decompose, binary_decompose"]}
{"id": "C02", "title": "Index shift used by product trees", "statement": "For i < 2^n with n > 0, get_index(i, n) returns x0 = 2i mod 2^n, x1 = x0 + 1 and the top bit of i as sign; n = 0 panics.", "quantifier": "every i and n", "why_tests_cant": "three literals are tested", "anchors": ["src/arithmetic/util.rs: get_index"]}
{"id": "C03", "title": "Evaluating a dense multilinear extension is the eq-weighted sum of its table", "statement": "Evaluation at a point x equals the sum over Boolean indices i of table[i] times prod_j (x_j if bit j of i else 1-x_j); in particular at the Boolean point of index i it returns table[i]; the serial and parallel evaluators agree; a wrong point length is rejected.", "quantifier": "every table of size 2^n, every n, every point over any field", "why_tests_cant": "universally quantified over tables and points of all sizes", "anchors": ["src/arithmetic/multilinear_polynomial.rs: evaluate_opt, evaluate_no_par, fix_variables"]}
{"id": "C04", "title": "Partial evaluation fixes the leading variables", "statement": "fix_variables(p, r) is a table in n-|r| variables with eval(fix_variables(p,r), x) = eval(p, r ++ x), for every split; an over-long partial point panics.", "quantifier": "every table, every partial point, every remaining point", "why_tests_cant": "all sizes and split positions", "anchors": ["src/arithmetic/multilinear_polynomial.rs: fix_variables, fix_one_variable_helper, fix_variables_no_par"]}
{"id": "C05", "title": "Partial evaluation of trailing variables", "statement": "fix_last_variables(p, r) satisfies eval(fix_last_variables(p,r), x) = eval(p, x ++ r); the serial variant agrees on non-empty points.", "quantifier": "every table, every split", "why_tests_cant": "all sizes and split positions", "anchors": ["src/arithmetic/multilinear_polynomial.rs: fix_last_variables, fix_last_variables_no_par, fix_last_variable_helper"]}
{"id": "C06", "title": "Serial and parallel builds compute the same partial evaluation", "statement": "With and without the parallel feature, fixing one variable of a table yields the same table.", "quantifier": "every table and field element", "why_tests_cant": "tests only run with the default features", "anchors": ["src/arithmetic/multilinear_polynomial.rs: fix_one_variable_helper"]}
{"id": "C07", "title": "Merged polynomial opens to its parts", "statement": "Merging k tables of n variables gives a table on n + ceil(log2 k) variables, zero beyond the inputs, and evaluating it at the i-th merged point (point ++ bits of i) returns the i-th table's evaluation at the point; mismatched sizes are rejected.", "quantifier": "every non-empty list of tables, every index and point", "why_tests_cant": "all list lengths and sizes", "anchors": ["src/arithmetic/multilinear_polynomial.rs: merge_polynomials", "src/arithmetic/util.rs: gen_eval_point, get_batched_nv"]}
{"id": "C08", "title": "Random polynomial lists report their true sum", "statement": "The sum returned with a random list of tables is the sum over the hypercube of the product of the tables, whatever the random generator returns; the zero variant vanishes at every hypercube point.", "quantifier": "every random tape, every number of variables and every list length", "why_tests_cant": "tests use one fixed seed", "anchors": ["src/arithmetic/multilinear_polynomial.rs: random_mle_list, random_zero_mle_list", "src/arithmetic/virtual_polynomial.rs: rand, rand_zero"]}
{"id": "C09", "title": "Random permutation is a permutation", "statement": "random_permutation returns a rearrangement of 0..k*2^n and its tables concatenate to it; identity tables are the identity.", "quantifier": "every random tape, n and k", "why_tests_cant": "tests use one fixed seed", "anchors": ["src/arithmetic/multilinear_polynomial.rs: random_permutation, identity_permutation, random_permutation_mles, identity_permutation_mles"]}
{"id": "C10", "title": "Virtual polynomial arithmetic means what it says", "statement": "A virtual polynomial built by any sequence of successful add_mle_list, mul_by_mle and + operations evaluates at every point to the corresponding sum of coefficient-weighted products; sharing of identical table pointers never changes the value.", "quantifier": "every operation sequence and every evaluation point", "why_tests_cant": "all histories of operations", "anchors": ["src/arithmetic/virtual_polynomial.rs: add_mle_list, mul_by_mle, Add, evaluate, new_from_mle"]}
{"id": "C11", "title": "Virtual polynomial degree and index bookkeeping", "statement": "For every reachable virtual polynomial the recorded max_degree bounds the length of every product, every product is non-empty when built by add_mle_list, every index refers to a stored table, and every stored table has the recorded number of variables, so evaluate never panics on a point of the right length.", "quantifier": "every operation sequence", "why_tests_cant": "an invariant over all histories", "anchors": ["src/arithmetic/virtual_polynomial.rs: add_mle_list, mul_by_mle, evaluate"]}
{"id": "C12", "title": "A failed add_mle_list leaves the polynomial unchanged", "statement": "If add_mle_list returns an error the virtual polynomial is exactly what it was before.", "quantifier": "every polynomial and every rejected list", "why_tests_cant": "every error history", "anchors": ["src/arithmetic/virtual_polynomial.rs: add_mle_list"]}
{"id": "C13", "title": "Materialising a virtual polynomial preserves its hypercube values", "statement": "materialize() returns the table whose entry at index i is the value of the virtual polynomial at the Boolean point i, for every i.", "quantifier": "every virtual polynomial and every index", "why_tests_cant": "all polynomials and sizes", "anchors": ["src/arithmetic/virtual_polynomial.rs: materialize"]}
{"id": "C14", "title": "The eq table and the eq evaluation agree", "statement": "For non-empty r, build_eq_x_r(r) is the table of eq(.,r): evaluated at any point x it gives eq_eval(x,r); its entries sum to 1; on Boolean points it is the indicator of equality; an empty r and mismatched lengths are rejected.", "quantifier": "every r and x of every length", "why_tests_cant": "all lengths and field elements", "anchors": ["src/arithmetic/virtual_polynomial.rs: build_eq_x_r, build_eq_x_r_vec, build_eq_x_r_helper, eq_eval", "src/tracker/dmle_utils.rs: build_eq_x_r, eq_eval", "src/subroutines/pcs/multilinear_kzg/util.rs: eq_eval"]}
{"id": "C15", "title": "build_f_hat multiplies by eq", "statement": "build_f_hat(r) evaluates at every x to f(x)*eq(x,r), has degree one more, and its hypercube sum is the multilinear extension of f's hypercube values at r; a wrong length r is rejected.", "quantifier": "every virtual polynomial, every r, every x", "why_tests_cant": "all polynomials and points", "anchors": ["src/arithmetic/virtual_polynomial.rs: build_f_hat"]}
{"id": "C16", "title": "Sumcheck completeness", "statement": "For every virtual polynomial with at least one variable the honest proof verifies against the true hypercube sum, and the resulting subclaim states exactly the polynomial's value at the subclaim point.", "quantifier": "every virtual polynomial, every transcript state, every challenge oracle not hitting an interpolation node", "why_tests_cant": "all polynomials, degrees, sizes and challenges", "anchors": ["src/subroutines/poly_iop/sum_check/mod.rs: prove, verify", "src/subroutines/poly_iop/sum_check/prover.rs", "src/subroutines/poly_iop/sum_check/verifier.rs"]}
{"id": "C17", "title": "Sumcheck soundness", "statement": "If the claimed sum is wrong then, for every adaptive prover, at most n*d*|F|^(n-1) of the |F|^n challenge vectors make the verifier both accept and output a true subclaim; equivalently every accepting false claim passes through a round whose challenge is one of at most d roots fixed before it.", "quantifier": "every polynomial of individual degree at most d, every false claim, every prover strategy", "why_tests_cant": "adversarial strategies cannot be enumerated", "anchors": ["src/subroutines/poly_iop/sum_check/verifier.rs: verify_round_and_update_state, check_and_generate_subclaim"]}
{"id": "C18", "title": "Sumcheck verifier rejects malformed proofs", "statement": "A proof whose round messages do not all have max_degree+1 evaluations, or whose first two evaluations of some round do not add up to the running claim, is rejected with an error (as long as no challenge is an interpolation node, see C20); checking before the last round is rejected; a proof with too few rounds panics.", "quantifier": "every proof and every verifier state", "why_tests_cant": "all malformed proofs", "anchors": ["src/subroutines/poly_iop/sum_check/verifier.rs: check_and_generate_subclaim, verify_round_and_update_state", "src/subroutines/poly_iop/sum_check/mod.rs: verify"]}
{"id": "C19", "title": "Round-message interpolation is Lagrange interpolation", "statement": "interpolate_uni_poly returns the value at the query of the unique polynomial of degree < len through (i, p_i), in all three integer-width branches, without overflow in the fixed-width branches, for every query outside {0..len-1}.", "quantifier": "every message length up to the field characteristic, every query", "why_tests_cant": "branch switches at 20 and 33 and all lengths above", "anchors": ["src/subroutines/poly_iop/sum_check/verifier.rs: interpolate_uni_poly, u64_factorial, u128_factorial, field_factorial"]}
{"id": "C20", "title": "Round-message interpolation is total", "statement": "Verification never panics because of the challenge value: interpolate_uni_poly also returns p_i when queried at a node i.", "quantifier": "every message and every challenge", "why_tests_cant": "probability of hitting a node in tests is negligible", "anchors": ["src/subroutines/poly_iop/sum_check/verifier.rs: interpolate_uni_poly"]}
{"id": "C21", "title": "Honest round messages are the partial sums", "statement": "In round k the prover's message has max_degree+1 entries and entry t is the sum over the remaining Boolean variables of the polynomial at (r_1..r_{k-1}, t, b), including products of lower degree, which are extrapolated.", "quantifier": "every polynomial, round, challenge prefix and entry", "why_tests_cant": "all polynomials and rounds", "anchors": ["src/subroutines/poly_iop/sum_check/prover.rs: prove_round_and_update_state, barycentric_weights, extrapolate, prover_init"]}
{"id": "C22", "title": "Sumcheck prover state machine", "statement": "The prover refuses a constant polynomial, a challenge in round 0, a missing challenge later, and any round beyond num_variables; a run in the right order never errors.", "quantifier": "every order of calls", "why_tests_cant": "all call sequences", "anchors": ["src/subroutines/poly_iop/sum_check/prover.rs: prover_init, prove_round_and_update_state"]}
{"id": "C23", "title": "Sumcheck prover and verifier derive the same challenges", "statement": "Starting from equal transcripts, verifying an honest proof consumes exactly the challenges the prover used: the subclaim point equals the proof's point and the final transcripts are equal.", "quantifier": "every polynomial and every transcript state/oracle", "why_tests_cant": "all transcripts", "anchors": ["src/subroutines/poly_iop/sum_check/mod.rs: prove, verify", "src/transcript/mod.rs"]}
{"id": "C24", "title": "Zerocheck completeness", "statement": "If a polynomial vanishes on the hypercube the zerocheck proof verifies and the subclaim is its value at the subclaim point (when eq(point,r) is non-zero).", "quantifier": "every vanishing virtual polynomial, transcript and oracle", "why_tests_cant": "all polynomials", "anchors": ["src/subroutines/poly_iop/zero_check/mod.rs: prove, verify"]}
{"id": "C25", "title": "Zerocheck soundness", "statement": "If a polynomial of n variables does not vanish on the hypercube then at most n*|F|^(n-1) choices of r make the eq-weighted sum zero.", "quantifier": "every non-vanishing polynomial, all n", "why_tests_cant": "counting over the whole challenge space", "anchors": ["src/subroutines/poly_iop/zero_check/mod.rs: verify", "src/arithmetic/virtual_polynomial.rs: build_f_hat"]}
{"id": "C26", "title": "Transcript discipline", "statement": "A challenge is refused while nothing has been appended; otherwise challenges are a function of the ordered labelled history only, are themselves absorbed, and two transcripts that absorbed different histories have different absorbed histories forever (nothing is forgotten).", "quantifier": "every sequence of transcript operations", "why_tests_cant": "all histories", "anchors": ["src/transcript/mod.rs: append_message, get_and_append_challenge, get_and_append_challenge_vectors"]}
{"id": "C27", "title": "KZG opening completeness", "statement": "For a structured reference string generated from any trapdoor and trimmed to any supported size, committing, opening at any point and verifying succeeds with the polynomial's evaluation as the value.", "quantifier": "every trapdoor, size, polynomial, point", "why_tests_cant": "all sizes and points", "anchors": ["src/subroutines/pcs/multilinear_kzg/mod.rs: commit, open_internal, verify_internal", "src/subroutines/pcs/multilinear_kzg/srs.rs: gen_srs_for_testing, trim"]}
{"id": "C28", "title": "A KZG proof opens to one value only", "statement": "One commitment, point and proof cannot verify for two different values.", "quantifier": "every commitment, point, proof (honest or not), values", "why_tests_cant": "adversarial group elements", "anchors": ["src/subroutines/pcs/multilinear_kzg/mod.rs: verify_internal"]}
{"id": "C29", "title": "Reference string consistency under trim", "statement": "generated powers at level i are the eq-table of the trapdoor suffix t[i..] in the exponent; trimming to k variables gives the string of the last k trapdoor coordinates; too large a request is rejected, zero variables is rejected at generation.", "quantifier": "every trapdoor and every pair of sizes", "why_tests_cant": "all sizes", "anchors": ["src/subroutines/pcs/multilinear_kzg/srs.rs: gen_srs_for_testing, trim, remove_dummy_variable", "src/subroutines/pcs/multilinear_kzg/util.rs: eq_extension"]}
{"id": "C30", "title": "Commitments and openings reject bad shapes", "statement": "commit and open reject polynomials larger than the parameters, open rejects a point of the wrong length, verify rejects a point longer than the parameters.", "quantifier": "every size combination", "why_tests_cant": "all sizes", "anchors": ["src/subroutines/pcs/multilinear_kzg/mod.rs: commit, open_internal, verify_internal"]}
{"id": "C31", "title": "Batch opening completeness", "statement": "Opening any non-empty list of polynomials of equal size at arbitrary points (shared or distinct) yields a batch proof that batch_verify accepts against their commitments and true evaluations.", "quantifier": "every list length, polynomials, points, transcript", "why_tests_cant": "all list lengths and point coincidences", "anchors": ["src/subroutines/pcs/multilinear_kzg/batching.rs: multi_open_internal, batch_verify_internal"]}
{"id": "C32", "title": "Batch verification is bound to the verified sumcheck point", "statement": "batch_verify evaluates commitments at the point derived from the transcript, so a proof whose embedded point differs from the derived one is rejected.", "quantifier": "every proof", "why_tests_cant": "adversarial proofs", "anchors": ["src/subroutines/pcs/multilinear_kzg/batching.rs: batch_verify_internal"]}
{"id": "C33", "title": "Tracker identifiers are never reused", "statement": "Every operation that creates a polynomial or commitment returns an identifier never returned before; older identifiers keep referring to the same object.", "quantifier": "every operation sequence on prover and verifier trackers", "why_tests_cant": "all histories", "anchors": ["src/tracker/prover_tracker.rs: gen_id", "src/tracker/verifier_tracker.rs: gen_id"]}
{"id": "C34", "title": "Virtual polynomials refer only to materialised polynomials", "statement": "In every reachable prover tracker each identifier is either material or virtual, never both, virtual representations mention only material identifiers, and the internal 'unreachable' branches are never taken on identifiers the tracker handed out.", "quantifier": "every operation sequence", "why_tests_cant": "an invariant over all histories", "anchors": ["src/tracker/prover_tracker.rs: add_sub_polys, mul_polys, materialize_poly"]}
{"id": "C35", "title": "Tracked arithmetic is pointwise on the hypercube", "statement": "For tracked polynomials of equal size the evaluations of sum, difference, product, scalar sum and scalar product are the pointwise results, in all four material/virtual combinations, and any later sequence of operations leaves the evaluations of an existing handle unchanged.", "quantifier": "every reachable tracker, every pair of handles, every later history", "why_tests_cant": "all histories", "anchors": ["src/tracker/prover_tracker.rs: add_sub_polys, mul_polys, add_scalar, mul_scalar, evaluations", "src/tracker/prover_wrapper.rs: TrackedPoly"]}
{"id": "C36", "title": "Tracked arithmetic is pointwise at arbitrary field points", "statement": "evaluate(handle, x) of a sum, difference, product, scalar sum and scalar product is the corresponding combination of the operands' evaluate at x.", "quantifier": "every reachable tracker, handle and point", "why_tests_cant": "all points and histories", "anchors": ["src/tracker/prover_tracker.rs: evaluate"]}
{"id": "C37", "title": "Reading evaluations does not change a polynomial", "statement": "Calling evaluations() on a handle does not change what evaluate(handle, x) returns at any point x.", "quantifier": "every reachable tracker, handle and point", "why_tests_cant": "needs every handle and every non-Boolean point", "anchors": ["src/tracker/prover_tracker.rs: materialize_poly, evaluations, evaluate"]}
{"id": "C38", "title": "Increasing the number of variables", "statement": "increase_nv_front(k) yields q with q(z,x)=p(x) and increase_nv_back(k) yields q with q(x,z)=p(x), at all field points; hypercube sums scale by 2^k; shrinking panics.", "quantifier": "every table, every k, every point", "why_tests_cant": "all sizes and points", "anchors": ["src/tracker/dmle_utils.rs: dmle_increase_nv_front, dmle_increase_nv_back", "src/tracker/prover_tracker.rs: increase_nv_front, increase_nv_back"]}
{"id": "C39", "title": "Conversion to the sumcheck polynomial is faithful", "statement": "to_arithmatic_virtual_poly(handle) evaluates at every point exactly like the tracked polynomial, and its recorded degree bounds its products.", "quantifier": "every reachable tracker, handle, point", "why_tests_cant": "all histories and points", "anchors": ["src/tracker/prover_tracker.rs: to_arithmatic_virtual_poly"]}
{"id": "C40", "title": "A refused commitment leaves the tracker untouched", "statement": "If committing fails (polynomial too large for the parameters) no identifier, polynomial, commitment or transcript message is added.", "quantifier": "every tracker state and polynomial", "why_tests_cant": "every error history", "anchors": ["src/tracker/prover_tracker.rs: track_and_commit_mat_poly"]}
{"id": "C41", "title": "Prover and verifier identifiers stay in lockstep", "statement": "If prover and verifier start with equal counters and transcripts and execute the same sequence of tracker operations (commit/transfer, virtual tracking, add, sub, mul, scalar add, scalar mul, nv increase, challenges), their counters, returned identifiers and challenges stay equal.", "quantifier": "every operation sequence", "why_tests_cant": "all histories", "anchors": ["src/tracker/prover_tracker.rs", "src/tracker/verifier_tracker.rs: add_scalar"]}
{"id": "C42", "title": "Verifier evaluates virtual commitments like the prover", "statement": "After the same operation sequence, evaluating a verifier handle at x (committed values answered truthfully) gives the prover's evaluate of the same handle at x.", "quantifier": "every operation sequence and every point", "why_tests_cant": "all histories and points", "anchors": ["src/tracker/verifier_tracker.rs: add_comms, sub_comms, mul_comms, add_scalar, mul_scalar, increase_nv_front, increase_nv_back, eval_virtual_comm"]}
{"id": "C43", "title": "Equalising sizes preserves claims up to a power of two", "statement": "Equalising extends every smaller table by trailing variables that it ignores, multiplies each true claimed sum by 2^(N-nv), keeps zero-check claims true, and leaves evaluation at the leading coordinates unchanged.", "quantifier": "every reachable tracker with sum and zero claims", "why_tests_cant": "all histories and size mixes", "anchors": ["src/tracker/prover_tracker.rs: equalize_materialized_poly_nv"]}
{"id": "C44", "title": "Claim aggregation is complete and sound", "statement": "Folding zero-check claims with challenges and eq(.,r), and sum claims with challenges, yields one sum claim that is true if all claims are; if some claim is false, the fraction of challenges for which the folded claim is true is at most (N+2)/|F|, where N is the number of variables.", "quantifier": "every list of claims, every challenge vector", "why_tests_cant": "counting over all challenges", "anchors": ["src/tracker/prover_tracker.rs: convert_zerocheck_claims_to_sumcheck_claim, compile_proof", "src/tracker/verifier_tracker.rs: convert_zerocheck_claims_to_sumcheck_claim, verify_claims"]}
{"id": "C45", "title": "Verification binds the final evaluation", "statement": "verify_claims accepts only if the sumcheck subclaim equals the evaluation of the aggregated virtual commitment at the sumcheck point.", "quantifier": "every proof (honest or not)", "why_tests_cant": "adversarial proofs", "anchors": ["src/tracker/verifier_tracker.rs: verify_claims"]}
{"id": "C46", "title": "Verification rejects a failing opening proof", "statement": "verify_claims returns an error whenever the batch opening proof does not verify.", "quantifier": "every proof", "why_tests_cant": "adversarial proofs", "anchors": ["src/tracker/verifier_tracker.rs: verify_claims"]}
{"id": "C47", "title": "The compiled proof carries the committed evaluations", "statement": "For every committed identifier the compiled proof's query map holds that polynomial's evaluation at the sumcheck point.", "quantifier": "every reachable tracker", "why_tests_cant": "all histories", "anchors": ["src/tracker/prover_tracker.rs: compile_proof"]}
{"id": "C48", "title": "Commitment handles compare by identity", "statement": "Two commitment handles are equal only if they refer to the same identifier in the same tracker.", "quantifier": "every pair of handles", "why_tests_cant": "all pairs", "anchors": ["src/tracker/verifier_wrapper.rs: TrackedComm::eq", "src/tracker/prover_wrapper.rs: TrackedPoly::eq"]}
{"id": "C49", "title": "Deep copies are isolated", "statement": "After deep_copy of a tracker, operations on the copy never change what the original's handles evaluate to, and vice versa.", "quantifier": "every state and every operation sequence on the copy", "why_tests_cant": "all histories", "anchors": ["src/tracker/verifier_wrapper.rs: deep_copy", "src/tracker/prover_wrapper.rs: deep_copy"]}
{"id": "C50", "title": "An honest compiled proof is accepted", "statement": "If prover and verifier run matching operations and all recorded claims are true, the compiled proof is accepted by verify_claims (unless a sumcheck challenge happens to be an interpolation node, see C20).", "quantifier": "every matching history with true claims and at least two commitments", "why_tests_cant": "all histories", "anchors": ["src/tracker/prover_tracker.rs: compile_proof", "src/tracker/verifier_tracker.rs: verify_claims"]}
{"id": "C51", "title": "Any number of committed columns can be proved", "statement": "compile_proof succeeds for every tracker with true claims and at least one committed polynomial.", "quantifier": "every number of commitments", "why_tests_cant": "tests always commit several columns", "anchors": ["src/tracker/prover_tracker.rs: compile_proof", "src/subroutines/pcs/multilinear_kzg/batching.rs: multi_open_internal"]}
{"id": "C52", "title": "Multiset check: completeness", "statement": "If two families of bags (value, selector, multiplicity tables) have equal total active multiplicity for every field value, then for every challenge gamma different from all values the prover's committed inverses satisfy all recorded claims and the verifier's sum comparison passes.", "quantifier": "every family of bags, every gamma outside the values", "why_tests_cant": "all inputs", "anchors": ["src/zksql_poly_iop/bag_multitool/bag_multitool.rs: prove, verify, prove_generate_subclaims, verify_generate_subclaims"]}
{"id": "C53", "title": "Multiset check: soundness", "statement": "If all claims recorded by the verifier hold for the committed tables and the sum comparison passes, then, except for at most as many gamma as there are table entries, the total active weights of every field value agree on both sides.", "quantifier": "every committed tables (adversarial inverses included), every gamma", "why_tests_cant": "adversarial provers, counting over gamma", "anchors": ["src/zksql_poly_iop/bag_multitool/bag_multitool.rs: verify, verify_generate_subclaims"]}
{"id": "C54", "title": "Multiset check rejects malformed inputs", "statement": "Empty sides, different numbers of bags and multiplicities, and (prover side) mismatched sizes are rejected with an error, never by a panic.", "quantifier": "every shape of inputs", "why_tests_cant": "all shapes", "anchors": ["src/zksql_poly_iop/bag_multitool/bag_multitool.rs: prove, verify"]}
{"id": "C55", "title": "Bag equality", "statement": "Claims recorded by the bag-equality verifier hold for some gamma outside an exceptional set of bounded size only if the two active multisets are equal (as multiplicities in the field); equal multisets always yield satisfiable claims.", "quantifier": "every pair of bags of equal size", "why_tests_cant": "all inputs and adversarial provers", "anchors": ["src/zksql_poly_iop/bag_eq/bag_eq.rs: prove, verify"]}
{"id": "C56", "title": "Bag sum", "statement": "The bag-sum claims characterise: active multiset of the third bag equals the disjoint sum of the first two, for arbitrary table sizes.", "quantifier": "every triple of bags", "why_tests_cant": "all inputs and size mixes", "anchors": ["src/zksql_poly_iop/bag_sum/bag_sum.rs: prove, verify"]}
{"id": "C57", "title": "Bag inclusion", "statement": "With the honest multiplicity advice, every bag whose active values all occur actively in the other yields satisfiable claims; and satisfied claims imply every active value occurs actively in the other bag.", "quantifier": "every pair of bags and every advice", "why_tests_cant": "all inputs and adversarial advice", "anchors": ["src/zksql_poly_iop/bag_inclusion/bag_inclusion.rs: prove, prove_with_advice, verify"]}
{"id": "C58", "title": "Inclusion advice is correct", "statement": "The computed advice assigns to the first active occurrence of each value its number of active occurrences in the included bag and 0 elsewhere, so total multiplicities match.", "quantifier": "every pair of value and selector tables", "why_tests_cant": "all inputs", "anchors": ["src/zksql_poly_iop/bag_inclusion/utils.rs: calc_bag_inclusion_advice_from_bag", "src/zksql_poly_iop/util/multiplicity_count.rs"]}
{"id": "C59", "title": "No-zeros check", "statement": "The claims of the no-zeros check are satisfiable by some committed inverse iff no active entry is zero.", "quantifier": "every table and 0/1 (or arbitrary) selector", "why_tests_cant": "all inputs, adversarial inverses", "anchors": ["src/zksql_poly_iop/bag_no_zeros/mod.rs: prove, verify"]}
{"id": "C60", "title": "Selector validity", "statement": "The selector-validity claim holds iff every entry of the selector is 0 or 1.", "quantifier": "every table", "why_tests_cant": "all tables", "anchors": ["src/zksql_poly_iop/selector_valid/selector_valid.rs: prove, verify"]}
{"id": "C61", "title": "Prescribed permutation check", "statement": "The claims hold (outside a bounded exceptional set of gamma) only if g[i] placed by the permutation equals f: the multiset of (index, f) pairs equals that of (perm, g) pairs; honest data always satisfies them.", "quantifier": "every pair of tables and every permutation table", "why_tests_cant": "all inputs", "anchors": ["src/zksql_poly_iop/bag_presc_perm/bag_presc_perm.rs: prove, verify"]}
{"id": "C62", "title": "Strict sort check", "statement": "If the claims of the sort check hold for a bag, consecutive active entries differ by a non-zero element of the range set, so with fewer than p/(range) rows all active values are distinct and increasing from the first; honest strictly increasing bags satisfy them.", "quantifier": "every table, selector and range", "why_tests_cant": "all inputs; field wrap-around", "anchors": ["src/zksql_poly_iop/bag_sort/bag_sort.rs: prove, verify"]}
{"id": "C63", "title": "Support check", "statement": "Satisfied support-check claims imply that the active values of the support bag are exactly the distinct active values of the bag.", "quantifier": "every pair of bags and advice", "why_tests_cant": "all inputs", "anchors": ["src/zksql_poly_iop/bag_supp/bag_supp.rs: prove, prove_with_advice, verify"]}
{"id": "C64", "title": "Support advice is correct", "statement": "The computed support is the strictly increasing list of distinct active values, zero-padded in front, with matching multiplicities and selector.", "quantifier": "every value and selector table", "why_tests_cant": "all inputs", "anchors": ["src/zksql_poly_iop/bag_supp/utils.rs: calc_bag_supp_advice"]}
{"id": "C65", "title": "Disjointness checks", "statement": "Satisfied disjointness claims imply no value is active in both bags; honest disjoint bags satisfy them.", "quantifier": "every pair of bags, all sizes", "why_tests_cant": "all inputs", "anchors": ["src/zksql_poly_iop/set_disjoint/set_disjoint.rs", "src/zksql_poly_iop/bag_disjoint/bag_disjoint.rs", "src/zksql_poly_iop/bag_disjoint/utils.rs"]}
{"id": "C66", "title": "Set difference, union and intersection", "statement": "Satisfied claims of the set operations imply the advertised set equation between active values of inputs and outputs.", "quantifier": "every tuple of bags", "why_tests_cant": "all inputs", "anchors": ["src/zksql_poly_iop/set_diff/set_diff.rs", "src/zksql_poly_iop/set_union/set_union.rs", "src/zksql_poly_iop/set_intersect/set_intersect.rs"]}
{"id": "C67", "title": "Left/middle/right split", "statement": "The split utility partitions the active values of two sets into those only in the first, in both, and only in the second, for every input order.", "quantifier": "every pair of tables and selectors", "why_tests_cant": "tests use sorted inputs", "anchors": ["src/zksql_poly_iop/util/intermed_bag_calc.rs: bag_lmr_split, set_lmr_split"]}
{"id": "C68", "title": "Cross product", "statement": "The cross product table's row (i,j) is row i of one table followed by row j of the other and is active iff both are, identically for prover tables and verifier closures.", "quantifier": "every pair of tables, all sizes", "why_tests_cant": "all sizes", "anchors": ["src/zksql_poly_iop/cross_product/cross_product.rs", "src/zksql_poly_iop/cross_product/utils.rs"]}
{"id": "C69", "title": "Join reduction selectors", "statement": "Among the active rows, the computed left/right selectors mark exactly those whose key does not occur actively in the other table (inactive rows are marked by the same rule on their key), and the claims recorded imply that split of the active rows.", "quantifier": "every pair of key columns", "why_tests_cant": "all inputs", "anchors": ["src/zksql_poly_iop/join_reduction/join_reduction.rs", "src/zksql_poly_iop/join_reduction/utils.rs"]}
{"id": "C70", "title": "Index transform binds rows", "statement": "Satisfied index-transform claims imply that every active row of the output table is an active row of the source table.", "quantifier": "every pair of tables and proofs, all but the counted exceptional challenges", "why_tests_cant": "adversarial provers", "anchors": ["src/zksql_poly_iop/index_transform/index_transform.rs", "src/zksql_poly_iop/index_transform/utils.rs: table_row_prover_agg"]}
{"id": "C71", "title": "One-to-many join advice", "statement": "The computed index column maps every active row of the many-side to a row of the one-side with the same key and errors if none exists; inactive rows are zero.", "quantifier": "every pair of tables", "why_tests_cant": "all inputs", "anchors": ["src/zksql_poly_iop/final_join_one_to_many/utils.rs"]}
{"id": "C72", "title": "Group-by results contain every requested aggregate", "statement": "A successful group-by prover call returns a table containing the grouping column and one column per requested aggregate, and never panics on requested aggregates or malformed requests.", "quantifier": "every request", "why_tests_cant": "all requests", "anchors": ["src/zksql_poly_iop/group_by/group_by.rs: prove, verify"]}
{"id": "C73", "title": "Protocol provers and verifiers consume identifiers in lockstep", "statement": "For each protocol, running prove and verify from matching trackers leaves equal counters, transcripts and claim labels.", "quantifier": "every reachable pair of trackers and inputs", "why_tests_cant": "all inputs and histories", "anchors": ["src/zksql_poly_iop/*/: prove, verify"]}
{"id": "C74", "title": "Accepted batch values are bound to the proof", "statement": "For a batch opening proof of two or more values, batch_verify accepts at most one list of values with the rest of the proof fixed: values altered after the proof was made are rejected.", "quantifier": "every commitments, points, proof, transcript history and altered values", "why_tests_cant": "all alterations of all proofs", "anchors": ["src/subroutines/pcs/multilinear_kzg/batching.rs: batch_verify_internal, multi_open_internal"]}
{"id": "C75", "title": "KZG opening soundness against algebraic provers", "statement": "If a prover builds its commitment and opening proof as fixed linear combinations of the published reference string and the claimed value differs from the committed polynomial's value at the point, verify accepts for at most 2n*|F|^(n-1) of the |F|^n trapdoors.", "quantifier": "every prover coefficient choice, polynomial, point and claimed value; all trapdoors counted", "why_tests_cant": "counts over all trapdoors and adversaries", "anchors": ["src/subroutines/pcs/multilinear_kzg/mod.rs: verify_internal, commit", "src/subroutines/pcs/multilinear_kzg/srs.rs: gen_srs_for_testing"]}
{"id": "C76", "title": "Commitments of different polynomials differ", "statement": "Two different polynomials in n variables have equal commitments for at most n*|F|^(n-1) of the |F|^n trapdoors.", "quantifier": "every pair of distinct polynomials; all trapdoors counted", "why_tests_cant": "counts over all trapdoors", "anchors": ["src/subroutines/pcs/multilinear_kzg/mod.rs: commit"]}
{"id": "C77", "title": "The opening proof inside an honest compiled proof verifies", "statement": "For an honestly compiled proof, the batch opening check made by verify_claims returns true for the commitments it carries, whatever the sizes of the committed columns.", "quantifier": "every matching history with true claims, all column sizes", "why_tests_cant": "verify_claims discards the verdict, so no test can observe it", "anchors": ["src/tracker/prover_tracker.rs: compile_proof, equalize_materialized_poly_nv", "src/tracker/verifier_tracker.rs: verify_claims"]}
{"id": "C78", "title": "Left/middle/right split with multiplicities", "statement": "For two bags with ascending active rows in front, the split with multiplicities lists the values only in the first bag, in both, and only in the second, each once, together with their numbers of occurrences, and never panics.", "quantifier": "every pair of tables and selectors, all sizes", "why_tests_cant": "all inputs; the function has no test", "anchors": ["src/zksql_poly_iop/util/intermed_bag_calc.rs: bag_lmr_multiplicity_split"]}
{"id": "C79", "title": "Group-by claims bind groups, counts and sums", "statement": "Satisfied group-by claims imply that the active rows of the support list the keys of the active input rows, each once, that every count is the number of input rows with that key and that every sum is the sum of the requested column over them.", "quantifier": "every tables, requests and proofs, all but the counted exceptional challenges", "why_tests_cant": "adversarial provers; the exceptional challenges are a vanishing fraction", "anchors": ["src/zksql_poly_iop/group_by/group_by.rs: verify_with_advice"]}
{"id": "C80", "title": "Honest group-by runs succeed", "statement": "For a request whose support, multiplicities and sums are those of the input table, the prover call succeeds and returns the groups, the verifier call on its proof succeeds, and all recorded claims are true, except for boundedly many challenges.", "quantifier": "every table, request with counts and sums, sizes", "why_tests_cant": "all inputs and challenges", "anchors": ["src/zksql_poly_iop/group_by/group_by.rs: prove_with_advice, verify_with_advice"]}
{"id": "C81", "title": "Honest index-transform runs succeed", "statement": "If every active output row is a row of the source table, the prover and the verifier of the index transform succeed and all recorded claims are true, except for boundedly many challenges.", "quantifier": "every pair of tables with as many columns", "why_tests_cant": "all inputs and challenges", "anchors": ["src/zksql_poly_iop/index_transform/index_transform.rs: prove, verify"]}
{"id": "C82", "title": "Honest one-to-many joins succeed and return the join", "statement": "If every key of an active row of the second table occurs in the first, the prover of the one-to-many join succeeds and returns the rows of the second table with the matching rows of the first in front, the verifier succeeds, and all recorded claims are true, except for boundedly many challenges.", "quantifier": "every pair of tables and key columns", "why_tests_cant": "all inputs and challenges", "anchors": ["src/zksql_poly_iop/final_join_one_to_many/final_join_one_to_many.rs: prove, verify"]}
{"id": "C83", "title": "One-to-many join claims bind the result", "statement": "Satisfied one-to-many join claims imply that every active row of the result consists of a row of the first table and the row of the second table, with equal keys.", "quantifier": "every tables, key columns and proofs, all but the counted exceptional challenges", "why_tests_cant": "adversarial provers; the exceptional challenges are a vanishing fraction", "anchors": ["src/zksql_poly_iop/final_join_one_to_many/final_join_one_to_many.rs: verify"]}
{"id": "C84", "title": "Honest runs are accepted end to end", "statement": "When an honest prover commits to its columns, runs a protocol on valid data and compiles the proof, a verifier that is given the proof, takes over the commitments and runs its side of the protocol does not reject, and its final verification call returns Ok, except when a challenge is exceptional (a counted set for the protocol, the interpolation nodes for the sumcheck).", "quantifier": "every protocol of the library, every valid tables, sizes, setups, curves, oracles outside the exceptional challenges, and all starting states of two trackers in step", "why_tests_cant": "the tests run a few fixed tables with one transcript; the claim is about all data and all challenges, through commitment, aggregation, sumcheck and opening", "anchors": ["src/tracker/prover_wrapper.rs: compile_proof", "src/tracker/verifier_wrapper.rs: verify_claims", "src/zksql_poly_iop"]}
{"id": "C85", "title": "Any sequence of steps in one proof is accepted", "statement": "A caller may commit to columns, add, subtract, multiply and scale columns, join two tables (which makes new columns) and run any number of checks, in any order, with one pair of trackers. If the sizes match and every join finds its partners, the prover's side never fails and ends with columns whose contents are what the steps say. If the data of every check is valid, the one proof compiled at the end is accepted by a verifier that makes the same steps, except for a counted set of challenges.", "quantifier": "every finite sequence of commitments, arithmetic steps, one-to-many joins and checks (20 kinds), every contents and sizes of columns that match, every setup, curve and oracle outside the exceptional challenges", "why_tests_cant": "the tests run one check per proof on fixed tables; the claim is about all sequences of all lengths and about state carried between the checks", "anchors": ["src/tracker/prover_wrapper.rs: TrackedPoly, ProverTrackerRef", "src/tracker/verifier_wrapper.rs: TrackedComm, VerifierTrackerRef", "src/zksql_poly_iop"]}
{"id": "C86", "title": "An accepted sequence of steps says what its checks say", "statement": "When a verifier makes a sequence of steps - taking over commitments, adding, subtracting, multiplying and scaling columns, joining tables, and running checks - and every step succeeds and the recorded claims are true, then there are committed columns for which every check in the sequence has established what it stands for, about the columns it was applied to, whatever the prover sent. This can fail only if one of the drawn challenges is one of counted exceptional values, fixed before it is drawn. (The disjointness of sets is not established by its check, and difference and intersection establish only what does not depend on it.)", "quantifier": "every finite sequence of commitments, arithmetic steps, one-to-many joins and checks (20 kinds) with matching sizes, every proof, every choice of committed polynomials, every oracle outside the exceptional challenges", "why_tests_cant": "tests run honest provers on one check at a time; the claim is about all provers, all sequences and state carried between the checks", "anchors": ["src/tracker/verifier_wrapper.rs: TrackedComm, VerifierTrackerRef", "src/tracker/verifier_tracker.rs: VerifierTracker", "src/zksql_poly_iop"]}
{"id": "C87", "title": "Key columns of any sizes can be join-reduced", "statement": "For two key columns of any sizes and the marks that are right for them, the join reduction's prover call succeeds, the verifier call on its proof succeeds, and all recorded claims are true, except for boundedly many challenges.", "quantifier": "every pair of key columns, in particular of different sizes", "why_tests_cant": "all sizes, inputs and challenges; the existing tests use columns of equal size", "anchors": ["src/zksql_poly_iop/join_reduction/join_reduction.rs: prove, verify", "src/zksql_poly_iop/bag_disjoint/bag_disjoint.rs: prove, verify"]}
{"id": "C88", "title": "Programs with several trackers keep them apart", "statement": "Combining handles of two different trackers panics without changing any tracker; in debug builds a bag or table of handles of different trackers or sizes cannot be built; and after any interleaving of calls on any number of trackers (verifier trackers: not copied) every tracker is in a state it reaches when its own calls are made on it alone, with the same handles. A copy of a tracker starts with the contents of the original, at a new address, and changes no other tracker.", "quantifier": "every history of calls on any number of prover trackers, copies included, and of verifier trackers", "why_tests_cant": "every interleaving, number of trackers and history; tests use one or two trackers in a fixed order", "anchors": ["src/tracker/prover_wrapper.rs: TrackedPoly, same_tracker, assert_same_tracker, ProverTrackerRef", "src/tracker/verifier_wrapper.rs: TrackedComm, same_tracker, assert_same_tracker, VerifierTrackerRef", "src/tracker/bag.rs: Bag::new, Table::new"]}
{"id": "C89", "title": "A check refuses handles of another tracker", "statement": "A prover or verifier call of a check that receives a tracker succeeds only if all handles it receives belong to that tracker; in that case its outcome and its effect on that tracker do not depend on the other trackers, which it leaves as they are.", "quantifier": "every memory with any number of trackers, every tracker and handles passed to selector check, no-zeros check, multiset check, equality and sum", "why_tests_cant": "every combination of trackers and handles; tests only pass matching ones", "anchors": ["src/zksql_poly_iop/selector_valid/selector_valid.rs: prove, verify", "src/zksql_poly_iop/bag_no_zeros/mod.rs: prove, verify", "src/zksql_poly_iop/bag_multitool/bag_multitool.rs: prove, verify", "src/zksql_poly_iop/bag_eq/bag_eq.rs: prove, verify", "src/zksql_poly_iop/bag_sum/bag_sum.rs: prove, verify"]}
{"id": "C90", "title": "No proof makes the verifier panic", "statement": "Whatever proof a verifier has loaded, well formed or not, and whatever calls it has made since, verify_claims returns Ok or Err and does not panic.", "quantifier": "every proof (any lengths of its lists, any identifiers), every history of verifier calls, every transcript oracle, every setup of the commitment scheme", "why_tests_cant": "proofs come from an untrusted party and range over all shapes; tests load proofs made by the prover", "anchors": ["src/tracker/verifier_tracker.rs: verify_claims, convert_zerocheck_claims_to_sumcheck_claim", "src/subroutines/poly_iop/sum_check/mod.rs: verify", "src/subroutines/poly_iop/sum_check/verifier.rs: check_and_generate_subclaim", "src/subroutines/pcs/multilinear_kzg/batching.rs: batch_verify_internal"]}
{"id": "C91", "title": "Verifier calls never fail on an open borrow", "statement": "No call on a verifier or on one of its handles, in any history of calls on any number of verifiers and their deep copies, panics because a shared cell is already borrowed, and evaluating a handle works however deeply its definition nests. While a function given to track_virtual_comm runs, it may evaluate any handle and look up commitments and claimed sums; any other call on the same verifier, and any call that makes handles on a copy of it, panics.", "quantifier": "every history of verifier calls, every memory, every set of open shared borrows, every handle and point", "why_tests_cant": "borrow conflicts depend on which calls are open at once; every nesting of handles and every history would have to be run", "anchors": ["src/tracker/verifier_wrapper.rs: VerifierTrackerRef, TrackedComm", "src/tracker/verifier_tracker.rs: eval_virtual_comm, track_virtual_comm, transfer_proof_poly_evals, verify_claims"]}
{"id": "C92", "title": "Memory is given back with the last handle", "statement": "When a program has dropped the last handle and reference of a prover or verifier, the memory it held (tables, closures, stored answers) is released; what a live handle can reach is not.", "quantifier": "every history of prover and verifier calls, any number of trackers and deep copies, every set of handles still held", "why_tests_cant": "tests do not observe releases, and cycles of references depend on which calls were made", "anchors": ["src/tracker/verifier_tracker.rs: VerifierTracker, track_mat_comm, add_comms, sub_comms, mul_comms, add_scalar, mul_scalar, increase_nv_front, increase_nv_back", "src/tracker/verifier_wrapper.rs: VerifierTrackerRef, TrackedComm", "src/tracker/prover_tracker.rs: ProverTracker", "src/tracker/prover_wrapper.rs: ProverTrackerRef, TrackedPoly"]}
{"id": "C93", "title": "Protocols keep the trackers of a program apart", "statement": "A prover or verifier call of an inclusion, permutation, sort, support, disjointness, set, join or group-by protocol with a tracker succeeds only if every handle whose values it uses belongs to that tracker; in that case its outcome and its effect on that tracker do not depend on the other trackers, which it leaves as they are. A table returned by a cross product or a join has all its handles from one tracker.", "quantifier": "every memory with any number of trackers, every tracker, all bags, tables, columns and requests of any trackers, debug and release builds", "why_tests_cant": "every combination of trackers and handles; tests only pass matching ones", "anchors": ["src/zksql_poly_iop/bag_inclusion/bag_inclusion.rs: prove, verify", "src/zksql_poly_iop/bag_presc_perm/bag_presc_perm.rs: prove, verify", "src/zksql_poly_iop/bag_sort/bag_sort.rs: prove, verify", "src/zksql_poly_iop/bag_supp/bag_supp.rs: prove, verify", "src/zksql_poly_iop/bag_disjoint/bag_disjoint.rs: prove, verify", "src/zksql_poly_iop/join_reduction/join_reduction.rs: prove, verify", "src/zksql_poly_iop/cross_product/cross_product.rs: prover_cross_product, verifier_cross_product", "src/zksql_poly_iop/index_transform/index_transform.rs: prove, verify", "src/zksql_poly_iop/final_join_one_to_many/final_join_one_to_many.rs: prove, verify", "src/zksql_poly_iop/group_by/group_by.rs: prove_with_advice, verify_with_advice"]}
{"id": "C94", "title": "Claimed sums are fixed before the challenges that depend on them", "statement": "The challenges that verify_claims draws to fold the claims depend on the sums the proof claims: two proofs that claim different sums lead to different transcripts. So a prover has to fix the sums before it learns the challenges, and a verifier that also compared the sumcheck's final value and the opened values would accept a false bag equality only by chance.", "quantifier": "every proof, every other choice of its claimed sums, every history of verifier calls, every transcript oracle, every pair of bags of the same size", "why_tests_cant": "the statement is about all adversarial proofs; tests only use proofs made by the prover before any challenge is known", "anchors": ["src/tracker/verifier_tracker.rs: get_prover_claimed_sum, add_sumcheck_claim, convert_zerocheck_claims_to_sumcheck_claim, aggregate_sumcheck_claims, verify_claims", "src/zksql_poly_iop/bag_multitool/bag_multitool.rs: verify"]}
{"id": "C95", "title": "Verification with the final comparison is sound", "statement": "A verifier that, after verify_claims has folded the claims and checked the sumcheck proof, also compares the value the sumcheck leaves with the value of the folded polynomial at the sumcheck point (which verify_claims does not do) accepts only if every recorded zero claim and sum claim is true of the committed polynomials, except when a challenge falls into a small exceptional set: one value for each challenge that folds claims, and as many values as the larger of the degree in the proof and the degree of the folded polynomial for each round of the sumcheck. The exceptional sets are fixed before the challenge is drawn, given the recorded claims. For a whole sequence of protocol checks this means that each check has established what it is meant to establish about the committed columns.", "quantifier": "every history of verifier calls, every compiled proof (adversarial or not), every transcript oracle, every family of multilinear polynomials behind the commitments, every sequence of protocol checks", "why_tests_cant": "soundness is a statement about all adversarial proofs and about sets of challenges; a test shows one proof with one set of challenges", "anchors": ["src/tracker/verifier_tracker.rs: verify_claims, convert_zerocheck_claims_to_sumcheck_claim, aggregate_sumcheck_claims, eval_virtual_comm", "src/subroutines/poly_iop/sum_check/mod.rs: verify, check_and_generate_subclaim"]}
{"id": "C96", "title": "Honest proofs pass the final comparison", "statement": "Let a prover run any history with true claims and compile a proof, and let the verifier load the proof and follow the history. Then the value that the sumcheck in the proof leaves to be checked equals the value, at the sumcheck point, of the folded polynomial computed from the committed columns, unless a sumcheck challenge is an interpolation node. In other words, a verifier that adds the comparison which verify_claims leaves out still accepts honest proofs, in debug and in release builds, whatever the degree of the claims and the sizes of the columns.", "quantifier": "every history of prover calls with true claims, every commitment scheme and transcript oracle, both kinds of build, columns of any sizes", "why_tests_cant": "no code makes the comparison, so no test exercises it; whether the proof is about the claimed polynomial or about another one with the same values on the hypercube is visible only off the hypercube", "anchors": ["src/tracker/prover_tracker.rs: compile_proof, equalize_materialized_poly_nv, evaluations, materialize_poly", "src/tracker/verifier_tracker.rs: verify_claims, eval_virtual_comm"]}
{"id": "C97", "title": "Answers do not depend on how work is shared between threads", "statement": "Fixing variables of a table, evaluating it, building the table of eq, proving by sumcheck or zerocheck, and verifying such a proof give the same answer however the parallel loops are divided among threads and in whatever order the pieces run: the same tables, the same prover messages and transcript, the same subclaim, the same rejection. In particular verify_claims accepts a proof in every run or in none.", "quantifier": "every table, polynomial, proof, transcript and oracle, every division of each parallel loop into pieces and every order in which the pieces finish", "why_tests_cant": "the schedule is chosen by the thread pool at run time; a test sees a few schedules on one machine and cannot show that no other one gives a different answer", "anchors": ["src/arithmetic/multilinear_polynomial.rs: fix_variables, fix_last_variables, evaluate_opt", "src/arithmetic/virtual_polynomial.rs: build_eq_x_r", "src/subroutines/poly_iop/sum_check/prover.rs: prove_round_and_update_state", "src/subroutines/poly_iop/sum_check/verifier.rs: check_and_generate_subclaim", "src/tracker/verifier_tracker.rs: verify_claims"]}
{"id": "C98", "title": "Proofs do not tell the columns apart", "statement": "Two sessions that make the same calls, except for the entries of the columns they commit to, and whose claims are true give proofs that a reader cannot tell apart. Proving uses no randomness of its own, so this means equal proofs. In particular a proof does not let its reader test a guess of a committed column.", "quantifier": "every pair of histories of the handle API that differ only in the entries of committed columns, every scheme parameter and oracle", "why_tests_cant": "it compares the proofs of all pairs of databases; a test that a proof verifies says nothing about what it gives away", "anchors": ["src/tracker/prover_tracker.rs: track_and_commit_mat_poly, compile_proof", "src/tracker/tracker_structs.rs: CompiledZKSQLProof", "src/subroutines/pcs/multilinear_kzg/mod.rs: commit"]}
{"id": "C99", "title": "After an accepted proof both trackers are in the same state", "statement": "Whenever compile_proof returns a proof and the verifier, having made the matching calls, accepts it in verify_claims, both trackers hold the same: equal identifier counters, equal transcripts, the same commitments under the same identifiers, and the same claims in the same order with the same values. So later challenges and identifiers agree too.", "quantifier": "every history of the handle API, every protocol and every program of steps, with columns of any sizes; every oracle and scheme parameter; debug and release builds", "why_tests_cant": "each protocol test asserts equal counters and claims at its end for one table; this is about every history and every table, and includes the transcript", "anchors": ["src/tracker/prover_tracker.rs: compile_proof, equalize_materialized_poly_nv", "src/tracker/verifier_tracker.rs: verify_claims, get_next_id", "src/zksql_poly_iop/bag_multitool/test.rs", "src/zksql_poly_iop/cross_product/test.rs"]}
{"id": "C100", "title": "A session can go on after an accepted proof", "statement": "The same pair of trackers can be used for several proofs. After compile_proof and an accepting verify_claims the prover makes further calls and compiles another proof, which carries all claims so far. The verifier loads it, makes the matching calls and calls verify_claims again. If everything claimed is true, every one of these proofs is compiled and accepted.", "quantifier": "every number of rounds; every history of the handle API in each round, with two commitments and claims of bounded degree; every oracle whose answers in the two sumchecks are not interpolation nodes; every scheme parameter; debug and release builds", "why_tests_cant": "tests compile one proof and stop; this is about any number of proofs over the accumulated claims", "anchors": ["src/tracker/prover_tracker.rs: compile_proof, equalize_materialized_poly_nv", "src/tracker/verifier_tracker.rs: set_compiled_proof, verify_claims, get_prover_claimed_sum"]}
{"id": "C101", "title": "Compiling a proof does not change what a handle reads", "statement": "After compile_proof, evaluations() on a handle made before returns the table it returned before.", "quantifier": "every history of the handle API, every handle in it, every compiled proof; debug and release builds", "why_tests_cant": "no test reads a handle after compile_proof; this is about every handle of every history", "anchors": ["src/tracker/prover_tracker.rs: compile_proof, equalize_materialized_poly_nv, evaluations", "src/tracker/prover_wrapper.rs: TrackedPoly::evaluations"]}
{"id": "C102", "title": "Results do not depend on hash map order or addresses", "statement": "Running the same calls twice gives the same handles, the same values, the same proof and the same verdict, although the hash maps of the trackers and of the proof are visited in another order in every run of the program and the tables are at other addresses. Two proofs are the same when their maps have the same entries and everything else is equal. The same holds for every protocol on bags and tables, for programs of such protocols, and for the advice they compute from maps of counts.", "quantifier": "every history of prover calls and of verifier calls and every program of protocols; every order of every map and every placement of the tables, changing before every call or step and between the statements of compile_proof and verify_claims; every oracle, scheme and build mode", "why_tests_cant": "a test run sees one seed of the hash function and one placement of the tables; reproducibility is about all of them", "anchors": ["src/tracker/prover_tracker.rs: equalize_materialized_poly_nv, compile_proof", "src/tracker/verifier_tracker.rs: transfer_proof_poly_evals, verify_claims", "src/arithmetic/virtual_polynomial.rs: raw_pointers_lookup_table, add_mle_list", "src/zksql_poly_iop/bag_disjoint/utils.rs", "src/zksql_poly_iop/bag_inclusion/utils.rs", "src/zksql_poly_iop/final_join_one_to_many/utils.rs"]}
{"id": "C103", "title": "A call that fails halfway loses and changes nothing that was there", "statement": "Whatever calls are made on a prover or a verifier, with whatever arguments, and wherever inside a call it fails, with a returned error or a panic: every column whose size or table could be read is read with the same result afterwards, every verifier handle that could be evaluated at a point keeps its value, commitments stay, recorded claims and transcript messages stay in order before everything new, the loaded proof stays, and an identifier that was handed out is not handed out again.", "quantifier": "every history of calls of the handle operations, claims, messages, checks, joins, cross products, splits and advice functions, with any handles, and every way in which any of them fails", "why_tests_cant": "failures can happen after any step of any protocol, so the states in which a call stops cannot be enumerated", "anchors": ["src/tracker/prover_tracker.rs: ProverTracker::{track_mat_poly, track_and_commit_mat_poly, materialize_poly, increase_nv_front, add_sub_polys, mul_polys}", "src/tracker/verifier_tracker.rs: VerifierTracker", "src/zksql_poly_iop: all prove and verify functions"]}
{"id": "C104", "title": "A refused call leaves no trace", "statement": "A call of the prover that returns an error leaves the session as it was: no identifier is used, nothing is tracked, committed to, claimed or sent, so that prover and verifier can skip the refused call and go on.", "quantifier": "every history and every call of the prover that returns an error", "why_tests_cant": "it is about the state after every failing call in every history; tests look at results of calls that succeed", "anchors": ["src/zksql_poly_iop/bag_inclusion/bag_inclusion.rs: BagInclusionIOP::prove_with_advice", "src/zksql_poly_iop/bag_multitool/bag_multitool.rs: BagMultitoolIOP::prove", "src/zksql_poly_iop/bag_eq/bag_eq.rs: BagEqIOP::prove", "src/tracker/prover_tracker.rs: track_and_commit_mat_poly"]}
{"id": "C105", "title": "Every part of a proof counts", "statement": "A verifier that accepts a proof refuses every other proof with the same commitments and claimed sums: no part of an accepted proof can be altered without verify_claims noticing. An accepted proof is complete: it has a round message of degree+1 values for every variable, an opening proof, and commitments only under identifiers the verifier has taken.", "quantifier": "every program and every verifier session, every accepted proof, every alteration", "why_tests_cant": "tests alter a proof in a few places; the claim is about all alterations of all proofs in all sessions", "anchors": ["src/tracker/verifier_tracker.rs: verify_claims", "src/tracker/verifier_tracker.rs: transfer_proof_poly_evals", "src/tracker/tracker_structs.rs: CompiledZKSQLProof", "src/subroutines/poly_iop/sum_check/mod.rs: SumCheck::verify"]}
{"id": "C106", "title": "Debug and release builds agree", "statement": "Whether the library is compiled with debug assertions makes no difference to correct use. A program that a debug build runs is run by a release build, with the same returned handles, commitments, challenges, claims and tables, so debug builds only refuse more. The verifier does exactly the same in both builds, so a proof made by either build is accepted by both or by neither. The two builds compile the same proof.", "quantifier": "every program of commitments, polynomial operations, claims and sub-protocols, every oracle, commitment scheme and field, every proof", "why_tests_cant": "tests run in one build profile, and a difference between the profiles shows only in programs nobody ran twice", "anchors": ["src/tracker/prover_tracker.rs: compile_proof", "src/zksql_poly_iop/bag_sort/bag_sort.rs: prove", "src/zksql_poly_iop/final_join_one_to_many/final_join_one_to_many.rs: prove", "src/zksql_poly_iop/final_join_one_to_many/utils.rs", "src/tracker/bag.rs: Bag::new, BagComm::new", "src/tracker/verifier_wrapper.rs: transfer_prover_comm"]}
{"id": "C107", "title": "The size of a proof is counted from the calls of the session and says nothing of the data", "statement": "When a prover session compiles into a proof, the number of rounds of its sumcheck is the number of variables of the largest polynomial handle of the session. Each round message has one value more than the degree. In a release build the degree is one more than the largest degree (tables 1, sums the larger, products the sum) among the handles claimed to be zero of which no sum is claimed; in a debug build it is 1. The proof holds exactly the commitments that were not refused, one opening query for each of them at the sumcheck point, one batch opening, and one claimed sum for each handle with a claimed sum plus one for all zero claims together. With the KZG scheme the batch opening has one round of three values and one group element per variable and one value per commitment. So two sessions of the same calls on tables of the same sizes give proofs of the same size, whatever the values, scalars, claimed sums, labels, commitment function and oracle.", "quantifier": "every sequence of prover calls, every commitment function, oracle and opening scheme, both builds, every size of table and every number of calls", "why_tests_cant": "A test measures the proof of one session; that the size follows a formula in the calls, and does not depend on the data, is a statement about all sessions and all pairs of sessions.", "anchors": ["src/tracker/prover_tracker.rs: compile_proof, convert_zerocheck_claims_to_sumcheck_claim, equalize_materialized_poly_nv", "src/tracker/tracker_structs.rs: CompiledZKSQLProof", "src/subroutines/pcs/multilinear_kzg/batching.rs: multi_open_internal"]}
{"id": "C108", "title": "A refused proof leaves the verifier as it was, so that the next proof gets the verdict it deserves", "statement": "After verify_claims has refused a proof, another proof for the same commitments and claims can be loaded into the same verifier with set_compiled_proof, and verify_claims then gives the verdict it would have given had that proof been loaded first. Calling verify_claims a second time on the same proof gives the same verdict as the first time; in particular an accepted proof stays accepted and a refused proof stays refused.", "quantifier": "every program of verifier calls, every pair of proofs with the same commitments and claimed sums, every opening scheme and oracle, every way in which the first verification ends", "why_tests_cant": "Every test calls verify_claims once per verifier; what it leaves behind on each of its failure paths, and what that means for any later proof, is a statement about all histories.", "anchors": ["src/tracker/verifier_tracker.rs: verify_claims, convert_zerocheck_claims_to_sumcheck_claim, set_compiled_proof", "src/tracker/verifier_wrapper.rs: VerifierTrackerRef::verify_claims, set_compiled_proof", "src/subroutines/poly_iop/sum_check/mod.rs: verify", "src/subroutines/pcs/multilinear_kzg/batching.rs: batch_verify_internal"]}
{"id": "C109", "title": "The library's own prover cannot make a false statement pass", "statement": "If the prover's own code (commit to columns, run the checks, compile_proof) is run on data for which one of the checks is false, no accepted proof comes out of it. With debug assertions compile_proof itself returns InvalidProver when something claimed to vanish does not. Without them it may return a proof, but a verifier that takes over the commitments, runs its side of the same checks and calls verify_claims does not accept that proof. The only exceptions are a few values of the challenges, counted in advance: one for each challenge that folds the claims, and for the challenges drawn by the checks the numbers of C86. This holds although a proof made by other code can pass for a false statement (C45, C46).", "quantifier": "every data set, every program of checks and arithmetic, every opening scheme, every oracle, debug and release builds", "why_tests_cant": "Tests run the prover on a few false inputs with one hash function; that no false input gets through, and for how few challenges it could, is a statement about all data and all oracles.", "anchors": ["src/tracker/prover_tracker.rs: compile_proof, convert_zerocheck_claims_to_sumcheck_claim, equalize_mat_poly_nv", "src/tracker/verifier_tracker.rs: verify_claims", "src/subroutines/poly_iop/sum_check/mod.rs: prove, verify, check_and_generate_subclaim"]}
{"id": "C110", "title": "The kind of a returned error names the side and the step at fault", "statement": "An error returned by a call tells what went wrong. Calls of the prover return only InvalidParameters, the error of the commitment scheme's commit, or InvalidTranscript when a challenge is drawn before anything was absorbed; compile_proof returns only InvalidProver. Calls of the verifier, verify_claims included, never return InvalidProver. In verify_claims the kind tells the step that failed.", "quantifier": "every call of the prover and of the verifier with any arguments, every state of the tracker it is made in, every proof, opening scheme and oracle", "why_tests_cant": "Tests look at is_ok or unwrap; which kinds a call can return, over all arguments, states and malformed proofs, is a statement about every failure path.", "anchors": ["src/tracker/prover_tracker.rs: compile_proof", "src/tracker/verifier_tracker.rs: verify_claims", "src/subroutines/pcs/multilinear_kzg/batching.rs: batch_verify_internal", "src/subroutines/poly_iop/sum_check/verifier.rs: verify_round_and_update_state, check_and_generate_subclaim", "src/zksql_poly_iop/bag_multitool/bag_multitool.rs: prove, verify", "src/tracker/errors.rs: PolyIOPErrors", "src/transcript/mod.rs: get_and_append_challenge"]}
{"id": "C111", "title": "The probability that a false statement passes", "statement": "Let the challenges of a session be independent uniform field elements. (1) For a prover that is not trusted and answers the challenges as they come, the probability that the verifier's side of a program of checks succeeds with true claims, although some check has not established what it is meant to establish, is at most the sum of the numbers of exceptional values of the program's challenges divided by the size of the field. A proof prepared in advance is such a prover. (2) For a whole session in which the final value of the sumcheck is also compared (C95), the same holds with one more for each challenge that folds the claims and the degree for each round of the sumcheck. (3) For the library's own prover run on arbitrary data, the probability that it makes a proof, the verifier accepts it and the statement is false of the committed polynomials is at most the sum of the program's bounds and one for each folding challenge, divided by the size of the field.", "quantifier": "every program of checks, every data, every untrusted prover that answers challenges as they come, every finite field and every number of challenges", "why_tests_cant": "A probability over all sequences of challenges is a count over |F|^M runs; tests see single runs and cannot bound how many of the others fail.", "anchors": ["src/transcript/mod.rs: get_and_append_challenge, get_and_append_challenge_vectors", "src/tracker/prover_tracker.rs: compile_proof, convert_zerocheck_claims_to_sumcheck_claim", "src/tracker/verifier_tracker.rs: verify_claims", "src/zksql_poly_iop: prove, verify of every check"]}
{"id": "C112", "title": "What a check costs is fixed by the check", "statement": "Every successful run of a check adds to the session the same number of commitments, of challenges, of claims that a handle vanishes and of claimed sums, on the prover's and on the verifier's side. The numbers depend only on the kind of check (for the multiset check on the number of bags, for the group-by on the number of sums asked for, for the join on the number of columns of the first table), not on the data, the sizes of the columns, the commitment scheme, the proof or the challenges. So the number of commitments in a proof, and the number of challenges and of claims in the probability bounds of C111, can be read off the program.", "quantifier": "every check and every program of checks, every data, every proof, every oracle, every state of the trackers in which identifiers are given out in order", "why_tests_cant": "The costs seen in tests are those of the inputs tested; that no input, selector pattern or proof makes a check add or skip a claim needs every run.", "anchors": ["src/zksql_poly_iop: prove, verify of every check", "src/tracker/prover_tracker.rs: track_and_commit_mat_poly, add_sumcheck_claim, add_zerocheck_claim, get_and_append_challenge, compile_proof", "src/tracker/verifier_tracker.rs: transfer_prover_comm, add_sumcheck_claim, add_zerocheck_claim, get_and_append_challenge"]}
{"id": "C113", "title": "The degree of what a program claims is fixed by the program", "statement": "After every successful run of the verifier's side of a program, the claims it has recorded, about vanishing handles and about sums, have at most the degree given by a table: a number computed from the kinds of the checks, the numbers of columns of the tables and the way the columns were built, not from the proof, the data or the challenges. A check of a table by an index transform, and so a join, multiplies the columns of the table with each other, so its degree grows with the number of columns. Together with C111 and C112, for a proof prepared in advance the probability that a false statement is accepted is bounded by numbers read off the program, the number of variables and the degree written in the proof.", "quantifier": "every check and every program whose steps name existing columns of matching sizes, every proof, every oracle, every well-formed state of the verifier", "why_tests_cant": "The degree bounds the probability that the sumcheck accepts a false claim; a test sees the degree of the inputs tested, not that no proof and no program of a given form makes the verifier claim more.", "anchors": ["src/zksql_poly_iop: verify of every check", "src/zksql_poly_iop/index_transform/index_transform.rs: verify", "src/tracker/verifier_tracker.rs: mul_comms, add_comms, add_zerocheck_claim, add_sumcheck_claim"]}
{"id": "C114", "title": "Whether a proof can be compiled is known from the program", "statement": "For a program of column operations and checks, whether its proof can be compiled with given parameters is a condition on the program and the sizes of its columns: no table the steps make the prover build is larger than the parameters allow, the largest size is really reached, there are at least two commitments, and the degree table of the program stays within the degree supported. If it holds, then whenever the prover's side runs through, whatever the data, the challenges and the commitment scheme, the tracker it ends in satisfies everything compile_proof needs. So for such programs valid data is accepted from scratch, and the library's own prover makes a false statement pass only with the probability given by the program, with no condition left on the prover's internal state.", "quantifier": "every program, every list of columns, every data in them, every oracle, every commitment scheme that can commit to tables of that size", "why_tests_cant": "A test shows that one proof could be compiled; it does not show that no data and no challenge makes the same program end in a state whose proof cannot be compiled or is not accepted.", "anchors": ["src/tracker/prover_tracker.rs: compile_proof, track_mat_poly, track_and_commit_mat_poly, get_mat_poly", "src/zksql_poly_iop: prove of every check", "src/zksql_poly_iop/bag_disjoint/bag_disjoint.rs: prove", "src/zksql_poly_iop/final_join_one_to_many/final_join_one_to_many.rs: prove"]}
{"id": "C115", "title": "Rows that are switched off do not matter", "statement": "A row whose selector is zero is not in the bag or table. So whatever values stand in such rows, a check says the same about the data: an honest prover needs the same of the data, what an accepted check says is the same, the columns produced by a join are the same, and a session on columns whose switched-off rows have been filled with anything is accepted whenever the original data is valid.", "quantifier": "every check, every program, every data, every content of the rows that are switched off, every oracle", "why_tests_cant": "Tests fill the inactive rows with a few chosen values, mostly zeros or the padding the library produces; the property is about all contents of these rows and all challenges.", "anchors": ["src/zksql_poly_iop/bag_sort/bag_sort.rs: prove, verify", "src/zksql_poly_iop/bag_multitool/bag_multitool.rs: prove", "src/zksql_poly_iop/final_join_one_to_many/final_join_one_to_many.rs: prove", "src/zksql_poly_iop/bag_no_zeros/mod.rs: prove", "src/tracker/prover_tracker.rs: compile_proof"]}
{"id": "C116", "title": "A bag is its active values", "statement": "A bag is the multiset of its active values and a table the multiset of its active rows. So the order of the rows, the padding and the number of rows in which a bag is stored do not matter: if bags and tables are stored in another way, an honest prover needs the same of them, what an accepted check says of them is the same, and a session on them is accepted whenever the original data is valid.", "quantifier": "every check, every program, every data, every other way to store the same bags and tables, every oracle", "why_tests_cant": "Tests store each bag in one way; the property compares all orders, all paddings and all sizes, for all data and all challenges.", "anchors": ["src/zksql_poly_iop/bag_eq/bag_eq.rs: prove", "src/zksql_poly_iop/bag_inclusion/bag_inclusion.rs: prove", "src/zksql_poly_iop/set_disjoint/set_disjoint.rs: prove", "src/zksql_poly_iop/bag_no_zeros/mod.rs: prove", "src/tracker/prover_tracker.rs: compile_proof"]}
{"id": "C117", "title": "The order of checks does not matter", "statement": "A session is a set of checks about some columns. Making the checks in another order, between other steps, or several times needs the same of the data, can be compiled into a proof with the same parameters, and is accepted whenever the original data is valid; and what an accepted session says does not depend on the order of checks that follow each other, nor on repetitions.", "quantifier": "every two programs that make the same columns in the same order and whose checks are the same set, every data, every oracle, every proof", "why_tests_cant": "Tests make each check in one session and in one place. Orders, interleavings and repetitions are unbounded, and each changes all identifiers and challenges after it.", "anchors": ["src/tracker/prover_tracker.rs: compile_proof, add_zerocheck_claim, add_sumcheck_claim", "src/tracker/verifier_tracker.rs: verify_claims", "src/zksql_poly_iop/bag_multitool/bag_multitool.rs: prove, verify"]}
{"id": "C118", "title": "What can be proved is what is meant", "statement": "Completeness and soundness are about the same statement. For every check, data with which an honest prover succeeds satisfies what an accepted check says. For the checks of multisets, equality, sums, inclusion, zeros, selectors, permutations and order the converse holds too: columns that satisfy what the verifier may conclude are all an honest prover needs, so a session of such checks about such columns is accepted.", "quantifier": "every check, every data, every session of the named checks, every oracle", "why_tests_cant": "A test shows that some good data passes and that some bad data does not. That the two sides of a check, written separately for prover and verifier, agree on which data is good has to be shown for all data.", "anchors": ["src/zksql_poly_iop/bag_sort/bag_sort.rs: prove, verify", "src/zksql_poly_iop/bag_presc_perm/bag_presc_perm.rs: prove, verify", "src/zksql_poly_iop/bag_inclusion/bag_inclusion.rs: prove, verify", "src/zksql_poly_iop/bag_eq/bag_eq.rs: prove, verify"]}
{"id": "C119", "title": "Where the columns are, and which others there are, does not matter", "statement": "A check is about the columns it names and nothing else. If some checks can be made, compiled and are valid for some committed columns, then the same checks, of the same columns committed in another order, between other columns of any sizes the parameters allow, are accepted as well, with the same numbers of exceptional challenges. An accepted session says of the columns at their new places what the checks say.", "quantifier": "every list of checks, every two lists of committed columns one of which is contained in the other at any places, every oracle, any prover for soundness", "why_tests_cant": "Identifiers are given out in order, so moving or adding a column changes all identifiers of the session, the transcript, the order of openings and possibly the size everything is padded to; tests fix a layout.", "anchors": ["src/tracker/prover_tracker.rs: track_mat_poly, compile_proof", "src/tracker/verifier_wrapper.rs: transfer_prover_comm", "src/tracker/verifier_tracker.rs: verify_claims", "src/tracker/bag.rs: Bag, BagComm"]}
{"id": "C120", "title": "How a column was made does not matter", "statement": "A check asks about the contents of columns, not about how they came to be. Two programs that check the same of columns with the same contents need the same of the data and say the same of it, whether the columns were committed to, computed from others by sums, products and constants, or made by a join, and wherever they are. So if the data is valid for one program, a session with the other is accepted, provided a proof can be compiled for it.", "quantifier": "every two programs with corresponding checks and contents, every data, every oracle, any prover for soundness", "why_tests_cant": "The expression behind a column is unbounded in depth and shape, and prover and verifier keep it in different forms (tables and products on one side, nested closures on the other). Tests use a few expressions.", "anchors": ["src/tracker/prover_tracker.rs: add_polys, sub_polys, mul_polys, add_scalar, mul_scalar", "src/tracker/verifier_tracker.rs: add_comms, sub_comms, mul_comms, add_scalar, mul_scalar"]}
{"id": "C121", "title": "Two sessions can be proved with one proof", "statement": "Take two sessions, each with its committed columns and its checks, for which proofs can be compiled and whose data is valid. Then the session that commits to the columns of both and makes the checks of both is accepted with one proof, and its exceptional challenges are counted by the two sessions. Conversely an accepted proof for both says what each session says of its own columns, so that nothing is lost by sharing a proof.", "quantifier": "every two lists of columns of any sizes, every two lists of checks, every oracle, any prover for soundness", "why_tests_cant": "In the shared proof all claims of both sessions are padded to one size and folded into one sumcheck with shared challenges; that no claim of one session can make up for a false claim of the other has to be shown for all pairs of sessions and all provers.", "anchors": ["src/tracker/prover_tracker.rs: compile_proof", "src/tracker/verifier_tracker.rs: verify_claims"]}
