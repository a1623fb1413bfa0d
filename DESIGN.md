# Formal model of ssolit/zksql in Lean 4

The model lives in `lean/Verif`. `Model/*` holds definitions that mirror the Rust code function by
function, each with the file and lines it models. `Spec/*` holds small independent specifications. `Lemmas/*`
holds helper lemmas. `Props/*` holds the property theorems, each followed by an `example` showing that its
hypotheses are met by a concrete case.

## Modelling conventions

* Scalars: an arbitrary `F` with `[Field F] [DecidableEq F]`; `ZMod p` for witnesses. The prime field of the
  pairing curve is one instance. Hypotheses about the characteristic are explicit.
* Failure: `Except Fail α`, where `Fail` is `panic` (Rust panic: `unwrap`, index out of bounds, division by
  zero, arithmetic underflow, `assert`) or `err` (a returned `Err`). No totalised default stands in for a panic unless the
  definition's comment says why it is unreachable.
* `&mut self` methods return the new state; when a Rust method can fail after mutating, the model returns the mutated state with
  the error.
* Hash maps are association lists with `get?`, `insert`, `erase`; iteration order is only used where the code
  sorts keys or where the result does not depend on it.
* Fiat-Shamir: the transcript is the ordered list of labelled absorbed messages; the challenge is an arbitrary
  function (`oracle` parameter) of that list.
* Pairing groups: modules over `F` with a bilinear pairing; no hardness assumption is used.
* Randomness is a tape parameter.
* Several trackers: `Model/Memory` has any number of trackers and the address behind each handle. The other files have one tracker; C88, C89
  and C93 say when that is enough.
* Borrows: `RefCell` borrows are modelled in `Model/Guards` only; C91 says that the other files may leave them out. Functions given to
  `track_virtual_comm` are functions of the point in the other files; `Model/Guards` says which borrows are open while they run.
* Machine integers: `Nat`, except in `interpolate_uni_poly`, where `u64/i64/u128/i128` overflow is an explicit panic.

## Trusted base

Lean 4.33.0 kernel; axioms `propext`, `Classical.choice`, `Quot.sound` only. The correspondence of the model to the Rust
source is by reading (citations at each definition). External crates are modelled by their documented behaviour:
arkworks `DenseMultilinearExtension` (`from_evaluations_vec` panics on a wrong length, `evaluate` returns `None` on a wrong point
length), `batch_inversion` (zeros stay zero), field division (panics on zero), `merlin` (an arbitrary deterministic function of
the history), multi-scalar multiplication and multi-pairing (mathematical definition), rayon (what its adaptors do is in `Model/Schedule`; the other files use the result for one thread,
see C97).

Not modelled: serialization bytes, timers, printing, memory other than shared cells and borrows (`Model/Memory`, `Model/Guards`), performance, the univariate/other unused HyperPlonk
pieces, test code, `pcs_accumulator.rs` (entirely commented out).

## Plan per property

| id | property | modelled as / proved by |
|---|---|---|
| C01 | Bit decomposition and projection are inverse | Model/Bits: bitDecompose, project as list recursions; induction on the bit list. |
| C02 | Index shift used by product trees | Model/Bits: getIndex; via C01 arithmetic; n = 0 is an explicit panic. |
| C03 | Evaluating a dense multilinear extension is the eq-weighted sum of its table | Model/Mle: fixOne/fixVariables/evaluateOpt as index maps; spec is an independent eq-weighted sum over indices; induction on the point. |
| C04 | Partial evaluation fixes the leading variables | Model/Mle: fixVariables; induction on the partial point. |
| C05 | Partial evaluation of trailing variables | Model/Mle: fixLastVariables; induction on the reversed partial point. |
| C06 | Serial and parallel builds compute the same partial evaluation | Model/Mle: both cfg branches of fix_one_variable_helper; the serial branch is wrong, so negation with witness plus _partial (first entry / nv = 1). |
| C07 | Merged polynomial opens to its parts | Model/Mle: mergePolynomials, genEvalPoint, getBatchedNv. |
| C08 | Random polynomial lists report their true sum | Model/Mle: random tape is a function Nat -> F; fold over hypercube rows. |
| C09 | Random permutation is a permutation | Model/Mle: random tape Nat -> Nat; List.Perm by induction on the remaining pool. |
| C10 | Virtual polynomial arithmetic means what it says | Model/VirtualPoly: pointer-deduplicated store; invariant (lookup table is correct) and evaluation equation per operation, then induction on an operation list. |
| C11 | Virtual polynomial degree and index bookkeeping | Model/VirtualPoly: invariant over operation lists. |
| C12 | A failed add_mle_list leaves the polynomial unchanged | Model/VirtualPoly: addMleList returns the mutated state on error; negation with witness and _partial (empty list; mul_by_mle). |
| C13 | Materialising a virtual polynomial preserves its hypercube values | Model/VirtualPoly: materialize against evaluate at the Boolean point. |
| C14 | The eq table and the eq evaluation agree | Model/VirtualPoly: buildEqVec, eqEval; induction on r. |
| C15 | build_f_hat multiplies by eq | Model/VirtualPoly: buildFHat; from C10, C14. |
| C16 | Sumcheck completeness | Model/SumCheck: prover/verifier with a transcript; induction over rounds, from C19 and C21. |
| C17 | Sumcheck soundness | Model/SumCheck: adaptive strategies as functions from challenge prefixes to messages; counting over Fin n -> F (Fintype) by induction on n; deterministic root form for Fiat-Shamir. |
| C18 | Sumcheck verifier rejects malformed proofs | Model/SumCheck: checkAndGenerateSubclaim; explicit error branches. |
| C19 | Round-message interpolation is Lagrange interpolation | Model/SumCheck: the three integer branches with explicit overflow checks; compare with Mathlib Polynomial uniqueness (Lagrange). |
| C20 | Round-message interpolation is total | Division by zero is an explicit panic in the model; negation with witness; C19 is the partial. |
| C21 | Honest round messages are the partial sums | Model/SumCheck: proveRound; extrapolation equals polynomial evaluation through Lagrange uniqueness. |
| C22 | Sumcheck prover state machine | Model/SumCheck: prover state machine. |
| C23 | Sumcheck prover and verifier derive the same challenges | Model/SumCheck + Model/Transcript: lockstep induction over rounds. |
| C24 | Zerocheck completeness | Model/ZeroCheck: from C15, C16. |
| C25 | Zerocheck soundness | Model/ZeroCheck: multilinear Schwartz-Zippel counting by induction on n. |
| C26 | Transcript discipline | Model/Transcript: history list with a hash oracle parameter; operations only extend the history. |
| C27 | KZG opening completeness | Model/Kzg: groups are modules over F, pairing is bilinear; induction over rounds. |
| C28 | A KZG proof opens to one value only | Model/Kzg: non-degenerate pairing on (g,h). |
| C29 | Reference string consistency under trim | Model/Kzg: genSrs as in the code (suffix products, remove_dummy_variable) and trim. |
| C30 | Commitments and openings reject bad shapes | Model/Kzg: error branches. |
| C31 | Batch opening completeness | Model/Batching: k = 1 errors (negation) and _partial for k >= 2. |
| C32 | Batch verification is bound to the verified sumcheck point | Model/Batching: violated, witness; _partial for proofs whose point is the derived one. |
| C33 | Tracker identifiers are never reused | Model/ProverTracker, Model/VerifierTracker: counter invariant over operation lists. |
| C34 | Virtual polynomials refer only to materialised polynomials | Model/ProverTracker: invariant over operation lists. |
| C35 | Tracked arithmetic is pointwise on the hypercube | Model/ProverTracker: hypercube semantics; refinement to pointwise functions over operation lists. |
| C36 | Tracked arithmetic is pointwise at arbitrary field points | Model/ProverTracker: evaluate. |
| C37 | Reading evaluations does not change a polynomial | Model/ProverTracker: violated for products, witness; _partial (Boolean points / material handles). |
| C38 | Increasing the number of variables | Model/ProverTracker: increaseNvFront/Back on tables. |
| C39 | Conversion to the sumcheck polynomial is faithful | Model/ProverTracker: toArith against evaluate. |
| C40 | A refused commitment leaves the tracker untouched | Model/ProverTracker: trackAndCommit returns state on error. |
| C41 | Prover and verifier identifiers stay in lockstep | Paired operation language run on both trackers; lockstep invariant. |
| C42 | Verifier evaluates virtual commitments like the prover | Simulation between prover evaluate and verifier closures; increase_nv_back violated (witness), _partial for the rest. |
| C43 | Equalising sizes preserves claims up to a power of two | Model/ProverTracker: equalize. |
| C44 | Claim aggregation is complete and sound | Folded claims; completeness and counting. |
| C45 | Verification binds the final evaluation | Violated: verifyClaims accepts a false claim (witness). |
| C46 | Verification rejects a failing opening proof | Violated: Ok(false) is ignored (witness). |
| C47 | The compiled proof carries the committed evaluations | Violated: query map is all zeros (witness), _partial: its key set is right. |
| C48 | Commitment handles compare by identity | Violated for commitments; proved for polynomials. |
| C49 | Deep copies are isolated | Shared heap model for Rc; violated for verifiers, proved for provers. |
| C50 | An honest compiled proof is accepted | End-to-end composition of C41, C43, C44, C16, C31. |
| C51 | Any number of committed columns can be proved | Violated for one commitment (witness); _partial for two or more. |
| C52 | Multiset check: completeness | Model/Iop: multitool claims as semantic statements over committed tables. |
| C53 | Multiset check: soundness | Log-derivative identity; rational-function argument with polynomials; count of bad gamma. |
| C54 | Multiset check rejects malformed inputs | Model/Iop: shape checks. |
| C55 | Bag equality | From C52/C53. |
| C56 | Bag sum | From C52/C53. |
| C57 | Bag inclusion | From C52/C53 and C58. |
| C58 | Inclusion advice is correct | Model/Advice: calcInclusionAdvice. |
| C59 | No-zeros check | Model/Iop: claim algebra. |
| C60 | Selector validity | Model/Iop: claim algebra. |
| C61 | Prescribed permutation check | Model/Iop: from bag equality on f + gamma-combined pairs. |
| C62 | Strict sort check | Model/Iop: from C57, C59, C61; field wrap-around is stated explicitly. |
| C63 | Support check | Model/Iop: from C57, C59, C62. |
| C64 | Support advice is correct | Model/Advice: calcSuppAdvice. |
| C65 | Disjointness checks | Model/Iop. |
| C66 | Set difference, union and intersection | Model/Iop. |
| C67 | Left/middle/right split | Model/Advice: lmrSplit; violated for unsorted input (witness), _partial for sorted input. |
| C68 | Cross product | Model/Iop: crossProduct. |
| C69 | Join reduction selectors | Model/Advice and Model/Iop: joinReduction. |
| C70 | Index transform binds rows | Model/Tables: IndexTransform.verify with the soundness relation; violated (rows are multiplied, witness with swapped columns); _partial: row products match; full claim for one column. |
| C71 | One-to-many join advice | Model/Advice: finalJoin. |
| C72 | Group-by results contain every requested aggregate | Model/Tables: GroupBy.proveWithAdvice; three statements (columns, aggregates, malformed requests), each violated by a witness; proved: exact result of every successful call, counts-only requests, no panic for counts and sums, rejected malformed requests (_partial). |
| C73 | Protocol provers and verifiers consume identifiers in lockstep | Model/Iop: lockstep by induction over the operation trace of each protocol. |
| C74 | Accepted batch values are bound to the proof | Model/Kzg (batching): violated; for every accepted proof other accepted values are built; _partial: the weighted sum is fixed. |
| C75 | KZG opening soundness against algebraic provers | Model/Kzg: provers as coefficient vectors over the reference string; Schwartz-Zippel count over trapdoors. |
| C76 | Commitments of different polynomials differ | Model/Kzg: Schwartz-Zippel count over trapdoors. |
| C77 | The opening proof inside an honest compiled proof verifies | Model/Compile, Model/VerifierTracker: violated for mixed sizes (witness); _partial for equal sizes, from C31. |
| C78 | Left/middle/right split with multiplicities | Model/Tables: LmrSplit.multBag; violated (the end of the table panics, the value after a run is pushed); _partial: what the lists hold. |
| C79 | Group-by claims bind groups, counts and sums | Model/Tables: GroupBy.verifyWithAdvice with the soundness relation; violated when the support selector is not Boolean; _partial: the distinctness and weight identities, and the full claim for a Boolean selector. |
| C80 | Honest group-by runs succeed | Model/Tables: both sides run in step with true claims; _partial: groups of the size of the table, and no larger column in the proof. Without either restriction the claim is false (`C80_small_violated`, `C80_honest_violated`). |
| C81 | Honest index-transform runs succeed | Model/Tables: both sides run in step with true claims. |
| C82 | Honest one-to-many joins succeed and return the join | Model/Tables: both sides run in step with true claims; the result is the specified table. |
| C83 | One-to-many join claims bind the result | Model/Tables: FinalJoin.verify with the soundness relation; violated (products of rows); _partial: keys agree and row products match. |
| C84 | Honest runs are accepted end to end | Model/Compile, Model/VerifierTracker and all protocols: compose the completeness theorem of each protocol with a tracker-level form of C50. |
| C85 | Any sequence of steps in one proof is accepted | Spec/Program: programs of commitments, arithmetic, joins and checks (20 kinds) over named columns, their two sides, the contents they compute and what a join needs to find its partners (`RunsAll`); induction over the program with the joint rules of Lemmas/Honest (`program_gf`), then `C84_protocol`. |
| C86 | An accepted sequence of steps says what its checks say | Spec/ProgramSound: what each check establishes (`Check.Means`) and what a program does (`Step.MeansAll`, with an existential for every commitment of the prover, and for the columns of a join); the soundness lemmas of the checks as calls that others may follow (`Snd`), composed by induction over the program. |
| C87 | Key columns of any sizes can be join-reduced | From C69: accepted claims force equal sizes, so the property is violated; _partial: equal sizes. |
| C88 | Programs with several trackers keep them apart | `Model/Memory`: handles with the address of their tracker, calls on one part of memory. Simulation lemmas for each call; induction over histories of calls on several trackers: each tracker is `Reachable` with its handles. |
| C89 | A check refuses handles of another tracker | The checks over memory: simulation by the one-tracker checks for own handles; inversion of successful runs for foreign ones. _partial: the selector check accepts foreign handles (violated). |
| C90 | No proof makes the verifier panic | Violated: an accepted proof broken in one of five ways, and a proof with an untracked commitment, panic in every verifier. _partial: a `WellShaped` proof never panics when no challenge is a node; each step of `verify_claims` is followed in turn (`NoPanic`). |
| C91 | Verifier calls never fail on an open borrow | `Model/Guards`: every call with the `RefCell` borrows it opens, a conflicting borrow is a panic. Each call equals the call of the model without cells when no borrow is open (induction over the closures for evaluation), hence every history does; with shared borrows open, which calls still succeed and which panic. |
| C92 | Memory is given back with the last handle | `Model/Release`: which object holds an `Rc`/`Arc` of which; `Spec/Release`: what reference counting releases (inductively). Exact for provers and verifiers by induction on the release; violated for verifiers: any computed handle makes its map refer to itself. _partial: programs that compute no handle. |
| C93 | Protocols keep the trackers of a program apart | `Model/MemoryChecks`: the remaining protocols over memory. Simulation by the one-tracker protocols for own handles; inversion of successful runs for foreign ones. Violated for returned tables: the verifier's cross product (and in release builds the prover's cross product and join) return tables of two trackers. _partial: debug provers. |
| C94 | Claimed sums are fixed before the challenges that depend on them | `Spec/Binding`, `Lemmas/Twin`: two verifiers with proofs that differ only in the claimed sums stay equal, apart from the recorded sums, through every history and through `verify_claims` (relational induction over the calls). Violated: the sums are never absorbed. For every pair of bags sums can be chosen after the challenges so that `BagEq.verify` succeeds and no later comparison notices. |
| C95 | Verification with the final comparison is sound | `Spec/Verified` says what the claims, their degrees and the exceptional challenges are. `Lemmas/FoldSound`: the core statement on functions (a false zero claim survives its folding challenge and the point of the zero check, a false sum survives folding, a false sum survives a sumcheck round, each for at most the stated number of values). `Lemmas/FoldValues`, `Lemmas/VerifySound`: the model's aggregation and sumcheck compute these folds. `Lemmas/Degrees`: degrees of handles; every closure the protocols make is multilinear. Combined with C86 for programs. |
| C96 | Honest proofs pass the final comparison | Agreement of prover and verifier (C42) is proved at points with further coordinates too (`Points`, `Agree` in `Lemmas/Joint`), because the sumcheck point has a coordinate for every variable of the largest table. `Lemmas/FinalPass`: `equalize_value` follows a handle through equalising, `final_T` the aggregated polynomial through `compile_proof`. The statement is false: the debug assertion of `compile_proof` reads the evaluations of the aggregated polynomial, and equalising reads those of every summed polynomial, and reading replaces a product by the multilinear extension of its table (C37). Release builds with sums that reading does not change are the part that holds. |
| C97 | Answers do not depend on how work is shared between threads | `Model/Schedule`: each parallel loop as the set of its possible outcomes: cells written in any order, `fold`/`reduce` over any division of the range (with the buffer a thread carries along), `collect` into a `Result` where an error stops work that has not begun. By induction on the division and on the order, all but the last have one outcome, the one of the sequential model, so the other files may use that. The last can return an error or panic for the same proof, so the statement is false of rejections; acceptance, the subclaim and `verify_claims` succeeding are proved independent of the schedule. |
| C98 | Proofs do not tell the columns apart | Compose two runs of the handle API that differ in one committed column with `compile`; compiling keeps the commitment table (`KeepsComms`), so the proof carries the commitment of the column under its identifier. Full statement refuted (`C98_violated`); proved: the proof answers every guess of a column (`C98_reveals`, `C98_every_guess_is_answered`), sessions with different commitments always have different proofs (`C98_told_apart`), and with KZG wrong guesses pass for few trapdoors (`C98_wrong_guess_refuted`). |
| C99 | After an accepted proof both trackers are in the same state | Walk the two aggregations side by side from states in step (`Abreast`), after showing that the sums the verifier read are the ones `equalize` computed; a sumcheck prover and an accepting verifier append the same messages and draw the same challenges (`sumcheck_same`, no condition on the polynomial), and so do `multi_open` and `batch_verify` (`batch_same`). For histories (`C99_same_state`), protocols (`C99_protocol`, from `CompletesOutside`) and programs (`C99_program`). |
| C100 | A session can go on after an accepted proof | `Spec.session` runs any number of rounds (`runOps`, `compile`; `setProof`, `runVOps`, `verifyClaims`) on the same trackers. Induction over the rounds with an invariant between rounds (`Settled`): both trackers well formed and level, every recorded sum the sum of its polynomial. One round: `accept_T`, `joint_run` from that state, `level_after`, `compile_settles`. Refuted by a second round with a larger column. |
| C101 | Compiling a proof does not change what a handle reads | Follow `HasNv` and the cube values through `equalize`, the aggregation, and the debug check (`compile_tables`): the table is repeated up to the largest size. Equal for handles of the largest size; refuted for smaller ones. |
| C102 | Results do not depend on hash map order or addresses | The list that models a map is the order in which a loop visits it, and an address is a number (`Spec/Layout`). `SameContents` relates trackers that differ in the order of their maps and in the addresses of their tables. A simulation shows that every call, and every statement of `compile_proof` and `verify_claims`, respects the relation, also when memory is rearranged in between (`Lemmas/Layout`, `Lemmas/LayoutVerify`). Composition carries this to every protocol and to programs, with memory rearranged before every step (`Lemmas/LayoutProtocols`); the maps of the advice computations are treated one by one. |
| C103 | A call that fails halfway loses and changes nothing that was there | A history is a list of calls whose failures are ignored (`Spec/Halted`, `callsOn`, `vcallsOn`); arguments are arbitrary. `Keeps` and `VKeeps` list what must be read the same. An invariant (identifiers are below the counter and name one thing) and a relation that composes along `bind`, also through failures, are proved for every statement and every protocol (`Lemmas/Halted`, `Lemmas/HaltedV`). |
| C104 | A refused call leaves no trace | Statement over all histories; refuted by the inclusion check with multiplicities of the wrong size, with a session in which the next proof is rejected for that reason. Proved for handle operations and for checks that compare sizes before they do anything (`Spec.Refused`). |
| C105 | Every part of a proof counts | A relation between proofs that agree on the read parts (`Spec.SameRead`); all verifier calls, programs and `verify_claims` have equal results for such proofs, by a relational predicate through all protocols. Refuted: an honest proof stays accepted with its answers to queries removed. Proved: an accepted proof is complete. |
| C106 | Debug and release builds agree | Spec/Builds: the same environment with debug on or off; two trackers look the same for a user when they agree on everything except polynomials that only debug code tracked. Induction over the program: each debug block returns nothing and adds only unnamed polynomials. The last sentence is refuted. |
| C107 | The size of a proof is counted from the calls of the session and says nothing of the data | Invariant over the calls: the representation of handle i is a table, or a sum whose longest product has as many factors as the degree counted from the calls; the held tables, claims and commitments are those counted. Then run compile on such a state. |
| C108 | A refused proof leaves the verifier as it was, so that the next proof gets the verdict it deserves | Model also the transcript that a failing sumcheck or opening leaves behind (Model/Trail.lean). Compute the exact state after verify_claims: one more sum claim, identifiers handed out, a longer transcript. Refute the statement by runs: an honest proof is refused after a refused one, an accepted proof is refused when asked again, and a refused proof is accepted when asked again. Prove what does hold: nothing is lost, loading without verifying leaves no trace, and what the second proof has to meet. |
| C109 | The library's own prover cannot make a false statement pass | Run `compile_proof` symbolically without assuming the claims (`compile_split`): the honest sumcheck's first message adds up to the true sum of the folded polynomial, and the verifier compares exactly that with the folded claim. If a zero claim is false while the claimed sums are true, the folded claim is false except for one value of each challenge (`zeros_of_folded`). For programs, combine with C86: the claims recorded by a verifier in step with the prover are true when the prover's are. |
| C110 | The kind of a returned error names the side and the step at fault | List per call the kinds it may return (Spec/ErrorKinds.lean), and prove it for every call and state by going through the calls with a predicate that also tracks that the transcript stays non-empty. Then the sumcheck, batch opening, compile_proof and verify_claims. Refute the full statement by a run: a proof whose opening has a wrong sumcheck makes verify_claims return InvalidProver. |
| C111 | The probability that a false statement passes | `Spec/Chance`: `dealt c` is the oracle whose k-th answer in a session is `c k`; `ChanceAtMost b Out` counts the sequences. `Lemmas/Online*`: every call of both sides depends on the oracle only through the challenges it draws (`LocT`), by induction over the calls; so the history before the k-th challenge depends only on the challenges before it. A union bound over the challenges (`chance_sum`) turns the exceptional values of C86, C95 and C109 into probabilities. |
| C112 | What a check costs is fixed by the check | `Spec/Cost`: a table of prices (`Check.cost`, `Step.costAll`) and what a tracker has spent. `Lemmas/Cost`, `Lemmas/CostP`: a rule for each call (`CostTo`), adding the prices of the parts, by induction over the calls of both sides. Freshness of identifiers is needed because commitments are kept in a map. |
| C113 | The degree of what a program claims is fixed by the program | `Spec/ProgramDegree`: the table (`Check.degree`, `Step.degreeAll`). `Lemmas/ProgramDegree`: degrees are measured in the closures of the final state, where they are fixed; a rule for each call of the verifier (`Deg`), with the degrees of the handles returned, by induction over the calls; arithmetic of maxima and sums at each claim. |
| C114 | Whether a proof can be compiled is known from the program | `Spec/Compilable`: the condition (`ProgramCompiles`, `ProgramCompilesOn`). `Lemmas/ProgramDegreeP`: the degree table of C113 for the prover's tracker (`PDeg`), in which a virtual polynomial may become a table. `Lemmas/ProgramSize`: a bound on all tables (`PFit`) and the existence of a table of the largest size (`PTop`), a rule for each call. Then C85 and C112 without their conditions on the prover's state. |
| C115 | Rows that are switched off do not matter | `Spec/Inactive`: data that differs only in inactive rows (`Check.SameActive`, `Step.SameActiveAll`). `Lemmas/Inactive`: weights, counts, active values and sums over groups depend on active rows only; every condition of C85 and every meaning of C86 is invariant, by cases over the checks. Then C114 for whole sessions. Refuted for the sort check by evaluation of whole sessions over the field with 101 elements and for arbitrary data. |
| C116 | A bag is its active values | `Spec/Values`: bags and tables as Mathlib multisets (`BagTab.values`, `TabData.rows`), data with the same contents (`Check.SameContents`, `Step.SameContentsAll`). `Lemmas/Values`: counts, weights, membership, distinctness and sums over groups are functions of the multiset; every condition of C85 and every meaning of C86 is invariant, by cases over the checks. Then C114 for whole sessions. Refuted for the equality check. |
| C117 | The order of checks does not matter | `Spec/Reorder`: the checks of a program and its column-making steps; programs with the same checks. `Lemmas/Reorder`: validity, runs, sizes, costs and degrees of a program are conditions on its set of checks over the columns it ends with (induction on the program; checks depend on the columns they name only). Then C114 for sessions, and C86 for what an accepted session says. |
| C118 | What can be proved is what is meant | `Lemmas/Coherent`: by cases over the checks, the conditions of C85 imply the meanings of C86 (sorted columns are increasing and without repetitions, permutations preserve pairs, counts below the characteristic), and for the named checks the converse. Then C114 for sessions. |
| C119 | Where the columns are, and which others there are, does not matter | `Lemmas/Placed`: renaming the columns of a check changes none of its conditions, its cost, degree and bounds; the conditions look at named columns only (`Lemmas/Reorder`). The largest size may grow. Then C114 for the new session, and C86 for soundness. |
| C120 | How a column was made does not matter | `Lemmas/Made`: what a program needs and says is about the columns it ends with (`Lemmas/Reorder`), and a check depends on the rows of the columns it names (`Lemmas/Inactive`), under any names (`Lemmas/Placed`). Then C114 and C86. |
| C121 | Two sessions can be proved with one proof | The columns of each session are placed among those of both (C119), conditions, costs and degrees of lists of checks add up, and C114 applies to the list of all checks; C86 for soundness. |

## What the soundness theorems of the checks say

`SoundExcept V s N bounds Concl` (Spec/Iop) is used for C53, C55-C57, C61-C63, C65, C66, C69, C70, C79 and C83. `V H` is the verifier call with random oracle `H`.
There is a function `bad` from transcript histories and committed polynomials to finite sets of challenges, chosen before the oracle, such that for
every oracle and every successful run: the run draws as many challenges as `bounds` lists, the set for the k-th has at most `bounds[k]` elements and
depends only on the history before that challenge and on the polynomials behind the commitments in it, and if the recorded claims are true and no
drawn challenge falls into its set, `Concl` holds. The probability argument itself (a random oracle avoids the sets) is not formalised, nor is the
step from an accepted proof to true claims, which fails (C45).

The sets `bad` do not depend on the proof: one choice serves all proofs that a prover may send.

## What the completeness theorems of the checks say

`Completes E P N m v t bounds Inputs Contents Valid` (Spec/Honest) is used for C52, C53, C55-C63, C65, C66, C69 and C80-C82. `m` is the prover call, `t` the
state it starts in, `v` the verifier call. Whatever the challenges are, the prover call succeeds and the sums it claims are true, and a verifier in step
with `t` that holds a proof carrying what the prover committed to ends in step with the prover or rejects with `InvalidVerifier`; it never panics. If the
data is `Valid` and no drawn challenge is in its exceptional set, the verifier does not reject and all claims on both sides are true. `wholeR` (Lemmas/RunEx)
turns such a theorem into a complete run over `ZMod 101`; the runs serve as the examples that the hypotheses of the soundness theorems can be met.
The in-step relation `Together` also says that the verifier read the claimed sums in its proof, and a verifier keeps its proof through a call.
`C84_protocol` turns any such theorem into acceptance by `verify_claims` of the proof that `compile_proof` makes afterwards; Props/EndToEnd has one corollary
per protocol.
`REx.cheat` (Lemmas/Rigged) does the same for the witnesses against soundness claims: for any choice of small exceptional sets there is a run that
avoids them.

## Disagreements found between the code and the properties

* C06: without the `parallel` feature `fix_one_variable_helper` computes a wrong table. (As it stands the crate does not compile without the feature: `prover.rs`
  L18 and `virtual_polynomial.rs` L19 import rayon unconditionally although it is an optional dependency.)
* C12: `add_mle_list` changes the polynomial before returning its error.
* C20: `interpolate_uni_poly` panics when the point is one of `0..d`.
* C31: `multi_open` and `batch_verify` fail on a single polynomial.
* C32: `batch_verify` uses the point embedded in the proof and never compares it with the derived one. For any commitments
  opened at one shared point, a proof with a point where `eq` vanishes is accepted with all values 0.
* C74: claimed values are not absorbed before the batching challenge, so they can be altered in any accepted proof.
* C37: `evaluations()` of a product replaces the tracked polynomial by the multilinear extension of its table, so `evaluate` at points outside
  the hypercube changes.
* C42: `increase_nv_back` of the verifier keeps the first `added_nv` coordinates instead of dropping the last `added_nv`; reading a product on the
  prover's side replaces it by its multilinear extension. In both cases the two sides evaluate the same handle differently.
* C43: `equalize_mat_poly_nv` computes the true sum of a claimed product by materialising it, so its evaluation off the hypercube changes.
* C45: `verify_claims` never compares the value left by the sumcheck with an evaluation of the aggregated commitment; for every verifier history
  there is an accepted proof (`C45_forgery`), so the final verdict says nothing about the claims.
* C46: the Boolean returned by `batch_verify` is dropped by `verify_claims`.
* C47: the compiled query map holds only zeros.
* C48: `TrackedComm::eq` compares trackers only.
* C49: copies of a verifier tracker share `virtual_comms` and `query_map`, and both copies hand out the same next identifier.
* C51: one committed column cannot be proved.  A prover whose columns all have one entry, or that has absorbed nothing, panics in `compile_proof` (`C51_nothing_panics`).
* C77: a column shorter than the longest one is committed unpadded and opened padded, so the opening proof of an honest proof is wrong; this
  goes unnoticed because of C46.
* C54: a selector with fewer rows than its bag passes the shape checks of the multiset check and makes the prover panic.
* C61, C62, C63, C65: the verifier closures for the columns 0, 1, 2, ... use every coordinate of the point and those for the rotated columns panic on a
  point of another length, so their claims are only true if the bag has the size of the largest column in the proof (`C61_honest_violated`,
  `C62_honest_violated`, `C65_honest_violated`; the `_size_sound` theorems show that true claims force this size). The verifier of the code, which leaves out the
  final comparison (C45), accepts the honest run all the same (C84, for all sizes).
* C65, C66: the selector of the sum that the prover sends in the set disjointness check is not checked to be 0/1. A row with selector 2 stands for a
  common value, so {3} and {3} are accepted as disjoint, {3} as {3} without {3}, and the empty set as the intersection of {3} and {3}.
* C67: `bag_lmr_split` sorts copies of the columns but then reads the unsorted ones, so common values can be missed.
* C68: the verifier's cross product uses `increase_nv_back` (see C42) and cannot be evaluated for tables of different sizes.
* C69: the advice for join reduction also marks inactive rows.
* C70, C83: `table_row_prover_agg` is documented as a random linear combination but multiplies the columns, and the coefficients cancel. Rows with equal
  products are confused: a table with the rows (3, 2) passes as part of a table with the rows (2, 3), and a join accepts keys that do not occur in the first
  table.
* C71: of several rows with the same key the last one is joined. The debug check that keys are distinct also looks at inactive rows.
* C72: sums are proved but not returned; averages, minima and maxima are `todo!()`; a request without grouping column panics; `GroupByIOP::verify` is
  `todo!()`.
* C73: the group-by verifier notes the size of the input table for the groups, whatever size they have.
* C78: `bag_lmr_multiplicity_split` runs over the end of the column and otherwise pushes the value after the run instead of the value of the run.
* C80: the group-by verifier takes the groups to have the size of the table and checks that they are strictly sorted, so for groups in shorter columns its claims are false; like those of the
  other sort-based checks they are also false when the proof has a larger column.
* C87: the join reduction compares L with R over twice the larger key column, and L with M_A over twice the first, so its claims are never true for key columns of
  different sizes. Only because the final comparison is left out does the verifier accept such runs (C84).
* C79: the selector of the groups is not checked to be 0/1: with selector 2 half of every count and sum is accepted.
* C89: the selector check computes on the tracker of the selector and records the claim on the tracker it receives without comparing them. If they differ, the
  claim is about an unrelated polynomial with the same identifier.
* C90: `verify_claims` indexes into the proof without checking its shape. A proof that claims more rounds than it has messages, has degree 0, has no opening,
  has an opening with too few values or messages, or has a commitment under an identifier that the verifier never tracked makes it panic.
* C92: a verifier that has combined two handles, scaled one or called `verify_claims` is never released. The closures stored in `virtual_comms` hold an `Rc` of
  `virtual_comms` itself, a cycle that reference counting does not break; the stored answers stay with it (`C92_computed_kept`, `C92_violated`). Provers are
  released (`C92_prover`).
* C93: the verifier's cross product and join do not look at the trackers of the columns they pass on, and in release builds neither do the prover's. A table
  with a column of another tracker gives a result whose handles are of two trackers (`C93_mixed_table`, `C93_mixed_join`, `C93_violated`). A later protocol
  that uses the column panics (`C93_refuses_tables`).
* C94: the sums of a proof are not absorbed into the transcript before the `sumcheck challenge`s that fold them are drawn (`C94_unbound`). A prover can
  choose the sums last: for any two bags of the same size it can claim sums that make the bag equality pass (`C94_bag_equality`, `C94_false_equality`), even
  against a verifier that makes the two comparisons missing in C45 and C46.
* C96: an honest proof does not satisfy the comparison that `verify_claims` leaves out (C45). `equalize_materialized_poly_nv` calls `evaluations` on
  every polynomial whose sum is claimed, and in debug builds `compile_proof` calls it on the aggregated polynomial; both replace a product by the
  multilinear extension of its table (C37), and the sumcheck is about the replacement. In debug builds the degree of the sumcheck is always 1
  (`C96_debug_multilinear`). Adding the missing comparison to the verifier alone would therefore break completeness: `C96_violated_debug`,
  `C96_violated_release`.
* C97: whether `SumCheck::verify` returns an error or panics on a malformed proof depends on the thread schedule. The values of the rounds are computed by a
  parallel `collect` into a `Result`; a message of wrong length is an error, a challenge on an interpolation node is a panic (C20). If the
  error comes in first the other round is never looked at. `C97_violated` has one proof with both outcomes. Acceptance does not depend on the schedule.
* C98: commitments are deterministic functions of the column (`track_and_commit_mat_poly`, `commit`) and are part of the proof, so anyone who holds the public parameters can test a guess of a column against the proof; two accepted proofs of the same true claims about different columns differ (`C98_violated`). The proofs are sound but not zero-knowledge.
* C100: the verifier reads the value of a claimed sum from the proof when the claim is made and keeps it. The prover recomputes all sums each time it compiles, over tables extended to the largest size so far. If a column committed after the first proof is larger than all before it, the earlier sums double for the prover and not for the verifier, and the verifier rejects the honest second proof (`C100_violated`). With one size throughout, every session is accepted.
* C101: `equalize_materialized_poly_nv` replaces the smaller tables in the tracker. A handle keeps the number of variables it was made with, so after `compile_proof` a handle to a smaller column reports `n` variables and reads `2^N` values (`C101_violated`, `SesEx.reads_twice`).
* C104: `BagInclusionIOP::prove_with_advice` (and support, sum and difference checks, which track tables first) tracks a table of ones before `BagMultitoolIOP::prove` compares sizes and returns `InvalidParameters`. The identifier stays used. A caller that reports the error, skips the check on both sides and goes on gets a proof that the verifier cannot read: it panics because commitments are not under the identifiers it expects (`C104_violated`, `C104_leftover`, `C104_next_proof`).
* C105: `verify_claims` never reads the answers to queries in a proof, the point stored in its sumcheck proof, round messages beyond the number of variables, or opening proofs after the first. An accepted proof stays accepted whatever they are (`C105_altered`, `C105_violated`).
* C106: compile_proof in a debug build materialises the aggregated polynomial as a side effect of its check (prover_tracker.rs L564-571, evaluations), and the sumcheck then runs on that one table. The proof has other round messages, of degree 1, than the release proof of the same program. Both are accepted by both verifiers, but proofs from the two builds are not equal, and a test of proof sizes or degrees in a debug build says nothing about the release build.
* C108: C108: `verify_claims` is not a pure check. It folds the recorded claims by adding a new sum claim (value 0) and new identifiers, draws its challenges from the session's transcript and absorbs the proof's messages, and it undoes none of that when it returns `Err`. A verifier that has refused one proof refuses the honest one afterwards (`C108_violated`), an accepted proof is refused when `verify_claims` is called again (`C108_violated_same`), and a proof made for the second call is refused at first and then accepted (`C108_violated_final`).
* C110: `batch_verify_internal` maps any error of its sumcheck to `PCSError::InvalidProver`, so `verify_claims` on the verifier's side says `InvalidProver` of a proof whose opening is wrong (`C110_violated`), `InvalidVerifier` of one whose main sumcheck is wrong, and `InvalidParameters` of one whose opening point has a wrong length. `InvalidProof`, which the sumcheck itself returns, never reaches the caller (`C110_never_invalid_proof`).
* C115: the sort check compares each row with the next one in all rows, also in those that are switched off. So the contents of inactive rows decide whether a sorted bag is accepted (`C115_violated`: the bag {1} is accepted as sorted with 2 in the inactive row, and refused with 0, 1, 3 or 5).
* C116: the equality check refuses two bags stored in different numbers of rows, also if they have the same values (`C116_violated_bagEq`, `C116_violated`). The checks of sums and inclusions, which use the same argument, accept them.
