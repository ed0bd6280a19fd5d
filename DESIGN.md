# Formal model of oxford-oxcav/fossil in Lean 4: design

Fossil synthesises (neural) Lyapunov, barrier and reach certificates by a learner / translator / verifier / consolidator
loop. A user relies on the final verdict, "success", meaning something about *all* trajectories of a system. The model follows the
pipeline function by function, and the theorems go from one Python function's result up to that system-level meaning.

## 1. How the code is modelled

Plain Lean functions, one per Python function, in `lean/Verif/*.lean`. Every definition cites file and lines.

* **Exceptions** are values: `Except Err` with `Err` one of the Python exception classes that occur.
* **Dictionaries** are insertion-ordered association lists (`Py.lean: Dict`), so key order, overwriting and repeated labels behave as in
  Python.
* **Symbolic expressions** are a deep embedding (`Smt.lean: Term`, `Formula`) with their meaning over the reals; the code that
  *builds* them (domains, activations, translator, certificates, controller, converter, parser) is modelled as functions
  producing embedded terms, so that a swapped argument in the Python is a different term in the model.
* **Solvers, optimiser, random draws, clocks, process schedules** are parameters (oracles or arbitrary functions). Nothing is assumed of
  them unless a theorem's hypotheses say so (`RefutationSound`, `DRealSound`, `SoundWorld`).
* **Numbers**: set parameters, weights and samples are rationals (every finite float is one), evaluation is over ℝ, arithmetic is exact.
* **States** are `Pt n = Fin n → ℝ`, **trajectories** are `ξ : ℝ → Pt n` with `HasDerivWithinAt` on `[0,T]`, **runs** are `ℕ → Pt n`.

Specifications that a reader must trust are in `lean/Verif/Spec/` (sets, solver soundness, networks, dynamics, arithmetic notation, stability) and in
a few `Spec.` definitions beside a theorem. They do not mention the model's helper functions where the English does not.

| module | models |
|---|---|
| `Py, Smt` | dictionaries, exceptions, terms, formulas |
| `Domains, Sampling` | `domains.py`: every set class: domain, boundary, interior formulas, complements, containment, sampling |
| `Verifier` | `verifier.py`: verify loop, Z3/CVC5/dReal back-ends, counterexamples |
| `Net, Learner, Training, Loss` | `activations.py`, `learner.py`, reverse-mode gradients, losses |
| `Pipeline, Candidate` | `translator.py` (CT, DT, Double, CVC5), `verifier.compute_gradient`, composition |
| `Cert` | `certificate.py`: `get_constraints` of every certificate, beta search, stay check |
| `LearnLoop` | `certificate.py`: `learn` of every certificate, accuracies |
| `Cegis, Consolidator, Assembly` | `cegis.py` (single and double loop), `consolidator.py`, the whole synthesis run |
| `Supervisor` | `cegis_supervisor.py` as a transition system over arbitrary schedules |
| `Config` | from the texts of a configuration file to the start of the loop (`cli.py`, `control.py:_ParsedDynamicalModel`, `cegis.py`), without controller |
| `ControlConfig` | the same with CTRLAYER: `_ParsedControllableDynamicalModel`, dReal's numbering of input occurrences, the closed loop |
| `VerifyConfig` | `main.verify` and `_cli_entry` on a configuration file with CANDIDATE |
| `Options` | from the loaded YAML dictionary to the records of `Config`, `ControlConfig`, `VerifyConfig`: defaults, enumerations, required fields |
| `Custom` | custom certificate classes: base class, inheritance, the loop with a user's class, the example class of the repository |
| `Repr` | printed forms (`__repr__`) of sets |
| `Benchmarks` | experiments/benchmarks/models.py (all classes, `Eulerised`); control.py:329-332 |
| `Freeze` | cegis.py:484-504 (freezing); learner.py:140-146 |
| `Table` | analysis.py:73-75, 224-325 (results table) |
| `Record` | analysis.py:78-82, 157-221, 328-433; control.py:121-123, 182-186; domains.py:321-325, 360-364; main.py:71-98 (recording) |
| `Estimate` | `estimate_beta` of Lyapunov and ROA, `compute_minimum` (certificate.py:307-315, 450-452; learner.py:217-233; cegis.py:291-299) |
| `Trained` | `learner.get` inside `SingleCegis`: the `learn` of each certificate class on the data of the loop (learner.py:203-215, cegis.py:122-154, certificate.py learn methods) |
| `Shipped` | experiments/benchmarks/cli/*.yaml | dictionaries returned by yaml.safe_load; YAML loading is not modelled |
| `Lemmas/Kinks`, `Lemmas/LaSalle` | no code: calculus for functions with a derivative off a countable set, and stability from a decrease that holds off such a set |
| `Plot` | plotting.py:24-283 (what is handed to matplotlib), domains.py plot methods |
| `Console` | cegis.py:197-213, 291-327, 508-524 (messages), main.py:151-173, cli.py:271-357, logger.py:13-27 |
| `Logging` | logger.py:12-52, cegis.py:22, 54-55 (and the other set-ups), cli.py:337-352; Python's `logging` as levels and handlers per dotted name; handlers attached by the user's program are not modelled |
| `Regular` | control.py:408-411 and its uses certificate.py:267, 1022, 1216, 1539 |
| `Start` | cegis.py:122-124, learner.py:40-88: the initial data and the initial network |
| `Backends` | choice of verifier, translator, learner, function tables; the loop without a verifier |
| `Seeds` | seeding in `synthesise`, `run_benchmark` and the workers; runs as programs drawing from the generator |
| `Parser, Text, ParsedModel, Converter` | `parser.py` (tokens and characters, expressions and domains), parsed models of `control.py`, sympy converter of `utils.py` |
| `Controller, Linearise` | `control.py`: controllers, closed loops, lineariser, eigenvalue test, LQR |
| `Cli, Timer, Csv` | `cli.py`, `utils.Timer`, `analysis.py` |

## 2. Trusted base

* The Lean 4.33.0 kernel. No `sorry`-like placeholders, no added axioms, no compiled evaluation.
* Axioms used by the theorems: `propext`, `Classical.choice`, `Quot.sound` (Mathlib's standard ones) and no other.
* Mathlib's definitions (real numbers, derivatives, matrices).
* The reading of the Python source: that each Lean definition does what the cited lines do.
* The statements in `Spec/`.

### Idealisations (each also noted at the definition)

* Floating point: exact arithmetic. `np.round(., k)` is exact round-half-even on rationals. `0**0 = 1` and `x/0 = 0` (z3 leaves both
  unspecified, so its unsat answers are valid for this reading in particular). torch's softplus shortcut above
  threshold 20 is ignored. NaN in losses is `none`; elsewhere NaN and infinities do not occur.
* SMT answers are unsat / sat-with-model / unknown (dReal: none or a box). Solver-side simplification and timeouts are not modelled
  (a timeout is the answer unknown). `dreal.Expression.Differentiate` and sympy's `diff` are the textbook rules without simplification.
* autograd is modelled by its backward formulas; the optimiser is an arbitrary function of parameters and samples.
* The parser is modelled both on token lists and on characters (not modelled: quoted strings inside brackets, a keyword glued to a preceding letter or digit, variables without number or with leading zeros, float rounding of literals); sympy's automatic simplification is not modelled; arithmetic on literals is exact, and dividing one literal by a zero raises as in Python (dividing a symbolic expression by zero is left to the library and excluded from C32); `And/Or/Not/If/sum` functions of the
  expression language, YAML syntax is not modelled (C62 starts from the loaded dictionary); Python's recursion limit is ignored.
* torch broadcasting is modelled only where the code relies on it; a shape mismatch is an error.
* A Gaussian draw that is exactly the zero vector (probability 0) is excluded when balls are sampled.
* CSV quoting (Python's `csv` module) is trusted; one write call is atomic.
* The beta search may diverge: modelled with fuel, running out of fuel is an error value, and divergence is a theorem.
* `EmptySet.generate_data` returns None: modelled as the TypeError its use raises.
* Linear-algebra libraries: `numpy.linalg.eigvals` returns the complex eigenvalues, `scipy.linalg.solve_continuous_are` a symmetric solution of
  the Riccati equation, `numpy.linalg.inv` the inverse.

### Not modelled

Plotting (rendering; the data handed to matplotlib is modelled, C80, C81), YAML I/O, saving of networks, the `experiments/` scripts
except the benchmark models mentioned below, side effects of user-defined CUSTOM certificates outside their object (the class itself is a parameter, C64), GPU placement, wall-clock timeouts, memory.

## 3. Properties: what is modelled and how it is proved

Status and exact theorem names are in `MANIFEST.json`. "Negation" means that the English claim is false of the code for some inputs; the theorem proving
so is listed with the claim, the largest true part carries the suffix `_partial`.

| property | modelled | proof |
|---|---|---|
| C01–C03 | verify loop, groups, label dictionary, per-back-end answers | induction over groups and labels; C03 negation: an overwritten `unknown` |
| C04 | dReal boxes, bound test, re-check | same induction; negations by concrete oracles |
| C05–C06 | Lyapunov constraints + translator + sets + verify loop | constraints ⇒ pointwise conditions (`lyap_inv`), then monotonicity from the sign of the derivative; induction for runs |
| C07 | last-layer-ones networks | network value ≥ 0 by induction on layers; a negative derivative excludes 0 |
| C08 | ROA constraints, inflated level | first-exit argument (`stay_in_set`); negations: no attraction, start on the level set |
| C09–C11 | Barrier, BarrierAlt | first-crossing lemma with strict derivative at the zero level (`fence_lt`); induction for runs |
| C12–C13 | RWA/RWS, RSWA/RSWS | crossing the border formula (C23) contradicts the border constraint; rate lemma gives the time bound |
| C14 | CEGIS stay check dispatch | case analysis; negation end to end with a rotation system |
| C15–C16 | StableSafe, RAR double certificates | as C08+C09, C12+barrier |
| C17–C20 | translator for all depths, widths, activations, rounding, factors, CVC5 | induction on layers with the Jacobian as invariant (`Track`), chain rule |
| C21–C23 | all set classes | structural induction; connectedness / intermediate values for frontiers; topological interior |
| C24–C26 | sampling with draws as parameters | real arithmetic; negations with concrete draws |
| C27–C28 | CEGIS state machine with arbitrary components | loop invariants |
| C29–C30 | consolidator | invariants over rounds, list induction |
| C31 | supervisor | inductive invariants over all schedules of a transition system |
| C32–C33 | recursive-descent parser and symbol tables | parser proved equal to an independent grammar (`Spec/Arith.lean: Denotes`), unambiguity; negations |
| C34, C42 | CLI label handling, `_assert_state` | case analysis over certificate types, arbitrary sets and counts |
| C35–C36, C44 | learn loops, slices, accuracies | loop induction with an arbitrary optimiser; list lemmas |
| C37, C50 | activation tables, block polynomials | calculus; list indexing by residue |
| C38 | controller, closed loop | induction on layers, substitution lemma |
| C39 | sympy converter | structural induction |
| C40 | timer decorator | induction over event histories |
| C41 | CSV writer, concurrent writers | induction over histories and interleavings |
| C43 | beta search | induction on fuel |
| C45 | ReLU barrier | kink analysis; negation with a concrete accepted network |
| C46 | the whole run (`Assembly.lean`), for z3-style solvers and for dReal with its second-chance query (`SoundWorld`) | composition of C27 with C05–C16; for dReal every query other than ROA's mentions only state variables when the dynamics do and confines them when the sets do (`Lemmas/Below`); concrete worlds of both kinds in which synthesis succeeds |
| C47 | Lyapunov ⇒ asymptotic stability | Lyapunov's direct method, compactness; LaSalle-free (strict decrease) |
| C48 | `verify` of user candidates | symbolic differentiation is differentiation (structural induction), then as C05–C12 |
| C49 | `get_all`, gradients | reverse-mode = forward-mode (`back_tangent`), then C17 |
| C51 | losses on samples | softplus/leaky-ReLU estimates |
| C52 | lineariser | Fréchet derivative of the term semantics at the origin |
| C53 | eigenvalue test | Lyapunov's indirect method: exponential decay from the spectrum (Gelfand), quadratic Lyapunov function |
| C54 | LQR | completion of squares with the Riccati solution |
| C55 | `DomainParser`, `parse_domain` on characters | matching lemmas for each grammar element over any layout; C32's text theorem is a simulation of the token grammar by the character grammar |
| C58 | the character parser and `convert_parse_to_ast` (same model as C32) | every successful parse consumes tokens the level grammar generates and a list of two or more operands never converts; bound-independence of the recursion gives at most one exponent per power; the token sequence of a text is unique; unambiguity by padding every bracket with `0 +`, which the parser reads |
| C56 | `Config`: `parse_yaml_to_cegis_config`, `_ParsedDynamicalModel`, start of `Cegis` on the texts of a configuration file | C32 + C55 identify the parsed dynamics and sets with the written ones (`Spec/Config`), C34's lookup lemmas follow them through the labels (`Lemmas/Config`: `core_*`, for dynamics of any origin), then C46/C47 |
| C57 | `PySet.construct` (all `__init__`s), `Lib.has` (function tables), `generateDomain` | structural induction on the set expression |
| C59 | `ControlConfig` on top of `Config`, `Controller`, `Assembly` | the closed-loop terms evaluate to the written field driven by the rounded network (substitution lemma on the numbered inputs), then the same `core_*` lemmas as C56; negation: a concrete file, controller, box and trajectory |
| C60 | `VerifyConfig` on top of `Config`, `Candidate` | inversion of the reader: the candidate and system terms denote the written texts (`accepted_sim`), are regular where the text is smooth, and the queries are those of the written candidate; then dReal soundness and the Lyapunov / barrier / reach lemmas; negation: a concrete discrete-time file |
| C61 | `Seeds` on top of `Supervisor` | induction on programs (the outcome is a function of seed and position; the seed is never changed by drawing), induction on the repetitions, the supervisor invariant; negations: concrete streams |
| C62 | `Options` | induction on the fields of the file (what each attribute holds afterwards), equality of dictionaries with the same keys and lookups for the order, inversion of the assembly |
| C63 | `Backends`: the dispatch on verifier, time domain, certificate and controller; the loop with `VerifierNone` | case analysis over the dispatch, inversion of a loop pass, a concrete file |
| C64 | `Custom`: a class is any constructor, training and condition functions, or those of the base class; loop and verifier as before | success of a pass and refutation as for C46; the conditions of the example class are those of the built-in Lyapunov certificate |
| C65 | `Repr`: the printing methods, with Python's printing of numbers as a parameter; `Text`: the domain grammar | the printed form is a layout of the token sequence of the shape (C55); other texts start with no keyword |
| C66 | `Cli`: the table behind the listing, the reader and the label checks | labels of sets and data after each reading step, then case analysis on certificate type and name |
| C67 | `Benchmarks`: all benchmark classes of experiments/benchmarks/models.py, both sides transcribed separately; the Euler wrapper | case analysis on the shape of the argument lists and evaluation of both sides, class by class; negations for the three inconsistent classes |
| C68 | `LearnLoop`, `Loss` accuracies, `Learner` (construction) | exact versions of the C35 loop invariants (the loop runs to the first pass whose break condition holds; totality of each pass; each break condition equivalent to the condition on the samples); the number of steps is shown unique |
| C69 | `Freeze` on top of `Cegis`/`Assembly`: the flag as part of the network state, the trigger on the counterexample keys | induction over the passes; what the presence of a label among the counterexample keys says about earlier groups of queries; simulation of the run with freezing by one without (states determine their number of passes); concrete runs for the negations |
| C70 | `Net`, `Domains`, `Cert`, `Verifier`, `Cegis`, `Assembly` as they are; separate table of supported activations | totality: each function of the chain returns on fitting arguments (induction over layers, sets, groups, passes), and the exact errors otherwise |
| C71 | `Table` on rows of `Csv`: grouping by first appearance, aggregation, percentage | invariant of the grouping fold (`Groups`: keys distinct, classes a permutation of the rows, order of first appearance), equality of keys iff same experiment, monotonicity of rounding |
| C72 | `Record` on top of `Csv`, `Repr`, `Domains` (sympy table): the renderings of model and sets, the row, the series of repetitions | exact success conditions of each function (structural induction over set expressions, mapped lists), induction over the series |
| C73 | `Estimate` on top of `Sampling` (border samples), `Training` (network output) and `Assembly` | induction on the set expression for the shape of the border batch; minimum by induction on the batch; run theorems by inversion of the last pass and by discharging the level hypothesis of C70; the failing sublevel set by choosing, for given draws, a quadratic form whose thin direction misses all samples |
| C74 | `Trained` (the learner of `Assembly` instantiated with `LearnLoop` and `Training`) | invariant on network and data (same labels, lengths, widths, samples for each label) preserved by every pass, with the exact stopping theorems of C68 for training; optimiser steps preserve dimensions; progress by combining C29 (counterexamples kept, aligned derivatives) with C35 |
| C75 | training of both networks in the double loop (`Trained`: `Trainer2`, `trainedLearn2`) on top of `safeRoaLearn`/`rarLearn` and `doubleComponents`; counting of the concatenated data for every dictionary order | loop invariant (usable networks, aligned non-empty data), label sums over permutations, `run_or_bad`; inversion of the RAR pass for progress |
| C76 | `Start` (`initData`, `newNet`) joined to `readConfig`, `trainedLearn`, `singleComponents`/`doubleComponents` | the initial state meets the run invariant of C74/C75; induction over passes; soundness from C56 |
| C77 | `Start`, `ControlConfig`, `trainedLearn`, `singleComponents`/`doubleComponents` | being defined depends on the architecture only (induction over layers and expressions); run invariant over passes; soundness from C59 |
| C78 | `Regular` (`cosineReg`, `controlledLoss`) over the losses of `Loss` | Cauchy-Schwarz with equality case for rows, list sums; derivative of the squared distance along a motion |
| C79 | `Console`: the loop of `Cegis` with the lines of each branch, and the command line | erasure to the unannotated loop; case analysis of one pass; induction over passes |
| C80 | Plot.lean: meshes, heights, levels, limits as handed to matplotlib (rendering not modelled) | reshaping lemma, C49 for the derivative, explicit counterexamples |
| C81 | Plot.lean: the polygons each set draws | induction on set expressions with frontier_union_subset etc.; angles of circle points, nearest of the 50 corners |
| C82 | queries of C05-C13 with any activations; trajectories as in C17 | a continuous function with derivative off a countable set (Lemmas/Kinks): mean-value theorem with countable exceptions, countability of the times at which a differentiable unit crosses 0 with non-zero speed; LaSalle-type argument by uniform decrease on compact shells (Lemmas/LaSalle) |
| C83 | loop of C27/C46, files of C56, networks with any activations | success gives accepted queries (run_accepted_any), then C82 and, for the two-network types, the comparison lemma of C45 on the zero level |
| C84 | C76 (file, constructor, data, training, loop) with C83 for any activations | termination by C75; success through C83 on the run of a learner guarded to usable networks |
| C85 | discrete-time queries of C06/C07, the loop of C27, file runs of C84 | continuity at the origin forces the fixed point; sub-level set argument for maps |
| C86 | files of C59/C77, activations of C82-C85 | the learner never leaves the initial architectures (invariant of the loop), then C83/C85 on the returned state |
| C87 | Shipped.lean (transcription of the yaml files), Config, ControlConfig, VerifyConfig, Options | the texts are described by the text specifications of C52-C55, the files instantiate C76/C77/C60/C63; acceptance by kernel evaluation |
| C88 | the dReal verifier with its second-chance query (drealSolve), ROA queries, the whole loop and the file reading of C76/C77 with only the answers of dReal trusted | success excludes violations in the box; calculus along trajectories up to the first exit from the (open) box; explicit escaping trajectory of a logistic equation for the negation |
| C89 | AttractionRegion (four trajectory statements) as specification; queries, loop, files and controllers as in C08, C15, C84, C86 | uniform decrease over compact sets of trajectories (LaSalle) applied outside the ball; the accepted query gives the negative derivative off countably many times | 
| C90 | DecreasingOn / DecreasingOnDT (three statements about trajectories each) as specification; queries, loop, files and controllers as in C06, C84, C85, C86 | the accepted query gives a negative derivative (off countably many times) or a negative difference on the domain; compactness makes it uniform | 
| C91 | the files and loops of C76, C84, C86, C90; the solution sets by Configures and trajectories by Trajectory | contrapositive of the guarantee of an accepted run together with totality of the loop; for overlap the two accepted inequalities contradict each other at the common point
| C92 | the accepted queries of C05, C06, C09 and C12; disturbed trajectories by Disturbed and DisturbedRun, which mention only the field and the bound | the Lie derivative is the derivative of the certificate in the direction of the field; its strict sign on a compact set and a bound of the gradient there leave room for an error; then fencing and descent arguments along the disturbed trajectory
| C93 | the accepted queries of C08, C12, C13, C15 and C16; disturbed trajectories by Disturbed, the claim about regions of attraction by TolerantRegion | as C92: a margin of the strict Lie derivative on a compact set, fencing and descent; reach-and-stay joins the margin of the reach half with that of the level found by the search
| C94 | the controller runs of C77, C92 and C93; curves with a right derivative given by the plant at the present state and an input near the printed controller's output near a past state (Held) | on a compact set the velocity is bounded, so a measured state is near the present one, and by uniform continuity the input error is within the margin of C92 and C93; a first-exit argument confines the curve to the compact set
| C95 | the runs of C92 and C93; Euler runs, and the broken line through their points as a curve whose velocity is up to errors that of the last point passed, a case of C94 with the vector field itself as the controller | the held-curve lemmas of C94
| C96 | Logging.lean: Logger and Python's logging as a state machine over histories | invariant by induction over the history, then the console event by event |

None of the listed properties is outside what a model can express; properties about floating-point rounding, wall-clock time and memory were left out of the list for that reason.

## 4. Defects found (each has a theorem)

Listed in `MANIFEST.json` notes; the main ones: repeated labels hide `unknown` (C03); dReal drops violations outside its bound (C04); RSWA never checks the stay
condition (C14); the quadratic factor is dropped in discrete time, which makes accepted certificates wrong (C18); CVC5 rounds V and V̇ separately (C20); ball containment compares
with the squared radius (C22); samples outside balls, tori, orthants (C24, C25); stale derivatives with trained controllers (C29); the parallel supervisor never
returns (C31); unary minus before powers (C32); 11 or more variables are permuted (C33); dReal repeated inputs stay free (C33); a system with a constant right-hand side cannot be run (C33); StableSafe and RAR read samples by dictionary order (C36);
the returned controller is not the verified one (C38); ReLU barriers at kinks (C45); unstable systems accepted because V(0) is not checked (C47, C48); discrete-time candidates are checked with the gradient condition (C48); a configuration file with `VERIFIER: none` is accepted and every run then reports success (C63).

## 5. Tests of the theorems

`seeded/LOG.jsonl`: realistic edits of the model, the theorems that stopped proving, and theorems tightened after an undetected edit.
