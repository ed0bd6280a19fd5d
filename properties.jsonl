{"id": "C01", "title": "Success verdict means every violation query was refuted", "statement": "If Verifier.verify (Z3/CVC5 back-ends) returns found=True for constraints whose labels are all distinct, then every violation formula of every group was answered unsat, so (for a sound solver) no real point satisfies any of them; conversely if the solver answers unsat to every query then found=True.", "quantifier": "all constraint group lists, all solver answer sequences (sat/unsat/unknown, varying from call to call)", "why_tests_cant": "the space of group lists and of solver behaviours (incl. unknown/timeouts) is unbounded", "anchors": ["fossil/verifier.py:Verifier.verify", "fossil/verifier.py:VerifierZ3", "fossil/verifier.py:VerifierCVC5"]}
{"id": "C02", "title": "Counterexamples are genuine", "statement": "Whenever verify returns found=False because a query was satisfiable, the counterexample dictionary has exactly the labels queried so far, a label whose last answer was not sat maps to an empty list, and the list of a satisfiable label is non-empty with the exact solver model as its last row (20 noisy rows before it), which satisfies that label's violation formula.", "quantifier": "all constraint group lists, solver answers, noise values", "why_tests_cant": "needs all solver histories and all noise draws", "anchors": ["fossil/verifier.py:Verifier.verify", "fossil/verifier.py:Verifier.randomise_counterex"]}
{"id": "C03", "title": "Success verdict with repeated labels", "statement": "For any constraint groups, including those of StableSafe (SafeROA) where the label 'lie' is used by two groups, found=True means every query was answered unsat.", "quantifier": "all group lists, all solver answers including unknown", "why_tests_cant": "requires an unknown answer at a specific query; solver behaviour is not controllable in a unit test", "anchors": ["fossil/verifier.py:Verifier.verify", "fossil/certificate.py:StableSafe.get_constraints"]}
{"id": "C04", "title": "dReal verdict soundness", "statement": "With the dReal back-end found=True means every violation formula has no real solution.", "quantifier": "all formulas, all dReal boxes returned including out-of-bounds ones", "why_tests_cant": "depends on which box the external solver returns", "anchors": ["fossil/verifier.py:VerifierDReal.is_sat", "fossil/verifier.py:VerifierDReal.is_unsat", "fossil/verifier.py:VerifierDReal.within_bounds", "fossil/verifier.py:VerifierDReal._solver_solve"]}
{"id": "C05", "title": "Lyapunov success gives the Lyapunov conditions", "statement": "If synthesis of a Lyapunov certificate is verified, then at every state x in the domain XD other than the origin V(x)>0 and the Lie derivative is <0 (for last-layer-ones networks: the Lie derivative is <0).", "quantifier": "all domains, networks, vector fields, sound solvers", "why_tests_cant": "ranges over all real states and all certificates", "anchors": ["fossil/certificate.py:Lyapunov.get_constraints"]}
{"id": "C06", "title": "Lyapunov certificate decreases along every trajectory", "statement": "For a verified continuous-time Lyapunov certificate, V is strictly decreasing along every solution of the dynamics while it stays in XD minus the origin; a verified discrete-time one without multiplicative factors (with them, see C18) strictly decreases at every step of every run in XD minus the origin.", "quantifier": "all trajectories/runs of the closed-loop model, all time instants", "why_tests_cant": "a statement about uncountably many trajectories", "anchors": ["fossil/certificate.py:Lyapunov.get_constraints", "fossil/translator.py:TranslatorCT.get_symbolic_formula", "fossil/translator.py:TranslatorDT.get_symbolic_formula"]}
{"id": "C07", "title": "Last-layer-ones shortcut is sound", "statement": "For a network with non-negative output everywhere (final layer positive, non-negative last activation), skipping the positivity query is harmless: a strictly negative Lie derivative at x (CT), or a strictly negative one-step difference at x (DT), implies V(x)>0.", "quantifier": "all networks, all states, all dynamics", "why_tests_cant": "for all real states and weights", "anchors": ["fossil/certificate.py:Lyapunov.get_constraints", "fossil/learner.py:LearnerNN.make_final_layer_positive", "fossil/translator.py:Translator"]}
{"id": "C08", "title": "ROA success gives an invariant region containing the initial set", "statement": "If a region-of-attraction certificate is verified with level beta, every state of XI lies in the sub-level set {V<=1.1*beta}; in that sub-level set outside the 0.01-ball V>0 and the Lie derivative is <=0 (with LLO <0), and trajectories starting in XI never leave the sub-level set while outside the ball.", "quantifier": "all networks, sets, trajectories", "why_tests_cant": "for all states and all trajectories", "anchors": ["fossil/certificate.py:ROA.get_constraints"]}
{"id": "C09", "title": "Barrier success implies safety", "statement": "If a Barrier certificate with smooth activations (ReLU networks: see C45) is verified for continuous dynamics, no trajectory that starts in XI and stays in XD ever reaches XU.", "quantifier": "all trajectories, all XI/XU/XD set expressions, all networks", "why_tests_cant": "a statement about all trajectories for all time", "anchors": ["fossil/certificate.py:Barrier.get_constraints"]}
{"id": "C10", "title": "BarrierAlt success implies safety (continuous time)", "statement": "If a BarrierAlt certificate with smooth activations is verified for continuous dynamics, no trajectory that starts in XI and stays in XD ever reaches XU.", "quantifier": "all trajectories, set expressions, networks", "why_tests_cant": "all trajectories for all time", "anchors": ["fossil/certificate.py:BarrierAlt.get_constraints"]}
{"id": "C11", "title": "BarrierAlt success implies safety (discrete time)", "statement": "If a BarrierAlt certificate without multiplicative factors (with them, see C18) is verified for discrete dynamics, no run that starts in XI and stays in XD ever reaches XU, at any step.", "quantifier": "all runs of any length", "why_tests_cant": "unbounded number of steps", "anchors": ["fossil/certificate.py:BarrierAlt.get_constraints", "fossil/translator.py:TranslatorDT"]}
{"id": "C12", "title": "Reach-while-stay success implies reach-avoid", "statement": "If an RWS (RWA) certificate with smooth activations is verified for an initial set inside a safe set whose border formula covers its frontier (closed boxes, balls, ellipses, tori; for open boxes the claim is false), every trajectory from XI stays in the safe set XS until it reaches XG, and, the certificate being bounded below on XS, reaches XG in finite time bounded by the explicit rate 0.01.", "quantifier": "all trajectories, all set expressions", "why_tests_cant": "all trajectories; liveness", "anchors": ["fossil/certificate.py:RWS.get_constraints"]}
{"id": "C13", "title": "Reach-and-stay success implies that the goal is eventually never left", "statement": "If an RSWS certificate is verified (including the beta search), each trajectory that reaches the beta sub-level part of XG remains in XG forever.", "quantifier": "all trajectories", "why_tests_cant": "infinite-horizon statement", "anchors": ["fossil/certificate.py:RSWS.stay_in_goal_check", "fossil/certificate.py:RSWS.beta_search", "fossil/cegis.py:SingleCegis.process_certificate"]}
{"id": "C14", "title": "Every remain-type certificate is only reported after the stay check", "statement": "Whenever the CEGIS loop returns success for a certificate type whose class performs the stay-in-goal check (RSWS and RSWA), the stay check has succeeded for the returned certificate.", "quantifier": "all runs of the loop and all certificate types", "why_tests_cant": "depends on the enum used across loop runs", "anchors": ["fossil/cegis.py:SingleCegis.process_certificate", "fossil/certificate.py:get_certificate"]}
{"id": "C15", "title": "Stable-while-safe success gives both certificates", "statement": "If the StableSafe certificate pair is verified (all queries unsat), the Lyapunov part gives the ROA conclusion and the barrier part the safety conclusion for the same dynamics.", "quantifier": "all trajectories, networks, sets", "why_tests_cant": "all trajectories", "anchors": ["fossil/certificate.py:StableSafe", "fossil/cegis.py:DoubleCegis"]}
{"id": "C16", "title": "Reach-avoid-remain success", "statement": "If the RAR certificate pair is verified, the RWS conclusion holds for the first certificate, and every trajectory that is in XG never reaches the complement of XF while it stays in XF's closure, i.e. remains in XF.", "quantifier": "all trajectories", "why_tests_cant": "all trajectories", "anchors": ["fossil/certificate.py:ReachAvoidRemain.get_constraints"]}
{"id": "C17", "title": "The verified formula is the learned network and its derivative", "statement": "For any depth, widths, activations and weights, the symbolic certificate evaluated at a real point equals the value of the (rounded) network there, and the symbolic Lie derivative equals the time derivative of the certificate along the vector field.", "quantifier": "all architectures, weights, points, vector fields", "why_tests_cant": "unbounded depth/width and all real points", "anchors": ["fossil/translator.py:TranslatorCT.get_symbolic_formula", "fossil/translator.py:TranslatorCT.network_until_last_layer"]}
{"id": "C18", "title": "The discrete-time formula is the one-step difference", "statement": "For any network the symbolic discrete-time difference equals V(f(x)) - V(x), with and without factors.", "quantifier": "all architectures, weights, points, maps", "why_tests_cant": "unbounded architectures, all points", "anchors": ["fossil/translator.py:TranslatorDT.get_symbolic_formula"]}
{"id": "C19", "title": "Factored certificates vanish at the origin and stay consistent", "statement": "With FACTORS=QUADRATIC the certificate V equals (sum x_i^2) times the network, vanishes at the origin, and the symbolic Lie derivative equals its time derivative.", "quantifier": "all networks, points and vector fields", "why_tests_cant": "all real points", "anchors": ["fossil/translator.py:TranslatorCT.compute_factors", "fossil/learner.py:LearnerNN.compute_factors"]}
{"id": "C20", "title": "CVC5 translation keeps the Lie derivative consistent", "statement": "With the CVC5 verifier the Lie-derivative formula handed to the solver is the time derivative of the certificate formula handed to the solver.", "quantifier": "all networks and points", "why_tests_cant": "rounding is applied to only one entry of the gradient; needs weights with more digits than the rounding", "anchors": ["fossil/translator.py:TranslatorCT.get_symbolic_formula"]}
{"id": "C21", "title": "Set formulas denote the documented sets", "statement": "For every set expression (boxes, open boxes, balls, open balls, ellipses, positive-orthant balls, tori, beans, unions, intersections, differences, complements, empty, everything; with dimension selection where supported) the formula produced by generate_domain holds at a real point iff the point belongs to the documented set.", "quantifier": "all set expressions of any nesting depth, all points", "why_tests_cant": "recursive set language, all reals", "anchors": ["fossil/domains.py:*.generate_domain", "fossil/domains.py:Set.generate_complement"]}
{"id": "C22", "title": "Numeric containment agrees with the symbolic set", "statement": "check_containment(x) is true iff generate_domain holds at x.", "quantifier": "all sets and points", "why_tests_cant": "all reals, all radii", "anchors": ["fossil/domains.py:*.check_containment"]}
{"id": "C23", "title": "Trajectories leave a set only through its boundary formula", "statement": "For Rectangle, Sphere, Ellipse, Torus and Complement of these, any continuous path from inside the set to outside passes a point satisfying both the set formula and generate_boundary; boundary formula = set minus interior formula.", "quantifier": "all continuous paths, all sets", "why_tests_cant": "uncountable path space", "anchors": ["fossil/domains.py:*.generate_boundary", "fossil/domains.py:*.generate_interior"]}
{"id": "C24", "title": "Sampled data lie in the set they are sampled from", "statement": "Every row returned by generate_data satisfies generate_domain of the same set.", "quantifier": "all random draws, batch sizes, dimensions, radii", "why_tests_cant": "randomised, all batch sizes and dimensions", "anchors": ["fossil/domains.py:square_init_data", "fossil/domains.py:round_init_data", "fossil/domains.py:circle_init_data", "fossil/domains.py:sphere_init_data", "fossil/domains.py:n_dim_sphere_init_data", "fossil/domains.py:n_dim_ellipse_init_data", "fossil/domains.py:slice_nd_init_data"]}
{"id": "C25", "title": "Border samples lie on the border", "statement": "Every row returned by sample_border satisfies generate_boundary.", "quantifier": "all random draws and batch sizes", "why_tests_cant": "randomised", "anchors": ["fossil/domains.py:*.sample_border", "fossil/domains.py:sphere_to_cube", "fossil/domains.py:cube_move"]}
{"id": "C26", "title": "Requested number of samples", "statement": "generate_data(b) returns exactly b rows for the primitive sets, and 2*floor(b/2) for unions.", "quantifier": "all batch sizes and random draws", "why_tests_cant": "all batch sizes", "anchors": ["fossil/domains.py:*.generate_data"]}
{"id": "C27", "title": "CEGIS success is backed by verification of the returned certificate", "statement": "Whenever the CEGIS loop reports success, the verifier reported found=True in the final iteration for exactly the symbolic certificate and derivative stored in the result, for the network as it was after the last learning step.", "quantifier": "all learner, translator, verifier, consolidator behaviours; any number of iterations", "why_tests_cant": "unbounded loop histories", "anchors": ["fossil/cegis.py:SingleCegis.solve", "fossil/cegis.py:DoubleCegis.solve"]}
{"id": "C28", "title": "CEGIS terminates within the iteration budget", "statement": "With CEGIS_MAX_ITERS=N>=0 the loop performs at most N+1 iterations and, if it ends without success, exactly N+1.", "quantifier": "all N and all component behaviours", "why_tests_cant": "unbounded N", "anchors": ["fossil/cegis.py:SingleCegis"]}
{"id": "C29", "title": "Training data only grow and stay aligned", "statement": "After any number of counterexample rounds each label's data set has the initial samples as a prefix, contains every counterexample returned so far for that label, and Sdot[label] is row-by-row the dynamics of S[label].", "quantifier": "all histories of counterexamples", "why_tests_cant": "unbounded histories", "anchors": ["fossil/cegis.py:SingleCegis.add_ces_to_data", "fossil/cegis.py:SingleCegis.process_cex"]}
{"id": "C30", "title": "Counterexample trajectories", "statement": "The trajectory added for a Lie-derivative counterexample starts at the exact counterexample, has between 1 and 21 points, each next point is the previous plus 0.05 times the gradient of the Lie derivative, and only Lie labels receive one.", "quantifier": "all counterexamples, networks", "why_tests_cant": "all gradients and stopping conditions", "anchors": ["fossil/consolidator.py:Consolidator.compute_trajectory", "fossil/consolidator.py:Consolidator.get"]}
{"id": "C31", "title": "Parallel synthesis returns a genuine worker result", "statement": "CegisSupervisorQ.solve returns a successful result iff some worker succeeds before all have failed; the returned result was produced by one of the max_P workers with seed base+id; and a failure is returned only after all max_P workers failed.", "quantifier": "all interleavings of worker completions and all worker outcomes", "why_tests_cant": "scheduler interleavings", "anchors": ["fossil/cegis_supervisor.py:CegisSupervisorQ.solve", "fossil/cegis_supervisor.py:worker_Q"]}
{"id": "C32", "title": "Parsed dynamics mean what ordinary arithmetic says", "statement": "For any expression printed in the CLI grammar, parsing yields an expression with its ordinary mathematical value (precedence, left associativity of -, /, right associativity of **).", "quantifier": "all expression trees of any depth and all variable values", "why_tests_cant": "unbounded expression trees", "anchors": ["fossil/parser.py"]}
{"id": "C33", "title": "Variables are bound by index", "statement": "The numeric dynamics produced from a config binds column i of the state batch to variable xi.", "quantifier": "all numbers of variables", "why_tests_cant": "needs >10 variables or missing variables", "anchors": ["fossil/parser.py"]}
{"id": "C34", "title": "CLI configurations: accepted data come from the documented sets; documented configurations are accepted", "statement": "For every built-in certificate type and every YAML configuration: if the command line accepts it, the data labels and domain labels are exactly those the certificate requires and each data set is sampled from the documented source (the set itself, its border, the domain minus the safe set, the domain minus the final set) with the configured count; and every configuration naming exactly the documented sets, with a count per data set, in any order, passes all label checks.", "quantifier": "all certificate types, sets, counts, key orders", "why_tests_cant": "combinatorial config space", "anchors": ["fossil/cli.py:parse_yaml_to_cegis_config", "fossil/cli.py:CegisConfigParser", "fossil/certificate.py:*._assert_state", "fossil/consts.py:get_required_borders"]}
{"id": "C35", "title": "Training loop: step count, early stop, positive last layer", "statement": "Each call of a certificate's learn performs between 1 and 1000 optimiser steps (between 2 and 1000 for StableSafe) and leaves the parameters of the last step. If it stops before 1000 steps then, with the returned parameters, every initial/unsafe sample satisfies its (non-strict) condition and at most one in a thousand of the samples subject to the derivative condition violates it (none for Lyapunov and ROA). ROA and StableSafe return as level the largest network output on the initial samples. With a positive last layer requested, the output weights are non-negative on return.", "quantifier": "all data sets, all networks, all optimiser behaviours, all certificate types", "why_tests_cant": "all optimiser histories", "anchors": ["fossil/certificate.py:Lyapunov.learn", "fossil/certificate.py:Barrier.learn", "fossil/learner.py:LearnerNN.make_final_layer_positive"]}
{"id": "C36", "title": "Samples are attributed to the right label", "statement": "The per-label slices used in the loss are exactly the samples of that label whatever the order of the data dictionary.", "quantifier": "all dictionary orders and sizes", "why_tests_cant": "all orders and sizes", "anchors": ["fossil/certificate.py:*.learn"]}
{"id": "C37", "title": "Activation derivatives are correct", "statement": "For each supported activation the numeric derivative used for training and the symbolic derivative used for verification are the derivative of the activation.", "quantifier": "all real inputs, all activations", "why_tests_cant": "all reals", "anchors": ["fossil/activations.py"]}
{"id": "C38", "title": "Controller: symbolic controller equals numeric one", "statement": "For a control network of any depth the symbolic controller evaluates to the numeric controller (rounded weights), and the closed-loop model substitutes it for the inputs.", "quantifier": "all networks and states", "why_tests_cant": "all architectures", "anchors": ["fossil/control.py:GeneralController", "fossil/control.py:GeneralClosedLoopModel"]}
{"id": "C39", "title": "Sympy conversion preserves meaning", "statement": "Converting a sympy expression to the solver's language preserves its value at every point.", "quantifier": "all expression trees", "why_tests_cant": "unbounded trees", "anchors": ["fossil/sympy_converter.py"]}
{"id": "C40", "title": "Timer accounting", "statement": "After a reset and any sequence of timed calls, a timer's total is the sum of the durations of exactly the calls that returned, with their number, minimum, maximum and mean; a stop that does not follow a start raises.", "quantifier": "all start/stop sequences", "why_tests_cant": "all histories", "anchors": ["fossil/utils.py:Timer"]}
{"id": "C41", "title": "Experiment CSV stays well-formed", "statement": "After any sequence of recorded experiments (also concurrent ones) the results file has one header, first, followed by one row per experiment, with every value under its column name.", "quantifier": "all write sequences, all schedules of concurrent writers, all initial file states", "why_tests_cant": "all histories", "anchors": ["fossil/analysis.py:CSVWriter", "fossil/analysis.py:Recorder"]}
{"id": "C42", "title": "Certificate state checks", "statement": "The label check made before a run accepts the configured domain and data labels iff they are exactly the documented ones (StableSafe optionally with XR), raising ValueError otherwise; once it accepts, building the verification conditions never fails for a missing label.", "quantifier": "all label sets", "why_tests_cant": "all label sets", "anchors": ["fossil/certificate.py:*._assert_state"]}
{"id": "C43", "title": "Beta search", "statement": "The beta search returns a level only if the stay check succeeded for it; it stays within its search interval; each step halves the interval.", "quantifier": "all answer sequences of the solver", "why_tests_cant": "unbounded bisection", "anchors": ["fossil/certificate.py:RSWS.beta_search"]}
{"id": "C44", "title": "Meaning of the reported accuracies", "statement": "The reported accuracy is 100 percent (for the belt/Lie accuracy: at least 99.9) exactly/only if all samples (all but one in a thousand) satisfy the non-strict, margin-shifted certificate conditions, and there is at least one sample to which they apply.", "quantifier": "all sample batches and outputs", "why_tests_cant": "all batches", "anchors": ["fossil/certificate.py:*.compute_loss"]}
{"id": "C45", "title": "Barrier safety for ReLU networks", "statement": "If a Barrier certificate with ReLU activations is verified, no trajectory that starts in XI and stays in XD reaches XU.", "quantifier": "all ReLU networks, sets, trajectories", "why_tests_cant": "a violating trajectory must run exactly along a kink of the network, which sampling never hits", "anchors": ["fossil/activations.py:ReLU", "fossil/certificate.py:Barrier.get_constraints"]}
{"id": "C46", "title": "End-to-end guarantee of synthesis", "statement": "If synthesise/Cegis.solve reports success for a certificate type (smooth activations, sets as in C12 for the reach certificates), the system-level guarantee of that type (safety, decrease, reach-avoid, reach-and-stay, stable-while-safe, reach-avoid-remain) holds for the dynamics closed with the returned controller and the returned certificate function, whatever the optimiser, the random perturbations and the counterexample history were, provided the solver's unsat answers are right.", "quantifier": "all configurations with smooth activations, all optimiser behaviours, all solver answers (unsat answers right), all iteration histories, all trajectories", "why_tests_cant": "composition over unbounded histories of a stochastic optimiser and over all trajectories of the dynamics", "anchors": ["fossil/cegis.py: SingleCegis.solve, DoubleCegis.solve", "fossil/certificate.py: get_constraints", "fossil/translator.py", "fossil/verifier.py: Verifier.verify"]}
{"id": "C47", "title": "A Lyapunov success means the origin is asymptotically stable", "statement": "If synthesis (or verification) with the Lyapunov certificate reports success on a domain that is a neighbourhood of the origin, then the origin of the (closed-loop) system is stable and attracts a neighbourhood; sub-level sets inside the domain are regions of attraction; when the domain excludes a hole around the origin, trajectories from inner sub-level sets end up in the smallest sub-level set covering the hole.", "quantifier": "all dynamics, networks, rounded weights, controllers, trajectories of any duration, discrete runs of any length", "why_tests_cant": "A statement about all trajectories for all time; simulations sample finitely many finite ones.", "anchors": ["fossil/certificate.py:Lyapunov", "fossil/cegis.py:Cegis.solve", "fossil/translator.py"]}
{"id": "C48", "title": "Verification of a user-supplied certificate is as strong as synthesis", "statement": "If `verify` reports success for a candidate certificate written by the user, the candidate (with the meaning ordinary arithmetic gives to its text) has the properties the certificate type stands for: its derivative along the dynamics is computed correctly and the same safety, stability or reachability guarantees follow as for a synthesised certificate, in continuous and discrete time.", "quantifier": "all candidate expressions, dynamics, sets, certificate types, solvers, options, trajectories", "why_tests_cant": "Covers every expression a user can write (symbolic differentiation of arbitrary terms) and every trajectory of every system.", "anchors": ["fossil/main.py:verify", "fossil/verifier.py:VerifierDReal.compute_gradient", "fossil/parser.py:parse_certificate", "fossil/cli.py:read_candidate"]}
{"id": "C49", "title": "Training sees the function that is verified", "statement": "For every sample state and sampled derivative, the value and derivative that training evaluates (LearnerNN.get_all) are the certificate's value at that state and its rate of change along any curve through the state with that velocity; for the rounded network they coincide with the value and Lie derivative of the symbolic formulas handed to the solver. compute_maximum returns a sample attaining the largest certificate value. In discrete time the second column is the one-step difference.", "quantifier": "all network depths, widths, weights, activations, with or without the quadratic factor, all batches of samples and derivatives, all curves", "why_tests_cant": "agreement of reverse-mode gradients, calculus derivative and symbolic Lie derivative is a statement about all real points and all networks; tests sample a few", "anchors": ["fossil/learner.py: LearnerNN.compute_net_gradnet, compute_V_gradV, compute_factors, compute_maximum, LearnerCT.get_all, compute_dV, LearnerDT.get_all", "fossil/translator.py: TranslatorCT.get_symbolic_formula"]}
{"id": "C50", "title": "Activations compute what the user guide documents", "statement": "For every activation name the user guide lists, the hidden layer built from that name computes, at every width and every input vector, the function the guide documents for it (including which coordinates get which power for the polynomial blocks).", "quantifier": "all documented activation names, all layer widths, all input vectors", "why_tests_cant": "a statement about all real vectors of all widths; the block structure depends on the width modulo the number of blocks", "anchors": ["fossil/activations.py", "fossil/activations.py:get_symbolic_functions", "fossil/consts.py:ActivationType", "user-guide.md"]}
{"id": "C51", "title": "A small training loss means the samples satisfy their conditions", "statement": "For each certificate, the training loss is defined on non-empty sample sets, and once it is below an explicit threshold depending only on the sample counts, every sample satisfies the certificate condition of its set with the intended margin; a sample set violating a condition keeps the loss above the threshold.", "quantifier": "all sample values and derivatives, all sample counts, all certificates with a sample loss", "why_tests_cant": "a statement about all real sample values and all batch sizes", "anchors": ["fossil/certificate.py:Lyapunov.compute_loss, ROA.compute_loss, Barrier.compute_loss, BarrierAlt.compute_loss, RWS.compute_loss, RSWS.compute_beta_loss"]}
{"id": "C52", "title": "Linearisation returns the Jacobian at the origin", "statement": "Whenever linearising a model returns a matrix, the origin is an equilibrium of the uncontrolled model, the matrix is square and equals the total derivative of the right-hand side at the origin (for every constant input); the ValueError is raised exactly when the origin is not an equilibrium.", "quantifier": "all models (expressions over states and inputs), all dimensions, all constant inputs", "why_tests_cant": "a statement about derivatives of every expression at a point, in every direction", "anchors": ["fossil/control.py:Lineariser"]}
{"id": "C53", "title": "The eigenvalue tests decide stability", "statement": "If the linearised model passes the stability test, trajectories of the nonlinear model starting close to the origin converge to it exponentially, at least as fast as e^{-t} for the 'sufficiently stable' test; for linear models the test is passed exactly by asymptotically stable ones; the worst pole is the largest real part of an eigenvalue.", "quantifier": "all models, all trajectories starting in a neighbourhood of the origin, all times", "why_tests_cant": "quantifies over all trajectories of continuous systems and unbounded time", "anchors": ["fossil/control.py:EigenCalculator, Lineariser"]}
{"id": "C54", "title": "The LQR gain is stabilising and optimal", "statement": "For a linear system with positive definite weights, the gain returned by the LQR class makes the closed loop asymptotically stable, passes the class's eigenvalue test, and no continuous input has a lower quadratic cost than the feedback, provided the Riccati solver returns a symmetric positive semidefinite solution.", "quantifier": "all system matrices, weights, inputs, initial states and horizons", "why_tests_cant": "quantifies over all input signals and infinite horizons", "anchors": ["fossil/control.py:LQR.solve"]}
{"id": "C55", "title": "A domain written in a configuration file is the set its text describes", "statement": "Parsing a well-formed text Rectangle([..],[..]), Sphere([..],r) or Torus([..],R,r), with any spacing, signs and decimal fractions, returns the domain with exactly these numbers, so its formula holds at exactly the points of the written set.", "quantifier": "all numbers, all dimensions, all ways of writing them", "why_tests_cant": "ranges over all texts and all points", "anchors": ["fossil/parser.py:DomainParser", "fossil/parser.py:parse_domain"]}
{"id": "C56", "title": "What a successful run started from a configuration file guarantees about the texts in the file", "statement": "If the command line is given a file whose SYSTEM texts describe a vector field F and whose DOMAINS texts describe sets, the file is accepted, and synthesis reports success with a sound solver, then F has the property of the certificate with respect to the written sets: safety for Barrier and BarrierAlt (also discrete time for BarrierAlt), asymptotic stability for Lyapunov, reaching the goal inside the safe set for RWS/RWA/RSWS/RSWA, reaching and staying for RSWS, the sublevel set for ROA, safety for StableSafe, reaching and remaining for RAR.", "quantifier": "all configuration files without controller, all trajectories of the written system, all learners and all sound solvers", "why_tests_cant": "ranges over all texts, trajectories and learner behaviours", "anchors": ["fossil/cli.py:parse_yaml_to_cegis_config", "fossil/parser.py:DomainParser", "fossil/parser.py:Parser", "fossil/control.py:_ParsedDynamicalModel", "fossil/main.py:synthesise"]}
{"id": "C57", "title": "Which set expressions can be built and expressed", "statement": "Constructing a set expression succeeds exactly when it is the empty set itself, or contains the empty set nowhere and every torus has outer radius above inner radius and every bean has two coordinates; generate_domain of a well-shaped expression succeeds exactly when the solver library has the truth constants the expression needs (z3, dReal: always; cvc5: no EmptySet; sympy: neither EmptySet nor Reals) and raises KeyError otherwise.", "quantifier": "all set expressions of any nesting depth, all four libraries, all dimensions", "why_tests_cant": "unbounded nesting of constructors", "anchors": ["fossil/domains.py:*.__init__", "fossil/domains.py:Set.set_functions", "fossil/consts.py:CVC5_FNCS"]}
{"id": "C58", "title": "An accepted expression text is never misread", "statement": "Whatever text the expression reader accepts (with no empty pair of brackets) is an expression of arithmetic notation in which a minus sign binds tighter than **, and the returned expression has that value. Hence for a text in ordinary notation without a sign directly before a power, the reader either raises or returns an expression with the ordinary value at every point.", "quantifier": "all character strings, all ordinary readings of them, all variable values", "why_tests_cant": "ranges over all texts, including texts the author of the grammar did not think of", "anchors": ["fossil/parser.py: Parser.parse_expression, convert_parse_to_ast, parse_dynamical_system"]}
{"id": "C59", "title": "From a configuration file with a controller to a guarantee about the written system", "statement": "If a configuration file with CTRLAYER is accepted and the synthesis run reports success, then the system written in the file, driven by the returned controller with its weights rounded to five decimals, has the guarantee of the requested certificate over the sets written in the file (safety, asymptotic stability, reach-avoid, reach-and-stay, region of attraction, stable-while-avoid, reach-avoid-remain). With Z3 inputs may occur any number of times; with dReal each input must be written only once: with a repeated input the claim is false.", "quantifier": "all configuration texts with up to ten inputs, all controllers and certificates the learner may return, all solver answers consistent with soundness, all trajectories/runs", "why_tests_cant": "ranges over all files, all learner histories and all trajectories; a repeated input with dReal fails only for some solver answers", "anchors": ["fossil/cli.py: read_model, parse_yaml_to_cegis_config", "fossil/parser.py: Parser.parse_dynamical_system, DrealParser.make_var", "fossil/control.py: _ParsedControllableDynamicalModel, GeneralController", "fossil/cegis.py: Cegis._initialise_system, Cegis.solve"]}
{"id": "C60", "title": "From a configuration file with a candidate to a guarantee about the written system", "statement": "If the command line verifies the CANDIDATE written in a file and reports success (continuous time, dReal, sets inside (-1000,1000)^n, candidate smooth where it is read), then the written system has the guarantee of the written certificate with the written candidate over the written sets (safety, stability, Lyapunov, reach). Any other verifier, and the certificates ROA, STABLESAFE and RAR, always raise. A discrete-time file is checked with the continuous-time condition, so there success does not give the guarantee.", "quantifier": "all configuration texts, all candidate texts, all solver answers consistent with soundness, all trajectories", "why_tests_cant": "ranges over all files, candidates, solver answers and trajectories", "anchors": ["fossil/main.py: verify, _cli_entry", "fossil/cli.py: parse_yaml_to_cegis_config, read_candidate", "fossil/certificate.py: get_certificate", "fossil/verifier.py: VerifierDReal"]}
{"id": "C61", "title": "The recorded seed reproduces the result", "statement": "With SEED given, the outcome of synthesise does not depend on what the process did before and is reproduced by the recorded seed. run_benchmark with repeat=n gives n results, the i-th being that of seed 167+4i independently of n and of earlier repetitions; with concurrent=True the workers of all repetitions use exactly the seeds 167..167+4n-1, each once, and a returned result is the one synthesise gives for the recorded seed, for every interleaving. Without SEED, only the first run of a process is reproduced by its recorded seed; the documented 'consecutive seeds' does not hold without concurrent.", "quantifier": "all programs drawing from the generator, all generator streams, all prior generator states, all numbers of repetitions, all interleavings of the workers", "why_tests_cant": "ranges over all histories of the process and all interleavings", "anchors": ["fossil/main.py: run_benchmark, synthesise, N_PROCS, BASE_SEED", "fossil/cegis_supervisor.py: worker_Q, CegisSupervisorQ.solve", "fossil/cegis.py: CegisStats"]}
{"id": "C62", "title": "The options written in a configuration file are the ones used", "statement": "If a configuration file is accepted, the run uses for every option (system, sets, data counts, certificate, time domain, verifier, factors, number of variables, LLO, rounding, iterations, learning rate, time limit, network sizes and activations, controller, candidate) what the file says, or the documented default when the option is absent, in whatever order the fields are written; enumeration members are accepted in any case and unknown members rejected; unknown fields have no effect; files without SYSTEM, CERTIFICATE, DOMAINS or TIME_DOMAIN are rejected. Two documented defaults are not honoured: a file without TIME_DOMAIN or without N_DATA is always rejected.", "quantifier": "all configuration files (dictionaries of YAML data), all orders of the fields, all values", "why_tests_cant": "ranges over all files and all permutations of their fields", "anchors": ["fossil/cli.py: parse_yaml_to_cegis_config, CegisConfigParser.string_to_enum_value, read_activations, ENUM_ATTR_MAP", "fossil/consts.py: CegisConfig", "user-guide.md"]}
{"id": "C63", "title": "What the choice of verifier and time domain means for a run", "statement": "For every choice of VERIFIER, TIME_DOMAIN, CERTIFICATE and controller: a run that starts verifies the one-step difference in discrete time (LYAPUNOV and BARRIERALT only) and the Lie derivative in continuous time, writes sets, dynamics and activations with one library, that of its verifier, and never uses MARABOU. With Z3, DREAL or CVC5 success is decided by that solver; NONE is the only option with which success is reported without a solver's answer, and then every run that returns reports success after its first pass (RSWS raises instead) - also from a configuration file, where controllers and candidates, but not plain systems, are rejected with it.", "quantifier": "all five verifiers, both time domains, all certificate types, with and without controller, all components (networks, systems, learners), all configuration files", "why_tests_cant": "A test runs one combination with one system; the claim covers all combinations and, for a run without verifier, every network and system", "anchors": ["fossil/verifier.py:get_verifier_type,get_verifier,VerifierNone,VerifierMarabou", "fossil/translator.py:get_translator_type", "fossil/learner.py:get_learner", "fossil/control.py:DynamicalModel.f", "fossil/domains.py:Set.set_functions", "fossil/activations.py:get_symbolic_functions", "fossil/cegis.py:SingleCegis.__init__,_assert_state,Cegis", "fossil/parser.py:get_parser_from_verifier"]}
{"id": "C64", "title": "Custom certificates are held to the conditions their class states", "statement": "For every certificate class a user supplies with CERTIFICATE CUSTOM (any constructor, training and get_constraints, whose conditions carry distinct labels) and every system, network and controller: if synthesise reports success with a trustworthy solver, the run was in continuous time, the formulas given to the class denote the configured sets, and every condition get_constraints returned for the returned network and its derivative along the returned closed loop has no solution. A run with CUSTOM never returns without a class, in discrete time, with a class lacking its own constructor, learn or get_constraints, or with one that returns a single non-empty dictionary (although documented). The example class CustomLyapunov gives the same guarantees as the built-in Lyapunov certificate, including stability.", "quantifier": "all user classes (arbitrary functions that may raise), all states of the certificate object, all networks, controllers, systems, sets, iterations and solver answers", "why_tests_cant": "The class is arbitrary user code and the conclusion ranges over all points of the sets and all solver answers; a test runs one class on one system", "anchors": ["fossil/certificate.py:Certificate,get_certificate", "fossil/cegis.py:SingleCegis.__init__,_initialise_certificate,_assert_state", "fossil/verifier.py:Verifier.verify", "custom_cert.py:CustomLyapunov"]}
{"id": "C65", "title": "What the printed form of a set tells", "statement": "The text a set prints as (repr, also written to the results file) can be put back into a configuration file and gives the same set exactly when the set is a Rectangle, Sphere or Torus without dim_select (and its numbers print without exponent); the printed form of every other set is rejected by configuration files whatever its numbers. Two such sets that print alike are equal up to dim_select, which is not printed: two different well-formed strips of the plane print alike. Printing raises an AttributeError exactly for set expressions in which Reals occurs.", "quantifier": "all set expressions of any size and nesting, all numbers, all ways of printing numbers as plain decimals", "why_tests_cant": "Nested set expressions and coordinate lists are unbounded and any numbers may occur; a test prints a few", "anchors": ["fossil/domains.py:__repr__", "fossil/parser.py:DomainParser", "fossil/analysis.py:domains_to_string"]}
{"id": "C66", "title": "The sets listed for a certificate are the sets a configuration must give", "statement": "For every built-in certificate type, the listing printed by `fossil --certificate NAME` is exact: every configuration file (with a mapping for N_DATA) whose labels are accepted gives all listed symbolic domains except borders and no others, gives a count for every listed data domain, and other names with a count are not borders and have no set; conversely every such configuration is read and passes all label checks. For CUSTOM nothing is listed (the command raises). Exception stated in the property: RAR also accepts a set XNF, which has no effect.", "quantifier": "all certificate types, all sets of DOMAINS and N_DATA names in any order (also unknown and superfluous names), all sets and counts", "why_tests_cant": "there are 2^20 combinations of names per certificate type, times orders and sets", "anchors": ["fossil/cli.py:print_certificate_sets,parse_filename,CegisConfigParser", "fossil/consts.py:CertificateType.get_certificate_sets", "fossil/certificate.py:*._assert_state"]}
{"id": "C67", "title": "Benchmark systems mean the same to learner and verifier", "statement": "For every benchmark system shipped with the tool, and for its Euler discretisation, the symbolic dynamics given to the verifier have at every state and input the values that the numeric dynamics give to the learner, with one component for each declared state variable; a benchmark with control inputs can be closed with a controller.", "quantifier": "all benchmark classes, all states and inputs, all solvers, all step sizes", "why_tests_cant": "all real states and inputs; the tool's own similarity check compares five random points and is not called", "anchors": ["experiments/benchmarks/models.py", "fossil/control.py:DynamicalModel", "fossil/control.py:ControllableDynamicalModel"]}
{"id": "C68", "title": "Training stops exactly when its conditions hold on the samples, and does not fail", "statement": "If there are samples of the sets concerned, one training call does not raise: it returns the parameters after a number of optimiser steps which is the first one after which the certificate's conditions hold on the samples (Lyapunov, ROA: after at least one step; StableSafe: two; the others: in two consecutive passes), or 1000 if there is none. At construction the output weights are all one exactly if positivity is by construction with a polynomial last activation, and a warning about positivity comes exactly if positivity was asked for and the last activation or an output bias does not allow it.", "quantifier": "all networks (parameters, values, derivatives), optimiser behaviours, sample sets and dictionary orders (label order for the derivatives of RAR without a controller, and for StableSafe), with or without controller", "why_tests_cant": "any real-valued network outputs, any number of samples and any optimiser trajectory up to 1000 steps", "anchors": ["fossil/certificate.py:*.learn", "fossil/certificate.py:*.compute_loss", "fossil/learner.py:LearnerNN.__init__"]}
{"id": "C69", "title": "Freezing the first of two functions", "statement": "For the certificates with two functions (StableSafe, RAR) and no controller, the first function is frozen exactly when some pass of the loop got as far as the second function's first conditions, and from then on it never changes, also not in the result. If the solver decides its queries rightly, a frozen reach function of RAR satisfies all its conditions, so within a time bound every trajectory from the initial set reaches the goal safely, whatever becomes of the second function. Freezing adds no results: a run with freezing is a run of the loop without it, with another learner.", "quantifier": "all runs of the double loop: all optimisers, solvers, data sets, networks and numbers of passes", "why_tests_cant": "any number of passes and any behaviour of the optimiser and the solver", "anchors": ["fossil/cegis.py:DoubleCegis.solve", "fossil/learner.py:LearnerNN.freeze", "fossil/certificate.py:SafeROA.learn"]}
{"id": "C70", "title": "What a solver can be given, and when a run cannot raise", "statement": "A network whose layers fit together is translated for a solver exactly if the solver supports the activations of its hidden layers (all: linear, square, polynomials; ReLU: z3, dReal, cvc5; tanh: dReal, cvc5; sigmoid: dReal, cvc5, sympy; softplus and cosh: dReal); otherwise synthesis raises a KeyError or TypeError in the first pass and never returns. In discrete time, rounding to no decimals always raises. With z3 or dReal, if the sets of the certificate are given with parameters of the right dimension, the activations are supported, the dynamics have the right dimension and the data have every label the queries use, then verification never raises and the whole run returns a result within CEGIS_MAX_ITERS+1 passes, whatever the solver answers, unless the optimiser, the trajectory search or the level estimate raises.", "quantifier": "all networks (sizes, weights, activations), roundings, dynamics, sets, certificates and solver behaviours", "why_tests_cant": "unbounded network sizes, set expressions, data and solver answers", "anchors": ["fossil/translator.py:TranslatorCT.get_symbolic_formula", "fossil/translator.py:TranslatorDT.get_symbolic_formula", "fossil/activations.py:get_symbolic_functions", "fossil/verifier.py:Verifier.verify", "fossil/cegis.py:SingleCegis.solve", "fossil/cegis.py:DoubleCegis.solve"]}
{"id": "C71", "title": "The results table", "statement": "Analyser.table_main on a file of recorded runs yields one line per experiment (runs that agree on benchmark text, sets, model, dimensions, property, network sizes and activation names), in the order of first appearance; every run with a complete key is counted in exactly one line and runs with an empty key cell in none; each line shows the least, mean and greatest total and learner time to two decimals, in this order, and as percentage the greatest integer not above the true success rate, hence 100 exactly if every run of the experiment succeeded.", "quantifier": "every list of recorded runs, of any length and in any order", "why_tests_cant": "the grouping and the percentage must be right for every history of runs in the file; a test sees a few files", "anchors": ["fossil/analysis.py:Analyser.table_main", "fossil/analysis.py:ratio", "fossil/analysis.py:Recorder.record"]}
{"id": "C72", "title": "Which runs are recorded", "statement": "With record=True a finished run is written to the results file exactly if its certificate is not custom, the activations of network, second network and controller have names, the control layers are not an empty list, the component times are there, the model can be written out with sympy (a model without inputs needs at least two variables), every set shown for the certificate is given, has a dimension and can be written out in that many coordinates (no EmptySet, no Reals, selections of dimensions below the set's own dimension), and Reals occurs in no set. A series of repetitions adds one row per run in order up to the first run that cannot be recorded; there it ends with an exception, leaving the file as it was, so successful runs can be lost.", "quantifier": "all configurations, sets of any nesting, models, results, series of any length, any previous file", "why_tests_cant": "the failure depends on the combination of model, sets and options after a synthesis that takes minutes; tests cover few combinations", "anchors": ["fossil/analysis.py:Recorder.record", "fossil/analysis.py:benchmark_to_latex", "fossil/analysis.py:domains_to_string", "fossil/domains.py:Set.to_latex", "fossil/control.py:DynamicalModel.to_latex", "fossil/main.py:run_benchmark"]}
{"id": "C73", "title": "The level stored with a verified Lyapunov function, and the runs lost while computing it", "statement": "After a Lyapunov certificate is verified the tool stores a level `beta` with the returned network. If the domain is built from boxes, balls, ellipses and tori by unions (nested at most eight deep) and complements, each part speaking about all coordinates, the level is the least value of the unrounded network (without the quadratic factor) over 300 border samples, and with a correct border sampler it is a value taken on the border - so never below the minimum over the border, and for the unit disc no draw of the 300 samples makes the sublevel set stay inside for every network. If some part of the domain selects coordinates the computation raises RuntimeError; without a border sampler the stored `level` is a tensor of samples, or the sampler's exception propagates (all of space, the bean). Whenever it raises, no run reports a certificate although one was verified; otherwise this step never makes a run raise.", "quantifier": "all networks of the right shape, all well-formed domains, all random draws, all solvers, learners, data and iteration limits", "why_tests_cant": "whether the sublevel set stays in the domain depends on the random border samples and on every network; the exception happens only after a successful verification, so failing runs never reach it", "anchors": ["fossil/certificate.py:Lyapunov.estimate_beta", "fossil/certificate.py:ROA.estimate_beta", "fossil/learner.py:LearnerNN.compute_minimum", "fossil/cegis.py:SingleCegis.process_certificate", "fossil/domains.py:sample_border"]}
{"id": "C74", "title": "Complete runs, training included, return; and learn from every earlier counterexample", "statement": "For the certificates with one network, with z3 or dReal: if the required sets are given and usable, the initial network fits the problem and has supported activations, there is a sample of the right width for every label training uses, the weights are not rounded to no decimals in discrete time, and the solver's models, the dynamics and the trajectory search have the right dimension, then a run - training, translation, verification, counterexample handling, level and stay search - returns a result within CEGIS_MAX_ITERS + 1 passes whatever the solver answers and the optimiser does; the only exception is a Lyapunov run whose training meets a network with derivative exactly 0 at all samples. And in every such run a training call that ends before its last step returns a function that meets the conditions (non-strictly) at every counterexample of any earlier pass, with the derivatives of the returned controller.", "quantifier": "all configurations, networks, optimisers, solvers, draws, data, numbers of passes", "why_tests_cant": "a run is a composition of thousands of optimiser steps and solver answers; a test sees one of them", "anchors": ["fossil/cegis.py:SingleCegis.solve", "fossil/learner.py:LearnerNN.get", "fossil/certificate.py:Lyapunov.learn", "fossil/certificate.py:ROA.learn", "fossil/certificate.py:Barrier.learn", "fossil/certificate.py:BarrierAlt.learn", "fossil/certificate.py:RWS.learn", "fossil/certificate.py:RSWS.learn"]}
{"id": "C75", "title": "Complete runs with two networks return, for every order of the data; and respect every earlier counterexample (RAR)", "statement": "For the certificates with two networks (STABLESAFE, RAR), with z3 or dReal: if the required sets are given and usable, both initial networks fit the problem and have supported activations, the data pass the label check of the constructor, have no empty entry and rows of the right width, and the solver's models, the dynamics and the trajectory search have the right dimension, then a run - training of both networks, translation, the three or four groups of queries, counterexample handling - returns a result within CEGIS_MAX_ITERS + 1 passes, whatever the order of the data dictionary, the solver's answers, the optimiser and the freezing of the first network do. For the other certificates the label check likewise replaces the hypotheses on the data labels. In a reach-avoid-remain run a training call that ends before its last step returns networks that satisfy the value conditions at every counterexample found in any earlier pass (reach function non-positive on the initial, non-negative on the unsafe ones; barrier non-positive on those of the goal, non-negative on those outside the final set), for every order of the data dictionary. Without a controller, training a RAR certificate on data with one more non-empty label raises, which the label check prevents.", "quantifier": "all configurations of the two certificates, data dictionaries in every order, network shapes, solver answers, optimiser steps, controllers, passes of the run and counterexamples", "why_tests_cant": "a test follows one run with one seed and one order of the data; the claim covers every solver answer, optimiser behaviour and dictionary order, over unboundedly many passes", "anchors": ["fossil/cegis.py:DoubleCegis.solve", "fossil/cegis.py:DoubleCegis.process_cex", "fossil/certificate.py:SafeROA.learn", "fossil/certificate.py:ReachAvoidRemain.learn", "fossil/certificate.py:SafeROA._assert_state", "fossil/certificate.py:ReachAvoidRemain._assert_state"]}
{"id": "C76", "title": "A configuration file that the checks accept runs to its end, and what it reports is true of the file's system", "statement": "For every accepted configuration file whose system has closed form and whose random start is any draw at all: the initial data are drawn without an exception and hold, under every label the certificate needs, rows of the right width; the initial network has the widths and activations the file lists; the run either reports an outcome or stops for one of the named causes (an optimiser step that divides by zero, a solver that answers nothing within its budget), never for a missing label, a shape mismatch or an unsupported activation; and an outcome that reports success is a true certificate (safety in continuous and discrete time, reach, reach-and-stay, region of attraction, stability, stable-and-safe, reach-avoid-remain) of the sets and equations written in the file.", "quantifier": "all configuration files, random draws, initial weights, optimisers that keep shapes, solver answers and numbers of passes", "why_tests_cant": "The run depends on random draws, optimiser updates and solver answers; a test sees one of each, and a shape or label error may arise in any pass.", "anchors": ["fossil/cegis.py:Cegis.__init__", "fossil/cegis.py:Cegis.solve", "fossil/cegis.py:DoubleCegis", "fossil/learner.py:LearnerNN.__init__", "fossil/certificate.py:learn", "fossil/cli.py:parse_yaml_to_cegis_config"]}
{"id": "C77", "title": "A configuration file that asks for a controller runs to its end, and what it reports is true of the system driven by the returned controller", "statement": "For every accepted configuration file with CTRLAYER whose controlled equations have closed form: the closed loop stays expressible for the solver whatever weights training gives the controller; the run either reports an outcome after at most CEGIS_MAX_ITERS + 1 passes or (Lyapunov only) raises for a training sample of derivative exactly 0; and a reported success is a true certificate (safety in continuous and discrete time, reach, reach-and-stay, region of attraction, stability, stable-and-safe, reach-avoid-remain) of the written sets and the written system driven by the returned controller rounded to five decimals.", "quantifier": "all configuration files with a controller, random draws, initial weights of certificate and controller, optimisers that keep shapes, solver answers and numbers of passes", "why_tests_cant": "Certificate and controller are trained together from random starts; a test sees one trained pair, and whether the closed loop can be formed must hold for every controller reached.", "anchors": ["fossil/control.py:GeneralController", "fossil/control.py:GeneralClosedLoopModel", "fossil/cegis.py:Cegis._initialise_system", "fossil/cegis.py:Cegis.solve", "fossil/cli.py:parse_yaml_to_cegis_config"]}
{"id": "C78", "title": "The regularisation added when a controller is trained", "statement": "When a controller is trained with a Lyapunov, reach-while-avoid, reach-while-stay or reach-avoid-remain certificate, the loss gets one extra term computed from the samples and the closed-loop derivatives. For every non-empty batch of every dimension this term is a number in [-1, 1]; it depends only on the directions of the derivatives (rescaling time at a sample changes nothing, unless rows are shorter than 1e-8); at a sample it is negative exactly when every motion through the sample with that velocity decreases its distance to the origin; below 0 some sample, and below -(N-1)/N every sample of a batch of N, moves toward the origin; it is -1 exactly when the closed loop points straight to the origin at every sample. It therefore moves the loss by at most 1, a reach-while-avoid total below ln 2/N - 1 still certifies all samples, and the total loss can rank a candidate violating a condition above one that meets them all (by at most the shift).", "quantifier": "all dimensions, all batches of samples and derivatives, all losses, all differentiable motions through a sample", "why_tests_cant": "It is a statement about all real batches of all sizes and dimensions (a Cauchy-Schwarz inequality with its equality case) and about all motions through a sample.", "anchors": ["fossil/control.py:cosine_reg", "fossil/certificate.py:Lyapunov.learn", "fossil/certificate.py:RWS.learn", "fossil/certificate.py:RSWS.learn", "fossil/certificate.py:RAR.learn"]}
{"id": "C79", "title": "What the console and the exit status say about the outcome", "statement": "For every synthesis run that ends, at the default verbosity: a success line appears on the console exactly if the returned result says that a certificate was found; it appears once, last, and names the configured certificate type (with 'and controller' exactly if a controller was trained and the certificate is not RSWS). If nothing was found, the last line is 'Out of iterations', after exactly the allowed number of iterations, or, for reach-while-stay, the line that says the search goes on. All lines before the last are that line and occur for reach-while-stay only; every other certificate writes exactly one line. The lines are pairwise different texts. The command rejects its arguments with status 2 exactly if they name no existing .yaml file or certificate type (in any letter case) or something wrong; naming a certificate type lists its sets and runs no file; the exit status of a run is 0 whether or not a certificate was found, and 1 exactly for exceptions; plotting a two-dimensional verification always ends in an exception.", "quantifier": "all loop components (learner, translator, verifier, consolidator, stay search), all certificate types, all iteration limits, all initial states, all command lines, files and results", "why_tests_cant": "the lines depend on the whole history of passes of arbitrary length and on every possible behaviour of the components", "anchors": ["fossil/cegis.py:SingleCegis.solve", "fossil/cegis.py:SingleCegis.process_certificate", "fossil/cegis.py:DoubleCegis.solve", "fossil/main.py:_cli_entry", "fossil/cli.py:parse_filename", "fossil/cli.py:valid_yaml_file", "fossil/cli.py:print_certificate_sets", "fossil/logger.py:Logger.set_logger_level"]}
{"id": "C80", "title": "The plotted certificate is the verified function", "statement": "The figures produced with --plot show the certificate: for every two-dimensional result the height of the surface (and of the dashed contour lines) over every mesh point is the value of the verified function there, the height in the Lie-derivative figure is its derivative along the model, and the dashed lines are the zero line and the stored level.", "quantifier": "all networks of two inputs, ranges, mesh points, models, stored levels, domains", "why_tests_cant": "a picture is compared by eye on a few examples; equality of heights must hold for every network, rounding and factor option at every mesh point", "anchors": ["fossil/plotting.py: benchmark, benchmark_plane, benchmark_3d, benchmark_lie, certificate_surface, certificate_lie, certificate_countour", "fossil/learner.py: forward, compute_net_gradnet"]}
{"id": "C81", "title": "The plotted outlines are the boundaries of the configured sets", "statement": "For planar sets built from boxes, balls, ellipses and rings (with both coordinates in order) by union, difference and complement, drawing the figures succeeds, every boundary point of every set with a known label is shown in the colour and legend entry of its label (boxes exactly, circles within pi/49 of the radius), each label has its own colour, and for a single shape every drawn corner is a boundary point. Sets outside this class: intersections, the whole plane and the empty set are left out silently, beans and one-coordinate balls make plotting raise, exchanged-coordinate balls and positive-orthant balls are drawn wrongly or incompletely.", "quantifier": "all dictionaries of set expressions of any depth, all boundary points", "why_tests_cant": "set expressions nest without bound and a boundary has infinitely many points", "anchors": ["fossil/plotting.py: plot_domains", "fossil/domains.py: get_plot_colour, plot methods of Union, SetMinus, Rectangle, Sphere, Ellipse, PositiveOrthantSphere, Torus, Bean2D, Complement"]}
{"id": "C82", "title": "Guarantees for networks with ReLU units", "statement": "For certificates with ReLU units the formula used as the derivative is wrong at kinks, yet acceptance still gives the system-level guarantee: along every trajectory the certificate is continuous and the formula is its rate of change at all but countably many times; a verified Lyapunov certificate strictly decreases along trajectories in XD away from the origin, makes the origin (asymptotically) stable when it vanishes there, attracts compact sublevel sets and gives ultimate bounds; a verified BarrierAlt certificate implies safety; a verified ROA certificate never rises; reach-while-stay and reach-and-stay certificates keep trajectories in XS until (and after) XG is reached in bounded time, provided the trajectory starts strictly below the zero level or away from the kinks. The last proviso is needed, and Barrier (condition on the zero level only) is excluded (C45).", "quantifier": "all networks with any mixture of activations including ReLU, all dynamics, sets, trajectories; end to end: all optimiser behaviours, solver answers (unsat answers right) and histories", "why_tests_cant": "the guarantee concerns all trajectories of an ODE, including those that slide along or cross a kink infinitely often; no finite simulation can settle it", "anchors": ["fossil/translator.py:TranslatorCT.get", "fossil/activations.py:ReLU", "fossil/certificate.py:Lyapunov.get_constraints", "fossil/certificate.py:BarrierAlt.get_constraints", "fossil/certificate.py:ROA.get_constraints", "fossil/certificate.py:RWS.get_constraints", "fossil/cegis.py:SingleCegis"]}
{"id": "C83", "title": "Runs with networks that may have ReLU units, for all certificate types and from a configuration file", "statement": "The guarantees of a successful run hold for networks with ReLU units too, whatever the training does: for RWS, RWA, RSWS and RSWA there is one time bound within which every trajectory from XI (starting strictly below zero or away from a kink) reaches XG, staying in XS until then, and for RSWS it is in XG from then on; for ROA, XI is in the verified level set and the certificate never rises along trajectories (with LLO strictly decreases); for STABLESAFE and reach-avoid-remain, when no kink of the barrier network lies on its zero level in XD, trajectories avoid XU, respectively remain in XF after any visit of XG. When the run is started from a configuration file, the statements hold for the written vector field and the written sets.", "quantifier": "all networks with any mixture of activations, all training results in every iteration, all solver behaviours with right unsat answers, all histories of the loop, all configuration texts, all trajectories and times", "why_tests_cant": "each guarantee ranges over all trajectories of an ODE and over all runs of a loop with an unbounded learner and an undecided solver", "anchors": ["fossil/activations.py:ReLU", "fossil/cegis.py:SingleCegis.solve", "fossil/cegis.py:DoubleCegis.solve", "fossil/certificate.py:RWS.get_constraints", "fossil/certificate.py:RSWS.get_constraints", "fossil/certificate.py:ROA.get_constraints", "fossil/certificate.py:SafeROA.get_constraints", "fossil/certificate.py:ReachAvoidRemain.get_constraints", "fossil/translator.py:TranslatorCT.get", "fossil/translator.py:TranslatorCTDouble.get", "fossil/cli.py:parse_yaml_to_cegis_config"]}
{"id": "C84", "title": "Complete runs of a configuration file with networks that may have ReLU units", "statement": "For every configuration file that is accepted, every choice of supported activations (ReLU included), every choice of random numbers for weights and data that gives each set a sample, every solver with right unsat answers and every optimiser that changes weights only: constructing the networks and drawing the data succeeds, the run returns after at most CEGIS_MAX_ITERS + 1 passes (Lyapunov: or raises because a training sample has derivative exactly 0), and if it reports success, then: BarrierAlt - no trajectory from the written XI inside the written XD reaches the written XU (also in discrete time); RWS, RWA, RSWS, RSWA - one time bound within which trajectories from XI (strictly below zero or away from kinks) reach XG staying in XS, and for RSWS stay in XG; ROA - XI is in the verified level set and the certificate does not rise along trajectories; Lyapunov without LLO and with activations vanishing at 0 - the origin is asymptotically stable for the written vector field; StableSafe and reach-avoid-remain - safety and remaining in XF when no kink of the barrier network lies on its zero level in XD.", "quantifier": "all configuration texts, all hidden widths and supported activations, all random numbers, all optimisers that keep the shapes, all solver behaviours with right unsat answers, all trajectories and runs and times", "why_tests_cant": "the statement ranges over all files, random draws, training results, solver behaviours and all trajectories of the written differential equation", "anchors": ["fossil/main.py:main", "fossil/cli.py:parse_yaml_to_cegis_config", "fossil/learner.py:LearnerNN.__init__", "fossil/activations.py:ReLU", "fossil/cegis.py:SingleCegis.solve", "fossil/cegis.py:DoubleCegis.solve", "fossil/certificate.py:BarrierAlt", "fossil/certificate.py:RWS", "fossil/certificate.py:RSWS", "fossil/certificate.py:ROA", "fossil/certificate.py:Lyapunov", "fossil/certificate.py:ReachAvoidRemain"]}
{"id": "C85", "title": "Discrete-time Lyapunov certificates: fixed point, stability and attraction after a successful run", "statement": "For a Lyapunov certificate reported as found in discrete time (with or without LLO, any activations that vanish at 0, any controller), on a domain that is a neighbourhood of the origin and for a continuous map that keeps the origin inside the domain: the origin is a fixed point of the map although no query asks for it, it is asymptotically stable, and every bounded sub-level set of the certificate inside the domain is invariant and attracted to the origin. For every accepted configuration file the discrete-time run returns after at most CEGIS_MAX_ITERS + 1 passes (or raises because a training sample has difference exactly 0) and its success has this meaning for the written map. If the map sends the origin out of the domain the claim fails: a certificate can be reported although the origin is neither fixed nor stable.", "quantifier": "all accepted networks, all continuous maps, all domains that are neighbourhoods of the origin, all configuration files, random numbers, training results, solver behaviours with right unsat answers, and all runs of the map", "why_tests_cant": "the statement ranges over all networks a training may return and all infinite runs of the map from all start states", "anchors": ["fossil/translator.py:TranslatorDT", "fossil/certificate.py:Lyapunov.get_constraints", "fossil/certificate.py:Lyapunov.learn", "fossil/cegis.py:SingleCegis.solve", "fossil/learner.py:LearnerDT", "fossil/cli.py:parse_yaml_to_cegis_config"]}
{"id": "C86", "title": "Complete runs of a controller file with networks that may have ReLU units, in continuous and discrete time", "statement": "For every configuration file with a controller that is accepted, every choice of supported activations of the certificate network (ReLU included) and of the controller, every choice of random numbers that gives each set a sample, every solver with right unsat answers and every optimiser that changes weights only: the run returns after at most CEGIS_MAX_ITERS + 1 passes (Lyapunov: or raises because a training sample has derivative or difference exactly 0), and if it reports success, the following holds for the written system driven by the RETURNED controller rounded to five decimals: BarrierAlt - safety, in continuous and discrete time; RWS, RWA, RSWS, RSWA - reach while staying (and stay for RSWS) from initial states strictly below zero or away from kinks; ROA - XI lies in the verified level set and the certificate does not rise; Lyapunov with or without LLO - asymptotic stability of the origin, in discrete time also that the origin is a fixed point of the driven map if that map keeps it in the domain; StableSafe and reach-avoid-remain - safety and remaining in XF when no kink of the barrier lies on its zero level in XD.", "quantifier": "all controller configuration texts, all hidden widths and supported activations, all random numbers, all optimisers that keep the shapes of both networks and the controller, all solver behaviours with right unsat answers, all trajectories and runs and times", "why_tests_cant": "the statement ranges over all files, random draws, training results, controllers, solver behaviours and all trajectories of the driven system", "anchors": ["fossil/cli.py:parse_yaml_to_cegis_config", "fossil/control.py:GeneralController", "fossil/cegis.py:SingleCegis.solve", "fossil/cegis.py:DoubleCegis.solve", "fossil/activations.py:ReLU", "fossil/translator.py:TranslatorDT", "fossil/certificate.py:Lyapunov", "fossil/certificate.py:BarrierAlt"]}
{"id": "C87", "title": "The configuration files shipped with the project mean what they say", "statement": "Each configuration file shipped in experiments/benchmarks/cli is accepted by the command line and starts the run it describes: its texts are read as the system, the sets and the options written in it. For the Lyapunov file, every run with a sound solver that reports success shows that the origin is asymptotically stable for x0'=x1, x1'=-x1-x0, and such successful runs exist; for the six controller files for x0'=x1+u0, x1'=x0-x1 (barrier, stable-safe, ROA, RWA, RSWA, RAR), every run ends within eleven passes and a reported success implies the safety, level-set or reach guarantee for the plant driven by the returned controller (weights rounded to five decimals) with the discs written in the file; for the candidate file, verification can succeed and success implies the Lyapunov conditions on the ring. The file without verifier reports success for whatever network the first training step returned, even one that is negative everywhere.", "quantifier": "all random initial weights and samples, all optimisers that keep the sizes, all sound solvers, all trajectories of the (driven) systems", "why_tests_cant": "a test runs each file with one seed and one solver; the guarantee concerns all trajectories and every training outcome", "anchors": ["fossil/cli.py:parse_yaml_to_cegis_config", "fossil/parser.py:DomainParser", "fossil/cegis.py:SingleCegis", "fossil/cegis.py:DoubleCegis", "fossil/main.py:_cli_entry"]}
{"id": "C88", "title": "What a dReal success is worth when the query is not bounded: the box (-1000,1000)^n", "statement": "When the dReal verifier reports success, no violation formula holds anywhere in the box (-1000,1000)^n, whatever the sets and the certificate are; nothing is implied outside. For region-of-attraction certificates, whose query is never bounded by a set: the certificate is at most the reported level (times 1.1) on the part of the initial set in the box, and a trajectory from there that starts strictly below the level (or with LLO), stays in the box and keeps 0.01 away from the origin stays below the level; if the certificate exceeds the level on the boundary of the box, trajectories do stay in the box until they are within 0.01 of the origin. This holds for whole runs, for every accepted ROA file with VERIFIER DREAL, with or without controller, and for the shipped roa-test.yaml. A user would expect the guarantee without the box: that is false, even if dReal answers both its calls truthfully.", "quantifier": "all queries, all sets, all dReal answers (no-solution answers right, boxes within the variable bounds for bounded queries), all optimisers, samples and initial weights, all trajectories", "why_tests_cant": "the second-chance search hides counterexamples outside the box; no finite set of runs or trajectories shows that none is hidden inside, or for which certificates hiding is harmless", "anchors": ["fossil/verifier.py:VerifierDReal", "fossil/certificate.py:ROA", "fossil/cegis.py:SingleCegis", "fossil/cli.py:parse_yaml_to_cegis_config"]}
{"id": "C89", "title": "What a verified region of attraction attracts: entry time, invariance and settling, also for the stability half of StableSafe", "statement": "With LLO and a continuous vector field, a successful ROA run - and, if z3 decides the Lyapunov queries, a successful StableSafe run - returns a certificate and a level such that: the initial set is in the verified level set; while a trajectory that starts below the level is farther than 0.01 from the origin the certificate strictly decreases; for every compact set and every radius above 0.01 there is one time by which every such trajectory that stays in the compact set has been within that radius of the origin; and a compact set on whose frontier the certificate is at least the level is invariant for the trajectories starting in it at or below a lower level c, and these are, after one common time, at or below every level that the certificate does not reach in the ball of radius 0.01. For StableSafe the safety half holds together with this, and the certificate is 0 at the origin when the activations vanish at 0. All this for whole runs from a configuration file, with and without controller, whatever the activations (ReLU included).", "quantifier": "all accepted configuration files, all hidden widths and supported activations, all random numbers, all optimisers that keep the shapes, all solver behaviours with right unsat answers (StableSafe: z3 that decides the first query), all trajectories, times, compact sets, radii and levels", "why_tests_cant": "entry and settling times are uniform over all trajectories; simulating some of them never shows a common bound", "anchors": ["fossil/certificate.py:ROA", "fossil/certificate.py:SafeROA", "fossil/cegis.py:DoubleCegis", "fossil/verifier.py:Verifier"]}
{"id": "C90", "title": "What a Lyapunov certificate verified on a ring (a domain without the origin) means for trajectories", "statement": "Lyapunov problems are usually given a Torus domain, which does not contain the origin, so nothing is verified near it and stability of the origin does not follow. For every domain, a successful Lyapunov run still guarantees: along every trajectory in the domain the certificate strictly decreases; if outside an open set G all points of a compact set are in the domain, all trajectories that stay in the compact set are in G within one common time; and for a compact set with a hole (the part outside the domain) on whose frontier the certificate is at least l and in whose hole it is below b, trajectories that start at or below c with b <= c < l never leave, never exceed c, and after one common time stay at or below b. The same for the runs of a map in discrete time, where the hole must also be mapped to values at or below b. All this from the query to whole runs from a configuration file, whatever the activations (ReLU included), with and without LLO, and with a controller in continuous time.", "quantifier": "all accepted Lyapunov configuration files and domains, all hidden widths and supported activations, all random numbers, all shape-preserving optimisers, all solvers with right unsat answers, all trajectories, times, compact sets, holes and levels", "why_tests_cant": "the settling and entry times are uniform over all trajectories of unbounded length; simulation samples a few of them", "anchors": ["fossil/certificate.py:Lyapunov", "fossil/domains.py:Torus", "fossil/verifier.py:Verifier"]}
{"id": "C91", "title": "Problems that have no solution are never reported solved", "statement": "If the user's problem has no solution, no run reports success, whatever the widths, activations, random numbers, optimiser and models: (a) a barrier problem (both kinds, both times, with or without a controller) in which a point of the domain is initial and unsafe; (b) a BarrierAlt or StableSafe problem with a trajectory in the domain from the initial to the unsafe set; (c) a Lyapunov problem with a closed trajectory (an equilibrium is one) in the domain off the origin, or in discrete time with a periodic orbit there; (d) a ROA problem with LLO and a closed trajectory through the initial set that stays farther than 0.01 from the origin; (e) a reach problem (XI inside XS and XD, the frontier of XS in XD) with a trajectory from the initial set that misses the goal for all times, or leaves the safe set before the goal; (f) a reach-avoid-remain problem with a trajectory that misses the goal, or leaves the final set after the goal. Except for (c), where the linear factor's zero derivative can stop a run with an exception, each run also ends within CEGIS_MAX_ITERS + 1 passes.", "quantifier": "all accepted configuration files of the named kinds, all dynamics, sets, hidden widths, activations, random numbers, shape-preserving optimisers, solvers with right unsat answers, and all trajectories and runs of unbounded length", "why_tests_cant": "a test sees the finite number of attempts it makes; here every training history and every counterexample history is excluded at once", "anchors": ["fossil/certificate.py:Barrier", "fossil/certificate.py:BarrierAlt", "fossil/certificate.py:Lyapunov", "fossil/certificate.py:ROA", "fossil/certificate.py:RWS", "fossil/certificate.py:ReachAvoidRemain", "fossil/certificate.py:SafeROA", "fossil/cegis.py:SingleCegis", "fossil/cegis.py:DoubleCegis"]}
{"id": "C92", "title": "Verified certificates tolerate model errors; BarrierAlt certificates need not", "statement": "A certificate is verified for the written model, but the real system differs from it. For each accepted certificate of the following kinds there is a positive bound on the error of each component of the velocity (or of the next state), the error being otherwise arbitrary in time and history, under which the guarantee still holds: (a) Barrier: no disturbed trajectory from XI inside the compact XD reaches XU; (b) RWS, RWA, RSWS and RSWA (XI inside XS and XD, the frontier of XS in XD): every disturbed trajectory from XI reaches XG within a common time and is in XS until then; (c) Lyapunov, in continuous and in discrete time: on every compact part of XD off the origin the certificate decreases at a positive rate along disturbed trajectories, and sublevel sets around the origin are kept and, after a common time, shrink to any smaller level with its hole around the origin. (d) BarrierAlt gives no such bound: there is an accepted BarrierAlt certificate for which under every positive error bound some disturbed trajectory goes from XI to XU inside XD.", "quantifier": "all certificates accepted by the queries, all dynamics continuous on the whole space, all smooth activations (any activations for Lyapunov in discrete time), all compact domains, all disturbances within the bound and all time horizons; and all runs on accepted configuration files, with or without a controller", "why_tests_cant": "the disturbance is an arbitrary function of time and the horizon is unbounded; simulations see single disturbances", "anchors": ["fossil/certificate.py:Barrier", "fossil/certificate.py:BarrierAlt", "fossil/certificate.py:Lyapunov", "fossil/certificate.py:RWS", "fossil/cegis.py:SingleCegis"]}
{"id": "C93", "title": "Model errors: regions of attraction, reach-and-stay, stable-while-safe and reach-avoid-remain", "statement": "C92 for the certificates it leaves out. For each accepted certificate there is a positive bound on the error of each component of the velocity, arbitrary in time and history, under which: (a) ROA with LLO: XI is in the verified level set, and in every compact set with the certificate above the level on its frontier (and below b near the origin, inside the ball of radius 0.01 that the query leaves out) disturbed trajectories starting at or below the level stay there and after a common time stay at or below b; (b) RSWS and RSWA with a successful search for the level: disturbed trajectories from XI never leave XS, and enter XG within a common time to stay there for ever; (c) StableSafe: no disturbed trajectory from XI inside XD reaches XU; (d) RAR: inside the compact XD every disturbed trajectory from XI reaches XG within a common time, is in XS until then, and from every visit of XG on stays in XF.", "quantifier": "all certificates accepted by the queries, all dynamics continuous on the whole space, all smooth activations, all compact domains, all disturbances within the bound and all time horizons; and all runs on accepted configuration files, for (b) and (d) with or without a controller", "why_tests_cant": "the disturbance is an arbitrary function of time and the horizon is unbounded; simulations see single disturbances", "anchors": ["fossil/certificate.py:ROA", "fossil/certificate.py:RSWS", "fossil/certificate.py:SafeROA", "fossil/certificate.py:ReachAvoidRemain", "fossil/cegis.py:SingleCegis", "fossil/cegis.py:DoubleCegis"]}
{"id": "C94", "title": "A verified controller may be implemented digitally: the guarantees survive sampling, delay and inaccurate sensors and actuators", "statement": "After a successful synthesis from an accepted configuration file with a controller there is a positive time h such that the closed loop keeps its guarantee when the printed controller (rounded to five digits) is implemented imperfectly: at every time each component of the input is within h of the controller's output on a measured state, each component of which is within h of the state at a time at most h ago. This covers outputs that are sampled and held with a period of at most h, regular or not, delays of at most h, and errors of sensors and actuators of at most h. Barrier: no such curve from XI inside XD reaches XU. RWS, RWA, RSWS, RSWA: every such curve from XI reaches XG within a common time and is in XS until then; with RSWS and G in S it stays in XG from a common time on and in XS always. ROA with LLO, and Lyapunov: such curves stay in the level sets that the certificate fences, and settle below any level that holds near the origin, within a common time. StableSafe: no such curve from XI inside XD reaches XU. RAR: inside XD they reach XG within a common time, are in XS until then, and from every visit of XG on stay in XF. In discrete time a Lyapunov certificate still decreases, by a positive amount per step away from the origin, and runs settle as in C92, when sensors and actuators have errors of at most h.", "quantifier": "all runs on accepted configuration files with a controller, all continuous plants, all sampling patterns, delays and errors within the bound, and all time horizons", "why_tests_cant": "sampling times and errors are arbitrary functions of time and the horizon is unbounded; a simulation fixes one pattern", "anchors": ["fossil/control.py:GeneralClosedLoopModel", "fossil/control.py:GeneralController", "fossil/certificate.py:Barrier", "fossil/certificate.py:RWS", "fossil/certificate.py:RSWS", "fossil/certificate.py:ROA", "fossil/certificate.py:Lyapunov", "fossil/certificate.py:SafeROA", "fossil/certificate.py:ReachAvoidRemain", "fossil/cegis.py:SingleCegis", "fossil/cegis.py:DoubleCegis"]}
{"id": "C95", "title": "Simulating a verified model with short Euler steps shows the verified behaviour", "statement": "After a successful synthesis from an accepted configuration file, with or without a controller, there is a positive step bound such that every explicit Euler simulation of the written model (driven by the controller rounded to five digits) with steps of at most that length, equal or not, each computed with an error (from rounding) of at most the bound relative to the step, shows the verified behaviour at every point: Barrier and StableSafe: no simulation from XI whose broken line is in XD meets XU. RWS, RWA, RSWS, RSWA: after a common simulated time the broken line has met XG, and until it meets XG the broken line is in XS; RSWS with G in S: the broken line is always in XS and after a common simulated time in XG. ROA with LLO, and Lyapunov: the points stay in the level sets that the certificate fences and settle below any level that holds near the origin; a Lyapunov certificate decreases in every step inside a compact part of the domain without the origin, at a rate. RAR: inside XD the broken line meets XG, is in XS until then, and in XF after a point in XG. The discrete-time model that Eulerised makes of a continuous one with step h has exactly the exact simulations as its runs.", "quantifier": "all runs on accepted configuration files with continuous dynamics, all simulations with any step lengths and relative errors below the bound, any number of steps", "why_tests_cant": "the number of steps and the starting point are arbitrary and the steps may vary; a simulation is a single case", "anchors": ["fossil/cegis.py:SingleCegis", "fossil/cegis.py:DoubleCegis", "fossil/certificate.py:Barrier", "fossil/certificate.py:RWS", "fossil/certificate.py:RSWS", "fossil/certificate.py:ROA", "fossil/certificate.py:Lyapunov", "fossil/certificate.py:SafeROA", "fossil/certificate.py:ReachAvoidRemain", "fossil/control.py:GeneralClosedLoopModel", "experiments/benchmarks/models.py:Eulerised"]}
{"id": "C96", "title": "What the log shows is decided by the last verbosity asked for", "statement": "Whatever imports, -v options, constructed runs and messages a process has gone through, the console shows exactly the log messages at or above one common threshold (warnings to begin with; 0, 1, 2 given to -v, or a VERBOSE of 1 or 2 of a constructed run, set it to warnings, information, debugging; any other value changes nothing), in order, each once if the modules are imported once. Warnings such as 'Verification timed out' cannot be silenced; a process that never asked for verbosity 1 or 2 shows only warnings and worse. A VERBOSE of 0 does not silence a run after a verbose one. From the command line a VERBOSE of 1 or 2 in the file wins over -v, which decides otherwise, and the messages written while the run is constructed are shown according to -v alone.", "quantifier": "all histories of imports, verbosities (any integer), runs and messages of any logger, level and text", "why_tests_cant": "the threshold is process-wide state: what a run shows depends on every earlier run in the same process", "anchors": ["fossil/logger.py:Logger", "fossil/cegis.py:SingleCegis", "fossil/cli.py:parse_filename"]}
