{"id": "C01", "title": "Frame conversion round trip", "statement": "Converting a point, a position array, an atomic grid or a beam control from the material frame to the microscope frame of a field of view and back (in either order) returns the original object: positions are recovered, and atomic numbers, dwell time, voltage and current are carried over untouched.", "quantifier": "every field of view with non-zero width and height, every point/array/grid/control, both directions", "why_tests_cant": "The claim is about all fields of view and all points; tests check a few literal ones.", "anchors": ["putting_dune/microscope_utils.py:MicroscopeFieldOfView.microscope_frame_to_material_frame", "putting_dune/microscope_utils.py:MicroscopeFieldOfView.material_frame_to_microscope_frame"]}
{"id": "C02", "title": "Field-of-view resizing algebra", "statement": "resize and zoom keep the centre of the field of view; resize gives exactly the requested width and height; zoom by z divides width and height by z, and zooming by a then b equals zooming by a*b; shift by s then t equals shift by s+t and preserves size; non-positive sizes or zooms are rejected.", "quantifier": "every field of view, every size, zoom factor and shift", "why_tests_cant": "Algebraic identities over all real sizes; a unit test fixes one size.", "anchors": ["putting_dune/microscope_utils.py:MicroscopeFieldOfView.resize", "putting_dune/microscope_utils.py:MicroscopeFieldOfView.zoom", "putting_dune/microscope_utils.py:MicroscopeFieldOfView.shift", "putting_dune/microscope_utils.py:MicroscopeFieldOfView.offset"]}
{"id": "C03", "title": "An image shows exactly the atoms in view", "statement": "get_atoms_in_bounds of the material returns each atom of the sheet lying in the closed rectangle exactly once, in sheet order, with its own atomic number, at a normalised position in [0,1]x[0,1]; mapping the normalised position back through the field of view gives the atom's true position. No atom outside the rectangle appears.", "quantifier": "every sheet of atoms, every rectangle with positive width and height", "why_tests_cant": "Needs every sheet and rectangle, including atoms exactly on the border.", "anchors": ["putting_dune/graphene.py:PristineSingleDopedGraphene.get_atoms_in_bounds", "putting_dune/microscope_utils.py:MicroscopeFieldOfView.get_atoms_in_bounds"]}
{"id": "C04", "title": "Bounds query with tolerance is exact and monotone", "statement": "MicroscopeFieldOfView.get_atoms_in_bounds(grid, tolerance) keeps exactly the atoms inside the rectangle grown by the tolerance on each side, keeps position/number pairing and order, and a larger tolerance never loses an atom.", "quantifier": "every grid, field of view and pair of tolerances", "why_tests_cant": "Quantifies over all grids and tolerances, including degenerate ones.", "anchors": ["putting_dune/microscope_utils.py:MicroscopeFieldOfView.get_atoms_in_bounds"]}
{"id": "C05", "title": "Exactly one silicon, forever", "statement": "After reset and after any sequence of beam controls the material contains exactly one silicon atom, every other atom is carbon, and the set of atom positions and its order never change.", "quantifier": "every random stream, every rate function obeying its protocol, every finite sequence of controls", "why_tests_cant": "The invariant ranges over all histories of controls and all random outcomes.", "anchors": ["putting_dune/graphene.py:PristineSingleDopedGraphene.reset", "putting_dune/graphene.py:PristineSingleDopedGraphene.apply_control", "putting_dune/graphene.py:PristineSingleSiGrRatePredictor.__call__"]}
{"id": "C06", "title": "Silicon moves only between neighbouring sites", "statement": "Every transition reported while a control is applied swaps the silicon with one of the three atoms nearest to its current site: consecutive reported grids differ in exactly two atomic numbers, the old silicon site (now carbon) and one of its three nearest neighbours (now silicon).", "quantifier": "every random stream, control and starting grid; every transition of a run", "why_tests_cant": "Each run has an unbounded number of random transitions; tests see a handful.", "anchors": ["putting_dune/graphene.py:PristineSingleSiGrRatePredictor.__call__", "putting_dune/graphene.py:PristineSingleDopedGraphene.apply_control"]}
{"id": "C07", "title": "Transitions happen within the dwell time, in order", "statement": "While one control is applied, the reported transition times are in non-decreasing order, every one lies between 0 and the dwell time inclusive, a control with zero or negative dwell changes nothing, and the material ends in the last reported grid. A control of positive dwell is completed after finitely many draws provided the drawn waiting times do not vanish.", "quantifier": "every dwell time and every stream of waiting-time draws", "why_tests_cant": "Depends on all random waiting times, including ones exactly equal to the remaining time.", "anchors": ["putting_dune/graphene.py:PristineSingleDopedGraphene.apply_control"]}
{"id": "C08", "title": "Freshly reset material is centred on its dopant", "statement": "After reset the silicon is an atom of the sheet closest to the origin of the material frame: no atom of the sheet is nearer the origin.", "quantifier": "every sheet drawn by the generator (any offset and rotation)", "why_tests_cant": "The sheet is random; the claim is for all of them.", "anchors": ["putting_dune/graphene.py:PristineSingleDopedGraphene.reset", "putting_dune/graphene.py:PristineSingleDopedGraphene.get_silicon_position"]}
{"id": "C09", "title": "Silicon stays in the safe area of every observation", "statement": "Every observation returned by reset or step_and_image shows exactly one silicon and its coordinates are all within [0.25, 0.75]; when the field of view had to be moved the silicon is at exactly (0.5, 0.5).", "quantifier": "every history of resets and steps, any controls (also far outside [0,1]), any random stream", "why_tests_cant": "An invariant over unbounded histories and random jumps of the dopant.", "anchors": ["putting_dune/simulator.py:PuttingDuneSimulator.reset", "putting_dune/simulator.py:PuttingDuneSimulator.step_and_image", "putting_dune/simulator.py:PuttingDuneSimulator._silicon_outside_of_safe_area"]}
{"id": "C10", "title": "Field of view keeps its size within an episode", "statement": "Between two resets the field of view of every observation is square with one and the same side, and that side is between 15 and 30 angstroms.", "quantifier": "every history of steps following a reset, any random stream", "why_tests_cant": "An invariant over unbounded histories.", "anchors": ["putting_dune/simulator.py:PuttingDuneSimulator.reset", "putting_dune/simulator.py:PuttingDuneSimulator.step_and_image"]}
{"id": "C11", "title": "Reported time is the time that passed", "statement": "The elapsed_time of an observation is the sum of the dwell times of its controls plus one image duration, plus a second image duration exactly when the field of view was moved; over any history the sum of reported elapsed times equals the sum of dwell times and image durations recorded by an attached event observer since the last reset.", "quantifier": "every history of a reset followed by steps; any controls and random stream", "why_tests_cant": "Two independently kept clocks have to agree over every history.", "anchors": ["putting_dune/simulator.py:PuttingDuneSimulator.step_and_image", "putting_dune/simulator_observers.py:EventObserver"]}
{"id": "C12", "title": "The event log replays the experiment", "statement": "After any history the log of an event observer attached to the simulator starts with exactly one reset event (that of the latest reset), contains one apply-control event per control given since then in the order given, and replaying its grid updates yields the current sheet.", "quantifier": "every history of resets and steps, any random stream", "why_tests_cant": "The log must agree with the state after every history.", "anchors": ["putting_dune/simulator_observers.py:EventObserver", "putting_dune/simulator.py:PuttingDuneSimulator"]}
{"id": "C13", "title": "Controls act where they were aimed", "statement": "All controls of one step_and_image call are converted with the field of view of the previous observation: the material-frame control announced to observers and applied to the material is the given position mapped through that field of view, with the given dwell time, and the observation returns the controls unchanged and in order.", "quantifier": "every step, every list of controls", "why_tests_cant": "Ranges over all control lists and steps where the field of view moves afterwards.", "anchors": ["putting_dune/simulator.py:PuttingDuneSimulator.step_and_image"]}
{"id": "C14", "title": "Using simulator or material before reset is rejected", "statement": "step_and_image on a simulator, and get_atoms_in_bounds, apply_control and get_silicon_position on a material, raise RuntimeError if reset has never been called, without changing any state; after a reset they never raise it.", "quantifier": "every fresh object, every argument, every later history", "why_tests_cant": "Covers all call orders.", "anchors": ["putting_dune/simulator.py:PuttingDuneSimulator._assert_has_been_reset", "putting_dune/graphene.py:PristineSingleDopedGraphene._assert_has_been_reset"]}
{"id": "C15", "title": "Observers do not disturb the simulation", "statement": "Attaching, detaching or having any number of observers does not change any observation, the material, the field of view or the random stream consumed. Detaching an observer leaves the others in place; detaching one that is not attached raises ValueError and changes nothing.", "quantifier": "every history and every list of well-behaved observers", "why_tests_cant": "Non-interference compares two runs for all histories.", "anchors": ["putting_dune/simulator.py:PuttingDuneSimulator.add_observer", "putting_dune/simulator.py:PuttingDuneSimulator.remove_observer"]}
{"id": "C16", "title": "Goals are real, reachable sites", "statement": "Goal reset picks the position of an atom visible in the initial observation whose distance from the silicon is strictly between 0.1 and 50 angstroms, expressed in the material frame; it raises SiliconNotFoundError when no silicon is visible and RuntimeError exactly when no visible atom lies in that range; the goal does not change until the next reset.", "quantifier": "every initial observation and random stream", "why_tests_cant": "All observations and all draws, including empty candidate sets.", "anchors": ["putting_dune/goals.py:SingleSiliconGoalReaching.reset", "putting_dune/goals.py:SingleSiliconGoalReaching.current_goal"]}
{"id": "C17", "title": "Terminal exactly when the silicon is at the goal", "statement": "With the default setting an observation is terminal exactly when the silicon is strictly within half a bond length (0.71 A) of the goal; if k consecutive hits are required, exactly when the last k observations all were. Reward is gamma^elapsed when terminal, else 0; truncation is never signalled.", "quantifier": "every sequence of observations after a goal reset", "why_tests_cant": "The consecutive-hit counter ranges over all histories.", "anchors": ["putting_dune/goals.py:SingleSiliconGoalReaching.calculate_reward_and_terminal"]}
{"id": "C18", "title": "An episode does not start solved", "statement": "Directly after an environment reset on generated pristine graphene, the goal is at least one bond length away from the silicon, so the first observation is not within the goal radius.", "quantifier": "every generated sheet, field of view and goal draw", "why_tests_cant": "Needs the minimum distance of the generated lattice for every size, offset and rotation.", "anchors": ["putting_dune/goals.py:SingleSiliconGoalReaching.reset", "putting_dune/graphene.py:generate_pristine_graphene"]}
{"id": "C19", "title": "Environment follows the dm_env episode protocol", "statement": "For every sequence of reset and step calls the returned step types have the form FIRST (MID)* LAST FIRST ...: reset always returns FIRST, a step before any reset or after LAST returns FIRST (ignoring its action), any other step returns MID or LAST.", "quantifier": "every finite sequence of reset/step calls with any actions, any outcomes of simulator and goal", "why_tests_cant": "Protocol property over all call histories.", "anchors": ["putting_dune/putting_dune_environment.py:PuttingDuneEnvironment.reset", "putting_dune/putting_dune_environment.py:PuttingDuneEnvironment.step"]}
{"id": "C20", "title": "Rewards are sparse and discounted by real time", "statement": "Within an episode only the LAST step can carry a non-zero reward; that reward is in (0,1] and comes with discount 0; every other non-first step has reward 0 and discount gamma^elapsed in (0,1], so the return of an episode is 0 or the final reward.", "quantifier": "every episode, any actions and random outcomes", "why_tests_cant": "Ranges over all episodes.", "anchors": ["putting_dune/putting_dune_environment.py:PuttingDuneEnvironment.step", "putting_dune/goals.py:SingleSiliconGoalReaching.calculate_reward_and_terminal"]}
{"id": "C21", "title": "Seeding and resetting erases history", "statement": "After seed(s) followed by reset(), everything the environment returns from then on depends only on s and the subsequent actions, not on what was done before.", "quantifier": "any two prior histories of the same environment, any subsequent action sequence", "why_tests_cant": "A two-run (non-interference) property over all histories.", "anchors": ["putting_dune/putting_dune_environment.py:PuttingDuneEnvironment.seed", "putting_dune/putting_dune_environment.py:PuttingDuneEnvironment.reset", "putting_dune/eval_lib.py:evaluate"]}
{"id": "C22", "title": "Step limit bounds every episode", "statement": "An environment wrapped with step limit n >= 1 follows the episode protocol, every episode has at most n steps after FIRST, the n-th one is LAST with the inner reward, observation and discount (so a goal reached on that very step still has discount 0); with no limit the wrapper is transparent.", "quantifier": "every inner environment obeying the protocol, every limit, every call history", "why_tests_cant": "Interleavings of inner termination, truncation and explicit resets over all histories.", "anchors": ["putting_dune/run_helpers.py:StepLimitWrapper"]}
{"id": "C23", "title": "A failed reset is retried", "statement": "If an environment reset raises, the next step starts a new episode instead of acting in a half-initialised one.", "quantifier": "every failure point inside reset", "why_tests_cant": "Crash points inside reset; tests do not inject failures.", "anchors": ["putting_dune/putting_dune_environment.py:PuttingDuneEnvironment.reset", "putting_dune/putting_dune_environment.py:PuttingDuneEnvironment.step"]}
{"id": "C24", "title": "Beam never leaves the field of view", "statement": "Every action adapter returns exactly one control, whose position is in [0,1]x[0,1] and whose dwell time is within the configured range, for every action whatsoever; the silicon-relative adapter places the beam within max_distance (angstroms) of the silicon along each axis whenever the silicon is in view, and raises RuntimeError exactly when the number of visible silicons is not one.", "quantifier": "every action vector, observation, dwell range and distance", "why_tests_cant": "All real actions incl. far out of range.", "anchors": ["putting_dune/action_adapters.py:DirectActionAdapter", "putting_dune/action_adapters.py:RelativeToSiliconActionAdapter", "putting_dune/action_adapters.py:RelativeToSiliconMaterialFrameActionAdapter"]}
{"id": "C25", "title": "Delta adapter integrates moves", "statement": "The delta adapter's beam position after any action sequence stays in [0,1]x[0,1], equals start plus the sum of moves as long as no prefix leaves the frame, and a move of size d changes the beam by at most d per axis.", "quantifier": "every start position and every finite action sequence", "why_tests_cant": "Invariant over unbounded action sequences.", "anchors": ["putting_dune/action_adapters.py:DeltaPositionActionAdapter"]}
{"id": "C26", "title": "Material-frame adapter hits the requested offset", "statement": "The material-frame adapter aims exactly action angstroms away from the silicon whenever that point is in view; the beam offset from the silicon never exceeds the adapter's max distance.", "quantifier": "every action, observation with one silicon, and field of view", "why_tests_cant": "Ranges over all actions, including those outside the advertised spec.", "anchors": ["putting_dune/action_adapters.py:RelativeToSiliconMaterialFrameActionAdapter.get_action"]}
{"id": "C27", "title": "Features describe silicon, neighbours and goal", "statement": "Both vector feature constructors return 10 numbers: silicon position, three neighbour directions (unit vectors in the microscope frame / true offsets in angstroms in the material frame) of the three atoms nearest the silicon, and goal minus silicon in angstroms; the goal part equals exactly the vector whose length the goal compares with its radius.", "quantifier": "every observation with one silicon and at least four atoms at distinct positions, every goal", "why_tests_cant": "All grids, including ties in neighbour distances.", "anchors": ["putting_dune/feature_constructors.py:SingleSiliconPristineGrapheneFeatureConstuctor.get_features", "putting_dune/feature_constructors.py:SingleSiliconMaterialFrameFeatureConstructor.get_features"]}
{"id": "C28", "title": "Feature and goal modules agree when several silicons are seen", "statement": "When an observation shows several silicons, features and reward use the silicon nearest the image centre, in both feature constructors, and feature construction does not fail.", "quantifier": "every observation with two or more silicons", "why_tests_cant": "Multi-silicon detections are rare inputs tests do not cover.", "anchors": ["putting_dune/feature_constructors.py:_get_silicon_goal_delta", "putting_dune/graphene.py:get_single_silicon_position", "putting_dune/feature_constructors.py:SingleSiliconMaterialFrameFeatureConstructor.get_features"]}
{"id": "C29", "title": "Evaluation accounting", "statement": "evaluate returns one result per seed in order; each result's number of actions is the number of env.step calls, its reward is the sum of their rewards, reached_goal holds exactly when the last step was LAST with discount 0, no step is taken once the accumulated time has reached the timeout, and the loop stops after at most timeout/image_duration + 1 steps; a step limit that cannot be reached within the timeout changes nothing.", "quantifier": "every agent, suite of seeds, timeout, and environment whose observations take at least the image duration", "why_tests_cant": "Ranges over all agents and environment behaviours.", "anchors": ["putting_dune/eval_lib.py:evaluate"]}
{"id": "C30", "title": "Evaluation leaves the simulator's observers as found", "statement": "When evaluate returns, the list of observers attached to the simulator is exactly what it was before the call.", "quantifier": "every prior observer list, every run that returns normally", "why_tests_cant": "All prior observer lists including repeated ones.", "anchors": ["putting_dune/eval_lib.py:evaluate", "putting_dune/simulator.py:PuttingDuneSimulator.remove_observer"]}
{"id": "C31", "title": "Aggregates summarise the results", "statement": "aggregate_results reports the fraction of results that reached the goal (between 0 and 1) and averages over exactly the successful results (0 when there are none); it gives an answer for every list of results and does not depend on their order.", "quantifier": "every list of results, including the empty list and lists with no success", "why_tests_cant": "Boundary lists and permutations of all lists.", "anchors": ["putting_dune/eval_lib.py:aggregate_results"]}
{"id": "C32", "title": "Greedy agent heads for the neighbour nearest the goal", "statement": "The greedy agent selects, among the three neighbours in the observation, one whose offset is nearest the goal offset; without noise its action is the configured argmax vector turned by that neighbour's angle, so it has the same length and points along the neighbour when the argmax is on the positive x-axis.", "quantifier": "every feature vector, argmax and offset", "why_tests_cant": "All goal and neighbour configurations.", "anchors": ["putting_dune/agents/agent_lib.py:GreedyAgent.step"]}
{"id": "C33", "title": "Microscope agent labels steps correctly and survives lost silicon", "statement": "The first acted-on observation after reset is presented to the agent as FIRST unless it is terminal, later ones as MID, terminal ones as LAST with discount 0; when no silicon is visible a single rescan control with zero dwell is returned and the episode state is unchanged, so the first-step marker is not lost.", "quantifier": "every sequence of observations after a reset", "why_tests_cant": "All interleavings of lost-silicon observations and normal ones.", "anchors": ["putting_dune/microscope_agent.py:MicroscopeAgent.step", "putting_dune/microscope_agent.py:MicroscopeAgent.reset"]}
{"id": "C34", "title": "Experiment log is complete and consistent", "statement": "A logged agent behaves like the unlogged one (same controls, same errors handled); after flush every observation acted upon appears in exactly one step record and one trajectory, step records point to the episode record of their own episode, and flushing twice does not duplicate records.", "quantifier": "every sequence of reset/step/flush calls", "why_tests_cant": "All call histories.", "anchors": ["putting_dune/microscope_agent.py:MicroscopeAgentLogger"]}
{"id": "C35", "title": "Rotation is a counter-clockwise isometry", "statement": "rotate_coordinates by theta preserves distances and angles between points, rotating by a then b equals rotating by a+b, and rotating a point by minus its get_angles angle puts it on the positive x-axis at the same distance from the origin.", "quantifier": "every array of coordinates and all angles", "why_tests_cant": "All angles, all points.", "anchors": ["putting_dune/geometry.py:rotate_coordinates", "putting_dune/geometry.py:jnp_rotate_coordinates", "putting_dune/geometry.py:get_angles"]}
{"id": "C36", "title": "Simple rate law is a decreasing function of beam distance", "statement": "simple_canonical_rate_function gives rates in (0,1], equal to 1 exactly when the beam is on the neighbour, strictly smaller for a neighbour farther from the beam, invariant under translating and rotating everything together, and permuted when the neighbours are permuted.", "quantifier": "every beam position, silicon position and neighbour list", "why_tests_cant": "All geometric configurations.", "anchors": ["putting_dune/graphene.py:simple_canonical_rate_function"]}
{"id": "C37", "title": "Human-prior rate peaks towards the neighbour", "statement": "HumanPriorRatePredictor assigns the highest rate for a neighbour when the beam is displaced from the silicon by 0.85 bond lengths in the direction of that neighbour, and that highest rate is the configured maximum ln(2)/3.", "quantifier": "every silicon position, neighbour directions and beam position", "why_tests_cant": "The unit test only looks at positivity/shape; orientation must hold for all neighbour directions.", "anchors": ["putting_dune/graphene.py:HumanPriorRatePredictor.predict"]}
{"id": "C38", "title": "Random mixture rates never exceed the maximum rate", "statement": "A GaussianMixtureRateFunction with max_rate m gives rates between 0 and m for every beam position.", "quantifier": "every mixture (weights, means, covariances, scales) and every beam/neighbour position", "why_tests_cant": "Needs a bound over a continuous space of mixtures and positions.", "anchors": ["putting_dune/graphene.py:GaussianMixtureRateFunction.__call__", "putting_dune/graphene.py:GaussianMixtureRateFunction._normalizing_factor"]}
{"id": "C39", "title": "Rate predictor proposes exactly the three neighbour swaps", "statement": "For a sheet with one silicon the pristine rate predictor returns three successor states, one per nearest neighbour of the silicon, each with the sheet's positions unchanged and a single silicon at that neighbour, paired with that neighbour's non-negative rate.", "quantifier": "every sheet with exactly one silicon and at least four atoms, every beam position and predictor", "why_tests_cant": "All sheets and predictors.", "anchors": ["putting_dune/graphene.py:PristineSingleSiGrRatePredictor.__call__"]}
{"id": "C40", "title": "Generated sheet is a honeycomb", "statement": "In generated pristine graphene no two atoms are closer than one bond length (1.42 A), every atom away from the border has exactly three atoms at exactly one bond length, and these are its three nearest atoms.", "quantifier": "every number of columns, offset and rotation", "why_tests_cant": "All sizes; tests check one or two.", "anchors": ["putting_dune/graphene.py:_generate_hexagonal_grid", "putting_dune/graphene.py:generate_pristine_graphene"]}
{"id": "C41", "title": "Trajectories become consecutive transitions", "statement": "A trajectory of n observations yields n-1 transitions (none when n<=1), transition i joins observations i and i+1 with their grids, images and fields of view, no transition crosses two trajectories, and the control attached is the one issued between the two observations under the chosen convention.", "quantifier": "every list of trajectories of any lengths", "why_tests_cant": "All lengths and all trajectory lists.", "anchors": ["putting_dune/pipeline/trajectories_to_transitions.py:trajectories_to_transitions"]}
{"id": "C42", "title": "Every transition is either used or accounted for", "statement": "Turning transitions into rate-learning data points either keeps a transition or increments exactly one exclusion counter; the state label of a kept point is 0 when the silicon stayed and otherwise identifies the counter-clockwise rank of the neighbour it moved to.", "quantifier": "every list of transitions", "why_tests_cant": "All orders of exclusion conditions.", "anchors": ["putting_dune/pipeline/train_rate_learner.py:transitions_to_datapoints"]}
{"id": "C43", "title": "Symmetry augmentation is consistent", "statement": "Rotation augmentation by 120 degrees has order three, reflection is an involution, augmenting multiplies the data set by 3 (rotations) and 2 (reflection), and each augmented point describes the same physics: the distance from beam to the labelled neighbour and the rate of the labelled neighbour are unchanged; the no-transition label stays 0.", "quantifier": "every data set, every beam position, rate vector and state label", "why_tests_cant": "All data sets.", "anchors": ["putting_dune/rate_learning/data_utils.py:rotate_dataset", "putting_dune/rate_learning/data_utils.py:reflect_transition", "putting_dune/rate_learning/data_utils.py:augment_data", "putting_dune/rate_learning/data_utils.py:get_all_state_rotations"]}
{"id": "C44", "title": "Train and test data are disjoint and cover everything", "statement": "split_dataset and bootstrap_dataset produce train and test index sets that are disjoint and whose union is all indices; a bootstrap never leaks a training index into its test set.", "quantifier": "every data set size, split fraction and random draw", "why_tests_cant": "All sizes and draws.", "anchors": ["putting_dune/rate_learning/data_utils.py:split_dataset", "putting_dune/rate_learning/data_utils.py:bootstrap_dataset"]}
{"id": "C45", "title": "An epoch uses each example at most once", "statement": "One training epoch runs floor(n/batch) batches of exactly the batch size, and no example is used twice within the epoch.", "quantifier": "every data set size, batch size and permutation", "why_tests_cant": "All sizes and permutations.", "anchors": ["putting_dune/rate_learning/learn_rates.py:train_epoch"]}
{"id": "C46", "title": "Predicted rates are a split of the total rate", "statement": "The learned predictor's rates are non-negative and sum to the (ensemble-mean) total rate.", "quantifier": "every network output", "why_tests_cant": "All network outputs.", "anchors": ["putting_dune/rate_learning/learn_rates.py:LearnedTransitionRatePredictor.apply_model"]}
{"id": "C47", "title": "Rate-learning loss is finite and non-negative", "statement": "For every example with non-negative dwell time and rate the loss terms are finite and non-negative.", "quantifier": "every prediction and example", "why_tests_cant": "All real inputs, including zero dwell time and huge rates.", "anchors": ["putting_dune/rate_learning/learn_rates.py:batched_loss_fn"]}
{"id": "C48", "title": "Merging repeated detections conserves them", "statement": "naive_merge keeps count: the returned counts add up to the number of input detections and the count-weighted sum of positions equals the sum of all input positions; merged atoms number at least the first image's atoms.", "quantifier": "every list of detection arrays and every threshold", "why_tests_cant": "All detections and thresholds.", "anchors": ["putting_dune/alignment.py:naive_merge"]}
{"id": "C49", "title": "Clique merging conserves detections", "statement": "clique_merge counts every detection exactly once.", "quantifier": "every list of detection arrays", "why_tests_cant": "Needs overlapping maximal cliques.", "anchors": ["putting_dune/alignment.py:clique_merge"]}
{"id": "C50", "title": "Estimated drift is bounded and exact for rigid shifts", "statement": "align_latest returns a shift of length at most max_shift for every input, and when the new frame is a rigid shift of the reference small compared with atom spacing it recovers that shift.", "quantifier": "every frame, reference, number of iterations and noise", "why_tests_cant": "All inputs and noise.", "anchors": ["putting_dune/alignment.py:align_latest", "putting_dune/alignment.py:get_offsets"]}
{"id": "C51", "title": "Alignment does not modify its inputs", "statement": "Aligning or merging frames leaves the caller's arrays unchanged, and the result of a call does not depend on earlier calls.", "quantifier": "every call history", "why_tests_cant": "Needs two-call histories and aliasing.", "anchors": ["putting_dune/alignment.py:align_latest", "putting_dune/alignment.py:naive_merge", "putting_dune/alignment.py:IterativeAlignmentFiltering.__call__"]}
{"id": "C52", "title": "Atomic numbers are propagated from nearby originals", "statement": "propagate_atomic_numbers gives every merged atom the number of some original atom for which it is the nearest merged atom within the threshold, and the default number when there is none.", "quantifier": "every merged and original atom list", "why_tests_cant": "All geometric configurations.", "anchors": ["putting_dune/alignment.py:propagate_atomic_numbers"]}
{"id": "C53", "title": "Lattice classes are propagated to a two-colouring", "statement": "Propagation of graphene sub-lattice classes terminates, never changes an already classified atom, and on any bond graph whose seed classes come from a two-colouring it labels every atom reachable from the seeds with that colouring.", "quantifier": "every bond graph and seed set", "why_tests_cant": "All graphs.", "anchors": ["putting_dune/alignment.py:propagate_graphene_classes"]}
{"id": "C54", "title": "Re-framing an image keeps its shape", "statement": "pad_and_crop_images_by_fov returns an image of the same shape as the input for every pair of fields of view, returns the image unchanged when they are equal, and returns only padding when they are disjoint.", "quantifier": "every image size and pair of fields of view", "why_tests_cant": "All pairs of fields of view.", "anchors": ["putting_dune/alignment.py:pad_and_crop_images_by_fov"]}
{"id": "C55", "title": "Alignment history is bounded", "statement": "The aligners never keep more than their configured history length, keep the most recent frames in order, and a reset forgets all frames.", "quantifier": "every sequence of calls and resets", "why_tests_cant": "All call histories.", "anchors": ["putting_dune/alignment.py:ImageAligner", "putting_dune/alignment.py:IterativeAlignmentFiltering"]}
{"id": "C56", "title": "Trajectory alignment only moves fields of view", "statement": "Aligning a trajectory keeps the number and order of observations, their controls, times and images and the size of every field of view; without relabelling the grids are untouched; the last alignment round uses full step size.", "quantifier": "every trajectory, number of iterations and aligner output", "why_tests_cant": "All trajectories and aligners.", "anchors": ["putting_dune/pipeline/align_trajectories.py:do_alignment"]}
{"id": "C57", "title": "Drift bookkeeping", "statement": "Accumulating drifts adds up; applying a drift to an observation moves the field of view by the drift and the atoms by the jitter and keeps everything else of the observation.", "quantifier": "every observation and drift sequence", "why_tests_cant": "All sequences.", "anchors": ["putting_dune/microscope_utils.py:Drift"]}
{"id": "C58", "title": "Serialisation round trip", "statement": "Writing a grid, beam control, field of view, observation or trajectory to its protocol buffer and reading it back yields the same object up to rounding numbers to float32; a second round trip is exact; dwell and elapsed times below 16 s are recovered to the microsecond.", "quantifier": "every object of these types", "why_tests_cant": "All objects; float32 rounding of all values.", "anchors": ["putting_dune/microscope_utils.py:AtomicGrid.to_proto", "putting_dune/microscope_utils.py:BeamControl.to_proto", "putting_dune/microscope_utils.py:MicroscopeFieldOfView.to_proto", "putting_dune/microscope_utils.py:MicroscopeObservation.to_proto", "putting_dune/microscope_utils.py:Trajectory.to_proto"]}
{"id": "C59", "title": "Transition serialisation round trip", "statement": "A transition with any combination of present and absent images and label images survives to_proto/from_proto.", "quantifier": "all 16 combinations of optional images, all contents", "why_tests_cant": "Combinations of optional fields.", "anchors": ["putting_dune/microscope_utils.py:Transition.to_proto", "putting_dune/microscope_utils.py:Transition.from_proto"]}
{"id": "C60", "title": "Drift serialisation round trip", "statement": "A drift with fractional components survives to_proto/from_proto.", "quantifier": "every drift", "why_tests_cant": "All fractional drifts.", "anchors": ["putting_dune/microscope_utils.py:Drift.from_proto", "putting_dune/microscope_utils.py:Drift.to_proto"]}
{"id": "C61", "title": "Grid equality is an equivalence compatible with hashing", "statement": "AtomicGrid equality is reflexive, symmetric and transitive, and equal grids have equal hashes.", "quantifier": "all grids", "why_tests_cant": "All triples of grids.", "anchors": ["putting_dune/microscope_utils.py:AtomicGrid.__eq__", "putting_dune/microscope_utils.py:AtomicGrid.__hash__"]}
{"id": "C62", "title": "Record files round trip", "statement": "Reading a record file returns exactly the messages written to it in order; other extensions are rejected with ValueError; the alignment pipeline can read every file it lists in a directory.", "quantifier": "every list of messages and every file name", "why_tests_cant": "All names and lists.", "anchors": ["putting_dune/io.py:read_records", "putting_dune/io.py:write_records", "putting_dune/pipeline/align_trajectories.py:main"]}
{"id": "C63", "title": "Atom mask labels pixels by the atom covering them", "statement": "Every pixel of generate_grid_mask is 0 or the atomic number of an atom whose disc covers it (the last such atom), and every requested image size works.", "quantifier": "every grid, field of view and image size", "why_tests_cant": "All grids and non-square sizes.", "anchors": ["putting_dune/imaging.py:generate_grid_mask"]}
{"id": "C64", "title": "Jitter only moves pixels along rows", "statement": "apply_jitter permutes the pixels of each row cyclically, so every row keeps its multiset of intensities.", "quantifier": "every image and draw", "why_tests_cant": "All images.", "anchors": ["putting_dune/imaging.py:apply_jitter"]}
{"id": "C65", "title": "Detected atoms are in view and typed", "statement": "The detector returns atoms with atomic number 6 or 14 only, with positions inside the margin-reduced frame.", "quantifier": "every segmentation output", "why_tests_cant": "All segmentations.", "anchors": ["putting_dune/alignment.py:ImageAligner.process_detection_predictions", "putting_dune/atom_detector.py:AtomDetector"]}
{"id": "C66", "title": "Experiment registry lookups are stable", "statement": "A registered experiment can be looked up under its name, registering never replaces an existing experiment, and unknown names raise ValueError.", "quantifier": "every sequence of registrations and lookups", "why_tests_cant": "All registration orders.", "anchors": ["putting_dune/experiments/registry.py:register_eval_experiment"]}
{"id": "C67", "title": "Time stamps are well-formed", "statement": "format_timedelta renders a non-negative duration as MM:SS:CC with SS<60 and CC<100, within half a hundredth of the true value.", "quantifier": "every non-negative duration", "why_tests_cant": "Rounding boundaries.", "anchors": ["putting_dune/plotting_utils.py:format_timedelta"]}
{"id": "C68", "title": "Videos have one frame per control plus a final one", "statement": "The video of an event log has one frame per control plus one final frame, time stamps never decrease and the last equals the total time in the log.", "quantifier": "every event log produced by a simulator", "why_tests_cant": "All logs.", "anchors": ["putting_dune/plotting_utils.py:generate_video_from_simulator_events"]}
{"id": "C69", "title": "Starting an episode never fails on generated graphene", "statement": "With generated sheets (five or more columns), a goal range that includes one to two bond lengths and any of the feature constructors, reset returns whatever happened before, so a goal and an observation always exist.", "quantifier": "every draw of the sheet, field of view, silicon and goal, and every history before the reset", "why_tests_cant": "Whether an atom near a corner of the sheet has enough neighbours depends on the draw.", "anchors": ["putting_dune/putting_dune_environment.py:PuttingDuneEnvironment.reset", "putting_dune/graphene.py:generate_pristine_graphene"]}
{"id": "C70", "title": "The learned predictor gives the rates it was trained to give", "statement": "As the rate function of a simulator, a learned rate predictor returns, in the order of the neighbours asked for, the rates apply_model reports for the beam position: the split of the total rate over the neighbours in counter-clockwise order from the one nearest to the beam.", "quantifier": "every network, configuration, grid, beam position and neighbour order", "why_tests_cant": "Depends on the geometry of every neighbourhood; existing tests only look at shapes.", "anchors": ["putting_dune/rate_learning/learn_rates.py:LearnedTransitionRatePredictor.predict", "putting_dune/rate_learning/learn_rates.py:LearnedTransitionRatePredictor.package_model"]}
{"id": "C71", "title": "Synthetic examples agree with the prior", "statement": "Every synthetic example drawn from the prior stores the rates the prior assigns to its stored position, and a label that is 0 or a neighbour, drawn with the stored rates.", "quantifier": "every draw", "why_tests_cant": "All draws, including every rotation of the drawn example.", "anchors": ["putting_dune/rate_learning/data_utils.py:generate_synthetic_data"]}
{"id": "C72", "title": "Transitions follow the rates", "statement": "Under a control the silicon performs the jump process of the rate function: the time to the next transition is an exponential draw with mean one over the total rate of the sheet as it is then, a transition happens exactly if it falls within the dwell time, and its target is drawn with probabilities proportional to the rates.", "quantifier": "every rate function, generator, sheet and control", "why_tests_cant": "All schedules of draws; statistical tests cannot tell a process that reuses stale rates or drops the last transition.", "anchors": ["putting_dune/graphene.py:PristineSingleDopedGraphene.apply_control"]}
{"id": "C73", "title": "Hybrid alignment is consistent", "statement": "An image aligner with post-processing returns a grid and a drift that fit together: seen through the field of view corrected by the returned drift, the grid is the post-processed one, and the returned drift is the network's plus the correction. If post-processing raises, the detected grid and the network's drift are returned and the post-processing starts afresh; the first frame is returned as detected.", "quantifier": "every image, field of view, network output and aligner history", "why_tests_cant": "All histories and all post-processing outcomes, including exceptions.", "anchors": ["putting_dune/alignment.py:ImageAligner.__call__"]}
{"id": "C74", "title": "Alignments of trajectories are independent", "statement": "Aligning a trajectory gives the same result whatever the aligner was used for before, so the order in which trajectories are aligned does not matter.", "quantifier": "every trajectory, aligner history and number of rounds", "why_tests_cant": "Needs all earlier uses of the aligner.", "anchors": ["putting_dune/pipeline/align_trajectories.py:do_alignment", "putting_dune/alignment.py:ImageAligner.reset"]}
{"id": "C75", "title": "Clean images show every atom at its place", "statement": "The clean image of a grid has the asked size; before blurring, the intensity of a pixel is the sum of Z**exponent over the atoms in the pixel's square, with x to the right and y upwards; with a buffer around the view atoms are shown within one pixel of their place, and exactly there if the buffer is a whole number of pixels; if an atom is in view the values lie between 0 and 1 and the largest is 1.", "quantifier": "every grid, field of view, size, exponent and non-negative buffer", "why_tests_cant": "Off-by-one pixels, transposition and flips show only for particular positions and sizes.", "anchors": ["putting_dune/imaging.py:generate_clean_image"]}
{"id": "C76", "title": "Image, mask and detector agree on where an atom is", "statement": "An atom in view is drawn in the pixel of the image that contains it, the mask of the same size shows its atomic number at that pixel if pixels are small against the atom's disc and no later atom covers it, and converting that pixel back with the detector's formula gives the atom's position to within a pixel.", "quantifier": "every atom, square image size and field of view", "why_tests_cant": "All positions and sizes; training pairs that are off by a flip or a pixel still train.", "anchors": ["putting_dune/imaging.py:generate_clean_image", "putting_dune/imaging.py:generate_grid_mask", "putting_dune/alignment.py:ImageAligner.compute_centroids"]}
{"id": "C77", "title": "Rendering never fails", "statement": "generate_stem_image gives the noise stages an image it can use for every grid and field of view: rates that are not negative and no undefined values.", "quantifier": "every grid, field of view and image size", "why_tests_cant": "Views without atoms are rare in tests.", "anchors": ["putting_dune/imaging.py:generate_stem_image", "putting_dune/imaging.py:apply_poisson_noise"]}
{"id": "C78", "title": "Atoms look round", "statement": "The blur of a rendered atom has the same width in angstroms along both axes of the sheet.", "quantifier": "every field of view and image size", "why_tests_cant": "Shows only for fields of view that are not square.", "anchors": ["putting_dune/imaging.py:generate_clean_image"]}
{"id": "C79", "title": "Predictions follow the latest training", "statement": "After any sequence of training, distilling, saving, loading and predicting, the learned predictor's predictions are those of the parameters it holds at that time.", "quantifier": "every history of calls on a predictor", "why_tests_cant": "Needs histories in which predictions and training alternate.", "anchors": ["putting_dune/rate_learning/learn_rates.py:LearnedTransitionRatePredictor.predict", "putting_dune/rate_learning/learn_rates.py:LearnedTransitionRatePredictor.package_model", "putting_dune/rate_learning/learn_rates.py:LearnedTransitionRatePredictor.train"]}
{"id": "C80", "title": "A saved predictor can be loaded back", "statement": "Loading what a predictor saved gives a predictor with the same predictions and the same modelled rates, whatever the loading predictor was used for before; other directories and steps are not touched.", "quantifier": "every predictor, directory, step and history of the loading predictor", "why_tests_cant": "Round trips must hold for all parameters, network states and earlier histories.", "anchors": ["putting_dune/rate_learning/learn_rates.py:LearnedTransitionRatePredictor.save", "putting_dune/rate_learning/learn_rates.py:LearnedTransitionRatePredictor.load", "putting_dune/rate_learning/learn_rates.py:LearnedTransitionRatePredictor.apply_model"]}
{"id": "C81", "title": "Interrupted training resumes where it stopped", "statement": "However often training is interrupted and started again, a run continues after the last saved epoch, so that when training completes exactly the configured number of epochs has been applied, and every completed epoch is progress.", "quantifier": "every number of epochs and every schedule of crashes", "why_tests_cant": "All crash points.", "anchors": ["putting_dune/image_alignment/train.py:train", "putting_dune/atom_detection/train.py:train", "putting_dune/graph_alignment/train.py:train"]}
{"id": "C82", "title": "Reported accuracy is the fraction of pixels classified correctly", "statement": "The accuracy reported in training and evaluation is the fraction of pixels whose most likely class is the labelled one; in particular it is 1 exactly for a network that classifies every pixel correctly.", "quantifier": "every batch of labels and outputs", "why_tests_cant": "A wrong axis shows only for batches with several classes.", "anchors": ["putting_dune/image_alignment/train.py:eval_step", "putting_dune/atom_detection/train.py:eval_step"]}
{"id": "C83", "title": "Segmentation labels say what the mask shows", "statement": "The training label of a pixel is one-hot: background, carbon or silicon as painted in the mask of a grid of carbons and silicons; and the classes the aligner's detector reads from a network that reproduces the labels are those of the mask.", "quantifier": "every grid of carbons and silicons, field of view and size", "why_tests_cant": "All masks.", "anchors": ["putting_dune/image_alignment/dataset.py:RemapAndOneHotMask", "putting_dune/atom_detection/dataset.py:RemapAndOneHotMask", "putting_dune/imaging.py:generate_grid_mask"]}
{"id": "C84", "title": "Rates are predicted in the coordinates they are learned in", "statement": "For the same silicon, neighbours and beam, the learned predictor asks its network at the beam position that the pipeline records as training data, and numbers the neighbours in the same order.", "quantifier": "every silicon, neighbours and beam position", "why_tests_cant": "Relates two programs for all inputs.", "anchors": ["putting_dune/rate_learning/learn_rates.py:LearnedTransitionRatePredictor.predict", "putting_dune/pipeline/train_rate_learner.py:transitions_to_datapoints", "putting_dune/rate_learning/data_utils.py:standardize_beam_and_neighbors"]}
{"id": "C85", "title": "Ensemble members get sound data", "statement": "For every member of an ensemble, each training and test row is a symmetric copy of one original example (label, time, rates, context and position from the same example), no original example is used for both training and testing of a member when a test fraction or the bootstrap is used, and all members get equally many rows.", "quantifier": "every data set, number of members, draw and test fraction", "why_tests_cant": "All draws and sizes.", "anchors": ["putting_dune/rate_learning/learn_rates.py:create_dataset_splits"]}
{"id": "C86", "title": "Stacking keeps examples together", "statement": "Row i of each stacked array comes from data point i, in the order given, and the context holds current, voltage and dwell time in that order, as asked for.", "quantifier": "every list of data points and choice of context", "why_tests_cant": "All lists.", "anchors": ["putting_dune/pipeline/train_rate_learner.py:stack_data"]}
{"id": "C87", "title": "Uploaded microscope data say what happened", "statement": "A converted microscope data set has one observation for each recorded frame; its atoms are the recorded coordinates as fractions of the image, with silicon exactly at the recorded dopants; its fields of view have the recorded sizes and move by the recorded shifts; and its controls are in the frame in which the rest of the pipeline reads them.", "quantifier": "every recorded data set", "why_tests_cant": "All lengths, shifts and image formats.", "anchors": ["putting_dune/pipeline/upload_microscope_data.py:convert_dataset_to_proto", "putting_dune/pipeline/upload_microscope_data.py:load_dataset"]}
{"id": "C88", "title": "Uploads keep data sets apart", "statement": "Different data set directories are uploaded under different names, so that none overwrites another.", "quantifier": "every set of directories", "why_tests_cant": "All names.", "anchors": ["putting_dune/pipeline/upload_microscope_data.py:main"]}
{"id": "C89", "title": "Parameter names survive checkpoints", "statement": "Replacing slashes and tildes in parameter names when saving and putting them back when restoring gives the original parameters.", "quantifier": "every set of parameter names", "why_tests_cant": "All strings.", "anchors": ["putting_dune/graph_alignment/train.py:sanitize_state_keys"]}
{"id": "C90", "title": "The stand-alone detector believes its network", "statement": "A pixel away from carbon counts as silicon when the network takes it for silicon, a pixel which the network takes for carbon does not count as silicon, and a pixel counts as carbon exactly when the network sees carbon there.", "quantifier": "every image size and all probabilities (single-precision bit patterns)", "why_tests_cant": "All bit patterns; single examples only show probabilities that are exactly 0 or 1.", "anchors": ["putting_dune/atom_detector.py:AtomDetector.__call__"]}
{"id": "C91", "title": "A packed model is the model that is loaded", "statement": "Packing a trained model into an archive and making an aligner or a detector from the archive gives one that uses that model, whatever was unpacked before and whatever failed before.", "quantifier": "every saved model, temporary directory, earlier contents of the disk, and history of failures", "why_tests_cant": "All histories and crash points.", "anchors": ["putting_dune/alignment.py:ImageAligner.from_path", "putting_dune/atom_detector.py:AtomDetector.from_url", "putting_dune/image_alignment/save_model.py:save", "putting_dune/atom_detection/save_model.py:save"]}
{"id": "C92", "title": "The networks score each pixel from its surroundings", "statement": "Both segmentation networks take exactly the images whose sides are multiples of 16 and give each pixel one score per class (and one drift estimate, made from averages over the whole image, for the aligner); the scores of a pixel depend only on the image up to 76 pixels above or left and 61 below or right of it (82 and 67 for the aligner).", "quantifier": "all weights, image sizes and pixels (for any number of depths)", "why_tests_cant": "All weights and sizes.", "anchors": ["putting_dune/atom_detection/model.py:UNet", "putting_dune/image_alignment/model.py:GlobalLocalUNet"]}
{"id": "C93", "title": "Images and labels stay together in training examples", "statement": "When stored microscope images and their label masks are brought to the size of the network, every pixel of a training example carries the intensities and the labels of one and the same stored pixel, the one at the same relative position, at every time step (or the labels of the last time step only); examples of the right size are not changed; and the aligner reads from the network's output, for a time step, the scores that were trained for that time step.", "quantifier": "every stored size and network size, number of time steps and pixel, both modes of labelling, and every time index", "why_tests_cant": "All sizes and pixels: different rounding for images and masks shows only at particular sizes.", "anchors": ["putting_dune/image_alignment/dataset.py:ResizeImage", "putting_dune/image_alignment/dataset.py:SelectFinalTimestep", "putting_dune/image_alignment/dataset.py:make_dataset", "putting_dune/atom_detection/dataset.py", "putting_dune/alignment.py:ImageAligner.__call__"]}
{"id": "C94", "title": "The filtering aligner does not depend on the origin of coordinates", "statement": "If every grid given to an IterativeAlignmentFiltering and every shift it is told about are expressed in coordinates whose origin lies elsewhere, its drifts, atomic numbers and exceptions are the same and the merged grids are those of the old coordinates, moved. If the origin moves between two observations and the aligner is told with apply_shift, it goes on as if nothing had moved.", "quantifier": "every setting, clusterer, finder of cliques, sequence of random draws, origin, and history of resets, shifts and observations, including observations that raise", "why_tests_cant": "a dependence on absolute coordinates shows up only far from the origin or after particular histories of moves of the field of view; tests use a few grids near the origin", "anchors": ["putting_dune/alignment.py:IterativeAlignmentFiltering", "putting_dune/alignment.py:get_lattice_clusterer", "putting_dune/alignment.py:classify_lattice_types", "putting_dune/alignment.py:align_latest", "putting_dune/alignment.py:naive_merge", "putting_dune/alignment.py:clique_merge", "putting_dune/alignment.py:propagate_atomic_numbers"]}
{"id": "C95", "title": "The filtering aligner follows a rigid specimen exactly", "statement": "If atoms that are at least sigma apart are observed repeatedly, each time displaced by less than half of sigma, less than 2 angstroms and at most max_shift from the first observation, and the first observation is accepted, then without noise every call returns exactly the atoms first seen with their atomic numbers, and exactly the displacement. With naive merging the atoms keep their order; with clique merging (merge cutoff below sigma, raw frames accumulated) they are the same atoms in some order.", "quantifier": "every grid of at least three atoms, spacing, number of observations, displacement of each, history length of at least 1, clusterer, finder of cliques and setting with at least one alignment iteration and a trim that leaves an atom", "why_tests_cant": "exactness over arbitrarily long histories, with the history cut at different lengths, cannot be settled by a finite sequence of observations", "anchors": ["putting_dune/alignment.py:IterativeAlignmentFiltering", "putting_dune/alignment.py:align_latest", "putting_dune/alignment.py:naive_merge", "putting_dune/alignment.py:clique_merge", "putting_dune/alignment.py:propagate_atomic_numbers"]}
{"id": "C96", "title": "The classes of atoms are the two sub-lattices", "statement": "classify_lattice_types gives all atoms of one sub-lattice of graphene one class and all atoms of the other sub-lattice the other class, in every orientation of the lattice and whatever the order of an atom's neighbours. The clusters are fitted with the directions from each atom to the three nearest to it, in increasing order.", "quantifier": "every grid of atoms of two kinds with bonds only between different kinds, every direction of the bonds, every order of the neighbours of an atom by distance, every pair of cluster centres and deviation of bonds and centres from the ideal directions within a stated tolerance", "why_tests_cant": "the features are angles with a jump at 180 degrees, in an order that depends on tiny differences of distances; a test sees a few orientations only", "anchors": ["putting_dune/alignment.py:classify_lattice_types", "putting_dune/alignment.py:get_lattice_clusterer", "putting_dune/alignment.py:propagate_graphene_classes", "putting_dune/geometry.py:get_angles"]}
{"id": "C97", "title": "The learning rate lasts until the end of training", "statement": "When a training program is run with a positive learning rate and there is at least one step to make, the learning rate rises in equal steps to the configured one during the first fifth of an epoch, never exceeds it, falls from there on without rising again, and is positive at every later step, so that every batch has an effect.", "quantifier": "every learning rate, number of epochs and of steps per epoch, every optimiser state, direction of descent and sequence of batches", "why_tests_cant": "a schedule that ends too early shows up only in the last of many thousand steps, as parameters that no longer move", "anchors": ["putting_dune/atom_detection/train.py:train", "putting_dune/image_alignment/train.py:train", "putting_dune/graph_alignment/train.py:train"]}
{"id": "C98", "title": "Padding does not count in training graph alignment", "statement": "The loss and the reported errors of training graph alignment depend on the atoms of the examples only: not on what is predicted for points that fill up the arrays, nor on how they are labelled, nor on how many there are. The loss is a number whenever there are examples, and it is zero exactly when all drifts and all displacements of atoms that count are predicted as labelled.", "quantifier": "every batch, mask, label, prediction, amount of padding, weight of the local loss and first time step that counts", "why_tests_cant": "the amount of padding differs between examples, and only its effect on every possible batch shows whether it counts", "anchors": ["putting_dune/graph_alignment/train.py:train_step"]}
{"id": "C99", "title": "Playing never fails", "statement": "With generated graphene of at least five columns, goals between one and two bond lengths included in the goal range, one of the provided feature constructors and rate functions, and dwell times below an hour, no reset raises and no step with an action of the right number of entries raises, whatever values the action has and whatever happened before, including steps with ill-formed actions. A step returns a time step as soon as the transitions drawn fill the dwell time.", "quantifier": "every history of resets, steps with actions of any size and values, seeding and changes of observers; every further reset or step; every lawful random generator; every adapter", "why_tests_cant": "an exception in the middle of training depends on where the silicon has wandered after thousands of random transitions", "anchors": ["putting_dune/putting_dune_environment.py:PuttingDuneEnvironment.step", "putting_dune/putting_dune_environment.py:PuttingDuneEnvironment.reset", "putting_dune/simulator.py:PuttingDuneSimulator.step_and_image", "putting_dune/graphene.py:PristineSingleDopedGraphene.apply_control"]}
{"id": "C100", "title": "Random mixtures are proper rate functions and survive saving", "statement": "A randomly sampled mixture rate function has at least one component, weights that are not negative and sum to one, a maximal rate in [0.01, 1], distances in [-2, 3] and variances in [0.1, 5]; on every regular sheet it proposes three moves, to the atoms nearest to the silicon, with rates that are not negative, so that an environment with it can be played. Every mixture in these ranges, with any number of components, can come up. Saved to a directory, it is loaded from there unchanged, whatever else is saved elsewhere.", "quantifier": "every lawful random generator and state; every sheet and beam position; every content of the directories and every sequence of later saves elsewhere", "why_tests_cant": "a parameter drawn from the wrong range or stored under the wrong key gives plausible rates", "anchors": ["putting_dune/graphene.py:GaussianMixtureRateFunction.sample_new", "putting_dune/graphene.py:GaussianMixtureRateFunction.serialize_to_directory", "putting_dune/graphene.py:GaussianMixtureRateFunction.deserialize_from_directory"]}
{"id": "C101", "title": "Equality of rate functions", "statement": "Comparing mixture rate functions with == is an equivalence, and equal ones give the same rates up to a small relative error.", "quantifier": "all mixture rate functions, sheets and beam positions", "why_tests_cant": "tests compare one function with its copy, and one with a very different one", "anchors": ["putting_dune/graphene.py:GaussianMixtureRateFunction.__eq__"]}
{"id": "C102", "title": "The best model is the one that is packed", "statement": "Packing a trained detector packs the state after the epoch with the highest accuracy on the test images; packing a trained aligner packs the state with the lowest sum of loss and drift error; what the graph aligner's checkpoints name as best is the state with the lowest loss. This holds for every course of training, interrupted or not, over all epochs that were evaluated.", "quantifier": "every training and evaluation outcome, every number of epochs, every sequence of interrupted and completed runs", "why_tests_cant": "whether greatest means best depends on the sign of the metric, and what is left out depends on where training was interrupted", "anchors": ["putting_dune/atom_detection/save_model.py:save", "putting_dune/image_alignment/save_model.py:save", "putting_dune/atom_detection/train.py:train", "putting_dune/image_alignment/train.py:train", "putting_dune/graph_alignment/train.py:train"]}
{"id": "C103", "title": "The shipped experiments run as declared", "statement": "The environment of every training and evaluation experiment in the package can be reset and stepped in any order with any action of the declared size: nothing raises, and every observation has the declared shape. Evaluating either experiment with the random agent on any of the shipped suites completes, with one result per seed in the order of the suite and fewer than 300 actions per episode. Unknown experiments and suites are refused. Every experiment has a name of its own, the training experiments are what their names say, and adapters that place the beam relative to the silicon are given a reach of one to three bonds.", "quantifier": "every shipped experiment, every sequence of calls and actions, every seed, every stream of random numbers, every suite", "why_tests_cant": "the tests run one seed of a few experiments for a few steps; the claim is for all streams of random numbers and histories", "anchors": ["putting_dune/experiments/registry.py:_TRAIN_EXPERIMENTS", "putting_dune/experiments/registry.py:_EVAL_EXPERIMENTS", "putting_dune/feature_constructors.py:FeatureConstructor.observation_spec", "putting_dune/run_helpers.py:create_putting_dune_env", "putting_dune/eval.py:main"]}
{"id": "C104", "title": "Agents act within the declared actions", "statement": "For every experiment in the package with a random or a greedy agent, every action the agent returns has an entry for each declared one, and each entry is within its declared bounds; random agents draw afresh for every observation.", "quantifier": "every shipped experiment with such an agent, every observation of the declared shape, every stream of random numbers", "why_tests_cant": "tests check that an action is returned; the bounds must hold for every observation", "anchors": ["putting_dune/experiments/registry.py:_MICROSCOPE_EXPERIMENTS", "putting_dune/agents/agent_lib.py:UniformRandomAgent", "putting_dune/agents/agent_lib.py:GreedyAgent.step", "putting_dune/action_adapters.py:RelativeToSiliconActionAdapter.action_spec"]}
{"id": "C105", "title": "Greedy experiments aim along a bond", "statement": "The experiments greedy_on_neighbor, greedy_short_of_neighbor and greedy_from_learned_rates_v3 turn an image of one silicon into a single control of five seconds, 1.42, 0.58 and 1.8686869 angstroms from the silicon in the direction of one of its three nearest atoms, namely one nearest the goal, whenever that point is in view; so with a bond of 1.42 angstroms greedy_on_neighbor hits that atom.", "quantifier": "every image of one silicon and three or more other atoms, every field of view, goal and stream of random numbers", "why_tests_cant": "features, agent and adapter are tested apart; that their frames and units fit together for every field of view is not", "anchors": ["putting_dune/experiments/registry.py:_get_greedy_agent", "putting_dune/feature_constructors.py:SingleSiliconMaterialFrameFeatureConstructor.get_features", "putting_dune/agents/agent_lib.py:GreedyAgent.step", "putting_dune/action_adapters.py:RelativeToSiliconMaterialFrameActionAdapter.get_action"]}
{"id": "C106", "title": "Graph alignment sees points as a set, relative to each other", "statement": "The graph alignment network gives the same drifts, and the same displacement for each point, in whatever order the points of a time step are listed; moving all points by one vector, or points by whole lengths of the periodic box, changes nothing; and all pairs of points nearer than the cutoff exchange messages.", "quantifier": "all networks (weights), all examples, all reorderings of the points within time steps, all shifts, all sizes of the neighbour list", "why_tests_cant": "equality for every reordering and every network cannot be sampled; a neighbour list that is too short only shows for crowded examples", "anchors": ["putting_dune/graph_alignment/model.py:AlignmentGraphNetwork", "putting_dune/graph_alignment/model.py:GraphNetEncoder", "putting_dune/graph_alignment/model.py:create_sparse_neighbor_list", "putting_dune/graph_alignment/model.py:graph_network_neighbor_list", "putting_dune/graph_alignment/train.py:train_step"]}
{"id": "C107", "title": "Distillation aims at the ensemble's predictions", "statement": "Every step of distilling an ensemble minimises the squared distance, on average over a batch of random contexts, between the student's rates and those the ensemble's predictor reports, for one and the same ensemble through all epochs; each epoch reports the mean of these losses; the contexts are laid out like the training rows and have their mean and spread in every column, so that what never varied does not vary. A loss of zero means that predictions after distillation equal those before at the contexts of the batch.", "quantifier": "all networks, ensembles, optimisers, training data, numbers of epochs and batches, and random draws", "why_tests_cant": "whether loss and predictions are about the same function depends on the network's mode, and holds or fails for all weights at once", "anchors": ["putting_dune/rate_learning/learn_rates.py:distill_loss", "putting_dune/rate_learning/learn_rates.py:distill_train_epoch", "putting_dune/rate_learning/learn_rates.py:distill_multiple_models_to_single", "putting_dune/rate_learning/learn_rates.py:LearnedTransitionRatePredictor.distill", "putting_dune/rate_learning/learn_rates.py:LearnedTransitionRatePredictor.apply_model"]}
{"id": "C108", "title": "Inputs are standardised as they were in training", "statement": "In training, every input feature of a batch is moved to the mean and to at most the spread given by the normalisation's parameters. Predictions use a weighted average of the means and variances of all batches of training, later ones counting more and nothing of the initial state; so the mean lies within the range of the training data, the variance is not negative, and inputs within that range stay within fixed bounds. If all batches were alike, predictions standardise exactly as training did. A feature that never varied in training has no influence in training, but any other value of it is magnified more than 316 times in predictions.", "quantifier": "all numbers and sizes of batches, all data, all features, all parameters of the normalisation, all inputs", "why_tests_cant": "the running statistics depend on the whole history of batches", "anchors": ["putting_dune/rate_learning/learn_rates.py:get_mlp_fn", "putting_dune/rate_learning/learn_rates.py:train_epoch", "putting_dune/rate_learning/learn_rates.py:LearnedTransitionRatePredictor.apply_model"]}
{"id": "C109", "title": "Rendering with drawn parameters succeeds and gives a complete image", "statement": "The image parameters drawn for simulated images lie in fixed ranges with nothing negative and at least one electron expected at the brightest pixel. Rendering a view that shows an atom with such parameters, in particular any observation of a simulator, never raises and gives an image of the asked size all of whose pixels are numbers between 0 and 1; changing the contrast keeps the order of brightness, black and white; and an amount of zero salt-and-pepper noise changes nothing.", "quantifier": "all generators, grids, views, sound parameters, image sizes, noise draws, simulator histories", "why_tests_cant": "whether a stage divides by zero or spreads nan depends on random draws through eight stages", "anchors": ["putting_dune/imaging.py:sample_image_parameters", "putting_dune/imaging.py:sample_noisy_image_parameters", "putting_dune/imaging.py:generate_stem_image", "putting_dune/imaging.py:apply_salt_and_pepper_noise", "putting_dune/imaging.py:apply_contrast", "putting_dune/imaging.py:apply_uniform_noise", "putting_dune/imaging.py:apply_exponential_noise", "putting_dune/imaging.py:apply_gaussian_noise"]}
{"id": "C110", "title": "The estimated scale of a lattice is exact and robust", "statement": "The estimated scale of a set of atoms relative to standard graphene does not depend on their order, is multiplied by c when all distances are, and is a number exactly if there are two atoms. If all but a quarter of the atoms have three others within a distance, and all but a quarter none nearer than another distance, the estimated bond lies between the two; so for atoms at least a bond apart, all but a quarter of which have three neighbours at that distance, it is exact. For every generated sheet of at least 25 columns, stretched by c and moved or turned in any way, the estimate is exactly c.", "quantifier": "all finite sets of atoms, all maps that multiply distances by a constant, all sheet sizes from 25 columns, offsets and angles", "why_tests_cant": "sorting and trimming act on all distances at once; how many atoms lie at an edge depends on the size of the sheet", "anchors": ["putting_dune/alignment.py:get_graphene_scale_factor", "putting_dune/graphene.py:generate_pristine_graphene"]}
{"id": "C111", "title": "A packaged agent that is loaded is the agent that was published", "statement": "Asking the registry for a trained agent whose directory does not exist yet gives exactly the model in its archive and removes the downloaded file. Once loaded, the agent stays the same after any history of asking for agents, whatever becomes of their downloads. A failed download, or an archive without the agent's directory, is an error, and a failed download is made up for by the next call.", "quantifier": "all disks, models, agent names, histories of calls, and points at which a download or unpacking fails", "why_tests_cant": "the directory persists between runs; a crash can fall between any two files being unpacked", "anchors": ["putting_dune/experiments/registry.py:_TfAgentCreator", "putting_dune/agents/tf_eval_agent.py:TfEvalAgent"]}
{"id": "C112", "title": "Training an ensemble uses what it was given, and reports what it did", "statement": "Training completes if every member has enough rows for one batch. The network of a member depends on its own training data only: not on test data, on other members' data, or on any example that was not drawn for it. There is one report per epoch; the last is about the networks that are kept: mean losses on neighbour and total rate over the member's data, and the loss that is minimised.", "quantifier": "all networks, optimisers, ensembles, data sets, draws and keys", "why_tests_cant": "leaks and mixed-up metrics do not show in any single run; independence relates two runs", "anchors": ["putting_dune/rate_learning/learn_rates.py:train_epoch", "putting_dune/rate_learning/learn_rates.py:train_model", "putting_dune/rate_learning/learn_rates.py:train_multiple_models", "putting_dune/rate_learning/learn_rates.py:LearnedTransitionRatePredictor.train"]}
{"id": "C113", "title": "Plots of a rate function show its rates", "statement": "For a sheet with one silicon: the raster plot has, for each of the three neighbours, exactly one value per raster point, namely the predicted rate of moving there with the beam at that point relative to the silicon; contours and neighbour share a colour and different neighbours have different ones. The plot along the vector to a neighbour has exactly the rate towards that neighbour for each multiple of the vector. The plot along an arc has the three rates under fixed numbers, and their sum as the total. Moving the sheet changes nothing. A sheet without a single silicon raises ValueError.", "quantifier": "all sheets, rate functions proposing three neighbours (in particular all predictors of the package), extents, numbers of points and orders in which a set is gone through", "why_tests_cant": "a mixed-up neighbour or colour still gives a plausible picture; set order is not fixed by Python", "anchors": ["putting_dune/plotting_utils.py:plot_rate_function3", "putting_dune/plotting_utils.py:plot_rate_along_neighbor_vector3", "putting_dune/plotting_utils.py:plot_rate_along_arc3", "putting_dune/plotting_utils.py:_center_grid_on_single_silicon"]}
{"id": "C114", "title": "Every learner the training script offers gives a usable rate predictor", "statement": "For each of the seven learner types of the training script, training on recorded transitions whose requested currents and voltages are present completes. The scikit-learn learners give, for every input, three rates: the means over the members of the probabilities of moving to neighbours 1, 2 and 3; the accuracies reported for a member are the fractions of the training and of the test examples it decides correctly. The two networks are saved with the medians of the recorded contexts, and a predictor that loads what was saved predicts what the trained network gives at those medians.", "quantifier": "all recorded data sets, labels between 0 and 3, all fitted parameters, all classifiers with the documented behaviour of scikit-learn, all inputs, all predictors that load the result", "why_tests_cant": "which states a bootstrapped member happens to see depends on the data and the seed; runs of the script take hours, so tests train none of the learners to the end", "anchors": ["putting_dune/pipeline/train_rate_learner.py:get_sklearn_classifier", "putting_dune/pipeline/train_rate_learner.py:train_sklearn_classifier", "putting_dune/pipeline/train_rate_learner.py:main", "putting_dune/rate_learning/learn_rates.py:LearnedTransitionRatePredictor.save"]}
{"id": "C115", "title": "The picture of learned rates shows the predictor's rates", "statement": "For a predictor of three rates, a range, a number of points and optional fixed contexts: the picture of each neighbour shows, at every point of the largest square grid about the silicon with at most that many points, the predicted rate towards that neighbour with the beam there and the given contexts. The marked point is one of the grid where the rate is largest, and the largest rates are returned. Contour, mark and neighbour share a colour, the colours differ, and the neighbours are drawn counterclockwise.", "quantifier": "all predictors that give three rates, ranges, numbers of points and fixed contexts", "why_tests_cant": "a picture with swapped axes or neighbours looks as plausible as the right one, most of all for symmetric rates", "anchors": ["putting_dune/rate_learning/learn_rates.py:visualize_rates", "putting_dune/pipeline/train_rate_learner.py:main"]}
{"id": "C116", "title": "A logging block writes the log exactly when it ends without an exception", "statement": "A with block of an agent logger that ends without an exception leaves on disk every observation given to step, in order, as one trajectory per stretch between resets, with one step record per observation and one episode record per trajectory. If a call in the block raises, or the caller does, that exception leaves the block, later calls are not made, and nothing recorded is written. In particular one view without a silicon, to which the bare agent answers with a new scan, loses the whole log.", "quantifier": "all sequences of reset and step calls in the block, agents, goals, observations, and exceptions at any point", "why_tests_cant": "exceptions can come at any call of any history", "anchors": ["putting_dune/microscope_agent.py:MicroscopeAgentLogger.__exit__", "putting_dune/microscope_agent.py:MicroscopeAgentLogger.__enter__", "putting_dune/microscope_agent.py:MicroscopeAgentLogger.flush"]}
{"id": "C117", "title": "Rendering an environment shows its last observation", "statement": "After a reset or a step that returned, rendering the environment draws the last observation: a dot at each carbon and silicon where it is in the image, a cross at the goal, and after a step a dot at the beam. After a reset the silicon is in the middle, all atoms are within the axes and the cross lies exactly on one of the atoms.", "quantifier": "all environments, histories of calls and actions", "why_tests_cant": "holds after every history; the test renders only after a reset", "anchors": ["putting_dune/putting_dune_environment.py:PuttingDuneEnvironment.render", "putting_dune/plotting_utils.py:plot_microscope_frame"]}
{"id": "C118", "title": "The two pictures of a video frame show the same things", "statement": "Each frame of a video is drawn as a picture of the whole sheet and a picture of the field of view. The first shows every carbon and silicon, the goal, the control and the outline of the field of view in their places, all atoms within the axes with a margin of a twentieth, and the time at the lower left of the atoms. The second shows the same things as they lie in the field of view; a thing is within its axes exactly if it is within the outline in the first. All frames of a log that starts with a reset, has a control and holds sheets with atoms can be drawn, one per control and a last one.", "quantifier": "all logs, frames, sheets, fields of view with positive sides, goals and controls", "why_tests_cant": "all sheets, fields of view and logs", "anchors": ["putting_dune/plotting_utils.py:plot_material_frame", "putting_dune/plotting_utils.py:plot_microscope_frame", "putting_dune/plotting_utils.py:generate_video_from_simulator_events"]}
{"id": "C119", "title": "The training script shows the data it trains on", "statement": "Before training, the script prints how many data points there are of each of the four states and leaves two pictures in its working directory, one of the data points and one of their symmetric copies. Each picture shows every example exactly once, at its beam position, in the series of its state, with an opacity equal to its dwell time divided by the longest dwell time. Then the learner gets these data points.", "quantifier": "all recorded trajectories from which data points are kept, all working directories, all learners", "why_tests_cant": "all recordings and paths; the tests never run the script's main", "anchors": ["putting_dune/pipeline/train_rate_learner.py:main", "putting_dune/pipeline/train_rate_learner.py:visualize_data"]}
{"id": "C120", "title": "Drawing transitions does not disturb training", "statement": "With plot_transitions the script draws each kept transition once, into the directory of the state the silicon went to, and otherwise does what it does without it.", "quantifier": "all recorded trajectories, images and working directories", "why_tests_cant": "all recordings; the option is off by default and in every test", "anchors": ["putting_dune/pipeline/train_rate_learner.py:plot_transition", "putting_dune/pipeline/train_rate_learner.py:transitions_to_datapoints"]}
{"id": "C121", "title": "All recorded trajectories are loaded", "statement": "Loading trajectories from a file, several files or a directory gives the trajectories of all the files, in the order of the files and of their records. It succeeds exactly if every file has the right extension, exists and can be read to the end; otherwise it ends with the exception of the first that does not, and gives nothing.", "quantifier": "all sources, files and records", "why_tests_cant": "all sources and contents", "anchors": ["putting_dune/pipeline/train_rate_learner.py:load_trajectories_from_records"]}
{"id": "C122", "title": "Data points from simulated experiments tell what really happened", "statement": "If an experiment in the simulator is recorded, one beam control per step, and turned into training data with controls aligned to the step they caused, then the data points are those the true atoms call for: each step after which the silicon stayed or moved to one of its three neighbours gives one point with the control's dwell time, current and voltage, the beam's true place relative to the silicon in the frame of the neighbour nearest the beam, and the true outcome; a step after which it is elsewhere gives none and is counted; nothing raises. On sheets made by the generator this holds as long as the silicon stays away from the edge.", "quantifier": "all histories of the simulator before the reset, all numbers of steps, controls, random draws, rates and cutoffs", "why_tests_cant": "all histories and draws; tests check each stage on small hand-made inputs, never the composition against the true sheet", "anchors": ["putting_dune/simulator.py:PuttingDuneSimulator.reset", "putting_dune/simulator.py:PuttingDuneSimulator.step_and_image", "putting_dune/pipeline/trajectories_to_transitions.py:trajectories_to_transitions", "putting_dune/pipeline/train_rate_learner.py:transitions_to_datapoints", "putting_dune/graphene.py:generate_pristine_graphene"]}
{"id": "C123", "title": "An experiment starts with the silicon in the middle of the sheet", "statement": "On a generated sheet of at least twelve columns a reset always returns, and after it the only silicon is the atom nearest the origin, at most 1.55 \u00c5 from it, with three bonds and graphene all around. Every atom within 0.71 n - 6.39 \u00c5 of the origin of an n-column sheet has graphene around it, so an experiment that stays in that disc, or that is too short to leave it, gives exactly the data points the true atoms call for.", "quantifier": "all states before the reset, all random draws of offset and rotation, all numbers of columns, all records of steps", "why_tests_cant": "all draws and sizes; the mean of the lattice depends on the number of columns modulo 3 and on the parity of the rows, which tests sample at one size", "anchors": ["putting_dune/graphene.py:generate_pristine_graphene", "putting_dune/graphene.py:_generate_hexagonal_grid", "putting_dune/graphene.py:PristineSingleDopedGraphene.reset", "putting_dune/simulator.py:PuttingDuneSimulator.reset", "putting_dune/pipeline/train_rate_learner.py:transitions_to_datapoints"]}
{"id": "C124", "title": "The conversion program turns a file of trajectories into a file of transitions", "statement": "Run on a file of recorded trajectories, the program trajectories_to_transitions leaves in the target file, in order, one transition for each pair of consecutive observations of a trajectory, with the grids, fields of view, images and label images of the two and the controls applied between them, up to float32 rounding. It changes no other file, and writes nothing if the source cannot be read or the target's extension is not .tfrecords.", "quantifier": "all files, all numbers and lengths of trajectories, all observations, all simulated experiments", "why_tests_cant": "all contents and failure points; the tests call the conversion function only, never the program with its files", "anchors": ["putting_dune/pipeline/trajectories_to_transitions.py:main", "putting_dune/pipeline/trajectories_to_transitions.py:trajectories_to_transitions", "putting_dune/io.py:read_records", "putting_dune/io.py:write_records", "putting_dune/microscope_utils.py:Transition.to_proto"]}
{"id": "C125", "title": "The declared actions reach what they should", "statement": "Every action within the declared bounds is taken at face value, and the bounds leave nothing out. Placing the beam directly, the declared actions are exactly the positions of the image. Moving it, they are exactly the moves by at most a tenth of the image per axis; ten of them lead from anywhere to anywhere in the image, and n of them never lead farther than n tenths per axis. Aiming relative to the silicon, every position of the image within the maximal distance of the silicon along each axis, and every dwell time in the configured range, is reached by a declared action.", "quantifier": "every adapter, maximal distance, dwell range, observation with one silicon, position and dwell time", "why_tests_cant": "reachability asks for an action for every one of infinitely many targets and observations", "anchors": ["putting_dune/action_adapters.py:DirectActionAdapter.action_spec", "putting_dune/action_adapters.py:DeltaPositionActionAdapter.action_spec", "putting_dune/action_adapters.py:RelativeToSiliconActionAdapter.action_spec", "putting_dune/action_adapters.py:RelativeToSiliconMaterialFrameActionAdapter.get_action"]}
{"id": "C126", "title": "Training rewards the true rates", "statement": "If the silicon leaves its site towards its neighbours with fixed rates, so that an exposure of t seconds shows no transition with probability exp(-total*t) and otherwise a transition to each neighbour with a probability proportional to its rate, then on average no prediction has a smaller training loss than the true rates, and a prediction that does as well predicts the true rates. This holds for each exposure and for batches of exposures with different contexts and lengths. Every combination of positive rates can be expressed by a network's output.", "quantifier": "all positive rates, numbers of neighbours, exposure times, positive loss weights, network outputs and batches", "why_tests_cant": "the claim is about averages over random outcomes and a minimum over all network outputs", "anchors": ["putting_dune/rate_learning/learn_rates.py:batched_loss_fn", "putting_dune/rate_learning/learn_rates.py:LearnedTransitionRatePredictor.apply_model", "putting_dune/rate_learning/learn_rates.py:get_mlp_fn"]}
{"id": "C127", "title": "What happens under the beam has the probabilities of the rates", "statement": "Hold the beam at one place for less than an hour and let the random generator be perfect (independent exponential waiting times and choices with the probabilities asked for). Then for every sequence of times and sheets, the probability that an observer is told of exactly this sequence of transitions is the product of the probabilities of each waiting time under the total rate of the sheet at that time, of each successor in proportion to its rate, and of nothing more happening until the end. With several controls the probability is the product over the controls, each starting from the sheet that the one before left. In particular nothing happens with probability exp(-total*t), and the first transition is to a given neighbour with probability (1 - exp(-total*t)) times its share of the total rate, where t is the dwell time plus half a microsecond (times are rounded to microseconds).", "quantifier": "all perfect generators, rate functions without negative rates, sheets, beam positions, dwell times below an hour, lists of controls and histories", "why_tests_cant": "probabilities of histories cannot be read off runs; a wrong rate, a stale rate after a jump, or a biased choice shows up only in the limit of many runs", "anchors": ["putting_dune/graphene.py:PristineSingleDopedGraphene.apply_control", "putting_dune/graphene.py:Rates.total_rate", "putting_dune/simulator.py:PuttingDuneSimulator.step_and_image"]}
{"id": "C128", "title": "Holding the beam ends with probability one", "statement": "With a perfect random generator and a rate function of the package, applying a control of less than an hour returns with probability one, on every sheet with a single silicon and whatever observers do. The same holds for every step of the simulator with any number of controls, and for every step of an environment after any history of calls. Many transitions in one control are exponentially unlikely: at total rates of at most B, n or more transitions within an exposure of t seconds have at most the probability (1 - exp(-B*t))^n.", "quantifier": "all perfect generators, sheets with a single silicon and four or more atoms at different places, rate functions as in C39 and C99, controls below an hour, observers, histories and actions", "why_tests_cant": "the loop has no bound on its rounds; that it ends is a statement about all infinite sequences of draws but a null set", "anchors": ["putting_dune/graphene.py:PristineSingleDopedGraphene.apply_control", "putting_dune/simulator.py:PuttingDuneSimulator.step_and_image", "putting_dune/putting_dune_environment.py:PuttingDuneEnvironment.step"]}
{"id": "C129", "title": "Labels of simulated exposures follow the scored probabilities", "statement": "When a simulated beam control is applied, the sheet found afterwards is the old one, or the one with the silicon at a given neighbour, with exactly the probabilities that the loss of the rate learner assumes for the labels of an exposure: exp(-R t) for staying, and (1 - exp(-R t)) times the neighbour's share of the total rate R for moving there.", "quantifier": "every sheet, rate function with rates that are not negative, beam position, dwell time below an hour and every behaviour of the observers; probabilities over a perfect generator", "why_tests_cant": "A property of probability distributions over unboundedly many transitions within one control; a test samples a few seeds", "anchors": ["putting_dune/graphene.py:PristineSingleDopedGraphene.apply_control", "putting_dune/rate_learning/learn_rates.py:batched_loss_fn"]}
{"id": "C130", "title": "No atom is out of reach", "statement": "On every generated graphene sheet one can walk along bonds from each atom to every other, and under the beam the silicon can make such a walk: with the rate functions of the package, one beam control of any positive duration below an hour, wherever the beam is within a given distance, takes the silicon from any atom to any other with a probability that is bounded away from zero for the whole sheet.", "quantifier": "every sheet size, offset and rotation, every pair of atoms, every beam position within any given distance and every dwell time below an hour; the simple rates, the human prior and every mixture with proper parameters; probabilities over a perfect generator", "why_tests_cant": "Needs an induction over sheets of every size and a bound over all beam positions; a test can only watch a few runs, and an atom that is never reached cannot be told from one that is reached seldom", "anchors": ["putting_dune/graphene.py:generate_pristine_graphene", "putting_dune/graphene.py:PristineSingleDopedGraphene.apply_control", "putting_dune/graphene.py:HumanPriorRatePredictor.predict", "putting_dune/graphene.py:GaussianMixtureRateFunction.__call__", "putting_dune/geometry.py:nearest_neighbors3"]}
{"id": "C131", "title": "Every episode ends, whatever the agent does", "statement": "An episode that was started by a reset, after any history of calls, shows its last time step after finitely many steps with probability one, however the agent chooses its actions from all it was shown so far. The probability that the episode goes on for more than k steps falls geometrically in k, at a rate that does not depend on the agent, so that the mean number of steps is finite.", "quantifier": "every environment, with or without images, on generated sheets at least five cells wide with rates that never leave the silicon stuck (all those of the package), every history of calls before the reset, every sheet, silicon, goal and field of view it may produce, every policy that may look at all earlier time steps and returns actions of the right size, every number of steps; probabilities over a perfect generator", "why_tests_cant": "It is about infinite runs and about adversarial agents; no finite number of episodes with particular agents shows that none can avoid the end for ever", "anchors": ["putting_dune/putting_dune_environment.py:PuttingDuneEnvironment.step", "putting_dune/putting_dune_environment.py:PuttingDuneEnvironment.reset", "putting_dune/goals.py:SingleSiliconGoalReaching.calculate_reward_and_terminal", "putting_dune/simulator.py:PuttingDuneSimulator.step_and_image", "putting_dune/graphene.py:PristineSingleDopedGraphene.apply_control"]}
{"id": "C132", "title": "Starts, goals, beams and random actions are drawn evenly", "statement": "Whatever happened before, a reset lays out the sheet with offset and angle evenly distributed, and the side of the field of view evenly distributed from 15 to 30 \u00c5, all independent. Given the start, each of the atoms in view that may be a goal becomes the goal with the same probability. The delta adapter's first beam position is evenly distributed over the image, and the uniform random agent draws each entry of an action evenly from its declared range, independently of the other entries and of later draws.", "quantifier": "every environment (without images for the goals) on generated sheets at least five columns wide, every state before the reset, every measurable set of starts, every number of possible goals and every one of them; every action specification; probabilities over a perfect generator", "why_tests_cant": "A bias in a distribution shows in no single run, and samples can only make it unlikely", "anchors": ["putting_dune/putting_dune_environment.py:PuttingDuneEnvironment.reset", "putting_dune/graphene.py:generate_pristine_graphene", "putting_dune/simulator.py:PuttingDuneSimulator.reset", "putting_dune/goals.py:SingleSiliconGoalReaching.reset", "putting_dune/action_adapters.py:DeltaPositionActionAdapter.reset", "putting_dune/agents/agent_lib.py:UniformRandomAgent"]}
{"id": "C133", "title": "The discounted return of an episode is what its time is worth", "statement": "The discounted return of an episode (each reward counted with the product of the discounts before it) is 0.9967 to the power of the simulated seconds its steps took if it ends at the goal, and 0 if it is given up or cut short by the step limit; a goal reached at the very last step allowed counts. So of two episodes the one that reaches the goal in less time earns more, and any that reaches it earns more than any that does not. In the results of an evaluation this is 0.9967 to the power of the reported environment seconds less the first image, whereas the reported total reward of a success is the power for the last step's time alone, and 0 for a failure.", "quantifier": "every agent, every sequence of actions and random outcomes, every state the environment may be in, any step limit, timeout and seeds", "why_tests_cant": "A test plays a few short episodes; that the product of discounts telescopes to the whole time must hold for episodes of every length and every way of ending.", "anchors": ["putting_dune/putting_dune_environment.py:PuttingDuneEnvironment", "putting_dune/goals.py:SingleSiliconGoalReaching", "putting_dune/run_helpers.py:StepLimitWrapper", "putting_dune/eval_lib.py:evaluate"]}
{"id": "C134", "title": "For almost every stream of random numbers, nothing a client does hangs", "statement": "Let the random numbers be such that, however many were drawn, longer and longer waiting times are still to come (this is so for almost every stream of independent random numbers). Then, with these numbers fixed once and for all, whatever sequence of resets, steps (with actions of any size and values), seedings and observer changes a client performs, every reset and every step with an action of the right size in it returns; all registered training and evaluation environments answer every sequence of well-sized calls with observations of the declared shape; and evaluating the random agent on any suite runs to its end with a result for every seed, fewer than 300 actions each. No lower bound on the waiting times is assumed.", "quantifier": "all such streams (a set of probability one), all configurations with dwell times below an hour and regular rate functions, with or without images, all finite sequences of client operations, all seeds, all registered experiments and suites", "why_tests_cant": "The loop over transitions has no bound and the waiting times none from below, so whether a call returns depends on the whole future of the random stream; tests see a few streams and a few sequences of calls, but the claim fixes the stream first and then ranges over every sequence of calls, including ones chosen with knowledge of the stream.", "anchors": ["putting_dune/putting_dune_environment.py:PuttingDuneEnvironment", "putting_dune/graphene.py:PristineSingleDopedGraphene.apply_control", "putting_dune/simulator.py:PuttingDuneSimulator.step_and_image", "putting_dune/eval_lib.py:evaluate", "putting_dune/run_helpers.py:StepLimitWrapper", "putting_dune/experiments/registry.py:create_eval_experiment"]}
{"id": "C135", "title": "What agents do in environments can be trained on", "statement": "Every step of an environment leads to an observation with exactly one control, in view, with a dwell time in the adapter's range, at 60 kV and 0.1 nA. The observations of any episodes of an environment with generated sheets, played in any way and in any number, turn into data points without an error: each episode gives the points its true atoms call for, all other steps are counted, and every point tells of 60 kV, 0.1 nA and a time in the adapter's range. These points can be stacked with any choice of current and voltage as contexts, and training an ensemble on them by bootstrap completes if there are at least two and enough for one batch. The contexts are then the same in every row.", "quantifier": "all environments, adapters, histories before each episode, actions, random draws, numbers of episodes, choices of contexts, networks, optimisers and ensemble sizes", "why_tests_cant": "The claim joins five parts of the package (adapters, simulator, conversion to transitions, data points, training) over all ways of playing; each has its own unit tests on fixed inputs.", "anchors": ["putting_dune/action_adapters.py:DeltaPositionActionAdapter.get_action", "putting_dune/action_adapters.py:RelativeToSiliconActionAdapter.get_action", "putting_dune/microscope_utils.py:BeamControl", "putting_dune/putting_dune_environment.py:PuttingDuneEnvironment.step", "putting_dune/pipeline/trajectories_to_transitions.py:trajectories_to_transitions", "putting_dune/pipeline/train_rate_learner.py:stack_data"]}
{"id": "C136", "title": "Rounding does not keep the silicon from moving", "statement": "When a transition is due, the atom the silicon moves to is drawn from probabilities computed with floating point numbers. For three neighbours with any rates that are not negative and not all vanishing, numpy accepts these probabilities; each is the rate over the total rate up to two millionths, and zero if the rate is zero.", "quantifier": "all rates of three neighbours with a total of at least 2^-100 per second, and all positive float32 rates below that, both number types that rate functions return, and numpy 1 and 2", "why_tests_cant": "Whether rounded probabilities sum to one within numpy's tolerance depends on all bits of all rates; a test tries a few rates with the numpy that is installed.", "anchors": ["putting_dune/graphene.py:Rates.total_rate", "putting_dune/graphene.py:PristineSingleDopedGraphene.apply_control", "putting_dune/graphene.py:GaussianMixtureRateFunction.__call__"]}
{"id": "C137", "title": "Rounding does not take dwell times out of their range", "statement": "The dwell time that a relative adapter computes from an action, with floating point numbers and rounding to microseconds, lies in the adapter's range and is within a microsecond of the exact value. A fixed dwell time is exact.", "quantifier": "all ranges of dwell times of up to a day, all actions, actions of type float32 and float64, numpy 1 and 2", "why_tests_cant": "Five roundings follow each other, and the bound is met exactly at both ends of the range; a test tries a few actions with the numpy that is installed.", "anchors": ["putting_dune/action_adapters.py:RelativeToSiliconActionAdapter.get_action", "putting_dune/action_adapters.py:RelativeToSiliconMaterialFrameActionAdapter.get_action"]}
{"id": "C138", "title": "Small errors in positions do not change which atoms are neighbours", "statement": "If every atom of a generated sheet is seen up to a quarter of an Angstrom from where it is, the three nearest atoms of an inner atom are still its three neighbours, and the rate functions built on them propose the same three moves of the silicon. Rounding positions to single precision is such an error.", "quantifier": "all sheets, offsets and angles, all atoms with three neighbours, all displacements of up to 0.25 A, all nearest neighbour searches, rate functions and beam positions", "why_tests_cant": "The displacements are arbitrary and differ from atom to atom; a test tries a few random ones on one sheet.", "anchors": ["putting_dune/geometry.py:nearest_neighbors3", "putting_dune/graphene.py:PristineSingleSiGrRatePredictor.__call__", "putting_dune/graphene.py:GaussianMixtureRateFunction.__call__", "putting_dune/graphene.py:generate_pristine_graphene"]}
{"id": "C139", "title": "Rounding does not take atoms out of the picture", "statement": "With floating point numbers, too, the atoms seen are exactly those in the field of view, in order and with their numbers, and their coordinates lie between 0 and 1, bounds included, also after passing through a protocol buffer. The corners are converted exactly and the order of points is kept. A point converted to the frame of the microscope and back, and a beam position converted to the material, are off by at most 2^-50 of the largest coordinate of the corners.", "quantifier": "every sheet of atoms, every field of view with float64 corners and positive width and height, every point in it and every beam position from 0 to 1", "why_tests_cant": "Whether a quotient of rounded differences exceeds 1 depends on all bits of three numbers; tests compare a few points up to a tolerance.", "anchors": ["putting_dune/microscope_utils.py:MicroscopeFieldOfView.material_frame_to_microscope_frame", "putting_dune/microscope_utils.py:MicroscopeFieldOfView.microscope_frame_to_material_frame", "putting_dune/graphene.py:PristineSingleDopedGraphene.get_atoms_in_bounds", "putting_dune/microscope_utils.py:AtomicGrid.to_proto"]}
{"id": "C140", "title": "Rounding does not move the goal", "statement": "The goal is computed from an atom seen at the start of an episode, and whether the silicon has reached it from what is seen later, in a field of view that may have moved. With floating point numbers, too, the silicon counts as being at the goal exactly when it is the atom that was chosen; the silicon itself is never chosen as the goal, and any other atom in view can be if it is at most 48 A away.", "quantifier": "all generated sheets whose atoms are known up to 0.25 A, all pairs of atoms, all pairs of fields of view with float64 corners up to 2^40 A from the origin that show them, and the ways in which a linear algebra library may add squares", "why_tests_cant": "Six roundings in two fields of view enter a comparison; tests compare a few atoms in one field of view.", "anchors": ["putting_dune/goals.py:SingleSiliconGoalReaching.reset", "putting_dune/goals.py:SingleSiliconGoalReaching.calculate_reward_and_terminal", "putting_dune/microscope_utils.py:MicroscopeFieldOfView.microscope_frame_to_material_frame"]}
{"id": "C141", "title": "Rounding does not spoil the generated sheet", "statement": "Sheets of graphene are generated with floating point numbers. For sheets of up to 4096 columns the number of rows, the number of atoms and their order are those of exact arithmetic, and every atom is within 0.001 A of its exact place. With 12 columns or more the silicon is put at an atom that is nearest the origin up to 0.0025 A, that atom has three neighbours one bond away, and every search for the silicon's three nearest neighbours finds those.", "quantifier": "all numbers of columns up to 4096, all offsets up to half a bond, all angles, all orders of adding numbers in a mean, all sines and cosines within 2^-50 of the exact ones and the ways in which a linear algebra library may multiply matrices", "why_tests_cant": "The number of rows comes from rounding down a rounded quotient and every position from nine roundings, for continuously many offsets and angles; tests generate a few sheets and compare with tolerances.", "anchors": ["putting_dune/graphene.py:_generate_hexagonal_grid", "putting_dune/graphene.py:generate_pristine_graphene", "putting_dune/graphene.py:PristineSingleDopedGraphene.reset"]}
{"id": "C142", "title": "Small errors in recorded positions do not change the training data", "statement": "If the pictures before and after an exposure show graphene around the silicon with errors of at most 0.02 A in every position, the transition is kept as training data exactly when the silicon stayed or went to one of its three true neighbours; its next state is then exactly right, its frame points to a neighbour that is nearest the beam up to four times the error, and the beam's place in that frame is off by at most (2 + 3b) times the error, b being the distance from silicon to beam. In particular a simulated experiment on generated graphene can be written to a trajectory message, which rounds to float32, and read back: the same steps give data points, with the right next states and with errors as above of 0.005 A.", "quantifier": "all generated sheets of any size (up to 14000 columns for files), all errors up to the bound, all fields of view, controls and neighbour searches, all simulator histories and lengths of record", "why_tests_cant": "The label comes from comparing angles and distances of rounded positions; that no rounding, of any atom in any combination, flips such a comparison cannot be sampled.", "anchors": ["putting_dune/pipeline/train_rate_learner.py:transitions_to_datapoints", "putting_dune/pipeline/trajectories_to_transitions.py:trajectories_to_transitions", "putting_dune/microscope_utils.py:Trajectory.from_proto", "putting_dune/microscope_utils.py:AtomicGrid.from_proto"]}
{"id": "C143", "title": "Floating point arithmetic does not change the training data", "statement": "Computing training data with float64 numbers gives what exact arithmetic calls for. If the pictures before and after an exposure show graphene around the silicon with errors of at most 0.019 A, in fields of view within a micrometre of the origin, making the data point does not raise; the transition is kept exactly when the silicon stayed or went to one of its three true neighbours; its next state is exactly right; the neighbour its frame points to and the beam's place in that frame are right up to the bounds of C142 with a millionth of an A added to the error; and the dwell time in seconds has a relative error of at most 2^-52. In particular this holds for every simulated experiment on generated graphene that was written to a trajectory message and read back.", "quantifier": "all generated sheets of any size (up to 14000 columns for files), all errors up to the bound, all controls aimed into the field of view, all simulator histories and lengths of record, all numerical libraries whose arctan2, sine, cosine, sums, products of matrices and neighbour searches have the stated errors", "why_tests_cant": "Labels come from a minimum of computed distances and from sorting computed angles modulo a rounded 2 pi; a single rounding past 0 or 2 pi would permute the labels, and which inputs do that depends on the library.", "anchors": ["putting_dune/pipeline/train_rate_learner.py:transitions_to_datapoints", "putting_dune/rate_learning/data_utils.py:standardize_beam_and_neighbors", "putting_dune/geometry.py:rotate_coordinates", "putting_dune/geometry.py:get_angles", "putting_dune/microscope_utils.py:MicroscopeFieldOfView.microscope_frame_to_material_frame"]}
{"id": "C144", "title": "The simulator with floating point numbers", "statement": "When every number of the simulator is a float64, with each operation rounded, the following still holds on generated graphene of at most 4096 columns, whatever calls came before. An observation that a reset or a step returns shows exactly the atoms in its field of view, with coordinates between 0 and 1; the sheet has one silicon, which is shown in the central half of the image, and where it is shown is, put back on the sheet, within 10^-7 A of where it is; the field of view measures 15 to 30 A up to a thousandth. A reset never raises if there are 12 columns or more, and starts with the silicon at the atom nearest the origin up to 0.004 A. After a reset, a step raises only if applying one of its controls raises; the atoms never leave their places; and the time reported is that of the controls and of one image, or of two if the field of view moved. An experiment of single controls written to a file and read back, all with rounding, yields the training data that the exact honeycomb calls for, with exactly the right next states, if on n columns each step starts with the silicon at most 0.71 n - 6.4 A from the origin and moves it at most 5.49 A.", "quantifier": "all histories of resets, steps and changes of observers, all lawful random generators, all rate functions that swap the silicon with a neighbour, all sheets up to 4096 columns, all lengths of record, all libraries with the stated errors, both numpy promotion rules and both rate types", "why_tests_cant": "Whether the silicon is inside the safe area, and which atoms are in view, are comparisons of rounded numbers; the exact theorems (C04, C08, C122) do not say what happens when a rounded comparison goes the other way.", "anchors": ["putting_dune/simulator.py:PuttingDuneSimulator.reset", "putting_dune/simulator.py:PuttingDuneSimulator.step_and_image", "putting_dune/graphene.py:PristineSingleDopedGraphene.reset", "putting_dune/graphene.py:PristineSingleDopedGraphene.apply_control", "putting_dune/microscope_utils.py:MicroscopeFieldOfView"]}
{"id": "C145", "title": "The beam with floating point numbers", "statement": "When rates, their total, the probabilities of the successors, the waiting times and the place of the beam are floating point numbers, a control still does what it should. Whether it returns or raises, its effect on the sheet is exactly what observers are told: transitions, one after the other, to sheets that the rate function offers at a positive rate with the beam where it is, at times that are in order and between 0 and the dwell time. A control without positive dwell time changes nothing. The waiting time is an hour if all rates are zero; otherwise it is drawn once from the exponential distribution, with the mean that three rates with a total between 2^-100 and 2^100, or float32 rates with a smaller total, prescribe up to a part in 500000, is at most an hour, and is rounded to whole microseconds. A step of the simulator applies its controls in order at the places that the latest observation showed at the given positions, up to 10^-9 A, and tells observers of every control and transition and then of the images. A step returns if dwell times are below an hour and every control finds three successors with a total rate of zero or at least 2^-100, or with float32 rates.", "quantifier": "all rate functions with non-negative rates, all sheets, beam positions, dwell times and random generators within numpy's documented ranges, both numpy promotion rules and both rate types; for steps, all histories of calls on generated graphene of at most 4096 columns", "why_tests_cant": "The probabilities do not sum to one once they are rounded, waiting times are rounded to microseconds, and whether a transition is within the dwell time is a comparison of rounded numbers. Tests draw a few times and check neither the order nor what an exception leaves behind.", "anchors": ["putting_dune/graphene.py:PristineSingleDopedGraphene.apply_control", "putting_dune/graphene.py:Rates", "putting_dune/simulator.py:PuttingDuneSimulator.step_and_image", "putting_dune/microscope_utils.py:MicroscopeFieldOfView"]}
{"id": "C146", "title": "The simple rates with floating point numbers", "statement": "With `simple_canonical_rate_function`, computed in float64 and cast to float32, and neighbours found in floating point numbers: if the silicon has three bonds of 1.42 A up to 0.002 A and all other atoms are at least 2.4 A away, the predictor returns exactly three successors, one for each atom the silicon is bonded to, each being the sheet with the silicon at that place and nothing else changed, and with a rate that is 1/((4d/1.42)^2+1), where d is the distance from the beam to that place, up to two parts in ten million. Every silicon in the middle of a generated sheet has such bonds. In every version of numpy the probabilities are accepted, each within 1/400000 of the share of the rate in the total, and the mean waiting time is one over the total up to a part in 400000. Every transition moves the silicon along one of its bonds. A step of controls between 0 and 1, for less than an hour, on a sheet of at least 12 columns never raises, after any history of calls with an observation.", "quantifier": "all sheets, beam positions and silicon positions with coordinates up to 65536 A, all neighbour searches and trigonometric routines with errors in the stated bounds, both numpy promotion rules; for steps, all histories on generated graphene of 12 to 4096 columns", "why_tests_cant": "The chain of subtractions, norm, quotient, square and cast could lose relative precision far from the beam, where rates are small, or give a neighbour in place of the silicon. Tests compare a few rates with a tolerance.", "anchors": ["putting_dune/graphene.py:simple_canonical_rate_function", "putting_dune/graphene.py:PristineSingleSiGrRatePredictor", "putting_dune/geometry.py:nearest_neighbors3", "putting_dune/graphene.py:PristineSingleDopedGraphene.apply_control", "putting_dune/simulator.py:PuttingDuneSimulator.step_and_image"]}
{"id": "C147", "title": "The environment with floating point numbers", "statement": "With adapter, goal, simulator and sheet computed in float64, on generated graphene of at least 12 columns: after any calls, `reset` returns; the goal it sets is within a billionth of an A of an atom in view other than the silicon, less than 52 A from it. After any calls, a `step` with an action of the right size returns; the material is exposed once, for a dwell time in the adapter's range, at the place that the action names as seen from where the last observation showed the silicon, kept in view, up to a billionth of an A along each axis. The goal does not move during an episode, one atom only is that near to it, and the episode ends, with a reward that is the discount for the time the step took, exactly when the silicon is that atom. The adapter for moves of the beam starts an episode with the beam in the image, and each move starts where the last one led. Without an atom in the range of goals the goal cannot be reset: RuntimeError.", "quantifier": "all four action adapters (the greatest distance and the last position of the beam, where an adapter uses them, up to 1000), all actions with entries up to 1000, all histories of resets, steps, seeds and observers added or removed, calls that raised included; all trigonometric routines and orders of summation with errors in the stated bounds; all rate functions that keep one silicon, and for the return of steps those with three successors for every sheet of four atoms near the origin; dwell times below an hour", "why_tests_cant": "An error of one unit in the last place in the conversion between frames, repeated over an episode, could make the goal an atom never reached or make another atom count as the goal, and a rounded division could move the beam. Tests play a few episodes.", "anchors": ["putting_dune/putting_dune_environment.py:PuttingDuneEnvironment", "putting_dune/goals.py:SingleSiliconGoalReaching", "putting_dune/action_adapters.py:RelativeToSiliconActionAdapter", "putting_dune/action_adapters.py:RelativeToSiliconMaterialFrameActionAdapter", "putting_dune/action_adapters.py:DeltaPositionActionAdapter", "putting_dune/simulator.py:PuttingDuneSimulator.step_and_image"]}
{"id": "C148", "title": "The human prior with floating point numbers", "statement": "With `HumanPriorRatePredictor` and its default attributes, computed in float64 and cast to float32: if the silicon has three bonds of 1.42 A up to 0.002 A and all other atoms are at least 2.4 A away, the predictor returns exactly three successors, one for each atom the silicon is bonded to, each being the sheet with the silicon at that place and nothing else changed. Its rate is ln 2/3 times exp(-5 d^2), where d is the distance, in bonds, from the beam to the point 0.85 bonds from the silicon in the direction of the mirror image of that place (C37 records that it is the mirror image), up to three parts in ten million and the smallest float32 number; this is also what the exact computation gives. Unless the total is below 2^-100, the probabilities are within 1/300000 of the shares of the rates, and the mean waiting time is one over the total up to a part in 300000. With the beam 8 A or more from the silicon all three rates are exactly zero: a control changes nothing and tells observers nothing if it is to last less than an hour, and raises ValueError otherwise. A step of controls between 0 and 1, for less than an hour, on a sheet of at least 12 columns never raises, after any history of calls with an observation; and an environment with the human prior can be reset and stepped after any history.", "quantifier": "all sheets, beam positions and silicon positions with coordinates up to 65536 A, all neighbour searches, trigonometric routines and densities with errors in the stated bounds, both numpy promotion rules; for steps, all histories on generated graphene of 12 to 4096 columns", "why_tests_cant": "The rate is an exponential that passes through all orders of magnitude and underflows in float32 a few bonds from the silicon, where a quotient of zeros or an empty probability could appear. Tests compare the rates of a few beam positions near the silicon.", "anchors": ["putting_dune/graphene.py:HumanPriorRatePredictor", "putting_dune/graphene.py:single_silicon_prior_rates", "putting_dune/graphene.py:PristineSingleSiGrRatePredictor", "putting_dune/graphene.py:PristineSingleDopedGraphene.apply_control", "putting_dune/putting_dune_environment.py:PuttingDuneEnvironment.step"]}
{"id": "C149", "title": "An epoch of training uses the configured number of examples", "statement": "In each of the three training programs an epoch learns from as many examples as `train_steps_per_epoch` says, and is judged on as many as `eval_steps_per_epoch` says, up to an incomplete batch. Epochs use consecutive stretches of the shuffled data set, beginning with its first batch, so that over any number of epochs no record is used more often than another by more than three. The metrics written for an epoch are those of the state it ends with, on test examples only. Interrupted training goes on with the data where it stopped.", "quantifier": "all configurations, data sets and orders of the records in every pass, all learning and evaluation steps, all checkpoints on disk, all numbers of runs and the epochs after which they are stopped", "why_tests_cant": "Tests train for an epoch on a handful of examples with one batch size. The number of examples depends on a size that is configured in two places, and what is lost after an interruption depends on the history of runs.", "anchors": ["putting_dune/atom_detection/train.py:train", "putting_dune/image_alignment/train.py:train", "putting_dune/graph_alignment/train.py:train", "putting_dune/atom_detection/dataset.py:make_dataset", "putting_dune/image_alignment/dataset.py:make_dataset", "putting_dune/graph_alignment/dataset.py:make_dataset"]}
{"id": "C150", "title": "Greedy play with floating point numbers", "statement": "With the material-frame features computed in float64 and cast to float32, and the greedy agent computing in float32 and float64: after any history of operations a reset returns, and so does every step if the waiting times drawn are at least a microsecond; every observation returned has ten numbers; if the silicon has three bonds, as it has after a reset, they give its place up to a hundredth of an Angstrom and the offsets of its three neighbours and of the goal up to a ten millionth of their distance and a ten millionth of an Angstrom. Shown such an observation, the greedy agent chooses a neighbour whose distance from the goal is least, up to a hundred thousandth of one Angstrom plus the distance of the goal, and, with the material-frame adapter, the next step exposes the sheet at the agent's chosen place beside the bond to that neighbour, up to a ten thousandth of an Angstrom. The observations are float32 numbers. Features are refused for another kind of goal and for images that do not show exactly one silicon, and the agent refuses observations that do not have ten numbers.", "quantifier": "all histories of resets, steps, seeds and observers; all generated sheets of 12 to 4096 columns, rates that keep the silicon single, random generators, nearest-neighbour routines, sines, cosines and angles with small errors, and orders of rounding; all agents that aim at most 2 Angstroms from the silicon in each coordinate, with noise of at most half an Angstrom", "why_tests_cant": "A unit test compares features and actions on a few grids with tolerances chosen by hand; it cannot show that casting to float32, the choice between nearly equal scores and the angle in float32 keep the beam on the bond for every sheet, view and goal.", "anchors": ["putting_dune/feature_constructors.py:SingleSiliconMaterialFrameFeatureConstructor.get_features", "putting_dune/feature_constructors.py:_get_silicon_goal_delta", "putting_dune/agents/agent_lib.py:GreedyAgent.step", "putting_dune/geometry.py:get_angles", "putting_dune/geometry.py:rotate_coordinates", "putting_dune/putting_dune_environment.py:PuttingDuneEnvironment.step", "putting_dune/action_adapters.py:RelativeToSiliconMaterialFrameActionAdapter.get_action"]}
{"id": "C151", "title": "The greedy way leads to the goal", "statement": "On a generated sheet, rounded or not, whenever the silicon has three bonds and is not at the goal, the neighbour that the greedy agent aims at is nearer to the goal than the silicon is, by at least a quarter of an Angstrom. So after a reset, if in every step the silicon stays or goes to the neighbour nearest to the goal, it goes at most four times for every Angstrom of the goal's distance, which is below 52 Angstroms; the episode ends when it is at the goal, not before; and if the goal is further from the edge of the sheet than from the silicon, the silicon has three bonds all the time, so that such moves can be continued until the goal is reached.", "quantifier": "all sheets of 12 to 4096 columns with any offset and angle, atoms up to a thousandth of an Angstrom from their lattice sites; all silicons and goals up to 1000 Angstroms apart; all histories before the reset, actions, rates that keep the silicon single and random generators; ties broken in any way", "why_tests_cant": "That a greedy choice never leads into a dead end or around in circles is a fact about every pair of atoms and every way; a test plays a few episodes.", "anchors": ["putting_dune/agents/agent_lib.py:GreedyAgent.step", "putting_dune/graphene.py:generate_pristine_graphene", "putting_dune/goals.py:SingleSiliconGoalReaching.calculate_reward_and_terminal", "putting_dune/putting_dune_environment.py:PuttingDuneEnvironment.step", "putting_dune/feature_constructors.py:SingleSiliconMaterialFrameFeatureConstructor.get_features"]}
{"id": "C152", "title": "A move goes where it is aimed", "statement": "Under the simple transition rates, when the beam is held for t seconds within a hundredth of an Angstrom of one of the three neighbours of the silicon, the probability that the silicon moves and that its first move is to this very neighbour is at least 0.96 (1 - exp(-0.99 t)); for five seconds or more that is at least 95 percent. After this move the sheet has the same atoms, one silicon, and the silicon is at the neighbour aimed at. And if that neighbour has three neighbours as well, then with at least the probability 0.96 (1 - exp(-0.99 t)) exp(-0.18 t), up to a microsecond of t, the silicon is still there at the end; for a second and a half that is at least one half.", "quantifier": "all sheets of any number of columns with any offset and angle, atoms up to a thousandth of an Angstrom from their lattice sites, one silicon with three bonds; all three neighbours; all beam positions that near; all dwell times below an hour; all exact nearest-neighbour searches; all perfect random generators", "why_tests_cant": "It is a statement about a probability, for every sheet and beam position: a test sees single runs.", "anchors": ["putting_dune/graphene.py:PristineSingleDopedGraphene.apply_control", "putting_dune/graphene.py:PristineSingleSiGrRatePredictor", "putting_dune/graphene.py:simple_canonical_rate_function"]}
{"id": "C153", "title": "The canonical sheet has its silicon at the origin", "statement": "`canonical_pristine_graphene_with_centered_silicon(n)` with at least two columns returns a sheet with one silicon, exactly at the origin, and carbon otherwise. Its atoms are, once each, the points of a honeycomb with bonds of 1.42 A in a rectangle of n bonds times at most n bonds, unrotated, moved so that the silicon is at the origin; no atom is nearer than the silicon to their centre of mass. With twelve columns or more the silicon has three bonds: to its left or right along the x axis and, on the other side, at 60 degrees from that axis. With fewer than two columns the call raises ValueError.", "quantifier": "all numbers of columns", "why_tests_cant": "Which atom is nearest to the centre depends on the number of columns in no simple way. A test tries a few sizes, and ties may fall differently elsewhere.", "anchors": ["putting_dune/graphene.py:canonical_pristine_graphene_with_centered_silicon", "putting_dune/graphene.py:_generate_hexagonal_grid"]}
{"id": "C154", "title": "Holding the beam in pieces is holding it at once", "statement": "When the simulator is given several controls at one place, the probability that the silicon stays, and for each neighbour the probability that its first move is to this neighbour, are those of one control for the sum of the dwell times, up to the total rate times half a microsecond for each cut; with the simple rates that is at most 1.5 millionths for each cut. Exactly: they are those of the rates for the sum of the dwell times plus half a microsecond for each piece.", "quantifier": "all numbers and lengths of pieces that together are less than an hour, all places and fields of view, all sheets with one silicon and at least four atoms, no two in one place, all rate functions that move the silicon to neighbours with rates that are not negative and give each successor once; all perfect random generators", "why_tests_cant": "It compares probability distributions: a test sees single runs, which differ between pieces and whole for every seed.", "anchors": ["putting_dune/simulator.py:PuttingDuneSimulator.step_and_image", "putting_dune/graphene.py:PristineSingleDopedGraphene.apply_control"]}
{"id": "C155", "title": "A planned path is followed", "statement": "When the simulator is given controls that hold the beam within a hundredth of an \u00c5 of one atom of a path of bonds after the other, the silicon is at the end of the path afterwards with at least the product, over the controls of T seconds, of 24/25 (1 - exp(-0.99 T)) exp(-0.18 (T + 0.000001)). So for every atom not too near to the edge of the sheet there is a plan of at most four controls of a second and a half for each \u00c5 of distance that brings the silicon there with probability at least one half to the power of the number of controls.", "quantifier": "all sheets laid out by the code, displaced by at most a thousandth of an \u00c5, with one silicon; all paths whose atoms have three neighbours, all dwell times below an hour, all fields of view, all places of the silicon and destinations within 1000 \u00c5 with room to the edge of the sheet; all perfect random generators; the simple rates", "why_tests_cant": "It is about the distribution of whole histories of random moves along every path: a run shows one history along one path.", "anchors": ["putting_dune/simulator.py:PuttingDuneSimulator.step_and_image", "putting_dune/graphene.py:PristineSingleDopedGraphene.apply_control", "putting_dune/graphene.py:simple_canonical_rate_function"]}
{"id": "C156", "title": "The silicon can be led step by step", "statement": "A client who steps the simulator once for each atom of a path of bonds, each time with one control that holds the beam for the same time on the next atom, where it is in the current field of view, leads the silicon along the path with at least the probability of one move (C155) for each step: every step returns, its observation shows exactly one silicon, on the atom the step was aimed at and in the central half of the image, and it takes the dwell time and the time for one image or two. So from every reset the silicon can be led to every atom within 1000 \u00c5 with room to the edge, in at most four steps of a second and a half for each \u00c5, with probability at least one half to the power of the number of steps.", "quantifier": "all simulators that have been reset, with any field of view; all sheets laid out by the code, displaced by at most a thousandth of an \u00c5, with one silicon; all paths whose atoms have three neighbours, all dwell times below an hour; all observers; all perfect random generators; the simple rates", "why_tests_cant": "The field of view moves with the silicon, so the aim of each step depends on the random history before it; a test follows one history.", "anchors": ["putting_dune/simulator.py:PuttingDuneSimulator.step_and_image", "putting_dune/simulator.py:PuttingDuneSimulator.reset", "putting_dune/graphene.py:PristineSingleDopedGraphene.apply_control", "putting_dune/graphene.py:simple_canonical_rate_function"]}
{"id": "C157", "title": "An episode can be won", "statement": "When an episode has been started, the silicon is not at the goal and at most 22 \u00c5 from it; if the sheet has room for it, there is a path of at most four moves for each \u00c5, and a player who at each step moves the beam from the silicon in the last observation to the next atom of the path wins with at least the probability of a single move (C155) to the power of the number of moves, which for a dwell time of a second and a half is at least one half to this power: every step before returns a time step in the middle of the episode with reward zero, and the last one a time step that ends the episode, with discount zero, with the silicon within half a bond of the goal and the reward discounted for the elapsed time. There is room for every goal on a sheet of 74 columns or more, and on the sheet of 50 columns for every goal within 13.7 \u00c5.", "quantifier": "all environments with the simple rates, actions in the material frame with one dwell time, features that need no image and are defined for regular images, and goals that need one observation; all histories of calls before the episode; all perfect random generators", "why_tests_cant": "That the goal can be reached from every start is about all random sheets, goals and histories; a test that does not win proves nothing, and one that wins shows one case.", "anchors": ["putting_dune/putting_dune_environment.py:PuttingDuneEnvironment.step", "putting_dune/putting_dune_environment.py:PuttingDuneEnvironment.reset", "putting_dune/action_adapters.py:RelativeToSiliconMaterialFrameActionAdapter", "putting_dune/goals.py:SingleSiliconGoalReaching", "putting_dune/graphene.py:simple_canonical_rate_function"]}
{"id": "C158", "title": "The greedy agent wins", "statement": "When an episode has been started, the silicon is not at the goal and at most 22 \u00c5 from it. If the sheet has room, the greedy agent without noise, whose best beam position is one bond's length (up to 0.007 \u00c5) along the bond, and who is given the observation of each time step and nothing else, wins the episode within any number of steps that is at least four for each \u00c5 between silicon and goal, with probability at least that of a single successful move to the power of this number: every action is computed, every step before the last returns a time step in the middle of the episode with reward zero, and the last one a time step that ends the episode, with discount zero, with the silicon within half a bond of the goal and the reward discounted for the elapsed time. For the experiment greedy_on_neighbor (a dwell time of five seconds, no noise) a move succeeds with probability at least three eighths, and 88 steps are enough for every goal on a sheet of 74 columns or more.", "quantifier": "all environments with the simple rates, actions in the material frame with a fixed dwell time, the material-frame features, and goals that need one observation; all histories of calls before the episode; all perfect random generators; all states of the agent", "why_tests_cant": "The agent chooses each action from the last observation only, so that it gets to the goal is about the whole loop of agent, environment and simulator, on all random sheets; a test run that loses is no bug, and one that wins shows one case.", "anchors": ["putting_dune/agents/agent_lib.py:GreedyAgent.step", "putting_dune/feature_constructors.py:SingleSiliconMaterialFrameFeatureConstructor", "putting_dune/putting_dune_environment.py:PuttingDuneEnvironment.step", "putting_dune/action_adapters.py:RelativeToSiliconMaterialFrameActionAdapter", "putting_dune/goals.py:SingleSiliconGoalReaching", "putting_dune/experiments/registry.py:_MICROSCOPE_EXPERIMENTS"]}
{"id": "C159", "title": "Episodes can be won with declared actions", "statement": "With the adapter whose actions are fractions of a largest distance of at least a bond, with the shortest dwell time if there is a choice, and with the one whose actions are places in the image, whatever the features: when an episode has been started and the sheet has room, there is a path of at most four moves for each \u00c5 between silicon and goal such that the player whose actions aim at its atoms one after the other, from the silicon in the last observation, uses only actions within the declared ranges and wins with probability at least that of a single successful move to the power of the number of moves; every step before the last returns a time step in the middle of the episode with reward zero, and the last one ends the episode, with discount zero, with the silicon within half a bond of the goal and the discounted reward. In the four training experiments with the simple rates, with or without images, a move succeeds with probability at least one half, and at most 88 moves are needed on a sheet of 74 columns or more.", "quantifier": "all environments with the simple rates, one of these two adapters, features that are defined for regular images, pictures whose noise is drawn independently of what follows if the features need pictures, and goals that need one observation; all histories of calls before the episode; all perfect random generators", "why_tests_cant": "An agent is trained on the declared ranges; whether they allow it to win from every start is about all random sheets, angles of the bonds, views, goals and histories.", "anchors": ["putting_dune/action_adapters.py:RelativeToSiliconActionAdapter", "putting_dune/action_adapters.py:DirectActionAdapter", "putting_dune/putting_dune_environment.py:PuttingDuneEnvironment.step", "putting_dune/putting_dune_environment.py:PuttingDuneEnvironment.action_spec", "putting_dune/experiments/registry.py:_TRAIN_EXPERIMENTS"]}
{"id": "C160", "title": "A batch is shared out by examples", "statement": "The training scripts put each batch on the devices by examples: when the number of examples is a multiple of the number of devices, every device gets the same number of consecutive examples, of every array of the batch exactly the entries of these examples, and no example is on two devices, so that an image and its label are never parted. When it is not a multiple, or when an array of the batch has no axis for the examples, the batch is rejected with a ValueError on every device. The state of the training is on every device as a whole, whatever the shapes of its arrays, numbers included.", "quantifier": "all numbers of devices, batch sizes, batches with any arrays of any number of axes, and all states", "why_tests_cant": "Tests run on one device, where everything is in one place; the scripts are run with any number of devices.", "anchors": ["putting_dune/atom_detection/train.py:make_batch_sharding", "putting_dune/graph_alignment/train.py:make_batch_sharding", "putting_dune/image_alignment/train.py:make_batch_sharding"]}
{"id": "C161", "title": "The networks of a predictor stay what they are", "statement": "A predictor keeps its networks, of the same names and shapes, stacked in one tree of arrays. Predicting with the index of a network gives the rates of that network alone, with all its parameters and its state, never of parts of several; negative indices count from the end, and an index beyond either end is not refused but stands for the nearest network, so that after distillation every index stands for the only one. Predicting without an index gives the average of the rates that the networks give one by one. Networks whose names or shapes differ cannot be stacked (ValueError), nor can no networks at all (TypeError).", "quantifier": "all numbers of networks, names, shapes and values of their arrays, outputs of networks, contexts and indices", "why_tests_cant": "Tests predict with one small ensemble; that an index picks the same network out of every array must hold for all layouts and sizes.", "anchors": ["putting_dune/rate_learning/learn_rates.py:tree_stack", "putting_dune/rate_learning/learn_rates.py:LearnedTransitionRatePredictor.__init__", "putting_dune/rate_learning/learn_rates.py:LearnedTransitionRatePredictor.apply_model", "putting_dune/rate_learning/learn_rates.py:LearnedTransitionRatePredictor.distill"]}
{"id": "C162", "title": "The step limit leaves time to win", "statement": "An episode that the player of C159 wins on a path is also won through the step limit if the path has no more moves than steps are left; a winning step that reaches the limit keeps its reward and its discount of zero. So in the four training experiments with the simple rates, created with a step limit of at least 88 (the default is 600) on a sheet of 74 columns or more, after any history of calls, every episode started by a reset can be won with declared actions before it is cut off, with probability at least one half to the power of the number of moves, which is at most 88.", "quantifier": "all seeds, step limits of at least 88, histories of resets, steps, seeds and observers, perfect random generators, pictures whose noise is drawn independently of what follows if the features need pictures, and goals that need one observation", "why_tests_cant": "Whether every start can be won within the limit is about all random sheets, goals, views and histories, including episodes cut off before.", "anchors": ["putting_dune/run_helpers.py:create_putting_dune_env", "putting_dune/run_helpers.py:StepLimitWrapper", "putting_dune/putting_dune_environment.py:PuttingDuneEnvironment.step", "putting_dune/experiments/registry.py:_TRAIN_EXPERIMENTS"]}
