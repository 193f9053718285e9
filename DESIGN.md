# Formal model of google/putting-dune in Lean 4

## 1. How the code is modelled

The Lean project is `lean/`. Three kinds of modules live under `lean/Verif/`:

* `Verif/Model/*`  – definitions mirroring `/repo`, function by function. Each
  definition cites file and lines and names every simplification.
* `Verif/Spec/*`   – small specifications, written without the model's helpers.
* `Verif/Props/*`  – one theorem (or a few) per property `Cxx`, each followed by
  an `example` showing that a concrete non-trivial case meets its hypotheses.
  Helper lemmas are in `Verif/Lemmas/*`.

Conventions:

| Python / numpy | model |
|---|---|
| float64 / float32 numbers | an arbitrary linear ordered field `K` (instantiated at `ℚ` in examples, `ℝ` for `cos`, `sin`, `arctan2`, `exp`, `γ**t`). Rounding of float arithmetic is **not** modelled, NaN/inf are not values. Exceptions: float32 fields of protocol buffers are modelled by an actual round-to-nearest-even to 24 bits (C58 and others), and the probabilities of a transition and the dwell time of an action are modelled with every rounding of float32 and float64 (C136, C137), and so are the conversions between the frames of material and microscope (C139), the tests on goals (C140), the generation of sheets (C141), the making of data points for rate learning (C143), the simulator (C144, C145), the simple rates (C146), the environment (C147), the human prior (C148), and the features in Ångströms and the greedy agent (C150). |
| `np.linalg.norm(v) < r` | squared distance compared with `r²` in a general field; in `ℝ` bridged to the Euclidean norm by lemma |
| `dt.timedelta` | `ℤ` microseconds; `timedelta(seconds=x)` = round-half-even of `10⁶·x` |
| raised exceptions | values of an error type; state mutated before a raise stays mutated |
| `np.random.Generator` | an abstract generator state with draw functions that only have to satisfy numpy's documented ranges (uniform in [lo,hi], exponential ≥ 0, `choice` < n). Theorems hold for every such generator. |
| sklearn `kneighbors` | any function returning k distinct indices, sorted by distance, such that no other index is nearer (ties free); a concrete one is given to show the specification is inhabited |
| rate functions, agents, networks, KMeans, cv2 contours, images | parameters (uninterpreted functions) |
| in-place numpy mutation / aliasing | explicit heap where the property is about it |
| `while`/`for` loops | structural recursion over the list iterated over, or over the stream of random draws |

## 2. Plan per property

| id | modelled | how proved |
|---|---|---|
| C01 | `MicroscopeFieldOfView` conversions for arrays, points, grids, controls | field algebra, lists by induction |
| C02 | resize / zoom / shift / offset | field algebra |
| C03 | material `get_atoms_in_bounds` | induction on the atom list; specification by list filter over atoms |
| C04 | fov `get_atoms_in_bounds` | same, plus sublist monotonicity |
| C05 | `PristineSingleDopedGraphene.reset/apply_control`, rate predictor | invariant over op lists |
| C06 | same, transitions seen by observers | invariant along the emitted transition list |
| C07 | same | induction over the loop |
| C08 | reset, `argmin` | argmin specification |
| C09–C15 | `PuttingDuneSimulator`, `EventObserver` | invariants over histories (lists of reset/step), two-run simulation for C15 |
| C16–C17 | `SingleSiliconGoalReaching` | case analysis; induction over observation lists |
| C18 | goal reset on generated graphene | lattice minimum distance (C40) + C16 |
| C19–C21, C23 | `PuttingDuneEnvironment` with arbitrary simulator/goal/features | induction over call lists; two-run argument; C23 expected false (flag cleared before the calls that can raise) – refute with a witness |
| C22 | `StepLimitWrapper` over an arbitrary inner environment | automaton refinement |
| C24–C26 | action adapters | order reasoning on `clip`; C26 second half expected false |
| C27–C28 | feature constructors | kNN specification; C28 expected false |
| C29–C31 | `evaluate`, `aggregate_results` | induction on the loop; C31 for the empty list expected to raise |
| C32 | `GreedyAgent.step` | argmin specification + rotation lemmas |
| C33–C34 | `MicroscopeAgent`, `MicroscopeAgentLogger` | induction over call lists; parts of C34 expected false |
| C35 | rotation, angles over `ℝ` | Mathlib trigonometry |
| C36–C38 | rate laws over `ℝ` | analysis; C37 and C38 expected false as stated, refuted with witnesses, partial bounds proved |
| C39 | `PristineSingleSiGrRatePredictor.__call__` | kNN specification |
| C40 | `_generate_hexagonal_grid`, `generate_pristine_graphene` | integer arithmetic on doubled coordinates, then isometry/scaling |
| C41 | `trajectories_to_transitions` | list induction |
| C42 | `transitions_to_datapoints` | counters invariant; inverse permutation lemma |
| C43–C45 | `data_utils`, `train_epoch` | modular arithmetic, trigonometry, permutations |
| C46–C47 | `apply_model`, `batched_loss_fn` | real analysis |
| C48–C53 | `alignment.py` functions | list induction, graph argument; C49, C51 expected false |
| C54–C55 | `pad_and_crop_images_by_fov`, aligner histories | integer arithmetic, induction over calls |
| C56–C57 | `do_alignment`, `Drift` | list induction; part of C57 expected false (label image dropped) |
| C58–C60 | protocol-buffer conversions | rounding lemmas; C59, C60 expected false |
| C61 | `AtomicGrid.__eq__/__hash__` | expected false; partial: reflexive, and an equivalence on well separated grids |
| C62 | `io.py`, `align_trajectories.main` | list lemmas; directory part expected false |
| C63–C65 | imaging masks, jitter, detection filter | list induction |
| C66–C68 | registry, `format_timedelta`, video frames | list induction; C67 expected false |
| C69 | the start of an episode: `generate_pristine_graphene`, simulator reset, goal reset, features | composition of C08, C10, C16, C18 and C40 for the real sheet; geometry of the hexagonal lattice |
| C70 | `LearnedTransitionRatePredictor.predict` with networks as parameters | case analysis; expected false (default configuration raises) |
| C71 | `sample_from_prior` | trigonometry; expected false (rates rolled the wrong way) |
| C72 | the material's jump process against an independent description | refinement: the loop of `apply_control` equals a specification of jump processes |
| C73–C74 | hybrid post-processing, independence of alignments | case analysis on the caught exception; two-run argument over histories |
| C75–C76, C78 | `generate_clean_image` against masks and detector | histogram bins, `argmax` of sums; the Gaussian filter is a positive operator with stated laws |
| C77 | `generate_stem_image` up to the jitter stage | composition; expected false for empty views |
| C79–C80 | `LearnedTransitionRatePredictor` as a state machine with a disk: train, save, load, predict | invariants over histories; expected false (packaged models outlive training; network state and steps are not kept) |
| C81 | the epoch loop of the three training programs with checkpoints and crash schedules | induction over schedules; expected false (`step=epoch` repeats an epoch) |
| C82 | the accuracy formulas | counting; expected false for image alignment (`argmax` without axis) |
| C83 | `RemapAndOneHotMask` composed with masks and the detector's `argmax` | case analysis on atomic numbers |
| C84 | `predict`'s input against the pipeline's data points | norm comparison; expected false (bond length divides only one side) |
| C85 | `create_dataset_splits` | composition of C43 and C44 |
| C86 | `stack_data` | induction over lists |
| C87 | `convert_dataset_to_proto` on data already read from files | field by field; expected false in several places |
| C88 | the upload's file names | character-level induction; expected false |
| C89 | `sanitize_state_keys` | string replacement by induction; expected false in general |
| C90 | thresholding, dilating, eroding, the bitwise operation on single-precision numbers and truncation | bit patterns and their values; closed forms of dilation and erosion by induction; expected false for silicon |
| C91 | packing, unpacking and loading on a disk of directories and files, with failures | reading after unpacking by induction over the members; expected false with history |
| C92 | the recursion of convolutions, pooling, transposed convolutions and concatenations, with arbitrary layers | induction over the depths |
| C93 | nearest resizing of images and masks, labels of all or the last time step, order of the network's outputs | the resized index in closed form and its uniqueness; arithmetic on positions of outputs |
| C94 | the whole aligner, with the features of the sub-lattice classifier, over histories of uses | each routine commutes with translations; induction over the history |
| C95 | the same model as for C94 | invariant: the history holds copies of the first frame and of its classes; C50 gives the exact drift; merging copies gives the frame back |
| C96 | features of atoms, classification by the nearest of two centres, propagation along bonds | the two centres differ by about (60,60,60) degrees, so the order of the angles does not matter; C53 for the rest; for bonds along the negative x axis, a convexity argument refutes the claim |
| C97 | the schedule of optax with the arguments it is given, and steps of AdamW with any direction | closed form of the schedule; monotonicity of the cosine; induction over the batches |
| C98 | loss and errors as functions of labels, mask and predictions | closed forms of the means; padding multiplies the local loss by N / (N + k) |
| C99 | the environment with its adapters, simulator, material, features and goal, as modelled for C19, C24, C39 and C69 | invariant over all operations: the sheet is a generated one with a single silicon, and the last observation shows that silicon; after a step it lies in the middle half of a view of 15 Å or more, so that its three neighbours are in view; induction over the rounds of the transition loop |
| C100 | sample_new draw by draw; the saved dictionary key by key, with msgpack as any codec that reads back what it wrote | induction over the draws; the theorems on mixtures of C38, C39 and C99; induction over later saves |
| C101 | __eq__ on arrays of any lengths | characterisation entry by entry; rates are linear in the maximal rate |
| C102 | the training loop of C81 with the metrics dictionaries that are saved; the checkpoint manager's best step as a stable sort by the program's best_fn | invariant over the runs: steps decrease and metrics belong to their states; the last of a sorted list is the greatest |
| C103 | the tables of experiments entry by entry, the feature constructors with their declared shapes, the environment of C99 in the step limit of C22, and eval.py over C29 | C99's invariant through the step limit; case analysis on the tables; induction on calls, rounds and seeds |
| C104 | the agents as the registry builds them, against the bounds of action_spec | rotation keeps lengths (C32); the squared length of argmax decides |
| C105 | the composition of the models of C27, C32 and C26 as the registry composes them | composition of their theorems |
| C106 | neighbour list of jax_md with its capacity and its test for updates, message passing of jraph with arbitrary networks, periodic displacements | the latents of a reordered example are those of the example, by induction over the recurrences; sums do not depend on the order; expected false for short lists |
| C107 | loss, epochs and the moments of the data as in the code; network as normalisation followed by any layers; optimiser and random numbers left open | the target is apply_model's formula; induction over keys and epochs; columns of the drawn contexts; the last sentence holds without normalisation and dropout, expected false with |
| C108 | haiku's BatchNorm(True, True, 0.9) with its debiased moving averages, over the reals | closed form of the moving average by induction over the batches; geometric sum; Popoviciu's bound for the variance |
| C109 | the draws in order; each stage on images of reals or nan; skimage's random_noise and adjust_gamma as known, its histogram equalisation left open but for size and range | stage by stage: nan or within [0, 1] is kept; after the first division by the maximum an image is complete or undefined everywhere; on top of C77 and C09 |
| C110 | sorted distances, places 1 to 3 of each row, trimmed mean as in scipy, over the reals | counting values below and above a bound in sorted lists; uniqueness of sorted lists; counting edge sites of the honeycomb row by row |
| C111 | the disk of C91 with removal of files; the download as an outcome given to the call | reads after unpacking and removal; a file below a directory makes it exist; induction over the history |
| C112 | training step, epoch, scan over epochs and members, with the network of C108 and the data sets of C85 | two runs side by side; running statistics agree after the first batch although all members are initialised with a row of the first one |
| C113 | the data frames given to seaborn, as lists; rate functions as in C39 | normal form of the rows; the set of places is a permutation of the places of the neighbours; same neighbour query in plot and predictor |
| C114 | fitting specified by scikit-learn's documentation, with an instance; vote, accuracy and the network branch of the script as functions; training of networks left open | increasing classes with members 0 to 3 and four columns are [0,1,2,3]; composition of C86, C80 and C70 |
| C115 | the data given to matplotlib, as lists: mesh in row order, contexts, reshape by counting, argmax and max | index arithmetic of the mesh and of flattened rows; argmax and max agree; composition with C114 for votes |
| C116 | the block as a recursion over its calls that stops at the first exception; the logger of C34 | a block that ends normally is a history of calls that returned, so C34 applies; no call but flush touches the files |
| C117 | pictures as the data given to matplotlib; render on the environment model of C19 | facts about a reset that returned; for steps, every adapter sends one control, whose position is an array of one row |
| C118 | pictures as the data given to matplotlib, for both functions and the frame of the animation | the frame conversions are inverse to the place in the field of view; minima and maxima of lists |
| C119 | a file system of directories and written files, paths with os.path.join, pictures as the data given to matplotlib; main from the trajectories up to the learner | each picture's dots are a permutation of the examples; facts on kept data points (C42), stacking (C86) and augmentation (C43) |
| C120 | plot_transition with Python's indexing of integers as an exception; the loop over transitions with files | induction over the transitions; the arguments of plot_transition exist for every kept transition |
| C121 | files as lists of records (C62), the three kinds of sources | induction over the files |
| C122 | composition of the simulator, the conversion to transitions and the extraction of data points; the true sheet read from the simulator's state | an invariant ties what an observation shows to the true sheet; bonds, angles and nearest neighbours are unchanged by the change of coordinates; generated sheets are honeycombs inside |
| C123 | the generator, doping and reset as modelled for C40 and C18 | the mean of the lattice is within 1 across and 1.5 up of the middle (sums of rows in closed form, rows with alternating weights); every point of the plane is near a site; the motion that lays out the sheet preserves angles and scales lengths; then C122 |
| C124 | main over the files of C62, the messages of C58 and C59 and an abstract wire format that parses what it serialised | composition of the round trips; a second rounding changes nothing, so the written transitions are those of the rounded observations |
| C125 | the adapters of C24 to C26 with their declared bounds | explicit actions for each target; induction over the moves |
| C126 | the loss of C47 averaged over the labels of an exposure | Gibbs' inequality for the shares and for leaving or staying; the clipped region is compared with its end |
| C127 | the loop of C72 with a generator whose state is a random variable; an observer writes down the transitions | the law of a rounded and capped exponential draw; induction over the history, with the states that lead to the rest of it as events |
| C128 | the loop of C07 and C72, the simulator's step and the environment's step under the law of C127 | a round ends the control with at least a fixed probability, as there are only finitely many sheets; null sets are carried through the controls |
| C129 | the loop of C72 under the law of C127 | expected false: several transitions within one control look like none or one; true up to the square of the probability of a transition, by C127 and C128 |
| C130 | the lattice of C40, the rate functions of C36-C38, the law of histories of C127 | induction over columns and rows; bonded atoms are always among the three nearest; Gaussian lower bounds; a history along the walk with all its transitions at once |
| C131 | the environment of C19-C24, the law of histories of C127, reachability of C130 | each control takes the silicon to the goal with probability at least δ whatever the beam does; a step is a deterministic function of the control's history and of the picture, and leaves a fresh generator; induction on the number of steps with countably many histories |
| C132 | the environment's reset as modelled for C16-C19 over a generator whose draws have the even laws | the draws are a measure preserving map onto the product law; a sheet tells its offset and angle; the number of goals is a measurable function of the start |
| C133 | Discounted return as a recursion over time steps in a separate specification; rounds of any agent as in C29; per-call worth from C20, also through the step limit. | induction on the rounds; the powers multiply to the power of the sum |
| C134 | Generator states from which every long wait comes up sooner or later, closed under all draws (`Spec/Endless.lean`), shown to have probability one for rows of independent exponential numbers; the environment, the step limit wrapper and `evaluate` of C99/C103 with the bound on rounds as a parameter. | `C134_streams`: the event that no number at every other place from some place on reaches T has probability at most q^k for all k, and there are countably many of these events. The loop ends by induction on `WaitsLong` (finitely many sheets bound the total rate, so the means are bounded below; a wait of an hour ends a control). More rounds never change a result that was returned, so each call has one result from some number of rounds on; finite sequences, runs and evaluations take the maximum. |
| C135 | Episodes of the environment model as records of what its observations list (`Spec/EnvData.lean`); the simulator's record of C122/C123 is read off them, and C86 and C112 take the points on. | `C135_controls` from C24; `C135_data`: an induction over the episodes that carries data and counters, with the invariant of the simulator kept by every operation on the environment; `C135_trained` and `C135_end_to_end` compose C86_accepted and C112_train_completes. |
| C136 | Round-to-nearest-even for float32 and float64, numpy's rules for the type of a result before and after version 2, the probabilities step by step, numpy's compensated sum and its tolerance. | `C136_accepted_partial`: bounds on the error of every rounding, added up; `C136_newer_numpy`: with numpy 2 and float64 rates it is decided by how much casting the rates to float32 changes their sum; `C136_refused`, `C136_mixture_fails`: the witness, for every sheet. |
| C137 | The computation with a rounding after every operation, `total_seconds` and `timedelta(seconds=…)` as CPython computes them. | `C137_dwell_partial`: the roundings add up to less than a thousandth of a microsecond before the last one; `C137_refused`: by evaluation. |
| C138 | Displaced sheets as a relation between lists of positions; the nearest neighbour search and rate functions as they are. | `C138_gap`: if the gap between neighbours and others exceeds four times the displacement, any search finds the same atoms; `C138_sheet`: the gap of a sheet is 2.45 - 1.42; `C138_moves`: the rate functions; `C138_float32`: the error of rounding, for coordinates up to 2^21. |
| C139 | The two conversions and the selection of atoms with a rounding after every operation. | `C139_convert`, `C139_seen`: rounding keeps the order (`roundTo_mono`) and does not change 0 and 1, and different float64 numbers have a difference that does not vanish; `C139_round_trip`, `C139_beam`: the errors of all roundings added up; `C139_beyond`: a witness that beam positions are not exactly kept in the field of view. |
| C140 | The two computations with a rounding after every operation, on top of the conversions of C139; the sum of squares with and without fused operations. | `C140_ends`, `C140_goals`: the errors of the conversions (C139), of differences, squares and roots add up to less than 0.1 A, while atoms displaced by 0.25 A are still 0.92 A apart (C40, C138). |
| C141 | The generation with a rounding after every operation; the sums of `np.mean` and the sines and cosines as functions with an error bound. | `C141_rows`: 4c² = 3k² has no solutions, so c / ratio is never closer to a whole number than the rounding error. `C141_sheet`: the errors of the steps, for numbers of known size, add up. `C141_start`: the computed lengths are right up to a hundred-thousandth; the disc of C123 and the displaced sheets of C138 do the rest. |
| C142 | The existing models of the data pipeline, the messages and the simulator; a picture as a displaced part of the true sheet. | `C142_point`: neighbours are 1.42 A away, all others at least 2.45 A, and no three atoms are mutual neighbours, so the directions to the neighbours are more than a right angle apart and their cross products are at least 1 in size; errors of 0.02 A change these by at most 0.12, so the order of the angles stays. `C142_files`: induction over the record; float32 moves a point in a field of view within a micrometre by at most 0.005 A. |
| C143 | The loop that makes data points with every float64 operation rounded to nearest even: conversion of frames, differences, norms, the two tests on neighbours, the mean distance, angles, remainder modulo 2 pi, sorting, rotation and seconds. What libraries compute is a structure with error bounds. | `C143_point`: error bounds for each operation; the angle of the first neighbour is exactly zero after subtraction, the angles of the others stay more than a right angle from 0 and 2 pi and from each other, so sorting gives the true order; the nearest place to the silicon's new place is less than 0.5 A away and all others more. `C143_files`: induction over the record, with float32 from the messages. |
| C144 | The simulator again, with float64 rounding in the generation, the choice of the first silicon, the field of view, both conversions of frames, the total rate, the mean waiting time, the probabilities and the times. | An invariant over the calls: the sheet is singly doped, its places are below 60000 A, and the field of view is the rounded square about such a place. `C144_seen`, `C144_reset`, `C144_step` follow by cases on the calls; `C144_files` by induction over the record, with C141 for the sheet and C143 for each data point. |
| C145 | The loop of `apply_control` as in C144, with every rounding of the total rate, the mean waiting time, the probabilities and the drawn time; a specification of what a control may do, stricter than that of C07 and C13. | `C145_exposure`: induction over the rounds of the loop; probabilities that numpy accepted are not all zero, so the index drawn has a positive probability and hence a positive rate. `C145_wait`: error bounds for the sum and the quotient. `C145_step`: the same for a list of controls, and the events of a step case by case. `C145_returns_partial`: with C136 the probabilities are accepted. `C145_mixture_raises`: the witness of C136, carried through the loop. |
| C146 | The rate function and the predictor again, with every rounding, and neighbours as in C143; the prescribed rate is written in terms of the distance between beam and place. | `C146_rates`: errors of each operation relative to 1 plus the square; the neighbour search puts the silicon first and its three bonds next, since the gaps exceed its error. `C146_bonds`: the sheets of C141 and the disc of C123. `C146_odds`: C136 and C145 with the error of the rates added. `C146_returns`: an invariant over histories (at least four atoms, coordinates bounded) and C145. |
| C147 | The adapters, the goal and the environment again, with every rounding except that of the power in the discount; the simulator of C144. Features are any function. Where an action aims is specified by one formula per adapter in exact numbers. | An invariant over calls (`FloatPlaying`): within an episode the goal is where the two conversions of frames put an atom of the sheet (C139, C140), the sheet is a displaced honeycomb (C141) and the simulator is ready (C144). `C147_goal`, `C147_ends`: the invariant, and atoms 0.9 A apart against errors of 10^-9. `C147_beam`: errors of each operation of the adapter, and clipping does not increase them; the trace of C145. `C147_starts`, `C147_kept`: the state of the adapter for moves. `C147_no_goal`: no atom passes the filter. `C147_reset`, `C147_plays_partial`: at least four atoms are in view, so features exist, and C145 for the controls. |
| C148 | The predictor again, with every rounding; scipy's density is any function within a part in 10^9 of the density of the normal distribution, plus 10^-60. The prescribed rate is written in terms of the distance between the beam and the peak. | `C148_rates`: errors of the turned mean and of the beam's place in bonds, then of the square of their distance and of the exponential; beyond a distance of about 4.7 bonds from the peak both rates are below half the smallest float32 number. `C148_far`: the cast gives zero, so the waiting time is an hour. `C148_odds`: C136 and C145 for float32 rates, with the errors added. `C148_returns` and `C148_plays`: C145 and C147, as rates that are float32 numbers need no lower bound. `C148_exact`: the exact model of the predictor gives the rate of the specification. |
| C149 | A data set gives the records again and again, with a new order for every pass; iterators are positions in it. The run of a program takes batches with `islice`, applies any step function, saves checkpoints and writes metrics. The specification knows only examples with consecutive numbers. | `C149_run`: induction over the epochs of a run, from any checkpoints. `C149_consecutive`: the same for a learner that remembers what it was given. `C149_amount_partial`: arithmetic. `C149_even`: complete passes are counted before the first and after the last example. `C149_beginning`: an invariant of all states on disk; `C149_never_seen`: by counting. |
| C150 | The features in Ångströms with every operation rounded and the cast to float32, and the agent's step with float32 differences, norms, angle, sine and cosine (`SingleLib`: any functions with errors up to 1/10^6) and a float64 product, on top of the environment of C147. | `C150_features`: the atoms in view, as shown, are within 10^-9 Å of the sheet's, so that the neighbours found are those of the sheet. `C150_choice`: bounds for the float32 scores and the direction. `C150_beam`: both together with C147_beam. `C150_begins`: after a reset there are three bonds. `C150_returns`: no step fails. `C150_refused`, `C150_single` and `C150_length`: by the branches of features and agent. |
| C151 | The models of C40, C147 and C150. The specification says what the neighbour nearest to the goal is, and what it means that the silicon goes only there, on the sheet and in the environment. | `C151_nearer`: three directions at a third of a turn from each other have one within a sixth of a turn of the goal's; with the lattice's distances that is a fifth of a bond. `C151_way`: induction over the moves, and a way that cannot end before the goal. `C151_aim`: with C150_beam. `C151_arrives`: induction over the steps with C147_ends. |
| C152 | The models of C36, C39 and C72, with the probabilities of C127. Nothing new is modelled. | `C152_aimed`: the three successors of C39 are the three neighbours with the rates of C36; the other two neighbours are at least 2.45 Angstroms from the one aimed at, so that their rates are at most 5/241 and its share of the total is at least 24/25; then C127_leaves. `C152_five_seconds`: a bound of the exponential function. `C152_arrives`: the histories with a single event, one for each microsecond, are disjoint and have the probabilities of C127_history; the rates of leaving the place under the beam add up to at most 0.18. `C152_half`: the numbers for 1.5 seconds. |
| C153 | The sheet as in C12 and C141, without offset and rotation; the atom nearest to the origin becomes silicon, and the sheet is moved. | `C153_centred`: the points of the grid (C12), laid out by a motion without rotation, and differences from the silicon. `C153_neighbours`: the neighbours of an atom near the middle, as for generated sheets. `C153_too_small`: the grid is empty, and so `argmin` raises. |
| C154 | The models of C13 and C72, with the probabilities of C127. Nothing new is modelled. | `C154_stays`: the product of the probabilities of C127_controls. `C154_first`: by induction over the pieces, the set of generator states from which the first transition leads to the neighbour is measurable, is a move in the first piece or a quiet first piece followed by such a state, and differs from what is heard by the states from which the controls do not end, which have probability zero (C128). `C154_cut`, `C154_simple`: the exponential function changes by at most the rate times the difference of times. |
| C155 | The models of C13, C72 and C146, with the moves of C152 and the ways of C151. Nothing new is modelled. | `C155_follows`: by induction over the path, the set of generator states from which each control makes exactly the move it is aimed at is measurable and has at least the product as probability (the single move of C152, followed by a state in the set for the rest). `C155_plan`: the way of C151, aimed at exactly. |
| C156 | The models of C09, C13, C72 and C146, with the moves of C152 and the ways of C151. Nothing new is modelled. | `C156_led`: by induction over the path, the set of generator states of C155; the aim is at the same place of the sheet whatever the field of view, and after the move the step returns an observation that shows the silicon, with the field of view moved or not. `C156_starts`: what a reset leaves. `C156_reaches`: the way of C151. |
| C157 | The models of C16, C17, C24 and C99, with the moves of C152, the ways of C151 and the steps of C156. Nothing new is modelled. | `C157_wins`: after a reset the goal is an atom of the sheet in view, other than the silicon, and the silicon is within 1.55 Å of the origin (C16, C123), so C151 gives a way. By induction over it, from every generator state of a measurable set with at least the product of the probabilities, each action becomes a control aimed at the next atom, which lies in the image, the silicon goes there, the features are defined (C99), and the goal is checked where the silicon is. `C157_half`: a second and a half, on 74 columns or more, in at most 88 moves. |
| C158 | The models of C27, C32, C99, C103 and C157. Nothing new is modelled. | `C158_wins`: with the silicon in the safe area its three bonds are in view, so the features tell them (C27), and the agent aims within 1/100 Å of the one nearest to the goal (C32); the silicon goes there with the probability of C152 and is then at least a quarter of an Å nearer to the goal (C151). What a step shows depends only on the view before it and on the sheet, so the agent's next choice is fixed before the random numbers are drawn, and the induction is over the number of steps. `C158_on_neighbour` reads the agent and the dwell time from the table of experiments. |
| C159 | The models of C24, C99, C103 and C157. Nothing new is modelled. | `C159_wins`, by the induction of C157 with the aim of these adapters: with the silicon in the safe area every neighbour is in the image, the fractions differ from those of the bond by at most 0.002 Å where they are cut off, and the beam gets within 1/100 Å of the neighbour (C152). A picture is drawn at the end of a step and does not make any set of generator states less likely (`draw_keeps`, C131). `C159_training` reads adapter and shortest dwell time from the table of experiments, for all four with the simple rates. |
| C160 | `batchParts`, `stateParts`, `axisPiece`, `arrayPiece`, `putBatch`, `putState`: the partition specifications made from the number of axes, and the pieces that JAX puts on each device of a line of devices. | Induction over the axes and over the arrays of the batch: `C160_examples`, `C160_even`, `C160_rejected`, `C160_state`. |
| C161 | Arrays with shapes and entries in the order of memory, trees of named arrays, `tree_stack`, rows by a traced index as JAX reads them, `vmap` over the first axis, and `apply_model` with an index. | `C161_chosen`: the entries of a stacked array are laid end to end, so that row k is array k; induction over the names. `C161_average`: the first axes agree, so that `vmap` calls each network. `C161_refused`: if stacking returns, names and shapes agree. |
| C162 | The models of C22 and C159. Nothing new is modelled. | `C162_within`: induction over the won episode; the count of steps stays below the limit until the last one. `C162_training`: every call of the wrapper is one call of the environment inside (`limited_history`), so that C159 applies. |

Where the unchanged code does not have a property, the negation is proved with a
concrete witness and the provable part is kept under a name ending in `_partial`.

## 3. Trusted base

* Lean 4.33.0's kernel and the Mathlib modules imported (themselves kernel checked).
* Axioms: only `propext`, `Classical.choice`, `Quot.sound`. No own axioms, no
  `sorry`, no `native_decide`, no `bv_decide`.
* The reading of the Python source as the definitions in `Verif/Model`.
* Documented behaviour of numpy, sklearn, dm_env, protobuf and tensorflow as
  stated in the table above; they are not modelled further. For C136 and C137 also: the types of results in numpy 1
  and 2 (NEP 50), the check and the compensated sum in `Generator.choice`, and how CPython's `timedelta` splits and
  rounds seconds. None of these libraries is installed here.
* Library routines enter as structures with the laws used of them. Each structure
  is shown to be inhabited by a concrete instance, so no theorem is vacuous for
  want of one: `Rng` + `Rng.Lawful`, `Chooses` (`Witness.rng`), `Fair` and `FairDraws` (`Witness.streamRng` with `streamLaw`), `FairImages` (`noisyCfg`), `Patient` and `PatientWorld` (`streamWorld`), `Knn` (`Witness.knn`), `CliqueFinder`
  (`someCliques`), `Resizer` (`nearestResizer`), `Wire` (`plainWire`), `Blur` (`sharp`), `PoissonRng`
  (`countingPoisson`), `PoissonImages` (`roundingPoisson`), `Contours`
  (`pixelContours`), `FilterOps`/`ImageOps` (`calmOps`, `plainImageOps`, `driftingOps`),
  `GraphNet` (`countingNet`), `World` (`plainWorld`), `Distilling` (`twoBatches`), `PixelNoise` (`evenNoise`), `Clahe` (`clipping`), `Training` (`countingTraining`), `Sklearn` (`lastClassSk`), `FloatTrig` (`roundedTrig`), `Summation` (`inOrder`), `FloatAngle`, `FloatKnn` and `FloatLib` (`roundedLib`), `FloatDensity` (`roundedDensity`), `Loader` (`tenNumbers`), `Learner` (`remembering`), `SingleLib` (`roundedSingle`).

## 4. Not modelled

* The numbers inside neural networks: weights, gradients, initialisation, and the jax, flax and tensorflow
  runtimes. What is modelled of the networks is which inputs an output depends on and the shapes (C90, C92),
  the messages of the graph network (C106), the standardisation of inputs (C108), distillation (C107),
  how models are archived and restored (C91), the training images (C93), the learning rate schedule (C97) and
  the loss of the graph aligner (C98), with the direction of a gradient step left open, and which examples are used
  (C149). How grain reads and shuffles records is not modelled. What is put on which device is modelled (C160); how jax moves
  it there and computes with the pieces is not. How the arrays of several networks are stacked and one is
  taken out again is modelled (C161).
* The search for centres in KMeans. The classifier's features and what follows from any choice of centres are
  modelled (C94 to C96).
* cv2's contour finding and scipy's image filters, which appear as arbitrary functions with the stated laws.
* Drawing with matplotlib, file systems beyond "a path holds bytes or a list of records", threads, and float
  rounding outside protocol buffers and the computations of C136, C137, C139 to C141, C143 to C148 and C150.
* skimage's histogram equalisation, the last stage of `generate_stem_image`: only its shape and range are assumed, and
  only for images without nan. The stages before it are modelled (C77, C109).

Known imprecisions, each also stated beside the definition concerned:

* The simulator's renderer is a total function. The real one can raise for a view
  without atoms (C77_empty_view). `C77_simulator` shows that this does not happen for
  the observations a simulator returns.
* Loops that need not end (`while True` in the material, frontier propagation) take
  fuel and return `Err.diverges` when it runs out. Theorems about their results hold
  for every amount of fuel.
* Values beyond the float32 range are rounded as if larger exponents existed.

## 5. Where the code does not have the property

Each entry is a theorem with a concrete witness, or a statement for all inputs of a kind.

| id | what the code does | theorem |
|---|---|---|
| C07 | draws of exactly 0 s make `apply_control` run for ever, whatever the dwell time (the loop only ends when time passes) | C07_zero_draws_never_end |
| C23 | `reset()` clears the needs-reset flag before anything that can raise, so a failed start is never retried by `step` | C23_never_retried, C23_failed_reset_not_retried |
| C26 | `max_distance` of the material-frame adapter is never used; offsets are not bounded by it | C26_offset_not_bounded |
| C28 | with two silicons the feature constructors raise `ValueError`, and adapter and goal select silicons differently | C28_features_fail, C28_pristine_features_fail, C28_selection_differs |
| C31 | `aggregate_results([])` raises `ZeroDivisionError` | C31_empty_raises |
| C33 | image features raise `ValueError` for a lost silicon, which the microscope agent does not turn into a rescan | C33_image_features_not_rescanned |
| C34 | the logger changes behaviour for lost silicons, counts goal steps twice, numbers episodes differently from steps, and a second flush duplicates | C34_lost_silicon_raises, C34_double_count, C34_episode_numbers_wrong, C34_flush_twice_duplicates |
| C37 | the human prior turns its peak by minus the neighbour's angle, so it lies at the mirror image | C37_peak_not_towards_neighbour |
| C38 | a mixture of several components exceeds `max_rate` | C38_exceeds_max_rate |
| C44 | a bootstrap draw that contains every row raises `IndexError` | C44_bootstrap_raises |
| C49 | clique merging counts a point once for each maximal clique it is in | C49_not_counted_once |
| C50 | with a mask the drift can be nan; without iterations the bound does not hold | C50_not_a_number, C50_no_iterations |
| C51 | `naive_merge` and `align_latest` change their arguments; the default `init_shift` is shared between calls | C51_naive_merge_changes_input, C51_align_remembers, C51_filter_changes_input |
| C54 | for fields of view that are not square, rows use the scale in x | C54_not_square |
| C55 | a history length of 0 keeps a frame; accumulating aligners can exceed the length; a failed first call breaks the aligner | C55_no_history, C55_accumulate_exceeds, C55_failed_first |
| C57 | applying a drift loses the label image | C57_label_lost |
| C58 | a control without voltage or current is read back with 0 | C58_none_becomes_zero |
| C59 | label images of transitions are converted depending on the image | C59_label_lost, C59_label_missing |
| C60 | `Drift.from_proto` reads the drift into integers | C60_fraction_lost, C60_witness |
| C61 | grid equality is not reflexive, symmetric or transitive, and equal grids can have different hashes | C61_not_reflexive, C61_empty, C61_not_symmetric, C61_not_transitive, C61_hash_differs |
| C62 | the pipeline lists `*.recordio` files, which `read_records` rejects | C62_directory_unreadable |
| C63 | masks that are not square raise `IndexError` | C63_not_square |
| C65 | both detectors mix up width and height or raise when one kind of atom is missing | C65_wide_lost, C65_tall_misplaced, C65_detector_one_kind, C65_detector_phantom |
| C67 | in the last 5 ms of a second the stamp shows 100 hundredths | C67_hundred |
| C70 | the learned predictor raises in its default configuration and for ensembles, and returns raw outputs | C70_default_raises, C70_ensemble_raises, C70_not_split |
| C71 | turned synthetic examples carry the rates of another position | C71_rates_not_of_position |
| C77 | rendering a view without atoms raises `ValueError` | C77_empty_view |
| C78 | atoms are not round for fields of view that are not square | C78_not_round |
| C79 | a packaged or loaded model is used for ever, whatever is trained later; where `tf.Module` instances cannot be called, an unloaded predictor never predicts | C79_stale, C79_stale_witness, C79_first_prediction_sticks, C79_unloaded_raises |
| C80 | loading does not restore the network's state; steps saved in one directory share one model; a failed save of an ensemble leaves a checkpoint without model | C80_state_not_restored, C80_steps_share_a_model, C80_ensemble_half_saved |
| C81 | a restarted run repeats the epoch of the checkpoint it restores (`step=epoch` saved after the epoch, loop starting at that step); a machine that only ever completes one epoch per run makes no progress | C81_epoch_repeated, C81_one_epoch_lost, C81_no_progress |
| C82 | `jnp.argmax(batch['mask'])` in image_alignment/train.py has no axis: the accuracy is the share of pixels classified like the first pixel of the batch | C82_alignment_first_pixel, C82_alignment_wrong |
| C83 | (outside the property) hydrogen and helium are labelled carbon and silicon, other elements get a label without a class | C83_other_elements |
| C84 | the network is asked at the recorded position divided by 1.42; with unequal distances the outputs are numbered differently | C84_position_differs, C84_numbering_differs |
| C85 | (not against the property) without current, voltage or dwell time in the context, the members' data cannot be made at all (`None` is indexed) | C85_no_context |
| C87 | data sets of one to three frames are uploaded without observations; image stacks with a channel axis raise; a shot without a dopant raises; every field of view gets the size of the first; controls are recorded in the material frame, and read as microscope-frame positions | C87_short_lost, C87_channels_raise, C87_no_dopant_raises, C87_size_of_first, C87_control_frame |
| C88 | `with_suffix` drops what follows the last dot, `underscore` merges dashes and capitals: directories overwrite each other in the bucket | C88_suffix_lost, C88_overwritten, C88_collisions |
| C89 | parameters `a/b` and `adummy_slashb` are merged into one by saving | C89_collision |
| C90 | `cv2.bitwise_xor` works on the bits of the probabilities: away from carbon only pixels with probability exactly 1 count as silicon, inside carbon those with probability 0 do; the surroundings of carbon are displaced to the lower right and do not contain its uppermost row | C90_silicon, C90_doubt_lost, C90_phantom, C90_displaced |
| C91 | archives of the detection model contain the path of the temporary directory, so the detector never finds the model in them; a failed first attempt leaves an empty directory, and an interrupted one part of the files, which pass for the model ever after; another archive is ignored without `reload`, files of an older model stay with it; an aligner not yet used gets the model unpacked last | C91_detector_unloadable, C91_first_stays, C91_failure_sticks, C91_interruption_sticks, C91_detector_failure_sticks, C91_reload, C91_other_model |
| C96 | The sub-lattice classifier compares raw angles, which jump from 180 to -180 degrees. For a lattice with bonds along the negative x axis no pair of cluster centres puts the atoms of one sub-lattice into one class and those of the other sub-lattice into the other. | C96_fails (kept: C96_sublattices_partial) |
| C97 | `decay_steps` of optax includes the warmup, but the warmup is subtracted from it: the learning rate is zero during the last fifth of an epoch, whose batches change nothing | C97_idle (kept: C97_schedule, C97_positive_partial) |
| C98 | more padding gives the local loss less weight against the global one; the reported `local_error` counts padding like atoms; with one time step the loss is nan, since the first step does not count | C98_padding_scales, C98_error_counts_padding, C98_defined (kept: C98_masked_partial) |
| C99 | dwell times of an hour or more: where all rates are zero, the waiting time of an hour that stands for "no transition" is taken for a transition, and drawing it raises `ValueError` | C99_long_dwell_raises (kept: C99_never_fails, for dwell times below an hour) |
| C101 | `==` of mixture rate functions uses an absolute tolerance: it is not transitive, and equal functions can differ in their rates by any factor | C101_not_transitive, C101_equal_rates_differ (kept: C101_tolerance_partial) |
| C102 | The graph aligner's checkpoints name the epoch with the greatest loss as best; an epoch repeated after an interruption is never packed, though it may be the best | C102_graph_best_is_worst, C102_repeated_epoch_lost (kept: C102_detector_partial, C102_aligner_partial and the versions for uninterrupted training) |
| C104 | Four of the five greedy experiments return an action outside the declared bounds for every observation: the bounds are ±1, the actions are 1.42 Å or longer and are neither scaled nor clipped | C104_greedy_out_of_bounds, C104_which |
| C106 | A neighbour list that is too short drops pairs silently, so the order of the points matters. The list is made with the current positions for reference and updated with the same positions and threshold 0; if an update without movement does nothing, as in jax_md, all edges join the first point with itself and the predictions do not depend on the positions. | C106_overflow, C106_blind (kept: C106_order_partial, C106_places) |
| C107 | With input normalisation, which is on by default, a student whose losses are all zero can predict other rates than the ensemble at the very contexts it was judged at: it is judged in training mode. | C107_modes_differ (kept: C107_predictions_partial) |
| C109 | If the Poisson draw counts no electron in any pixel, the image is 0/0 everywhere and no stage notices: the last stage gets nan only and the result does not depend on the sample. | C109_no_electrons (kept: C109_image_partial) |
| C111 | Unpacking an agent that is interrupted after a file leaves a directory that every later call takes for the agent; it is never downloaded again. | C111_interruption_sticks |
| C112 | Reported train and test losses leave out the configured loss weights; and the dropout key is the same for all batches of an epoch. | C112_weights_ignored, C112_one_dropout |
| C113 | A sheet with two silicon atoms is plotted instead of raising the documented ValueError, and the picture shows the rates of one about the place of the other. | C113_two_silicons |
| C114 | Of the seven learners of the training script only forests, nearest neighbours and Gaussian processes can give rates, and a single or distilled rate network with contexts can be saved: `svm` has no probabilities, `sklearn_mlp` is refused by scikit-learn, `classification_network` cannot be traced when saving. When a member never saw one of the states, fewer than three rates come out, and members that missed different states have probabilities of different neighbours averaged together without an error. | C114_svm, C114_refused, C114_unsaved, C114_no_context, C114_unseen_state, C114_mixed |
| C115 | With fixed contexts, a number of points that is no square raises ValueError, although the grid is rounded down to a square without them; fewer than four points always raise. | C115_not_square, C115_few_points |
| C117 | `render` asks for the second row of the beam position, an array of shape (1, 2) (the video code flattens it, `render` does not): after every step within an episode, whatever the environment and the action, rendering raises IndexError. The test of `render` only renders after a reset | ['C117_after_step', 'C117_only_first'] |
| C119 | the path of the second picture joins the working directory twice: with a relative working directory other than `.` the script ends with FileNotFoundError before any training, unless the directory is there twice. For every learner but the rate network the dwell times are overwritten with ones before the pictures are drawn, so every dot is fully opaque. If all dwell times are zero, the opacities are nan and drawing raises ValueError, so no rate network is trained | ['C119_relative', 'C119_other_learners', 'C119_no_dwell_times'] |
| C120 | `plot_transition` takes the height of the image, an integer, and later indexes it like a shape: the first kept transition ends the script with TypeError, after the directory of its class is made and before its picture is written. With the option nothing is ever trained | ['C120_type_error', 'C120_never_trains'] |
| C124 | at the first pair with an image but no label image the program ends with ValueError, the target's old contents are lost and only the transitions before the pair are there; simulated observations never have label images, so a simulated experiment with images gives an empty file. The program never sets previous_controls_at_current_timestep, so for simulated experiments the first transition has no controls and each other one those of the step before | ['C124_unlabelled', 'C124_simulator_images', 'C124_simulator_controls'] |
| C125 | `RelativeToSiliconMaterialFrameActionAdapter` inherits the bounds [-1, 1], which mean angstroms there, and never uses `max_distance_angstroms`. With actions within the declared bounds it cannot aim at a neighbour of the silicon, one bond (1.42 angstroms) away along an axis, although the maximal distance is one bond by default and two bonds in the shipped experiments. | `C125_material_short`, `C125_material_neighbour_missed` |
| C126 | `batched_loss_fn` clips the probability of staying to at most 1 - 1e-6. Where the silicon leaves with a probability of at most one in a million per exposure, the average loss decreases all the way as the predicted rate goes to zero, so such rates are not learned. | `C126_rare` |
| C129 | the label of an exposure is read from the sheets before and after it, so going away and back counts as staying; whenever the silicon can return, staying is found more often than the loss assumes | C129_back_and_forth |
| C136 | With numpy 2, `apply_control` with a `GaussianMixtureRateFunction` can raise `ValueError: probabilities do not sum to 1`. The rates are float64 scalars. They are cast to float32, but divided by the float64 total, and since numpy 2 (NEP 50) the quotient is float64, so that `rng.choice` tolerates an error of only 2^-26, while casting changes rates by up to 2^-24. With numpy 1 the quotient is float32 and the tolerance 2^-11.5. A single Gaussian centred on the silicon with `max_rate` 1/2 + 2^-26, and the beam on the silicon, is refused on every sheet. | `C136_newer_numpy`, `C136_refused`, `C136_mixture_fails` |
| C137 | With numpy 2, a relative adapter with a range of dwell times raises `TypeError` for every action of type float32, the type its `action_spec` asks for. The third entry of the action is a `np.float32`; since numpy 2 its product with a python float stays `np.float32`, which `dt.timedelta(seconds=…)` does not accept (a `np.float64`, which numpy 1 makes of it, is a python float). The registered experiments with such a range and a network that returns float32 actions are `ppo_learned_tf_2s` and its like. | `C137_refused` |
| C145 | With numpy 2, `step_and_image` and `apply_control` can raise `ValueError: probabilities do not sum to 1` at the time of a transition, with a `GaussianMixtureRateFunction` as it is sampled, on every sheet (see C136). The sheet stays as it was, and no observer is told. | C145_mixture_raises |
| C147 | With numpy 2 and float32 actions, an environment with `RelativeToSiliconActionAdapter` and a range of dwell times resets, but every step raises TypeError. | `C147_refused` |
| C149 | Graph alignment reads batches of 16 and the detector batches of 128 whatever batch size is configured, while the number of batches is computed from the configured one: by default an epoch of graph alignment uses an eighth of the examples. After an interruption the data set is read from its beginning. | `C149_graph_eighth`, `C149_other_batch`, `C149_beginning`, `C149_never_seen` |
